import Verif.Mocked.Model

/-!
# Specification of a mocked function

A mocked function is the list of all expectations registered since the last reset and the number of
calls since then. The k-th call (counting from 0) is served by the k-th expectation.
-/

namespace EasyMock

structure AMock (δ : Type) where
  exps : List δ
  calls : Nat

namespace AMock
variable {δ : Type}

def fresh : AMock δ := ⟨[], 0⟩

def expect (a : AMock δ) (d : δ) : AMock δ := { a with exps := a.exps ++ [d] }

/-- The expectation that serves the next call, if there is one. -/
def serving (a : AMock δ) : Option δ := a.exps[a.calls]?

def call (a : AMock δ) : AMock δ := { a with calls := a.calls + 1 }

end AMock

end EasyMock
