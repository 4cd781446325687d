/-!
# Outcomes of C code

Undefined behaviour and process termination are outcomes of their own, so that a theorem about a
normal result also says that neither happened.
-/

namespace EasyMock

/-- Outcome of running a piece of C/C++ code: a normal result, a call to `exit(1)`, or undefined
behaviour (out-of-bounds access, use after free, use of an indeterminate value, ...). -/
inductive Res (α : Type) where
  | ok (a : α)
  | exit
  | ub
  deriving DecidableEq, Repr

namespace Res

/-- Sequencing: `exit` and `ub` stop the execution. -/
def bind {α β : Type} (x : Res α) (f : α → Res β) : Res β :=
  match x with
  | ok a => f a
  | exit => exit
  | ub => ub

def map {α β : Type} (f : α → β) (x : Res α) : Res β := x.bind (fun a => ok (f a))

instance : Monad Res where
  pure := ok
  bind := bind

@[simp] theorem bind_ok {α β : Type} (a : α) (f : α → Res β) : (ok a >>= f) = f a := rfl
@[simp] theorem bind_exit {α β : Type} (f : α → Res β) : ((exit : Res α) >>= f) = exit := rfl
@[simp] theorem bind_ub {α β : Type} (f : α → Res β) : ((ub : Res α) >>= f) = ub := rfl
@[simp] theorem pure_eq {α : Type} (a : α) : (pure a : Res α) = ok a := rfl

end Res

end EasyMock
