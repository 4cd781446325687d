import Verif.Emit.Spec

/-!
# The programs for which the generated type declarations are proved valid

Vocabulary of the statement: which types occur in the mocked functions, and what is required of them.
-/

namespace EasyMock.Emit

open EasyMock.Types

/-- The types of the members which are not bit-fields. -/
def fieldTypes : Fields → List Ty
  | .nil => []
  | .field _ t _ _ rest => t :: fieldTypes rest
  | .bit _ _ _ _ rest => fieldTypes rest

/-- The types of the bit-fields. -/
def bitTypes : Fields → List Ty
  | .nil => []
  | .field _ _ _ _ rest => bitTypes rest
  | .bit _ t _ _ rest => t :: bitTypes rest

/-- The types of the parameters. -/
def paramTypes : Params → List Ty
  | .nil => []
  | .cons _ t _ rest => t :: paramTypes rest

/-- The types directly inside a type. -/
def children : Ty → List Ty
  | .ptr _ t => [t]
  | .ref _ t => [t]
  | .const _ t => [t]
  | .tdef _ _ t => [t]
  | .comp _ _ _ fs _ _ _ => fieldTypes fs ++ bitTypes fs
  | .fn _ _ _ r ps => r :: paramTypes ps
  | _ => []

/-- An enclosing type: inside the body of `struct X` the parser represents `struct X` by an `IncompleteType`. -/
def enclosing : Ty → Bool
  | .incomplete .. => true
  | .const _ (.incomplete ..) => true
  | _ => false

/-- No member has an enclosing type as type. -/
def whole (fs : Fields) : Bool := !(fieldTypes fs).any enclosing && !(bitTypes fs).any enclosing

theorem isComplete_eq (fs : Fields) : isComplete fs = whole fs := by
  have key : ∀ t, (attrs (unqualified t)).incomplete = enclosing t := by
    intro t
    cases t with
    | const i t => cases t <;> first | rfl | (rename_i kw _ _ _ _ _; cases kw <;> rfl)
    | comp i kw n fs emb fwd ms => cases kw <;> rfl
    | _ => rfl
  suffices h : (isComplete fs = true ↔ whole fs = true) by
    cases hc : isComplete fs <;> cases hw : whole fs <;> simp_all
  unfold whole
  induction fs using isComplete.induct with
  | case1 => simp [isComplete, fieldTypes, bitTypes]
  | case2 c t n a rest ih =>
    simp only [isComplete, fieldTypes, bitTypes, List.any_cons, Bool.and_eq_true, Bool.not_eq_true', Bool.or_eq_false_iff,
      key] at ih ⊢
    rw [ih]; exact ⟨fun h => ⟨⟨h.1, h.2.1⟩, h.2.2⟩, fun h => ⟨h.1.1, h.1.2, h.2⟩⟩
  | case3 c t n a rest ih =>
    simp only [isComplete, fieldTypes, bitTypes, List.any_cons, Bool.and_eq_true, Bool.not_eq_true', Bool.or_eq_false_iff,
      key] at ih ⊢
    rw [ih]; exact ⟨fun h => ⟨h.2.1, h.1, h.2.2⟩, fun h => ⟨h.2.1, h.1, h.2.2⟩⟩

/-- A member has an enclosing type as type: `struct X` in the body of `struct Y` in the body of `struct X`. -/
def isLate : Ty → Bool
  | .comp _ _ _ fs _ _ _ => !whole fs
  | _ => false

/-- The types which occur in the functions; the flag says whether the type is inside one which contains an enclosing
    type by value. -/
inductive Occ (fs : List FunDecl) : Bool → Ty → Prop
  | ret {f : FunDecl} (h : f ∈ fs) : Occ fs false f.ret
  | param {f : FunDecl} {t : Ty} (h : f ∈ fs) (ht : t ∈ paramTypes f.params) : Occ fs false t
  | child {b : Bool} {t u : Ty} (h : Occ fs b t) (hu : u ∈ children t) : Occ fs (b || isLate t) u

/-- The keyword and the name of a composite type. -/
def tagged : Ty → Option (Kw × String)
  | .comp _ kw n _ _ _ _ => some (kw, n)
  | .incomplete _ k n => some (k, n)
  | _ => none

/-- A member may have this type: composite types are defined, and `outer` are the enclosing types which may occur
    by value. -/
def byValue (outer : Kw × String → Prop) : Ty → Prop
  | .const _ t => byValue outer t
  | .tdef _ _ t => byValue outer t
  | .comp _ _ _ fs _ fwd _ => fwd = false ∧ whole fs = true
  | .incomplete _ k n => outer (k, n)
  | .fn .. => False
  | .ref .. => False
  | _ => True

/-- A bit-field may have this type. -/
def bitOk : Ty → Bool
  | .ctype .. => true
  | .const _ (.ctype ..) => true
  | .enum .. => true
  | .tdef _ _ (.ctype ..) => true
  | .tdef _ _ (.const _ (.ctype ..)) => true
  | _ => false

mutual
/-- A typedef may stand for this type: it mentions no typedef and no enumeration. -/
def simple : Ty → Bool
  | .ctype .. => true
  | .ptr _ t => simple t
  | .const _ t => simple t
  | .comp .. => true
  | .incomplete .. => true
  | .fn _ _ _ r ps => simple r && simpleParams ps
  | _ => false

def simpleParams : Params → Bool
  | .nil => true
  | .cons _ t _ rest => simple t && simpleParams rest
end

/-- A parameter of a function type may have this type: an anonymous composite type has a typedef. -/
def named : Ty → Bool
  | .ptr _ t => named t
  | .ref _ t => named t
  | .const _ t => named t
  | .comp _ _ n _ _ _ _ => !n.isEmpty
  | .fn _ _ _ r _ => named r
  | _ => true

/-- What is required of a type which occurs. -/
def fine : Ty → Prop
  | .ref .. => False
  | .enum _ _ vs => vs ≠ []
  | .incomplete _ _ n => n ≠ ""
  | .tdef _ _ t => simple t = true
  | .comp _ _ _ fs _ fwd _ =>
    (fwd = true → fieldTypes fs = [] ∧ bitTypes fs = []) ∧
    (whole fs = true → ∀ t ∈ fieldTypes fs, byValue (fun _ => False) t) ∧ ∀ t ∈ bitTypes fs, bitOk t = true
  | .fn _ _ _ _ ps => ∀ t ∈ paramTypes ps, named t = true
  | _ => True

/-- What is declared. -/
inductive Label where
  | fwd (kw : Kw) (name : String)
  | td (name : String)
  | en (name : String)
  | comp (kw : Kw) (tag : String)
  deriving DecidableEq

section
variable {H : Type} (e : Env H)

/-- The guard of a composite type is made of its keyword and its name; of an anonymous one, of a typedef of it or of
    the generated name. -/
inductive CompGuard (Q : Ty → Prop) : Ty → String → Prop
  | named {t : Ty} {kw : Kw} {n : String} (h : tagged t = some (kw, n)) (hn : n ≠ "") : CompGuard Q t (kw.str ++ n)
  | typedef {t : Ty} {kw : Kw} {i : Bool} {n : String} (h : tagged t = some (kw, "")) (hq : Q (.tdef i n t)) :
      CompGuard Q t (kw.str ++ n)
  | anon {t : Ty} {kw : Kw} (h : tagged t = some (kw, "")) : CompGuard Q t (kw.str ++ e.anon t)

/-- The macros which may guard a declaration. -/
inductive Guards (Q : Ty → Prop) : String → Label → Prop
  | fwd {t : Ty} {kw : Kw} {n : String} (hq : Q t) (h : tagged t = some (kw, n)) :
      Guards Q ("EASYMOCK_" ++ kw.str ++ "_" ++ n ++ "_FORWARD_GENERATED") (.fwd kw n)
  | td {i : Bool} {n : String} {t : Ty} (hq : Q (.tdef i n t)) : Guards Q ("EASYMOCK_" ++ n ++ "_GENERATED") (.td n)
  | en {i : Bool} {n : String} {vs : List (Nat × String)} (hq : Q (.enum i n vs)) :
      Guards Q ("EASYMOCK_" ++ tagOf e (.enum i n vs) ++ "_GENERATED") (.en (tagOf e (.enum i n vs)))
  | comp {i : Bool} {kw : Kw} {n : String} {fs : Fields} {emb fwd : Bool} {ms : Methods} {g : String}
      (hq : Q (.comp i kw n fs emb fwd ms)) (hg : CompGuard e Q (.comp i kw n fs emb fwd ms) g) :
      Guards Q ("EASYMOCK_" ++ g ++ "_GENERATED") (.comp kw (tagOf e (.comp i kw n fs emb fwd ms)))

/-- What is required of a set of types. -/
structure World (Q : Ty → Prop) : Prop where
  /-- no collision of hashes -/
  hash : ∀ t u, Q t → Q u → e.hash t = e.hash u → t = u
  /-- generated names are not empty -/
  anon : ∀ t, Q t → e.anon t ≠ ""
  /-- the generated tag of an anonymous type is the tag of no other type -/
  tags : ∀ t u kw kw', Q t → Q u → tagged t = some (kw, "") → tagged u = some (kw', (attrs u).name) →
    tagOf e t = tagOf e u → t = u
  /-- a macro guards declarations of one entity only -/
  guards : ∀ m l l', Guards e Q m l → Guards e Q m l' → l = l'

/-- What is required of the functions. -/
structure Clean (fs : List FunDecl) : Prop where
  world : World e (fun t => ∃ b, Occ fs b t)
  fine : ∀ b t, Occ fs b t → fine t
  /-- inside a type which contains an enclosing type by value there is no other such type -/
  inner : ∀ t, Occ fs true t → isLate t = false
  /-- the enclosing types which are contained by value are defined -/
  outer : ∀ i kw n fls emb fwd ms, Occ fs false (.comp i kw n fls emb fwd ms) → whole fls = false →
    fwd = false ∧ ∀ u ∈ fieldTypes fls, byValue (fun x => ∃ i' fls' emb' ms', x.2 ≠ "" ∧ whole fls' = true ∧
      Occ fs false (.comp i' x.1 x.2 fls' emb' false ms')) u

end

end EasyMock.Emit
