import Verif.Parser.TypesSpec
import Verif.StructCmp.Model

/-! # StructCmp: equal objects of a type of the program

The same as `Spec.lean`, but read off the declarations of the mocked header (clang's types) and not off the types which the
generator makes of them; nothing here refers to the generator. -/

namespace EasyMock.StructCmp

open EasyMock.Parser (CTy Q Decls FieldD)

/-- Numbers, enumerations and addresses: objects without parts. -/
def IsScalar : CTy → Prop
  | .builtin _ | .ptr _ | .enum _ => True
  | _ => False

/-- An array in which nothing can be compared: its size is zero or unknown (C11 6.7.2.1p18). -/
def NoElements : CTy → Prop
  | .arr none _ | .arr (some 0) _ => True
  | _ => False

/-- The members of a record which are compared: all of them, but none if the option `--ignore-field-generation-of` names the record. -/
def compared (D : Decls) (id : Nat) : List FieldD := if (D.records id).tag ∈ D.ignored then [] else (D.records id).fields

mutual
/-- The value has the shape of an object of the canonical type `c`. -/
inductive FitsC {S : Type} (D : Decls) : CTy → Val S → Prop
  | scalar {c a} : IsScalar c → FitsC D c (.scalar a)
  | record {id g} : FitsMs D (compared D id) g → FitsC D (.record id) (.comp g)
  | array {n q g} : (∀ i, i < n → FitsC D q.ty.canon (g i)) → FitsC D (.arr (some n) q) (.arr n g)

/-- The same for the members of a record: the members of an unnamed record are members of the record around it. -/
inductive FitsMs {S : Type} (D : Decls) : List FieldD → (String → Option (Val S)) → Prop
  | nil {g} : FitsMs D [] g
  | empty {f fs g} : f.bits = none → NoElements f.q.ty.canon → FitsMs D fs g → FitsMs D (f :: fs) g
  | named {f fs g v} : f.bits = none → ¬ NoElements f.q.ty.canon → f.name ≠ "" → g f.name = some v →
      FitsC D f.q.ty.canon v → FitsMs D fs g → FitsMs D (f :: fs) g
  | anonymous {f fs g id} : f.bits = none → f.name = "" → f.q.ty.canon = .record id →
      FitsC D (.record id) (.comp g) → FitsMs D fs g → FitsMs D (f :: fs) g
  | bit {f fs g w a} : f.bits = some w → f.name ≠ "" → g f.name = some (.scalar a) → FitsMs D fs g → FitsMs D (f :: fs) g
  | pad {f fs g w} : f.bits = some w → f.name = "" → FitsMs D fs g → FitsMs D (f :: fs) g
end

mutual
/-- Two objects of the canonical type `c` are equal; `neq` is `!=` on scalars. -/
inductive SameC {S : Type} (D : Decls) (neq : S → S → Bool) : CTy → Val S → Val S → Prop
  | scalar {c a b} : IsScalar c → neq a b = false → SameC D neq c (.scalar a) (.scalar b)
  | record {id c e} : SameMs D neq (compared D id) c e → SameC D neq (.record id) (.comp c) (.comp e)
  | array {n q c e} : (∀ i, i < n → SameC D neq q.ty.canon (c i) (e i)) → SameC D neq (.arr (some n) q) (.arr n c) (.arr n e)

/-- All members are equal; arrays without elements and unnamed bit-fields are nothing to compare. -/
inductive SameMs {S : Type} (D : Decls) (neq : S → S → Bool) :
    List FieldD → (String → Option (Val S)) → (String → Option (Val S)) → Prop
  | nil {c e} : SameMs D neq [] c e
  | empty {f fs c e} : f.bits = none → NoElements f.q.ty.canon → SameMs D neq fs c e → SameMs D neq (f :: fs) c e
  | named {f fs c e v w} : f.bits = none → ¬ NoElements f.q.ty.canon → f.name ≠ "" → c f.name = some v → e f.name = some w →
      SameC D neq f.q.ty.canon v w → SameMs D neq fs c e → SameMs D neq (f :: fs) c e
  | anonymous {f fs c e id} : f.bits = none → f.name = "" → f.q.ty.canon = .record id →
      SameC D neq (.record id) (.comp c) (.comp e) → SameMs D neq fs c e → SameMs D neq (f :: fs) c e
  | bit {f fs c e n a b} : f.bits = some n → f.name ≠ "" → c f.name = some (.scalar a) → e f.name = some (.scalar b) →
      neq a b = false → SameMs D neq fs c e → SameMs D neq (f :: fs) c e
  | pad {f fs c e n} : f.bits = some n → f.name = "" → SameMs D neq fs c e → SameMs D neq (f :: fs) c e
end

/-- Behind pointers and references, `c` is the record `id`. -/
inductive Behind : CTy → Nat → Prop
  | record {id} : Behind (.record id) id
  | ptr {q id} : Behind q.ty.canon id → Behind (.ptr q) id
  | ref {q id} : Behind q.ty.canon id → Behind (.ref q) id

/-- No member is an array of arrays. -/
def NoMatrix (D : Decls) : Prop :=
  ∀ id, ∀ f ∈ (D.records id).fields, ∀ n q m q', f.q.ty.canon = .arr n q → q.ty.canon ≠ .arr m q'

end EasyMock.StructCmp
