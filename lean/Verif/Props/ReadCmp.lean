import Verif.Props.ProgCmp
import Verif.StructCmp.ReadModel

/-! # C98: what comparators read -/

namespace EasyMock.StructCmp

open EasyMock.Types
open EasyMock.Parser (CTy Q Decls FieldD)

/-! ### Specification -/

/-- All scalars of an object, in its arrays and members too, satisfy `P`. -/
inductive AllScalars {S : Type} (P : S → Prop) : Val S → Prop
  | scalar {a} : P a → AllScalars P (.scalar a)
  | arr {n g} : (∀ i, i < n → AllScalars P (g i)) → AllScalars P (.arr n g)
  | comp {g} : (∀ f v, g f = some v → AllScalars P v) → AllScalars P (.comp g)

/-- Nothing of the object can be read: the pointer to it is null. -/
abbrev Unreadable {S : Type} (v : Val (Option S)) : Prop := AllScalars (fun a => a = none) v

/-- All of the object can be read. -/
abbrev Readable {S : Type} (v : Val (Option S)) : Prop := AllScalars (fun a => ∃ x, a = some x) v

mutual
/-- The object with the scalars changed by `f`. -/
def Val.map {S T : Type} (f : S → T) : Val S → Val T
  | .scalar a => .scalar (f a)
  | .arr n g => .arr n fun i => (g i).map f
  | .comp g => .comp fun x => Val.mapO f (g x)

/-- The same for what may be a member. -/
def Val.mapO {S T : Type} (f : S → T) : Option (Val S) → Option (Val T)
  | none => none
  | some v => some (v.map f)
end

/-- An object of the type `c` has a scalar that is compared. -/
inductive HasScalar (D : Decls) : CTy → Prop
  | scalar {c} : IsScalar c → HasScalar D c
  | array {n q} : 0 < n → HasScalar D q.ty.canon → HasScalar D (.arr (some n) q)
  | record {id f} : f ∈ compared D id → f.bits = none → HasScalar D f.q.ty.canon → HasScalar D (.record id)
  | bit {id f n} : f ∈ compared D id → f.bits = some n → f.name ≠ "" → HasScalar D (.record id)

/-- Where the compiler puts the members: in the first `size` bytes.  What lies in bytes that can be read can be read, and what
    lies in bytes of which none can be read cannot be read. -/
structure Located {S : Type} (L : Layout (Option S)) (id size : Nat) : Prop where
  readable : ∀ g : Nat → Option UInt8, (∀ i, i < size → ∃ b, g i = some b) → Readable (L id g)
  unreadable : ∀ g : Nat → Option UInt8, (∀ i, i < size → g i = none) → Unreadable (L id g)

/-- The address a pointer with these bytes stands for, little endian. -/
def address (b : List UInt8) : Nat := b.foldr (fun x a => x.toNat + 256 * a) 0

/-! ### Lemmas -/

theorem address_eq (b : List UInt8) : Matcher.loadU b = address b := by
  induction b with
  | nil => rfl
  | cons x b ih => rw [Matcher.loadU, ih]; rfl

theorem AllScalars.follow {S : Type} {P : S → Prop} : ∀ (path : Path) {v : Val S} {a : S}, AllScalars P v → v.follow path = some (.scalar a) → P a
  | [], _, _, h, e => by
    rw [Val.follow] at e
    injection e with e
    subst e
    cases h with
    | scalar h => exact h
  | (f, none) :: path, _, _, h, e => by
    rw [Val.follow] at e
    cases h with
    | scalar h => simp [Val.member] at e
    | arr h => simp [Val.member] at e
    | @comp g h =>
      rw [Val.member] at e
      cases hg : g f with
      | none => rw [hg] at e; simp at e
      | some u =>
        rw [hg] at e
        exact (h f u hg).follow path e
  | (f, some i) :: path, _, _, h, e => by
    rw [Val.follow] at e
    cases h with
    | scalar h => simp [Val.member] at e
    | arr h => simp [Val.member] at e
    | @comp g h =>
      rw [Val.member] at e
      cases hg : g f with
      | none => rw [hg] at e; simp at e
      | some u =>
        rw [hg] at e
        have hu := h f u hg
        cases hu with
        | scalar => simp at e
        | comp => simp at e
        | @arr n k hk =>
          simp only at e
          split at e
          · next hi => exact (hk i hi).follow path e
          · simp at e

theorem stops_false {S : Type} {neq : S → S → Bool} {a b : Option S} (h : stops neq a b = false) : ∃ x y, a = some x ∧ b = some y ∧ neq x y = false := by
  cases a <;> cases b <;> first | exact ⟨_, _, rfl, rfl, h⟩ | (simp [stops] at h)

theorem sameMs_mem {S : Type} {D : Decls} {neq : S → S → Bool} {f : FieldD} : ∀ {fs : List FieldD} {c e : String → Option (Val S)}, f ∈ fs →
    SameMs D neq fs c e → f.bits = none → ¬ NoElements f.q.ty.canon →
    (∃ v w, c f.name = some v ∧ e f.name = some w ∧ SameC D neq f.q.ty.canon v w) ∨ SameC D neq f.q.ty.canon (.comp c) (.comp e) := by
  intro fs
  induction fs with
  | nil => intro c e h; simp at h
  | cons x fs ih =>
    intro c e h s hb hne
    rcases List.mem_cons.1 h with rfl | h
    · cases s with
      | empty _ h' => exact absurd h' hne
      | named _ _ _ hc he hs => exact .inl ⟨_, _, hc, he, hs⟩
      | anonymous _ _ hr hs => exact .inr (hr ▸ hs)
      | bit hb' => rw [hb] at hb'; simp at hb'
      | pad hb' => rw [hb] at hb'; simp at hb'
    · cases s with
      | empty _ _ s => exact ih h s hb hne
      | named _ _ _ _ _ _ s => exact ih h s hb hne
      | anonymous _ _ _ _ s => exact ih h s hb hne
      | bit _ _ _ _ _ s => exact ih h s hb hne
      | pad _ _ s => exact ih h s hb hne

theorem sameMs_bit {S : Type} {D : Decls} {neq : S → S → Bool} {f : FieldD} {n : Nat} : ∀ {fs : List FieldD} {c e : String → Option (Val S)}, f ∈ fs →
    SameMs D neq fs c e → f.bits = some n → f.name ≠ "" →
    ∃ a b, c f.name = some (.scalar a) ∧ e f.name = some (.scalar b) ∧ neq a b = false := by
  intro fs
  induction fs with
  | nil => intro c e h; simp at h
  | cons x fs ih =>
    intro c e h s hb hne
    rcases List.mem_cons.1 h with rfl | h
    · cases s with
      | empty h' => rw [hb] at h'; simp at h'
      | named h' => rw [hb] at h'; simp at h'
      | anonymous h' => rw [hb] at h'; simp at h'
      | bit _ _ hc he hs => exact ⟨_, _, hc, he, hs⟩
      | pad _ h' => exact absurd h' hne
    · cases s with
      | empty _ _ s => exact ih h s hb hne
      | named _ _ _ _ _ _ s => exact ih h s hb hne
      | anonymous _ _ _ _ s => exact ih h s hb hne
      | bit _ _ _ _ _ s => exact ih h s hb hne
      | pad _ _ s => exact ih h s hb hne

/-- No object with a scalar is equal to one that cannot be read. -/
theorem not_same {S : Type} {D : Decls} {neq : S → S → Bool} {c : CTy} (hs : HasScalar D c) : ∀ {v w : Val (Option S)}, Unreadable v ∨ Unreadable w →
    ¬ SameC D (stops neq) c v w := by
  induction hs with
  | scalar hc =>
    intro v w hu h
    cases h with
    | scalar _ hn =>
      obtain ⟨x, y, rfl, rfl, _⟩ := stops_false hn
      rcases hu with hu | hu <;> (cases hu with | scalar h => simp at h)
    | record => exact hc
    | array => exact hc
  | array hn _ ih =>
    intro v w hu h
    cases h with
    | scalar hc => exact hc
    | array h =>
      refine ih ?_ (h 0 hn)
      rcases hu with hu | hu
      · cases hu with | arr hu => exact .inl (hu 0 hn)
      · cases hu with | arr hu => exact .inr (hu 0 hn)
  | @record id f hf hb hsc ih =>
    intro v w hu h
    cases h with
    | scalar hc => exact hc
    | record h =>
      have hne : ¬ NoElements f.q.ty.canon := by
        intro h'
        generalize f.q.ty.canon = c at hsc h'
        cases hsc with
        | scalar hc => cases c <;> first | exact hc | exact h'
        | @array n q hn _ => obtain ⟨k, rfl⟩ : ∃ k, n = k + 1 := ⟨n - 1, by omega⟩; exact h'
        | record => exact h'
        | bit => exact h'
      rcases sameMs_mem hf h hb hne with ⟨v, w, hv, hw, s⟩ | s
      · refine ih ?_ s
        rcases hu with hu | hu
        · cases hu with | comp hu => exact .inl (hu _ _ hv)
        · cases hu with | comp hu => exact .inr (hu _ _ hw)
      · exact ih hu s
  | bit hf hb hne =>
    intro v w hu h
    cases h with
    | scalar hc => exact hc
    | record h =>
      obtain ⟨a, b, ha, hb', hn⟩ := sameMs_bit hf h hb hne
      obtain ⟨x, y, rfl, rfl, _⟩ := stops_false hn
      rcases hu with hu | hu
      · cases hu with
        | comp hu => cases hu _ _ ha with | scalar h => simp at h
      · cases hu with
        | comp hu => cases hu _ _ hb' with | scalar h => simp at h

/-! ### Objects which can be read -/

/-- A result with the values of the report changed by `f`. -/
def Out.map {S T : Type} (f : S → T) : Out S → Out T
  | .equal => .equal
  | .diff a o fm r => .diff a o fm { param := r.param, field := r.field, idx := r.idx, cur := f r.cur, exp := f r.exp }
  | .unlinked n => .unlinked n
  | .confused => .confused
  | .unfinished => .unfinished

theorem member_map {S T : Type} (f : S → T) (v : Val S) (x : String) : (v.map f).member x = Val.mapO f (v.member x) := by
  cases v with
  | scalar => simp [Val.map, Val.member, Val.mapO]
  | arr => simp [Val.map, Val.member, Val.mapO]
  | comp g => simp [Val.map, Val.member]

section
variable {S T : Type} {f : S → T} {neq : S → S → Bool} {neq' : T → T → Bool} (hf : ∀ a b, neq' (f a) (f b) = neq a b)
include hf

theorem evalNeq_map (art o : String) (fm : Option String) (p x : String) (i : Option Nat) (v w : Val S) :
    evalNeq neq' art o fm p x i (v.map f) (w.map f) = (evalNeq neq art o fm p x i v w).map f := by
  cases v <;> cases w <;> simp only [Val.map, evalNeq, Out.map]
  rw [hf]
  split <;> rfl

omit hf in
theorem evalLoop_map {b : Nat → Out S} {b' : Nat → Out T} (h : ∀ i, b' i = (b i).map f) : ∀ n i, evalLoop b' i n = (evalLoop b i n).map f := by
  intro n
  induction n with
  | zero => intro i; rfl
  | succ n ih =>
    intro i
    rw [evalLoop, evalLoop, h]
    cases hb : b i <;> simp only [Out.map]
    exact ih _

theorem evalAction_map {callee : String → Val S → Val S → String → Out S} {callee' : String → Val T → Val T → String → Out T}
    (hc : ∀ n v w p, callee' n (v.map f) (w.map f) p = (callee n v w p).map f) (art p x : String) (i : Option Nat) (v w : Val S) (a : Action) :
    evalAction neq' callee' art p x i (v.map f) (w.map f) a = (evalAction neq callee art p x i v w a).map f := by
  cases a with
  | neq o fm c => exact evalNeq_map hf ..
  | call n => exact hc ..

theorem evalCheck_map {callee : String → Val S → Val S → String → Out S} {callee' : String → Val T → Val T → String → Out T}
    (hc : ∀ n v w p, callee' n (v.map f) (w.map f) p = (callee n v w p).map f) (art p : String) (v w : Val S) (k : Check) :
    evalCheck neq' callee' art p (v.map f) (w.map f) k = (evalCheck neq callee art p v w k).map f := by
  rw [evalCheck, evalCheck, member_map, member_map]
  cases v.member k.field with
  | none => rfl
  | some a =>
    cases w.member k.field with
    | none => rfl
    | some b =>
      simp only [Val.mapO]
      split
      · cases a <;> cases b <;> simp only [Val.map, Out.map]
        exact evalLoop_map (fun i => evalAction_map hf hc ..) _ _
      · exact evalAction_map hf hc ..

theorem evalChecks_map {callee : String → Val S → Val S → String → Out S} {callee' : String → Val T → Val T → String → Out T}
    (hc : ∀ n v w p, callee' n (v.map f) (w.map f) p = (callee n v w p).map f) (art p : String) (v w : Val S) : ∀ ks,
    evalChecks neq' callee' art p (v.map f) (w.map f) ks = (evalChecks neq callee art p v w ks).map f
  | [] => rfl
  | k :: ks => by
    rw [evalChecks, evalChecks, evalCheck_map hf hc]
    cases evalCheck neq callee art p v w k <;> simp only [Out.map]
    exact evalChecks_map hc art p v w ks

theorem run_map (prog : List Comparator) : ∀ (depth : Nat) (n : String) (v w : Val S) (p : String),
    run prog neq' depth n (v.map f) (w.map f) p = (run prog neq depth n v w p).map f
  | 0, _, _, _, _ => rfl
  | depth + 1, n, v, w, p => by
    rw [run, run]
    cases prog.find? (fun k => k.name == n) with
    | none => rfl
    | some k => exact evalChecks_map hf (run_map prog depth) ..

end

/-! ### Theorems -/

/-- C98: with objects that can be read, the comparator is the one of C95 (and C96), whatever the objects are. -/
theorem C98_readable {S : Type} (prog : List Comparator) (neq : S → S → Bool) (shown : Option String → S → String) (depth : Nat) (N : String)
    (v w : Val S) (p : String) :
    readCmp prog neq shown depth N (v.map some) (w.map some) p = .ok (match run prog neq depth N v w p with
      | .equal => none
      | .diff a o f r => some (message shown a o f r)
      | .unlinked _ | .confused | .unfinished => some "") := by
  rw [readCmp, run_map (f := some) (neq := neq) (neq' := stops neq) (fun _ _ => rfl)]
  cases run prog neq depth N v w p <;> rfl

/-- C98: a comparator of a program of C95 reads nothing but members which both objects have, and it accepts exactly if all compared
    members can be read and are equal; when it is undefined, a member of one of the objects could not be read.  So it is
    defined for objects that can be read. -/
theorem C98_reads_partial {D : Decls} {id : Nat} {prog : List Comparator} {N : String} (h : Decides D id prog N) {S : Type} (neq : S → S → Bool) :
    ∃ k, ∀ depth, k ≤ depth → ∀ (shown : Option String → S → String) (v w : Val (Option S)) (p : String),
      FitsC D (.record id) v → FitsC D (.record id) w →
      (readCmp prog neq shown depth N v w p = .ok none ↔
        SameC D (fun a b => !((a.bind fun x => b.map fun y => !neq x y).getD false)) (.record id) v w) ∧
      (readCmp prog neq shown depth N v w p = .ub → ∃ (path : Path) (a b : Option S),
        v.follow path = some (.scalar a) ∧ w.follow path = some (.scalar b) ∧ (a = none ∨ b = none)) ∧
      (Readable v → Readable w → readCmp prog neq shown depth N v w p ≠ .ub) := by
  obtain ⟨k, hk⟩ := h (Option S) (stops neq)
  refine ⟨k, fun depth hd shown v w p fv fw => ?_⟩
  obtain ⟨h1, h2, h3⟩ := hk depth hd v w p fv fw
  have hn : stops neq = fun a b => !((a.bind fun x => b.map fun y => !neq x y).getD false) := by
    funext a b
    cases a <;> cases b <;> simp [stops]
  have hub : readCmp prog neq shown depth N v w p = .ub → ∃ (path : Path) (a b : Option S),
      v.follow path = some (.scalar a) ∧ w.follow path = some (.scalar b) ∧ (a = none ∨ b = none) := by
    intro hu
    rw [readCmp] at hu
    cases hr : run prog (stops neq) depth N v w p with
    | diff a o f r =>
      rw [hr] at hu
      obtain ⟨path, _, e1, e2, _⟩ := h3 a o f r hr
      refine ⟨_, _, _, e1, e2, ?_⟩
      cases hc : r.cur with
      | none => exact .inl rfl
      | some x =>
        cases he : r.exp with
        | none => exact .inr rfl
        | some y => simp [hc, he] at hu
    | _ => rw [hr] at hu; simp at hu
  refine ⟨?_, hub, ?_⟩
  · rw [← hn, ← h1, readCmp]
    cases hr : run prog (stops neq) depth N v w p with
    | equal => simp
    | diff a o f r =>
      simp only [reduceCtorEq, iff_false]
      cases r.cur <;> cases r.exp <;> simp
    | _ => simp
  · intro rv rw' hu
    obtain ⟨path, a, b, e1, e2, hab⟩ := hub hu
    obtain ⟨x, hx⟩ := rv.follow path e1
    obtain ⟨y, hy⟩ := rw'.follow path e2
    rcases hab with hab | hab
    · rw [hab] at hx; simp at hx
    · rw [hab] at hy; simp at hy

/-- C98 is false for null pointers: if nothing of one of the two objects can be read, the comparator of every type with a compared
    scalar is undefined, with whatever object it is compared, and also if both pointers are null. -/
theorem C98_refuted_unreadable {D : Decls} {id : Nat} {prog : List Comparator} {N : String} (h : Decides D id prog N) (hs : HasScalar D (.record id))
    {S : Type} (neq : S → S → Bool) : ∃ k, ∀ depth, k ≤ depth → ∀ (shown : Option String → S → String) (v w : Val (Option S)) (p : String),
      FitsC D (.record id) v → FitsC D (.record id) w → Unreadable v ∨ Unreadable w → readCmp prog neq shown depth N v w p = .ub := by
  obtain ⟨k, hk⟩ := h (Option S) (stops neq)
  refine ⟨k, fun depth hd shown v w p fv fw hu => ?_⟩
  obtain ⟨_, h2, h3⟩ := hk depth hd v w p fv fw
  obtain ⟨a, o, f, r, hr⟩ := h2 (not_same hs hu)
  obtain ⟨path, _, e1, e2, _⟩ := h3 a o f r hr
  rw [readCmp, hr]
  rcases hu with hu | hu
  · simp [hu.follow _ e1]
  · have := hu.follow _ e2
    cases hc : r.cur <;> simp [this]

/-- C98 for the calls of a mock: with `cmp_deref_ptr_<N>` as matcher the call is undefined if nothing lies at the address which the
    call passes, or at the one which the test expects (a null pointer). -/
theorem C98_refuted_null {D : Decls} {id : Nat} {prog : List Comparator} {N : String} (h : Decides D id prog N) (hs : HasScalar D (.record id))
    {S : Type} (neq : S → S → Bool) (L : Layout (Option S)) (size : Nat) (hL : Located L id size) (hfit : ∀ g, FitsC D (.record id) (L id g)) :
    ∃ k, ∀ depth, k ≤ depth → ∀ (shown : Option String → S → String) (m : Mem) (cur exp : List UInt8) (p : String),
      (∀ i, i < size → m (address cur + i) = none) ∨ (∀ i, i < size → m (address exp + i) = none) →
      readMatcher prog neq shown depth L .pointer id N m cur exp p = .ub := by
  obtain ⟨k, hk⟩ := C98_refuted_unreadable h hs neq
  refine ⟨k, fun depth hd shown m cur exp p hu => ?_⟩
  rw [readMatcher, object?, object?, address_eq, address_eq]
  refine hk depth hd shown _ _ p (hfit _) (hfit _) ?_
  exact hu.imp (hL.unreadable _) (hL.unreadable _)

/-- C98 for the calls of a mock with pointers to objects: the comparator is defined, whatever the addresses are. -/
theorem C98_pointers_partial {D : Decls} {id : Nat} {prog : List Comparator} {N : String} (h : Decides D id prog N)
    {S : Type} (neq : S → S → Bool) (L : Layout (Option S)) (size : Nat) (hL : Located L id size) (hfit : ∀ g, FitsC D (.record id) (L id g)) :
    ∃ k, ∀ depth, k ≤ depth → ∀ (shown : Option String → S → String) (m : Mem) (cur exp : List UInt8) (p : String),
      (∀ i, i < size → ∃ b, m (address cur + i) = some b) → (∀ i, i < size → ∃ b, m (address exp + i) = some b) →
      (∃ r, readMatcher prog neq shown depth L .pointer id N m cur exp p = .ok r) ∧
      (readMatcher prog neq shown depth L .pointer id N m cur exp p = .ok none ↔
        SameC D (fun a b => !((a.bind fun x => b.map fun y => !neq x y).getD false)) (.record id)
          (L id fun i => m (address cur + i)) (L id fun i => m (address exp + i))) := by
  obtain ⟨k, hk⟩ := C98_reads_partial h neq
  refine ⟨k, fun depth hd shown m cur exp p hc he => ?_⟩
  rw [readMatcher, object?, object?, address_eq, address_eq]
  obtain ⟨h1, _, h3⟩ := hk depth hd shown (L id fun i => m (address cur + i)) (L id fun i => m (address exp + i)) p (hfit _) (hfit _)
  refine ⟨?_, h1⟩
  have := h3 (hL.readable _ hc) (hL.readable _ he)
  cases hr : readCmp prog neq shown depth N (L id fun i => m (address cur + i)) (L id fun i => m (address exp + i)) p with
  | ok r => exact ⟨r, rfl⟩
  | ub => exact absurd hr this
  | _ => rw [readCmp] at hr; split at hr <;> first | (simp at hr; done) | (split at hr <;> simp at hr)

/-! ### Example -/

/-- `struct B { int x[3]; }` as a compiler may lay it out: 12 bytes. -/
def layoutB : Layout (Option Nat) := fun _ g => .comp fun f => if f = "x" then some (.arr 3 fun i => .scalar
  (match g (4 * i), g (4 * i + 1), g (4 * i + 2), g (4 * i + 3) with
    | some a, some b, some c, some d => some (address [a, b, c, d])
    | _, _, _, _ => none)) else none

theorem layoutB_located : Located layoutB 0 12 := by
  constructor
  · intro g hg
    refine .comp fun f v hv => ?_
    split at hv
    · injection hv with hv
      subst hv
      refine .arr fun i hi => .scalar ?_
      obtain ⟨a, ha⟩ := hg (4 * i) (by omega)
      obtain ⟨b, hb⟩ := hg (4 * i + 1) (by omega)
      obtain ⟨c, hc⟩ := hg (4 * i + 2) (by omega)
      obtain ⟨d, hd⟩ := hg (4 * i + 3) (by omega)
      exact ⟨address [a, b, c, d], by rw [ha, hb, hc, hd]⟩
    · simp at hv
  · intro g hg
    refine .comp fun f v hv => ?_
    split at hv
    · injection hv with hv
      subst hv
      exact .arr fun i hi => .scalar (by rw [hg (4 * i) (by omega)])
    · simp at hv

theorem layoutB_fits (g : Nat → Option UInt8) : FitsC cmpUnit (.record 0) (layoutB 0 g) :=
  .record (.named rfl (fun h => h) (by decide) rfl (.array fun _ _ => .scalar trivial) .nil)

theorem hasScalar_B : HasScalar cmpUnit (.record 0) :=
  .record (List.mem_singleton.2 rfl) rfl (.array (by decide) (.scalar trivial))

/-- A mock with a parameter `const struct B *` and the matcher `cmp_deref_ptr_struct_B`, in a process in which the bytes from 1000
    to 2000 can be read: two objects of zeros are equal, a call with a null pointer is undefined. -/
example (env : Env) (hall : "EasyMock_all_comparators" ∈ env.comparators)
    (hkey : ∀ u t, isComposable u = true → env.key u = env.key t → isComposable t = true) (shown : Option String → Nat → String) :
    let prog := program env ([.ptr false (.const false cmpB), cmpU].map .param)
    let m : Mem := fun (a : Nat) => if 1000 ≤ a ∧ a < 2000 then some 0 else none
    ∃ depth, readMatcher prog (· != ·) shown depth layoutB .pointer 0 "struct_B" m [0xe8, 3, 0, 0, 0, 0, 0, 0] [0, 4, 0, 0, 0, 0, 0, 0] "p" = .ok none ∧
      readMatcher prog (· != ·) shown depth layoutB .pointer 0 "struct_B" m [0, 0, 0, 0, 0, 0, 0, 0] [0, 4, 0, 0, 0, 0, 0, 0] "p" = .ub := by
  intro prog m
  have h : Decides cmpUnit 0 prog "struct_B" := C95_plain_partial cmp_unambiguous cmp_named cmp_order cmp_matrix cmp_parsed hall hkey cmp_plain
    (cmp_tags env) (i := 0) rfl rfl (.ptr .record) rfl (by decide)
  obtain ⟨k, hk⟩ := C98_pointers_partial h (· != ·) layoutB 12 layoutB_located layoutB_fits
  obtain ⟨k', hk'⟩ := C98_refuted_null h hasScalar_B (· != ·) layoutB 12 layoutB_located layoutB_fits
  have e1 : address [0xe8, 3, 0, 0, 0, 0, 0, 0] = 1000 := by decide
  have e2 : address [0, 4, 0, 0, 0, 0, 0, 0] = 1024 := by decide
  have e3 : address [0, 0, 0, 0, 0, 0, 0, 0] = 0 := by decide
  have hm : ∀ a : Nat, 1000 ≤ a → a < 2000 → m a = some 0 := fun a h1 h2 => if_pos ⟨h1, h2⟩
  have h1 := hk (k + k') (by omega) shown m [0xe8, 3, 0, 0, 0, 0, 0, 0] [0, 4, 0, 0, 0, 0, 0, 0] "p"
  have h2 := hk' (k + k') (by omega) shown m [0, 0, 0, 0, 0, 0, 0, 0] [0, 4, 0, 0, 0, 0, 0, 0] "p"
  rw [e1, e2] at h1
  rw [e2, e3] at h2
  refine ⟨k + k', (h1 (fun i hi => ⟨0, hm _ (by omega) (by omega)⟩) (fun i hi => ⟨0, hm _ (by omega) (by omega)⟩)).2.2 ?_,
    h2 (.inl fun i hi => if_neg (by omega))⟩
  refine .record (.named rfl (fun h => h) (by decide) rfl rfl (.array fun i hi => .scalar trivial ?_) .nil)
  have hz : ∀ j : Nat, j < 12 → m (1000 + j) = some 0 ∧ m (1024 + j) = some 0 := fun j hj => ⟨hm _ (by omega) (by omega), hm _ (by omega) (by omega)⟩
  simp only [hz (4 * i) (by omega), hz (4 * i + 1) (by omega), hz (4 * i + 2) (by omega), hz (4 * i + 3) (by omega)]
  decide

end EasyMock.StructCmp
