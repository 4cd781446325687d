import Verif.Emit.Valid

/-!
# The bodies of composite types

Auxiliary lemmas for `Verif.Props.Emit`.
-/

namespace EasyMock.Emit

open EasyMock.Types

set_option linter.unusedSectionVars false

section
variable {H : Type} [DecidableEq H] (e : Env H)

/-! ## Single additions -/

theorem Inv.insert {Q : Ty → Prop} {A : List Ty} {s : St H} (hw : World e Q) (hi : Inv e Q A s) {T : Ty} (hq : Q T)
    (hg : GenOk e A { s with gen := e.hash T :: s.gen } T) : Inv e Q A { s with gen := e.hash T :: s.gen } := by
  refine Inv.extend e (R := Q) (fun _ h => h) (fun _ h => h) hi ?_ ?_ (fun _ _ _ _ _ h => Or.inl h)
    (fun _ _ _ _ h => Or.inl h) (fun _ _ _ _ h => Or.inl h) (fun _ h => Or.inl h) (fun _ h => Or.inl h)
    (fun _ h => Or.inl h) (fun _ h => Or.inl h) ⟨[], by simp, trivial⟩
  · exact { Le.refl Q s with gen := fun h hh => List.mem_cons_of_mem _ hh }
  · intro t ht hh
    rcases List.mem_cons.1 hh with h | h
    · rw [hw.hash t T ht hq h]
      exact Or.inr hg
    · exact Or.inl h

theorem le_insert (R : Ty → Prop) (s : St H) (h : H) : Le R s { s with gen := h :: s.gen } :=
  { Le.refl R s with gen := fun _ hh => List.mem_cons_of_mem _ hh }

theorem enumOut_ok {Q : Ty → Prop} (R : Ty → Prop) (hR : ∀ t, R t → Q t) {A : List Ty} {s : St H} (hw : World e Q)
    (hi : Inv e Q A s) {i : Bool} {n : String} {vs : List (Nat × String)} (hq : Q (.enum i n vs)) (hv : vs ≠ []) :
    Inv e Q A (enumOut e (.enum i n vs) s) ∧ Le R s (enumOut e (.enum i n vs) s) ∧
    tagOf e (.enum i n vs) ∈ (envOf e (enumOut e (.enum i n vs) s)).enums ∧
    e.hash (.enum i n vs) ∈ (enumOut e (.enum i n vs) s).enSet ∧
    (enumOut e (.enum i n vs) s).gen = s.gen ∧ (enumOut e (.enum i n vs) s).comps = s.comps := by
  have hve : vs.isEmpty = false := by cases vs with | nil => exact absurd rfl hv | cons => rfl
  by_cases hs : e.hash (.enum i n vs) ∈ s.enSet
  · have : enumOut e (.enum i n vs) s = s := by
      unfold enumOut
      simp [hve, hs]
    rw [this]
    exact ⟨hi, .refl R s, hi.enSet _ _ _ hq hs, hs, rfl, rfl⟩
  · have : enumOut e (.enum i n vs) s = { s with
        enSet := e.hash (.enum i n vs) :: s.enSet, ens := s.ens ++ [(tagOf e (.enum i n vs), vs)] } := by
      unfold enumOut
      simp [hve, hs, tagOf, attrs]
    rw [this]
    have hle : Le R s { s with
        enSet := e.hash (.enum i n vs) :: s.enSet, ens := s.ens ++ [(tagOf e (.enum i n vs), vs)] } :=
      { Le.refl R s with
        enSet := fun h hh => List.mem_cons_of_mem _ hh
        ens := fun h hh => List.mem_append_left _ hh }
    have htag : tagOf e (.enum i n vs) ∈ (envOf e { s with
        enSet := e.hash (.enum i n vs) :: s.enSet, ens := s.ens ++ [(tagOf e (.enum i n vs), vs)] }).enums := by
      simp [envOf]
    refine ⟨?_, hle, htag, List.mem_cons_self, rfl, rfl⟩
    refine Inv.extend e hR (fun _ h => h) hi hle (fun _ _ h => Or.inl h) (fun _ _ _ _ _ h => Or.inl h)
      (fun _ _ _ _ h => Or.inl h) ?_ (fun _ h => Or.inl h) (fun _ h => Or.inl h) ?_ (fun _ h => Or.inl h)
      ⟨[], by simp, trivial⟩
    · intro i' n' vs' hq' hh
      rcases List.mem_cons.1 hh with h | h
      · rw [hw.hash _ _ hq' hq h]
        exact Or.inr htag
      · exact Or.inl h
    · intro x hx
      rcases List.mem_append.1 hx with h | h
      · exact Or.inl h
      · rw [List.mem_singleton.1 h]
        exact Or.inr ⟨i, n, vs, hq, rfl⟩

theorem addTypedef_ok {Q R : Ty → Prop} (hw : World e Q) (hc : Closed Q R) {A A' : List Ty} {s : St H}
    (hi : Inv e Q A s) (hA : ∀ t ∈ A, t ∈ A') {i : Bool} {n : String} {t : Ty} (hr : R (.tdef i n t))
    (ht : .tdef i n t ∈ A' ∨ nameable e (envOf e s) false t = true) :
    Inv e Q A' (addTypedef e i n t s) ∧ Le R s (addTypedef e i n t s) ∧
    n ∈ (envOf e (addTypedef e i n t s)).tds ∧ e.hash (.tdef i n t) ∈ (addTypedef e i n t s).tdSet ∧
    (addTypedef e i n t s).gen = s.gen ∧ (addTypedef e i n t s).comps = s.comps := by
  have q := registerRaw_quiet e hc t (hc.child _ hr rfl t (by simp [children]))
    { s with tdSet := e.hash (.tdef i n t) :: s.tdSet, tds := s.tds ++ [(n, t)] }
  have hle : Le R s { s with tdSet := e.hash (.tdef i n t) :: s.tdSet, tds := s.tds ++ [(n, t)] } :=
    { Le.refl R s with
      tdSet := fun h hh => List.mem_cons_of_mem _ hh
      tds := fun h hh => List.mem_append_left _ hh }
  have hn : n ∈ (envOf e { s with tdSet := e.hash (.tdef i n t) :: s.tdSet, tds := s.tds ++ [(n, t)] }).tds := by
    simp [envOf]
  have hi' : Inv e Q A' { s with tdSet := e.hash (.tdef i n t) :: s.tdSet, tds := s.tds ++ [(n, t)] } := by
    refine Inv.extend e hc.sub hA hi hle (fun _ _ h => Or.inl h) (fun _ _ _ _ _ h => Or.inl h)
      ?_ (fun _ _ _ _ h => Or.inl h) (fun _ h => Or.inl h) ?_ (fun _ h => Or.inl h) (fun _ h => Or.inl h)
      ⟨[], by simp, trivial⟩
    · intro i' n' t' hq' hh
      rcases List.mem_cons.1 hh with h | h
      · have := hw.hash _ _ hq' (hc.sub _ hr) h
        cases this
        exact Or.inr hn
      · exact Or.inl h
    · intro x hx
      rcases List.mem_append.1 hx with h | h
      · exact Or.inl h
      · rw [List.mem_singleton.1 h]
        exact Or.inr ⟨i, hc.sub _ hr, ht.imp id (nameable_mono e (envOf_le e hle) _ _)⟩
  unfold addTypedef
  exact ⟨hi'.quiet e hc.sub q, hle.trans (q.le e), (envOf_le e (q.le e)).tds _ hn,
    (q.le e).tdSet _ List.mem_cons_self, q.gen, q.comps⟩

/-! ## One member -/

/-- What the loop over the members does for a member whose type is not composite. -/
def step (t : Ty) (s : St H) : St H := enumOut e t (fieldFn e true false t (tdPtr e t (registerRaw e t s)))

/-- The type is not composite. -/
def notComp : Ty → Bool
  | .comp .. => false
  | _ => true

theorem members_field (d : String) (t : Ty) (n : String) (a : Int) (rest : Fields) (s : St H) (h : notComp t = true) :
    members e (.field d t n a rest) s =
      (.plain (declarator e d t) t (n ++ boundText a) (members e rest (step e t s)).1, (members e rest (step e t s)).2) := by
  cases t <;> first | (cases h; done) | (conv => lhs; unfold members) <;> rfl

theorem members_bit (d : String) (t : Ty) (n : String) (k : Nat) (rest : Fields) (s : St H) (h : notComp t = true) :
    members e (.bit d t n k rest) s =
      (.plain (declarator e d t) t (n ++ ":" ++ toString k) (members e rest (step e t s)).1, (members e rest (step e t s)).2) := by
  cases t <;> first | (cases h; done) | (conv => lhs; unfold members) <;> rfl

theorem tdPtr_quiet {Q R : Ty → Prop} (hc : Closed Q R) {A : List Ty} {s : St H} (hi : Inv e Q A s) :
    ∀ (t : Ty) (_ : R t), Known e s t → tdPtr e t s = s
  | .ptr i t, hr, h => by
    unfold Known at h; unfold tdPtr
    exact tdPtr_quiet hc hi t (hc.child _ hr rfl t (by simp [children])) h
  | .tdef i n t, hr, h => by
    unfold Known at h
    have g := hi.gen _ (hc.sub _ hr) h
    unfold GenOk at g
    unfold tdPtr
    rw [if_pos (by simpa using g.2.1)]
  | .ctype .., _, _ => by unfold tdPtr; rfl
  | .ref .., _, _ => by unfold tdPtr; rfl
  | .const .., _, _ => by unfold tdPtr; rfl
  | .enum .., _, _ => by unfold tdPtr; rfl
  | .comp .., _, _ => by unfold tdPtr; rfl
  | .incomplete .., _, _ => by unfold tdPtr; rfl
  | .fn .., _, _ => by unfold tdPtr; rfl

theorem enumOut_known {Q R : Ty → Prop} (hc : Closed Q R) {A : List Ty} {s : St H} (hi : Inv e Q A s) :
    ∀ (t : Ty) (_ : R t), Known e s t → enumOut e t s = s
  | .enum i n vs, hr, h => by
    unfold Known at h
    have g := hi.gen _ (hc.sub _ hr) h
    unfold GenOk at g
    have hv := hc.fine _ hr
    have hve : vs.isEmpty = false := by cases vs with | nil => exact absurd rfl hv | cons => rfl
    unfold enumOut
    simp [hve, g.2]
  | .ptr .., _, _ => by unfold enumOut; rfl
  | .tdef .., _, _ => by unfold enumOut; rfl
  | .ctype .., _, _ => by unfold enumOut; rfl
  | .ref .., _, _ => by unfold enumOut; rfl
  | .const .., _, _ => by unfold enumOut; rfl
  | .comp .., _, _ => by unfold enumOut; rfl
  | .incomplete .., _, _ => by unfold enumOut; rfl
  | .fn .., _, _ => by unfold enumOut; rfl

theorem step_quiet {Q R : Ty → Prop} (hc : Closed Q R) {A : List Ty} {s : St H} (hi : Inv e Q A s) (t : Ty)
    (hr : R t) (hA : ∀ a ∈ A, sizeOf t < sizeOf a) (h : Known e s t) : Quiet e R s (step e t s) := by
  unfold step
  have q1 := registerRaw_quiet e hc t hr s
  have k1 := Known.mono e (q1.le e) t h
  rw [tdPtr_quiet e hc (hi.quiet e hc.sub q1) t hr k1]
  have q2 := q1.trans e (fieldFn_quiet e hc true false t hr hA _ (hi.quiet e hc.sub q1) k1)
  rw [enumOut_known e hc (hi.quiet e hc.sub q2) t hr (Known.mono e (q2.le e) t h)]
  exact q2

/-- What the step of a bit-field does. -/
structure BitStep (Q R : Ty → Prop) (A : List Ty) (t : Ty) (s s' : St H) : Prop where
  inv : Inv e Q A s'
  le : Le R s s'
  gen : s'.gen = s.gen
  comps : s'.comps = s.comps
  ok : objectOk e (envOf e s') t = true

theorem step_bit_td {Q R : Ty → Prop} (hw : World e Q) (hc : Closed Q R) {A : List Ty} {s : St H}
    (hi : Inv e Q A s) (i : Bool) (n : String) (t : Ty) (hr : R (.tdef i n t)) (hraw : ∀ s : St H, rawFn e t s = s)
    (hn : ∀ c, nameable e c false t = true) (hcomp : ∀ c, completeIn e c t = true) :
    BitStep e Q R A (.tdef i n t) s (step e (.tdef i n t) s) := by
  have q1 := registerRaw_quiet e hc _ hr s
  have hi1 := hi.quiet e hc.sub q1
  have hstep : step e (.tdef i n t) s = tdPtr e (.tdef i n t) (registerRaw e (.tdef i n t) s) := by
    unfold step
    unfold fieldFn
    rfl
  rw [hstep]
  unfold tdPtr
  split
  · rename_i h
    refine ⟨hi1, q1.le e, q1.gen, q1.comps, ?_⟩
    unfold objectOk nameable completeIn
    simp only [List.contains_iff_mem, Bool.and_eq_true]
    exact ⟨hi1.tdSet _ _ _ (hc.sub _ hr) (by simpa using h), hcomp _⟩
  · rw [hraw]
    obtain ⟨a, b, c, -, d, f⟩ := addTypedef_ok e hw hc hi1 (fun _ h => h) hr (Or.inr (hn _))
    refine ⟨a, (q1.le e).trans b, d.trans q1.gen, f.trans q1.comps, ?_⟩
    unfold objectOk nameable completeIn
    simp only [List.contains_iff_mem, Bool.and_eq_true]
    exact ⟨c, hcomp _⟩

theorem step_bit {Q R : Ty → Prop} (hw : World e Q) (hc : Closed Q R) {A : List Ty} {s : St H} (hi : Inv e Q A s) :
    ∀ (t : Ty) (_ : R t) (_ : bitOk t = true), BitStep e Q R A t s (step e t s)
  | .ctype c k i, _, _ => by
    have : step e (.ctype c k i) s = s := by unfold step fieldFn tdPtr; rfl
    rw [this]
    exact ⟨hi, .refl R s, rfl, rfl, by unfold objectOk nameable completeIn; rfl⟩
  | .const i (.ctype c k j), _, _ => by
    have : step e (.const i (.ctype c k j)) s = s := by unfold step fieldFn tdPtr fieldFn; rfl
    rw [this]
    exact ⟨hi, .refl R s, rfl, rfl, by unfold objectOk nameable completeIn nameable completeIn; rfl⟩
  | .enum i n vs, hr, _ => by
    have : step e (.enum i n vs) s = enumOut e (.enum i n vs) s := by unfold step fieldFn tdPtr; rfl
    rw [this]
    obtain ⟨a, b, c, -, d, f⟩ := enumOut_ok e R hc.sub hw hi (hc.sub _ hr) (hc.fine _ hr)
    refine ⟨a, b, d, f, ?_⟩
    unfold objectOk nameable completeIn
    simp [c]
  | .tdef i n (.ctype c k j), hr, _ =>
    step_bit_td e hw hc hi i n _ hr (fun _ => by unfold rawFn; rfl) (fun _ => by unfold nameable; rfl)
      (fun _ => by unfold completeIn; rfl)
  | .tdef i n (.const j (.ctype c k l)), hr, _ =>
    step_bit_td e hw hc hi i n _ hr (fun _ => by unfold rawFn rawFn; rfl) (fun _ => by unfold nameable nameable; rfl)
      (fun _ => by unfold completeIn completeIn; rfl)

end

end EasyMock.Emit
