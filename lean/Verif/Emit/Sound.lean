import Verif.Emit.Good

/-!
# Only types which occur are declared

Auxiliary for `C54_sound`, for every program.
-/

namespace EasyMock.Emit

open EasyMock.Types

set_option linter.unusedSectionVars false
set_option linter.unusedVariables false

section
variable {H : Type} [DecidableEq H] (e : Env H)

/-- The values of an enumeration in the text: C does not allow an empty list. -/
def valuesOf (n : String) : List (Nat × String) → List (Nat × String)
  | [] => [(0, n ++ "_dummy")]
  | vs => vs

/-- The name of an enumeration in the text: a generated one if it has none; the generated one of an enumeration without values is that
    of the enumeration with the value it gets. -/
def enumName (i : Bool) (n : String) (vs : List (Nat × String)) : String :=
  if n = "" then e.anon (if vs = [] then .enum false n (valuesOf n vs) else .enum i n vs) else n

/-- The guard of a section: the keyword with the name of the type, or with its generated name or the name of a typedef. -/
def guardOf (R : Ty → Prop) : Ty → String → Prop
  | .comp i kw n fs emb fwd ms, g =>
    g = kw.str ++ n ∧ n ≠ "" ∨ g = kw.str ++ e.anon (.comp i kw n fs emb fwd ms) ∧ n = "" ∨
      ∃ j m t, R (.tdef j m t) ∧ g = kw.str ++ m ∧ n = ""
  | _, _ => False

/-- Everything declared so far is made of types of `R`. -/
structure Sound (R : Ty → Prop) (s : St H) : Prop where
  fwds : ∀ x ∈ s.fwds, x.2 ≠ "" ∧ ∃ t, R t ∧ tagged t = some x
  tds : ∀ x ∈ s.tds, ∃ i, R (.tdef i x.1 x.2)
  ens : ∀ x ∈ s.ens, ∃ i n vs, R (.enum i n vs) ∧ x.2 = valuesOf n vs ∧ x.1 = enumName e i n vs
  comps : ∀ c ∈ s.comps, R c.ty ∧ guardOf e R c.ty c.guard
  late : ∀ t ∈ s.late, R t
  reg : ∀ x ∈ s.reg, ∃ i t, R (.tdef i x.2 t)

theorem Sound.of_eq {e : Env H} {R : Ty → Prop} {s s' : St H} (h : Sound e R s) (a : s'.fwds = s.fwds) (b : s'.tds = s.tds)
    (c : s'.ens = s.ens) (d : s'.comps = s.comps) (f : s'.late = s.late) (g : s'.reg = s.reg) : Sound e R s' where
  fwds := a ▸ h.fwds
  tds := b ▸ h.tds
  ens := c ▸ h.ens
  comps := d ▸ h.comps
  late := f ▸ h.late
  reg := g ▸ h.reg

theorem sound_register {R : Ty → Prop} (i : Bool) (n : String) (t : Ty) (ht : R (.tdef i n t)) {s : St H} (h : Sound e R s) :
    Sound e R (register e n t s) := by
  unfold register
  split
  · exact h
  · refine ⟨h.fwds, h.tds, h.ens, h.comps, h.late, fun x hx => ?_⟩
    rcases List.mem_append.1 hx with hx | hx
    · exact h.reg x hx
    · rw [List.mem_singleton.1 hx]
      exact ⟨i, t, ht⟩

theorem sound_registerRaw {R : Ty → Prop} (hc : ∀ t, R t → ∀ u ∈ children t, R u) : ∀ (t : Ty) (_ : R t) {s : St H} (_ : Sound e R s),
    Sound e R (registerRaw e t s)
  | .ptr _ t, ht, s, h => sound_registerRaw hc t (hc _ ht t (by simp [children])) h
  | .ref _ t, ht, s, h => sound_registerRaw hc t (hc _ ht t (by simp [children])) h
  | .const _ t, ht, s, h => sound_registerRaw hc t (hc _ ht t (by simp [children])) h
  | .tdef i n t, ht, s, h => sound_registerRaw hc t (hc _ ht t (by simp [children])) (sound_register e i n t ht h)
  | .ctype .., _, s, h => h
  | .enum .., _, s, h => h
  | .comp .., _, s, h => h
  | .incomplete .., _, s, h => h
  | .fn .., _, s, h => h

theorem sound_forward {R : Ty → Prop} (t : Ty) (ht : R t) (hn : ∀ x, tagged t = some x → x.2 = (attrs t).name)
    {s : St H} (h : Sound e R s) : Sound e R (forward e t s) := by
  unfold forward
  split
  · exact h
  · rename_i hne
    split
    · exact h
    · split
      · rename_i f k n
        refine ⟨?_, h.tds, h.ens, h.comps, h.late, h.reg⟩
        intro x hx
        rcases List.mem_append.1 hx with hx | hx
        · exact h.fwds x hx
        · rw [List.mem_singleton.1 hx]
          refine ⟨?_, _, ht, rfl⟩
          rw [hn _ rfl]
          simpa using hne
      · rename_i i k n fs emb fwd ms
        refine ⟨?_, h.tds, h.ens, h.comps, h.late, h.reg⟩
        intro x hx
        rcases List.mem_append.1 hx with hx | hx
        · exact h.fwds x hx
        · rw [List.mem_singleton.1 hx]
          refine ⟨?_, _, ht, rfl⟩
          rw [hn _ rfl]
          simpa using hne
      · exact h.of_eq rfl rfl rfl rfl rfl rfl

theorem sound_enumOut {R : Ty → Prop} (t : Ty) (ht : R t) {s : St H} (h : Sound e R s) : Sound e R (enumOut e t s) := by
  unfold enumOut
  split
  · rename_i i n vs
    have key : ∀ nm, nm = enumName e i n vs → ∀ x ∈ s.ens ++ [(nm, valuesOf n vs)],
        ∃ i n vs, R (.enum i n vs) ∧ x.2 = valuesOf n vs ∧ x.1 = enumName e i n vs := by
      intro nm hnm x hx
      rcases List.mem_append.1 hx with hx | hx
      · exact h.ens x hx
      · rw [List.mem_singleton.1 hx]
        exact ⟨i, n, vs, ht, rfl, hnm⟩
    have hv : (if vs.isEmpty then [(0, n ++ "_dummy")] else vs) = valuesOf n vs := by cases vs <;> rfl
    have hname : ∀ {b : Bool}, vs.isEmpty = b → (if n.isEmpty then e.anon (if b then .enum false n (valuesOf n vs) else .enum i n vs) else n) =
        enumName e i n vs := by
      intro b hb
      unfold enumName
      have h1 : (n.isEmpty = true) = (n = "") := by simp
      have h2 : (b = true) = (vs = []) := by rw [← hb]; simp
      simp only [h1, h2]
    dsimp only
    rw [hv]
    split
    · rename_i hvs
      split
      · exact h
      · exact ⟨h.fwds, h.tds, key _ (by rw [← hname hvs, if_pos (rfl : true = true), ← hv, if_pos hvs]), h.comps, h.late, h.reg⟩
    · rename_i hvs
      split
      · exact h
      · exact ⟨h.fwds, h.tds, key _ (by rw [← hname (by simpa using hvs : vs.isEmpty = false)]; rfl), h.comps, h.late, h.reg⟩
  · exact h

theorem sound_addTypedef {R : Ty → Prop} (hc : ∀ t, R t → ∀ u ∈ children t, R u) (i : Bool) (n : String) (t : Ty) (ht : R (.tdef i n t)) {s : St H}
    (h : Sound e R s) : Sound e R (addTypedef e i n t s) := by
  unfold addTypedef
  refine sound_registerRaw e hc t (hc _ ht t (by simp [children])) ?_
  refine ⟨h.fwds, ?_, h.ens, h.comps, h.late, h.reg⟩
  intro x hx
  rcases List.mem_append.1 hx with hx | hx
  · exact h.tds x hx
  · rw [List.mem_singleton.1 hx]
    exact ⟨i, ht⟩

theorem guard_of {R : Ty → Prop} (i : Bool) (kw : Kw) (n : String) (fs : Fields) (emb fwd : Bool) (ms : Methods) {s : St H} (h : Sound e R s) :
    guardOf e R (.comp i kw n fs emb fwd ms) (compGuard e kw (.comp i kw n fs emb fwd ms) s) := by
  have ha : (attrs (.comp i kw n fs emb fwd ms)).name = n := by cases kw <;> rfl
  unfold compGuard guardOf
  rw [ha]
  by_cases hn : n = ""
  · rw [if_pos (by simpa using hn)]
    unfold anonymousName
    cases hx : s.reg.find? (fun x => x.1 == e.hash (.comp i kw n fs emb fwd ms)) with
    | none => exact Or.inr (Or.inl ⟨rfl, hn⟩)
    | some x =>
      by_cases he : x.2.isEmpty = true
      · exact Or.inr (Or.inl ⟨by simp only [if_pos he], hn⟩)
      · obtain ⟨j, t, ht⟩ := h.reg x (List.mem_of_find?_eq_some hx)
        exact Or.inr (Or.inr ⟨j, x.2, t, ht, by simp only [if_neg he], hn⟩)
  · rw [if_neg (by simpa using hn)]
    exact Or.inl ⟨rfl, hn⟩

mutual
theorem sound_used {R : Ty → Prop} (hc : ∀ t, R t → ∀ u ∈ children t, R u) : ∀ (inc : Bool) (t : Ty) (_ : R t)
    {s : St H} (_ : Sound e R s), Sound e R (used e inc t s)
  | _, .incomplete f k n, ht, s, h => by
    unfold used
    exact sound_forward e _ ht (fun x hx => by cases hx; rfl) h
  | inc, .comp i kw n fs emb fwd ms, ht, s, h => by
    have hch : ∀ u ∈ fieldTypes fs ++ bitTypes fs, R u := hc _ ht
    have hf : ∀ g, Sound e R (forward e (.comp i kw n fs emb fwd ms) { s with gen := g }) := fun g =>
      sound_forward e _ ht (fun x hx => by cases hx; cases kw <;> rfl) (h.of_eq rfl rfl rfl rfl rfl rfl)
    unfold used
    dsimp only
    split
    · exact h
    · split
      · split
        · exact hf _
        · have h2 := sound_usedFields hc fs (fun u hu => hch u (by simp [hu])) (hf (e.hash (.comp i kw n fs emb fwd ms) :: s.gen))
          have h3 := sound_members hc fs hch h2
          refine ⟨h3.fwds, h3.tds, h3.ens, ?_, h3.late, h3.reg⟩
          intro c hcm
          rcases List.mem_append.1 hcm with hcm | hcm
          · rcases List.mem_append.1 hcm with hcm | hcm
            · exact h2.comps c hcm
            · rw [List.mem_singleton.1 hcm]; exact ⟨ht, guard_of e i kw n fs emb fwd ms h2⟩
          · exact h3.comps c (List.mem_of_mem_drop hcm)
      · refine ⟨h.fwds, h.tds, h.ens, h.comps, ?_, h.reg⟩
        intro u hu
        rcases List.mem_append.1 hu with hu | hu
        · exact h.late u hu
        · rw [List.mem_singleton.1 hu]; exact ht
  | _, .tdef i n t, ht, s, h => by
    have htt : R t := hc _ ht t (by simp [children])
    unfold used
    dsimp only
    split
    · exact h
    · apply sound_used hc false t htt
      split
      · exact h.of_eq rfl rfl rfl rfl rfl rfl
      · exact sound_rawFn hc t htt (sound_addTypedef e hc i n t ht (h.of_eq rfl rfl rfl rfl rfl rfl))
  | _, .enum i n vs, ht, s, h => by
    unfold used
    split
    · exact h
    · exact sound_enumOut e _ ht (h.of_eq rfl rfl rfl rfl rfl rfl)
  | _, .const _ t, ht, s, h => by unfold used; exact sound_used hc false t (hc _ ht t (by simp [children])) h
  | _, .ptr _ t, ht, s, h => by unfold used; exact sound_used hc false t (hc _ ht t (by simp [children])) h
  | _, .fn _ _ _ r ps, ht, s, h => by
    unfold used
    exact sound_usedParams hc ps (fun u hu => hc _ ht u (by simp [children, hu]))
      (sound_used hc false r (hc _ ht r (by simp [children])) h)
  | _, .ref i t, ht, s, h => by
    unfold used
    split
    · exact h
    · exact h.of_eq rfl rfl rfl rfl rfl rfl
  | _, .ctype c k i, ht, s, h => by
    unfold used
    split
    · exact h
    · exact h.of_eq rfl rfl rfl rfl rfl rfl

theorem sound_usedFields {R : Ty → Prop} (hc : ∀ t, R t → ∀ u ∈ children t, R u) : ∀ (fs : Fields)
    (_ : ∀ u ∈ fieldTypes fs, R u) {s : St H} (_ : Sound e R s), Sound e R (usedFields e fs s)
  | .nil, _, s, h => by unfold usedFields; exact h
  | .field _ t _ _ rest, hr, s, h => by
    unfold usedFields
    exact sound_usedFields hc rest (fun u hu => hr u (by simp [fieldTypes, hu]))
      (sound_used hc false t (hr t (by simp [fieldTypes])) h)
  | .bit _ _ _ _ rest, hr, s, h => by
    unfold usedFields
    exact sound_usedFields hc rest (fun u hu => hr u (by simp [fieldTypes, hu])) h

theorem sound_usedParams {R : Ty → Prop} (hc : ∀ t, R t → ∀ u ∈ children t, R u) : ∀ (ps : Params)
    (_ : ∀ u ∈ paramTypes ps, R u) {s : St H} (_ : Sound e R s), Sound e R (usedParams e ps s)
  | .nil, _, s, h => by unfold usedParams; exact h
  | .cons _ t _ rest, hr, s, h => by
    unfold usedParams
    exact sound_usedParams hc rest (fun u hu => hr u (by simp [paramTypes, hu]))
      (sound_used hc false t (hr t (by simp [paramTypes])) h)

theorem sound_members {R : Ty → Prop} (hc : ∀ t, R t → ∀ u ∈ children t, R u) : ∀ (fs : Fields)
    (_ : ∀ u ∈ fieldTypes fs ++ bitTypes fs, R u) {s : St H} (_ : Sound e R s), Sound e R (members e fs s).2
  | .nil, _, s, h => by unfold members; exact h
  | .field _ (.comp i kw m fs emb fwd ms) n a rest, hr, s, h => by
    have ht : R (.comp i kw m fs emb fwd ms) := hr _ (by simp [fieldTypes, bitTypes])
    unfold members
    dsimp only
    refine sound_members hc rest (fun u hu => hr u ?_) ?_
    · rcases List.mem_append.1 hu with hu | hu <;> simp [fieldTypes, bitTypes, hu]
    · split
      · exact h
      · exact sound_members hc fs (hc _ ht) h
  | .field _ (.ctype c k i) n a rest, hr, s, h => by
    have ht : R (.ctype c k i) := hr _ (by simp [fieldTypes, bitTypes])
    unfold members
    refine sound_members hc rest (fun u hu => hr u ?_)
      (sound_enumOut e _ ht (sound_fieldFn hc true false _ ht (sound_tdPtr hc _ ht (sound_registerRaw e hc _ ht h))))
    rcases List.mem_append.1 hu with hu | hu <;> simp [fieldTypes, bitTypes, hu]
  | .field _ (.ptr i t) n a rest, hr, s, h => by
    have ht : R (.ptr i t) := hr _ (by simp [fieldTypes, bitTypes])
    unfold members
    refine sound_members hc rest (fun u hu => hr u ?_)
      (sound_enumOut e _ ht (sound_fieldFn hc true false _ ht (sound_tdPtr hc _ ht (sound_registerRaw e hc _ ht h))))
    rcases List.mem_append.1 hu with hu | hu <;> simp [fieldTypes, bitTypes, hu]
  | .field _ (.ref i t) n a rest, hr, s, h => by
    have ht : R (.ref i t) := hr _ (by simp [fieldTypes, bitTypes])
    unfold members
    refine sound_members hc rest (fun u hu => hr u ?_)
      (sound_enumOut e _ ht (sound_fieldFn hc true false _ ht (sound_tdPtr hc _ ht (sound_registerRaw e hc _ ht h))))
    rcases List.mem_append.1 hu with hu | hu <;> simp [fieldTypes, bitTypes, hu]
  | .field _ (.const i t) n a rest, hr, s, h => by
    have ht : R (.const i t) := hr _ (by simp [fieldTypes, bitTypes])
    unfold members
    refine sound_members hc rest (fun u hu => hr u ?_)
      (sound_enumOut e _ ht (sound_fieldFn hc true false _ ht (sound_tdPtr hc _ ht (sound_registerRaw e hc _ ht h))))
    rcases List.mem_append.1 hu with hu | hu <;> simp [fieldTypes, bitTypes, hu]
  | .field _ (.tdef i m t) n a rest, hr, s, h => by
    have ht : R (.tdef i m t) := hr _ (by simp [fieldTypes, bitTypes])
    unfold members
    refine sound_members hc rest (fun u hu => hr u ?_)
      (sound_enumOut e _ ht (sound_fieldFn hc true false _ ht (sound_tdPtr hc _ ht (sound_registerRaw e hc _ ht h))))
    rcases List.mem_append.1 hu with hu | hu <;> simp [fieldTypes, bitTypes, hu]
  | .field _ (.enum i m vs) n a rest, hr, s, h => by
    have ht : R (.enum i m vs) := hr _ (by simp [fieldTypes, bitTypes])
    unfold members
    refine sound_members hc rest (fun u hu => hr u ?_)
      (sound_enumOut e _ ht (sound_fieldFn hc true false _ ht (sound_tdPtr hc _ ht (sound_registerRaw e hc _ ht h))))
    rcases List.mem_append.1 hu with hu | hu <;> simp [fieldTypes, bitTypes, hu]
  | .field _ (.incomplete f k m) n a rest, hr, s, h => by
    have ht : R (.incomplete f k m) := hr _ (by simp [fieldTypes, bitTypes])
    unfold members
    refine sound_members hc rest (fun u hu => hr u ?_)
      (sound_enumOut e _ ht (sound_fieldFn hc true false _ ht (sound_tdPtr hc _ ht (sound_registerRaw e hc _ ht h))))
    rcases List.mem_append.1 hu with hu | hu <;> simp [fieldTypes, bitTypes, hu]
  | .field _ (.fn i inf rs r ps) n a rest, hr, s, h => by
    have ht : R (.fn i inf rs r ps) := hr _ (by simp [fieldTypes, bitTypes])
    unfold members
    refine sound_members hc rest (fun u hu => hr u ?_)
      (sound_enumOut e _ ht (sound_fieldFn hc true false _ ht (sound_tdPtr hc _ ht (sound_registerRaw e hc _ ht h))))
    rcases List.mem_append.1 hu with hu | hu <;> simp [fieldTypes, bitTypes, hu]
  | .bit _ (.comp i kw m fs emb fwd ms) n a rest, hr, s, h => by
    have ht : R (.comp i kw m fs emb fwd ms) := hr _ (by simp [fieldTypes, bitTypes])
    unfold members
    dsimp only
    refine sound_members hc rest (fun u hu => hr u ?_) ?_
    · rcases List.mem_append.1 hu with hu | hu <;> simp [fieldTypes, bitTypes, hu]
    · split
      · exact h
      · exact sound_members hc fs (hc _ ht) h
  | .bit _ (.ctype c k i) n a rest, hr, s, h => by
    have ht : R (.ctype c k i) := hr _ (by simp [fieldTypes, bitTypes])
    unfold members
    refine sound_members hc rest (fun u hu => hr u ?_)
      (sound_enumOut e _ ht (sound_fieldFn hc true false _ ht (sound_tdPtr hc _ ht (sound_registerRaw e hc _ ht h))))
    rcases List.mem_append.1 hu with hu | hu <;> simp [fieldTypes, bitTypes, hu]
  | .bit _ (.ptr i t) n a rest, hr, s, h => by
    have ht : R (.ptr i t) := hr _ (by simp [fieldTypes, bitTypes])
    unfold members
    refine sound_members hc rest (fun u hu => hr u ?_)
      (sound_enumOut e _ ht (sound_fieldFn hc true false _ ht (sound_tdPtr hc _ ht (sound_registerRaw e hc _ ht h))))
    rcases List.mem_append.1 hu with hu | hu <;> simp [fieldTypes, bitTypes, hu]
  | .bit _ (.ref i t) n a rest, hr, s, h => by
    have ht : R (.ref i t) := hr _ (by simp [fieldTypes, bitTypes])
    unfold members
    refine sound_members hc rest (fun u hu => hr u ?_)
      (sound_enumOut e _ ht (sound_fieldFn hc true false _ ht (sound_tdPtr hc _ ht (sound_registerRaw e hc _ ht h))))
    rcases List.mem_append.1 hu with hu | hu <;> simp [fieldTypes, bitTypes, hu]
  | .bit _ (.const i t) n a rest, hr, s, h => by
    have ht : R (.const i t) := hr _ (by simp [fieldTypes, bitTypes])
    unfold members
    refine sound_members hc rest (fun u hu => hr u ?_)
      (sound_enumOut e _ ht (sound_fieldFn hc true false _ ht (sound_tdPtr hc _ ht (sound_registerRaw e hc _ ht h))))
    rcases List.mem_append.1 hu with hu | hu <;> simp [fieldTypes, bitTypes, hu]
  | .bit _ (.tdef i m t) n a rest, hr, s, h => by
    have ht : R (.tdef i m t) := hr _ (by simp [fieldTypes, bitTypes])
    unfold members
    refine sound_members hc rest (fun u hu => hr u ?_)
      (sound_enumOut e _ ht (sound_fieldFn hc true false _ ht (sound_tdPtr hc _ ht (sound_registerRaw e hc _ ht h))))
    rcases List.mem_append.1 hu with hu | hu <;> simp [fieldTypes, bitTypes, hu]
  | .bit _ (.enum i m vs) n a rest, hr, s, h => by
    have ht : R (.enum i m vs) := hr _ (by simp [fieldTypes, bitTypes])
    unfold members
    refine sound_members hc rest (fun u hu => hr u ?_)
      (sound_enumOut e _ ht (sound_fieldFn hc true false _ ht (sound_tdPtr hc _ ht (sound_registerRaw e hc _ ht h))))
    rcases List.mem_append.1 hu with hu | hu <;> simp [fieldTypes, bitTypes, hu]
  | .bit _ (.incomplete f k m) n a rest, hr, s, h => by
    have ht : R (.incomplete f k m) := hr _ (by simp [fieldTypes, bitTypes])
    unfold members
    refine sound_members hc rest (fun u hu => hr u ?_)
      (sound_enumOut e _ ht (sound_fieldFn hc true false _ ht (sound_tdPtr hc _ ht (sound_registerRaw e hc _ ht h))))
    rcases List.mem_append.1 hu with hu | hu <;> simp [fieldTypes, bitTypes, hu]
  | .bit _ (.fn i inf rs r ps) n a rest, hr, s, h => by
    have ht : R (.fn i inf rs r ps) := hr _ (by simp [fieldTypes, bitTypes])
    unfold members
    refine sound_members hc rest (fun u hu => hr u ?_)
      (sound_enumOut e _ ht (sound_fieldFn hc true false _ ht (sound_tdPtr hc _ ht (sound_registerRaw e hc _ ht h))))
    rcases List.mem_append.1 hu with hu | hu <;> simp [fieldTypes, bitTypes, hu]

theorem sound_tdPtr {R : Ty → Prop} (hc : ∀ t, R t → ∀ u ∈ children t, R u) : ∀ (t : Ty) (_ : R t)
    {s : St H} (_ : Sound e R s), Sound e R (tdPtr e t s)
  | .ptr _ t, ht, s, h => by unfold tdPtr; exact sound_tdPtr hc t (hc _ ht t (by simp [children])) h
  | .tdef i n t, ht, s, h => by
    unfold tdPtr
    split
    · exact h
    · exact sound_rawFn hc t (hc _ ht t (by simp [children])) (sound_addTypedef e hc i n t ht h)
  | .ctype .., ht, s, h => by unfold tdPtr; exact h
  | .ref .., ht, s, h => by unfold tdPtr; exact h
  | .const .., ht, s, h => by unfold tdPtr; exact h
  | .enum .., ht, s, h => by unfold tdPtr; exact h
  | .comp .., ht, s, h => by unfold tdPtr; exact h
  | .incomplete .., ht, s, h => by unfold tdPtr; exact h
  | .fn .., ht, s, h => by unfold tdPtr; exact h

theorem sound_rawFn {R : Ty → Prop} (hc : ∀ t, R t → ∀ u ∈ children t, R u) : ∀ (t : Ty) (_ : R t)
    {s : St H} (_ : Sound e R s), Sound e R (rawFn e t s)
  | .ptr _ t, ht, s, h => by unfold rawFn; exact sound_rawFn hc t (hc _ ht t (by simp [children])) h
  | .ref _ t, ht, s, h => by unfold rawFn; exact sound_rawFn hc t (hc _ ht t (by simp [children])) h
  | .const _ t, ht, s, h => by unfold rawFn; exact sound_rawFn hc t (hc _ ht t (by simp [children])) h
  | .tdef _ _ t, ht, s, h => by unfold rawFn; exact sound_rawFn hc t (hc _ ht t (by simp [children])) h
  | .fn _ _ _ r ps, ht, s, h => by
    unfold rawFn
    exact sound_usedParams hc ps (fun u hu => hc _ ht u (by simp [children, hu]))
      (sound_used hc false r (hc _ ht r (by simp [children])) h)
  | .ctype .., ht, s, h => by unfold rawFn; exact h
  | .enum .., ht, s, h => by unfold rawFn; exact h
  | .comp .., ht, s, h => by unfold rawFn; exact h
  | .incomplete .., ht, s, h => by unfold rawFn; exact h

theorem sound_fieldFn {R : Ty → Prop} (hc : ∀ t, R t → ∀ u ∈ children t, R u) : ∀ (pre below : Bool) (t : Ty) (_ : R t)
    {s : St H} (_ : Sound e R s), Sound e R (fieldFn e pre below t s)
  | pre, _, .ptr _ t, ht, s, h => by
    unfold fieldFn; exact sound_fieldFn hc pre true t (hc _ ht t (by simp [children])) h
  | pre, below, .const _ t, ht, s, h => by
    unfold fieldFn; exact sound_fieldFn hc pre below t (hc _ ht t (by simp [children])) h
  | pre, true, .ref _ t, ht, s, h => by
    unfold fieldFn; exact sound_fieldFn hc pre true t (hc _ ht t (by simp [children])) h
  | _, false, .ref _ t, ht, s, h => by unfold fieldFn; exact h
  | pre, true, .tdef _ n t, ht, s, h => by
    unfold fieldFn
    exact sound_fieldFn hc pre true t (hc _ ht t (by simp [children])) (sound_register e _ n t ht h)
  | _, false, .tdef _ n t, ht, s, h => by unfold fieldFn; exact h
  | pre, true, .fn _ _ _ r ps, ht, s, h => by
    have hr : R r := hc _ ht r (by simp [children])
    have hps : ∀ u ∈ paramTypes ps, R u := fun u hu => hc _ ht u (by simp [children, hu])
    unfold fieldFn
    dsimp only
    apply sound_fieldFn hc false false r hr
    apply sound_extraParams hc ps hps
    apply sound_usedParams hc ps hps
    apply sound_used hc false r hr
    split
    · exact sound_usedParams hc ps hps (sound_used hc false r hr h)
    · exact h
  | _, false, .fn .., ht, s, h => by unfold fieldFn; exact h
  | _, _, .ctype .., ht, s, h => by unfold fieldFn; exact h
  | _, _, .enum .., ht, s, h => by unfold fieldFn; exact h
  | _, _, .comp .., ht, s, h => by unfold fieldFn; exact h
  | _, _, .incomplete .., ht, s, h => by unfold fieldFn; exact h

theorem sound_extraParams {R : Ty → Prop} (hc : ∀ t, R t → ∀ u ∈ children t, R u) : ∀ (ps : Params)
    (_ : ∀ u ∈ paramTypes ps, R u) {s : St H} (_ : Sound e R s), Sound e R (extraParams e ps s)
  | .nil, _, s, h => by unfold extraParams; exact h
  | .cons _ t _ rest, hr, s, h => by
    have ht : R t := hr t (by simp [paramTypes])
    unfold extraParams
    exact sound_extraParams hc rest (fun u hu => hr u (by simp [paramTypes, hu]))
      (sound_fieldFn hc true false t ht (sound_registerRaw e hc t ht (sound_used hc false t ht h)))
end

theorem sound_foldl {R : Ty → Prop} (hc : ∀ t, R t → ∀ u ∈ children t, R u) : ∀ (fs : List FunDecl)
    (_ : ∀ f ∈ fs, R f.ret ∧ ∀ u ∈ paramTypes f.params, R u) {s : St H} (_ : Sound e R s),
    Sound e R (fs.foldl (fun s f => usedFun e f s) s)
  | [], _, s, h => h
  | f :: fs, hr, s, h => by
    obtain ⟨h1, h2⟩ := hr f (by simp)
    refine sound_foldl hc fs (fun g hg => hr g (by simp [hg])) ?_
    unfold usedFun
    exact sound_extraParams e hc _ h2 (sound_fieldFn e hc _ _ _ h1 (sound_fieldFn e hc _ _ _ h1
      (sound_used e hc _ _ h1 (sound_registerRaw e hc _ h1 h))))

theorem sound_lateLoop {R : Ty → Prop} (hc : ∀ t, R t → ∀ u ∈ children t, R u) : ∀ (l : List Ty)
    (_ : ∀ t ∈ l, R t) {s : St H} (_ : Sound e R s), Sound e R (lateLoop e l s)
  | [], _, s, h => h
  | t :: ts, hr, s, h => by
    unfold lateLoop
    exact sound_lateLoop hc ts (fun u hu => hr u (by simp [hu]))
      ((sound_used e hc true t (hr t (by simp)) h).of_eq rfl rfl rfl rfl rfl rfl)

theorem sound_emit (fs : List FunDecl) : Sound e (fun t => ∃ b, Occ fs b t) (emit e fs) := by
  have hc : ∀ t, (∃ b, Occ fs b t) → ∀ u ∈ children t, ∃ b, Occ fs b u := fun t ⟨b, h⟩ u hu => ⟨_, .child h hu⟩
  have h := sound_foldl e hc fs (fun f hf => ⟨⟨_, .ret hf⟩, fun u hu => ⟨_, .param hf hu⟩⟩)
    (s := {}) ⟨by simp, by simp, by simp, by simp, by simp, by simp⟩
  exact sound_lateLoop e hc _ h.late h

end

end EasyMock.Emit
