import Verif.Emit.Good
import Verif.Emit.Once

/-!
# The invariant of the emission

Auxiliary definitions and lemmas for `Verif.Emit.Valid`.
-/

namespace EasyMock.Emit

open EasyMock.Types

/-! ## Bodies -/

/-- More names are known. -/
structure CEnv.Le (c d : CEnv) : Prop where
  declared : ∀ x, x ∈ c.declared → x ∈ d.declared
  complete : ∀ x, x ∈ c.complete → x ∈ d.complete
  tds : ∀ x, x ∈ c.tds → x ∈ d.tds
  enums : ∀ x, x ∈ c.enums → x ∈ d.enums

theorem CEnv.Le.refl (c : CEnv) : c.Le c := ⟨fun _ h => h, fun _ h => h, fun _ h => h, fun _ h => h⟩

section
variable {H : Type} (e : Env H)

mutual
theorem nameable_mono {c d : CEnv} (h : c.Le d) : ∀ (ip : Bool) (t : Ty),
    nameable e c ip t = true → nameable e d ip t = true
  | _, .ctype .., _ => by unfold nameable; rfl
  | ip, .ptr _ t, ht => by unfold nameable at ht ⊢; exact nameable_mono h ip t ht
  | ip, .ref _ t, ht => by unfold nameable at ht ⊢; exact nameable_mono h ip t ht
  | ip, .const _ t, ht => by unfold nameable at ht ⊢; exact nameable_mono h ip t ht
  | _, .tdef _ n _, ht => by
    unfold nameable at ht ⊢
    simp only [List.contains_iff_mem] at ht ⊢
    exact h.tds _ ht
  | _, .enum i n vs, ht => by
    unfold nameable at ht ⊢
    simp only [List.contains_iff_mem] at ht ⊢
    exact h.enums _ ht
  | ip, .comp i kw n fs emb fwd ms, ht => by
    unfold nameable at ht ⊢
    simp only [List.contains_iff_mem, Bool.or_eq_true] at ht ⊢
    exact ht.imp id (h.declared _)
  | ip, .incomplete _ k n, ht => by
    unfold nameable at ht ⊢
    simp only [List.contains_iff_mem, Bool.or_eq_true] at ht ⊢
    exact ht.imp id (h.declared _)
  | ip, .fn _ _ _ r ps, ht => by
    unfold nameable at ht ⊢
    simp only [Bool.and_eq_true] at ht ⊢
    exact ⟨nameable_mono h ip r ht.1, paramsNameable_mono h ps ht.2⟩

theorem paramsNameable_mono {c d : CEnv} (h : c.Le d) : ∀ (ps : Params),
    paramsNameable e c ps = true → paramsNameable e d ps = true
  | .nil, _ => by unfold paramsNameable; rfl
  | .cons _ t _ rest, ht => by
    unfold paramsNameable at ht ⊢
    simp only [Bool.and_eq_true] at ht ⊢
    exact ⟨nameable_mono h true t ht.1, paramsNameable_mono h rest ht.2⟩
end

theorem completeIn_mono {c d : CEnv} (h : c.Le d) : ∀ (t : Ty),
    completeIn e c t = true → completeIn e d t = true
  | .ctype .., _ => by unfold completeIn; rfl
  | .ptr .., _ => by unfold completeIn; rfl
  | .ref .., _ => by unfold completeIn; rfl
  | .const _ t, ht => by unfold completeIn at ht ⊢; exact completeIn_mono h t ht
  | .tdef _ _ t, ht => by unfold completeIn at ht ⊢; exact completeIn_mono h t ht
  | .enum i n vs, ht => by
    unfold completeIn at ht ⊢
    simp only [List.contains_iff_mem] at ht ⊢
    exact h.enums _ ht
  | .comp .., ht => by
    unfold completeIn at ht ⊢
    simp only [List.contains_iff_mem] at ht ⊢
    exact h.complete _ ht
  | .incomplete .., ht => by
    unfold completeIn at ht ⊢
    simp only [List.contains_iff_mem] at ht ⊢
    exact h.complete _ ht
  | .fn .., ht => by unfold completeIn at ht; cases ht

theorem objectOk_mono {c d : CEnv} (h : c.Le d) (t : Ty) (ht : objectOk e c t = true) : objectOk e d t = true := by
  unfold objectOk at ht ⊢
  simp only [Bool.and_eq_true] at ht ⊢
  exact ⟨nameable_mono e h _ t ht.1, completeIn_mono e h t ht.2⟩

mutual
/-- A declaration inside a body which declares nothing. -/
def declGood (c : CEnv) : Decl → Prop
  | .mk kw n body ms => if body = true then n = "" ∧ bodyGood c ms else (kw, n) ∈ c.complete

/-- A body which declares nothing. -/
def bodyGood (c : CEnv) : Members → Prop
  | .nil => True
  | .plain _ t _ rest => objectOk e c t = true ∧ bodyGood c rest
  | .sub d _ rest => declGood c d ∧ bodyGood c rest
end

mutual
theorem declGood_mono {c d : CEnv} (h : c.Le d) : ∀ x : Decl, declGood e c x → declGood e d x
  | .mk kw n true ms, hx => by
    unfold declGood at hx ⊢
    simp only [if_true] at hx ⊢
    exact ⟨hx.1, bodyGood_mono h ms hx.2⟩
  | .mk kw n false ms, hx => by
    unfold declGood at hx ⊢
    simp only [Bool.false_eq_true, if_false] at hx ⊢
    exact h.complete _ hx

theorem bodyGood_mono {c d : CEnv} (h : c.Le d) : ∀ x : Members, bodyGood e c x → bodyGood e d x
  | .nil, _ => by unfold bodyGood; trivial
  | .plain _ t _ rest, hx => by
    unfold bodyGood at hx ⊢
    exact ⟨objectOk_mono e h t hx.1, bodyGood_mono h rest hx.2⟩
  | .sub x _ rest, hx => by
    unfold bodyGood at hx ⊢
    exact ⟨declGood_mono h x hx.1, bodyGood_mono h rest hx.2⟩
end

mutual
theorem declOk_good {c : CEnv} : ∀ x : Decl, declGood e c x → declOk e c x = some c
  | .mk kw n true ms, hx => by
    unfold declGood at hx
    simp only [if_true] at hx
    unfold declOk
    rw [membersOk_good ms hx.2]
    simp [hx.1]
  | .mk kw n false ms, hx => by
    unfold declGood at hx
    simp only [Bool.false_eq_true, if_false] at hx
    unfold declOk
    simp [hx]

theorem membersOk_good {c : CEnv} : ∀ x : Members, bodyGood e c x → membersOk e c x = some c
  | .nil, _ => by unfold membersOk; rfl
  | .plain _ t _ rest, hx => by
    unfold bodyGood at hx
    unfold membersOk
    rw [if_pos hx.1]
    exact membersOk_good rest hx.2
  | .sub x _ rest, hx => by
    unfold bodyGood at hx
    unfold membersOk
    rw [declOk_good x hx.1]
    exact membersOk_good rest hx.2
end

/-! ## The state -/

/-- Keyword and tag of a composite type. -/
def label : Ty → Kw × String
  | .comp i kw n fs emb fwd ms => (kw, tagOf e (.comp i kw n fs emb fwd ms))
  | .incomplete _ k n => (k, n)
  | _ => (.struct, "")

/-- The tags which will have been declared when the late declarations have been made. -/
def lateTags (l : List Ty) : List (Kw × String) :=
  l.filterMap (fun t => match tagged t with | some (kw, n) => if n = "" then none else some (kw, n) | none => none)

/-- The names known after the declarations made so far. -/
def envOf (s : St H) : CEnv where
  declared := s.fwds ++ lateTags s.late
  complete := s.comps.map (fun c => label e c.ty)
  tds := s.tds.map (·.1)
  enums := s.ens.map (·.1)

/-- What one call adds. -/
structure Le (R : Ty → Prop) (s s' : St H) : Prop where
  gen : ∀ h, h ∈ s.gen → h ∈ s'.gen
  fwdSet : ∀ h, h ∈ s.fwdSet → h ∈ s'.fwdSet
  tdSet : ∀ h, h ∈ s.tdSet → h ∈ s'.tdSet
  enSet : ∀ h, h ∈ s.enSet → h ∈ s'.enSet
  fwds : ∀ h, h ∈ s.fwds → h ∈ s'.fwds
  tds : ∀ h, h ∈ s.tds → h ∈ s'.tds
  ens : ∀ h, h ∈ s.ens → h ∈ s'.ens
  comps : ∃ l, s'.comps = s.comps ++ l
  late : ∃ l, s'.late = s.late ++ l ∧ ∀ u ∈ l, R u ∧ isLate u = true
  dangling : s'.dangling = s.dangling
  invalidated : s'.invalidated = s.invalidated

/-- A call which only registers typedefs and repeats late declarations. -/
structure Quiet (R : Ty → Prop) (s s' : St H) : Prop where
  gen : s'.gen = s.gen
  fwdSet : s'.fwdSet = s.fwdSet
  tdSet : s'.tdSet = s.tdSet
  enSet : s'.enSet = s.enSet
  fwds : s'.fwds = s.fwds
  tds : s'.tds = s.tds
  ens : s'.ens = s.ens
  comps : s'.comps = s.comps
  late : ∃ l, s'.late = s.late ++ l ∧ ∀ u ∈ l, R u ∧ isLate u = true
  reg : ∀ x ∈ s'.reg, x ∈ s.reg ∨ ∃ i t, R (.tdef i x.2 t) ∧ x.1 = e.hash t
  dangling : s'.dangling = s.dangling
  invalidated : s'.invalidated = s.invalidated

theorem Le.refl (R : Ty → Prop) (s : St H) : Le R s s :=
  ⟨fun _ h => h, fun _ h => h, fun _ h => h, fun _ h => h, fun _ h => h, fun _ h => h, fun _ h => h,
    ⟨[], by simp⟩, ⟨[], by simp, by simp⟩, rfl, rfl⟩

theorem Le.trans {R : Ty → Prop} {s t u : St H} (a : Le R s t) (b : Le R t u) : Le R s u where
  gen h hh := b.gen h (a.gen h hh)
  fwdSet h hh := b.fwdSet h (a.fwdSet h hh)
  tdSet h hh := b.tdSet h (a.tdSet h hh)
  enSet h hh := b.enSet h (a.enSet h hh)
  fwds h hh := b.fwds h (a.fwds h hh)
  tds h hh := b.tds h (a.tds h hh)
  ens h hh := b.ens h (a.ens h hh)
  comps := by
    obtain ⟨l, hl⟩ := a.comps
    obtain ⟨m, hm⟩ := b.comps
    exact ⟨l ++ m, by rw [hm, hl, List.append_assoc]⟩
  late := by
    obtain ⟨l, hl, pl⟩ := a.late
    obtain ⟨m, hm, pm⟩ := b.late
    exact ⟨l ++ m, by rw [hm, hl, List.append_assoc], fun u hu => (List.mem_append.1 hu).elim (pl u) (pm u)⟩
  dangling := b.dangling.trans a.dangling
  invalidated := b.invalidated.trans a.invalidated

theorem Le.weaken {R R' : Ty → Prop} {s t : St H} (h : ∀ u, R u → R' u) (a : Le R s t) : Le R' s t :=
  { a with late := by obtain ⟨l, hl, pl⟩ := a.late; exact ⟨l, hl, fun u hu => ⟨h u (pl u hu).1, (pl u hu).2⟩⟩ }

theorem Quiet.refl (R : Ty → Prop) (s : St H) : Quiet e R s s :=
  ⟨rfl, rfl, rfl, rfl, rfl, rfl, rfl, rfl, ⟨[], by simp, by simp⟩, fun _ h => Or.inl h, rfl, rfl⟩

theorem Quiet.trans {R : Ty → Prop} {s t u : St H} (a : Quiet e R s t) (b : Quiet e R t u) : Quiet e R s u where
  gen := b.gen.trans a.gen
  fwdSet := b.fwdSet.trans a.fwdSet
  tdSet := b.tdSet.trans a.tdSet
  enSet := b.enSet.trans a.enSet
  fwds := b.fwds.trans a.fwds
  tds := b.tds.trans a.tds
  ens := b.ens.trans a.ens
  comps := b.comps.trans a.comps
  late := by
    obtain ⟨l, hl, pl⟩ := a.late
    obtain ⟨m, hm, pm⟩ := b.late
    exact ⟨l ++ m, by rw [hm, hl, List.append_assoc], fun u hu => (List.mem_append.1 hu).elim (pl u) (pm u)⟩
  reg x hx := (b.reg x hx).elim (a.reg x) Or.inr
  dangling := b.dangling.trans a.dangling
  invalidated := b.invalidated.trans a.invalidated

theorem Quiet.le {R : Ty → Prop} {s t : St H} (a : Quiet e R s t) : Le R s t where
  gen h hh := a.gen ▸ hh
  fwdSet h hh := a.fwdSet ▸ hh
  tdSet h hh := a.tdSet ▸ hh
  enSet h hh := a.enSet ▸ hh
  fwds h hh := a.fwds ▸ hh
  tds h hh := a.tds ▸ hh
  ens h hh := a.ens ▸ hh
  comps := ⟨[], by simp [a.comps]⟩
  late := a.late
  dangling := a.dangling
  invalidated := a.invalidated

theorem lateTags_append (l m : List Ty) : lateTags (l ++ m) = lateTags l ++ lateTags m := List.filterMap_append

theorem envOf_le {R : Ty → Prop} {s t : St H} (a : Le R s t) : (envOf e s).Le (envOf e t) where
  declared x hx := by
    obtain ⟨l, hl, -⟩ := a.late
    simp only [envOf, List.mem_append, hl, lateTags_append] at hx ⊢
    exact hx.elim (fun h => Or.inl (a.fwds _ h)) (fun h => Or.inr (Or.inl h))
  complete x hx := by
    obtain ⟨l, hl⟩ := a.comps
    simp only [envOf, hl, List.map_append, List.mem_append] at hx ⊢
    exact Or.inl hx
  tds x hx := by
    simp only [envOf, List.mem_map] at hx ⊢
    obtain ⟨y, hy, rfl⟩ := hx
    exact ⟨y, a.tds _ hy, rfl⟩
  enums x hx := by
    simp only [envOf, List.mem_map] at hx ⊢
    obtain ⟨y, hy, rfl⟩ := hx
    exact ⟨y, a.ens _ hy, rfl⟩

mutual
/-- The type has been handled: handling it once more does nothing. -/
def Known (s : St H) : Ty → Prop
  | .ctype c k i => e.hash (.ctype c k i) ∈ s.gen
  | .ref i t => e.hash (.ref i t) ∈ s.gen
  | .ptr _ t => Known s t
  | .const _ t => Known s t
  | .tdef i n t => e.hash (.tdef i n t) ∈ s.gen
  | .enum i n vs => e.hash (.enum i n vs) ∈ s.gen
  | .comp i kw n fs emb fwd ms => e.hash (.comp i kw n fs emb fwd ms) ∈ s.gen ∨
      (whole fs = false ∧ .comp i kw n fs emb fwd ms ∈ s.late)
  | .incomplete f k n => e.hash (.incomplete f k n) ∈ s.fwdSet
  | .fn _ _ _ r ps => Known s r ∧ KnownParams s ps

/-- The same for the parameters of a function type. -/
def KnownParams (s : St H) : Params → Prop
  | .nil => True
  | .cons _ t _ rest => Known s t ∧ KnownParams s rest
end

mutual
theorem Known.mono {R : Ty → Prop} {s s' : St H} (a : Le R s s') : ∀ t : Ty, Known e s t → Known e s' t
  | .ctype c k i, h => by unfold Known at h ⊢; exact a.gen _ h
  | .ref i t, h => by unfold Known at h ⊢; exact a.gen _ h
  | .ptr _ t, h => by unfold Known at h ⊢; exact Known.mono a t h
  | .const _ t, h => by unfold Known at h ⊢; exact Known.mono a t h
  | .tdef i n t, h => by unfold Known at h ⊢; exact a.gen _ h
  | .enum i n vs, h => by unfold Known at h ⊢; exact a.gen _ h
  | .comp i kw n fs emb fwd ms, h => by
    unfold Known at h ⊢
    obtain ⟨l, hl, -⟩ := a.late
    exact h.imp (a.gen _) (fun h => ⟨h.1, by rw [hl]; exact List.mem_append_left _ h.2⟩)
  | .incomplete f k n, h => by unfold Known at h ⊢; exact a.fwdSet _ h
  | .fn _ _ _ r ps, h => by
    unfold Known at h ⊢
    exact ⟨Known.mono a r h.1, KnownParams.mono a ps h.2⟩

theorem KnownParams.mono {R : Ty → Prop} {s s' : St H} (a : Le R s s') : ∀ ps : Params,
    KnownParams e s ps → KnownParams e s' ps
  | .nil, _ => by unfold KnownParams; trivial
  | .cons _ t _ rest, h => by
    unfold KnownParams at h ⊢
    exact ⟨Known.mono a t h.1, KnownParams.mono a rest h.2⟩
end

theorem KnownParams.mem {s : St H} : ∀ {ps : Params}, KnownParams e s ps → ∀ t ∈ paramTypes ps, Known e s t
  | .nil, _, t, ht => by simp [paramTypes] at ht
  | .cons _ u _ rest, h, t, ht => by
    unfold KnownParams at h
    simp only [paramTypes, List.mem_cons] at ht
    rcases ht with rfl | ht
    · exact h.1
    · exact KnownParams.mem h.2 t ht

/-- What is known of a type whose hash is in `m_generateTypes`; `A` are the types being handled. -/
def GenOk (A : List Ty) (s : St H) : Ty → Prop
  | .comp i kw n fs emb fwd ms =>
    (n ≠ "" → (kw, n) ∈ s.fwds) ∧
    (fwd = true ∨ .comp i kw n fs emb fwd ms ∈ A ∨
      ((kw, tagOf e (.comp i kw n fs emb fwd ms)) ∈ (envOf e s).complete ∧ ∀ u ∈ fieldTypes fs, Known e s u))
  | .tdef i n t =>
    n ∈ (envOf e s).tds ∧ e.hash (.tdef i n t) ∈ s.tdSet ∧ (.tdef i n t ∈ A ∨ Known e s t)
  | .enum i n vs => tagOf e (.enum i n vs) ∈ (envOf e s).enums ∧ e.hash (.enum i n vs) ∈ s.enSet
  | _ => True

theorem GenOk.mono {R : Ty → Prop} {A A' : List Ty} {s s' : St H} (hA : ∀ t ∈ A, t ∈ A') (a : Le R s s') :
    ∀ t : Ty, GenOk e A s t → GenOk e A' s' t
  | .comp i kw n fs emb fwd ms, h => by
    unfold GenOk at h ⊢
    refine ⟨fun hn => a.fwds _ (h.1 hn), h.2.imp id (Or.imp (hA _) ?_)⟩
    exact fun h => ⟨(envOf_le e a).complete _ h.1, fun u hu => Known.mono e a u (h.2 u hu)⟩
  | .tdef i n t, h => by
    unfold GenOk at h ⊢
    exact ⟨(envOf_le e a).tds _ h.1, a.tdSet _ h.2.1, h.2.2.imp (hA _) (Known.mono e a t)⟩
  | .enum i n vs, h => by
    unfold GenOk at h ⊢
    exact ⟨(envOf_le e a).enums _ h.1, a.enSet _ h.2⟩
  | .ctype .., _ => by unfold GenOk; trivial
  | .ptr .., _ => by unfold GenOk; trivial
  | .ref .., _ => by unfold GenOk; trivial
  | .const .., _ => by unfold GenOk; trivial
  | .incomplete .., _ => by unfold GenOk; trivial
  | .fn .., _ => by unfold GenOk; trivial

/-- A section of the header is the definition of a composite type with a body which declares nothing. -/
def CompOk (Q : Ty → Prop) (c : CEnv) (x : Comp) : Prop :=
  ∃ i kw n fs emb fwd ms mem, x.ty = .comp i kw n fs emb fwd ms ∧ Q x.ty ∧ CompGuard e Q x.ty x.guard ∧
    x.decl = .mk kw (tagOf e x.ty) true mem ∧ bodyGood e c mem

/-- Every section is valid after the ones before it. -/
def SeqOk (Q : Ty → Prop) (c : CEnv) : List (Kw × String) → List Comp → Prop
  | _, [] => True
  | done, x :: xs => CompOk e Q { c with complete := done } x ∧ SeqOk Q c (done ++ [label e x.ty]) xs

theorem CompOk.mono {Q : Ty → Prop} {c d : CEnv} (h : c.Le d) {x : Comp} (hx : CompOk e Q c x) : CompOk e Q d x := by
  obtain ⟨i, kw, n, fs, emb, fwd, ms, mem, h1, h2, h3, h4, h5⟩ := hx
  exact ⟨i, kw, n, fs, emb, fwd, ms, mem, h1, h2, h3, h4, bodyGood_mono e h mem h5⟩

theorem SeqOk.mono {Q : Ty → Prop} {c d : CEnv} (h : c.Le d) : ∀ {done : List (Kw × String)} {xs : List Comp},
    SeqOk e Q c done xs → SeqOk e Q d done xs
  | _, [], _ => trivial
  | done, _ :: _, hx =>
    ⟨CompOk.mono e (c := { c with complete := done }) (d := { d with complete := done })
      ⟨h.declared, fun _ h => h, h.tds, h.enums⟩ hx.1, SeqOk.mono h hx.2⟩

theorem SeqOk.append {Q : Ty → Prop} {c : CEnv} : ∀ {done : List (Kw × String)} {xs ys : List Comp},
    SeqOk e Q c done xs → SeqOk e Q c (done ++ xs.map (fun x => label e x.ty)) ys → SeqOk e Q c done (xs ++ ys)
  | _, [], _, _, hy => by simpa using hy
  | done, x :: xs, ys, hx, hy => by
    refine ⟨hx.1, SeqOk.append hx.2 ?_⟩
    rw [List.append_assoc]
    exact hy

/-- The invariant; `A` are the types being handled, `Q` the types which occur. -/
structure Inv (Q : Ty → Prop) (A : List Ty) (s : St H) : Prop where
  gen : ∀ t, Q t → e.hash t ∈ s.gen → GenOk e A s t
  fwdSet : ∀ t k n, Q t → tagged t = some (k, n) → e.hash t ∈ s.fwdSet → (k, n) ∈ s.fwds
  tdSet : ∀ i n t, Q (.tdef i n t) → e.hash (.tdef i n t) ∈ s.tdSet → n ∈ (envOf e s).tds
  enSet : ∀ i n vs, Q (.enum i n vs) → e.hash (.enum i n vs) ∈ s.enSet → tagOf e (.enum i n vs) ∈ (envOf e s).enums
  fwds : ∀ x ∈ s.fwds, ∃ t, Q t ∧ tagged t = some x
  tds : ∀ x ∈ s.tds, ∃ i, Q (.tdef i x.1 x.2) ∧
    (.tdef i x.1 x.2 ∈ A ∨ nameable e (envOf e s) false x.2 = true)
  ens : ∀ x ∈ s.ens, ∃ i n vs, Q (.enum i n vs) ∧ x.1 = tagOf e (.enum i n vs)
  reg : ∀ x ∈ s.reg, ∃ i t, Q (.tdef i x.2 t) ∧ x.1 = e.hash t
  late : ∀ t ∈ s.late, Q t ∧ isLate t = true
  comps : SeqOk e Q (envOf e s) [] s.comps
  dangling : s.dangling = false

/-- The invariant of a larger state: only what is new has to be shown. -/
theorem Inv.extend {Q R : Ty → Prop} {A A' : List Ty} {s s' : St H} (hR : ∀ t, R t → Q t) (hA : ∀ t ∈ A, t ∈ A')
    (hi : Inv e Q A s) (a : Le R s s')
    (gen : ∀ t, Q t → e.hash t ∈ s'.gen → e.hash t ∈ s.gen ∨ GenOk e A' s' t)
    (fwdSet : ∀ t k n, Q t → tagged t = some (k, n) → e.hash t ∈ s'.fwdSet → e.hash t ∈ s.fwdSet ∨ (k, n) ∈ s'.fwds)
    (tdSet : ∀ i n t, Q (.tdef i n t) → e.hash (.tdef i n t) ∈ s'.tdSet →
      e.hash (.tdef i n t) ∈ s.tdSet ∨ n ∈ (envOf e s').tds)
    (enSet : ∀ i n vs, Q (.enum i n vs) → e.hash (.enum i n vs) ∈ s'.enSet →
      e.hash (.enum i n vs) ∈ s.enSet ∨ tagOf e (.enum i n vs) ∈ (envOf e s').enums)
    (fwds : ∀ x ∈ s'.fwds, x ∈ s.fwds ∨ ∃ t, Q t ∧ tagged t = some x)
    (tds : ∀ x ∈ s'.tds, x ∈ s.tds ∨ ∃ i, Q (.tdef i x.1 x.2) ∧
      (.tdef i x.1 x.2 ∈ A' ∨ nameable e (envOf e s') false x.2 = true))
    (ens : ∀ x ∈ s'.ens, x ∈ s.ens ∨ ∃ i n vs, Q (.enum i n vs) ∧ x.1 = tagOf e (.enum i n vs))
    (reg : ∀ x ∈ s'.reg, x ∈ s.reg ∨ ∃ i t, Q (.tdef i x.2 t) ∧ x.1 = e.hash t)
    (comps : ∃ l, s'.comps = s.comps ++ l ∧ SeqOk e Q (envOf e s') (envOf e s).complete l) :
    Inv e Q A' s' where
  gen t ht hh := (gen t ht hh).elim (fun h => GenOk.mono e hA a t (hi.gen t ht h)) id
  fwdSet t k n ht hk hh := (fwdSet t k n ht hk hh).elim (fun h => a.fwds _ (hi.fwdSet t k n ht hk h)) id
  tdSet i n t ht hh := (tdSet i n t ht hh).elim (fun h => (envOf_le e a).tds _ (hi.tdSet i n t ht h)) id
  enSet i n t ht hh := (enSet i n t ht hh).elim (fun h => (envOf_le e a).enums _ (hi.enSet i n t ht h)) id
  fwds x hx := (fwds x hx).elim (hi.fwds x) id
  tds x hx := by
    rcases tds x hx with h | h
    · obtain ⟨i, hq, h⟩ := hi.tds x h
      exact ⟨i, hq, h.imp (hA _) (nameable_mono e (envOf_le e a) _ _)⟩
    · exact h
  ens x hx := (ens x hx).elim (hi.ens x) id
  reg x hx := (reg x hx).elim (hi.reg x) id
  late t ht := by
    obtain ⟨l, hl, pl⟩ := a.late
    rw [hl] at ht
    rcases List.mem_append.1 ht with h | h
    · exact hi.late t h
    · exact ⟨hR t (pl t h).1, (pl t h).2⟩
  comps := by
    obtain ⟨l, hl, ok⟩ := comps
    rw [hl]
    exact SeqOk.append e (SeqOk.mono e (envOf_le e a) hi.comps) ok
  dangling := by rw [a.dangling]; exact hi.dangling

theorem Inv.quiet {Q R : Ty → Prop} {A : List Ty} {s s' : St H} (hR : ∀ t, R t → Q t) (hi : Inv e Q A s)
    (a : Quiet e R s s') : Inv e Q A s' := by
  refine Inv.extend e hR (fun _ h => h) hi (a.le e) ?_ ?_ ?_ ?_ ?_ ?_ ?_ ?_ ⟨[], by simp [a.comps], trivial⟩
  · exact fun t _ h => Or.inl (a.gen ▸ h)
  · exact fun t _ _ _ _ h => Or.inl (a.fwdSet ▸ h)
  · exact fun _ _ _ _ h => Or.inl (a.tdSet ▸ h)
  · exact fun _ _ _ _ h => Or.inl (a.enSet ▸ h)
  · exact fun _ h => Or.inl (a.fwds ▸ h)
  · exact fun _ h => Or.inl (a.tds ▸ h)
  · exact fun _ h => Or.inl (a.ens ▸ h)
  · exact fun x h => (a.reg x h).imp id (fun ⟨i, t, h1, h2⟩ => ⟨i, t, hR _ h1, h2⟩)

/-- The type leaves the stack. -/
theorem Inv.pop {Q : Ty → Prop} {A : List Ty} {T : Ty} {s : St H} (hi : Inv e Q (T :: A) s)
    (hg : GenOk e A s T) (ht : ∀ i n t, T = .tdef i n t → nameable e (envOf e s) false t = true) : Inv e Q A s :=
  { hi with
    gen := by
      intro t hq hh
      have h := hi.gen t hq hh
      cases t with
      | comp i kw n fs emb fwd ms =>
        unfold GenOk at h ⊢
        refine ⟨h.1, ?_⟩
        rcases h.2 with h' | h' | h'
        · exact Or.inl h'
        · rcases List.mem_cons.1 h' with h' | h'
          · rw [← h'] at hg
            unfold GenOk at hg
            exact hg.2
          · exact Or.inr (Or.inl h')
        · exact Or.inr (Or.inr h')
      | tdef i n t =>
        unfold GenOk at h ⊢
        refine ⟨h.1, h.2.1, ?_⟩
        rcases h.2.2 with h' | h'
        · rcases List.mem_cons.1 h' with h' | h'
          · rw [← h'] at hg
            unfold GenOk at hg
            exact hg.2.2
          · exact Or.inl h'
        · exact Or.inr h'
      | _ => unfold GenOk at h ⊢; first | exact h | trivial
    tds := by
      intro x hx
      obtain ⟨i, hq, h⟩ := hi.tds x hx
      refine ⟨i, hq, ?_⟩
      rcases h with h | h
      · rcases List.mem_cons.1 h with h | h
        · exact Or.inr (ht i _ _ h.symm)
        · exact Or.inl h
      · exact Or.inr h }

end

end EasyMock.Emit
