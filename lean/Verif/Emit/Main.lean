import Verif.Emit.Bodies

/-!
# Every used type is handled

Auxiliary lemmas for `Verif.Props.Emit`.
-/

namespace EasyMock.Emit

open EasyMock.Types

set_option linter.unusedSectionVars false

section
variable {H : Type} [DecidableEq H] (e : Env H)

theorem attrs_comp_name (i : Bool) (kw : Kw) (n : String) (fs : Fields) (emb fwd : Bool) (ms : Methods) :
    (attrs (.comp i kw n fs emb fwd ms)).name = n := by cases kw <;> rfl

theorem tagOf_named {i : Bool} {kw : Kw} {n : String} {fs : Fields} {emb fwd : Bool} {ms : Methods} (hn : n ≠ "") :
    tagOf e (.comp i kw n fs emb fwd ms) = n := by
  simp [tagOf, attrs_comp_name, hn]

/-- What the loop over the members does. -/
structure BodyStep (Q R : Ty → Prop) (A : List Ty) (s : St H) (r : Members × St H) : Prop where
  inv : Inv e Q A r.2
  le : Le R s r.2
  gen : r.2.gen = s.gen
  comps : r.2.comps = s.comps
  good : bodyGood e (envOf e r.2) r.1

theorem members_plain {Q R : Ty → Prop} (hc : Closed Q R) {A : List Ty} {B : Kw × String → Prop} (d : String)
    (t : Ty) (n : String) (a : Int) (rest : Fields) (hnc : notComp t = true) (ht : R t ∧ byValue B t)
    (hsz : ∀ a ∈ A, sizeOf t < sizeOf a) (s : St H) (hi : Inv e Q A s) (hB : ∀ x, B x → x ∈ (envOf e s).complete)
    (hkt : Known e s t)
    (ih : ∀ s', Inv e Q A s' → (∀ x, B x → x ∈ (envOf e s').complete) → (∀ u, Known e s u → Known e s' u) →
      BodyStep e Q R A s' (members e rest s')) :
    BodyStep e Q R A s (members e (.field d t n a rest) s) := by
  rw [members_field e d t n a rest s hnc]
  have q := step_quiet e hc hi t ht.1 hsz hkt
  have hi' := hi.quiet e hc.sub q
  have hB' : ∀ x, B x → x ∈ (envOf e (step e t s)).complete := fun x hx => (envOf_le e (q.le e)).complete _ (hB x hx)
  have r := ih (step e t s) hi' hB' (fun u hu => Known.mono e (q.le e) u hu)
  refine ⟨r.inv, (q.le e).trans r.le, r.gen.trans q.gen, r.comps.trans q.comps, ?_⟩
  unfold bodyGood
  refine ⟨objectOk_mono e (envOf_le e r.le) t ?_, r.good⟩
  have hkt' := Known.mono e (q.le e) t hkt
  unfold objectOk
  rw [known_nameable e hc hi' false t ht.1 (fun h => by cases h) hkt',
    known_complete e hc hi' hB' t ht.1 hsz hkt' ht.2]
  rfl

theorem members_ok {Q R : Ty → Prop} (hw : World e Q) (hc : Closed Q R) {A : List Ty} {B : Kw × String → Prop} :
    ∀ (fs : Fields) (_ : ∀ u ∈ fieldTypes fs, R u ∧ byValue B u) (_ : ∀ u ∈ bitTypes fs, R u ∧ bitOk u = true)
    (_ : ∀ a ∈ A, sizeOf fs < sizeOf a) (s : St H), Inv e Q A s → (∀ x, B x → x ∈ (envOf e s).complete) →
    (∀ u ∈ fieldTypes fs, Known e s u) → BodyStep e Q R A s (members e fs s)
  | .nil, _, _, _, s, hi, _, _ => by
    unfold members
    exact ⟨hi, .refl R s, rfl, rfl, by unfold bodyGood; trivial⟩
  | .field d (.comp i kw m fs emb fwd ms) n a rest, hf, hb, hA, s, hi, hB, hk => by
    have ht := hf (.comp i kw m fs emb fwd ms) (by simp [fieldTypes])
    have hkt := hk (.comp i kw m fs emb fwd ms) (by simp [fieldTypes])
    have hv := ht.2
    unfold byValue at hv
    obtain ⟨rfl, hcomp⟩ := hv
    have hsz : ∀ a ∈ A, sizeOf (Ty.comp i kw m fs emb false ms) < sizeOf a := fun a ha => by
      have := hA a ha; simp at this ⊢; omega
    have hd := hi.defined e (hc.sub _ ht.1) hcomp hkt hsz
    have hgen : e.hash (.comp i kw m fs emb false ms) ∈ s.gen := by
      unfold Known at hkt
      exact hkt.elim id (fun h => by rw [hcomp] at h; cases h.1)
    have hfine := hc.fine _ ht.1
    unfold fine at hfine
    have hchild : ∀ u ∈ fieldTypes fs ++ bitTypes fs, R u :=
      hc.child _ ht.1 (by simp [isLate, hcomp])
    by_cases hm : m = ""
    · subst hm
      have b := members_ok hw hc (A := A) (B := B) fs
        (fun u hu => ⟨hchild u (by simp [hu]), byValue_mono (fun _ h => h.elim) u (hfine.2.1 hcomp u hu)⟩)
        (fun u hu => ⟨hchild u (by simp [hu]), hfine.2.2 u hu⟩)
        (fun a ha => by have := hA a ha; simp at this; omega) s hi hB hd.2
      have r := members_ok hw hc (A := A) (B := B) rest (fun u hu => hf u (by simp [fieldTypes, hu]))
        (fun u hu => hb u (by simp [bitTypes, hu])) (fun a ha => by have := hA a ha; simp at this; omega)
        (members e fs s).2 b.inv (fun x hx => (envOf_le e b.le).complete _ (hB x hx))
        (fun u hu => Known.mono e b.le u (hk u (by simp [fieldTypes, hu])))
      unfold members
      have hif : (!"".isEmpty && s.gen.contains (e.hash (.comp i kw "" fs emb false ms))) = false := by simp
      simp only [hif, Bool.false_eq_true, if_false]
      refine ⟨r.inv, b.le.trans r.le, r.gen.trans b.gen, r.comps.trans b.comps, ?_⟩
      unfold bodyGood
      refine ⟨?_, r.good⟩
      have : subDecl e kw (.comp i kw "" fs emb false ms) (members e fs s).1 s = .mk kw "" true (members e fs s).1 := by
        unfold subDecl
        simp [attrs_comp_name]
      rw [this]
      unfold declGood
      exact ⟨rfl, bodyGood_mono e (envOf_le e r.le) _ b.good⟩
    · have r := members_ok hw hc (A := A) (B := B) rest (fun u hu => hf u (by simp [fieldTypes, hu]))
        (fun u hu => hb u (by simp [bitTypes, hu])) (fun a ha => by have := hA a ha; simp at this; omega)
        s hi hB (fun u hu => hk u (by simp [fieldTypes, hu]))
      have hif : (!m.isEmpty && s.gen.contains (e.hash (.comp i kw m fs emb false ms))) = true := by simp [hm, hgen]
      unfold members
      simp only [hif, if_true]
      refine ⟨r.inv, r.le, r.gen, r.comps, ?_⟩
      unfold bodyGood
      refine ⟨?_, r.good⟩
      have : subDecl e kw (.comp i kw m fs emb false ms) .nil s = .mk kw m false .nil := by
        unfold subDecl
        simp [attrs_comp_name, hm, hgen]
      rw [this]
      unfold declGood
      have := (envOf_le e r.le).complete _ hd.1
      rw [tagOf_named e hm] at this
      simpa using this
  | .bit d (.comp i kw m fs emb fwd ms) n a rest, hf, hb, hA, s, hi, hB, hk => by
    have ht := hb (.comp i kw m fs emb fwd ms) (by simp [bitTypes])
    exact absurd ht.2 (by simp [bitOk])
  | .field d (.ctype c k j) n a rest, hf, hb, hA, s, hi, hB, hk =>
    members_plain e hc d _ n a rest rfl (hf _ (by simp [fieldTypes])) (fun a ha => by have := hA a ha; simp at this; simp; omega) s hi hB
      (hk _ (by simp [fieldTypes])) (fun s' hi' hB' hk' => members_ok hw hc (A := A) (B := B) rest
        (fun u hu => hf u (by simp [fieldTypes, hu])) (fun u hu => hb u (by simp [bitTypes, hu]))
        (fun a ha => by have := hA a ha; simp at this; omega) s' hi' hB' (fun u hu => hk' u (hk u (by simp [fieldTypes, hu]))))
  | .field d (.ptr j t) n a rest, hf, hb, hA, s, hi, hB, hk =>
    members_plain e hc d _ n a rest rfl (hf _ (by simp [fieldTypes])) (fun a ha => by have := hA a ha; simp at this; simp; omega) s hi hB
      (hk _ (by simp [fieldTypes])) (fun s' hi' hB' hk' => members_ok hw hc (A := A) (B := B) rest
        (fun u hu => hf u (by simp [fieldTypes, hu])) (fun u hu => hb u (by simp [bitTypes, hu]))
        (fun a ha => by have := hA a ha; simp at this; omega) s' hi' hB' (fun u hu => hk' u (hk u (by simp [fieldTypes, hu]))))
  | .field d (.ref j t) n a rest, hf, hb, hA, s, hi, hB, hk =>
    members_plain e hc d _ n a rest rfl (hf _ (by simp [fieldTypes])) (fun a ha => by have := hA a ha; simp at this; simp; omega) s hi hB
      (hk _ (by simp [fieldTypes])) (fun s' hi' hB' hk' => members_ok hw hc (A := A) (B := B) rest
        (fun u hu => hf u (by simp [fieldTypes, hu])) (fun u hu => hb u (by simp [bitTypes, hu]))
        (fun a ha => by have := hA a ha; simp at this; omega) s' hi' hB' (fun u hu => hk' u (hk u (by simp [fieldTypes, hu]))))
  | .field d (.const j t) n a rest, hf, hb, hA, s, hi, hB, hk =>
    members_plain e hc d _ n a rest rfl (hf _ (by simp [fieldTypes])) (fun a ha => by have := hA a ha; simp at this; simp; omega) s hi hB
      (hk _ (by simp [fieldTypes])) (fun s' hi' hB' hk' => members_ok hw hc (A := A) (B := B) rest
        (fun u hu => hf u (by simp [fieldTypes, hu])) (fun u hu => hb u (by simp [bitTypes, hu]))
        (fun a ha => by have := hA a ha; simp at this; omega) s' hi' hB' (fun u hu => hk' u (hk u (by simp [fieldTypes, hu]))))
  | .field d (.tdef j m t) n a rest, hf, hb, hA, s, hi, hB, hk =>
    members_plain e hc d _ n a rest rfl (hf _ (by simp [fieldTypes])) (fun a ha => by have := hA a ha; simp at this; simp; omega) s hi hB
      (hk _ (by simp [fieldTypes])) (fun s' hi' hB' hk' => members_ok hw hc (A := A) (B := B) rest
        (fun u hu => hf u (by simp [fieldTypes, hu])) (fun u hu => hb u (by simp [bitTypes, hu]))
        (fun a ha => by have := hA a ha; simp at this; omega) s' hi' hB' (fun u hu => hk' u (hk u (by simp [fieldTypes, hu]))))
  | .field d (.enum j m vs) n a rest, hf, hb, hA, s, hi, hB, hk =>
    members_plain e hc d _ n a rest rfl (hf _ (by simp [fieldTypes])) (fun a ha => by have := hA a ha; simp at this; simp; omega) s hi hB
      (hk _ (by simp [fieldTypes])) (fun s' hi' hB' hk' => members_ok hw hc (A := A) (B := B) rest
        (fun u hu => hf u (by simp [fieldTypes, hu])) (fun u hu => hb u (by simp [bitTypes, hu]))
        (fun a ha => by have := hA a ha; simp at this; omega) s' hi' hB' (fun u hu => hk' u (hk u (by simp [fieldTypes, hu]))))
  | .field d (.incomplete f k m) n a rest, hf, hb, hA, s, hi, hB, hk =>
    members_plain e hc d _ n a rest rfl (hf _ (by simp [fieldTypes])) (fun a ha => by have := hA a ha; simp at this; simp; omega) s hi hB
      (hk _ (by simp [fieldTypes])) (fun s' hi' hB' hk' => members_ok hw hc (A := A) (B := B) rest
        (fun u hu => hf u (by simp [fieldTypes, hu])) (fun u hu => hb u (by simp [bitTypes, hu]))
        (fun a ha => by have := hA a ha; simp at this; omega) s' hi' hB' (fun u hu => hk' u (hk u (by simp [fieldTypes, hu]))))
  | .field d (.fn j inf rs r ps) n a rest, hf, hb, hA, s, hi, hB, hk =>
    members_plain e hc d _ n a rest rfl (hf _ (by simp [fieldTypes])) (fun a ha => by have := hA a ha; simp at this; simp; omega) s hi hB
      (hk _ (by simp [fieldTypes])) (fun s' hi' hB' hk' => members_ok hw hc (A := A) (B := B) rest
        (fun u hu => hf u (by simp [fieldTypes, hu])) (fun u hu => hb u (by simp [bitTypes, hu]))
        (fun a ha => by have := hA a ha; simp at this; omega) s' hi' hB' (fun u hu => hk' u (hk u (by simp [fieldTypes, hu]))))
  | .bit d t n a rest, hf, hb, hA, s, hi, hB, hk => by
    have ht := hb t (by simp [bitTypes])
    have hnc : notComp t = true := by
      cases t with
      | comp => exact absurd ht.2 (by simp [bitOk])
      | _ => rfl
    rw [members_bit e d t n a rest s hnc]
    have q := step_bit e hw hc hi t ht.1 ht.2
    have hB' : ∀ x, B x → x ∈ (envOf e (step e t s)).complete := fun x hx => (envOf_le e q.le).complete _ (hB x hx)
    have r := members_ok hw hc (A := A) (B := B) rest (fun u hu => hf u (by simp [fieldTypes, hu]))
      (fun u hu => hb u (by simp [bitTypes, hu])) (fun a ha => by have := hA a ha; simp at this; omega)
      (step e t s) q.inv hB' (fun u hu => Known.mono e q.le u (hk u (by simp [fieldTypes, hu])))
    refine ⟨r.inv, q.le.trans r.le, r.gen.trans q.gen, r.comps.trans q.comps, ?_⟩
    unfold bodyGood
    exact ⟨objectOk_mono e (envOf_le e r.le) t q.ok, r.good⟩

/-! ## A composite type -/

theorem anonymousName_guard {Q R : Ty → Prop} (hw : World e Q) (hc : Closed Q R) {A : List Ty} {s : St H}
    (hi : Inv e Q A s) {t : Ty} {kw : Kw} (hq : Q t) (ht : tagged t = some (kw, "")) :
    CompGuard e Q t (kw.str ++ anonymousName e t s) := by
  unfold anonymousName
  split
  · rename_i x hx
    split
    · exact .anon ht
    · have hm := List.mem_of_find?_eq_some hx
      have hh : x.1 = e.hash t := by simpa using List.find?_some hx
      obtain ⟨i, u, hu, hxu⟩ := hi.reg x hm
      have : t = u := hw.hash t u hq (hc.typee _ _ _ hu) (hh.symm.trans hxu)
      subst this
      exact .typedef ht hu
  · exact .anon ht

theorem compGuard_ok {Q R : Ty → Prop} (hw : World e Q) (hc : Closed Q R) {A : List Ty} {s : St H}
    (hi : Inv e Q A s) {i : Bool} {kw : Kw} {n : String} {fs : Fields} {emb fwd : Bool} {ms : Methods}
    (hq : Q (.comp i kw n fs emb fwd ms)) :
    CompGuard e Q (.comp i kw n fs emb fwd ms) (compGuard e kw (.comp i kw n fs emb fwd ms) s) := by
  unfold compGuard
  rw [attrs_comp_name]
  by_cases hn : n = ""
  · subst hn
    rw [if_pos (by simp)]
    exact anonymousName_guard e hw hc hi hq rfl
  · rw [if_neg (by simpa using hn)]
    exact .named rfl hn

/-- The section of a composite type whose members have been handled. -/
theorem comp_step {Q R : Ty → Prop} (hw : World e Q) (hc : Closed Q R) {A : List Ty} {B : Kw × String → Prop}
    {i : Bool} {kw : Kw} {n : String} {fs : Fields} {emb fwd : Bool} {ms : Methods}
    (hq : Q (.comp i kw n fs emb fwd ms))
    (hf : ∀ u ∈ fieldTypes fs, R u ∧ byValue B u) (hb : ∀ u ∈ bitTypes fs, R u ∧ bitOk u = true)
    (hA : ∀ a ∈ A, sizeOf (Ty.comp i kw n fs emb fwd ms) < sizeOf a) (s : St H)
    (hi : Inv e Q (.comp i kw n fs emb fwd ms :: A) s) (hB : ∀ x, B x → x ∈ (envOf e s).complete)
    (hk : ∀ u ∈ fieldTypes fs, Known e s u) (hg : e.hash (.comp i kw n fs emb fwd ms) ∈ s.gen) :
    Inv e Q A { (members e fs s).2 with
      comps := s.comps ++ [⟨.comp i kw n fs emb fwd ms, compGuard e kw (.comp i kw n fs emb fwd ms) s,
        .mk kw (tag e (.comp i kw n fs emb fwd ms)) true (members e fs s).1⟩] ++
        (members e fs s).2.comps.drop s.comps.length } ∧
    Le R s { (members e fs s).2 with
      comps := s.comps ++ [⟨.comp i kw n fs emb fwd ms, compGuard e kw (.comp i kw n fs emb fwd ms) s,
        .mk kw (tag e (.comp i kw n fs emb fwd ms)) true (members e fs s).1⟩] ++
        (members e fs s).2.comps.drop s.comps.length } := by
  have r := members_ok e hw hc (A := .comp i kw n fs emb fwd ms :: A) (B := B) fs hf hb
    (fun a ha => by
      rcases List.mem_cons.1 ha with rfl | ha
      · simp; omega
      · have := hA a ha; simp at this; omega) s hi hB hk
  generalize hr : members e fs s = r' at r ⊢
  obtain ⟨mem, s3⟩ := r'
  have hc3 : s3.comps = s.comps := r.comps
  have hdrop : s3.comps.drop s.comps.length = [] := by rw [hc3]; simp
  simp only [hdrop, List.append_nil]
  have hle3 : Le R s3 { s3 with comps := s.comps ++ [⟨.comp i kw n fs emb fwd ms,
      compGuard e kw (.comp i kw n fs emb fwd ms) s, .mk kw (tag e (.comp i kw n fs emb fwd ms)) true mem⟩] } :=
    { Le.refl R s3 with comps := ⟨_, by rw [hc3]⟩ }
  refine ⟨?_, r.le.trans hle3⟩
  have hfw : n ≠ "" → (kw, n) ∈ s3.fwds := by
    have := r.inv.gen _ hq (r.gen ▸ hg)
    unfold GenOk at this
    exact this.1
  refine Inv.pop e (T := .comp i kw n fs emb fwd ms) ?_ ?_ (fun _ _ _ h => by cases h)
  · refine Inv.extend e hc.sub (fun _ h => h) r.inv hle3 (fun _ _ h => Or.inl h) (fun _ _ _ _ _ h => Or.inl h)
      (fun _ _ _ _ h => Or.inl h) (fun _ _ _ _ h => Or.inl h) (fun _ h => Or.inl h) (fun _ h => Or.inl h)
      (fun _ h => Or.inl h) (fun _ h => Or.inl h)
      ⟨[_], (congrArg (fun l => l ++ [_]) hc3.symm : _), ?_⟩
    refine ⟨?_, trivial⟩
    exact ⟨i, kw, n, fs, emb, fwd, ms, mem, rfl, hq, compGuard_ok e hw hc hi hq, rfl, r.good⟩
  · unfold GenOk
    refine ⟨hfw, Or.inr (Or.inr ⟨?_, fun u hu => Known.mono e (r.le.trans hle3) u (hk u hu)⟩)⟩
    simp [envOf, label]

/-! ## The traversal -/

/-- What handling a type does. -/
structure Handled (Q R : Ty → Prop) (A : List Ty) (s s' : St H) : Prop where
  inv : Inv e Q A s'
  le : Le R s s'

theorem Handled.trans {Q R : Ty → Prop} {A : List Ty} {s s' s'' : St H} (a : Handled e Q R A s s')
    (b : Handled e Q R A s' s'') : Handled e Q R A s s'' := ⟨b.inv, a.le.trans b.le⟩

theorem registerRaw_gen : ∀ (t : Ty) (s : St H) (g : List H),
    registerRaw e t { s with gen := g } = { registerRaw e t s with gen := g }
  | .ptr _ t, s, g => registerRaw_gen t s g
  | .ref _ t, s, g => registerRaw_gen t s g
  | .const _ t, s, g => registerRaw_gen t s g
  | .tdef _ n t, s, g => by
    have : register e n t { s with gen := g } = { register e n t s with gen := g } := by
      unfold register
      split <;> rfl
    show registerRaw e t (register e n t { s with gen := g }) = _
    rw [this]
    exact registerRaw_gen t _ g
  | .ctype .., _, _ => rfl
  | .enum .., _, _ => rfl
  | .comp .., _, _ => rfl
  | .incomplete .., _, _ => rfl
  | .fn .., _, _ => rfl

/-- A composite type is put on the stack. -/
theorem push_comp {Q R : Ty → Prop} (hw : World e Q) (hc : Closed Q R) {A : List Ty} {s : St H} (hi : Inv e Q A s)
    {i : Bool} {kw : Kw} {n : String} {fs : Fields} {emb fwd : Bool} {ms : Methods}
    (hq : Q (.comp i kw n fs emb fwd ms)) :
    Handled e Q R (.comp i kw n fs emb fwd ms :: A) s (forward e (.comp i kw n fs emb fwd ms)
      { s with gen := e.hash (.comp i kw n fs emb fwd ms) :: s.gen }) ∧
    (forward e (.comp i kw n fs emb fwd ms) { s with gen := e.hash (.comp i kw n fs emb fwd ms) :: s.gen }).gen =
      e.hash (.comp i kw n fs emb fwd ms) :: s.gen := by
  refine ⟨?_, (forward_gen e _ _).1⟩
  have hpush : ∀ t ∈ A, t ∈ Ty.comp i kw n fs emb fwd ms :: A := fun t h => List.mem_cons_of_mem _ h
  have hi' : Inv e Q (.comp i kw n fs emb fwd ms :: A) s :=
    Inv.extend e (R := R) hc.sub hpush hi (.refl R s) (fun _ _ h => Or.inl h) (fun _ _ _ _ _ h => Or.inl h)
      (fun _ _ _ _ h => Or.inl h) (fun _ _ _ _ h => Or.inl h) (fun _ h => Or.inl h) (fun _ h => Or.inl h)
      (fun _ h => Or.inl h) (fun _ h => Or.inl h) ⟨[], by simp, trivial⟩
  unfold forward
  rw [attrs_comp_name]
  split
  · rename_i hn
    refine ⟨hi'.insert e hw hq ?_, le_insert R s _⟩
    unfold GenOk
    exact ⟨fun h => absurd (by simpa using hn) h, Or.inr (Or.inl List.mem_cons_self)⟩
  · rename_i hn
    split
    · rename_i hs
      refine ⟨hi'.insert e hw hq ?_, le_insert R s _⟩
      unfold GenOk
      exact ⟨fun _ => hi.fwdSet _ kw n hq rfl (by simpa using hs), Or.inr (Or.inl List.mem_cons_self)⟩
    · dsimp only
      let T : Ty := .comp i kw n fs emb fwd ms
      have hle : Le R s { s with fwdSet := e.hash T :: s.fwdSet, fwds := s.fwds ++ [(kw, n)] } :=
        { Le.refl R s with
          fwdSet := fun h hh => List.mem_cons_of_mem _ hh
          fwds := fun h hh => List.mem_append_left _ hh }
      have hf : Inv e Q (.comp i kw n fs emb fwd ms :: A) { s with
          fwdSet := e.hash T :: s.fwdSet, fwds := s.fwds ++ [(kw, n)] } := by
        refine Inv.extend e hc.sub (fun _ h => h) hi' hle (fun _ _ h => Or.inl h) ?_
          (fun _ _ _ _ h => Or.inl h) (fun _ _ _ _ h => Or.inl h) ?_ (fun _ h => Or.inl h)
          (fun _ h => Or.inl h) (fun _ h => Or.inl h) ⟨[], by simp, trivial⟩
        · intro t k m ht hk hh
          rcases List.mem_cons.1 hh with h | h
          · have := hw.hash _ _ ht hq h
            subst this
            cases hk
            exact Or.inr (by simp)
          · exact Or.inl h
        · intro x hx
          rcases List.mem_append.1 hx with h | h
          · exact Or.inl h
          · rw [List.mem_singleton.1 h]
            exact Or.inr ⟨_, hq, rfl⟩
      refine ⟨hf.insert e hw hq ?_, hle.trans (le_insert R _ _)⟩
      unfold GenOk
      exact ⟨fun _ => by simp, Or.inr (Or.inl List.mem_cons_self)⟩

mutual
theorem used_ok {Q R : Ty → Prop} (hw : World e Q) (hc : Closed Q R) : ∀ (A : List Ty) (t : Ty) (_ : R t)
    (_ : ∀ a ∈ A, sizeOf t < sizeOf a) (s : St H), Inv e Q A s →
    Handled e Q R A s (used e false t s) ∧ Known e (used e false t s) t
  | A, .ctype c k i, hr, hA, s, hi => by
    unfold used
    split
    · rename_i h
      exact ⟨⟨hi, .refl R s⟩, by unfold Known; simpa using h⟩
    · exact ⟨⟨hi.insert e hw (hc.sub _ hr) (by unfold GenOk; trivial), le_insert R s _⟩, by unfold Known; simp⟩
  | A, .ref i t, hr, hA, s, hi => (hc.fine _ hr).elim
  | A, .ptr i t, hr, hA, s, hi => by
    unfold used Known
    exact used_ok hw hc A t (hc.child _ hr rfl t (by simp [children]))
      (fun a ha => by have := hA a ha; simp at this; omega) s hi
  | A, .const i t, hr, hA, s, hi => by
    unfold used Known
    exact used_ok hw hc A t (hc.child _ hr rfl t (by simp [children]))
      (fun a ha => by have := hA a ha; simp at this; omega) s hi
  | A, .enum i n vs, hr, hA, s, hi => by
    unfold used
    split
    · rename_i h
      exact ⟨⟨hi, .refl R s⟩, by unfold Known; simpa using h⟩
    · have hgen : enumOut e (.enum i n vs) { s with gen := e.hash (.enum i n vs) :: s.gen } =
          { enumOut e (.enum i n vs) s with gen := e.hash (.enum i n vs) :: s.gen } := by
        unfold enumOut
        dsimp only
        split <;> (split <;> rfl)
      obtain ⟨a, b, c, d, f, g⟩ := enumOut_ok e R hc.sub hw hi (hc.sub _ hr) (hc.fine _ hr)
      rw [hgen, ← f]
      refine ⟨⟨a.insert e hw (hc.sub _ hr) ?_, b.trans (le_insert R _ _)⟩, by unfold Known; simp⟩
      unfold GenOk
      exact ⟨c, d⟩
  | A, .incomplete f k n, hr, hA, s, hi => by
    have hn : n ≠ "" := hc.fine _ hr
    have hne : (attrs (.incomplete f k n)).name.isEmpty = false := by
      show n.isEmpty = false
      simpa using hn
    unfold used forward
    rw [hne]
    simp only [Bool.false_eq_true, if_false]
    split
    · rename_i h
      exact ⟨⟨hi, .refl R s⟩, by unfold Known; simpa using h⟩
    · have hle : Le R s { s with fwdSet := e.hash (.incomplete f k n) :: s.fwdSet, fwds := s.fwds ++ [(k, n)] } :=
        { Le.refl R s with
          fwdSet := fun h hh => List.mem_cons_of_mem _ hh
          fwds := fun h hh => List.mem_append_left _ hh }
      refine ⟨⟨?_, hle⟩, by unfold Known; simp⟩
      refine Inv.extend e hc.sub (fun _ h => h) hi hle (fun _ _ h => Or.inl h) ?_
        (fun _ _ _ _ h => Or.inl h) (fun _ _ _ _ h => Or.inl h) ?_ (fun _ h => Or.inl h)
        (fun _ h => Or.inl h) (fun _ h => Or.inl h) ⟨[], by simp, trivial⟩
      · intro t k' m ht hk hh
        rcases List.mem_cons.1 hh with h | h
        · have := hw.hash _ _ ht (hc.sub _ hr) h
          subst this
          cases hk
          exact Or.inr (by simp)
        · exact Or.inl h
      · intro x hx
        rcases List.mem_append.1 hx with h | h
        · exact Or.inl h
        · rw [List.mem_singleton.1 h]
          exact Or.inr ⟨_, hc.sub _ hr, rfl⟩
  | A, .fn i inf rs r ps, hr, hA, s, hi => by
    unfold used Known
    obtain ⟨h1, k1⟩ := used_ok hw hc A r (hc.child _ hr rfl r (by simp [children]))
      (fun a ha => by have := hA a ha; simp at this; omega) s hi
    obtain ⟨h2, k2⟩ := usedParams_ok hw hc A ps (fun u hu => hc.child _ hr rfl u (by simp [children, hu]))
      (fun a ha => by have := hA a ha; simp at this; omega) _ h1.inv
    exact ⟨h1.trans e h2, Known.mono e h2.le r k1, k2⟩
  | A, .tdef i n t, hr, hA, s, hi => by
    have hrt : R t := hc.child _ hr rfl t (by simp [children])
    have hsz : ∀ a ∈ Ty.tdef i n t :: A, sizeOf t < sizeOf a := fun a ha => by
      rcases List.mem_cons.1 ha with rfl | ha
      · simp; omega
      · have := hA a ha; simp at this; omega
    have hpush : ∀ u ∈ A, u ∈ Ty.tdef i n t :: A := fun u h => List.mem_cons_of_mem _ h
    unfold used
    split
    · rename_i h
      exact ⟨⟨hi, .refl R s⟩, by unfold Known; simpa using h⟩
    · dsimp only
      have hstart : ∀ s' : St H, s' = (if s.tdSet.contains (e.hash (.tdef i n t)) = true then
            { s with gen := e.hash (.tdef i n t) :: s.gen }
          else rawFn e t (addTypedef e i n t { s with gen := e.hash (.tdef i n t) :: s.gen })) →
          Handled e Q R (.tdef i n t :: A) s s' ∧ e.hash (.tdef i n t) ∈ s'.gen := by
        intro s' hs'
        split at hs'
        · rename_i h
          rw [hs']
          refine ⟨⟨?_, le_insert R s _⟩, List.mem_cons_self⟩
          have hi' : Inv e Q (.tdef i n t :: A) s :=
            Inv.extend e (R := R) hc.sub hpush hi (.refl R s) (fun _ _ h => Or.inl h) (fun _ _ _ _ _ h => Or.inl h)
              (fun _ _ _ _ h => Or.inl h) (fun _ _ _ _ h => Or.inl h) (fun _ h => Or.inl h) (fun _ h => Or.inl h)
              (fun _ h => Or.inl h) (fun _ h => Or.inl h) ⟨[], by simp, trivial⟩
          refine hi'.insert e hw (hc.sub _ hr) ?_
          unfold GenOk
          exact ⟨hi.tdSet _ _ _ (hc.sub _ hr) (by simpa using h), by simpa using h, Or.inl List.mem_cons_self⟩
        · have hgen : addTypedef e i n t { s with gen := e.hash (.tdef i n t) :: s.gen } =
              { addTypedef e i n t s with gen := e.hash (.tdef i n t) :: s.gen } := by
            unfold addTypedef
            exact registerRaw_gen e t
              { s with tdSet := e.hash (.tdef i n t) :: s.tdSet, tds := s.tds ++ [(n, t)] } _
          obtain ⟨a, b, c, d, f, g⟩ := addTypedef_ok e hw hc hi hpush hr (Or.inl List.mem_cons_self)
          rw [hgen, ← f] at hs'
          have hins := a.insert e hw (hc.sub _ hr) (T := .tdef i n t)
            (by unfold GenOk; exact ⟨c, d, Or.inl List.mem_cons_self⟩)
          have h2 := rawFn_ok hw hc (.tdef i n t :: A) t hrt hsz _ hins
          rw [hs']
          exact ⟨⟨h2.inv, b.trans ((le_insert R _ _).trans h2.le)⟩, h2.le.gen _ List.mem_cons_self⟩
      obtain ⟨h1, g1⟩ := hstart _ rfl
      obtain ⟨h2, k2⟩ := used_ok hw hc (.tdef i n t :: A) t hrt hsz _ h1.inv
      have hg := h2.le.gen _ g1
      refine ⟨⟨?_, h1.le.trans h2.le⟩, by unfold Known; exact hg⟩
      refine Inv.pop e h2.inv ?_ ?_
      · have := h2.inv.gen _ (hc.sub _ hr) hg
        unfold GenOk at this ⊢
        exact ⟨this.1, this.2.1, Or.inr k2⟩
      · intro i' n' t' h
        cases h
        exact known_nameable e hc h2.inv false t hrt (fun h => by cases h) k2
  | A, .comp i kw n fs emb fwd ms, hr, hA, s, hi => by
    unfold used
    dsimp only; rw [isComplete_eq]
    split
    · rename_i h
      exact ⟨⟨hi, .refl R s⟩, by unfold Known; exact Or.inl (by simpa using h)⟩
    · by_cases hcomp : whole fs = true
      · rw [hcomp]
        simp only [Bool.true_or, if_true]
        obtain ⟨h1, g1⟩ := push_comp e hw hc hi (hc.sub _ hr)
        have hg1 : e.hash (.comp i kw n fs emb fwd ms) ∈ (forward e (.comp i kw n fs emb fwd ms)
            { s with gen := e.hash (.comp i kw n fs emb fwd ms) :: s.gen }).gen := by rw [g1]; exact List.mem_cons_self
        have hfine := hc.fine _ hr
        unfold fine at hfine
        have hchild : ∀ u ∈ fieldTypes fs ++ bitTypes fs, R u :=
          hc.child _ hr (by simp [isLate, hcomp])
        split
        · rename_i hfwd
          refine ⟨⟨Inv.pop e h1.inv ?_ (fun _ _ _ h => by cases h), h1.le⟩, by unfold Known; exact Or.inl hg1⟩
          have := h1.inv.gen _ (hc.sub _ hr) hg1
          unfold GenOk at this ⊢
          exact ⟨this.1, Or.inl hfwd⟩
        · obtain ⟨h2, k2⟩ := usedFields_ok hw hc (.comp i kw n fs emb fwd ms :: A) fs
            (fun u hu => hchild u (by simp [hu])) (fun a ha => by
              rcases List.mem_cons.1 ha with rfl | ha
              · simp; omega
              · have := hA a ha; simp at this; omega) _ h1.inv
          have hg2 := h2.le.gen _ hg1
          obtain ⟨h3, l3⟩ := comp_step e hw hc (hc.sub _ hr) (B := fun _ => False)
            (fun u hu => ⟨hchild u (by simp [hu]), hfine.2.1 hcomp u hu⟩)
            (fun u hu => ⟨hchild u (by simp [hu]), hfine.2.2 u hu⟩) hA _ h2.inv (fun _ h => h.elim) k2 hg2
          refine ⟨⟨h3, h1.le.trans (h2.le.trans l3)⟩, ?_⟩
          unfold Known
          exact Or.inl (l3.gen _ hg2)
      · have hcomp' : whole fs = false := by simpa using hcomp
        rw [hcomp']
        simp only [Bool.false_or, Bool.false_eq_true, if_false]
        have hle : Le R s { s with late := s.late ++ [.comp i kw n fs emb fwd ms] } :=
          { Le.refl R s with late := ⟨_, rfl, by simp [hr, isLate, hcomp']⟩ }
        refine ⟨⟨?_, hle⟩, ?_⟩
        · exact Inv.extend e hc.sub (fun _ h => h) hi hle (fun _ _ h => Or.inl h) (fun _ _ _ _ _ h => Or.inl h)
            (fun _ _ _ _ h => Or.inl h) (fun _ _ _ _ h => Or.inl h) (fun _ h => Or.inl h) (fun _ h => Or.inl h)
            (fun _ h => Or.inl h) (fun _ h => Or.inl h) ⟨[], by simp, trivial⟩
        · unfold Known
          exact Or.inr ⟨hcomp', by simp⟩

theorem usedFields_ok {Q R : Ty → Prop} (hw : World e Q) (hc : Closed Q R) : ∀ (A : List Ty) (fs : Fields)
    (_ : ∀ u ∈ fieldTypes fs, R u) (_ : ∀ a ∈ A, sizeOf fs < sizeOf a) (s : St H), Inv e Q A s →
    Handled e Q R A s (usedFields e fs s) ∧ ∀ u ∈ fieldTypes fs, Known e (usedFields e fs s) u
  | A, .nil, _, _, s, hi => by
    unfold usedFields
    exact ⟨⟨hi, .refl R s⟩, by simp [fieldTypes]⟩
  | A, .field d t n a rest, hr, hA, s, hi => by
    unfold usedFields
    obtain ⟨h1, k1⟩ := used_ok hw hc A t (hr t (by simp [fieldTypes]))
      (fun a ha => by have := hA a ha; simp at this; omega) s hi
    obtain ⟨h2, k2⟩ := usedFields_ok hw hc A rest (fun u hu => hr u (by simp [fieldTypes, hu]))
      (fun a ha => by have := hA a ha; simp at this; omega) _ h1.inv
    refine ⟨h1.trans e h2, fun u hu => ?_⟩
    simp only [fieldTypes, List.mem_cons] at hu
    rcases hu with rfl | hu
    · exact Known.mono e h2.le u k1
    · exact k2 u hu
  | A, .bit d t n k rest, hr, hA, s, hi => by
    unfold usedFields
    exact usedFields_ok hw hc A rest hr (fun a ha => by have := hA a ha; simp at this; omega) s hi

theorem usedParams_ok {Q R : Ty → Prop} (hw : World e Q) (hc : Closed Q R) : ∀ (A : List Ty) (ps : Params)
    (_ : ∀ u ∈ paramTypes ps, R u) (_ : ∀ a ∈ A, sizeOf ps < sizeOf a) (s : St H), Inv e Q A s →
    Handled e Q R A s (usedParams e ps s) ∧ KnownParams e (usedParams e ps s) ps
  | A, .nil, _, _, s, hi => by
    unfold usedParams KnownParams
    exact ⟨⟨hi, .refl R s⟩, trivial⟩
  | A, .cons d t n rest, hr, hA, s, hi => by
    unfold usedParams KnownParams
    obtain ⟨h1, k1⟩ := used_ok hw hc A t (hr t (by simp [paramTypes]))
      (fun a ha => by have := hA a ha; simp at this; omega) s hi
    obtain ⟨h2, k2⟩ := usedParams_ok hw hc A rest (fun u hu => hr u (by simp [paramTypes, hu]))
      (fun a ha => by have := hA a ha; simp at this; omega) _ h1.inv
    exact ⟨h1.trans e h2, Known.mono e h2.le t k1, k2⟩

theorem rawFn_ok {Q R : Ty → Prop} (hw : World e Q) (hc : Closed Q R) : ∀ (A : List Ty) (t : Ty) (_ : R t)
    (_ : ∀ a ∈ A, sizeOf t < sizeOf a) (s : St H), Inv e Q A s → Handled e Q R A s (rawFn e t s)
  | A, .ptr i t, hr, hA, s, hi => by
    unfold rawFn
    exact rawFn_ok hw hc A t (hc.child _ hr rfl t (by simp [children]))
      (fun a ha => by have := hA a ha; simp at this; omega) s hi
  | A, .ref i t, hr, hA, s, hi => (hc.fine _ hr).elim
  | A, .const i t, hr, hA, s, hi => by
    unfold rawFn
    exact rawFn_ok hw hc A t (hc.child _ hr rfl t (by simp [children]))
      (fun a ha => by have := hA a ha; simp at this; omega) s hi
  | A, .tdef i n t, hr, hA, s, hi => by
    unfold rawFn
    exact rawFn_ok hw hc A t (hc.child _ hr rfl t (by simp [children]))
      (fun a ha => by have := hA a ha; simp at this; omega) s hi
  | A, .fn i inf rs r ps, hr, hA, s, hi => by
    unfold rawFn
    have h1 := (used_ok hw hc A r (hc.child _ hr rfl r (by simp [children]))
      (fun a ha => by have := hA a ha; simp at this; omega) s hi).1
    exact h1.trans e (usedParams_ok hw hc A ps (fun u hu => hc.child _ hr rfl u (by simp [children, hu]))
      (fun a ha => by have := hA a ha; simp at this; omega) _ h1.inv).1
  | A, .ctype .., _, _, s, hi => by unfold rawFn; exact ⟨hi, .refl R s⟩
  | A, .enum .., _, _, s, hi => by unfold rawFn; exact ⟨hi, .refl R s⟩
  | A, .comp .., _, _, s, hi => by unfold rawFn; exact ⟨hi, .refl R s⟩
  | A, .incomplete .., _, _, s, hi => by unfold rawFn; exact ⟨hi, .refl R s⟩
end

end

end EasyMock.Emit
