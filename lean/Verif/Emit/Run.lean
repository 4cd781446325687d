import Verif.Emit.Header

/-!
# The whole run

Auxiliary lemmas for `Verif.Props.Emit`.
-/

namespace EasyMock.Emit

open EasyMock.Types

set_option linter.unusedSectionVars false

section
variable {H : Type} [DecidableEq H] (e : Env H)

theorem KnownParams.of_mem {s : St H} : ∀ {ps : Params}, (∀ t ∈ paramTypes ps, Known e s t) → KnownParams e s ps
  | .nil, _ => by unfold KnownParams; trivial
  | .cons d t n rest, h => by
    unfold KnownParams
    exact ⟨h t (by simp [paramTypes]), KnownParams.of_mem (fun u hu => h u (by simp [paramTypes, hu]))⟩

theorem extraParams_ok {Q R : Ty → Prop} (hw : World e Q) (hc : Closed Q R) : ∀ (ps : Params)
    (_ : ∀ u ∈ paramTypes ps, R u) (s : St H), Inv e Q [] s →
    Handled e Q R [] s (extraParams e ps s) ∧ ∀ u ∈ paramTypes ps, Known e (extraParams e ps s) u
  | .nil, _, s, hi => by
    unfold extraParams
    exact ⟨⟨hi, .refl R s⟩, by simp [paramTypes]⟩
  | .cons d t n rest, hr, s, hi => by
    unfold extraParams
    have ht : R t := hr t (by simp [paramTypes])
    obtain ⟨h1, k1⟩ := used_ok e hw hc [] t ht (by simp) s hi
    have q1 := registerRaw_quiet e hc t ht (used e false t s)
    have q2 := q1.trans e (fieldFn_quiet e hc true false t ht (A := []) (by simp) _ (h1.inv.quiet e hc.sub q1)
      (Known.mono e (q1.le e) t k1))
    obtain ⟨h3, k3⟩ := extraParams_ok hw hc rest (fun u hu => hr u (by simp [paramTypes, hu])) _
      (h1.inv.quiet e hc.sub q2)
    refine ⟨⟨h3.inv, h1.le.trans ((q2.le e).trans h3.le)⟩, ?_⟩
    intro u hu
    simp only [paramTypes, List.mem_cons] at hu
    rcases hu with rfl | hu
    · exact Known.mono e ((q2.le e).trans h3.le) u k1
    · exact k3 u hu

theorem usedFun_ok {Q R : Ty → Prop} (hw : World e Q) (hc : Closed Q R) (f : FunDecl) (hret : R f.ret)
    (hps : ∀ u ∈ paramTypes f.params, R u) (s : St H) (hi : Inv e Q [] s) :
    Handled e Q R [] s (usedFun e f s) ∧ Known e (usedFun e f s) f.ret ∧
      ∀ u ∈ paramTypes f.params, Known e (usedFun e f s) u := by
  unfold usedFun
  dsimp only
  have q0 := registerRaw_quiet e hc f.ret hret s
  obtain ⟨h1, k1⟩ := used_ok e hw hc [] f.ret hret (by simp) _ (hi.quiet e hc.sub q0)
  have q1 := fieldFn_quiet e hc true false f.ret hret (A := []) (by simp) _ h1.inv k1
  have q2 := q1.trans e (fieldFn_quiet e hc true false f.ret hret (A := []) (by simp) _
    (h1.inv.quiet e hc.sub q1) (Known.mono e (q1.le e) _ k1))
  obtain ⟨h3, k3⟩ := extraParams_ok e hw hc f.params hps _ (h1.inv.quiet e hc.sub q2)
  exact ⟨⟨h3.inv, (q0.le e).trans (h1.le.trans ((q2.le e).trans h3.le))⟩,
    Known.mono e ((q2.le e).trans h3.le) _ k1, k3⟩

theorem foldl_ok {Q R : Ty → Prop} (hw : World e Q) (hc : Closed Q R) : ∀ (fs : List FunDecl)
    (_ : ∀ f ∈ fs, R f.ret ∧ ∀ u ∈ paramTypes f.params, R u) (s : St H), Inv e Q [] s →
    Handled e Q R [] s (fs.foldl (fun s f => usedFun e f s) s) ∧
      ∀ f ∈ fs, Known e (fs.foldl (fun s f => usedFun e f s) s) f.ret ∧
        ∀ u ∈ paramTypes f.params, Known e (fs.foldl (fun s f => usedFun e f s) s) u
  | [], _, s, hi => ⟨⟨hi, .refl R s⟩, by simp⟩
  | f :: fs, hr, s, hi => by
    obtain ⟨h1, k1, k2⟩ := usedFun_ok e hw hc f (hr f (by simp)).1 (hr f (by simp)).2 s hi
    obtain ⟨h2, k3⟩ := foldl_ok hw hc fs (fun g hg => hr g (by simp [hg])) _ h1.inv
    refine ⟨h1.trans e h2, ?_⟩
    intro g hg
    rcases List.mem_cons.1 hg with rfl | hg
    · exact ⟨Known.mono e h2.le _ k1, fun u hu => Known.mono e h2.le u (k2 u hu)⟩
    · exact k3 g hg

theorem bitOk_child : ∀ (t u : Ty), bitOk t = true → u ∈ children t → bitOk u = true
  | .ctype .., u, _, hu => by simp [children] at hu
  | .const _ (.ctype ..), u, _, hu => by simp [children] at hu; subst hu; rfl
  | .enum .., u, _, hu => by simp [children] at hu
  | .tdef _ _ (.ctype ..), u, _, hu => by simp [children] at hu; subst hu; rfl
  | .tdef _ _ (.const _ (.ctype ..)), u, _, hu => by simp [children] at hu; subst hu; rfl

/-- The components of a type which has been handled have been handled, or are the types of bit-fields. -/
theorem known_child {Q : Ty → Prop} {s : St H} (hi : Inv e Q [] s) : ∀ (t : Ty) (_ : Q t) (_ : fine t)
    (_ : isLate t = true → e.hash t ∈ s.gen), Known e s t → ∀ u ∈ children t, Known e s u ∨ bitOk u = true
  | .ctype .., _, _, _, _, u, hu => by simp [children] at hu
  | .enum .., _, _, _, _, u, hu => by simp [children] at hu
  | .incomplete .., _, _, _, _, u, hu => by simp [children] at hu
  | .ref .., _, hf, _, _, u, hu => hf.elim
  | .ptr i t, _, _, _, h, u, hu => by
    simp [children] at hu; subst hu
    unfold Known at h; exact Or.inl h
  | .const i t, _, _, _, h, u, hu => by
    simp [children] at hu; subst hu
    unfold Known at h; exact Or.inl h
  | .tdef i n t, hq, _, _, h, u, hu => by
    simp [children] at hu; subst hu
    exact Or.inl (hi.typee e hq h (by simp))
  | .fn i inf rs r ps, _, _, _, h, u, hu => by
    unfold Known at h
    simp only [children, List.mem_cons] at hu
    rcases hu with rfl | hu
    · exact Or.inl h.1
    · exact Or.inl (h.2.mem e u hu)
  | .comp i kw n fs emb fwd ms, hq, hf, hl, h, u, hu => by
    have hg : e.hash (.comp i kw n fs emb fwd ms) ∈ s.gen := by
      unfold Known at h
      exact h.elim id (fun h => hl (by simp [isLate, h.1]))
    have g := hi.gen _ hq hg
    unfold GenOk at g
    unfold fine at hf
    simp only [children, List.mem_append] at hu
    rcases hu with hu | hu
    · rcases g.2 with g | g | g
      · rw [(hf.1 g).1] at hu
        cases hu
      · cases g
      · exact Or.inl (g.2 u hu)
    · exact Or.inr (hf.2.2 u hu)

/-! ## The types of the functions -/

theorem closed_main {fs : List FunDecl} (h : Clean e fs) : Closed (fun t => ∃ b, Occ fs b t) (Occ fs false) where
  sub t ht := ⟨false, ht⟩
  child t ht hl u hu := by
    have := Occ.child ht hu
    rw [hl] at this
    exact this
  fine t ht := h.fine _ t ht
  typee i n t := fun ⟨b, hb⟩ => ⟨_, Occ.child hb (by simp [children])⟩

theorem closed_inner {fs : List FunDecl} (h : Clean e fs) : Closed (fun t => ∃ b, Occ fs b t) (Occ fs true) where
  sub t ht := ⟨true, ht⟩
  child t ht hl u hu := by
    have := Occ.child ht hu
    simpa using this
  fine t ht := h.fine _ t ht
  typee i n t := fun ⟨b, hb⟩ => ⟨_, Occ.child hb (by simp [children])⟩

theorem inv_empty (Q : Ty → Prop) : Inv e Q [] {} where
  gen t _ h := by cases h
  fwdSet t _ _ _ _ h := by cases h
  tdSet _ _ _ _ h := by cases h
  enSet _ _ _ _ h := by cases h
  fwds _ h := by cases h
  tds _ h := by cases h
  ens _ h := by cases h
  reg _ h := by cases h
  late _ h := by cases h
  comps := trivial
  dangling := rfl

/-- The tags which may be contained by value in a type which is declared late. -/
def OuterTag (fs : List FunDecl) (x : Kw × String) : Prop :=
  ∃ i' fls' emb' ms', x.2 ≠ "" ∧ whole fls' = true ∧ Occ fs false (.comp i' x.1 x.2 fls' emb' false ms')

/-- A late declaration. -/
theorem used_late {fs : List FunDecl} (h : Clean e fs) (t : Ty) (ht : Occ fs false t) (hl : isLate t = true)
    (s : St H) (hi : Inv e (fun t => ∃ b, Occ fs b t) [] s) (hB : ∀ x, OuterTag fs x → x ∈ (envOf e s).complete) :
    Handled e (fun t => ∃ b, Occ fs b t) (Occ fs true) [] s (used e true t s) ∧ e.hash t ∈ (used e true t s).gen := by
  cases t with
  | comp i kw n fls emb fwd ms =>
    have hcomp : whole fls = false := by simpa [isLate] using hl
    obtain ⟨hfwd, hout⟩ := h.outer _ _ _ _ _ _ _ ht hcomp
    subst hfwd
    unfold used
    dsimp only
    split
    · rename_i hg
      exact ⟨⟨hi, .refl _ s⟩, by simpa using hg⟩
    · simp only [Bool.or_true, if_true, Bool.false_eq_true, if_false]
      have hchild : ∀ u ∈ fieldTypes fls ++ bitTypes fls, Occ fs true u := by
        intro u hu
        have := Occ.child ht (u := u) (by simpa [children] using hu)
        rw [hl] at this
        exact this
      have hfine := h.fine _ _ ht
      unfold fine at hfine
      obtain ⟨h1, g1⟩ := push_comp e h.world (closed_inner e h) hi (i := i) (kw := kw) (n := n) (fs := fls)
        (emb := emb) (fwd := false) (ms := ms) ⟨false, ht⟩
      have hg1 : e.hash (.comp i kw n fls emb false ms) ∈ (forward e (.comp i kw n fls emb false ms)
          { s with gen := e.hash (.comp i kw n fls emb false ms) :: s.gen }).gen := by
        rw [g1]; exact List.mem_cons_self
      obtain ⟨h2, k2⟩ := usedFields_ok e h.world (closed_inner e h) [.comp i kw n fls emb false ms] fls
        (fun u hu => hchild u (by simp [hu])) (fun a ha => by
          rw [List.mem_singleton.1 ha]; simp; omega) _ h1.inv
      have hg2 := h2.le.gen _ hg1
      obtain ⟨h3, l3⟩ := comp_step e h.world (closed_inner e h) (A := []) (B := OuterTag fs) ⟨false, ht⟩
        (fun u hu => ⟨hchild u (by simp [hu]), hout u hu⟩)
        (fun u hu => ⟨hchild u (by simp [hu]), hfine.2.2 u hu⟩) (by simp) _ h2.inv
        (fun x hx => (envOf_le e (h1.le.trans h2.le)).complete _ (hB x hx)) k2 hg2
      exact ⟨⟨h3, h1.le.trans (h2.le.trans l3)⟩, l3.gen _ hg2⟩
  | _ => cases hl

theorem lateLoop_ok {fs : List FunDecl} (h : Clean e fs) : ∀ (l : List Ty)
    (_ : ∀ t ∈ l, Occ fs false t ∧ isLate t = true) (s : St H), Inv e (fun t => ∃ b, Occ fs b t) [] s →
    (∀ x, OuterTag fs x → x ∈ (envOf e s).complete) → s.invalidated = false →
    Inv e (fun t => ∃ b, Occ fs b t) [] (lateLoop e l s) ∧ Le (Occ fs true) s (lateLoop e l s) ∧
      (lateLoop e l s).late = s.late ∧ ∀ t ∈ l, e.hash t ∈ (lateLoop e l s).gen
  | [], _, s, hi, _, hv => ⟨hi, .refl _ s, rfl, by simp⟩
  | t :: l, hl, s, hi, hB, hv => by
    obtain ⟨h1, g1⟩ := used_late e h t (hl t (by simp)).1 (hl t (by simp)).2 s hi hB
    have hlate : (used e true t s).late = s.late := by
      obtain ⟨m, hm, pm⟩ := h1.le.late
      cases m with
      | nil => simpa using hm
      | cons a m =>
        obtain ⟨a1, a2⟩ := pm a (by simp)
        rw [h.inner a a1] at a2
        cases a2
    have hb : ((used e true t s).invalidated || decide (s.late.length < (used e true t s).late.length)) =
        (used e true t s).invalidated := by simp [hlate]
    unfold lateLoop
    dsimp only
    rw [hb]
    obtain ⟨a, b, c, d⟩ := lateLoop_ok h l (fun u hu => hl u (by simp [hu])) _ h1.inv
      (fun x hx => (envOf_le e h1.le).complete _ (hB x hx)) (h1.le.invalidated.trans hv)
    refine ⟨a, h1.le.trans b, c.trans hlate, ?_⟩
    intro u hu
    rcases List.mem_cons.1 hu with rfl | hu
    · exact b.gen _ g1
    · exact d u hu

/-- The last state. -/
theorem emit_ok {fs : List FunDecl} (h : Clean e fs) :
    Inv e (fun t => ∃ b, Occ fs b t) [] (emit e fs) ∧ (emit e fs).invalidated = false ∧
      (∀ t ∈ (emit e fs).late, e.hash t ∈ (emit e fs).gen) ∧
      (∀ b t, Occ fs b t → Known e (emit e fs) t ∨ bitOk t = true) ∧
      ∀ f ∈ fs, Known e (emit e fs) f.ret ∧ ∀ u ∈ paramTypes f.params, Known e (emit e fs) u := by
  obtain ⟨h1, k1⟩ := foldl_ok e h.world (closed_main e h) fs
    (fun f hf => ⟨.ret hf, fun u hu => .param hf hu⟩) {} (inv_empty e _)
  unfold emit
  dsimp only
  generalize hs1 : fs.foldl (fun s f => usedFun e f s) {} = s1 at h1 k1 ⊢
  have hlate : ∀ t ∈ s1.late, Occ fs false t ∧ isLate t = true := by
    obtain ⟨m, hm, pm⟩ := h1.le.late
    intro t ht
    rw [hm] at ht
    exact pm t (by simpa using ht)
  have hmain : ∀ b t, Occ fs b t → b = false → Known e s1 t ∨ bitOk t = true := by
    intro b t ht
    induction ht with
    | ret hf => exact fun _ => Or.inl (k1 _ hf).1
    | param hf hu => exact fun _ => Or.inl ((k1 _ hf).2 _ hu)
    | @child b t u ht hu ih =>
      intro hb
      obtain ⟨hb1, hb2⟩ := Bool.or_eq_false_iff.1 hb
      rcases ih hb1 with h' | h'
      · exact known_child e h1.inv t ⟨_, ht⟩ (h.fine _ t ht) (fun h => by rw [hb2] at h; cases h) h' u hu
      · exact Or.inr (bitOk_child t u h' hu)
  have houter : ∀ x, OuterTag fs x → x ∈ (envOf e s1).complete := by
    intro x ⟨i, fls, emb, ms, hn, hcomp, hocc⟩
    rcases hmain _ _ hocc rfl with hk | hk
    · have := (h1.inv.defined e ⟨_, hocc⟩ hcomp hk (by simp)).1
      rw [tagOf_named e hn] at this
      exact this
    · simp [bitOk] at hk
  obtain ⟨a, b, c, d⟩ := lateLoop_ok e h s1.late hlate s1 h1.inv houter h1.le.invalidated
  refine ⟨a, b.invalidated.trans h1.le.invalidated, by rw [c]; exact d, ?_, fun f hf =>
    ⟨Known.mono e b _ (k1 _ hf).1, fun u hu => Known.mono e b _ ((k1 _ hf).2 u hu)⟩⟩
  intro b' t ht
  induction ht with
  | ret hf => exact Or.inl (Known.mono e b _ (k1 _ hf).1)
  | param hf hu => exact Or.inl (Known.mono e b _ ((k1 _ hf).2 _ hu))
  | @child b'' t u ht hu ih =>
    rcases ih with h' | h'
    · refine known_child e a t ⟨_, ht⟩ (h.fine _ t ht) (fun hl => ?_) h' u hu
      cases t with
      | comp i kw n fls emb fwd ms =>
        unfold Known at h'
        rcases h' with h' | h'
        · exact h'
        · exact d _ (by rw [← c]; exact h'.2)
      | _ => cases hl
    · exact Or.inr (bitOk_child t u h' hu)

end

end EasyMock.Emit
