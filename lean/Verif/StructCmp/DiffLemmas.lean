import Verif.StructCmp.EvalLemmas

/-! # StructCmp: the differences are exactly what makes two objects unequal -/

namespace EasyMock.StructCmp

open EasyMock.Types

variable {S : Type}

theorem same_scalar (neq : S → S → Bool) : ∀ (t : Ty) (v w : Val S), holdsMembers t = false →
    (Same neq t v w ↔ ∃ a b, v = .scalar a ∧ w = .scalar b ∧ neq a b = false)
  | .ref _ t, v, w, h => same_scalar neq t v w h
  | .const _ t, v, w, h => same_scalar neq t v w h
  | .tdef _ _ t, v, w, h => same_scalar neq t v w h
  | .comp i kw n fs emb fwd ms, v, w, h => by
    have : isComposable (.comp i kw n fs emb fwd ms) = false := h
    rw [isComposable_comp] at this; simp at this
  | .ptr .., _, _, _ | .ctype .., _, _, _ | .enum .., _, _, _ | .incomplete .., _, _, _
  | .fn .., _, _, _ => Iff.rfl

theorem diffsScalar_nil {neq : S → S → Bool} {p f : String} {idx : Option Nat} {a b : S} :
    diffsScalar neq p f idx (.scalar a) (.scalar b) = [] ↔ neq a b = false := by
  unfold diffsScalar
  cases h : neq a b <;> simp [h]

theorem diffsLoop_nil_iff {body : Nat → List (Report S)} {n : Nat} :
    diffsLoop body n = [] ↔ ∀ i, i < n → body i = [] := by
  unfold diffsLoop
  rw [List.flatMap_eq_nil_iff]
  constructor
  · intro h i hi; exact h i (by simpa using hi)
  · intro h i hi; exact h i (by simpa using hi)

mutual
theorem diffs_nil_iff (neq : S → S → Bool) : ∀ (t : Ty) (v w : Val S) (p : String),
    holdsMembers t = true → Fits t v → Fits t w → (diffs neq t v w p = [] ↔ Same neq t v w)
  | .ref _ t, v, w, p, h, hv, hw => diffs_nil_iff neq t v w p h hv hw
  | .const _ t, v, w, p, h, hv, hw => diffs_nil_iff neq t v w p h hv hw
  | .tdef _ _ t, v, w, p, h, hv, hw => diffs_nil_iff neq t v w p h hv hw
  | .comp i kw n fs emb fwd ms, v, w, p, _, hv, hw => by
    obtain ⟨g, rfl, hg⟩ := hv
    obtain ⟨g', rfl, hg'⟩ := hw
    simp only [diffs, Same, List.append_eq_nil_iff]
    exact diffsFields_nil_iff neq fs g g' p hg hg'
  | .ptr .., _, _, _, h, _, _ | .ctype .., _, _, _, h, _, _ | .enum .., _, _, _, h, _, _
  | .incomplete .., _, _, _, h, _, _ | .fn .., _, _, _, h, _, _ => by
    simp [holdsMembers, object, isComposable, attrs] at h

theorem diffsAnonymous_nil_iff (neq : S → S → Bool) : ∀ (t : Ty)
    (g g' : String → Option (Val S)) (p : String),
    holdsMembers t = true → Fits t (.comp g) → Fits t (.comp g') →
    ((diffsAnonymous neq false t g g' p = [] ∧ diffsAnonymous neq true t g g' p = []) ↔
      Same neq t (.comp g) (.comp g'))
  | .ref _ t, g, g', p, h, hv, hw => diffsAnonymous_nil_iff neq t g g' p h hv hw
  | .const _ t, g, g', p, h, hv, hw => diffsAnonymous_nil_iff neq t g g' p h hv hw
  | .tdef _ _ t, g, g', p, h, hv, hw => diffsAnonymous_nil_iff neq t g g' p h hv hw
  | .comp i kw n fs emb fwd ms, g, g', p, _, hv, hw => by
    obtain ⟨u, hu, hg⟩ := hv
    obtain ⟨u', hu', hg'⟩ := hw
    cases hu; cases hu'
    exact diffsFields_nil_iff neq fs g g' p hg hg'
  | .ptr .., _, _, _, h, _, _ | .ctype .., _, _, _, h, _, _ | .enum .., _, _, _, h, _, _
  | .incomplete .., _, _, _, h, _, _ | .fn .., _, _, _, h, _, _ => by
    simp [holdsMembers, object, isComposable, attrs] at h

theorem diffsFields_nil_iff (neq : S → S → Bool) : ∀ (fs : Fields)
    (g g' : String → Option (Val S)) (p : String), FitsFields fs g → FitsFields fs g' →
    ((diffsFields neq false fs g g' p = [] ∧ diffsFields neq true fs g g' p = []) ↔
      SameFields neq fs g g')
  | .nil, g, g', p, _, _ => by simp [diffsFields, SameFields]
  | .field s t n a rest, g, g', p, hg, hg' => by
    obtain ⟨f₁, f₂⟩ := hg
    obtain ⟨f₁', f₂'⟩ := hg'
    have ih := diffsFields_nil_iff neq rest g g' p f₂ f₂'
    unfold diffsFields SameFields
    simp only [List.append_eq_nil_iff]
    rw [← ih]
    by_cases ha : a = 0
    · simp only [ha, if_true]
      simp
    · simp only [if_neg ha] at f₁ f₁' ⊢
      by_cases hn : n = ""
      · simp only [if_pos hn] at f₁ f₁' ⊢
        have := diffsAnonymous_nil_iff neq t g g' p f₁.1 f₁.2.2 f₁'.2.2
        rw [← this]
        constructor
        · rintro ⟨⟨a1, a2⟩, b1, b2⟩; exact ⟨⟨a1, b1⟩, a2, b2⟩
        · rintro ⟨⟨a1, b1⟩, a2, b2⟩; exact ⟨⟨a1, a2⟩, b1, b2⟩
      · simp only [if_neg hn] at f₁ f₁' ⊢
        obtain ⟨v, hv, fv⟩ := f₁
        obtain ⟨w, hw, fw⟩ := f₁'
        simp only [hv, hw]
        by_cases hpos : a > 0
        · simp only [if_pos hpos] at fv fw ⊢
          obtain ⟨ge, rfl, fge⟩ := fv
          obtain ⟨ge', rfl, fge'⟩ := fw
          simp only [if_true, Bool.false_eq_true, if_false, diffsLoop_nil_iff, true_and]
          have key : (∀ i, i < a.toNat → (if holdsMembers t = true then
                diffs neq t (ge i) (ge' i) (p ++ ("." ++ n))
                else diffsScalar neq p n (some i) (ge i) (ge' i)) = []) ↔
              (∀ i, i < a.toNat → Same neq t (ge i) (ge' i)) := by
            apply forall_congr'; intro i
            apply forall_congr'; intro hi
            by_cases hm : holdsMembers t = true
            · rw [if_pos hm]
              exact diffs_nil_iff neq t _ _ _ hm (fge i hi) (fge' i hi)
            · rw [if_neg hm]
              have hm' : holdsMembers t = false := by simpa using hm
              obtain ⟨x, hx⟩ := fits_scalar t _ hm' (fge i hi)
              obtain ⟨y, hy⟩ := fits_scalar t _ hm' (fge' i hi)
              rw [same_scalar neq t _ _ hm', hx, hy, diffsScalar_nil]
              simp
          rw [key]
          constructor
          · rintro ⟨d, l, d'⟩
            exact ⟨⟨_, _, rfl, rfl, ge, ge', rfl, rfl, l⟩, d, d'⟩
          · rintro ⟨⟨_, _, h1, h2, x, y, hx, hy, l⟩, d, d'⟩
            cases h1; cases h2; cases hx; cases hy
            exact ⟨d, l, d'⟩
        · simp only [if_neg hpos] at fv fw ⊢
          have key : ((if holdsMembers t = true then diffs neq t v w (p ++ ("." ++ n))
              else diffsScalar neq p n none v w) = []) ↔ Same neq t v w := by
            by_cases hm : holdsMembers t = true
            · rw [if_pos hm]
              exact diffs_nil_iff neq t _ _ _ hm fv fw
            · rw [if_neg hm]
              have hm' : holdsMembers t = false := by simpa using hm
              obtain ⟨x, hx⟩ := fits_scalar t _ hm' fv
              obtain ⟨y, hy⟩ := fits_scalar t _ hm' fw
              rw [same_scalar neq t _ _ hm', hx, hy, diffsScalar_nil]
              simp
          simp only [Bool.false_eq_true, if_false, if_true, true_and]
          rw [key]
          constructor
          · rintro ⟨⟨s, d⟩, d'⟩
            exact ⟨⟨_, _, rfl, rfl, s⟩, d, d'⟩
          · rintro ⟨⟨_, _, hx, hy, s⟩, d, d'⟩
            cases hx; cases hy
            exact ⟨⟨s, d⟩, d'⟩
  | .bit s t n b rest, g, g', p, hg, hg' => by
    obtain ⟨f₁, f₂⟩ := hg
    obtain ⟨f₁', f₂'⟩ := hg'
    have ih := diffsFields_nil_iff neq rest g g' p f₂ f₂'
    unfold diffsFields SameFields
    simp only [List.append_eq_nil_iff]
    rw [← ih]
    by_cases hn : n = ""
    · simp [hn]
    · obtain ⟨x, hx⟩ := f₁.resolve_left hn
      obtain ⟨y, hy⟩ := f₁'.resolve_left hn
      simp only [hn, hx, hy, false_or, Bool.false_eq_true, if_false, if_true, true_and,
        diffsScalar_nil]
      constructor
      · rintro ⟨⟨h1, h2⟩, h3⟩
        exact ⟨⟨x, y, rfl, rfl, h1⟩, h2, h3⟩
      · rintro ⟨⟨x', y', hx', hy', h1⟩, h2, h3⟩
        cases hx'; cases hy'
        exact ⟨⟨h1, h2⟩, h3⟩
end

/-! ## Called comparators -/

mutual
theorem callsAnonymous {PN : String → Ty → Prop} {full : String → String} {D : String → Prop} :
    ∀ (t : Ty) (cs : List Check), holdsMembers t = true → MatchAnonymous PN full D t cs →
    ∀ k ∈ cs, ∀ M, k.action = .call M → ∃ N, D N ∧ M = full N
  | .ref _ t, cs, h, m => callsAnonymous t cs h m
  | .const _ t, cs, h, m => callsAnonymous t cs h m
  | .tdef _ _ t, cs, h, m => callsAnonymous t cs h m
  | .comp _ _ _ fs _ _ _, cs, _, m => callsFields fs cs m
  | .ptr .., _, h, _ | .ctype .., _, h, _ | .enum .., _, h, _
  | .incomplete .., _, h, _ | .fn .., _, h, _ => by
    simp [holdsMembers, object, isComposable, attrs] at h

theorem callsFields {PN : String → Ty → Prop} {full : String → String} {D : String → Prop} :
    ∀ (fs : Fields) (cs : List Check), Match PN full D fs cs →
    ∀ k ∈ cs, ∀ M, k.action = .call M → ∃ N, D N ∧ M = full N
  | .nil, cs, m => by
    have : cs = [] := m
    subst this
    simp
  | .field s t n a rest, cs, m => by
    obtain ⟨c₁, c₂, rfl, m₁, m₂⟩ := m
    intro k hk M hM
    rcases List.mem_append.mp hk with hk | hk
    · split at m₁
      · subst m₁; cases hk
      · split at m₁
        · rename_i hmem
          split at m₁
          · exact callsAnonymous t c₁ hmem m₁ k hk M hM
          · obtain ⟨N, _, d, rfl⟩ := m₁
            simp only [List.mem_singleton] at hk
            subst hk
            simp only [Action.call.injEq] at hM
            exact ⟨N, d, hM.symm⟩
        · obtain ⟨o, f, c, rfl⟩ := m₁
          simp only [List.mem_singleton] at hk
          subst hk
          simp at hM
    · exact callsFields rest c₂ m₂ k hk M hM
  | .bit s t n b rest, cs, m => by
    obtain ⟨c₁, c₂, rfl, m₁, m₂⟩ := m
    intro k hk M hM
    rcases List.mem_append.mp hk with hk | hk
    · split at m₁
      · subst m₁; cases hk
      · obtain ⟨o, f, c, rfl⟩ := m₁
        simp only [List.mem_singleton] at hk
        subst hk
        simp at hM
    · exact callsFields rest c₂ m₂ k hk M hM
end

/-! ## Every difference is real -/

/-- The report designates a place where the two objects really differ. -/
def Real (neq : S → S → Bool) (v w : Val S) (p : String) (r : Report S) : Prop :=
  ∃ path : Path, r.param = showPath p path ∧
    v.follow (path ++ [(r.field, r.idx)]) = some (.scalar r.cur) ∧
    w.follow (path ++ [(r.field, r.idx)]) = some (.scalar r.exp) ∧ neq r.cur r.exp = true

theorem real_scalar {neq : S → S → Bool} {p f : String} {idx : Option Nat} {a b : S} {r : Report S}
    {v w : Val S} (hr : r ∈ diffsScalar neq p f idx (.scalar a) (.scalar b))
    (hv : v.follow [(f, idx)] = some (.scalar a)) (hw : w.follow [(f, idx)] = some (.scalar b)) :
    Real neq v w p r := by
  unfold diffsScalar at hr
  simp only at hr
  split at hr
  · simp at hr
    subst hr
    exact ⟨[], rfl, hv, hw, by assumption⟩
  · simp at hr

theorem real_under {neq : S → S → Bool} {g g' : String → Option (Val S)} {v w : Val S} {p f : String}
    {r : Report S} (hv : g f = some v) (hw : g' f = some w)
    (hr : Real neq v w (p ++ ("." ++ f)) r) : Real neq (.comp g) (.comp g') p r := by
  obtain ⟨path, h1, h2, h3, h4⟩ := hr
  refine ⟨(f, none) :: path, h1, ?_, ?_, h4⟩
  · rw [List.cons_append, Val.follow]; simp [Val.member, hv, h2]
  · rw [List.cons_append, Val.follow]; simp [Val.member, hw, h3]

theorem real_element {neq : S → S → Bool} {g g' : String → Option (Val S)} {ge ge' : Nat → Val S}
    {k m i : Nat} {p f : String}
    {r : Report S} (hv : g f = some (.arr k ge)) (hw : g' f = some (.arr m ge')) (hi : i < k)
    (hi' : i < m)
    (hr : Real neq (ge i) (ge' i) (p ++ ("." ++ f)) r) : Real neq (.comp g) (.comp g') p r := by
  obtain ⟨path, h1, h2, h3, h4⟩ := hr
  refine ⟨(f, some i) :: path, h1, ?_, ?_, h4⟩
  · rw [List.cons_append, Val.follow]; simp [Val.member, hv, hi, h2]
  · rw [List.cons_append, Val.follow]; simp [Val.member, hw, hi', h3]

mutual
theorem diffs_real (neq : S → S → Bool) : ∀ (t : Ty) (v w : Val S) (p : String),
    holdsMembers t = true → Fits t v → Fits t w → ∀ r ∈ diffs neq t v w p, Real neq v w p r
  | .ref _ t, v, w, p, h, hv, hw => diffs_real neq t v w p h hv hw
  | .const _ t, v, w, p, h, hv, hw => diffs_real neq t v w p h hv hw
  | .tdef _ _ t, v, w, p, h, hv, hw => diffs_real neq t v w p h hv hw
  | .comp i kw n fs emb fwd ms, v, w, p, _, hv, hw => by
    obtain ⟨g, rfl, hg⟩ := hv
    obtain ⟨g', rfl, hg'⟩ := hw
    intro r hr
    simp only [diffs, List.mem_append] at hr
    rcases hr with hr | hr
    · exact diffsFields_real neq fs g g' p hg hg' false r hr
    · exact diffsFields_real neq fs g g' p hg hg' true r hr
  | .ptr .., _, _, _, h, _, _ | .ctype .., _, _, _, h, _, _ | .enum .., _, _, _, h, _, _
  | .incomplete .., _, _, _, h, _, _ | .fn .., _, _, _, h, _, _ => by
    simp [holdsMembers, object, isComposable, attrs] at h

theorem diffsAnonymous_real (neq : S → S → Bool) : ∀ (t : Ty)
    (g g' : String → Option (Val S)) (p : String),
    holdsMembers t = true → Fits t (.comp g) → Fits t (.comp g') → ∀ arrays,
    ∀ r ∈ diffsAnonymous neq arrays t g g' p, Real neq (.comp g) (.comp g') p r
  | .ref _ t, g, g', p, h, hv, hw => diffsAnonymous_real neq t g g' p h hv hw
  | .const _ t, g, g', p, h, hv, hw => diffsAnonymous_real neq t g g' p h hv hw
  | .tdef _ _ t, g, g', p, h, hv, hw => diffsAnonymous_real neq t g g' p h hv hw
  | .comp i kw n fs emb fwd ms, g, g', p, _, hv, hw => by
    obtain ⟨u, hu, hg⟩ := hv
    obtain ⟨u', hu', hg'⟩ := hw
    cases hu; cases hu'
    exact diffsFields_real neq fs g g' p hg hg'
  | .ptr .., _, _, _, h, _, _ | .ctype .., _, _, _, h, _, _ | .enum .., _, _, _, h, _, _
  | .incomplete .., _, _, _, h, _, _ | .fn .., _, _, _, h, _, _ => by
    simp [holdsMembers, object, isComposable, attrs] at h

theorem diffsFields_real (neq : S → S → Bool) : ∀ (fs : Fields)
    (g g' : String → Option (Val S)) (p : String), FitsFields fs g → FitsFields fs g' →
    ∀ arrays, ∀ r ∈ diffsFields neq arrays fs g g' p, Real neq (.comp g) (.comp g') p r
  | .nil, g, g', p, _, _ => by intro arrays r hr; simp [diffsFields] at hr
  | .field s t n a rest, g, g', p, hg, hg' => by
    intro arrays r hr
    obtain ⟨f₁, f₂⟩ := hg
    obtain ⟨f₁', f₂'⟩ := hg'
    unfold diffsFields at hr
    rcases List.mem_append.mp hr with hr | hr
    · by_cases ha : a = 0
      · simp [ha] at hr
      · rw [if_neg ha] at f₁ f₁' hr
        by_cases hn : n = ""
        · rw [if_pos hn] at f₁ f₁' hr
          exact diffsAnonymous_real neq t g g' p f₁.1 f₁.2.2 f₁'.2.2 arrays r hr
        · rw [if_neg hn] at f₁ f₁' hr
          obtain ⟨v, hv, fv⟩ := f₁
          obtain ⟨w, hw, fw⟩ := f₁'
          simp only [hv, hw] at hr
          by_cases hpos : a > 0
          · rw [if_pos hpos] at fv fw hr
            obtain ⟨ge, rfl, fge⟩ := fv
            obtain ⟨ge', rfl, fge'⟩ := fw
            cases arrays with
            | false => simp at hr
            | true =>
              simp only [if_true, diffsLoop, List.mem_flatMap, List.mem_range] at hr
              obtain ⟨i, hi, hr⟩ := hr
              by_cases hm : holdsMembers t = true
              · rw [if_pos hm] at hr
                exact real_element hv hw hi hi
                  (diffs_real neq t _ _ _ hm (fge i hi) (fge' i hi) r hr)
              · rw [if_neg hm] at hr
                have hm' : holdsMembers t = false := by simpa using hm
                obtain ⟨x, hx⟩ := fits_scalar t _ hm' (fge i hi)
                obtain ⟨y, hy⟩ := fits_scalar t _ hm' (fge' i hi)
                rw [hx, hy] at hr
                apply real_scalar hr
                · simp [Val.follow, Val.member, hv, hi, hx]
                · simp [Val.follow, Val.member, hw, hi, hy]
          · rw [if_neg hpos] at fv fw hr
            cases arrays with
            | true => simp at hr
            | false =>
              simp only [Bool.false_eq_true, if_false] at hr
              by_cases hm : holdsMembers t = true
              · rw [if_pos hm] at hr
                exact real_under hv hw (diffs_real neq t _ _ _ hm fv fw r hr)
              · rw [if_neg hm] at hr
                have hm' : holdsMembers t = false := by simpa using hm
                obtain ⟨x, hx⟩ := fits_scalar t _ hm' fv
                obtain ⟨y, hy⟩ := fits_scalar t _ hm' fw
                subst hx; subst hy
                apply real_scalar hr
                · simp [Val.follow, Val.member, hv]
                · simp [Val.follow, Val.member, hw]
    · exact diffsFields_real neq rest g g' p f₂ f₂' arrays r hr
  | .bit s t n b rest, g, g', p, hg, hg' => by
    intro arrays r hr
    obtain ⟨f₁, f₂⟩ := hg
    obtain ⟨f₁', f₂'⟩ := hg'
    unfold diffsFields at hr
    rcases List.mem_append.mp hr with hr | hr
    · by_cases hn : n = ""
      · simp [hn] at hr
      · obtain ⟨x, hx⟩ := f₁.resolve_left hn
        obtain ⟨y, hy⟩ := f₁'.resolve_left hn
        cases arrays with
        | true => simp at hr
        | false =>
          simp only [hn, hx, hy, false_or, Bool.false_eq_true, if_false] at hr
          apply real_scalar hr
          · simp [Val.follow, Val.member, hx]
          · simp [Val.follow, Val.member, hy]
    · exact diffsFields_real neq rest g g' p f₂ f₂' arrays r hr
end

end EasyMock.StructCmp
