import Verif.Types.Spec

/-! # Types: lemmas -/

namespace EasyMock.Types

/-! ## Essence -/

theorem attrs_essence : ∀ t, attrs (essence t) = attrs t
  | .ctype .. | .ptr .. | .ref .. | .const .. | .tdef .. | .enum .. | .incomplete .. | .fn .. => by
    simp [essence, attrs]
  | .comp i kw n fs emb fwd ms => by cases kw <;> simp [essence, attrs]

theorem rawType_essence : ∀ t, rawType (essence t) = essence (rawType t)
  | .ptr _ t | .ref _ t | .const _ t | .tdef _ _ t => by
    simp only [essence, rawType]; exact rawType_essence t
  | .ctype .. | .enum .. | .incomplete .. | .fn .. | .comp .. => by simp [essence, rawType]

theorem isAnonymous_essence (t : Ty) : isAnonymous (essence t) = isAnonymous t := by
  simp only [isAnonymous, isComposable, isEnum, rawType_essence, attrs_essence]

theorem baseEq_of_essence {a b : Ty} (e : essence a = essence b) : baseEq a b = true := by
  have h1 : attrs a = attrs b := by rw [← attrs_essence a, e, attrs_essence]
  have h2 : isAnonymous a = isAnonymous b := by rw [← isAnonymous_essence a, e, isAnonymous_essence]
  simp [baseEq, h1, h2]

theorem essenceMethods_iff : ∀ ms ns, essenceMethods ms = essenceMethods ns ↔
    prototypes ms = prototypes ns
  | .nil, .nil => by simp [prototypes]
  | .nil, .cons .. => by simp [essenceMethods, prototypes]
  | .cons .., .nil => by simp [essenceMethods, prototypes]
  | .cons _ _ _ _ _ _ _ ms, .cons _ _ _ _ _ _ _ ns => by
    simp [essenceMethods, prototypes, essenceMethods_iff ms ns]

mutual
theorem isEqual_iff : ∀ a b : Ty, isEqual a b = true ↔ essence a = essence b
  | .ctype c n i, b => by
    constructor
    · intro h
      simp only [isEqual, Bool.and_eq_true] at h
      obtain ⟨⟨h1, _⟩, h2⟩ := h
      cases b <;> simp at h2
      simp only [baseEq, attrs, Bool.and_eq_true, beq_iff_eq] at h1
      simp_all [essence]
    · intro e
      have hb := baseEq_of_essence e
      cases b <;> simp [essence] at e
      obtain ⟨rfl, rfl⟩ := e
      simp [isEqual, hb, attrs]
  | .ptr i t, b => by
    constructor
    · intro h
      simp only [isEqual, Bool.and_eq_true] at h
      obtain ⟨⟨h1, h0⟩, h2⟩ := h
      clear h0
      cases b <;> simp at h2
      rename_i i' u
      simp only [baseEq, attrs, Bool.and_eq_true, beq_iff_eq] at h1
      simp_all [essence, (isEqual_iff t u).mp h2]
    · intro e
      have hb := baseEq_of_essence e
      cases b <;> simp [essence] at e
      rename_i i' u
      simp [isEqual, hb, attrs, isPointer, (isEqual_iff t u).mpr e.2]
  | .ref i t, b => by
    constructor
    · intro h
      simp only [isEqual, Bool.and_eq_true] at h
      obtain ⟨⟨h1, h0⟩, h2⟩ := h
      clear h0
      cases b <;> simp at h2
      rename_i i' u
      simp only [baseEq, attrs, Bool.and_eq_true, beq_iff_eq] at h1
      simp_all [essence, (isEqual_iff t u).mp h2]
    · intro e
      have hb := baseEq_of_essence e
      cases b <;> simp [essence] at e
      rename_i i' u
      simp [isEqual, hb, attrs, isReference, (isEqual_iff t u).mpr e.2]
  | .const i t, b => by
    constructor
    · intro h
      cases b <;> simp [isEqual] at h
      rename_i i' u
      obtain ⟨h1, h2⟩ := h
      simp only [baseEq, attrs, Bool.and_eq_true, beq_iff_eq] at h1
      simp_all [essence, (isEqual_iff t u).mp h2]
    · intro e
      have hb := baseEq_of_essence e
      cases b <;> simp [essence] at e
      rename_i i' u
      simp [isEqual, hb, (isEqual_iff t u).mpr e.2]
  | .tdef i n t, b => by
    constructor
    · intro h
      simp only [isEqual, Bool.and_eq_true] at h
      obtain ⟨h1, h2⟩ := h
      cases b <;> simp at h2
      rename_i i' n' u
      simp only [baseEq, attrs, Bool.and_eq_true, beq_iff_eq] at h1
      simp_all [essence, (isEqual_iff t u).mp h2]
    · intro e
      have hb := baseEq_of_essence e
      cases b <;> simp [essence] at e
      rename_i i' n' u
      simp [isEqual, hb, (isEqual_iff t u).mpr e.2.2]
  | .enum i n vs, b => by
    constructor
    · intro h
      simp only [isEqual, Bool.and_eq_true] at h
      obtain ⟨h1, h2⟩ := h
      cases b <;> simp at h2
      simp only [baseEq, attrs, Bool.and_eq_true, beq_iff_eq] at h1
      simp_all [essence]
    · intro e
      have hb := baseEq_of_essence e
      cases b <;> simp [essence] at e
      obtain ⟨rfl, rfl, rfl⟩ := e
      simp [isEqual, hb]
  | .comp i kw n fs emb fwd ms, b => by
    constructor
    · intro h
      simp only [isEqual, Bool.and_eq_true] at h
      obtain ⟨h1, h2⟩ := h
      cases b <;> simp at h2
      rename_i i' kw' n' fs' emb' fwd' ms'
      obtain ⟨h3, ⟨⟨h4, h5⟩, h6⟩, h7⟩ := h2
      subst h4
      have ef := (fieldsEq_iff fs fs').mp h5
      have em := (essenceMethods_iff ms ms').mpr h3
      simp only [baseEq, Bool.and_eq_true, beq_iff_eq] at h1
      have ha : i = i' ∧ n = n' := by
        cases kw <;> simp [attrs] at h1 <;> exact ⟨h1.2.2, h1.2.1⟩
      simp [essence, ef, em, ha, h6, h7]
    · intro e
      have hb := baseEq_of_essence e
      cases b <;> simp [essence] at e
      rename_i i' kw' n' fs' emb' fwd' ms'
      obtain ⟨e1, e2, e3, e4, e5, e6, e7⟩ := e
      have hf := (fieldsEq_iff fs fs').mpr e4
      have hm := (essenceMethods_iff ms ms').mp e7
      subst e2 e5 e6
      simp [isEqual, hb, hf, hm]
  | .incomplete f k n, b => by
    constructor
    · intro h
      simp only [isEqual, baseEq, Bool.and_eq_true, beq_iff_eq] at h
      obtain ⟨_, h⟩ := h
      cases b with
      | comp i' kw' n' fs' emb' fwd' ms' => cases kw' <;> simp [attrs] at h
      | ctype | ptr | ref | const | tdef | enum | fn => simp [attrs] at h
      | incomplete f' k' n' =>
        simp [attrs] at h
        obtain ⟨fa, fb, fc, fd, fe, ff, fg⟩ := f
        obtain ⟨ga, gb, gc, gd, ge, gf, gg⟩ := f'
        simp_all [essence]
    · intro e
      exact baseEq_of_essence e
  | .fn i info s r ps, b => by
    constructor
    · intro h
      cases b <;> simp [isEqual] at h
      rename_i i' info' s' r' ps'
      obtain ⟨⟨⟨⟨⟨⟨⟨⟨⟨h1, h2⟩, h3⟩, h4⟩, h5, h6⟩, h7⟩, h8⟩, h9⟩, h10⟩, h11⟩ := h
      have er := (isEqual_iff r r').mp h5
      have ep := (paramsEq_iff ps ps').mp h4
      obtain ⟨a1, a2, a3, a4, a5, a6, a7⟩ := info
      obtain ⟨b1, b2, b3, b4, b5, b6, b7⟩ := info'
      simp only [baseEq, attrs, Bool.and_eq_true, beq_iff_eq] at h11
      simp_all [essence]
    · intro e
      have hb := baseEq_of_essence e
      cases b <;> simp [essence] at e
      rename_i i' info' s' r' ps'
      obtain ⟨e1, e2, e3, e4, e5⟩ := e
      subst e2 e3
      simp [isEqual, hb, (isEqual_iff r r').mpr e4, (paramsEq_iff ps ps').mpr e5]
theorem fieldsEq_iff : ∀ a b : Fields, fieldsEq a b = true ↔ essenceFields a = essenceFields b
  | .nil, b => by cases b <;> simp [fieldsEq, essenceFields]
  | .field s t n a rest, b => by
    cases b
    · simp [fieldsEq, essenceFields]
    · rename_i s' t' n' a' rest'
      simp only [fieldsEq, essenceFields, Bool.and_eq_true, isEqual_iff t t',
        fieldsEq_iff rest rest', beq_iff_eq, Fields.field.injEq]
      constructor
      · rintro ⟨⟨⟨⟨h1, h2⟩, h3⟩, h4⟩, h5⟩; exact ⟨h2, h1, h3, h4, h5⟩
      · rintro ⟨h2, h1, h3, h4, h5⟩; exact ⟨⟨⟨⟨h1, h2⟩, h3⟩, h4⟩, h5⟩
    · simp [fieldsEq, essenceFields]
  | .bit s t n k rest, b => by
    cases b
    · simp [fieldsEq, essenceFields]
    · simp [fieldsEq, essenceFields]
    · rename_i s' t' n' a' rest'
      simp only [fieldsEq, essenceFields, Bool.and_eq_true, isEqual_iff t t',
        fieldsEq_iff rest rest', beq_iff_eq, Fields.bit.injEq]
      constructor
      · rintro ⟨⟨⟨⟨h1, h2⟩, h3⟩, h4⟩, h5⟩; exact ⟨h2, h1, h3, h4, h5⟩
      · rintro ⟨h2, h1, h3, h4, h5⟩; exact ⟨⟨⟨⟨h1, h2⟩, h3⟩, h4⟩, h5⟩
theorem paramsEq_iff : ∀ a b : Params, paramsEq a b = true ↔ essenceParams a = essenceParams b
  | .nil, b => by cases b <;> simp [paramsEq, essenceParams]
  | .cons s t n rest, b => by
    cases b
    · simp [paramsEq, essenceParams]
    · rename_i s' t' n' rest'
      simp only [paramsEq, essenceParams, Bool.and_eq_true, isEqual_iff t t',
        paramsEq_iff rest rest', beq_iff_eq, Params.cons.injEq, true_and]
      constructor
      · rintro ⟨⟨h1, h2⟩, h3⟩; exact ⟨h2, h1, h3⟩
      · rintro ⟨h2, h1, h3⟩; exact ⟨⟨h1, h2⟩, h3⟩
end

end EasyMock.Types
