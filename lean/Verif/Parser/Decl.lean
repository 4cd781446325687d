import Verif.Parser.Comments

/-! # Parser: the declared string of a field -/

namespace EasyMock.Parser

/-- The text of a type as it stands in a declaration: it starts with a token, ends where a name may start, and
    has no comment and no body. -/
structure TypeText (ty : List Char) : Prop where
  start : ∃ c r, ty = c :: r ∧ isSpace c = false
  stop : ∃ r c, ty = r ++ [c] ∧ isStop c = true
  plain : ∀ c ∈ ty, c ≠ '{' ∧ c ≠ ',' ∧ c ≠ '[' ∧ c ≠ '/'

/-- The name of a field. -/
structure NameText (n : List Char) : Prop where
  nonempty : n ≠ []
  plain : ∀ c ∈ n, c ≠ '{' ∧ c ≠ ',' ∧ c ≠ '[' ∧ c ≠ '/' ∧ isSpace c = false ∧ isStop c = false

theorem removeComments_plain {s : List Char} (h : '/' ∉ s) : removeComments s = s.map newlineToSpace := by
  have := removeComments_eq (l := [.code s]) (by simpa [Seg.Ok] using h)
    (by
      intro a t b e
      cases a with
      | nil => simp at e
      | cons x a => simp at e)
    (by simp [Seg.isBlock])
  simpa [written, outside, Seg.text, Seg.kept] using this

theorem popName_append {ty n : List Char} (ht : ∃ r c, ty = r ++ [c] ∧ isStop c = true) (hn : ∀ c ∈ n, isStop c = false) :
    popName (ty ++ n) = ty := by
  obtain ⟨r, c, rfl, hc⟩ := ht
  unfold popName
  rw [List.reverse_append, dropWhile_append_all _ (by simpa using hn)]
  simp [hc]

theorem popName_self {ty : List Char} (ht : ∃ r c, ty = r ++ [c] ∧ isStop c = true) : popName ty = ty := by
  simpa using popName_append ht (n := []) (by simp)

theorem contains_false {s : List Char} {c : Char} (h : c ∉ s) : s.contains c = false := by simpa using h

/-- The end of `getDeclareString`. -/
theorem declare_end {ty : List Char} (ht : TypeText ty) : trim (removeComments ty) = trim (ty.map newlineToSpace) := by
  rw [removeComments_plain (fun h => (ht.plain _ h).2.2.2 rfl)]

theorem declareString_type (b : Bool) {ty : List Char} (ht : TypeText ty) :
    declareString b ty = trim (ty.map newlineToSpace) := by
  have h1 : ty.contains '{' = false := contains_false (fun h => (ht.plain _ h).1 rfl)
  have h2 : ty.contains ',' = false := contains_false (fun h => (ht.plain _ h).2.1 rfl)
  have h3 : ty.contains '[' = false := contains_false (fun h => (ht.plain _ h).2.2.1 rfl)
  unfold declareString
  simp only [h1, Bool.false_eq_true, if_false, trimToFirst, h2, h3]
  rw [show (if b = true then ty else ty) = ty by cases b <;> rfl, popName_self ht.stop, declare_end ht]

/-- The first declarator, trimmed. -/
theorem first_declarator {ty n sp rest : List Char} {sep : Char} (ht : TypeText ty) (hn : NameText n)
    (hsp : ∀ c ∈ sp, isSpace c = true) (hsep : sep = ',' ∨ sep = '[') :
    trimToFirst '[' (trimToFirst ',' (ty ++ n ++ sp ++ sep :: rest)) = ty ++ n := by
  have hx : ∀ c ∈ ty ++ n ++ sp, c ≠ ',' ∧ c ≠ '[' := by
    intro c hc
    rcases List.mem_append.1 hc with hc | hc
    · rcases List.mem_append.1 hc with hc | hc
      · exact ⟨(ht.plain c hc).2.1, (ht.plain c hc).2.2.1⟩
      · exact ⟨(hn.plain c hc).2.1, (hn.plain c hc).2.2.1⟩
    · have := hsp c hc
      constructor <;> rintro rfl <;> simp [isSpace] at this
  have htight : Tight (ty ++ n) := by
    constructor
    · intro c r h
      obtain ⟨d, r', rfl, hd⟩ := ht.start
      simp only [List.cons_append, List.cons.injEq] at h
      rw [← h.1]; exact hd
    · intro c r h
      obtain ⟨hne, hp⟩ := hn
      rcases List.eq_nil_or_concat n with rfl | ⟨n', d, rfl⟩
      · exact absurd rfl hne
      · have := congrArg List.reverse h
        simp only [List.concat_eq_append, List.reverse_append, List.reverse_cons, List.reverse_nil, List.nil_append,
          List.cons_append, List.cons.injEq] at this
        rw [← this.1]
        exact (hp d (by simp)).2.2.2.2.1
  have htrim : trim (ty ++ n ++ sp) = ty ++ n := by
    have := trim_eq (a := []) (m := ty ++ n) (b := sp) (by simp) hsp htight
    simpa using this
  have hcut : ∀ (x : Char), (∀ c ∈ ty ++ n ++ sp, c ≠ x) → ∀ r, trimToFirst x (ty ++ n ++ sp ++ x :: r) = ty ++ n := by
    intro x hx r
    unfold trimToFirst
    rw [if_pos (by simp), takeWhile_append_stop (fun c => c != x) (a := ty ++ n ++ sp), htrim]
    · intro c hc; simpa using hx c hc
    · simp
  have hnone : ∀ (x : Char), x ∉ ty ++ n → trimToFirst x (ty ++ n) = ty ++ n := by
    intro x hx
    unfold trimToFirst
    rw [if_neg (by simpa using hx)]
  have hnb : '[' ∉ ty ++ n := fun h => (hx '[' (by simp only [List.mem_append] at h ⊢; exact Or.inl h)).2 rfl
  rcases hsep with rfl | rfl
  · rw [hcut ',' (fun c hc => (hx c hc).1), hnone '[' hnb]
  · by_cases hc : ',' ∈ rest
    · obtain ⟨r1, r2, rfl, hr1⟩ : ∃ r1 r2, rest = r1 ++ ',' :: r2 ∧ ',' ∉ r1 := by
        clear hx hcut hnone
        induction rest with
        | nil => cases hc
        | cons d rest ih =>
          by_cases hd : d = ','
          · subst hd; exact ⟨[], rest, rfl, by simp⟩
          · have : ',' ∈ rest := by
              rcases List.mem_cons.1 hc with h | h
              · exact absurd h.symm hd
              · exact h
            obtain ⟨r1, r2, h1, h2⟩ := ih this
            exact ⟨d :: r1, r2, by rw [h1]; rfl, by
              simp only [List.mem_cons, not_or]; exact ⟨fun h => hd h.symm, h2⟩⟩
      have h1 : trimToFirst ',' (ty ++ n ++ sp ++ '[' :: (r1 ++ ',' :: r2)) = trim (ty ++ n ++ sp ++ '[' :: r1) := by
        unfold trimToFirst
        rw [if_pos (by simp), show ty ++ n ++ sp ++ '[' :: (r1 ++ ',' :: r2) = (ty ++ n ++ sp ++ '[' :: r1) ++ ',' :: r2 by
          simp, takeWhile_append_stop (fun c => c != ',')]
        · intro c hc
          rcases List.mem_append.1 hc with hc | hc
          · simpa using (hx c hc).1
          · rcases List.mem_cons.1 hc with rfl | hc
            · rfl
            · have : c ≠ ',' := fun e => hr1 (e ▸ hc)
              simpa using this
        · simp
      -- trimming the end keeps the bracket
      obtain ⟨a, b, e, ha, hb, -⟩ := trim_spec (ty ++ n ++ sp ++ '[' :: r1)
      obtain ⟨d, r', hty, hd⟩ := ht.start
      have ha' : a = [] := by
        cases a with
        | nil => rfl
        | cons x a =>
          rw [hty] at e
          simp only [List.cons_append, List.cons.injEq] at e
          have := ha x (by simp)
          rw [← e.1, hd] at this
          cases this
      subst ha'
      rw [List.nil_append] at e
      have hpre : ∃ r3, trim (ty ++ n ++ sp ++ '[' :: r1) = ty ++ n ++ sp ++ '[' :: r3 := by
        generalize trim (ty ++ n ++ sp ++ '[' :: r1) = t at e
        generalize ty ++ n ++ sp = x at e
        rcases List.append_eq_append_iff.1 e with ⟨w, hw1, hw2⟩ | ⟨w, hw1, hw2⟩
        · cases w with
          | nil =>
            exfalso
            rw [List.nil_append] at hw2
            have := hb '[' (by rw [← hw2]; simp)
            simp [isSpace] at this
          | cons y w =>
            rw [List.cons_append, List.cons.injEq] at hw2
            rw [hw1, ← hw2.1]
            exact ⟨w, rfl⟩
        · exfalso
          have := hb '[' (by rw [hw2]; simp)
          simp [isSpace] at this
      obtain ⟨r3, h3⟩ := hpre
      rw [h1, h3]
      exact hcut '[' (fun c hc => (hx c hc).2) r3
    · have h1 : trimToFirst ',' (ty ++ n ++ sp ++ '[' :: rest) = ty ++ n ++ sp ++ '[' :: rest := by
        unfold trimToFirst
        rw [if_neg]
        simp only [List.contains_iff_mem, List.mem_append, List.mem_cons, not_or]
        refine ⟨⟨⟨?_, ?_⟩, ?_⟩, by decide, hc⟩
        · exact fun h => (hx ',' (by simp [h])).1 rfl
        · exact fun h => (hx ',' (by simp [h])).1 rfl
        · exact fun h => (hx ',' (by simp [h])).1 rfl
      rw [h1]
      exact hcut '[' (fun c hc => (hx c hc).2) rest

theorem declareString_field {ty n sp rest : List Char} {sep : Char} (ht : TypeText ty) (hn : NameText n)
    (hsp : ∀ c ∈ sp, isSpace c = true) (hsep : sep = ',' ∨ sep = '[') (hr : '{' ∉ rest) :
    declareString true (ty ++ n ++ sp ++ sep :: rest) = trim (ty.map newlineToSpace) := by
  have h0 : (ty ++ n ++ sp ++ sep :: rest).contains '{' = false := by
    refine contains_false ?_
    simp only [List.mem_append, List.mem_cons, not_or]
    refine ⟨⟨⟨fun h => (ht.plain _ h).1 rfl, fun h => (hn.plain _ h).1 rfl⟩, fun h => ?_⟩, ?_, hr⟩
    · have := hsp _ h; simp [isSpace] at this
    · rcases hsep with rfl | rfl <;> decide
  unfold declareString
  rw [h0, first_declarator ht hn hsp hsep]
  simp only [Bool.false_eq_true, if_false, if_true]
  rw [popName_append ht.stop (fun c hc => (hn.plain c hc).2.2.2.2.2), declare_end ht]

end EasyMock.Parser
