import Verif.Parser.Text

/-! # Parser: lemmas on texts -/

namespace EasyMock.Parser

/-! ## Blanks -/

theorem dropWhile_spec {α : Type} (p : α → Bool) : ∀ l : List α, ∃ a, l = a ++ l.dropWhile p ∧ (∀ c ∈ a, p c = true) ∧
    ∀ c r, l.dropWhile p = c :: r → p c = false
  | [] => ⟨[], rfl, by simp, by simp⟩
  | c :: l => by
    obtain ⟨a, h1, h2, h3⟩ := dropWhile_spec p l
    cases hc : p c with
    | false => exact ⟨[], by simp [hc], by simp, by simp [hc]⟩
    | true =>
      rw [List.dropWhile_cons, if_pos hc]
      exact ⟨c :: a, by rw [List.cons_append, ← h1], by simpa [hc] using h2, h3⟩

theorem dropWhile_append_all {α : Type} (p : α → Bool) {a : List α} (h : ∀ c ∈ a, p c = true) (b : List α) :
    (a ++ b).dropWhile p = b.dropWhile p := by
  induction a with
  | nil => rfl
  | cons c a ih =>
    rw [List.cons_append, List.dropWhile_cons, if_pos (h c (by simp)), ih (fun d hd => h d (by simp [hd]))]

theorem dropWhile_eq_self {α : Type} (p : α → Bool) (l : List α) (h : ∀ c r, l = c :: r → p c = false) :
    l.dropWhile p = l := by
  cases l with
  | nil => rfl
  | cons c l => rw [List.dropWhile_cons, h c l rfl]; simp

/-- No blank at either end. -/
def Tight (m : List Char) : Prop := (∀ c r, m = c :: r → isSpace c = false) ∧ ∀ c r, m = r ++ [c] → isSpace c = false

theorem trim_eq {a m b : List Char} (ha : ∀ c ∈ a, isSpace c = true) (hb : ∀ c ∈ b, isSpace c = true) (hm : Tight m) :
    trim (a ++ m ++ b) = m := by
  unfold trim
  rw [List.append_assoc, dropWhile_append_all _ ha]
  cases m with
  | nil =>
    have : (b.dropWhile isSpace) = [] := by
      have := dropWhile_append_all isSpace hb []
      simpa using this
    simp [this]
  | cons c m =>
    rw [List.cons_append, List.dropWhile_cons, hm.1 c m rfl]
    simp only [Bool.false_eq_true, if_false]
    rw [← List.cons_append, List.reverse_append, dropWhile_append_all _ (by simpa using hb), dropWhile_eq_self,
      List.reverse_reverse]
    intro d r h
    refine hm.2 d r.reverse ?_
    have := congrArg List.reverse h
    simpa using this

theorem trim_spec (s : List Char) : ∃ a b, s = a ++ trim s ++ b ∧ (∀ c ∈ a, isSpace c = true) ∧
    (∀ c ∈ b, isSpace c = true) ∧ Tight (trim s) := by
  obtain ⟨a, h1, h2, h3⟩ := dropWhile_spec isSpace s
  obtain ⟨b, h4, h5, h6⟩ := dropWhile_spec isSpace (s.dropWhile isSpace).reverse
  have h7 : s.dropWhile isSpace = trim s ++ b.reverse := by
    have := congrArg List.reverse h4
    simpa [trim] using this
  refine ⟨a, b.reverse, ?_, h2, by simpa using h5, ?_, ?_⟩
  · rw [List.append_assoc, ← h7]; exact h1
  · intro c r h
    refine h3 c (r ++ b.reverse) ?_
    rw [h7, h]; rfl
  · intro c r h
    refine h6 c r.reverse ?_
    have : trim s = r ++ [c] := h
    unfold trim at this
    have := congrArg List.reverse this
    simpa using this

/-! ## Splitting -/

theorem takeWhile_append_stop {α : Type} (p : α → Bool) {a : List α} (h : ∀ c ∈ a, p c = true) (d : α) (hd : p d = false)
    (r : List α) : (a ++ d :: r).takeWhile p = a := by
  induction a with
  | nil => simp [hd]
  | cons c a ih =>
    rw [List.cons_append, List.takeWhile_cons, if_pos (h c (by simp)), ih (fun e he => h e (by simp [he]))]

theorem takeWhile_all {α : Type} (p : α → Bool) {a : List α} (h : ∀ c ∈ a, p c = true) : a.takeWhile p = a := by
  induction a with
  | nil => rfl
  | cons c a ih =>
    rw [List.takeWhile_cons, if_pos (h c (by simp)), ih (fun e he => h e (by simp [he]))]

theorem mem_takeWhile {α : Type} (p : α → Bool) : ∀ {l : List α} {c : α}, c ∈ l.takeWhile p → c ∈ l ∧ p c = true
  | d :: l, c, h => by
    rw [List.takeWhile_cons] at h
    split at h
    · rename_i hd
      rcases List.mem_cons.1 h with rfl | h
      · exact ⟨by simp, hd⟩
      · obtain ⟨h1, h2⟩ := mem_takeWhile p h; exact ⟨by simp [h1], h2⟩
    · cases h

theorem splitArgs_last {p : List Char} (h : ',' ∉ p) : splitArgs p = [trim p] := by
  rw [splitArgs]
  have ht : p.takeWhile (· != ',') = p := takeWhile_all _ (by
    intro c hc
    have : c ≠ ',' := fun e => h (e ▸ hc)
    simpa using this)
  simp only [ht]
  split
  · rfl
  · rename_i heq; rw [ht] at heq; simp at heq

theorem splitArgs_cons {p : List Char} (h : ',' ∉ p) (r : List Char) :
    splitArgs (p ++ ',' :: r) = trim p :: splitArgs r := by
  rw [splitArgs]
  have ht : (p ++ ',' :: r).takeWhile (· != ',') = p := takeWhile_append_stop _ (by
    intro c hc
    have : c ≠ ',' := fun e => h (e ▸ hc)
    simpa using this) ',' (by simp) r
  simp only [ht]
  split
  · rename_i heq; rw [ht] at heq; simp at heq
  · rename_i d r' heq
    rw [ht] at heq
    simp only [List.drop_left, List.cons.injEq] at heq
    rw [heq.2]

theorem splitArgs_intercalate : ∀ {parts : List (List Char)}, parts ≠ [] → (∀ p ∈ parts, ',' ∉ p) →
    splitArgs ([','].intercalate parts) = parts.map trim
  | [], h, _ => absurd rfl h
  | [p], _, h => by
    simpa [List.intercalate] using splitArgs_last (h p (by simp))
  | p :: q :: ps, _, h => by
    have ih := splitArgs_intercalate (parts := q :: ps) (by simp) (fun x hx => h x (by simp [hx]))
    have e : [','].intercalate (p :: q :: ps) = p ++ ',' :: [','].intercalate (q :: ps) := by
      simp [List.intercalate]
    rw [e, splitArgs_cons (h p (by simp)), ih]
    rfl

theorem exists_intercalate (s : List Char) : ∃ parts : List (List Char), parts ≠ [] ∧ (∀ p ∈ parts, ',' ∉ p) ∧
    s = [','].intercalate parts := by
  induction s with
  | nil => exact ⟨[[]], by simp, by simp, by simp [List.intercalate]⟩
  | cons c s ih =>
    obtain ⟨parts, h1, h2, h3⟩ := ih
    cases parts with
    | nil => exact absurd rfl h1
    | cons p ps =>
      by_cases hc : c = ','
      · subst hc
        refine ⟨[] :: p :: ps, by simp, ?_, ?_⟩
        · intro x hx
          rcases List.mem_cons.1 hx with rfl | hx
          · simp
          · exact h2 x hx
        · rw [h3]; simp [List.intercalate]
      · refine ⟨(c :: p) :: ps, by simp, ?_, ?_⟩
        · intro x hx
          rcases List.mem_cons.1 hx with rfl | hx
          · simp only [List.mem_cons, not_or]
            exact ⟨fun h => hc h.symm, h2 p (by simp)⟩
          · exact h2 x (by simp [hx])
        · rw [h3]
          cases ps with
          | nil => simp [List.intercalate]
          | cons q ps => simp [List.intercalate]

/-! ## Patterns -/

theorem eraseMatches_none {m : List Char → Option (List Char)} {c : Char} {r : List Char} (h : m (c :: r) = none) :
    eraseMatches m (c :: r) = c :: eraseMatches m r := by
  rw [eraseMatches]; simp [h]

theorem eraseMatches_some {m : List Char → Option (List Char)} {c : Char} {r r' : List Char} (h : m (c :: r) = some r')
    (hl : r'.length < r.length + 1) : eraseMatches m (c :: r) = eraseMatches m r' := by
  rw [eraseMatches]; simp [h, hl]

/-- A text in which no match starts is kept. -/
theorem eraseMatches_pass {m : List Char → Option (List Char)} {a r : List Char}
    (h : ∀ x c y, a = x ++ c :: y → m (c :: (y ++ r)) = none) : eraseMatches m (a ++ r) = a ++ eraseMatches m r := by
  induction a with
  | nil => rfl
  | cons c a ih =>
    rw [List.cons_append, eraseMatches_none (h [] c a rfl), ih, List.cons_append]
    intro x d y e
    exact h (c :: x) d y (by rw [e]; rfl)

theorem eraseMatches_id {m : List Char → Option (List Char)} {a : List Char}
    (h : ∀ x c y, a = x ++ c :: y → m (c :: y) = none) : eraseMatches m a = a := by
  have := eraseMatches_pass (m := m) (a := a) (r := []) (by simpa using h)
  simpa [eraseMatches] using this

theorem literal_eq_some {p s r : List Char} (h : literal p s = some r) : s = p ++ r := by
  unfold literal at h
  split at h
  · rename_i hp
    obtain ⟨t, rfl⟩ := List.isPrefixOf_iff_prefix.1 hp
    simp only [List.drop_left, Option.some.injEq] at h
    rw [h]
  · cases h

theorem literal_append (p r : List Char) : literal p (p ++ r) = some r := by
  simp [literal]

theorem literal_eq_none {p s : List Char} (h : ∀ r, s ≠ p ++ r) : literal p s = none := by
  cases e : literal p s with
  | none => rfl
  | some r => exact absurd (literal_eq_some e) (h r)

/-- If `f` needs a character which does not occur, there is no match. -/
theorem greedy_none {f : List Char → Option (List Char)} {x : Char} (hf : ∀ s, x ∉ s → f s = none) :
    ∀ {s : List Char}, x ∉ s → greedy f s = none
  | [], h => by simp [greedy, hf [] h]
  | c :: s, h => by
    have hs : x ∉ s := fun hs => h (by simp [hs])
    simp [greedy, hf _ h, greedy_none hf hs]

theorem literal_mem_none {p : List Char} {x : Char} (hx : x ∈ p) {s : List Char} (h : x ∉ s) : literal p s = none :=
  literal_eq_none (fun r e => h (by rw [e]; simp [hx]))

/-- The greedy `.*` goes to the last end of comment. -/
theorem greedy_close {s r : List Char} (hs : ∀ c ∈ s, isLineEnd c = false) (hr : '/' ∉ r) :
    greedy (literal ['*', '/']) (s ++ '*' :: '/' :: r) = some r := by
  induction s with
  | nil =>
    have h1 : greedy (literal ['*', '/']) r = none := greedy_none (x := '/') (fun s h => literal_mem_none (by simp) h) hr
    have h2 : literal ['*', '/'] ('/' :: r) = none := literal_eq_none (by simp)
    have h3 : literal ['*', '/'] ('*' :: '/' :: r) = some r := literal_append ['*', '/'] r
    simp [greedy, isLineEnd, h1, h2, h3]
  | cons c s ih =>
    have hc := hs c (by simp)
    rw [List.cons_append, greedy, hc, ih (fun d hd => hs d (by simp [hd]))]
    simp

theorem greedy_newline {s : List Char} (hs : ∀ c ∈ s, isLineEnd c = false) (r : List Char) :
    greedy (literal ['\n']) (s ++ '\n' :: r) = some r := by
  induction s with
  | nil =>
    have h3 : literal ['\n'] ('\n' :: r) = some r := literal_append ['\n'] r
    simp [greedy, isLineEnd, h3]
  | cons c s ih =>
    have hc := hs c (by simp)
    rw [List.cons_append, greedy, hc, ih (fun d hd => hs d (by simp [hd]))]
    simp

end EasyMock.Parser
