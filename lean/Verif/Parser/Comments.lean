import Verif.Parser.TextLemmas

/-! # Parser: texts made of code and comments -/

namespace EasyMock.Parser

/-- A piece of a C text. -/
inductive Seg where
  | code (s : List Char)
  /-- `// s`, up to the end of the line -/
  | line (s : List Char)
  /-- `/* s */` -/
  | block (s : List Char)

/-- The piece as it is written. -/
def Seg.text : Seg → List Char
  | .code s => s
  | .line s => '/' :: '/' :: (s ++ ['\n'])
  | .block s => '/' :: '*' :: (s ++ ['*', '/'])

/-- The text outside comments. -/
def Seg.kept : Seg → List Char
  | .code s => s
  | _ => []

/-- What is required of a piece: the code has no `/`; a comment has no carriage return, and the comment of one kind
    contains no start or end of a comment which could be taken for one. -/
def Seg.Ok : Seg → Prop
  | .code s => '/' ∉ s
  | .line s => '\n' ∉ s ∧ '\r' ∉ s
  | .block s => '\r' ∉ s ∧ ¬ ['/', '/'] <:+: s ∧ ¬ ['*', '/'] <:+: s

/-- The whole text. -/
def written (l : List Seg) : List Char := (l.map Seg.text).flatten

/-- The text outside comments. -/
def outside (l : List Seg) : List Char := (l.map Seg.kept).flatten

/-- Is it a block comment? -/
def Seg.isBlock : Seg → Bool
  | .block _ => true
  | _ => false

/-- Is it a line comment? -/
def Seg.isLine : Seg → Bool
  | .line _ => true
  | _ => false

/-- No `/` directly behind a block comment. -/
def Apart (l : List Seg) : Prop := ∀ a s b, l = a ++ .block s :: b → (written b).head? ≠ some '/'

theorem lineComment_none {c : Char} {r : List Char} (h : c = '/' → r.head? ≠ some '/') : lineComment (c :: r) = none := by
  unfold lineComment
  rw [literal_eq_none, Option.bind_none]
  intro t e
  simp only [List.cons_append, List.nil_append, List.cons.injEq] at e
  exact h e.1 (by rw [e.2]; rfl)

theorem blockComment_none {c : Char} {r : List Char} (h : c ≠ '/') : blockComment (c :: r) = none := by
  unfold blockComment
  rw [literal_eq_none, Option.bind_none]
  intro t e
  simp only [List.cons_append, List.nil_append, List.cons.injEq] at e
  exact h e.1

theorem Apart.tail {x : Seg} {l : List Seg} (h : Apart (x :: l)) : Apart l := by
  intro a s b e
  exact h (x :: a) s b (by rw [e]; rfl)

/-- The first pass removes the line comments. -/
theorem erase_lines : ∀ {l : List Seg}, (∀ x ∈ l, x.Ok) → Apart l →
    eraseMatches lineComment (written l) = written (l.filter (fun x => !x.isLine))
  | [], _, _ => by simp [written, eraseMatches]
  | x :: l, ho, ha => by
    have ih := erase_lines (l := l) (fun y hy => ho y (by simp [hy])) ha.tail
    have hx := ho x (by simp)
    have hw : written (x :: l) = x.text ++ written l := rfl
    rw [hw]
    cases x with
    | code s =>
      rw [eraseMatches_pass, ih]
      · rfl
      · intro y c z e
        refine lineComment_none (fun hc => absurd ?_ (show '/' ∉ s from hx))
        simp only [Seg.text] at e
        rw [e, ← hc]; simp
    | line s =>
      have h1 : lineComment ('/' :: '/' :: (s ++ '\n' :: written l)) = some (written l) := by
        unfold lineComment
        rw [show '/' :: '/' :: (s ++ '\n' :: written l) = ['/', '/'] ++ (s ++ '\n' :: written l) from rfl, literal_append,
          Option.bind_some]
        refine greedy_newline ?_ _
        intro c hc
        have h1 : c ≠ '\n' := fun e => hx.1 (e ▸ hc)
        have h2 : c ≠ '\r' := fun e => hx.2 (e ▸ hc)
        simp [isLineEnd, h1, h2]
      have h2 : Seg.text (.line s) ++ written l = '/' :: '/' :: (s ++ '\n' :: written l) := by simp [Seg.text]
      rw [h2, eraseMatches_some h1 (by simp; omega), ih]
      rfl
    | block s =>
      rw [eraseMatches_pass, ih]
      · rfl
      · intro y c z e
        refine lineComment_none (fun hc => ?_)
        subst hc
        intro hh
        cases z with
        | nil => exact ha [] s l rfl (by simpa using hh)
        | cons d z =>
          simp only [List.cons_append, List.head?_cons, Option.some.injEq] at hh
          subst hh
          -- two slashes inside the comment
          have key : ['/', '/'] <:+: ('/' :: '*' :: (s ++ ['*', '/'])) := ⟨y, z, by
            simp only [Seg.text] at e; rw [e]; simp⟩
          have key2 : ['/', '/'] <:+: s := by
            obtain ⟨u, v, h⟩ := key
            cases u with
            | nil => simp at h
            | cons a u =>
              cases u with
              | nil => simp at h
              | cons b u =>
                simp only [List.cons_append, List.append_assoc, List.nil_append, List.cons.injEq] at h
                obtain ⟨-, -, h⟩ := h
                -- `u ++ // ++ v = s ++ */`
                rcases List.eq_nil_or_concat v with rfl | ⟨v', w, rfl⟩
                · have := congrArg List.reverse h
                  simp at this
                · rcases List.eq_nil_or_concat v' with rfl | ⟨v'', w', rfl⟩
                  · have := congrArg List.reverse h
                    simp at this
                  · refine ⟨u, v'', ?_⟩
                    have := congrArg List.reverse h
                    simp only [List.concat_eq_append, List.reverse_append, List.reverse_cons, List.reverse_nil,
                      List.nil_append, List.cons_append, List.append_assoc, List.cons.injEq] at this
                    have := congrArg List.reverse this.2.2
                    simpa using this
          exact hx.2.1 key2

theorem outside_noSlash {l : List Seg} (h : ∀ x ∈ l, x.Ok) : '/' ∉ outside l := by
  simp only [outside, List.mem_flatten, List.mem_map, not_exists, not_and]
  rintro s ⟨x, hx, rfl⟩
  have := h x hx
  cases x with
  | code s => exact this
  | line s => simp [Seg.kept]
  | block s => simp [Seg.kept]

theorem newline_slash {s : List Char} (h : '/' ∉ s) : '/' ∉ s.map newlineToSpace := by
  simp only [List.mem_map, not_exists, not_and]
  intro c hc e
  unfold newlineToSpace at e
  split at e
  · cases e
  · exact h (e ▸ hc)

theorem newline_lineEnd {s : List Char} (h : '\r' ∉ s) : ∀ c ∈ s.map newlineToSpace, isLineEnd c = false := by
  simp only [List.mem_map]
  rintro _ ⟨c, hc, rfl⟩
  have h2 : c ≠ '\r' := fun e => h (e ▸ hc)
  unfold newlineToSpace isLineEnd
  by_cases h1 : c = '\n'
  · subst h1; rfl
  · simp [h1, h2]

theorem erase_noSlash {s : List Char} (h : '/' ∉ s) : eraseMatches blockComment s = s := by
  refine eraseMatches_id (fun x c y e => blockComment_none (fun hc => h ?_))
  rw [e, hc]; simp

/-- The second pass removes the block comment. -/
theorem erase_block : ∀ {l : List Seg}, (∀ x ∈ l, x.Ok) → (∀ x ∈ l, x.isLine = false) → l.countP Seg.isBlock ≤ 1 →
    eraseMatches blockComment ((written l).map newlineToSpace) = (outside l).map newlineToSpace
  | [], _, _, _ => by simp [written, outside, eraseMatches]
  | x :: l, ho, hn, hc => by
    have hx := ho x (by simp)
    have ho' : ∀ y ∈ l, y.Ok := fun y hy => ho y (by simp [hy])
    have hn' : ∀ y ∈ l, y.isLine = false := fun y hy => hn y (by simp [hy])
    have hw : written (x :: l) = x.text ++ written l := rfl
    have hk : outside (x :: l) = x.kept ++ outside l := rfl
    rw [hw, hk, List.map_append, List.map_append]
    cases x with
    | code s =>
      have ih := erase_block ho' hn' (by simpa [List.countP_cons, Seg.isBlock] using hc)
      rw [eraseMatches_pass, ih]
      · rfl
      · intro y c z e
        refine blockComment_none (fun h => newline_slash (show '/' ∉ s from hx) ?_)
        simp only [Seg.text] at e
        rw [e, h]; simp
    | line s => exact absurd (hn (.line s) (by simp)) (by simp [Seg.isLine])
    | block s =>
      have hz : l.countP Seg.isBlock = 0 := by simp only [List.countP_cons, Seg.isBlock, if_true] at hc; omega
      have hsame : written l = outside l := by
        unfold written outside
        congr 1
        refine List.map_congr_left (fun y hy => ?_)
        have h1 := hn' y hy
        have h2 := List.countP_eq_zero.1 hz y hy
        cases y with
        | code s => rfl
        | line s => simp [Seg.isLine] at h1
        | block s => simp [Seg.isBlock] at h2
      have hsl : '/' ∉ (outside l).map newlineToSpace := newline_slash (outside_noSlash ho')
      have h1 : blockComment ('/' :: '*' :: (s.map newlineToSpace ++ '*' :: '/' :: (outside l).map newlineToSpace)) =
          some ((outside l).map newlineToSpace) := by
        unfold blockComment
        have h0 : literal ['/', '*'] ('/' :: '*' :: (s.map newlineToSpace ++ '*' :: '/' :: (outside l).map newlineToSpace)) =
            some (s.map newlineToSpace ++ '*' :: '/' :: (outside l).map newlineToSpace) := literal_append ['/', '*'] _
        rw [h0, Option.bind_some]
        exact greedy_close (newline_lineEnd hx.1) hsl
      have h2 : (Seg.text (.block s)).map newlineToSpace ++ (written l).map newlineToSpace =
          '/' :: '*' :: (s.map newlineToSpace ++ '*' :: '/' :: (outside l).map newlineToSpace) := by
        rw [hsame]
        simp only [Seg.text, List.map_cons, List.map_append, List.map_nil, List.cons_append, List.append_assoc,
          List.nil_append]
        rfl
      rw [h2, eraseMatches_some h1 (by simp; omega), erase_noSlash hsl]
      rfl

theorem removeComments_eq {l : List Seg} (ho : ∀ x ∈ l, x.Ok) (ha : Apart l) (hc : l.countP Seg.isBlock ≤ 1) :
    removeComments (written l) = (outside l).map newlineToSpace := by
  unfold removeComments
  rw [erase_lines ho ha, erase_block]
  · congr 1
    unfold outside
    induction l with
    | nil => rfl
    | cons x l ih =>
      have ih := ih (fun y hy => ho y (by simp [hy])) ha.tail (by
        simp only [List.countP_cons] at hc; split at hc <;> omega)
      cases x with
      | code s =>
        rw [List.filter_cons, if_pos (by rfl), List.map_cons, List.flatten_cons, ih, List.map_cons, List.flatten_cons]
      | line s => simpa [Seg.isLine, Seg.kept] using ih
      | block s =>
        rw [List.filter_cons, if_pos (by rfl), List.map_cons, List.flatten_cons, ih, List.map_cons, List.flatten_cons]
  · intro x hx; exact ho x (List.mem_filter.1 hx).1
  · intro x hx; simpa using (List.mem_filter.1 hx).2
  · exact Nat.le_trans (List.Sublist.countP_le List.filter_sublist) hc

end EasyMock.Parser
