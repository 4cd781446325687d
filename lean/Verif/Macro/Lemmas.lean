import Verif.Macro.Spec

/-! # Tokens separated by blanks are read back -/

namespace EasyMock.Macro

theorem blank_space : blank ' ' = true := by decide
theorem identChar_space : identChar ' ' = false := by decide
theorem identStart_space : identStart ' ' = false := by decide
theorem digit_space : digit ' ' = false := by decide

theorem takeWhile_stop (f : Char → Bool) (l : List Char) (c : Char) (s : List Char) (h : f c = false) :
    (l ++ c :: s).takeWhile f = l.takeWhile f := by
  induction l with
  | nil => simp [h]
  | cons a l ih =>
    simp only [List.cons_append, List.takeWhile_cons, ih]

theorem dropWhile_stop (f : Char → Bool) (l : List Char) (c : Char) (s : List Char) (h : f c = false) :
    (l ++ c :: s).dropWhile f = l.dropWhile f ++ c :: s := by
  induction l with
  | nil => simp [h]
  | cons a l ih =>
    simp only [List.cons_append, List.dropWhile_cons, ih]
    split <;> rfl

theorem numberTail_stop (cpp : Bool) (l s : List Char) :
    numberTail cpp (l ++ ' ' :: s) = ((numberTail cpp l).1, (numberTail cpp l).2 ++ ' ' :: s) := by
  induction l using numberTail.induct (cpp := cpp) with
  | case1 =>
    cases s with
    | nil => cases cpp <;> decide
    | cons d r =>
      simp only [List.nil_append, numberTail]
      rw [if_neg (by simp), if_neg (by simp), if_neg (by decide)]
  | case2 c h =>
    simp only [List.cons_append, List.nil_append, numberTail, h, if_true]
    rw [if_neg (by simp), if_neg (by simp [identChar_space])]
    cases s with
    | nil => simp [numberTail, identChar_space]
    | cons d r =>
      simp only [numberTail]
      rw [if_neg (by simp), if_neg (by simp), if_neg (by decide)]
  | case3 c h =>
    simp only [List.cons_append, List.nil_append, numberTail, h, Bool.false_eq_true, if_false]
    rw [if_neg (by simp), if_neg (by simp [identChar_space])]
  | case4 c d r h ih =>
    simp only [List.cons_append, numberTail, h, if_true]
    rw [ih]
  | case5 c d r h1 h2 ih =>
    simp only [List.cons_append, numberTail, h1, h2, if_true, Bool.false_eq_true, if_false]
    rw [ih]
  | case6 c d r h1 h2 h3 ih =>
    simp only [List.cons_append, numberTail, h1, h2, h3, if_true, Bool.false_eq_true, if_false]
    simp only [List.cons_append] at ih
    rw [ih]
  | case7 c d r h1 h2 h3 =>
    simp only [List.cons_append, numberTail, h1, h2, h3, Bool.false_eq_true, if_false]

theorem quoted_append (q : Char) (l : List Char) (x : List Char × List Char) (s : List Char) (h : quoted q l = some x) :
    quoted q (l ++ s) = some (x.1, x.2 ++ s) := by
  induction l using quoted.induct (q := q) generalizing x with
  | case1 => simp [quoted] at h
  | case2 c hc =>
    simp only [quoted, hc, if_true, Option.some.injEq] at h
    subst h
    cases s <;> simp [quoted, hc]
  | case3 c hc => simp [quoted, hc] at h
  | case4 c d r hc =>
    simp only [quoted, hc, if_true, Option.some.injEq] at h
    subst h
    simp [quoted, hc]
  | case5 c d r hc hb ih =>
    simp only [quoted, hc, hb, Bool.false_eq_true, if_false, if_true, Option.map_eq_some_iff] at h
    obtain ⟨y, hy, rfl⟩ := h
    simp only [List.cons_append, quoted, hc, hb, Bool.false_eq_true, if_false, if_true, ih y hy, Option.map_some]
  | case6 c d r hc hb ih =>
    simp only [quoted, hc, hb, Bool.false_eq_true, if_false, Option.map_eq_some_iff] at h
    obtain ⟨y, hy, rfl⟩ := h
    have := ih y hy
    simp only [List.cons_append] at this
    simp only [List.cons_append, quoted, hc, hb, Bool.false_eq_true, if_false, this, Option.map_some]

theorem suffix_stop (cpp : Bool) (l s : List Char) :
    suffix cpp (l ++ ' ' :: s) = ((suffix cpp l).1, (suffix cpp l).2 ++ ' ' :: s) := by
  cases l with
  | nil => simp [suffix, identStart_space]
  | cons c r =>
    simp only [suffix, List.cons_append]
    split
    · rw [← List.cons_append, takeWhile_stop _ _ _ _ identChar_space, dropWhile_stop _ _ _ _ identChar_space]
    · simp

theorem literal_stop (cpp : Bool) (q : Char) (l t r s : List Char) (h : literal cpp q l = some (t, r)) :
    literal cpp q (l ++ ' ' :: s) = some (t, r ++ ' ' :: s) := by
  simp only [literal, Option.map_eq_some_iff, Prod.mk.injEq] at h ⊢
  obtain ⟨x, hx, h1, h2⟩ := h
  refine ⟨_, quoted_append q l x (' ' :: s) hx, ?_, ?_⟩
  · rw [suffix_stop]; exact h1
  · rw [suffix_stop, ← h2]

theorem wordAt_stop (cpp : Bool) (w l t r s : List Char) (h : wordAt cpp w l = some (t, r)) :
    wordAt cpp w (l ++ ' ' :: s) = some (t, r ++ ' ' :: s) := by
  cases l with
  | nil =>
    simp only [wordAt, Option.some.injEq, Prod.mk.injEq] at h
    simp [wordAt, h.1, ← h.2]
  | cons c l =>
    simp only [wordAt, List.cons_append] at h ⊢
    split at h
    · cases h
    · rename_i h1
      rw [if_neg h1]
      split at h
      · rename_i h2
        rw [if_pos h2]
        simp only [Option.map_eq_some_iff, Prod.mk.injEq] at h ⊢
        obtain ⟨x, hx, h3, h4⟩ := h
        rw [literal_stop cpp c l x.1 x.2 s hx]
        simp [h3, h4]
      · rename_i h2
        rw [if_neg h2]
        simp only [Option.some.injEq, Prod.mk.injEq] at h ⊢
        simp [h.1, ← h.2]

theorem word_stop (cpp : Bool) (l t r s : List Char) (h : word cpp l = some (t, r)) :
    word cpp (l ++ ' ' :: s) = some (t, r ++ ' ' :: s) := by
  unfold word at h ⊢
  rw [takeWhile_stop _ _ _ _ identChar_space, dropWhile_stop _ _ _ _ identChar_space]
  exact wordAt_stop cpp _ _ _ _ _ h

theorem isPrefixOf_stop : ∀ (p l s : List Char), ' ' ∉ p → p.isPrefixOf (l ++ ' ' :: s) = p.isPrefixOf l
  | [], _, _, _ => by simp
  | a :: p, [], s, h => by
    have : (a == ' ') = false := by
      simp only [List.mem_cons, not_or] at h
      simp [Ne.symm h.1]
    simp [List.isPrefixOf, this]
  | a :: p, b :: l, s, h => by
    simp only [List.cons_append, List.isPrefixOf]
    rw [isPrefixOf_stop p l s (fun hp => h (List.mem_cons_of_mem _ hp))]

theorem punctuators_space (cpp : Bool) : ∀ p ∈ punctuators cpp, ' ' ∉ p := by
  cases cpp <;> decide

theorem find?_congr' {α} (l : List α) (f g : α → Bool) (h : ∀ x ∈ l, f x = g x) : l.find? f = l.find? g := by
  induction l with
  | nil => rfl
  | cons a l ih =>
    rw [List.find?_cons, List.find?_cons, h a List.mem_cons_self, ih (fun x hx => h x (List.mem_cons_of_mem _ hx))]

theorem punctuator_stop (cpp : Bool) (l t r s : List Char) (h : punctuator cpp l = some (t, r)) :
    punctuator cpp (l ++ ' ' :: s) = some (t, r ++ ' ' :: s) := by
  unfold punctuator at h ⊢
  rw [find?_congr' (punctuators cpp) _ (fun p => p.isPrefixOf l)
    (fun p hp => isPrefixOf_stop p l s (punctuators_space cpp p hp))]
  cases hf : (punctuators cpp).find? (fun p => p.isPrefixOf l) with
  | some p =>
    rw [hf] at h
    have hp := List.find?_some hf
    simp only [Option.some.injEq, Prod.mk.injEq] at h ⊢
    obtain ⟨rfl, rfl⟩ := h
    have := (List.isPrefixOf_iff_prefix.mp hp).length_le
    refine ⟨rfl, ?_⟩
    rw [List.drop_append_of_le_length this]
  | none =>
    rw [hf] at h
    cases l with
    | nil => simp at h
    | cons c l =>
      simp only [Option.some.injEq, Prod.mk.injEq] at h ⊢
      simp [h.1, ← h.2]

theorem token_stop (cpp : Bool) (l t r s : List Char) (h : token cpp l = some (t, r)) :
    token cpp (l ++ ' ' :: s) = some (t, r ++ ' ' :: s) := by
  cases l with
  | nil => simp [token] at h
  | cons c l =>
    have hh : (l ++ ' ' :: s).head?.any digit = l.head?.any digit := by
      cases l with
      | nil => simp [digit_space]
      | cons d l => simp
    rw [List.cons_append]
    simp only [token, hh] at h ⊢
    split at h
    · rw [if_pos (by assumption)]
      exact word_stop cpp _ _ _ _ h
    · rw [if_neg (by assumption)]
      split at h
      · rw [if_pos (by assumption), numberTail_stop]
        simp only [Option.some.injEq, Prod.mk.injEq] at h ⊢
        simp [h.1, ← h.2]
      · rw [if_neg (by assumption)]
        split at h
        · rw [if_pos (by assumption)]
          exact literal_stop cpp _ _ _ _ _ h
        · rw [if_neg (by assumption)]
          exact punctuator_stop cpp _ t r s h

/-! ## The next token -/

theorem next_eq (cpp : Bool) (l : List Char) :
    next cpp l = nextAt cpp (l.length != (l.dropWhile blank).length) (l.dropWhile blank) := rfl

theorem nextAt_stop (cpp sp : Bool) (l : List Char) (t : Lexeme) (r s : List Char) (h : nextAt cpp sp l = .tok t r) :
    nextAt cpp sp (l ++ ' ' :: s) = .tok t (r ++ ' ' :: s) := by
  unfold nextAt at h
  split at h
  · cases h
  · cases h
  · cases h
  · rename_i h0 h1 h2
    split at h
    · rename_i t' rest ht
      injection h with e1 e2
      subst e1 e2
      have := token_stop cpp l t' rest s ht
      unfold nextAt
      split
      · rename_i e; simp at e
      · rename_i e
        match l, h0, h1, e with
        | [], h0, _, _ => exact absurd rfl h0
        | [c], _, _, e => simp at e
        | c :: d :: l, _, h1, e =>
          simp only [List.cons_append, List.cons.injEq] at e
          exact absurd (by rw [e.1, e.2.1]) (h1 l)
      · rename_i e
        match l, h0, h2, e with
        | [], h0, _, _ => exact absurd rfl h0
        | [c], _, _, e => simp at e
        | c :: d :: l, _, h2, e =>
          simp only [List.cons_append, List.cons.injEq] at e
          exact absurd (by rw [e.1, e.2.1]) (h2 l)
      · rw [this]
    · cases h

theorem nextAt_spaced (cpp sp : Bool) (l : List Char) (t : List Char) (r : List Char) (b : Bool)
    (h : nextAt cpp b l = .tok ⟨b, t⟩ r) : nextAt cpp sp l = .tok ⟨sp, t⟩ r := by
  unfold nextAt at h ⊢
  split at h
  · cases h
  · cases h
  · cases h
  · rename_i h0 h1 h2
    split at h
    · rename_i t' rest ht
      injection h with e1 e2
      injection e1 with _ e1
      subst e1 e2
      rfl
    · cases h

theorem dropWhile_length_eq (f : Char → Bool) (l : List Char) (h : l.length = (l.dropWhile f).length) : l.dropWhile f = l := by
  have h2 := List.dropWhile_suffix f (l := l)
  exact h2.eq_of_length h.symm

/-- Text which is exactly one token. -/
def IsToken (cpp : Bool) (t : List Char) : Prop := next cpp t = .tok ⟨false, t⟩ [] ∧ '\n' ∉ t

theorem IsToken.at {cpp : Bool} {t : List Char} (h : IsToken cpp t) :
    t.dropWhile blank = t ∧ nextAt cpp false t = .tok ⟨false, t⟩ [] := by
  have h1 := h.1
  rw [next_eq] at h1
  have hb : (t.length != (t.dropWhile blank).length) = false := by
    generalize (t.length != (t.dropWhile blank).length) = b at h1
    unfold nextAt at h1
    split at h1
    · cases h1
    · cases h1
    · cases h1
    · split at h1
      · injection h1 with h1 _; injection h1 with h1
      · cases h1
  have hd := dropWhile_length_eq blank t (by simpa using hb)
  rw [hb, hd] at h1
  exact ⟨hd, h1⟩

theorem IsToken.ne {cpp : Bool} {t : List Char} (h : IsToken cpp t) : t ≠ [] := by
  intro e
  subst e
  have := h.at.2
  simp [nextAt] at this

theorem IsToken.head {cpp : Bool} {t : List Char} (h : IsToken cpp t) (s : List Char) : (t ++ s).dropWhile blank = t ++ s := by
  cases t with
  | nil => exact absurd rfl h.ne
  | cons c t =>
    have := h.at.1
    simp only [List.cons_append, List.dropWhile_cons] at this ⊢
    split at this
    · rename_i hb
      have h3 := List.dropWhile_suffix blank (l := t)
      rw [this] at h3
      have := h3.length_le
      simp at this
      omega
    · rename_i hb
      rw [if_neg hb]

/-- A token behind a blank, followed by a blank or by nothing. -/
theorem next_spaced {cpp : Bool} {t : List Char} (h : IsToken cpp t) (s : List Char) :
    next cpp (' ' :: (t ++ ' ' :: s)) = .tok ⟨true, t⟩ (' ' :: s) ∧ next cpp (' ' :: t) = .tok ⟨true, t⟩ [] := by
  constructor
  · rw [next_eq, List.dropWhile_cons, if_pos blank_space, h.head]
    have : ((' ' :: (t ++ ' ' :: s)).length != (t ++ ' ' :: s).length) = true := by simp
    rw [this]
    have h2 := nextAt_spaced cpp true t t [] false h.at.2
    have := nextAt_stop cpp true t _ _ s h2
    simpa using this
  · rw [next_eq, List.dropWhile_cons, if_pos blank_space, h.at.1]
    have : ((' ' :: t).length != t.length) = true := by simp
    rw [this]
    exact nextAt_spaced cpp true t t [] false h.at.2

theorem next_blank (cpp : Bool) (l : List Char) (t r : List Char) (b : Bool) (h : next cpp l = .tok ⟨b, t⟩ r) :
    next cpp (' ' :: l) = .tok ⟨true, t⟩ r := by
  rw [next_eq] at h ⊢
  rw [List.dropWhile_cons, if_pos blank_space]
  have : ((' ' :: l).length != (l.dropWhile blank).length) = true := by
    have := (List.dropWhile_suffix blank (l := l)).length_le
    simp; omega
  rw [this]
  generalize (l.length != (l.dropWhile blank).length) = b' at h
  have hb : b' = b := by
    unfold nextAt at h
    split at h
    · cases h
    · cases h
    · cases h
    · split at h
      · injection h with h _; injection h with h
      · cases h
  subst hb
  exact nextAt_spaced cpp true _ t r b' h

/-! ## The tokens of a replacement -/

/-- Tokens with a blank before each. -/
def spread (ts : List (List Char)) : List Char := (ts.map (' ' :: ·)).flatten

theorem spread_length (cpp : Bool) : ∀ (ts : List (List Char)), (∀ t ∈ ts, IsToken cpp t) → ts.length ≤ (spread ts).length
  | [], _ => by simp
  | t :: ts, h => by
    have := spread_length cpp ts (fun x hx => h x (List.mem_cons_of_mem _ hx))
    simp only [spread, List.map_cons, List.flatten_cons, List.length_append, List.length_cons] at this ⊢
    omega

theorem lexN_spread (cpp : Bool) : ∀ (ts : List (List Char)), (∀ t ∈ ts, IsToken cpp t) → ∀ n, ts.length < n →
    lexN cpp n (spread ts) = some (ts.map (⟨true, ·⟩))
  | [], _, n, hn => by
    obtain ⟨n, rfl⟩ : ∃ m, n = m + 1 := ⟨n - 1, by simp at hn; omega⟩
    rfl
  | t :: ts, h, n, hn => by
    obtain ⟨n, rfl⟩ : ∃ m, n = m + 1 := ⟨n - 1, by simp at hn; omega⟩
    have ih := lexN_spread cpp ts (fun x hx => h x (List.mem_cons_of_mem _ hx)) n (by simpa using hn)
    have ht := h t List.mem_cons_self
    have e : next cpp (spread (t :: ts)) = .tok ⟨true, t⟩ (spread ts) := by
      cases ts with
      | nil => simpa [spread] using (next_spaced ht []).2
      | cons u us =>
        have := (next_spaced ht (u ++ spread us)).1
        simpa [spread] using this
    rw [lexN, e]
    simp only [ih, Option.map_some, List.map_cons]

theorem lex_spread (cpp : Bool) (ts : List (List Char)) (h : ∀ t ∈ ts, IsToken cpp t) :
    lex cpp (spread ts) = some (ts.map (⟨true, ·⟩)) :=
  lexN_spread cpp ts h _ (by have := spread_length cpp ts h; omega)

/-- One more blank in front changes nothing. -/
theorem lexN_blank_spread (cpp : Bool) (ts : List (List Char)) (h : ∀ t ∈ ts, IsToken cpp t) (n : Nat) (hn : ts.length < n) :
    lexN cpp n (' ' :: spread ts) = some (ts.map (⟨true, ·⟩)) := by
  have h0 := lexN_spread cpp ts h n hn
  obtain ⟨n, rfl⟩ : ∃ m, n = m + 1 := ⟨n - 1, by omega⟩
  cases ts with
  | nil => rfl
  | cons t ts =>
    have e : ∀ r, next cpp (spread (t :: ts)) = .tok ⟨true, t⟩ r → next cpp (' ' :: spread (t :: ts)) = .tok ⟨true, t⟩ r :=
      fun r hr => next_blank cpp _ _ _ _ hr
    rw [lexN] at h0 ⊢
    cases hx : next cpp (spread (t :: ts)) with
    | done => rw [hx] at h0; simp at h0
    | bad => rw [hx] at h0; simp at h0
    | tok u r =>
      rw [hx] at h0
      obtain ⟨b, u⟩ := u
      rw [next_blank cpp _ _ _ _ hx]
      simp only [Option.map_eq_some_iff, List.map_cons, List.cons.injEq, Lexeme.mk.injEq] at h0 ⊢
      obtain ⟨a, ha, ⟨_, hb⟩, hc⟩ := h0
      exact ⟨a, ha, ⟨trivial, hb⟩, hc⟩

end EasyMock.Macro
