import Verif.Parser.Decl

/-! # Parser: the declared string of a return value -/

namespace EasyMock.Parser

/-! ## Words -/

/-- The text between the blanks. -/
def splitBlank : List Char → List (List Char)
  | [] => [[]]
  | c :: r =>
    if c = ' ' then [] :: splitBlank r
    else
      match splitBlank r with
      | [] => [[c]]
      | w :: ws => (c :: w) :: ws

/-- The words of a text. -/
def words (s : List Char) : List (List Char) := (splitBlank s).filter (fun w => !w.isEmpty)

/-- Words separated by one blank. -/
def spaced (ws : List (List Char)) : List Char := [' '].intercalate ws

theorem spaced_cons (w v : List Char) (ws : List (List Char)) : spaced (w :: v :: ws) = w ++ ' ' :: spaced (v :: ws) := by
  simp [spaced, List.intercalate]

theorem spaced_one (w : List Char) : spaced [w] = w := by simp [spaced, List.intercalate]

theorem splitBlank_ne_nil (s : List Char) : splitBlank s ≠ [] := by
  cases s with
  | nil => simp [splitBlank]
  | cons c r =>
    rw [splitBlank]
    split
    · simp
    · split <;> simp

theorem splitBlank_word {w : List Char} (h : ' ' ∉ w) (r : List Char) :
    splitBlank (w ++ ' ' :: r) = w :: splitBlank r := by
  induction w with
  | nil => simp [splitBlank]
  | cons c w ih =>
    have hc : c ≠ ' ' := fun e => h (by simp [e])
    rw [List.cons_append, splitBlank, if_neg hc, ih (fun hw => h (by simp [hw]))]

theorem splitBlank_last {w : List Char} (h : ' ' ∉ w) : splitBlank w = [w] := by
  induction w with
  | nil => rfl
  | cons c w ih =>
    have hc : c ≠ ' ' := fun e => h (by simp [e])
    rw [splitBlank, if_neg hc, ih (fun hw => h (by simp [hw]))]

theorem splitBlank_spaced : ∀ {ws : List (List Char)}, ws ≠ [] → (∀ w ∈ ws, ' ' ∉ w) → splitBlank (spaced ws) = ws
  | [], h, _ => absurd rfl h
  | [w], _, h => by rw [spaced_one, splitBlank_last (h w (by simp))]
  | w :: v :: ws, _, h => by
    rw [spaced_cons, splitBlank_word (h w (by simp)), splitBlank_spaced (by simp) (fun x hx => h x (by simp [hx]))]

theorem words_spaced {ws : List (List Char)} (h : ∀ w ∈ ws, ' ' ∉ w) :
    words (spaced ws) = ws.filter (fun w => !w.isEmpty) := by
  cases ws with
  | nil => simp [words, spaced, List.intercalate, splitBlank]
  | cons w ws => rw [words, splitBlank_spaced (by simp) h]

theorem words_blank (s : List Char) : words (' ' :: s) = words s := by
  unfold words
  rw [splitBlank, if_pos rfl]
  rfl

theorem splitBlank_snoc (s : List Char) : splitBlank (s ++ [' ']) = splitBlank s ++ [[]] := by
  induction s with
  | nil => simp [splitBlank]
  | cons c r ih =>
    rw [List.cons_append, splitBlank, splitBlank, ih]
    split
    · rfl
    · cases h : splitBlank r with
      | nil => exact absurd h (splitBlank_ne_nil r)
      | cons w ws => rfl

theorem words_snoc (s : List Char) : words (s ++ [' ']) = words s := by
  unfold words
  rw [splitBlank_snoc]
  simp

theorem words_trim {s : List Char} (h : ∀ c ∈ s, isSpace c = true → c = ' ') : words (trim s) = words s := by
  obtain ⟨a, b, e, ha, hb, -⟩ := trim_spec s
  have ha' : ∀ c ∈ a, c = ' ' := fun c hc => h c (by rw [e]; simp [hc]) (ha c hc)
  have hb' : ∀ c ∈ b, c = ' ' := fun c hc => h c (by rw [e]; simp [hc]) (hb c hc)
  have h1 : ∀ (a m : List Char), (∀ c ∈ a, c = ' ') → words (a ++ m) = words m := by
    intro a m
    induction a with
    | nil => intro _; rfl
    | cons c a ih =>
      intro h
      rw [List.cons_append, h c (by simp), words_blank, ih (fun d hd => h d (by simp [hd]))]
  have h2 : ∀ (b m : List Char), (∀ c ∈ b, c = ' ') → words (m ++ b) = words m := by
    intro b
    induction b with
    | nil => intro m _; simp
    | cons c b ih =>
      intro m h
      rw [show m ++ c :: b = (m ++ [c]) ++ b by simp, ih _ (fun d hd => h d (by simp [hd])), h c (by simp), words_snoc]
  conv => rhs; rw [e]
  rw [h2 _ _ hb', h1 _ _ ha']

/-! ## The words of a return type -/

/-- A word of a declaration: an identifier or stars. -/
structure Word (w : List Char) : Prop where
  nonempty : w ≠ []
  plain : (∀ c ∈ w, isIdent c = true) ∨ ∀ c ∈ w, c = '*'

theorem isIdent_ne {c : Char} (h : isIdent c = true) : c ≠ ' ' ∧ c ≠ '*' ∧ c ≠ '/' ∧ c ≠ '{' ∧ c ≠ '(' ∧ c ≠ ',' ∧
    c ≠ '[' ∧ isSpace c = false := by
  have key : ∀ d : Char, isIdent d = false → c ≠ d := by
    rintro d hd rfl; rw [h] at hd; cases hd
  have hs : isSpace c = false := by
    cases hs : isSpace c with
    | false => rfl
    | true =>
      simp only [isSpace, Bool.or_eq_true, beq_iff_eq] at hs
      rcases hs with ((((rfl | rfl) | rfl) | rfl) | rfl) | rfl <;> exact absurd h (by decide)
  exact ⟨key _ (by decide), key _ (by decide), key _ (by decide), key _ (by decide), key _ (by decide), key _ (by decide),
    key _ (by decide), hs⟩

theorem Word.char {w : List Char} (h : Word w) {c : Char} (hc : c ∈ w) : c ≠ ' ' ∧ c ≠ '/' ∧ c ≠ '{' ∧ c ≠ '(' ∧ c ≠ ',' ∧
    c ≠ '[' ∧ isSpace c = false := by
  rcases h.plain with hp | hp
  · obtain ⟨h1, -, h3, h4, h5, h6, h7, h8⟩ := isIdent_ne (hp c hc)
    exact ⟨h1, h3, h4, h5, h6, h7, h8⟩
  · rw [hp c hc]; decide

theorem mem_spaced : ∀ {ws : List (List Char)} {c : Char}, c ∈ spaced ws → c = ' ' ∨ ∃ w ∈ ws, c ∈ w
  | [], c, h => by simp [spaced, List.intercalate] at h
  | [w], c, h => by rw [spaced_one] at h; exact Or.inr ⟨w, by simp, h⟩
  | w :: v :: ws, c, h => by
    rw [spaced_cons] at h
    simp only [List.mem_append, List.mem_cons] at h
    rcases h with h | h | h
    · exact Or.inr ⟨w, by simp, h⟩
    · exact Or.inl h
    · rcases mem_spaced h with h | ⟨x, hx, h⟩
      · exact Or.inl h
      · exact Or.inr ⟨x, by simp at hx ⊢; exact Or.inr hx, h⟩

/-! ## Removal of a macro -/

theorem prefix_word {t y r : List Char} (ht : ' ' ∉ t) (h : t <+: y ++ ' ' :: r) : t <+: y := by
  obtain ⟨u, e⟩ := h
  rcases List.append_eq_append_iff.1 e with ⟨w, hw1, hw2⟩ | ⟨w, hw1, hw2⟩
  · exact ⟨w, hw1.symm⟩
  · cases w with
    | nil => exact ⟨[], by rw [hw1]; simp⟩
    | cons d w =>
      rw [List.cons_append, List.cons.injEq] at hw2
      exact absurd (by rw [hw1, ← hw2.1]; simp) ht

/-- Removing `t` from words of which it is no proper part. -/
theorem erase_word {t : List Char} (ht : t ≠ []) (htb : ' ' ∉ t) : ∀ {ws : List (List Char)},
    (∀ w ∈ ws, t <:+: w → w = t) →
    eraseMatches (literal t) (spaced ws) = spaced (ws.map (fun w => if w = t then [] else w))
  | [], _ => by simp [spaced, List.intercalate, eraseMatches]
  | [w], h => by
    rw [List.map_singleton, spaced_one, spaced_one]
    by_cases hw : w = t
    · subst hw
      rw [if_pos rfl]
      cases w with
      | nil => exact absurd rfl ht
      | cons c w =>
        have := literal_append (c :: w) []
        rw [List.append_nil] at this
        rw [eraseMatches_some this (by simp)]
        simp [eraseMatches]
    · rw [if_neg hw]
      refine eraseMatches_id (fun x c y e => literal_eq_none (fun r e2 => hw (h w (by simp) ⟨x, r, ?_⟩)))
      rw [e, e2]; simp
  | w :: v :: ws, h => by
    have ih := erase_word ht htb (ws := v :: ws) (fun x hx => h x (by simp [hx]))
    rw [spaced_cons, List.map_cons]
    have hm : spaced ((if w = t then [] else w) :: (v :: ws).map (fun w => if w = t then [] else w)) =
        (if w = t then [] else w) ++ ' ' :: spaced ((v :: ws).map (fun w => if w = t then [] else w)) := by
      rw [List.map_cons, spaced_cons]
    rw [hm]
    have hblank : eraseMatches (literal t) (' ' :: spaced (v :: ws)) =
        ' ' :: spaced ((v :: ws).map (fun w => if w = t then [] else w)) := by
      rw [eraseMatches_none, ih]
      refine literal_eq_none (fun r e => ?_)
      cases t with
      | nil => exact ht rfl
      | cons c t =>
        rw [List.cons_append, List.cons.injEq] at e
        exact htb (by rw [← e.1]; simp)
    by_cases hw : w = t
    · subst hw
      rw [if_pos rfl, List.nil_append]
      cases w with
      | nil => exact absurd rfl ht
      | cons c w =>
        have := literal_append (c :: w) (' ' :: spaced (v :: ws))
        rw [List.cons_append] at this ⊢
        rw [eraseMatches_some this (by simp; omega), hblank]
    · rw [if_neg hw, eraseMatches_pass, hblank]
      intro x c y e
      refine literal_eq_none (fun r e2 => hw (h w (by simp) ?_))
      have : t <+: (c :: y) := by
        refine prefix_word htb (r := spaced (v :: ws)) ⟨r, ?_⟩
        rw [← e2]; simp
      exact List.IsInfix.trans this.isInfix ⟨x, [], by rw [e]; simp⟩

theorem removeMacro_word {t : List Char} (ht : t ≠ []) (htb : ' ' ∉ t) {ws : List (List Char)}
    (h : ∀ w ∈ ws, t <:+: w → w = t) :
    removeMacro t false (spaced ws) = spaced (ws.map (fun w => if w = t then [] else w)) := by
  simpa [removeMacro] using erase_word ht htb h

theorem removeMacro_call {t s : List Char} (h : '(' ∉ s) : removeMacro t true s = s := by
  unfold removeMacro
  refine eraseMatches_id (fun x c y e => ?_)
  rw [if_pos rfl]
  show (literal (t ++ ['(']) (c :: y)).bind _ = none
  rw [literal_mem_none (x := '(') (by simp) (fun hm => h (by rw [e]; exact List.mem_append_right _ hm))]
  rfl

/-! ## The tokens which are looked at -/

/-- The tokens of the loop, in order. -/
def visited (name s : List Char) : List (List Char) :=
  let tok := rawToken (s ++ name)
  if _h : s.length = 0 ∨ tok.length = 0 then []
  else tok :: visited name (s.drop tok.length)
termination_by s.length
decreasing_by
  simp only [List.length_drop, tok] at *
  omega

/-- One turn of the loop. -/
def strip (ms : MacroInfo) (decl tok : List Char) : List Char :=
  match removable ms tok with
  | some p => removeMacro tok p decl
  | none => decl

theorem removeMacros_eq (ms : MacroInfo) (name : List Char) : ∀ (n : Nat) (s decl : List Char), s.length ≤ n →
    removeMacros ms name s decl = (visited name s).foldl (strip ms) decl := by
  intro n
  induction n with
  | zero =>
    intro s decl h
    rw [removeMacros, visited]
    simp [show s.length = 0 by omega]
  | succ n ih =>
    intro s decl h
    rw [removeMacros, visited]
    by_cases hc : s.length = 0 ∨ (rawToken (s ++ name)).length = 0
    · rw [dif_pos hc, dif_pos hc]; rfl
    · rw [dif_neg hc, dif_neg hc, List.foldl_cons]
      rw [ih _ _ (by simp only [List.length_drop]; omega)]
      rfl

theorem rawToken_ident {c : Char} {w r : List Char} (hc : isIdent c = true) (hw : ∀ d ∈ w, isIdent d = true)
    {x : Char} (hx : isIdent x = false) : rawToken (c :: (w ++ x :: r)) = c :: w := by
  unfold rawToken
  rw [List.dropWhile_cons, (isIdent_ne hc).2.2.2.2.2.2.2]
  simp only [Bool.false_eq_true, if_false, hc, if_true]
  rw [takeWhile_append_stop _ hw x hx]

theorem rawToken_blank (s : List Char) : rawToken (' ' :: s) = rawToken s := by
  unfold rawToken
  rw [List.dropWhile_cons]
  rfl

theorem rawToken_star (s : List Char) : rawToken ('*' :: s) = ['*'] := by
  unfold rawToken
  rw [List.dropWhile_cons, show isSpace '*' = false from by decide]
  simp [show isIdent '*' = false from by decide]

/-- Every token is a part of the text or, behind the last blank, the name. -/
theorem token_part {s name : List Char} (hend : ∃ r c, s = r ++ [c] ∧ (c = ' ' ∨ c = '*')) :
    rawToken (s ++ name) <:+: s ∨ rawToken (s ++ name) = rawToken name := by
  obtain ⟨a, h1, h2, h3⟩ := dropWhile_spec isSpace s
  cases hd : s.dropWhile isSpace with
  | nil =>
    right
    unfold rawToken
    rw [h1, hd, List.append_nil, dropWhile_append_all _ h2]
  | cons c r =>
    left
    have hc : isSpace c = false := h3 c r hd
    have hsplit : s = a ++ c :: r := by rw [← hd]; exact h1
    have hdn : (s ++ name).dropWhile isSpace = c :: (r ++ name) := by
      rw [hsplit, List.append_assoc, dropWhile_append_all _ h2, List.cons_append, List.dropWhile_cons, hc]
      simp
    have hinf : c :: r <:+: s := ⟨a, [], by rw [hsplit]; simp⟩
    unfold rawToken
    rw [hdn]
    simp only
    split
    · rename_i hi
      -- the last character is no character of an identifier
      have : ∃ u x v, r = u ++ x :: v ∧ (∀ d ∈ u, isIdent d = true) ∧ isIdent x = false := by
        obtain ⟨u, e1, e2, e3⟩ := dropWhile_spec isIdent r
        cases hv : r.dropWhile isIdent with
        | cons x v => exact ⟨u, x, v, by rw [← hv]; exact e1, e2, e3 x v hv⟩
        | nil =>
          exfalso
          rw [hv, List.append_nil] at e1
          obtain ⟨r', d, e4, e5⟩ := hend
          have hall : ∀ d ∈ c :: r, isIdent d = true := by
            intro d hd'
            rcases List.mem_cons.1 hd' with rfl | hd'
            · exact hi
            · exact e2 d (e1 ▸ hd')
          have hlast : d ∈ c :: r := by
            rw [hsplit] at e4
            rcases List.eq_nil_or_concat (c :: r) with h | ⟨q, z, h⟩
            · cases h
            · rw [h] at e4
              have := congrArg List.reverse e4
              simp only [List.concat_eq_append, List.reverse_append, List.reverse_cons, List.reverse_nil, List.nil_append,
                List.cons_append, List.cons.injEq] at this
              rw [h, ← this.1]; simp
          have := hall d hlast
          rcases e5 with rfl | rfl <;> exact absurd this (by decide)
      obtain ⟨u, x, v, rfl, hu, hx⟩ := this
      rw [show u ++ x :: v ++ name = u ++ x :: (v ++ name) by simp, takeWhile_append_stop _ hu x hx]
      exact List.IsInfix.trans ⟨[], x :: v, by simp⟩ hinf
    · exact List.IsInfix.trans ⟨[], r, by simp⟩ hinf

/-- A part of the text without blank is a part of a word. -/
theorem part_of_word {t : List Char} (htn : t ≠ []) (ht : ' ' ∉ t) : ∀ {ws : List (List Char)}, t <:+: spaced ws → ∃ w ∈ ws, t <:+: w
  | [], h => by
    rw [show spaced ([] : List (List Char)) = [] from rfl] at h
    exact absurd (List.infix_nil.1 h) htn
  | [w], h => ⟨w, by simp, by rwa [spaced_one] at h⟩
  | w :: v :: ws, h => by
    rw [spaced_cons] at h
    obtain ⟨a, b, e⟩ := h
    rw [List.append_assoc] at e
    rcases List.append_eq_append_iff.1 e with ⟨x, h1, h2⟩ | ⟨x, h1, h2⟩
    · -- `a ++ x = w`
      have : t <+: x := prefix_word ht (r := spaced (v :: ws)) ⟨b, h2⟩
      exact ⟨w, by simp, List.IsInfix.trans this.isInfix ⟨a, [], by rw [h1]; simp⟩⟩
    · cases x with
      | nil =>
        rw [List.nil_append] at h2
        exfalso
        cases t with
        | nil => exact htn rfl
        | cons c t =>
          rw [List.cons_append, List.cons.injEq] at h2
          exact ht (by rw [h2.1]; simp)
      | cons d x =>
        rw [List.cons_append, List.cons.injEq] at h2
        obtain ⟨y, hy, hi⟩ := part_of_word htn ht (ws := v :: ws) ⟨x, b, by rw [List.append_assoc]; exact h2.2.symm⟩
        exact ⟨y, by simp at hy ⊢; exact Or.inr hy, hi⟩

/-! ## Every word is looked at -/

theorem visited_step {name s : List Char} {t r : List Char} (ht : rawToken (s ++ name) = t) (htn : t ≠ [])
    (hs : s ≠ []) (hd : s.drop t.length = r) : visited name s = t :: visited name r := by
  rw [visited]
  have h1 : ¬ (s.length = 0 ∨ (rawToken (s ++ name)).length = 0) := by
    rw [ht, not_or]
    exact ⟨fun h => hs (List.length_eq_zero_iff.1 h), fun h => htn (List.length_eq_zero_iff.1 h)⟩
  rw [dif_neg h1, ht, hd]

/-- The texts behind a word: the other words, then the end. -/
theorem visited_words (name tail : List Char) : ∀ (ws : List (List Char)), (∀ w ∈ ws, Word w) →
    (tail = [' '] ∨ (tail = [] ∧ ∀ l w, ws = l ++ [w] → ∀ c ∈ w, c = '*')) →
    ∀ w ∈ ws, (∀ c ∈ w, isIdent c = true) →
      (w ∈ visited name (spaced ws ++ tail)) ∧ w ∈ visited name (' ' :: (spaced ws ++ tail)) := by
  intro ws
  induction ws with
  | nil => intro _ _ w hw; cases hw
  | cons v ws ih =>
    intro hw ht
    -- the text behind the first word
    obtain ⟨more, hmore⟩ : ∃ more, more = (match ws with | [] => tail | _ :: _ => ' ' :: (spaced ws ++ tail)) := ⟨_, rfl⟩
    have htext : spaced (v :: ws) ++ tail = v ++ more := by
      cases ws with
      | nil => rw [spaced_one, hmore]
      | cons u ws => rw [spaced_cons, hmore]; simp
    have hv := hw v (by simp)
    have hrest : ∀ w ∈ ws, (∀ c ∈ w, isIdent c = true) → w ∈ visited name more := by
      intro w hwm hi
      cases ws with
      | nil => cases hwm
      | cons u ws =>
        rw [hmore]
        refine (ih (fun x hx => hw x (by simp [hx])) ?_ w hwm hi).2
        rcases ht with ht | ⟨ht, hl⟩
        · exact Or.inl ht
        · exact Or.inr ⟨ht, fun l x e => hl (v :: l) x (by rw [e]; rfl)⟩
    rw [htext]
    rcases hv.plain with hi | hstar
    · -- an identifier: a blank follows
      have hm : ∃ m, more = ' ' :: m := by
        cases ws with
        | nil =>
          rcases ht with ht | ⟨ht, hl⟩
          · exact ⟨[], by rw [hmore]; exact ht⟩
          · exfalso
            obtain ⟨hne, -⟩ := hv
            cases v with
            | nil => exact hne rfl
            | cons c v =>
              have h1 := hl [] (c :: v) rfl c (by simp)
              have h2 := hi c (by simp)
              rw [h1] at h2
              exact absurd h2 (by decide)
        | cons u ws => exact ⟨_, hmore⟩
      obtain ⟨m, hm⟩ := hm
      obtain ⟨c, v', rfl⟩ : ∃ c v', v = c :: v' := by
        cases v with
        | nil => exact absurd rfl hv.nonempty
        | cons c v => exact ⟨c, v, rfl⟩
      have hc := hi c (by simp)
      have hv' : ∀ d ∈ v', isIdent d = true := fun d hd => hi d (by simp [hd])
      have htok : rawToken (c :: v' ++ more ++ name) = c :: v' := by
        rw [hm, show c :: v' ++ ' ' :: m ++ name = c :: (v' ++ ' ' :: (m ++ name)) by simp]
        exact rawToken_ident hc hv' (by decide)
      have h1 : visited name (c :: v' ++ more) = (c :: v') :: visited name more :=
        visited_step htok (by simp) (by simp) (by simp)
      -- from the blank before the word: the word, then its last character
      obtain ⟨q, z, hq⟩ : ∃ q z, c :: v' = q ++ [z] := by
        rcases List.eq_nil_or_concat (c :: v') with h | ⟨q, z, h⟩
        · cases h
        · exact ⟨q, z, by rw [h]; simp⟩
      have hz : isIdent z = true := hi z (by rw [hq]; simp)
      have h2 : visited name (' ' :: (c :: v' ++ more)) = (c :: v') :: visited name (z :: more) := by
        refine visited_step ?_ (by simp) (by simp) ?_
        · rw [List.cons_append, rawToken_blank]; exact htok
        · rw [hq]; simp
      have h3 : visited name (z :: more) = [z] :: visited name more := by
        refine visited_step ?_ (by simp) (by simp) (by simp)
        rw [hm, show z :: ' ' :: m ++ name = z :: ([] ++ ' ' :: (m ++ name)) by simp]
        exact rawToken_ident hz (by simp) (by decide)
      intro w hwm hwi
      rw [h1, h2, h3]
      rcases List.mem_cons.1 hwm with rfl | hwm
      · exact ⟨by simp, by simp⟩
      · have := hrest w hwm hwi
        exact ⟨by simp [this], by simp [this]⟩
    · -- stars, one after the other
      have hst : ∀ (v : List Char), (∀ c ∈ v, c = '*') → ∀ w ∈ visited name more, w ∈ visited name (v ++ more) := by
        intro v
        induction v with
        | nil => intro _ w h; exact h
        | cons c v ihv =>
          intro h w hwv
          rw [h c (by simp)]
          rw [visited_step (t := ['*']) (r := v ++ more) (by rw [List.cons_append, List.cons_append, rawToken_star]) (by simp)
            (by simp) (by simp)]
          exact List.mem_cons_of_mem _ (ihv (fun d hd => h d (by simp [hd])) w hwv)
      have h2 : visited name (' ' :: (v ++ more)) = ['*'] :: visited name (v ++ more) := by
        refine visited_step ?_ (by simp) (by simp) (by simp)
        obtain ⟨c, v', rfl⟩ : ∃ c v', v = c :: v' := by
          cases v with
          | nil => exact absurd rfl hv.nonempty
          | cons c v => exact ⟨c, v, rfl⟩
        rw [hstar c (by simp), List.cons_append, rawToken_blank, List.cons_append, List.cons_append, rawToken_star]
      intro w hwm hwi
      rw [h2]
      rcases List.mem_cons.1 hwm with rfl | hwm
      · exfalso
        obtain ⟨c, v', rfl⟩ : ∃ c v', w = c :: v' := by
          cases w with
          | nil => exact absurd rfl hv.nonempty
          | cons c v => exact ⟨c, v, rfl⟩
        have h1 := hwi c (by simp)
        rw [hstar c (by simp)] at h1
        exact absurd h1 (by decide)
      · have := hst v hstar w (hrest w hwm hwi)
        exact ⟨this, by simp [this]⟩

/-- Every token which is looked at is a part of the text or the first token of the name. -/
theorem visited_part {name : List Char} : ∀ (n : Nat) (s : List Char), s.length ≤ n →
    (s ≠ [] → ∃ r c, s = r ++ [c] ∧ (c = ' ' ∨ c = '*')) → ∀ t ∈ visited name s, t ≠ [] ∧ (t <:+: s ∨ t = rawToken name) := by
  intro n
  induction n with
  | zero =>
    intro s h _ t ht
    rw [visited] at ht
    simp [show s.length = 0 by omega] at ht
  | succ n ih =>
    intro s h he t ht
    rw [visited] at ht
    by_cases hc : s.length = 0 ∨ (rawToken (s ++ name)).length = 0
    · rw [dif_pos hc] at ht; cases ht
    · rw [dif_neg hc, List.mem_cons] at ht
      rw [not_or] at hc
      have hs : s ≠ [] := fun e => hc.1 (by rw [e]; rfl)
      rcases ht with rfl | ht
      · refine ⟨fun e => hc.2 (by rw [e]; rfl), token_part (he hs)⟩
      · have := ih (s.drop (rawToken (s ++ name)).length) (by simp only [List.length_drop]; omega) ?_ t ht
        · refine ⟨this.1, this.2.imp (fun h => List.IsInfix.trans h (List.drop_suffix _ _).isInfix) id⟩
        · intro hd
          obtain ⟨r, c, e, hcc⟩ := he hs
          rcases List.eq_nil_or_concat (s.drop (rawToken (s ++ name)).length) with h0 | ⟨r', c', h0⟩
          · exact absurd h0 hd
          · refine ⟨r', c', by rw [h0]; simp, ?_⟩
            obtain ⟨u, hu⟩ := List.drop_suffix (rawToken (s ++ name)).length s
            rw [h0, e] at hu
            have := congrArg List.reverse hu
            simp only [List.concat_eq_append, List.reverse_append, List.reverse_cons, List.reverse_nil, List.nil_append,
              List.cons_append, List.cons.injEq] at this
            rw [this.1]; exact hcc

end EasyMock.Parser
