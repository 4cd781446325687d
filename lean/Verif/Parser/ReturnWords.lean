import Verif.Parser.Return

/-! # Parser: the words of a return type which are kept -/

namespace EasyMock.Parser

theorem rawToken_noblank (s : List Char) : ' ' ∉ rawToken s := by
  obtain ⟨a, h1, h2, h3⟩ := dropWhile_spec isSpace s
  unfold rawToken
  cases hd : s.dropWhile isSpace with
  | nil => simp
  | cons c r =>
    have hc := h3 c r hd
    simp only
    split
    · rename_i hi
      simp only [List.mem_cons, not_or]
      refine ⟨fun e => (isIdent_ne hi).1 e.symm, fun h => ?_⟩
      exact absurd (mem_takeWhile _ h).2 (by decide)
    · simp only [List.mem_singleton]
      rintro rfl
      exact absurd hc (by decide)

theorem visited_noblank {name : List Char} : ∀ (n : Nat) (s : List Char), s.length ≤ n → ∀ t ∈ visited name s, ' ' ∉ t := by
  intro n
  induction n with
  | zero =>
    intro s h t ht
    rw [visited] at ht
    simp [show s.length = 0 by omega] at ht
  | succ n ih =>
    intro s h t ht
    rw [visited] at ht
    by_cases hc : s.length = 0 ∨ (rawToken (s ++ name)).length = 0
    · rw [dif_pos hc] at ht; cases ht
    · rw [dif_neg hc, List.mem_cons] at ht
      rw [not_or] at hc
      rcases ht with rfl | ht
      · exact rawToken_noblank _
      · exact ih _ (by simp only [List.length_drop]; omega) t ht

/-! ## Attributes -/

/-- `__attribute__((...))` on one line. -/
def IsAttribute (d : List Char) : Prop :=
  ∃ a b x e, d = "__attribute__".toList ++ a ++ '(' :: (b ++ '(' :: (x ++ ')' :: (e ++ [')']))) ∧
    (∀ c ∈ a, isSpace c = true) ∧ (∀ c ∈ b, isSpace c = true) ∧ (∀ c ∈ e, isSpace c = true) ∧
    ∀ c ∈ x, isLineEnd c = false

theorem greedy_isSome {f : List Char → Option (List Char)} : ∀ {s : List Char}, (greedy f s).isSome = true ↔
    ∃ x y, s = x ++ y ∧ (∀ c ∈ x, isLineEnd c = false) ∧ (f y).isSome = true
  | [] => by
    constructor
    · intro h; exact ⟨[], [], rfl, by simp, h⟩
    · rintro ⟨x, y, e, -, h⟩
      have := List.append_eq_nil_iff.1 e.symm
      rw [this.2] at h
      exact h
  | c :: r => by
    rw [greedy]
    by_cases hc : isLineEnd c = true
    · rw [if_pos hc]
      constructor
      · intro h; exact ⟨[], c :: r, rfl, by simp, h⟩
      · rintro ⟨x, y, e, hx, h⟩
        cases x with
        | nil => rw [List.nil_append] at e; rw [e]; exact h
        | cons d x =>
          rw [List.cons_append, List.cons.injEq] at e
          have := hx d (by simp)
          rw [← e.1, hc] at this
          cases this
    · rw [if_neg hc, Option.isSome_or, Bool.or_eq_true, greedy_isSome (s := r)]
      constructor
      · rintro (⟨x, y, e, hx, h⟩ | h)
        · refine ⟨c :: x, y, by rw [e]; rfl, ?_, h⟩
          intro d hd
          rcases List.mem_cons.1 hd with rfl | hd
          · simpa using hc
          · exact hx d hd
        · exact ⟨[], c :: r, rfl, by simp, h⟩
      · rintro ⟨x, y, e, hx, h⟩
        cases x with
        | nil => rw [List.nil_append] at e; rw [e]; exact Or.inr h
        | cons d x =>
          rw [List.cons_append, List.cons.injEq] at e
          exact Or.inl ⟨x, y, e.2, fun c hc => hx c (by simp [hc]), h⟩

theorem blank_literal {c : Char} (hc : isSpace c = false) {s r : List Char} :
    literal [c] (s.dropWhile isSpace) = some r ↔ ∃ a, s = a ++ c :: r ∧ ∀ d ∈ a, isSpace d = true := by
  constructor
  · intro h
    obtain ⟨a, h1, h2, -⟩ := dropWhile_spec isSpace s
    replace h := literal_eq_some h
    exact ⟨a, by rw [h] at h1; exact h1, h2⟩
  · rintro ⟨a, rfl, h⟩
    rw [dropWhile_append_all _ h, List.dropWhile_cons, hc]
    exact literal_append [c] r

theorem attrEnd_whole {s : List Char} : (attrEnd true s).isSome = true ↔
    ∃ e, s = ')' :: (e ++ [')']) ∧ ∀ c ∈ e, isSpace c = true := by
  unfold attrEnd
  cases h1 : literal [')'] s with
  | none =>
    simp only [Option.bind_none, Option.isSome_none, Bool.false_eq_true, false_iff, not_exists, not_and]
    rintro e rfl
    have := literal_append [')'] (e ++ [')'])
    rw [List.singleton_append, h1] at this
    cases this
  | some r =>
    replace h1 := literal_eq_some h1
    subst h1
    rw [Option.bind_some]
    cases h2 : literal [')'] (r.dropWhile isSpace) with
    | none =>
      simp only [Option.isSome_none, Bool.false_eq_true, false_iff, not_exists, not_and]
      rintro e he hb
      simp only [List.singleton_append, List.cons.injEq, true_and] at he
      have := (blank_literal (c := ')') (by decide) (s := r) (r := [])).2 ⟨e, he, hb⟩
      rw [h2] at this
      cases this
    | some q =>
      obtain ⟨a, ha, hb⟩ := (blank_literal (by decide)).1 h2
      simp only [Bool.true_and]
      constructor
      · intro h
        have : q = [] := by
          cases q with
          | nil => rfl
          | cons c q => simp at h
        subst this
        exact ⟨a, by rw [ha]; rfl, hb⟩
      · rintro ⟨e, he, hb2⟩
        simp only [List.singleton_append, List.cons.injEq, true_and] at he
        have := (blank_literal (c := ')') (by decide) (s := r) (r := [])).2 ⟨e, he, hb2⟩
        rw [h2] at this
        cases this
        rfl

theorem attrPattern_whole {d : List Char} : (attrPattern true d).isSome = true ↔ IsAttribute d := by
  unfold attrPattern
  constructor
  · intro h
    rw [Option.isSome_iff_exists] at h
    obtain ⟨q, h⟩ := h
    rw [Option.bind_eq_some_iff] at h
    obtain ⟨r1, h1, h⟩ := h
    rw [Option.bind_eq_some_iff] at h
    obtain ⟨r2, h2, h⟩ := h
    rw [Option.bind_eq_some_iff] at h
    obtain ⟨r3, h3, h⟩ := h
    obtain ⟨x, y, h4, h5, h6⟩ := greedy_isSome.1 (Option.isSome_iff_exists.2 ⟨q, h⟩)
    obtain ⟨e, h7, h8⟩ := attrEnd_whole.1 h6
    obtain ⟨a, ha, ha'⟩ := (blank_literal (by decide)).1 h2
    obtain ⟨b, hb, hb'⟩ := (blank_literal (by decide)).1 h3
    replace h1 := literal_eq_some h1
    exact ⟨a, b, x, e, by rw [h1, ha, hb, h4, h7, List.append_assoc], ha', hb', h8, h5⟩
  · rintro ⟨a, b, x, e, rfl, ha, hb, he, hx⟩
    rw [List.append_assoc, literal_append, Option.bind_some, (blank_literal (by decide)).2 ⟨a, rfl, ha⟩, Option.bind_some,
      (blank_literal (by decide)).2 ⟨b, rfl, hb⟩, Option.bind_some]
    exact greedy_isSome.2 ⟨x, _, rfl, hx, attrEnd_whole.2 ⟨e, rfl, he⟩⟩

/-- The word stands for nothing: a macro without parameters whose definition is empty or an attribute. -/
def Vanishes (ms : MacroInfo) (w : List Char) : Prop := ∃ d, ms w = some (d, false) ∧ (d = [] ∨ IsAttribute d)

theorem vanishes_iff {ms : MacroInfo} {w : List Char} : removable ms w = some false ↔ Vanishes ms w := by
  unfold removable Vanishes
  cases h : ms w with
  | none => simp
  | some q =>
    obtain ⟨d, p⟩ := q
    simp only [Option.some.injEq, Prod.mk.injEq]
    constructor
    · intro h2
      split at h2
      · rename_i hd
        simp only [Option.some.injEq] at h2
        rw [Bool.or_eq_true, attrPattern_whole, List.isEmpty_iff] at hd
        exact ⟨d, ⟨rfl, h2⟩, hd⟩
      · cases h2
    · rintro ⟨d', ⟨rfl, rfl⟩, hd⟩
      rw [if_pos]
      rw [Bool.or_eq_true, attrPattern_whole, List.isEmpty_iff]
      exact hd

/-! ## The loop -/

theorem spaced_char {ws : List (List Char)} (h : ∀ w ∈ ws, Word w ∨ w = []) {c : Char} (hc : c ∈ spaced ws) : c = ' ' ∨
    (c ≠ '(' ∧ c ≠ '\n' ∧ isSpace c = false) := by
  rcases mem_spaced hc with rfl | ⟨w, hw, hc⟩
  · exact Or.inl rfl
  · rcases h w hw with h | rfl
    · obtain ⟨-, -, -, h4, -, -, h7⟩ := h.char hc
      refine Or.inr ⟨h4, ?_, h7⟩
      rintro rfl
      exact absurd h7 (by decide)
    · cases hc

theorem fold_strip {ms : MacroInfo} {ws : List (List Char)} (hw : ∀ w ∈ ws, Word w)
    (hp : ∀ t, Vanishes ms t → ∀ w ∈ ws, t <:+: w → w = t) : ∀ (ts : List (List Char)), (∀ t ∈ ts, t ≠ [] ∧ ' ' ∉ t) →
    ∀ (done : List (List Char)),
    ts.foldl (strip ms) (spaced (ws.map (fun w => if w ∈ done ∧ removable ms w = some false then [] else w))) =
      spaced (ws.map (fun w => if w ∈ done ++ ts ∧ removable ms w = some false then [] else w)) := by
  intro ts
  induction ts with
  | nil => intro _ done; simp
  | cons t ts ih =>
    intro ht done
    have hne := ht t (by simp)
    rw [List.foldl_cons]
    have step : strip ms (spaced (ws.map (fun w => if w ∈ done ∧ removable ms w = some false then [] else w))) t =
        spaced (ws.map (fun w => if w ∈ done ++ [t] ∧ removable ms w = some false then [] else w)) := by
      have hsame : (removable ms t ≠ some false) →
          ws.map (fun w => if w ∈ done ∧ removable ms w = some false then [] else w) =
          ws.map (fun w => if w ∈ done ++ [t] ∧ removable ms w = some false then [] else w) := by
        intro hr
        refine List.map_congr_left (fun w _ => ?_)
        by_cases hwt : w = t
        · subst hwt; simp [hr]
        · simp [hwt]
      unfold strip
      cases hr : removable ms t with
      | none => rw [hsame (by rw [hr]; simp)]
      | some p =>
        cases p with
        | true =>
          simp only
          rw [removeMacro_call, hsame (by rw [hr]; simp)]
          intro hm
          have hchar := spaced_char (ws := ws.map (fun w => if w ∈ done ∧ removable ms w = some false then [] else w)) ?_ hm
          · rcases hchar with h | h
            · cases h
            · exact h.1 rfl
          · intro w hw'
            obtain ⟨v, hv, rfl⟩ := List.mem_map.1 hw'
            split
            · exact Or.inr rfl
            · exact Or.inl (hw v hv)
        | false =>
          simp only
          rw [removeMacro_word hne.1 hne.2, List.map_map]
          · congr 1
            refine List.map_congr_left (fun w hwm => ?_)
            simp only [Function.comp]
            by_cases hwt : w = t
            · subst hwt
              by_cases hd : w ∈ done
              · simp [hd, hr]
              · simp [hd, hr]
            · by_cases hd : w ∈ done ∧ removable ms w = some false
              · rw [if_pos hd, if_neg (fun e => hne.1 e.symm), if_pos ⟨by simp [hd.1], hd.2⟩]
              · rw [if_neg hd, if_neg hwt, if_neg]
                simpa [hwt] using hd
          · intro w hw' hi
            obtain ⟨v, hv, rfl⟩ := List.mem_map.1 hw'
            split at hi
            · exact absurd (List.infix_nil.1 hi) hne.1
            · rename_i hd
              rw [if_neg hd]
              exact hp t (vanishes_iff.1 hr) v hv hi
    rw [step, ih (fun x hx => ht x (by simp [hx]))]
    simp

/-! ## The keywords -/

theorem eraseFirst_none {p : List Char} : ∀ {s : List Char}, ¬ p <:+: s → eraseFirst p s = s
  | [], _ => rfl
  | c :: r, h => by
    rw [eraseFirst, if_neg, eraseFirst_none (fun hi => h (List.IsInfix.trans hi ⟨[c], [], by simp⟩))]
    rw [List.isPrefixOf_iff_prefix]
    exact fun hp => h hp.isInfix

theorem eraseFirst_pass {p : List Char} : ∀ {w s : List Char}, (∀ x c y, w = x ++ c :: y → ¬ p <+: c :: (y ++ s)) →
    eraseFirst p (w ++ s) = w ++ eraseFirst p s
  | [], s, _ => rfl
  | c :: w, s, h => by
    rw [List.cons_append, eraseFirst, if_neg, eraseFirst_pass (fun x d y e => h (c :: x) d y (by rw [e]; rfl))]
    · rfl
    · rw [List.isPrefixOf_iff_prefix]
      exact h [] c w rfl

/-- A keyword and its blank at the start of a text are the end of a word. -/
theorem keyword_end {kw y r : List Char} (hk : ' ' ∉ kw) (hy : ' ' ∉ y) (h : kw ++ [' '] <+: y ++ ' ' :: r) : kw = y := by
  obtain ⟨u, e⟩ := h
  rw [List.append_assoc, List.singleton_append] at e
  have h1 : splitBlank (kw ++ ' ' :: u) = splitBlank (y ++ ' ' :: r) := by rw [e]
  rw [splitBlank_word hk, splitBlank_word hy, List.cons.injEq] at h1
  exact h1.1

theorem eraseFirst_keyword {kw : List Char} (hk : ' ' ∉ kw) : ∀ {vs : List (List Char)}, (∀ v ∈ vs, ' ' ∉ v) →
    (∀ v ∈ vs, kw <:+ v → v = kw) → vs.count kw ≤ 1 → (∀ l v, vs = l ++ [v] → v ≠ kw) →
    eraseFirst (kw ++ [' ']) (spaced vs) = spaced (vs.filter (fun v => v != kw))
  | [], _, _, _, _ => rfl
  | [v], hb, _, _, hl => by
    have : v ≠ kw := hl [] v rfl
    rw [List.filter_cons, if_pos (by simpa using this), List.filter_nil, spaced_one, eraseFirst_none]
    intro hi
    exact hb v (by simp) (List.IsInfix.subset hi (by simp))
  | v :: u :: vs, hb, hs, hc, hl => by
    rw [spaced_cons]
    by_cases hv : v = kw
    · subst hv
      have h0 : (u :: vs).count v = 0 := by
        rw [List.count_cons_self] at hc
        omega
      rw [List.filter_cons, if_neg (by simp), List.filter_eq_self.2]
      · have hp : ∀ (s : List Char), eraseFirst (v ++ [' ']) (v ++ ' ' :: s) = s := by
          intro s
          cases v with
          | nil => simp [eraseFirst]
          | cons c v =>
            rw [List.cons_append, List.cons_append, eraseFirst, if_pos]
            · simp
            · rw [List.isPrefixOf_iff_prefix]
              exact ⟨s, by simp⟩
        exact hp _
      · intro x hx
        have : x ≠ v := fun e => (List.count_eq_zero.1 h0) (e ▸ hx)
        simpa using this
    · have ih := eraseFirst_keyword hk (vs := u :: vs) (fun x hx => hb x (by simp [hx])) (fun x hx => hs x (by simp [hx]))
        (by rw [List.count_cons_of_ne (fun e => hv e)] at hc; exact hc) (fun l x e => hl (v :: l) x (by rw [e]; rfl))
      have hf : (v :: u :: vs).filter (fun v => v != kw) = v :: (u :: vs).filter (fun v => v != kw) := by
        rw [List.filter_cons, if_pos (by simpa using hv)]
      rw [hf]
      -- the last word is kept
      have hne : (u :: vs).filter (fun v => v != kw) ≠ [] := by
        rcases List.eq_nil_or_concat (u :: vs) with h | ⟨l, x, h⟩
        · cases h
        · rw [h]
          have := hl (v :: l) x (by rw [h]; simp)
          simp [this]
      obtain ⟨y, ys, hy⟩ : ∃ y ys, (u :: vs).filter (fun v => v != kw) = y :: ys := by
        cases h : (u :: vs).filter (fun v => v != kw) with
        | nil => exact absurd h hne
        | cons y ys => exact ⟨y, ys, rfl⟩
      rw [hy] at ih ⊢
      rw [spaced_cons, ← ih]
      have hvb := hb v (by simp)
      have h1 : eraseFirst (kw ++ [' ']) ((v ++ [' ']) ++ spaced (u :: vs)) =
          (v ++ [' ']) ++ eraseFirst (kw ++ [' ']) (spaced (u :: vs)) := by
        refine eraseFirst_pass (fun x c z e hp => ?_)
        rcases List.append_eq_append_iff.1 e with ⟨w, hw1, hw2⟩ | ⟨w, hw1, hw2⟩
        · -- behind the word: the blank
          cases w with
          | nil =>
            rw [List.nil_append, List.cons.injEq] at hw2
            rw [← hw2.1, ← hw2.2, List.nil_append] at hp
            have := keyword_end (y := []) hk (by simp) (r := spaced (u :: vs)) (by simpa using hp)
            subst this
            exact hv (hs v (by simp) ⟨v, by simp⟩)
          | cons d w =>
            rw [List.cons_append, List.cons.injEq] at hw2
            have := congrArg List.length hw2.2
            simp at this
        · cases w with
          | nil =>
            rw [List.nil_append, List.cons.injEq] at hw2
            rw [hw2.1, hw2.2, List.nil_append] at hp
            have := keyword_end (y := []) hk (by simp) (r := spaced (u :: vs)) (by simpa using hp)
            subst this
            exact hv (hs v (by simp) ⟨v, by simp⟩)
          | cons d w =>
            rw [List.cons_append, List.cons.injEq] at hw2
            rw [hw2.2, hw2.1] at hp
            have hmem : ∀ q ∈ d :: w, q ∈ v := fun q hq => by rw [hw1]; exact List.mem_append_right _ hq
            have := keyword_end (y := d :: w) hk (fun h => hvb (hmem _ h)) (r := spaced (u :: vs)) (by simpa using hp)
            exact hv (hs v (by simp) ⟨x, by rw [this, hw1]⟩)
      simpa using h1

/-! ## The return type -/

/-- `inline`, `extern` and `static`. -/
def storage : List (List Char) := ["inline".toList, "extern".toList, "static".toList]

theorem spaced_ends {ws : List (List Char)} (hne : ws ≠ []) (hw : ∀ w ∈ ws, Word w) :
    (∃ c r, spaced ws = c :: r ∧ isSpace c = false) ∧ ∃ l w, ws = l ++ [w] ∧ ∃ r c, spaced ws = r ++ [c] ∧ c ∈ w := by
  constructor
  · cases ws with
    | nil => exact absurd rfl hne
    | cons w ws =>
      have h := hw w (by simp)
      obtain ⟨c, w', rfl⟩ : ∃ c w', w = c :: w' := by
        cases w with
        | nil => exact absurd rfl h.nonempty
        | cons c w => exact ⟨c, w, rfl⟩
      have hc := (h.char (c := c) (by simp)).2.2.2.2.2.2
      cases ws with
      | nil => exact ⟨c, w', by rw [spaced_one], hc⟩
      | cons u ws => exact ⟨c, w' ++ ' ' :: spaced (u :: ws), by rw [spaced_cons]; rfl, hc⟩
  · rcases List.eq_nil_or_concat ws with h | ⟨l, w, h⟩
    · exact absurd h hne
    · rw [List.concat_eq_append] at h
      refine ⟨l, w, h, ?_⟩
      have hwne := (hw w (by rw [h]; simp)).nonempty
      obtain ⟨q, z, hq⟩ : ∃ q z, w = q ++ [z] := by
        rcases List.eq_nil_or_concat w with h | ⟨q, z, h⟩
        · exact absurd h hwne
        · exact ⟨q, z, by rw [h]; simp⟩
      have key : ∀ (l : List (List Char)), ∃ r, spaced (l ++ [w]) = r ++ [z] := by
        intro l
        induction l with
        | nil => exact ⟨q, by rw [List.nil_append, spaced_one, hq]⟩
        | cons x l ih =>
          obtain ⟨r, hr⟩ := ih
          obtain ⟨y, ys, hy⟩ : ∃ y ys, l ++ [w] = y :: ys := by
            cases l with
            | nil => exact ⟨w, [], rfl⟩
            | cons y l => exact ⟨y, l ++ [w], rfl⟩
          rw [List.cons_append, hy, spaced_cons, ← hy, hr]
          exact ⟨x ++ ' ' :: r, by simp⟩
      obtain ⟨r, hr⟩ := key l
      exact ⟨r, z, by rw [h]; exact hr, by rw [hq]; simp⟩

theorem spaced_words {ws : List (List Char)} (hw : ∀ w ∈ ws, Word w) : ∀ c ∈ spaced ws, c ≠ '{' ∧ c ≠ ',' ∧ c ≠ '[' ∧ c ≠ '/' ∧
    c ≠ '\n' := by
  intro c hc
  rcases mem_spaced hc with rfl | ⟨w, hwm, hc⟩
  · decide
  · obtain ⟨h1, h2, h3, h4, h5, h6, h7⟩ := (hw w hwm).char hc
    refine ⟨h3, h5, h6, h2, ?_⟩
    rintro rfl
    exact absurd h7 (by decide)

theorem declare_words {ws : List (List Char)} {tail : List Char} (hne : ws ≠ []) (hw : ∀ w ∈ ws, Word w)
    (ht : tail = [' '] ∨ (tail = [] ∧ ∀ l w, ws = l ++ [w] → ∀ c ∈ w, c = '*')) :
    declareString false (spaced ws ++ tail) = spaced ws := by
  obtain ⟨⟨c, r, hs, hc⟩, l, w, hl, r', d, hs', hd⟩ := spaced_ends hne hw
  have hchars := spaced_words hw
  have htail : ∀ c ∈ tail, c = ' ' := by rcases ht with rfl | ⟨rfl, -⟩ <;> simp
  have hty : TypeText (spaced ws ++ tail) := by
    refine ⟨⟨c, r ++ tail, by rw [hs]; rfl, hc⟩, ?_, ?_⟩
    · rcases ht with rfl | ⟨rfl, hst⟩
      · exact ⟨spaced ws, ' ', rfl, by decide⟩
      · refine ⟨r', d, by rw [List.append_nil, hs'], ?_⟩
        rw [hst l w hl d hd]
        decide
    · intro c hc
      rcases List.mem_append.1 hc with hc | hc
      · obtain ⟨h1, h2, h3, h4, -⟩ := hchars c hc
        exact ⟨h1, h2, h3, h4⟩
      · rw [htail c hc]; decide
  have hmap : (spaced ws ++ tail).map newlineToSpace = spaced ws ++ tail := by
    conv => rhs; rw [← List.map_id (spaced ws ++ tail)]
    refine List.map_congr_left (fun c hc => ?_)
    have : c ≠ '\n' := by
      rcases List.mem_append.1 hc with hc | hc
      · exact (hchars c hc).2.2.2.2
      · rw [htail c hc]; decide
    simp [newlineToSpace, this]
  rw [declareString_type false hty, hmap]
  have := trim_eq (a := []) (m := spaced ws) (b := tail) (by simp) (fun c hc => by rw [htail c hc]; decide) ?_
  · simpa using this
  · constructor
    · intro c' r1 h
      rw [hs, List.cons.injEq] at h
      rw [← h.1]; exact hc
    · intro c' r1 h
      rw [hs'] at h
      have := congrArg List.reverse h
      simp only [List.reverse_append, List.reverse_cons, List.reverse_nil, List.nil_append,
        List.cons_append, List.cons.injEq] at this
      rw [← this.1]
      exact ((hw w (by rw [hl]; simp)).char hd).2.2.2.2.2.2

theorem last_filter {vs : List (List Char)} {k k' : List Char} (h : ∀ l v, vs = l ++ [v] → v ≠ k)
    (h' : ∀ l v, vs = l ++ [v] → v ≠ k') : ∀ l v, vs.filter (fun v => v != k) = l ++ [v] → v ≠ k' := by
  intro l v e
  rcases List.eq_nil_or_concat vs with h0 | ⟨m, u, h0⟩
  · rw [h0] at e; simp at e
  · rw [List.concat_eq_append] at h0
    have hu := h m u h0
    rw [h0, List.filter_append, List.filter_cons, if_pos (by simpa using hu), List.filter_nil] at e
    have := congrArg List.reverse e
    simp only [List.reverse_append, List.reverse_cons, List.reverse_nil, List.nil_append,
      List.cons_append, List.cons.injEq] at this
    rw [← this.1]
    exact h' m u h0

theorem erase_storage {vs : List (List Char)} (hb : ∀ v ∈ vs, ' ' ∉ v)
    (hs : ∀ k ∈ storage, ∀ v ∈ vs, k <:+ v → v = k) (hc : ∀ k ∈ storage, vs.count k ≤ 1)
    (hl : ∀ k ∈ storage, ∀ l v, vs = l ++ [v] → v ≠ k) :
    eraseFirst "static ".toList (eraseFirst "extern ".toList (eraseFirst "inline ".toList (spaced vs))) =
      spaced (vs.filter (fun v => !storage.contains v)) := by
  have e1 : "inline ".toList = "inline".toList ++ [' '] := by decide
  have e2 : "extern ".toList = "extern".toList ++ [' '] := by decide
  have e3 : "static ".toList = "static".toList ++ [' '] := by decide
  have m1 : "inline".toList ∈ storage := by simp [storage]
  have m2 : "extern".toList ∈ storage := by simp [storage]
  have m3 : "static".toList ∈ storage := by simp [storage]
  have sub : ∀ {q : List (List Char)} {p : List Char → Bool} {v : List Char}, v ∈ q.filter p → v ∈ q :=
    fun h => (List.mem_filter.1 h).1
  have cnt : ∀ {q : List (List Char)} {p : List Char → Bool} {v : List Char}, q.count v ≤ 1 → (q.filter p).count v ≤ 1 :=
    fun h => Nat.le_trans (List.Sublist.count_le _ List.filter_sublist) h
  rw [e1, e2, e3, eraseFirst_keyword (by decide) hb (hs _ m1) (hc _ m1) (hl _ m1),
    eraseFirst_keyword (by decide) (fun v h => hb v (sub h)) (fun v h => hs _ m2 v (sub h)) (cnt (hc _ m2))
      (last_filter (hl _ m1) (hl _ m2)),
    eraseFirst_keyword (by decide) (fun v h => hb v (sub (sub h))) (fun v h => hs _ m3 v (sub (sub h))) (cnt (cnt (hc _ m3)))
      (last_filter (last_filter (hl _ m1) (hl _ m2)) (last_filter (hl _ m1) (hl _ m3)))]
  rw [List.filter_filter, List.filter_filter]
  congr 1
  refine List.filter_congr (fun v _ => ?_)
  simp only [storage, List.contains_cons, List.contains_nil, Bool.or_false, Bool.not_or, bne]
  cases v == "inline".toList <;> cases v == "extern".toList <;> cases v == "static".toList <;> rfl

/-- The words of the declared string of the return value. -/
theorem returnString_words {ms : MacroInfo} {name : List Char} {ws : List (List Char)} {tail : List Char}
    (hne : ws ≠ []) (hw : ∀ w ∈ ws, Word w)
    (ht : tail = [' '] ∨ (tail = [] ∧ ∀ l w, ws = l ++ [w] → ∀ c ∈ w, c = '*'))
    (hid : ∀ t, Vanishes ms t → ∀ c ∈ t, isIdent c = true)
    (hp : ∀ t, Vanishes ms t → ∀ w ∈ ws, t <:+: w → w = t)
    (hs : ∀ k ∈ storage, ∀ w ∈ ws, k <:+ w → w = k) (hc : ∀ k ∈ storage, ws.count k ≤ 1)
    (hl : ∀ k ∈ storage, ∀ l v, ws = l ++ [v] → v ≠ k) :
    words (returnString ms name (spaced ws ++ tail)) =
      ws.filter (fun w => !(removable ms w == some false) && !storage.contains w) := by
  obtain ⟨-, l, w, hlw, r', d, hs', hd⟩ := spaced_ends hne hw
  have hend : spaced ws ++ tail ≠ [] → ∃ r c, spaced ws ++ tail = r ++ [c] ∧ (c = ' ' ∨ c = '*') := by
    intro _
    rcases ht with rfl | ⟨rfl, hst⟩
    · exact ⟨spaced ws, ' ', rfl, Or.inl rfl⟩
    · exact ⟨r', d, by rw [List.append_nil, hs'], Or.inr (hst l w hlw d hd)⟩
  have hvis : ∀ t ∈ visited name (spaced ws ++ tail), t ≠ [] ∧ ' ' ∉ t := fun t h =>
    ⟨(visited_part _ _ (Nat.le_refl _) hend t h).1, visited_noblank _ _ (Nat.le_refl _) t h⟩
  have hfold := fold_strip hw hp _ hvis []
  rw [show ws.map (fun w => if w ∈ ([] : List (List Char)) ∧ removable ms w = some false then [] else w) = ws by simp,
    List.nil_append] at hfold
  have hmap : ws.map (fun w => if w ∈ visited name (spaced ws ++ tail) ∧ removable ms w = some false then [] else w) =
      ws.map (fun w => if removable ms w = some false then [] else w) := by
    refine List.map_congr_left (fun w hwm => ?_)
    by_cases hr : removable ms w = some false
    · have := (visited_words name tail ws hw ht w hwm (hid w (vanishes_iff.1 hr))).1
      rw [if_pos ⟨this, hr⟩, if_pos hr]
    · rw [if_neg (fun h => hr h.2), if_neg hr]
  rw [hmap] at hfold
  generalize hvs : ws.map (fun w => if removable ms w = some false then [] else w) = vs at hfold
  have hword : ∀ v ∈ vs, (Word v ∧ v ∈ ws) ∨ v = [] := by
    intro v hv
    rw [← hvs] at hv
    obtain ⟨u, hu, rfl⟩ := List.mem_map.1 hv
    split
    · exact Or.inr rfl
    · exact Or.inl ⟨hw u hu, hu⟩
  have hchar : ∀ {c}, c ∈ spaced vs → c = ' ' ∨ (c ≠ '(' ∧ c ≠ '\n' ∧ isSpace c = false) :=
    fun h => spaced_char (fun v hv => (hword v hv).imp And.left id) h
  have hattr : eraseMatches (attrPattern false) (spaced vs) = spaced vs := by
    refine eraseMatches_id (fun x c y e => ?_)
    have hno : ∀ r : List Char, (∀ c ∈ r, c ∈ spaced vs) → literal ['('] r = none := by
      intro r hr
      refine literal_mem_none (x := '(') (by simp) (fun hm => ?_)
      rcases hchar (hr _ hm) with h | h
      · cases h
      · exact h.1 rfl
    unfold attrPattern
    cases h1 : literal "__attribute__".toList (c :: y) with
    | none => rfl
    | some r =>
      replace h1 := literal_eq_some h1
      rw [Option.bind_some, hno, Option.bind_none]
      intro z hz
      have h2 : z ∈ r := (List.dropWhile_suffix _).subset hz
      rw [e, h1]
      simp [h2]
  have hne' : ∀ k ∈ storage, k ≠ [] := by decide
  have hstor := erase_storage (vs := vs) (fun v hv => by
      rcases hword v hv with h | rfl
      · exact fun hb => (h.1.char hb).1 rfl
      · simp)
    (fun k hk v hv hsuf => by
      rcases hword v hv with h | rfl
      · exact hs k hk v h.2 hsuf
      · exact (List.suffix_nil.1 hsuf).symm)
    (fun k hk => by
      refine Nat.le_trans ?_ (hc k hk)
      rw [← hvs]
      clear hvs hfold hmap hword hchar hattr hvis hend hne hw ht hid hp hs hc hl hlw hs'
      induction ws with
      | nil => simp
      | cons x ws ih =>
        rw [List.map_cons, List.count_cons, List.count_cons]
        by_cases hx : removable ms x = some false
        · rw [if_pos hx]
          have : (([] : List Char) == k) = false := by
            have := hne' k hk
            cases k with
            | nil => exact absurd rfl this
            | cons => rfl
          rw [this]
          simp
          omega
        · rw [if_neg hx]
          omega)
    (fun k hk l' v e => by
      rw [← hvs, hlw, List.map_append] at e
      have := congrArg List.reverse e
      simp only [List.map_cons, List.map_nil, List.reverse_append, List.reverse_cons, List.reverse_nil, List.nil_append,
        List.cons_append, List.cons.injEq] at this
      rw [← this.1]
      split
      · exact fun e => hne' k hk e.symm
      · exact hl k hk l w hlw)
  unfold returnString
  simp only
  rw [declare_words hne hw ht, removeMacros_eq ms name _ _ _ (Nat.le_refl _), hfold, hattr, hstor, words_trim, words_spaced]
  · rw [List.filter_filter, ← hvs]
    clear hvs hfold hmap hword hchar hattr hvis hend hne ht hid hp hs hc hl hlw hs' hstor
    induction ws with
    | nil => rfl
    | cons x ws ih =>
      have ih := ih (fun w h => hw w (by simp [h]))
      rw [List.map_cons, List.filter_cons, List.filter_cons, ih]
      by_cases hx : removable ms x = some false
      · simp [hx]
      · have h1 : (!x.isEmpty) = true := by
          have := (hw x (by simp)).nonempty
          cases x with
          | nil => exact absurd rfl this
          | cons => rfl
        have h2 : (removable ms x == some false) = false := by simpa using hx
        simp only [if_neg hx, h1, h2, Bool.true_and, Bool.not_false]
  · intro v hv
    rcases hword v (List.mem_filter.1 hv).1 with h | rfl
    · exact fun hb => (h.1.char hb).1 rfl
    · simp
  · intro c hc' hsp
    rcases spaced_char (fun v hv => (hword v (List.mem_filter.1 hv).1).imp And.left id) hc' with h | h
    · exact h
    · rw [h.2.2] at hsp; cases hsp

end EasyMock.Parser
