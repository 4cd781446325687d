import Verif.Parser.ReturnWords

/-! # Parser: an attribute written in place before the name of a function -/

namespace EasyMock.Parser

/-- The words before the one in question. -/
def before (ws : List (List Char)) : List Char := (ws.map (fun w => w ++ [' '])).flatten

/-- The words behind the one in question. -/
def behind (ws : List (List Char)) : List Char := (ws.map (fun w => ' ' :: w)).flatten

theorem spaced_behind (x : List Char) : ∀ ws : List (List Char), spaced (x :: ws) = x ++ behind ws
  | [] => by simp [spaced_one, behind]
  | w :: ws => by rw [spaced_cons, spaced_behind w ws]; simp [behind]

theorem spaced_mid (x : List Char) (ws2 : List (List Char)) : ∀ ws1 : List (List Char),
    spaced (ws1 ++ x :: ws2) = before ws1 ++ (x ++ behind ws2)
  | [] => by simp [before, spaced_behind]
  | [w] => by
    rw [List.cons_append, List.nil_append, spaced_cons, spaced_behind]
    simp [before]
  | w :: v :: ws => by
    have ih := spaced_mid x ws2 (v :: ws)
    rw [List.cons_append] at ih
    rw [List.cons_append, List.cons_append, spaced_cons, ih]
    simp [before]

theorem mem_before {ws : List (List Char)} {c : Char} (h : c ∈ before ws) : c = ' ' ∨ ∃ w ∈ ws, c ∈ w := by
  simp only [before, List.mem_flatten, List.mem_map] at h
  obtain ⟨l, ⟨w, hw, rfl⟩, hc⟩ := h
  rcases List.mem_append.1 hc with hc | hc
  · exact Or.inr ⟨w, hw, hc⟩
  · exact Or.inl (by simpa using hc)

theorem mem_behind {ws : List (List Char)} {c : Char} (h : c ∈ behind ws) : c = ' ' ∨ ∃ w ∈ ws, c ∈ w := by
  simp only [behind, List.mem_flatten, List.mem_map] at h
  obtain ⟨l, ⟨w, hw, rfl⟩, hc⟩ := h
  rcases List.mem_cons.1 hc with hc | hc
  · exact Or.inl hc
  · exact Or.inr ⟨w, hw, hc⟩

theorem Word.noClose {w : List Char} (h : Word w) : ')' ∉ w := by
  intro hc
  rcases h.plain with hp | hp
  · exact absurd (hp _ hc) (by decide)
  · exact absurd (hp _ hc) (by decide)

theorem attrEnd_part {s : List Char} (h : (attrEnd false s).isSome = true) : 2 ≤ s.count ')' := by
  unfold attrEnd at h
  cases h1 : literal [')'] s with
  | none => rw [h1] at h; cases h
  | some r =>
    rw [h1, Option.bind_some] at h
    cases h2 : literal [')'] (r.dropWhile isSpace) with
    | none => rw [h2] at h; cases h
    | some q =>
      obtain ⟨a, ha, -⟩ := (blank_literal (by decide)).1 h2
      rw [literal_eq_some h1, ha]
      simp only [List.singleton_append, List.count_cons_self, List.count_append]
      omega

theorem greedy_attrEnd {e q : List Char} (he : ∀ c ∈ e, isSpace c = true) (hq : ')' ∉ q) : ∀ {x : List Char},
    (∀ c ∈ x, isLineEnd c = false) → greedy (attrEnd false) (x ++ ')' :: (e ++ ')' :: q)) = some q
  | [], _ => by
    have h1 : greedy (attrEnd false) (e ++ ')' :: q) = none := by
      rw [← Option.not_isSome_iff_eq_none]
      intro h
      obtain ⟨x, y, exy, -, hy⟩ := greedy_isSome.1 h
      have h2 := attrEnd_part hy
      have h3 : (e ++ ')' :: q).count ')' = 1 := by
        rw [List.count_append, List.count_cons_self, List.count_eq_zero.2 hq, List.count_eq_zero.2]
        intro h
        exact absurd (he _ h) (by decide)
      rw [exy, List.count_append] at h3
      omega
    rw [List.nil_append, greedy, if_neg (by decide), h1, Option.none_or]
    unfold attrEnd
    have h2 := literal_append [')'] (e ++ ')' :: q)
    rw [List.singleton_append] at h2
    rw [h2, Option.bind_some, (blank_literal (by decide)).2 ⟨e, rfl, he⟩]
    rfl
  | c :: x, hx => by
    rw [List.cons_append, greedy, if_neg (by rw [hx c (by simp)]; simp),
      greedy_attrEnd he hq (fun d hd => hx d (by simp [hd])), Option.some_or]

theorem attrPattern_at {attr q : List Char} (ha : IsAttribute attr) (hq : ')' ∉ q) : attrPattern false (attr ++ q) = some q := by
  obtain ⟨a, b, x, e, rfl, ha, hb, he, hx⟩ := ha
  unfold attrPattern
  rw [List.append_assoc, List.append_assoc, literal_append, Option.bind_some, List.cons_append,
    (blank_literal (by decide)).2 ⟨a, rfl, ha⟩, Option.bind_some, List.append_assoc, List.cons_append,
    (blank_literal (by decide)).2 ⟨b, rfl, hb⟩, Option.bind_some]
  have := greedy_attrEnd he hq hx
  simpa using this

theorem attribute_start {attr : List Char} (h : IsAttribute attr) : ∃ r, attr = '_' :: r := by
  obtain ⟨a, b, x, e, rfl, -⟩ := h
  exact ⟨_, rfl⟩

theorem attribute_end {attr : List Char} (h : IsAttribute attr) : ∃ r, attr = r ++ [')'] := by
  obtain ⟨a, b, x, e, rfl, -⟩ := h
  exact ⟨"__attribute__".toList ++ a ++ '(' :: (b ++ '(' :: (x ++ ')' :: e)), by simp⟩

/-- No attribute starts in the words before. -/
theorem attrPattern_before {ws : List (List Char)} (hw : ∀ w ∈ ws, Word w) {r : List Char} (s : List Char) {x y : List Char}
    {c : Char} (e : before ws = x ++ c :: y) (hr : r = '_' :: s) : attrPattern false (c :: (y ++ r)) = none := by
  unfold attrPattern
  cases h1 : literal "__attribute__".toList (c :: (y ++ r)) with
  | none => rfl
  | some q =>
    rw [Option.bind_some]
    have h2 := literal_eq_some h1
    -- the text before ends with a blank
    obtain ⟨z, hz⟩ : ∃ z, c :: y = z ++ [' '] := by
      have hend : before ws ≠ [] → ∃ z, before ws = z ++ [' '] := by
        intro hne
        rcases List.eq_nil_or_concat ws with h | ⟨l, w, h⟩
        · subst h; exact absurd rfl hne
        · exact ⟨before l ++ w, by rw [h]; simp [before]⟩
      obtain ⟨z, hz⟩ := hend (by rw [e]; simp)
      rcases List.eq_nil_or_concat (c :: y) with h | ⟨l, d, h⟩
      · cases h
      · rw [List.concat_eq_append] at h
        refine ⟨l, ?_⟩
        rw [h] at e ⊢
        rw [hz] at e
        have := congrArg List.reverse e
        simp only [List.reverse_append, List.reverse_cons, List.reverse_nil, List.nil_append, List.cons_append,
          List.cons.injEq] at this
        rw [this.1]
    rw [← List.cons_append, hz, List.append_assoc] at h2
    have hlit : ' ' ∉ "__attribute__".toList := by decide
    obtain ⟨u, hu⟩ : ∃ u, z = "__attribute__".toList ++ u := by
      rcases List.append_eq_append_iff.1 h2 with ⟨v, hv1, hv2⟩ | ⟨v, hv1, hv2⟩
      · cases v with
        | nil => exact ⟨[], by rw [hv1]; simp⟩
        | cons d v =>
          rw [List.cons_append, List.cons_append, List.cons.injEq] at hv2
          refine absurd ?_ hlit
          rw [hv1, ← hv2.1]
          simp
      · exact ⟨v, hv1⟩
    have hq : q = u ++ ' ' :: r := by
      rw [hu, List.append_assoc] at h2
      exact ((List.append_cancel_left h2).symm.trans (by simp))
    have hchar : ∀ d ∈ u, d ≠ '(' := by
      intro d hd
      have hm : d ∈ before ws := by rw [e, hz, hu]; simp [hd]
      rcases mem_before hm with rfl | ⟨w, hwm, hd⟩
      · decide
      · exact ((hw w hwm).char hd).2.2.2.1
    have h3 : literal ['('] (q.dropWhile isSpace) = none := by
      cases h4 : literal ['('] (q.dropWhile isSpace) with
      | none => rfl
      | some t =>
        obtain ⟨a, ha, hsp⟩ := (blank_literal (by decide)).1 h4
        rw [hq, hr] at ha
        exfalso
        rw [show u ++ ' ' :: '_' :: s = (u ++ [' ']) ++ '_' :: s by simp] at ha
        rcases List.append_eq_append_iff.1 ha with ⟨v, hv1, hv2⟩ | ⟨v, hv1, hv2⟩
        · cases v with
          | nil =>
            rw [List.nil_append, List.cons.injEq] at hv2
            exact absurd hv2.1 (by decide)
          | cons d v =>
            rw [List.cons_append, List.cons.injEq] at hv2
            have := hsp '_' (by rw [hv1, hv2.1]; simp)
            exact absurd this (by decide)
        · cases v with
          | nil =>
            rw [List.nil_append, List.cons.injEq] at hv2
            exact absurd hv2.1 (by decide)
          | cons d v =>
            rw [List.cons_append, List.cons.injEq] at hv2
            have hm : '(' ∈ u ++ [' '] := by rw [hv1, hv2.1]; simp
            rcases List.mem_append.1 hm with hm | hm
            · exact hchar _ hm rfl
            · exact absurd (List.mem_singleton.1 hm) (by decide)
    rw [h3]
    rfl

theorem attrPattern_noOpen {s : List Char} (h : '(' ∉ s) : attrPattern false s = none := by
  unfold attrPattern
  cases h1 : literal "__attribute__".toList s with
  | none => rfl
  | some r =>
    rw [Option.bind_some, literal_mem_none (x := '(') (by simp), Option.bind_none]
    intro hz
    have h2 : '(' ∈ r := (List.dropWhile_suffix _).subset hz
    exact h (by rw [literal_eq_some h1]; exact List.mem_append_right _ h2)

/-- The attribute is erased from the declared string. -/
theorem erase_attribute {ws1 ws2 : List (List Char)} (h1 : ∀ w ∈ ws1, Word w) (h2 : ∀ w ∈ ws2, Word w) {attr : List Char}
    (ha : IsAttribute attr) : eraseMatches (attrPattern false) (spaced (ws1 ++ attr :: ws2)) = spaced (ws1 ++ [] :: ws2) := by
  obtain ⟨s, hs⟩ := attribute_start ha
  rw [spaced_mid, spaced_mid, List.nil_append, eraseMatches_pass (fun x c y e =>
    attrPattern_before h1 (s ++ behind ws2) e (by rw [hs]; rfl))]
  congr 1
  have hq : ')' ∉ behind ws2 := by
    intro h
    rcases mem_behind h with h | ⟨w, hw, h⟩
    · exact absurd h (by decide)
    · exact (h2 w hw).noClose h
  have ho : '(' ∉ behind ws2 := by
    intro h
    rcases mem_behind h with h | ⟨w, hw, h⟩
    · exact absurd h (by decide)
    · exact ((h2 w hw).char h).2.2.2.1 rfl
  have hm := attrPattern_at ha hq
  rw [hs, List.cons_append] at hm ⊢
  rw [eraseMatches_some hm (by simp; omega)]
  refine eraseMatches_id (fun x c y e => attrPattern_noOpen (fun h => ho ?_))
  rw [e]
  exact List.mem_append_right _ h

/-- The declared string of words with an attribute. -/
theorem declare_attribute {ws1 ws2 : List (List Char)} {tail : List Char} (h1 : ∀ w ∈ ws1, Word w) (h2 : ∀ w ∈ ws2, Word w)
    {attr : List Char} (ha : IsAttribute attr) (hb : '{' ∉ attr) (hs : '/' ∉ attr) (hn : '\n' ∉ attr)
    (ht : tail = [' '] ∨ (tail = [] ∧ ∀ l w, ws2 = l ++ [w] → ∀ c ∈ w, c = '*')) :
    declareString false (spaced (ws1 ++ attr :: ws2) ++ tail) = spaced (ws1 ++ attr :: ws2) := by
  have htail : ∀ c ∈ tail, c = ' ' := by rcases ht with rfl | ⟨rfl, -⟩ <;> simp
  have hchars : ∀ c ∈ spaced (ws1 ++ attr :: ws2) ++ tail, c ≠ '{' ∧ c ≠ '/' ∧ c ≠ '\n' := by
    intro c hc
    rcases List.mem_append.1 hc with hc | hc
    · rcases mem_spaced hc with rfl | ⟨w, hwm, hcw⟩
      · decide
      · rcases List.mem_append.1 hwm with hwm | hwm
        · have := spaced_words (ws := [w]) (by simpa using h1 w hwm) c (by rw [spaced_one]; exact hcw)
          exact ⟨this.1, this.2.2.2.1, this.2.2.2.2⟩
        · rcases List.mem_cons.1 hwm with rfl | hwm
          · exact ⟨fun e => hb (e ▸ hcw), fun e => hs (e ▸ hcw), fun e => hn (e ▸ hcw)⟩
          · have := spaced_words (ws := [w]) (by simpa using h2 w hwm) c (by rw [spaced_one]; exact hcw)
            exact ⟨this.1, this.2.2.2.1, this.2.2.2.2⟩
    · rw [htail c hc]; decide
  have hmap : (spaced (ws1 ++ attr :: ws2) ++ tail).map newlineToSpace = spaced (ws1 ++ attr :: ws2) ++ tail := by
    conv => rhs; rw [← List.map_id (spaced (ws1 ++ attr :: ws2) ++ tail)]
    refine List.map_congr_left (fun c hc => ?_)
    simp [newlineToSpace, (hchars c hc).2.2]
  -- the first and the last character
  obtain ⟨c0, r0, e0, hc0⟩ : ∃ c r, spaced (ws1 ++ attr :: ws2) = c :: r ∧ isSpace c = false := by
    cases ws1 with
    | nil =>
      obtain ⟨r, hr⟩ := attribute_start ha
      rw [List.nil_append, spaced_behind, hr]
      exact ⟨'_', r ++ behind ws2, rfl, by decide⟩
    | cons w ws1 =>
      obtain ⟨⟨c, r, e, hc⟩, -⟩ := spaced_ends (ws := [w]) (by simp) (by simpa using h1 w (by simp))
      rw [spaced_one] at e
      rw [List.cons_append, spaced_behind, e]
      exact ⟨c, _, rfl, hc⟩
  obtain ⟨r9, c9, e9, hc9, hstar⟩ : ∃ r c, spaced (ws1 ++ attr :: ws2) = r ++ [c] ∧ isSpace c = false ∧
      ((∀ l w, ws2 = l ++ [w] → ∀ c ∈ w, c = '*') → c = '*' ∨ c = ')') := by
    rw [spaced_mid]
    rcases List.eq_nil_or_concat ws2 with h | ⟨l, w, h⟩
    · obtain ⟨r, hr⟩ := attribute_end ha
      rw [h, hr]
      exact ⟨before ws1 ++ r, ')', by simp [behind], by decide, fun _ => Or.inr rfl⟩
    · rw [List.concat_eq_append] at h
      have hw := h2 w (by rw [h]; simp)
      obtain ⟨q, z, hq⟩ : ∃ q z, w = q ++ [z] := by
        rcases List.eq_nil_or_concat w with h | ⟨q, z, h⟩
        · exact absurd h hw.nonempty
        · exact ⟨q, z, by rw [h]; simp⟩
      refine ⟨before ws1 ++ (attr ++ (behind l ++ ' ' :: q)), z, by rw [h, hq]; simp [behind], ?_, ?_⟩
      · exact (hw.char (c := z) (by rw [hq]; simp)).2.2.2.2.2.2
      · intro h3
        exact Or.inl (h3 l w h z (by rw [hq]; simp))
  have hstop : ∃ r c, spaced (ws1 ++ attr :: ws2) ++ tail = r ++ [c] ∧ isStop c = true := by
    rcases ht with rfl | ⟨rfl, hst⟩
    · exact ⟨_, ' ', rfl, by decide⟩
    · refine ⟨r9, c9, by rw [List.append_nil, e9], ?_⟩
      rcases hstar hst with rfl | rfl <;> decide
  unfold declareString
  rw [contains_false (fun h => (hchars _ h).1 rfl)]
  simp only [Bool.false_eq_true, if_false]
  rw [popName_self hstop, removeComments_plain (fun h => (hchars _ h).2.1 rfl), hmap]
  have := trim_eq (a := []) (m := spaced (ws1 ++ attr :: ws2)) (b := tail) (by simp) (fun c hc => by rw [htail c hc]; decide) ?_
  · simpa using this
  · constructor
    · intro c' r1 h
      rw [e0, List.cons.injEq] at h
      rw [← h.1]; exact hc0
    · intro c' r1 h
      rw [e9] at h
      have := congrArg List.reverse h
      simp only [List.reverse_append, List.reverse_cons, List.reverse_nil, List.nil_append,
        List.cons_append, List.cons.injEq] at this
      rw [← this.1]
      exact hc9

theorem strip_none {ms : MacroInfo} (hms : ∀ t, removable ms t = none) (ts : List (List Char)) (d : List Char) :
    ts.foldl (strip ms) d = d := by
  induction ts with
  | nil => rfl
  | cons t ts ih =>
    rw [List.foldl_cons, show strip ms d t = d by unfold strip; rw [hms t], ih]

/-- The words of the declared string of the return value, one attribute being written before the name of the function. -/
theorem returnString_attribute {ms : MacroInfo} {name : List Char} {ws1 ws2 : List (List Char)} {attr tail : List Char}
    (hms : ∀ t, removable ms t = none) (h1 : ∀ w ∈ ws1, Word w) (h2 : ∀ w ∈ ws2, Word w)
    (ha : IsAttribute attr) (hb : '{' ∉ attr) (hsl : '/' ∉ attr) (hn : '\n' ∉ attr)
    (ht : tail = [' '] ∨ (tail = [] ∧ ∀ l w, ws2 = l ++ [w] → ∀ c ∈ w, c = '*'))
    (hs : ∀ k ∈ storage, ∀ w ∈ ws1 ++ ws2, k <:+ w → w = k) (hc : ∀ k ∈ storage, (ws1 ++ ws2).count k ≤ 1)
    (hl : ∀ k ∈ storage, ∀ l, ws2 ≠ l ++ [k]) :
    words (returnString ms name (spaced (ws1 ++ attr :: ws2) ++ tail)) =
      (ws1 ++ ws2).filter (fun w => !storage.contains w) := by
  have hword : ∀ v ∈ ws1 ++ [] :: ws2, (Word v ∧ v ∈ ws1 ++ ws2) ∨ v = [] := by
    intro v hv
    rcases List.mem_append.1 hv with hv | hv
    · exact Or.inl ⟨h1 v hv, by simp [hv]⟩
    · rcases List.mem_cons.1 hv with rfl | hv
      · exact Or.inr rfl
      · exact Or.inl ⟨h2 v hv, by simp [hv]⟩
  have hne' : ∀ k ∈ storage, k ≠ [] := by decide
  have hstor := erase_storage (vs := ws1 ++ [] :: ws2) (fun v hv => by
      rcases hword v hv with h | rfl
      · exact fun hb => (h.1.char hb).1 rfl
      · simp)
    (fun k hk v hv hsuf => by
      rcases hword v hv with h | rfl
      · exact hs k hk v h.2 hsuf
      · exact (List.suffix_nil.1 hsuf).symm)
    (fun k hk => by
      have := hc k hk
      rw [List.count_append] at this
      rw [List.count_append, List.count_cons_of_ne (fun e => hne' k hk e.symm)]
      exact this)
    (fun k hk l v e hv => by
      subst hv
      rcases List.eq_nil_or_concat ws2 with h | ⟨m, u, h⟩
      · rw [h] at e
        have := congrArg List.reverse e
        simp only [List.reverse_append, List.reverse_cons, List.reverse_nil, List.nil_append, List.cons_append,
          List.cons.injEq] at this
        exact hne' v hk this.1.symm
      · rw [List.concat_eq_append] at h
        rw [h] at e
        have := congrArg List.reverse e
        simp only [List.reverse_append, List.reverse_cons, List.reverse_nil, List.nil_append, List.cons_append,
          List.cons.injEq] at this
        exact hl v hk m (by rw [h, this.1]))
  unfold returnString
  simp only
  rw [declare_attribute h1 h2 ha hb hsl hn ht, removeMacros_eq ms name _ _ _ (Nat.le_refl _), strip_none hms,
    erase_attribute h1 h2 ha, hstor, words_trim, words_spaced]
  · rw [List.filter_filter, List.filter_append, List.filter_append, List.filter_cons]
    have hkeep : ∀ ws : List (List Char), (∀ w ∈ ws, Word w) →
        ws.filter (fun a => !a.isEmpty && !storage.contains a) = ws.filter (fun a => !storage.contains a) := by
      intro ws hw
      refine List.filter_congr (fun w hwm => ?_)
      have := (hw w hwm).nonempty
      cases w with
      | nil => exact absurd rfl this
      | cons => rfl
    rw [hkeep ws1 h1, hkeep ws2 h2]
    simp
  · intro v hv
    rcases hword v (List.mem_filter.1 hv).1 with h | rfl
    · exact fun hb => (h.1.char hb).1 rfl
    · simp
  · intro c hc' hsp
    rcases spaced_char (fun v hv => (hword v (List.mem_filter.1 hv).1).imp And.left id) hc' with h | h
    · exact h
    · rw [h.2.2] at hsp; cases hsp

end EasyMock.Parser
