import Verif.CFile.Spec

/-! # CFile: lemmas about the reader of files -/

namespace EasyMock.CFile

/-! ## Characters -/

/-- A character which means itself in the code of a declaration. -/
def plainChar (c : Char) : Bool :=
  !(c == '\n' || c == '/' || c == '\\' || c == '\'' || c == '"' || c == '{' || c == '}' || c == ';')

/-- A text of plain characters and strings; the flag says whether a string is open. -/
def properFrom (q : Bool) : List Char → Bool
  | [] => !q
  | c :: cs =>
    if c = '"' then properFrom (!q) cs
    else if q then (!(c == '\n' || c == '\\')) && properFrom q cs
    else plainChar c && properFrom q cs

theorem plain_proper : ∀ {t : List Char}, (∀ c ∈ t, plainChar c = true) → properFrom false t = true
  | [], _ => rfl
  | c :: t, h => by
    have hc : c ≠ '"' := by
      intro e; have := h c (by simp); rw [e] at this; revert this; decide
    have hp := plain_proper (t := t) (fun x hx => h x (by simp [hx]))
    simp [properFrom, hc, h c (by simp), hp]

theorem proper_append : ∀ {a b : List Char} {q : Bool}, properFrom q a = true → properFrom false b = true →
    properFrom q (a ++ b) = true
  | [], b, q, ha, hb => by
    have : q = false := by simpa [properFrom] using ha
    subst this; simpa using hb
  | c :: a, b, q, ha, hb => by
    simp only [List.cons_append, properFrom] at ha ⊢
    by_cases hc : c = '"'
    · simp only [hc, if_true] at ha ⊢
      exact proper_append ha hb
    · simp only [hc, if_false] at ha ⊢
      by_cases hq : q = true
      · subst hq
        simp only [if_true, Bool.and_eq_true] at ha ⊢
        exact ⟨ha.1, proper_append ha.2 hb⟩
      · have hq : q = false := by simpa using hq
        subst hq
        simp only [Bool.false_eq_true, if_false, Bool.and_eq_true] at ha ⊢
        exact ⟨ha.1, proper_append ha.2 hb⟩

theorem proper_noescape : ∀ {t : List Char} {q : Bool}, properFrom q t = true → '\\' ∉ t
  | [], _, _ => by simp
  | c :: t, q, h => by
    simp only [properFrom] at h
    by_cases hc : c = '"'
    · simp only [hc, if_true] at h
      have := proper_noescape h
      simp [hc, this]
    · simp only [hc, if_false] at h
      by_cases hq : q = true
      · subst hq
        simp only [if_true, Bool.and_eq_true, Bool.not_eq_true', Bool.or_eq_false_iff, beq_eq_false_iff_ne] at h
        have := proper_noescape h.2
        simp only [List.mem_cons, not_or]
        exact ⟨Ne.symm h.1.2, this⟩
      · have hq : q = false := by simpa using hq
        subst hq
        simp only [Bool.false_eq_true, if_false, Bool.and_eq_true] at h
        have := proper_noescape h.2
        simp only [List.mem_cons, not_or]
        refine ⟨?_, this⟩
        intro e
        have h1 := h.1
        rw [← e] at h1
        revert h1; decide

/-! ## Lines -/

theorem join_id : ∀ {t : List Char}, '\\' ∉ t → joinLines false t = t
  | [], _ => rfl
  | c :: t, h => by
    simp only [List.mem_cons, not_or] at h
    simp [joinLines, Ne.symm h.1, join_id h.2]

theorem step_done (s : Scan) (d0 : List (List Char)) (c : Char) :
    Scan.step ⟨s.mode, s.line, d0 ++ s.done⟩ c =
      ⟨(s.step c).mode, (s.step c).line, d0 ++ (s.step c).done⟩ := by
  obtain ⟨m, l, d⟩ := s
  have hin : ∀ l' d', (Scan.inCode ⟨m, l', d0 ++ d'⟩ c) =
      ⟨(Scan.inCode ⟨m, l', d'⟩ c).mode, (Scan.inCode ⟨m, l', d'⟩ c).line, d0 ++ (Scan.inCode ⟨m, l', d'⟩ c).done⟩ := by
    intro l' d'
    unfold Scan.inCode Scan.endLine
    split
    · simp [List.append_assoc]
    · split
      · rfl
      · split <;> rfl
  cases m with
  | code => exact hin l d
  | slash =>
    simp only [Scan.step]
    split
    · rfl
    · split
      · rfl
      · exact hin (l ++ ['/']) d
  | toEnd =>
    simp only [Scan.step]
    split
    · simp [Scan.endLine, List.append_assoc]
    · rfl
  | block => simp only [Scan.step]; split <;> rfl
  | star =>
    simp only [Scan.step]
    split
    · rfl
    · split <;> rfl
  | quote q =>
    simp only [Scan.step]
    split
    · rfl
    · split <;> rfl
  | escape q => rfl

theorem scan_done : ∀ (t : List Char) (s : Scan) (d0 : List (List Char)),
    t.foldl Scan.step ⟨s.mode, s.line, d0 ++ s.done⟩ =
      ⟨(t.foldl Scan.step s).mode, (t.foldl Scan.step s).line, d0 ++ (t.foldl Scan.step s).done⟩
  | [], _, _ => rfl
  | c :: t, s, d0 => by
    simp only [List.foldl_cons]
    rw [step_done]
    exact scan_done t (s.step c) d0

/-- A text is cut into these lines. -/
def Scans (t : List Char) (ls : List (List Char)) : Prop :=
  '\\' ∉ t ∧ ∀ d, t.foldl Scan.step ⟨.code, [], d⟩ = ⟨.code, [], d ++ ls⟩

theorem Scans.of {t : List Char} {ls : List (List Char)} (h0 : '\\' ∉ t)
    (h : t.foldl Scan.step ⟨.code, [], []⟩ = ⟨.code, [], ls⟩) : Scans t ls :=
  ⟨h0, fun d => by simpa [h] using scan_done t ⟨.code, [], []⟩ d⟩

theorem Scans.append {a b : List Char} {la lb : List (List Char)} (ha : Scans a la) (hb : Scans b lb) :
    Scans (a ++ b) (la ++ lb) :=
  ⟨by simp [ha.1, hb.1], fun d => by rw [List.foldl_append, ha.2, hb.2, List.append_assoc]⟩

theorem Scans.lines {t : List Char} {ls : List (List Char)} (h : Scans t ls) : linesOf t = some ls := by
  simp [linesOf, join_id h.1, h.2]

theorem scan_proper : ∀ (t : List Char) (q : Bool) (l : List Char) (d : List (List Char)), properFrom q t = true →
    t.foldl Scan.step ⟨if q then .quote '"' else .code, l, d⟩ = ⟨.code, l ++ t, d⟩
  | [], q, l, d, h => by
    have : q = false := by simpa [properFrom] using h
    subst this; simp
  | c :: t, q, l, d, h => by
    simp only [properFrom] at h
    have happ : l ++ c :: t = (l ++ [c]) ++ t := by simp
    rw [List.foldl_cons, happ]
    by_cases hc : c = '"'
    · simp only [hc, if_true] at h
      subst hc
      cases q with
      | true =>
        have := scan_proper t false (l ++ ['"']) d h
        simpa [Scan.step] using this
      | false =>
        have := scan_proper t true (l ++ ['"']) d h
        simpa [Scan.step, Scan.inCode] using this
    · simp only [hc, if_false] at h
      cases q with
      | true =>
        simp only [if_true, Bool.and_eq_true, Bool.not_eq_true', Bool.or_eq_false_iff, beq_eq_false_iff_ne] at h
        have := scan_proper t true (l ++ [c]) d h.2
        simpa [Scan.step, hc, h.1.2] using this
      | false =>
        simp only [Bool.false_eq_true, if_false, Bool.and_eq_true] at h
        have hp := h.1
        simp only [plainChar, Bool.not_eq_true', Bool.or_eq_false_iff, beq_eq_false_iff_ne] at hp
        have := scan_proper t false (l ++ [c]) d h.2
        simpa [Scan.step, Scan.inCode, hc, hp] using this

/-- A line of plain text and strings, and braces and semicolons. -/
def lineChar (c : Char) : Bool := !(c == '\n' || c == '/' || c == '\\' || c == '\'' || c == '"')

theorem scan_line : ∀ (t : List Char) (l : List Char) (d : List (List Char)), (∀ c ∈ t, lineChar c = true) →
    t.foldl Scan.step ⟨.code, l, d⟩ = ⟨.code, l ++ t, d⟩
  | [], l, d, _ => by simp
  | c :: t, l, d, h => by
    have hp := h c (by simp)
    simp only [lineChar, Bool.not_eq_true', Bool.or_eq_false_iff, beq_eq_false_iff_ne] at hp
    have := scan_line t (l ++ [c]) d (fun x hx => h x (by simp [hx]))
    rw [List.foldl_cons]
    simpa [Scan.step, Scan.inCode, hp] using this

theorem lineChar_noescape {t : List Char} (h : ∀ c ∈ t, lineChar c = true) : '\\' ∉ t := by
  intro hm; exact absurd (h _ hm) (by decide)

theorem Scans.proper {t : List Char} (h : properFrom false t = true) : Scans (t ++ ['\n']) [t] :=
  Scans.of (by simp [proper_noescape h]) (by
    have := scan_proper t false [] [] h
    simp only [Bool.false_eq_true, if_false] at this
    rw [List.foldl_append, this]; rfl)

theorem Scans.line {t : List Char} (h : ∀ c ∈ t, lineChar c = true) : Scans (t ++ ['\n']) [t] :=
  Scans.of (by simp [lineChar_noescape h]) (by rw [List.foldl_append, scan_line t [] [] h]; rfl)

/-- A comment up to the end of the line, behind code. -/
theorem Scans.toEnd {t k : List Char} (h : ∀ c ∈ t, lineChar c = true) (hk : '\n' ∉ k) (he : '\\' ∉ k) :
    Scans (t ++ '/' :: '/' :: k ++ ['\n']) [t] := by
  refine Scans.of (by simp [lineChar_noescape h, he]) ?_
  have hrest : ∀ (k : List Char) (d : List (List Char)), '\n' ∉ k →
      k.foldl Scan.step ⟨.toEnd, t, d⟩ = ⟨.toEnd, t, d⟩ := by
    intro k
    induction k with
    | nil => intro d _; rfl
    | cons c k ih =>
      intro d hk
      simp only [List.mem_cons, not_or] at hk
      rw [List.foldl_cons]
      simpa [Scan.step, Ne.symm hk.1] using ih d hk.2
  rw [List.foldl_append, List.foldl_append, scan_line t [] [] h]
  have h2 : ('/' :: '/' :: k).foldl Scan.step ⟨.code, t, []⟩ = ⟨.toEnd, t, []⟩ := by
    simp only [List.foldl_cons]
    exact hrest k [] hk
  rw [List.nil_append, h2]
  rfl

/-- Whether the text ends a comment. -/
def NoClose (k : List Char) : Prop := ∀ a b, k ≠ a ++ '*' :: '/' :: b

theorem NoClose.tail {c : Char} {k : List Char} (h : NoClose (c :: k)) : NoClose k :=
  fun a b e => h (c :: a) b (by rw [e]; rfl)

theorem scan_block : ∀ (k : List Char) (l : List Char) (d : List (List Char)) (m : Mode), m = .block ∨ m = .star →
    (m = .star → k.head? ≠ some '/') → NoClose k →
    ∃ m', k.foldl Scan.step ⟨m, l, d⟩ = ⟨m', l, d⟩ ∧ (m' = .block ∨ m' = .star)
  | [], l, d, m, hm, _, _ => ⟨m, rfl, hm⟩
  | c :: k, l, d, m, hm, hs, hn => by
    rw [List.foldl_cons]
    by_cases hc : c = '*'
    · subst hc
      have : Scan.step ⟨m, l, d⟩ '*' = ⟨.star, l, d⟩ := by rcases hm with rfl | rfl <;> rfl
      rw [this]
      refine scan_block k l d .star (Or.inr rfl) (fun _ e => ?_) hn.tail
      cases k with
      | nil => simp at e
      | cons x k =>
        simp only [List.head?_cons, Option.some.injEq] at e
        exact hn [] k (by rw [e]; rfl)
    · have : Scan.step ⟨m, l, d⟩ c = ⟨.block, l, d⟩ := by
        rcases hm with rfl | rfl
        · simp [Scan.step, hc]
        · have : c ≠ '/' := fun e => hs rfl (by simp [e])
          simp [Scan.step, hc, this]
      rw [this]
      exact scan_block k l d .block (Or.inl rfl) (by simp) hn.tail

/-- A line which is a comment. -/
theorem Scans.block {k : List Char} (hn : NoClose k) (he : '\\' ∉ k) :
    Scans ('/' :: '*' :: k ++ ['*', '/', '\n']) [[' ']] := by
  refine Scans.of (by simp [he]) ?_
  rw [List.foldl_append]
  have h0 : ('/' :: '*' :: k).foldl Scan.step ⟨.code, [], []⟩ = k.foldl Scan.step ⟨.block, [' '], []⟩ := rfl
  obtain ⟨m', e, hm⟩ := scan_block k [' '] [] .block (Or.inl rfl) (by simp) hn
  rw [h0, e]
  rcases hm with rfl | rfl <;> rfl

/-! ## Runs over whole lines -/

/-- The lines of the text lead the reader from one state to the other. -/
def Runs (f : File) (t : List Char) (f' : File) : Prop := ∃ ls, Scans t ls ∧ ls.foldlM File.line f = some f'

theorem Runs.append {f f' f'' : File} {a b : List Char} (ha : Runs f a f') (hb : Runs f' b f'') : Runs f (a ++ b) f'' := by
  obtain ⟨la, sa, ea⟩ := ha
  obtain ⟨lb, sb, eb⟩ := hb
  exact ⟨la ++ lb, sa.append sb, by rw [List.foldlM_append, ea]; exact eb⟩

theorem Runs.nil (f : File) : Runs f [] f := ⟨[], ⟨by simp, fun d => by simp⟩, rfl⟩

/-- The reader between declarations. -/
structure AtTop (r : Reader) : Prop where
  place : r.place = .top
  quote : r.quote = none
  escaped : r.escaped = false
  piece : r.piece = []

theorem feed_blank : ∀ (l : List Char) (r : Reader), AtTop r → (∀ c ∈ l, blank c = true) → l.foldlM Reader.step r = some r
  | [], r, _, _ => rfl
  | c :: l, r, hr, h => by
    have hb := h c (by simp)
    have e : Reader.step r c = some r := by
      have h1 : c ≠ '"' := by intro e; rw [e] at hb; revert hb; decide
      have h2 : c ≠ '\'' := by intro e; rw [e] at hb; revert hb; decide
      have h3 : c ≠ '{' := by intro e; rw [e] at hb; revert hb; decide
      have h4 : c ≠ '}' := by intro e; rw [e] at hb; revert hb; decide
      have h5 : c ≠ ';' := by intro e; rw [e] at hb; revert hb; decide
      simp [Reader.step, Reader.plain, hr.quote, hr.place, hr.piece, h1, h2, h3, h4, h5, hb]
    rw [List.foldlM_cons, e]
    exact feed_blank l r hr (fun x hx => h x (by simp [hx]))

theorem dropWhile_blank {l : List Char} (h : ∀ c ∈ l, blank c = true) : l.dropWhile blank = [] := by
  induction l with
  | nil => rfl
  | cons c l ih => rw [List.dropWhile_cons, if_pos (h c (by simp))]; exact ih (fun x hx => h x (by simp [hx]))

theorem line_blank {f : File} {l : List Char} (hr : AtTop f.reader) (h : ∀ c ∈ l, blank c = true) :
    File.line f l = some f := by
  unfold File.line
  rw [dropWhile_blank h]
  simp only
  split
  · rw [feed_blank (l ++ ['\n']) f.reader hr (by
      intro c hc
      rcases List.mem_append.mp hc with hc | hc
      · exact h c hc
      · simp only [List.mem_singleton] at hc; subst hc; decide)]
    rfl
  · rfl

/-- A directive line. -/
theorem line_directive (f : File) (name rest : List Char) (hn : ∀ c ∈ name, identChar c = true)
    (hr : rest = [] ∨ ∃ x xs, rest = ' ' :: x :: xs ∧ blank x = false) (hne : ∃ x xs, name = x :: xs) :
    File.line f ('#' :: (name ++ rest)) = f.directive name (rest.drop 1) := by
  have hblank : ∀ c, identChar c = true → blank c = false := by
    intro c hc
    cases hb : blank c with
    | false => rfl
    | true =>
      simp only [blank, Bool.or_eq_true, beq_iff_eq] at hb
      rcases hb with ((((rfl | rfl) | rfl) | rfl) | rfl) | rfl <;> exact absurd hc (by decide)
  obtain ⟨x, xs, rfl⟩ := hne
  have hx : blank x = false := hblank x (hn x (by simp))
  have h1 : (x :: xs ++ rest).dropWhile blank = x :: xs ++ rest := by
    rw [List.cons_append, List.dropWhile_cons, hx]; rfl
  have hid : ∀ (n : List Char), (∀ c ∈ n, identChar c = true) →
      (n ++ rest).takeWhile identChar = n ∧ (n ++ rest).dropWhile identChar = rest := by
    intro n
    induction n with
    | nil =>
      intro _
      rcases hr with rfl | ⟨y, ys, rfl, _⟩
      · exact ⟨rfl, rfl⟩
      · exact ⟨rfl, rfl⟩
    | cons c n ih =>
      intro h
      have hc := h c (by simp)
      have := ih (fun y hy => h y (by simp [hy]))
      simp [hc, this]
  have h2 := hid (x :: xs) hn
  have h3 : rest.dropWhile blank = rest.drop 1 := by
    rcases hr with rfl | ⟨y, ys, rfl, hy⟩
    · rfl
    · have : blank ' ' = true := by decide
      simp [this, hy]
  unfold File.line
  have h0 : ('#' :: (x :: xs ++ rest)).dropWhile blank = '#' :: (x :: xs ++ rest) := by
    rw [List.dropWhile_cons]; rfl
  rw [h0]
  simp only
  rw [h1, h2.1, h2.2, h3]

/-! ## Lines without directives -/

/-- A text whose lines are no directives. -/
def Quiet (t : List Char) : Prop := ∃ ls, Scans t ls ∧ ∀ l ∈ ls, (l.dropWhile blank).head? ≠ some '#'

theorem Quiet.append {a b : List Char} (ha : Quiet a) (hb : Quiet b) : Quiet (a ++ b) := by
  obtain ⟨la, sa, ea⟩ := ha
  obtain ⟨lb, sb, eb⟩ := hb
  refine ⟨la ++ lb, sa.append sb, fun l hl => ?_⟩
  rcases List.mem_append.mp hl with h | h
  · exact ea l h
  · exact eb l h

theorem Quiet.nil : Quiet [] := ⟨[], ⟨by simp, fun d => by simp⟩, by simp⟩

theorem line_quiet {f : File} {l : List Char} (h : (l.dropWhile blank).head? ≠ some '#') (ha : f.active = false) :
    File.line f l = some f := by
  unfold File.line
  split
  · rename_i e; rw [e] at h; exact absurd rfl h
  · simp [ha]

theorem Quiet.runs {f : File} {t : List Char} (h : Quiet t) (ha : f.active = false) : Runs f t f := by
  obtain ⟨ls, s, e⟩ := h
  refine ⟨ls, s, ?_⟩
  clear s
  induction ls with
  | nil => rfl
  | cons l ls ih =>
    rw [List.foldlM_cons, line_quiet (e l (by simp)) ha]
    exact ih (fun x hx => e x (by simp [hx]))

theorem Runs.blank {f : File} {t : List Char} {ls : List (List Char)} (hs : Scans t ls) (hr : AtTop f.reader)
    (h : ∀ l ∈ ls, ∀ c ∈ l, blank c = true) : Runs f t f := by
  refine ⟨ls, hs, ?_⟩
  clear hs
  induction ls with
  | nil => rfl
  | cons l ls ih =>
    rw [List.foldlM_cons, line_blank hr (h l (by simp))]
    exact ih (fun x hx => h x (by simp [hx]))

theorem Quiet.blank {t : List Char} {ls : List (List Char)} (hs : Scans t ls)
    (h : ∀ l ∈ ls, ∀ c ∈ l, blank c = true) : Quiet t :=
  ⟨ls, hs, fun l hl => by rw [dropWhile_blank (h l hl)]; simp⟩

/-- The file with another declaration. -/
def File.declare (f : File) (t : List Char) : File :=
  { f with reader := { f.reader with decls := f.reader.decls ++ [⟨f.reader.scopes, t, none⟩] } }

/-- The file inside a scope. -/
def File.enter (f : File) (s : Scope) : File := { f with reader := { f.reader with scopes := f.reader.scopes ++ [s] } }

/-- The file behind the innermost scope. -/
def File.leave (f : File) : File := { f with reader := { f.reader with scopes := f.reader.scopes.dropLast } }

theorem trim_id {t : List Char} (h1 : ∀ x ∈ t.head?, blank x = false) (h2 : ∀ x ∈ t.getLast?, blank x = false) :
    trim t = t := by
  have hd : ∀ (u : List Char), (∀ x ∈ u.head?, CFile.blank x = false) → u.dropWhile CFile.blank = u := by
    intro u hu
    cases u with
    | nil => rfl
    | cons c u => rw [List.dropWhile_cons, hu c (by simp)]; rfl
  unfold trim
  rw [hd t h1, hd t.reverse (by rw [List.head?_reverse]; exact h2), List.reverse_reverse]

theorem feed_proper : ∀ (t : List Char) (q : Bool) (S : List Scope) (p : List Char) (D : List Decl), properFrom q t = true →
    p ≠ [] →
    t.foldlM Reader.step ⟨S, .top, if q then some '"' else none, false, p, D⟩ = some ⟨S, .top, none, false, p ++ t, D⟩
  | [], q, S, p, D, h, _ => by
    have : q = false := by simpa [properFrom] using h
    subst this; simp
  | c :: t, q, S, p, D, h, hp => by
    simp only [properFrom] at h
    have happ : p ++ c :: t = (p ++ [c]) ++ t := by simp
    rw [List.foldlM_cons, happ]
    by_cases hc : c = '"'
    · simp only [hc, if_true] at h
      subst hc
      cases q with
      | true =>
        have := feed_proper t false S (p ++ ['"']) D h (by simp)
        simpa [Reader.step] using this
      | false =>
        have := feed_proper t true S (p ++ ['"']) D h (by simp)
        simpa [Reader.step] using this
    · simp only [hc, if_false] at h
      cases q with
      | true =>
        simp only [if_true, Bool.and_eq_true, Bool.not_eq_true', Bool.or_eq_false_iff, beq_eq_false_iff_ne] at h
        have := feed_proper t true S (p ++ [c]) D h.2 (by simp)
        simpa [Reader.step, hc, h.1.2] using this
      | false =>
        simp only [Bool.false_eq_true, if_false, Bool.and_eq_true] at h
        have hpl := h.1
        simp only [plainChar, Bool.not_eq_true', Bool.or_eq_false_iff, beq_eq_false_iff_ne] at hpl
        have := feed_proper t false S (p ++ [c]) D h.2 (by simp)
        simpa [Reader.step, Reader.plain, hc, hpl, hp] using this

/-- The text of a declaration. -/
structure DeclText (t : List Char) : Prop where
  proper : properFrom false t = true
  first : ∃ c cs, t = c :: cs ∧ blank c = false ∧ c ≠ '#' ∧ c ≠ '"'
  last : ∀ x ∈ t.getLast?, blank x = false

theorem DeclText.trim {t : List Char} (h : DeclText t) : trim t = t := by
  obtain ⟨c, cs, e, hc, _⟩ := h.first
  exact trim_id (by rw [e]; simp [hc]) h.last

theorem feed_start {t : List Char} (h : DeclText t) {r : Reader} (hr : AtTop r) :
    t.foldlM Reader.step r = some { r with piece := t } := by
  obtain ⟨S, pl, q, e, p, D⟩ := r
  obtain ⟨h1, h2, h3, h4⟩ := hr
  simp only at h1 h2 h3 h4
  subst h1 h2 h3 h4
  obtain ⟨c, cs, rfl, hc, _, hq⟩ := h.first
  have hp := h.proper
  simp only [properFrom, hq, if_false, Bool.false_eq_true, Bool.and_eq_true] at hp
  have hpl := hp.1
  simp only [plainChar, Bool.not_eq_true', Bool.or_eq_false_iff, beq_eq_false_iff_ne] at hpl
  have := feed_proper cs false S [c] D hp.2 (by simp)
  rw [List.foldlM_cons]
  simpa [Reader.step, Reader.plain, hpl, hc] using this

theorem DeclText.noDirective {t : List Char} (h : DeclText t) (u : List Char) : ((t ++ u).dropWhile blank).head? ≠ some '#' := by
  obtain ⟨c, cs, rfl, hc, hh, _⟩ := h.first
  rw [List.cons_append, List.dropWhile_cons, hc]
  simpa using hh

theorem line_code {f : File} {l : List Char} (hd : (l.dropWhile blank).head? ≠ some '#') (ha : f.active = true) :
    File.line f l = ((l ++ ['\n']).foldlM Reader.step f.reader).map (fun r => { f with reader := r }) := by
  unfold File.line
  split
  · rename_i e; rw [e] at hd; exact absurd rfl hd
  · simp [ha]

theorem DeclText.nonempty {t : List Char} (h : DeclText t) : t ≠ [] := by
  obtain ⟨c, cs, rfl, _⟩ := h.first; simp

theorem proper_semicolon {t : List Char} (h : properFrom false t = true) : Scans (t ++ [';', '\n']) [t ++ [';']] :=
  Scans.of (by simp [proper_noescape h]) (by
    have := scan_proper t false [] [] h
    simp only [Bool.false_eq_true, if_false] at this
    rw [List.foldl_append, this]; rfl)

theorem Runs.decl {f : File} {t : List Char} (h : DeclText t) (hr : AtTop f.reader) (ha : f.active = true) :
    Runs f (t ++ [';', '\n']) (f.declare t) := by
  refine ⟨_, proper_semicolon h.proper, ?_⟩
  rw [List.foldlM_cons, line_code (h.noDirective _) ha, List.append_assoc, List.foldlM_append, feed_start h hr]
  have hn := h.nonempty
  have hb : CFile.blank '\n' = true := by decide
  simp [Reader.step, Reader.plain, hr.place, hr.quote, h.trim, hn, hb, File.declare, hr.piece]

theorem Quiet.decl {t : List Char} (h : DeclText t) : Quiet (t ++ [';', '\n']) :=
  ⟨_, proper_semicolon h.proper, by simpa using h.noDirective [';']⟩

/-! ## Scopes -/

/-- An identifier. -/
def Ident (n : List Char) : Prop := n ≠ [] ∧ ∀ c ∈ n, identChar c = true

theorem ident_blank {c : Char} (hc : identChar c = true) : blank c = false := by
  cases hb : blank c with
  | false => rfl
  | true =>
    simp only [CFile.blank, Bool.or_eq_true, beq_iff_eq] at hb
    rcases hb with ((((rfl | rfl) | rfl) | rfl) | rfl) | rfl <;> exact absurd hc (by decide)

theorem ident_plain {c : Char} (hc : identChar c = true) : plainChar c = true := by
  cases hb : plainChar c with
  | true => rfl
  | false =>
    simp only [plainChar, Bool.not_eq_false', Bool.or_eq_true, beq_iff_eq] at hb
    rcases hb with ((((((rfl | rfl) | rfl) | rfl) | rfl) | rfl) | rfl) | rfl <;> exact absurd hc (by decide)

theorem plain_line {c : Char} (hc : plainChar c = true) : lineChar c = true := by
  simp only [plainChar, lineChar, Bool.not_eq_true', Bool.or_eq_false_iff] at hc ⊢
  simp [hc]

theorem words_word : ∀ (w acc rest : List Char) (b : Char), (∀ c ∈ w, blank c = false) → blank b = true →
    wordsFrom acc (w ++ b :: rest) = (if acc ++ w = [] then [] else [acc ++ w]) ++ wordsFrom [] rest
  | [], acc, rest, b, _, hb => by simp [wordsFrom, hb]
  | c :: w, acc, rest, b, h, hb => by
    have hc := h c (by simp)
    have := words_word w (acc ++ [c]) rest b (fun x hx => h x (by simp [hx])) hb
    simpa [wordsFrom, hc] using this

/-- The text in front of the brace of a namespace. -/
def spaceText (n : List Char) : List Char := kwNamespace ++ ' ' :: n

theorem words_space {n : List Char} (h0 : n ≠ []) (hn : ∀ c ∈ n, blank c = false) :
    words (spaceText n ++ ['\n']) = [kwNamespace, n] := by
  have h1 := words_word kwNamespace [] (n ++ ['\n']) ' ' (by decide +kernel) (by decide)
  have h2 := words_word n [] [] '\n' hn (by decide)
  have e : spaceText n ++ ['\n'] = kwNamespace ++ ' ' :: (n ++ ['\n']) := by simp [spaceText]
  unfold words
  rw [e, h1, h2]
  have h0' : kwNamespace ≠ [] := by decide +kernel
  simp [wordsFrom, h0, h0']

theorem opens_name {n : List Char} (h0 : n ≠ []) (hn : ∀ c ∈ n, blank c = false) :
    opens (spaceText n ++ ['\n']) = if n.all identChar then .scope (.space n) else .wrong := by
  unfold opens
  rw [words_space h0 hn]
  have h1 : [kwNamespace, n] ≠ [kwExtern, kwC] := by
    intro e
    have : kwNamespace = kwExtern := by injection e
    revert this; decide +kernel
  rw [if_neg h1, List.head?_cons, if_pos rfl]

theorem opens_space {n : List Char} (hn : Ident n) : opens (spaceText n ++ ['\n']) = .scope (.space n) := by
  rw [opens_name hn.1 (fun c hc => ident_blank (hn.2 c hc)), if_pos (by simpa using hn.2)]

theorem last_append {a b : List Char} (h : b ≠ []) : (a ++ b).getLast? = b.getLast? := by
  cases hb : b.getLast? with
  | none => exact absurd (List.getLast?_eq_none_iff.mp hb) h
  | some x => rw [List.getLast?_append, hb]; rfl

theorem space_first : ∃ cs, kwNamespace = 'n' :: cs := ⟨kwNamespace.tail, by decide +kernel⟩

theorem name_text {n : List Char} (h0 : n ≠ []) (hp : ∀ c ∈ n, plainChar c = true) (hb : ∀ c ∈ n, blank c = false) :
    DeclText (spaceText n) := by
  have hk : ∀ c ∈ kwNamespace, plainChar c = true := by decide +kernel
  have hp : ∀ c ∈ spaceText n, plainChar c = true := by
    intro c hc
    simp only [spaceText, List.mem_append, List.mem_cons] at hc
    rcases hc with h | rfl | h
    · exact hk c h
    · decide
    · exact hp c h
  refine ⟨plain_proper hp, ?_, ?_⟩
  · obtain ⟨cs, e⟩ := space_first
    exact ⟨'n', cs ++ ' ' :: n, by simp [spaceText, e], by decide, by decide, by decide⟩
  · intro x hx
    have e : spaceText n = (kwNamespace ++ [' ']) ++ n := by simp [spaceText]
    rw [e, last_append h0] at hx
    exact hb x (List.mem_of_getLast? hx)

theorem space_text {n : List Char} (hn : Ident n) : DeclText (spaceText n) :=
  name_text hn.1 (fun c hc => ident_plain (hn.2 c hc)) (fun c hc => ident_blank (hn.2 c hc))

/-- The lines which open a namespace. -/
def spaceLines (n : List Char) : List Char := spaceText n ++ ['\n', '{', '\n']

theorem spaceLines_scans {n : List Char} (hn : Ident n) : Scans (spaceLines n) [spaceText n, ['{']] := by
  have h1 := Scans.proper (space_text hn).proper
  have h2 : Scans ['{', '\n'] [['{']] := Scans.of (by decide) (by decide)
  have := h1.append h2
  simpa [spaceLines] using this

theorem Runs.space {f : File} {n : List Char} (hn : Ident n) (hr : AtTop f.reader) (ha : f.active = true) :
    Runs f (spaceLines n) (f.enter (.space n)) := by
  refine ⟨_, spaceLines_scans hn, ?_⟩
  have hd := (space_text hn).noDirective []
  rw [List.append_nil] at hd
  have e1 : File.line f (spaceText n) = some { f with reader := { f.reader with piece := spaceText n ++ ['\n'] } } := by
    rw [line_code hd ha, List.foldlM_append, feed_start (space_text hn) hr]
    have hne := (space_text hn).nonempty
    have hb : CFile.blank '\n' = true := by decide
    simp [Reader.step, Reader.plain, hr.place, hr.quote, hne]
  have ha' : File.active { f with reader := { f.reader with piece := spaceText n ++ ['\n'] } } = true := ha
  have e2 : File.line { f with reader := { f.reader with piece := spaceText n ++ ['\n'] } } ['{'] = some (f.enter (.space n)) := by
    rw [line_code (by decide) ha']
    have hb : CFile.blank '\n' = true := by decide
    simp [Reader.step, Reader.plain, hr.place, hr.quote, opens_space hn, hb, File.enter, hr.piece]
  rw [List.foldlM_cons, e1]
  show File.line _ ['{'] >>= _ = _
  rw [e2]
  rfl

theorem Quiet.space {n : List Char} (hn : Ident n) : Quiet (spaceLines n) := by
  refine ⟨_, spaceLines_scans hn, ?_⟩
  have hd := (space_text hn).noDirective []
  rw [List.append_nil] at hd
  intro l hl
  simp only [List.mem_cons, List.not_mem_nil, or_false] at hl
  rcases hl with rfl | rfl
  · exact hd
  · decide

/-- The line which ends a namespace. -/
def endLine (n : List Char) : List Char := ['}', ' '] ++ '/' :: '/' :: (' ' :: kwNamespace ++ ' ' :: n) ++ ['\n']

theorem endLine_scans {n : List Char} (hn : Ident n) : Scans (endLine n) [['}', ' ']] := by
  have hk : ∀ c ∈ kwNamespace, plainChar c = true := by decide +kernel
  have h : ∀ c ∈ ' ' :: kwNamespace ++ ' ' :: n, plainChar c = true := by
    intro c hc
    simp only [List.cons_append, List.mem_append, List.mem_cons] at hc
    rcases hc with rfl | h | rfl | h
    · decide
    · exact hk c h
    · decide
    · exact ident_plain (hn.2 c h)
  exact Scans.toEnd (t := ['}', ' ']) (by decide) (fun hc => absurd (h _ hc) (by decide))
    (fun hc => absurd (h _ hc) (by decide))

theorem Runs.leave {f : File} {n : List Char} (hn : Ident n) (hr : AtTop f.reader) (ha : f.active = true)
    (hs : f.reader.scopes ≠ []) : Runs f (endLine n) f.leave := by
  refine ⟨_, endLine_scans hn, ?_⟩
  rw [List.foldlM_cons, line_code (by decide) ha]
  have hb : CFile.blank '\n' = true := by decide
  have hb2 : CFile.blank ' ' = true := by decide
  have ht : trim [] = [] := rfl
  simp [Reader.step, Reader.plain, hr.place, hr.quote, hr.piece, hs, ht, hb, hb2, File.leave]

theorem Quiet.leave {n : List Char} (hn : Ident n) : Quiet (endLine n) :=
  ⟨_, endLine_scans hn, by intro l hl; simp only [List.mem_singleton] at hl; subst hl; decide⟩


end EasyMock.CFile
