import Verif.CFile.Texts

/-! # CFile: definitions and structures, read -/

namespace EasyMock.CFile

/-! ## What a brace opens -/

theorem words_chars : ∀ (t acc w : List Char), w ∈ wordsFrom acc t → ∀ c ∈ w, c ∈ acc ++ t
  | [], acc, w, hw, c, hc => by
    unfold wordsFrom at hw
    split at hw
    · cases hw
    · simp only [List.mem_singleton] at hw; subst hw; simpa using hc
  | x :: t, acc, w, hw, c, hc => by
    unfold wordsFrom at hw
    split at hw
    · rw [List.mem_append] at hw
      rcases hw with hw | hw
      · split at hw
        · cases hw
        · simp only [List.mem_singleton] at hw; subst hw; simp [hc]
      · have := words_chars t [] w hw c hc
        simp only [List.nil_append] at this
        simp [this]
    · have := words_chars t (acc ++ [x]) w hw c hc
      simpa using this

theorem words_blank (b : Char) (hb : blank b = true) : ∀ (t acc : List Char), wordsFrom acc (t ++ [b]) = wordsFrom acc t
  | [], acc => by
    simp only [List.nil_append, wordsFrom, hb, if_true]
    simp
  | c :: t, acc => by
    simp only [List.cons_append, wordsFrom, words_blank b hb t]

theorem words_split (b : Char) (hb : blank b = true) (rest : List Char) : ∀ (a acc : List Char), ∃ X,
    wordsFrom acc (a ++ b :: rest) = X ++ wordsFrom [] rest
  | [], acc => ⟨if acc = [] then [] else [acc], by simp [wordsFrom, hb]⟩
  | c :: a, acc => by
    by_cases hc : CFile.blank c = true
    · obtain ⟨X, e⟩ := words_split b hb rest a []
      exact ⟨(if acc = [] then [] else [acc]) ++ X, by simp [wordsFrom, hc, e]⟩
    · obtain ⟨X, e⟩ := words_split b hb rest a (acc ++ [c])
      exact ⟨X, by simp [wordsFrom, hc, e]⟩

theorem words_single {w : List Char} (h0 : w ≠ []) (hw : ∀ c ∈ w, blank c = false) : wordsFrom [] w = [w] := by
  have h := words_word w [] [] ' ' hw (by decide)
  rw [words_blank ' ' (by decide)] at h
  simpa [wordsFrom, h0] using h

theorem words_last {a w : List Char} {b : Char} (hb : blank b = true) (h0 : w ≠ []) (hw : ∀ c ∈ w, blank c = false) :
    (words (a ++ b :: w)).getLast? = some w := by
  obtain ⟨X, e⟩ := words_split b hb w a []
  unfold words
  rw [e, words_single h0 hw]
  simp

/-- The first word of a text that starts with a word of its own. -/
theorem words_first {w rest : List Char} {b : Char} (hb : blank b = true) (h0 : w ≠ []) (hw : ∀ c ∈ w, blank c = false) :
    (words (w ++ b :: rest)).head? = some w := by
  unfold words
  rw [words_word w [] rest b hw hb]
  simp [h0]

/-- The text in front of the body of a function. -/
structure SigText (t : List Char) : Prop where
  plain : ∀ c ∈ t, plainChar c = true
  first : ∃ c r, t = c :: r ∧ blank c = false ∧ c ≠ '#'
  word : (words t).head? ≠ some kwNamespace
  ends : (∃ a, t = a ++ [')']) ∨ (∃ a, t = a ++ ')' :: ' ' :: kwConst)

theorem SigText.last {t : List Char} (h : SigText t) : ∀ x ∈ t.getLast?, blank x = false := by
  intro x hx
  rcases h.ends with ⟨a, e⟩ | ⟨a, e⟩
  · rw [e, last_append (by simp)] at hx
    simp only [List.getLast?_singleton, Option.mem_def, Option.some.injEq] at hx
    subst hx; decide
  · have e' : t = (a ++ [')', ' ']) ++ kwConst := by rw [e]; simp
    rw [e', last_append (by decide +kernel)] at hx
    have : kwConst.getLast? = some 't' := by decide +kernel
    rw [this] at hx
    cases hx; decide

theorem SigText.decl {t : List Char} (h : SigText t) : DeclText t := by
  obtain ⟨c, r, e, hc, hh⟩ := h.first
  refine ⟨plain_proper h.plain, ⟨c, r, e, hc, hh, ?_⟩, h.last⟩
  exact (plain_ne (h.plain c (by rw [e]; simp))).2.2.2.2.1

theorem plain_noC {t : List Char} (h : ∀ c ∈ t, plainChar c = true) : words t ≠ [kwExtern, kwC] := by
  intro e
  have h1 : kwC ∈ words t := by rw [e]; simp
  have h2 := words_chars t [] kwC h1 '"' (by decide +kernel)
  exact absurd (h _ (by simpa using h2)) (by decide)

theorem SigText.opens {t : List Char} (h : SigText t) : opens (t ++ ['\n']) = .definition := by
  have hw : words (t ++ ['\n']) = words t := words_blank '\n' (by decide) t []
  have ht : trim (t ++ ['\n']) = t := by
    obtain ⟨c, r, e, hc, _⟩ := h.first
    exact trim_behind (by rw [e]; simp [hc]) h.last (by rw [e]; simp) (by decide)
  unfold CFile.opens
  rw [hw, ht, if_neg (plain_noC h.plain), if_neg h.word, if_pos]
  rcases h.ends with ⟨a, e⟩ | ⟨a, e⟩
  · left; rw [e, last_append (by simp)]; rfl
  · right
    constructor
    · have e' : t = (a ++ [')']) ++ ' ' :: kwConst := by rw [e]; simp
      rw [e']
      exact words_last (by decide) (by decide +kernel) (by decide +kernel)
    · rw [e]; simp

variable {m is : List (List Char)} {cs : List Bool} {S : List Scope} {D : List Decl}

/-- The file inside a declaration. -/
abbrev mid (m : List (List Char)) (cs : List Bool) (is : List (List Char)) (S : List Scope) (pl : Place) (p : List Char)
    (D : List Decl) : File := ⟨m, cs, is, ⟨S, pl, none, false, p, D⟩⟩

theorem runs_definition {sig : String} {L : List Line} (h : SigText sig.toList) (hL : BodyOk L) (ha : cs.all id = true) :
    Runs (st m cs is S D) (definition sig L).toList (st m cs is S (D ++ [⟨S, sig.toList, some (bodyText L)⟩])) := by
  have hs : Scans (definition sig L).toList ([sig.toList, ['{']] ++ seen 0 L ++ [['}']]) := by
    have h1 := Scans.proper h.decl.proper
    have h2 : Scans ['{', '\n'] [['{']] := Scans.of (by decide) (by decide)
    have h3 := lines_scan L 0 hL.lines
    have h4 : Scans ['}', '\n'] [['}']] := Scans.of (by decide) (by decide)
    have e1 : "\n{\n".toList = ['\n'] ++ ['{', '\n'] := by decide +kernel
    have := ((h1.append h2).append h3).append h4
    unfold definition
    rw [String.toList_append, String.toList_append, String.toList_append, e1, toList_close]
    simpa [List.append_assoc] using this
  refine ⟨_, hs, ?_⟩
  have hd := h.decl.noDirective []
  rw [List.append_nil] at hd
  have e1 : File.line (st m cs is S D) sig.toList = some (mid m cs is S .top (sig.toList ++ ['\n']) D) := by
    have ha' : (st m cs is S D).active = true := ha
    rw [line_code hd ha', List.foldlM_append, feed_start h.decl (st_top m cs is S D)]
    have hne := h.decl.nonempty
    simp [Reader.step, Reader.plain, hne]
  have htrim : trim (sig.toList ++ ['\n']) = sig.toList := by
    obtain ⟨c, r, e, hc, _⟩ := h.first
    exact trim_behind (by rw [e]; simp [hc]) h.last (by rw [e]; simp) (by decide)
  have e2 : File.line (mid m cs is S .top (sig.toList ++ ['\n']) D) ['{'] =
      some (mid m cs is S (.inBody sig.toList 0) ['\n'] D) := by
    have ha' : (mid m cs is S .top (sig.toList ++ ['\n']) D).active = true := ha
    rw [line_code (by decide) ha']
    simp [Reader.step, Reader.plain, h.opens, htrim]
  have e3 : (seen 0 L).foldlM File.line (mid m cs is S (.inBody sig.toList 0) ['\n'] D) =
      some (mid m cs is S (.inBody sig.toList 0) (['\n'] ++ joined (seen 0 L)) D) := by
    have := lines_feed (seen 0 L) (mid m cs is S (.inBody sig.toList 0) ['\n'] D) _ ha (seen_directive L 0 hL.lines)
      (seen_feed (.body sig.toList) S D L 0 0 ['\n'] hL.lines hL.closed)
    exact this
  have e4 : File.line (mid m cs is S (.inBody sig.toList 0) (['\n'] ++ joined (seen 0 L)) D) ['}'] =
      some (st m cs is S (D ++ [⟨S, sig.toList, some (bodyText L)⟩])) := by
    have ha' : (mid m cs is S (.inBody sig.toList 0) (['\n'] ++ joined (seen 0 L)) D).active = true := ha
    have hb : CFile.blank '\n' = true := by decide
    rw [line_code (by decide) ha']
    simp [Reader.step, Reader.plain, bodyText, hb]
  rw [List.foldlM_append, List.foldlM_append, List.foldlM_cons, e1]
  simp only [Option.bind_eq_bind, Option.bind_some]
  rw [foldlM_one, e2]
  simp only [Option.bind_some]
  rw [e3]
  simp only [Option.bind_some]
  rw [foldlM_one, e4]

/-- What the reader of entries sees of a definition. -/
theorem entry_definition {S : List Scope} {t : List Char} {L : List Line} (h : BodyOk L) :
    (Decl.entry ⟨S, t, some (bodyText L)⟩) = ⟨S, t, some (some (items L))⟩ := by
  simp [Decl.entry, h.code]

/-! ## Structures and initialisers -/

/-- The text in front of the brace of a structure or an initialiser. -/
structure PartText (t : List Char) : Prop where
  plain : ∀ c ∈ t, plainChar c = true
  first : ∃ c r, t = c :: r ∧ blank c = false ∧ c ≠ '#'
  opens : CFile.opens t = .part

theorem opens_part {t : List Char} (h1 : ∀ c ∈ t, plainChar c = true) (h2 : (words t).head? ≠ some kwNamespace) (h3 : ')' ∉ t) :
    opens t = .part := by
  unfold opens
  rw [if_neg (plain_noC h1), if_neg h2, if_neg]
  rintro (h | ⟨_, h⟩)
  · have hm := List.mem_of_getLast? h
    have : ∀ (u : List Char), ∀ x ∈ u.dropWhile blank, x ∈ u := fun u x hx => (List.dropWhile_suffix (p := blank)).subset hx
    unfold trim at hm
    rw [List.mem_reverse] at hm
    have h4 := this _ _ hm
    rw [List.mem_reverse] at h4
    exact h3 (this _ _ h4)
  · exact h3 h

theorem feed_text {S : List Scope} {D : List Decl} {t : List Char} (h1 : ∀ c ∈ t, plainChar c = true)
    (h2 : ∃ c r, t = c :: r ∧ blank c = false) :
    t.foldlM Reader.step ⟨S, .top, none, false, [], D⟩ = some ⟨S, .top, none, false, t, D⟩ := by
  obtain ⟨c, r, rfl, hc⟩ := h2
  have hne := plain_ne (h1 c (by simp))
  have := feed_proper r false S [c] D (plain_proper (fun x hx => h1 x (by simp [hx]))) (by simp)
  rw [List.foldlM_cons]
  have e : Reader.step ⟨S, .top, none, false, [], D⟩ c = some ⟨S, .top, none, false, [c], D⟩ := by
    simp [Reader.step, Reader.plain, hne, hc]
  rw [e]
  simpa using this

theorem step_part {S : List Scope} {D : List Decl} {t : List Char} (h : opens t = .part) :
    Reader.step ⟨S, .top, none, false, t, D⟩ '{' = some ⟨S, .inPart 0, none, false, t ++ ['{'], D⟩ := by
  simp [Reader.step, Reader.plain, h]

theorem step_endPart {S : List Scope} {D : List Decl} {t : List Char} :
    Reader.step ⟨S, .inPart 0, none, false, t, D⟩ '}' = some ⟨S, .top, none, false, t ++ ['}'], D⟩ := by
  simp [Reader.step, Reader.plain]

theorem plain_scan {t l : List Char} {d : List (List Char)} (h : ∀ c ∈ t, plainChar c = true) :
    t.foldl Scan.step ⟨.code, l, d⟩ = ⟨.code, l ++ t, d⟩ := scan_line t l d (fun c hc => plain_line (h c hc))

theorem plain_noescape {t : List Char} (h : ∀ c ∈ t, plainChar c = true) : '\\' ∉ t := fun hm => absurd (h _ hm) (by decide)

theorem bind_some_eq {α β : Type} (a : α) (f : α → Option β) : (some a >>= f) = f a := rfl

/-- What ends a declaration: the text behind a brace. -/
theorem feed_end {S : List Scope} {D : List Decl} {p back : List Char} (hp : ∃ c r, p = c :: r ∧ blank c = false)
    (hlast : ∀ x ∈ (p ++ back).getLast?, blank x = false) (hb : ∀ c ∈ back, plainChar c = true) :
    (back ++ [';'] ++ ['\n']).foldlM Reader.step ⟨S, .top, none, false, p, D⟩ =
      some ⟨S, .top, none, false, [], D ++ [⟨S, p ++ back, none⟩]⟩ := by
  obtain ⟨c, r, rfl, hc⟩ := hp
  have h1 := feed_proper back false S (c :: r) D (plain_proper hb) (by simp)
  simp only [Bool.false_eq_true, if_false] at h1
  have ht : trim (c :: r ++ back) = c :: r ++ back := trim_id (by simp [hc]) hlast
  have hbl : CFile.blank '\n' = true := by decide
  have ht' : trim (c :: (r ++ back)) = c :: (r ++ back) := by simpa using ht
  rw [List.append_assoc, List.foldlM_append, h1, bind_some_eq]
  simp [Reader.step, Reader.plain, ht', hbl]

theorem runs_struct {front back : List Char} {L : List Line} (h : PartText front) (hL : BodyOk L)
    (hb : ∀ c ∈ back, plainChar c = true) (hlast : ∀ x ∈ back.getLast?, blank x = false) (ha : cs.all id = true) :
    Runs (st m cs is S D) (front ++ ['{', '\n'] ++ (linesText 0 L).toList ++ (['}'] ++ back ++ [';', '\n']))
      (st m cs is S (D ++ [⟨S, front ++ ['{'] ++ bodyText L ++ ['}'] ++ back, none⟩])) := by
  obtain ⟨c, r, e0, hc, hh⟩ := h.first
  have hs : Scans (front ++ ['{', '\n'] ++ (linesText 0 L).toList ++ (['}'] ++ back ++ [';', '\n']))
      ([front ++ ['{']] ++ seen 0 L ++ [['}'] ++ back ++ [';']]) := by
    have h1 : Scans (front ++ ['{', '\n']) [front ++ ['{']] := by
      refine Scans.of (by simp [plain_noescape h.plain]) ?_
      rw [List.foldl_append, plain_scan h.plain]; rfl
    have h4 : Scans (['}'] ++ back ++ [';', '\n']) [['}'] ++ back ++ [';']] := by
      refine Scans.of (by simp [plain_noescape hb]) ?_
      rw [List.foldl_append, List.foldl_append]
      have : ['}'].foldl Scan.step ⟨.code, [], []⟩ = ⟨.code, ['}'], []⟩ := rfl
      rw [this, plain_scan hb]; rfl
    exact (h1.append (lines_scan L 0 hL.lines)).append h4
  refine ⟨_, hs, ?_⟩
  have hd : ((front ++ ['{']).dropWhile blank).head? ≠ some '#' := by
    rw [e0, List.cons_append, List.dropWhile_cons, hc]; simpa using hh
  have e1 : File.line (st m cs is S D) (front ++ ['{']) = some (mid m cs is S (.inPart 0) (front ++ ['{'] ++ ['\n']) D) := by
    have ha' : (st m cs is S D).active = true := ha
    rw [line_code hd ha', List.append_assoc, List.foldlM_append, feed_text h.plain ⟨c, r, e0, hc⟩, bind_some_eq]
    show Option.map _ (['{', '\n'].foldlM Reader.step _) = _
    rw [List.foldlM_cons, step_part h.opens, bind_some_eq, foldlM_one]
    simp [Reader.step, Reader.plain]
  have e3 : (seen 0 L).foldlM File.line (mid m cs is S (.inPart 0) (front ++ ['{'] ++ ['\n']) D) =
      some (mid m cs is S (.inPart 0) (front ++ ['{'] ++ ['\n'] ++ joined (seen 0 L)) D) := by
    have := lines_feed (seen 0 L) (mid m cs is S (.inPart 0) (front ++ ['{'] ++ ['\n']) D) _ ha (seen_directive L 0 hL.lines)
      (seen_feed .part S D L 0 0 (front ++ ['{'] ++ ['\n']) hL.lines hL.closed)
    exact this
  have e4 : File.line (mid m cs is S (.inPart 0) (front ++ ['{'] ++ ['\n'] ++ joined (seen 0 L)) D) (['}'] ++ back ++ [';']) =
      some (st m cs is S (D ++ [⟨S, front ++ ['{'] ++ bodyText L ++ ['}'] ++ back, none⟩])) := by
    have ha' : (mid m cs is S (.inPart 0) (front ++ ['{'] ++ ['\n'] ++ joined (seen 0 L)) D).active = true := ha
    rw [line_code (by simp [CFile.blank]) ha']
    have h5 := feed_end (S := S) (D := D) (p := front ++ ['{'] ++ ['\n'] ++ joined (seen 0 L) ++ ['}']) (back := back)
      ⟨c, r ++ ['{'] ++ ['\n'] ++ joined (seen 0 L) ++ ['}'], by rw [e0]; simp, hc⟩
      (by
        by_cases hbk : back = []
        · subst hbk
          intro x hx
          rw [List.append_nil, last_append (by simp)] at hx
          cases hx; decide
        · rw [last_append hbk]; exact hlast) hb
    show Option.map _ (List.foldlM _ _ (('}' :: (back ++ [';'])) ++ ['\n'])) = _
    rw [List.cons_append, List.foldlM_cons, step_endPart, bind_some_eq, h5]
    simp [bodyText]
  rw [List.foldlM_append, List.foldlM_append, foldlM_one, e1, bind_some_eq, e3, bind_some_eq, foldlM_one, e4]

/-- A declaration with an initialiser on one line. -/
theorem runs_init {front inner : List Char} (h : PartText front) (hi : Closed inner) (ha : cs.all id = true) :
    Runs (st m cs is S D) (front ++ ['{'] ++ inner ++ ['}', ';', '\n'])
      (st m cs is S (D ++ [⟨S, front ++ ['{'] ++ inner ++ ['}'], none⟩])) := by
  obtain ⟨c, r, e0, hc, hh⟩ := h.first
  have hs : Scans (front ++ ['{'] ++ inner ++ ['}', ';', '\n']) [front ++ ['{'] ++ inner ++ ['}', ';']] := by
    refine Scans.of (by simp [plain_noescape h.plain, hi.noescape]) ?_
    rw [List.foldl_append, List.foldl_append, List.foldl_append, plain_scan h.plain]
    have : ['{'].foldl Scan.step ⟨.code, [] ++ front, []⟩ = ⟨.code, [] ++ front ++ ['{'], []⟩ := rfl
    rw [this, hi.scan]
    simp [Scan.step, Scan.inCode, Scan.endLine]
  refine ⟨_, hs, ?_⟩
  have hd : ((front ++ ['{'] ++ inner ++ ['}', ';']).dropWhile blank).head? ≠ some '#' := by
    rw [e0, List.cons_append, List.cons_append, List.cons_append, List.dropWhile_cons, hc]; simpa using hh
  have ha' : (st m cs is S D).active = true := ha
  have h5 := feed_end (S := S) (D := D) (p := front ++ ['{'] ++ inner ++ ['}']) (back := [])
    ⟨c, r ++ ['{'] ++ inner ++ ['}'], by rw [e0]; simp, hc⟩
    (by intro x hx; rw [List.append_nil, last_append (by simp)] at hx; cases hx; decide) (by simp)
  have h6 := hi.feed .part S 0 (front ++ ['{']) D
  have e : front ++ ['{'] ++ inner ++ ['}', ';'] ++ ['\n'] = front ++ ('{' :: (inner ++ ('}' :: ([] ++ [';'] ++ ['\n'])))) := by simp
  rw [foldlM_one, line_code hd ha', e, List.foldlM_append, feed_text h.plain ⟨c, r, e0, hc⟩, bind_some_eq,
    List.foldlM_cons, step_part h.opens, bind_some_eq, List.foldlM_append]
  simp only [Inside.place] at h6
  rw [h6, bind_some_eq, List.foldlM_cons, step_endPart, bind_some_eq, h5]
  simp

/-! ## What the reader of entries sees -/

theorem takeWhile_until {P : Char → Bool} {a : List Char} {c : Char} (r : List Char) (ha : ∀ x ∈ a, P x = true) (hc : P c = false) :
    (a ++ c :: r).takeWhile P = a := by
  rw [List.takeWhile_append_of_pos ha]; simp [hc]

theorem dropWhile_until {P : Char → Bool} {a : List Char} {c : Char} (r : List Char) (ha : ∀ x ∈ a, P x = true) (hc : P c = false) :
    (a ++ c :: r).dropWhile P = c :: r := by
  rw [List.dropWhile_append_of_pos ha]; simp [hc]

theorem entry_struct {S : List Scope} {front back w r : List Char} {b : Char} {L : List Line} (hL : BodyOk L)
    (hf : ∀ c ∈ front, plainChar c = true) (hb : ∀ c ∈ back, plainChar c = true)
    (hw : front = w ++ b :: r) (hid : ∀ c ∈ w, identChar c = true) (hbl : identChar b = false) (hin : w ∈ structWords) :
    Decl.entry ⟨S, front ++ ['{'] ++ bodyText L ++ ['}'] ++ back, none⟩ =
      ⟨S, front ++ '{' :: '}' :: back, some (some (items L))⟩ := by
  have e : front ++ ['{'] ++ bodyText L ++ ['}'] ++ back = front ++ '{' :: (bodyText L ++ '}' :: back) := by simp
  have hP : ∀ x ∈ front, (x != '{') = true := fun x hx => by simpa using (plain_ne (hf x hx)).2.2.2.2.2.1
  have hQ : ∀ x ∈ back.reverse, (x != '}') = true := fun x hx => by
    simpa using (plain_ne (hb x (List.mem_reverse.mp hx))).2.2.2.2.2.2.1
  have hword : (front ++ '{' :: (bodyText L ++ '}' :: back)).takeWhile identChar = w := by
    rw [hw, List.append_assoc]
    exact takeWhile_until _ hid hbl
  have hrev : ('{' :: (bodyText L ++ '}' :: back)).reverse = back.reverse ++ '}' :: (bodyText L).reverse ++ ['{'] := by simp
  have hrev2 : ('{' :: (bodyText L ++ '}' :: back)).reverse = back.reverse ++ '}' :: ((bodyText L).reverse ++ ['{']) := by simp
  have hin' : structWords.contains w = true := by simpa using hin
  unfold Decl.entry
  simp only
  rw [e, hword, if_pos ⟨by simp, hin'⟩]
  rw [takeWhile_until _ hP (by decide), dropWhile_until _ hP (by decide), hrev2, takeWhile_until _ hQ (by decide),
    dropWhile_until _ hQ (by decide)]
  simp [hL.code]

theorem entry_plain {S : List Scope} {t : List Char} (h : '{' ∉ t ∨ structWords.contains (t.takeWhile identChar) = false) :
    Decl.entry ⟨S, t, none⟩ = ⟨S, t, none⟩ := by
  unfold Decl.entry
  rw [if_neg]
  rintro ⟨h1, h2⟩
  rcases h with h | h
  · exact h h1
  · rw [h] at h2; cases h2

end EasyMock.CFile
