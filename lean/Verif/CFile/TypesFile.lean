import Verif.CFile.TypesItems

/-! # CFile: the declarations of types with their guards -/

namespace EasyMock.CFile.TypeDecl

open EasyMock.Types (Ty Fields Params Kw)
open EasyMock.CDecl (kwWord)
open EasyMock.CFile.Txt (CName)
open EasyMock.Emit (tagOf Mirror Faithful visible valuesOf enumName)

variable {H : Type} (e : Emit.Env H) {num : Ty → String → Nat}
variable {m is : List (List Char)} {cs : List Bool} {S : List Scope} {D : List Decl}

/-! ## Bodies -/

/-- A text which is one declaration, with comments. -/
structure Body (X T : List Char) : Prop where
  runs : ∀ (m : List (List Char)) (cs : List Bool) (is : List (List Char)) (S : List Scope) (D : List Decl), cs.all id = true →
    Runs (st m cs is S D) X (st m cs is S (D ++ [⟨S, T, none⟩]))
  quiet : Quiet X

theorem Block.body {X T : List Char} (h : Block X T) : Body X T :=
  ⟨fun m cs is S D ha => code_runs (f := st m cs is S D) h.text (Or.inr h.last) ha (h.lists S D), code_quiet h.text (Or.inr h.last)⟩

/-- Blank lines and comments behind a declaration. -/
theorem Body.behind {X T c : List Char} {ls : List (List Char)} (h : Body X T) (hs : Scans c ls) (hb : ∀ l ∈ ls, ∀ x ∈ l, blank x = true) :
    Body (X ++ c) T :=
  ⟨fun m cs is S D ha => (h.runs m cs is S D ha).append (Runs.blank hs (st_top m cs is S _) hb), h.quiet.append (Quiet.blank hs hb)⟩

/-- Blank lines and comments in front of a declaration. -/
theorem Body.front {X T c : List Char} {ls : List (List Char)} (h : Body X T) (hs : Scans c ls) (hb : ∀ l ∈ ls, ∀ x ∈ l, blank x = true) :
    Body (c ++ X) T :=
  ⟨fun m cs is S D ha => (Runs.blank hs (st_top m cs is S D) hb).append (h.runs m cs is S D ha), (Quiet.blank hs hb).append h.quiet⟩

/-! ### Tags -/

theorem fwd_scans : Scans " //GENERATED_TYPE_FORWARD_DECLARATION_SECTION\n".toList [[' ']] := Scans.of (by decide +kernel) (by decide +kernel)

theorem forward_body {kw : Kw} {n : String} (hn : CName n) : ∃ T, Body (itemBody e num (.fwd kw n)).toList T ∧ Forward T kw n := by
  have hk : CName (kwWord kw) := CName.of (Txt.kw_text kw).1 (Txt.kw_text kw).2
  have hT : (kw.str ++ " " ++ n).toList = (kwWord kw).toList ++ ' ' :: n.toList := by
    rw [CDecl.kw_text, String.toList_append, String.toList_append]; simp
  refine ⟨(kw.str ++ " " ++ n).toList, ?_, ?_⟩
  · have hX : (itemBody e num (.fwd kw n)).toList = ((kw.str ++ " " ++ n).toList ++ [';', '\n']) ++
        " //GENERATED_TYPE_FORWARD_DECLARATION_SECTION\n".toList := by
      have h2 : ";\n".toList = [';', '\n'] := by decide +kernel
      show (recordText num "" (.mk kw n false .nil) ++ " //GENERATED_TYPE_FORWARD_DECLARATION_SECTION\n").toList = _
      rw [recordText, if_neg (by decide), if_pos (show "".isEmpty = true from rfl), String.append_empty, String.append_empty, String.toList_append,
        String.toList_append (s := kw.str ++ " " ++ n), h2]
    rw [hX]
    refine Body.behind (Block.body (Piece.block (piece_decl ⟨?_, ?_⟩ ?_))) fwd_scans (fun _ hl => one_blank hl)
    · rw [hT]
      intro c hc
      rcases List.mem_append.1 hc with hc | hc
      · exact cname_ok hk c hc
      · rcases List.mem_cons.1 hc with rfl | hc
        · decide
        · exact cname_ok hn c hc
    · rw [hT]
      cases hl : (kwWord kw).toList with
      | nil => exact absurd hl (cname_ne hk)
      | cons c r => exact ⟨c, _, rfl, cname_nonblank hk c (by rw [hl]; simp)⟩
    · rw [String.toList_append, last_append (cname_ne hn)]
      exact cname_last hn
  · unfold Forward
    rw [hT, words, words_word _ [] _ ' ' (cname_nonblank hk) (by decide), List.nil_append, if_neg (cname_ne hk)]
    have := words_single (cname_ne hn) (cname_nonblank hn)
    unfold words at this
    rw [this]
    rfl

/-! ### Enumerations -/

theorem value_text (v : Nat × String) : (enumeratorText v).toList = [' ', ' '] ++ v.2.toList ++ [' ', '=', ' '] ++ (toString v.1).toList ++ [',', '\n'] := by
  rw [enumeratorText]
  simp only [String.toList_append]
  rw [show "  ".toList = [' ', ' '] by decide +kernel, show " = ".toList = [' ', '=', ' '] by decide +kernel, show ",\n".toList = [',', '\n'] by decide +kernel]

theorem cut_piece : ∀ (w acc rest : List Char), (∀ c ∈ w, c ≠ ',') → cutFrom acc (w ++ ',' :: rest) = (acc ++ w) :: cutFrom [] rest
  | [], acc, rest, _ => by
    rw [List.nil_append, cutFrom, if_pos rfl, List.append_nil]
  | c :: w, acc, rest, h => by
    rw [List.cons_append, cutFrom, if_neg (h c (by simp)), cut_piece w _ rest (fun x hx => h x (by simp [hx]))]
    simp

theorem ident_comma {n : List Char} (h : Ident n) : ∀ c ∈ n, c ≠ ',' := by
  rintro c hc rfl
  exact absurd (h.2 _ hc) (by decide)

theorem nat_ident (k : Nat) : Ident (toString k).toList :=
  ⟨by
    have e : (toString k).toList = Nat.toDigits 10 k := by simp [toString, Nat.repr]
    rw [e]
    exact Nat.toDigits_ne_nil, fun c hc => (nat_ok k c hc).2.2⟩

theorem value_words {n k : List Char} (hn : Ident n) (hk : Ident k) :
    words ('\n' :: ' ' :: ' ' :: (n ++ ' ' :: ([('=' : Char)] ++ ' ' :: k))) = [n, ['='], k] := by
  have b : ∀ (c : Char) (l : List Char), blank c = true → words (c :: l) = words l := by
    intro c l hc
    simp only [words, wordsFrom, hc, if_true]
    rfl
  rw [b _ _ (by decide), b _ _ (by decide), b _ _ (by decide)]
  unfold words
  rw [words_word n [] _ ' ' (fun c hc => CFile.ident_blank (hn.2 c hc)) (by decide), List.nil_append, if_neg hn.1,
    words_word ['='] [] _ ' ' (by decide) (by decide), List.nil_append, if_neg (by simp)]
  have := words_single hk.1 (fun c hc => CFile.ident_blank (hk.2 c hc))
  unfold words at this
  rw [this]
  rfl

theorem values_cut : ∀ (vs : List (Nat × String)), (∀ v ∈ vs, Ident v.2.toList) →
    (cutFrom ['\n'] (String.join (vs.map enumeratorText)).toList).map words =
      vs.map (fun v => [v.2.toList, "=".toList, (toString v.1).toList]) ++ [[]]
  | [], _ => by decide +kernel
  | v :: vs, h => by
    have hv := h v (by simp)
    have hk := nat_ident v.1
    rw [List.map_cons, join_cons, String.toList_append, value_text]
    have e1 : [' ', ' '] ++ v.2.toList ++ [' ', '=', ' '] ++ (toString v.1).toList ++ [',', '\n'] ++ (String.join (vs.map enumeratorText)).toList =
        (' ' :: ' ' :: (v.2.toList ++ ' ' :: (['='] ++ ' ' :: (toString v.1).toList))) ++ ',' :: '\n' :: (String.join (vs.map enumeratorText)).toList := by
      simp
    rw [e1, cut_piece]
    · have e2 : cutFrom [] ('\n' :: (String.join (vs.map enumeratorText)).toList) = cutFrom ['\n'] (String.join (vs.map enumeratorText)).toList := by
        rw [cutFrom, if_neg (by decide)]; rfl
      have e3 : "=".toList = ['='] := by decide +kernel
      rw [e2, List.map_cons, values_cut vs (fun x hx => h x (by simp [hx])), List.map_cons, List.cons_append]
      refine congrArg (fun x => x :: _) ?_
      rw [e3]
      exact value_words hv hk
    · intro c hc
      simp only [List.mem_cons, List.mem_append, List.not_mem_nil, or_false] at hc
      rcases hc with rfl | rfl | hc | rfl | rfl | rfl | hc
      · decide
      · decide
      · exact ident_comma hv c hc
      · decide
      · decide
      · decide
      · exact ident_comma hk c hc

theorem ident_okc {n : List Char} (h : Ident n) : ∀ c ∈ n, c ≠ '"' ∧ c ≠ '\'' ∧ c ≠ '{' ∧ c ≠ '}' ∧ textChar c = true := by
  intro c hc
  have h' := h.2 c hc
  refine ⟨?_, ?_, ?_, ?_, ?_⟩
  · rintro rfl; exact absurd h' (by decide)
  · rintro rfl; exact absurd h' (by decide)
  · rintro rfl; exact absurd h' (by decide)
  · rintro rfl; exact absurd h' (by decide)
  · simp only [textChar, Bool.not_eq_true', Bool.or_eq_false_iff, beq_eq_false_iff_ne]
    refine ⟨⟨⟨⟨?_, ?_⟩, ?_⟩, ?_⟩, ?_⟩ <;> rintro rfl <;> exact absurd h' (by decide)

theorem values_chars : ∀ (vs : List (Nat × String)), (∀ v ∈ vs, Ident v.2.toList) → ∀ c ∈ (String.join (vs.map enumeratorText)).toList,
    c ≠ '"' ∧ c ≠ '\'' ∧ c ≠ '{' ∧ c ≠ '}' ∧ textChar c = true
  | [], _ => by decide +kernel
  | v :: vs, h => by
    rw [List.map_cons, join_cons, String.toList_append, value_text]
    intro c hc
    rcases List.mem_append.1 hc with hc | hc
    · simp only [List.mem_append] at hc
      rcases hc with (((hc | hc) | hc) | hc) | hc
      · have : ∀ c ∈ [' ', ' '], c ≠ '"' ∧ c ≠ '\'' ∧ c ≠ '{' ∧ c ≠ '}' ∧ textChar c = true := by decide
        exact this c hc
      · exact ident_okc (h v (by simp)) c hc
      · have : ∀ c ∈ [' ', '=', ' '], c ≠ '"' ∧ c ≠ '\'' ∧ c ≠ '{' ∧ c ≠ '}' ∧ textChar c = true := by decide
        exact this c hc
      · exact ident_okc (nat_ident v.1) c hc
      · have : ∀ c ∈ [',', '\n'], c ≠ '"' ∧ c ≠ '\'' ∧ c ≠ '{' ∧ c ≠ '}' ∧ textChar c = true := by decide
        exact this c hc
    · exact values_chars vs (fun x hx => h x (by simp [hx])) c hc

theorem enum_body {n : String} {vs : List (Nat × String)} (hn : CName n) (hv : ∀ v ∈ vs, Ident v.2.toList) :
    ∃ T, Body (itemBody e num (.en n vs)).toList T ∧ Enumeration T n vs := by
  have hc := values_chars vs hv
  obtain ⟨hh, hw⟩ := word_head (k := "enum") (m := n) ⟨CDecl.word_enum, by decide +kernel, by decide +kernel⟩ (by decide +kernel) (by decide +kernel) (Or.inr hn)
  rw [if_neg hn.word.1] at hw
  generalize hJ : (String.join (vs.map enumeratorText)).toList = J at hc
  have hJb : Bal ('\n' :: J) := Bal.chars (by
    intro c h
    rcases List.mem_cons.1 h with rfl | h
    · decide
    · exact ⟨(hc c h).1, (hc c h).2.1, (hc c h).2.2.1, (hc c h).2.2.2.1⟩)
  generalize hH : ("enum" ++ " " ++ n ++ "\n").toList = head at hh hw
  have hX : (itemBody e num (.en n vs)).toList = (head ++ '{' :: (('\n' :: J) ++ '}' :: [])) ++ [';', '\n'] := by
    show ("enum " ++ n ++ "\n{\n" ++ String.join (vs.map enumeratorText) ++ "};\n").toList = _
    rw [← hH, ← hJ, show "enum " = "enum" ++ " " by decide +kernel]
    simp only [String.toList_append]
    rw [show "\n{\n".toList = ['\n', '{', '\n'] by decide +kernel, show "\n".toList = ['\n'] by decide +kernel, show "};\n".toList = ['}', ';', '\n'] by decide +kernel]
    simp only [List.append_assoc, List.cons_append, List.nil_append]
  refine ⟨head ++ '{' :: (('\n' :: J) ++ '}' :: []), ?_, head, '\n' :: J, [], ⟨rfl, ?_, by simp⟩, hw, rfl, ?_⟩
  · rw [hX]
    refine Block.body (Piece.block ⟨Lists.braces hh hJb (by simp) (by simp), ?_, ?_⟩)
    · exact (Bal.ok hh.ok).append hJb.braces
    · intro c h
      rcases List.mem_append.1 h with h | h
      · exact ok_text (hh.ok c h)
      · simp only [List.mem_cons, List.mem_append, List.not_mem_nil, or_false] at h
        rcases h with rfl | (rfl | h) | rfl
        · decide
        · decide
        · exact (hc c h).2.2.2.2
        · decide
  · exact fun h => absurd (hh.ok _ h) (by decide)
  · rw [cutFrom, if_neg (by decide), List.nil_append, ← hJ]
    exact values_cut vs hv

/-! ### Composite types -/

theorem section_scans : Scans "//GENERATED_TYPE_SECTION\n".toList [[]] := Scans.of (by decide +kernel) (by decide +kernel)

theorem comp_body {g : String} {c : Emit.Comp} (hf : Faithful e c) (hn : CName (tagOf e c.ty))
    (hfs : ∀ i kw n fs emb fwd ms, c.ty = .comp i kw n fs emb fwd ms → FieldsOk e fs) :
    ∃ T, Body (itemBody e num (.comp g c.decl)).toList T ∧ Record e T c.ty := by
  obtain ⟨t, gd, d⟩ := c
  obtain ⟨kw', n', body, ds⟩ := d
  cases t with
  | comp i kw n fs emb fwd ms =>
    obtain ⟨-, rfl, rfl, rfl, hm⟩ := hf
    obtain ⟨ts, h1, h2, h3, h4⟩ := members_read e num fs ds hm (hfs _ _ _ _ _ _ _ rfl)
    obtain ⟨T, head, body, tail, eT, p, hB, hw, ht, hH⟩ := record_piece (num := num) (kw := kw') (field := "") (Or.inr hn)
      (by decide +kernel) (by decide +kernel) (by decide +kernel) h1 h2 h3
    refine ⟨T, ?_, head, body, tail, ts, hB, ?_, by rw [ht]; rfl, hH, h4⟩
    · show Body ("//GENERATED_TYPE_SECTION\n" ++ recordText num "" _ ++ "\n").toList T
      rw [String.toList_append, String.toList_append]
      refine Body.behind (Body.front ?_ section_scans (by simp)) newline_scans (by simp)
      rw [eT]
      exact p.block.body
    · rw [hw, if_neg hn.word.1]
  | ctype => exact hf.elim
  | ptr => exact hf.elim
  | ref => exact hf.elim
  | const => exact hf.elim
  | tdef => exact hf.elim
  | enum => exact hf.elim
  | incomplete => exact hf.elim
  | fn => exact hf.elim

/-! ## Guards -/

theorem ident_cons {n : List Char} (h : Ident n) : ∃ x xs, n = x :: xs ∧ blank x = false := by
  cases n with
  | nil => exact absurd rfl h.1
  | cons x xs => exact ⟨x, xs, rfl, CFile.ident_blank (h.2 x (by simp))⟩

theorem ident_line {n : List Char} (h : Ident n) : ∀ c ∈ n, lineChar c = true := fun c hc => plain_line (ident_plain (h.2 c hc))

theorem take_ident {n t : List Char} (h : Ident n) (ht : ∀ x ∈ t.head?, identChar x = false) : (n ++ t).takeWhile identChar = n := by
  have key : ∀ (l : List Char), (∀ c ∈ l, identChar c = true) → (l ++ t).takeWhile identChar = l := by
    intro l
    induction l with
    | nil =>
      intro _
      cases t with
      | nil => rfl
      | cons x t => rw [List.nil_append, List.takeWhile_cons, ht x rfl]; rfl
    | cons c l ih =>
      intro hl
      rw [List.cons_append, List.takeWhile_cons, hl c (by simp), ih (fun x hx => hl x (by simp [hx]))]
      rfl
  exact key n h.2

theorem runs_guardIf {w : String} (h : Ident w.toList) :
    Runs (st m cs is S D) ("#ifndef " ++ w ++ "\n").toList (st m ((!m.contains w.toList) :: cs) is S D) := by
  obtain ⟨x, xs, hw, hx⟩ := ident_cons h
  have e1 : ("#ifndef " ++ w ++ "\n").toList = '#' :: (kwIfndef ++ ' ' :: x :: xs) ++ ['\n'] := by
    rw [String.toList_append, String.toList_append, ← hw, show "#ifndef ".toList = '#' :: (kwIfndef ++ [' ']) by decide +kernel,
      show "\n".toList = ['\n'] by decide +kernel]
    simp
  rw [e1]
  refine runs_directive (Scans.line ?_) dir_words.1 ⟨'i', kwIfndef.tail, by decide +kernel⟩ hx ?_
  · intro c hc
    rcases List.mem_cons.1 hc with rfl | hc
    · decide
    · rcases List.mem_append.1 hc with hc | hc
      · exact plain_line (ident_plain (dir_words.1 c hc))
      · rcases List.mem_cons.1 hc with rfl | hc
        · decide
        · exact ident_line h c (by rw [hw]; exact hc)
  · rw [directive_ifndef, ← hw]
    have := take_ident (t := []) h (by simp)
    rw [List.append_nil] at this
    rw [this]

/-- The name of a macro and its text. -/
theorem runs_macro {w : String} {t : List Char} (h : Ident w.toList) (ht : ∀ x ∈ t.head?, identChar x = false) (hp : properFrom false t = true) :
    Runs (st m cs is S D) ("#define ".toList ++ w.toList ++ t ++ "\n".toList) (st (if cs.all id then w.toList :: m else m) cs is S D) := by
  obtain ⟨x, xs, hw, hx⟩ := ident_cons h
  have e1 : "#define ".toList ++ w.toList ++ t ++ "\n".toList = '#' :: (kwDefine ++ ' ' :: x :: (xs ++ t)) ++ ['\n'] := by
    rw [hw, show "#define ".toList = '#' :: (kwDefine ++ [' ']) by decide +kernel, show "\n".toList = ['\n'] by decide +kernel]
    simp
  rw [e1]
  refine runs_directive (Scans.proper ?_) dir_words.2.2.2.1 ⟨'d', kwDefine.tail, by decide +kernel⟩ hx ?_
  · have e2 : '#' :: (kwDefine ++ ' ' :: x :: (xs ++ t)) = ('#' :: (kwDefine ++ [' '])) ++ (w.toList ++ t) := by rw [hw]; simp
    rw [e2]
    refine proper_append (by decide +kernel) (proper_append (plain_proper (fun c hc => ident_plain (h.2 c hc))) hp)
  · rw [directive_define, show x :: (xs ++ t) = w.toList ++ t by rw [hw]; rfl, take_ident h ht]
    by_cases ha : cs.all id = true
    · rw [if_pos ha, if_pos (show (st m cs is S D).active = true from ha)]
    · rw [if_neg ha, if_neg (show ¬ (st m cs is S D).active = true from ha)]

theorem endif_line : "#endif ".toList = '#' :: (kwEndif ++ [' ']) := by decide +kernel

theorem runs_guardEnd {b : Bool} {k : String} (hk : '\n' ∉ k.toList) (he : '\\' ∉ k.toList) :
    Runs (st m (b :: cs) is S D) ("#endif //" ++ k ++ "\n").toList (st m cs is S D) := by
  have e1 : ("#endif //" ++ k ++ "\n").toList = "#endif ".toList ++ '/' :: '/' :: k.toList ++ ['\n'] := by
    rw [String.toList_append, String.toList_append, show "#endif //".toList = "#endif ".toList ++ ['/', '/'] by decide +kernel,
      show "\n".toList = ['\n'] by decide +kernel]
    simp
  rw [e1]
  refine ⟨["#endif ".toList], Scans.toEnd (by decide +kernel) hk he, ?_⟩
  have h1 : ("#endif ".toList).dropWhile blank = '#' :: (kwEndif ++ [' ']) := by decide +kernel
  have h2 : ((kwEndif ++ [' ']).dropWhile blank).takeWhile identChar = kwEndif := by decide +kernel
  have h3 : (((kwEndif ++ [' ']).dropWhile blank).dropWhile identChar).dropWhile blank = [] := by decide +kernel
  have h4 : kwEndif ≠ kwIfndef := by decide +kernel
  have h5 : kwEndif ≠ kwIfdef := by decide +kernel
  have : File.line (st m (b :: cs) is S D) "#endif ".toList = some (st m cs is S D) := by
    unfold File.line
    rw [h1]
    simp only [h2, h3]
    simp [File.directive, h4, h5]
  rw [List.foldlM_cons, this]
  rfl

/-- A declaration behind its guard. -/
theorem runs_item {x : Emit.Item} {T : List Char} (hm : Ident x.macro.toList) (hb : Body (itemBody e num x).toList T) (ha : cs.all id = true) :
    Runs (st m cs is S D) (itemText e num x).toList
      (if m.contains x.macro.toList then st m cs is S D else st (x.macro.toList :: m) cs is S (D ++ [⟨S, T, none⟩])) := by
  have hc : '\n' ∉ x.macro.toList ∧ '\\' ∉ x.macro.toList :=
    ⟨fun h => absurd (hm.2 _ h) (by decide), fun h => absurd (hm.2 _ h) (by decide)⟩
  have hd : ∀ (cs : List Bool), Runs (st m cs is S D) ("#define " ++ x.macro ++ "\n").toList
      (st (if cs.all id then x.macro.toList :: m else m) cs is S D) := by
    intro cs
    have := runs_macro (m := m) (cs := cs) (is := is) (S := S) (D := D) (t := []) hm (by simp) rfl
    rw [List.append_nil] at this
    rw [String.toList_append, String.toList_append]
    exact this
  have h1 := runs_guardIf (m := m) (cs := cs) (is := is) (S := S) (D := D) hm
  unfold itemText
  cases hd' : m.contains x.macro.toList with
  | true =>
    rw [hd'] at h1
    have h2 := hd (false :: cs)
    simp only [List.all_cons, id, Bool.false_and, Bool.false_eq_true, if_false] at h2
    exact runs_str (runs_str (runs_str h1 h2) (hb.quiet.runs (f := st m (false :: cs) is S D) rfl)) (runs_guardEnd hc.1 hc.2)
  | false =>
    rw [hd'] at h1
    have ha' : (true :: cs).all id = true := by simpa using ha
    have h2 := hd (true :: cs)
    rw [if_pos ha'] at h2
    exact runs_str (runs_str (runs_str h1 h2) (hb.runs _ _ _ _ _ ha')) (runs_guardEnd hc.1 hc.2)

theorem contains_map (defs : List String) (w : String) : (defs.map String.toList).contains w.toList = defs.contains w := by
  rw [Bool.eq_iff_iff, List.contains_iff_mem, List.contains_iff_mem, List.mem_map]
  constructor
  · rintro ⟨y, hy, hy'⟩
    rw [← String.toList_inj.1 hy']; exact hy
  · exact fun hy => ⟨_, hy, rfl⟩

/-- Declarations behind their guards. -/
theorem runs_items {says : List Char → Emit.Item → Prop} (ha : cs.all id = true) : ∀ (xs : List Emit.Item) (defs : List String) (D : List Decl),
    (∀ x ∈ xs, Ident x.macro.toList ∧ ∃ T, Body (itemBody e num x).toList T ∧ says T x) →
    ∃ ts, Runs (st (defs.map String.toList) cs is S D) (String.join (xs.map (itemText e num))).toList
        (st ((((visible defs xs).map Emit.Item.macro).reverse ++ defs).map String.toList) cs is S (D ++ ts.map (fun t => ⟨S, t, none⟩))) ∧
      Each says ts (visible defs xs)
  | [], defs, D, _ => ⟨[], by simpa [visible, String.join] using runs_empty _, by rw [visible]; exact .nil⟩
  | x :: xs, defs, D, h => by
    obtain ⟨hm, T, hb, hs⟩ := h x (by simp)
    have h1 := runs_item (m := defs.map String.toList) (is := is) (S := S) (D := D) e hm hb ha
    rw [contains_map] at h1
    rw [visible]
    by_cases hd : defs.contains x.macro = true
    · rw [if_pos hd] at h1
      rw [if_pos hd]
      obtain ⟨ts, h2, h3⟩ := runs_items ha xs defs D (fun y hy => h y (by simp [hy]))
      refine ⟨ts, ?_, h3⟩
      rw [List.map_cons, join_cons]
      exact runs_str h1 h2
    · rw [if_neg hd] at h1
      rw [if_neg hd]
      obtain ⟨ts, h2, h3⟩ := runs_items ha xs (x.macro :: defs) (D ++ [⟨S, T, none⟩]) (fun y hy => h y (by simp [hy]))
      refine ⟨T :: ts, ?_, .cons hs h3⟩
      rw [List.map_cons, join_cons]
      have := runs_str h1 h2
      simp only [List.map_cons, List.reverse_cons, List.append_assoc, List.cons_append, List.nil_append] at this ⊢
      exact this

/-! ## Macros -/

/-- A macro whose text can be read: its parts have no ends of lines, no comments and only closed strings. -/
structure MacroOk (x : Gen.Macro) : Prop where
  id : Ident x.id.toList
  origin : '\n' ∉ x.origin.toList ∧ '\\' ∉ x.origin.toList
  params : ∀ p ∈ x.params, properFrom false p.toList = true
  definition : properFrom false x.definition.toList = true

/-- The text behind the name of a macro. -/
def macroTail (x : Gen.Macro) : String :=
  (if x.params.isEmpty then "" else "(" ++ ",".intercalate x.params ++ ")" ++ " ") ++ (if x.definition.isEmpty then "" else " " ++ x.definition)

theorem proper_list : ∀ (l : List String), (∀ p ∈ l, properFrom false p.toList = true) → properFrom false (",".intercalate l).toList = true
  | [], _ => by decide +kernel
  | [p], h => by
    rw [show ",".intercalate [p] = p by simp]
    exact h p (by simp)
  | p :: q :: l, h => by
    rw [String.intercalate_cons_cons, String.toList_append, String.toList_append]
    exact proper_append (proper_append (h p (by simp)) (by decide +kernel)) (proper_list (q :: l) (fun x hx => h x (by simp [hx])))

theorem tail_proper {x : Gen.Macro} (h : MacroOk x) : properFrom false (macroTail x).toList = true ∧
    ∀ c ∈ (macroTail x).toList.head?, identChar c = false := by
  have h1 : properFrom false (if x.definition.isEmpty then "" else " " ++ x.definition).toList = true ∧
      ∀ c ∈ (if x.definition.isEmpty then "" else " " ++ x.definition).toList.head?, identChar c = false := by
    split
    · exact ⟨by decide +kernel, by decide +kernel⟩
    · rw [String.toList_append, show " ".toList = [' '] by decide +kernel]
      refine ⟨proper_append (by decide +kernel) h.definition, ?_⟩
      rw [List.cons_append, List.head?_cons]
      intro c hc
      rw [← Option.some.inj hc]; decide
  unfold macroTail
  rw [String.toList_append]
  by_cases hp : x.params.isEmpty = true
  · rw [if_pos hp, show "".toList = [] by decide +kernel, List.nil_append]
    exact h1
  · rw [if_neg hp]
    refine ⟨proper_append ?_ h1.1, ?_⟩
    · simp only [String.toList_append]
      exact proper_append (proper_append (proper_append (by decide +kernel) (proper_list _ h.params)) (by decide +kernel)) (by decide +kernel)
    · simp only [String.toList_append]
      rw [show "(".toList = ['('] by decide +kernel]
      simp only [List.cons_append, List.head?_cons]
      intro c hc
      rw [← Option.some.inj hc]; decide

theorem macro_text (x : Gen.Macro) : Gen.macroText x = ("#ifndef " ++ x.id ++ "\n") ++ ("// from: " ++ x.origin ++ "\n") ++
    ("#define " ++ x.id ++ macroTail x ++ "\n") ++ ("#endif //" ++ ("macro " ++ x.id) ++ "\n") ++ "\n" := by
  unfold Gen.macroText macroTail
  rw [show "\n// from: " = "\n" ++ "// from: " by decide +kernel, show "\n#define " = "\n" ++ "#define " by decide +kernel,
    show "\n#endif //macro " = "\n" ++ ("#endif //" ++ "macro ") by decide +kernel, show "\n\n" = "\n" ++ "\n" by decide +kernel]
  simp only [String.append_assoc]

theorem from_scans {o : String} (h1 : '\n' ∉ o.toList) (h2 : '\\' ∉ o.toList) : Scans ("// from: " ++ o ++ "\n").toList [[]] := by
  have e1 : ("// from: " ++ o ++ "\n").toList = [] ++ '/' :: '/' :: (" from: ".toList ++ o.toList) ++ ['\n'] := by
    rw [String.toList_append, String.toList_append, show "// from: ".toList = '/' :: '/' :: " from: ".toList by decide +kernel,
      show "\n".toList = ['\n'] by decide +kernel]
    simp only [List.cons_append, List.nil_append]
  rw [e1]
  refine Scans.toEnd (by simp) ?_ ?_
  · rw [List.mem_append, not_or]
    exact ⟨by decide +kernel, h1⟩
  · rw [List.mem_append, not_or]
    exact ⟨by decide +kernel, h2⟩

theorem runs_macroText {x : Gen.Macro} (h : MacroOk x) (ha : cs.all id = true) :
    Runs (st m cs is S D) (Gen.macroText x).toList (st (if m.contains x.id.toList then m else x.id.toList :: m) cs is S D) := by
  obtain ⟨t1, t2⟩ := tail_proper h
  have hc : '\n' ∉ ("macro " ++ x.id).toList ∧ '\\' ∉ ("macro " ++ x.id).toList := by
    rw [String.toList_append, List.mem_append, List.mem_append, not_or, not_or]
    exact ⟨⟨by decide +kernel, fun hc => absurd (h.id.2 _ hc) (by decide)⟩, by decide +kernel, fun hc => absurd (h.id.2 _ hc) (by decide)⟩
  have h1 := runs_guardIf (m := m) (cs := cs) (is := is) (S := S) (D := D) h.id
  have h2 : ∀ cs', Runs (st m cs' is S D) ("// from: " ++ x.origin ++ "\n").toList (st m cs' is S D) :=
    fun cs' => Runs.blank (from_scans h.origin.1 h.origin.2) (st_top m cs' is S D) (by simp)
  have h3 : ∀ cs', Runs (st m cs' is S D) ("#define " ++ x.id ++ macroTail x ++ "\n").toList
      (st (if cs'.all _root_.id then x.id.toList :: m else m) cs' is S D) := by
    intro cs'
    have := runs_macro (m := m) (cs := cs') (is := is) (S := S) (D := D) h.id t2 t1
    rw [String.toList_append, String.toList_append, String.toList_append]
    exact this
  rw [macro_text]
  cases hd : m.contains x.id.toList with
  | true =>
    rw [hd] at h1
    have h4 := h3 (false :: cs)
    simp only [List.all_cons, _root_.id, Bool.false_and, Bool.false_eq_true, if_false] at h4
    exact runs_str (runs_str (runs_str (runs_str h1 (h2 _)) h4) (runs_guardEnd hc.1 hc.2)) (runs_newline (st_top m cs is S D))
  | false =>
    rw [hd] at h1
    have ha' : (true :: cs).all _root_.id = true := by simpa using ha
    have h4 := h3 (true :: cs)
    rw [if_pos ha'] at h4
    exact runs_str (runs_str (runs_str (runs_str h1 (h2 _)) h4) (runs_guardEnd hc.1 hc.2)) (runs_newline (st_top _ cs is S D))

/-- The macros defined behind the definitions of macros. -/
def after (defs : List String) (ms : List Gen.Macro) : List String := ms.foldl (fun d x => if d.contains x.id then d else x.id :: d) defs

theorem runs_macros (ha : cs.all id = true) : ∀ (ms : List Gen.Macro) (defs : List String), (∀ x ∈ ms, MacroOk x) →
    Runs (st (defs.map String.toList) cs is S D) (String.join (ms.map Gen.macroText)).toList (st ((after defs ms).map String.toList) cs is S D)
  | [], defs, _ => by simpa [after, String.join] using runs_empty _
  | x :: ms, defs, h => by
    have h1 := runs_macroText (m := defs.map String.toList) (is := is) (S := S) (D := D) (h x (by simp)) ha
    rw [contains_map] at h1
    have h2 := runs_macros ha ms (if defs.contains x.id then defs else x.id :: defs) (fun y hy => h y (by simp [hy]))
    rw [List.map_cons, join_cons]
    refine runs_str h1 ?_
    by_cases hd : defs.contains x.id = true
    · rw [if_pos hd] at h2 ⊢
      have : after defs (x :: ms) = after defs ms := by unfold after; rw [List.foldl_cons, if_pos hd]
      rw [this]; exact h2
    · rw [if_neg hd] at h2 ⊢
      have : after defs (x :: ms) = after (x.id :: defs) ms := by unfold after; rw [List.foldl_cons, if_neg hd]
      rw [this]; exact h2

end EasyMock.CFile.TypeDecl
