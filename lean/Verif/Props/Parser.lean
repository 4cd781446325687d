import Verif.Parser.ReturnAttr

/-! # C51, C52, C69, C70: what the parser reads from the source text -/

namespace EasyMock.Parser

/-! ## The terms of the statements -/

/-- A blank of C. -/
def Blank (c : Char) : Prop := c ∈ [' ', '\t', '\n', '\x0b', '\x0c', '\r']

/-- `t` is `s` without the blanks at its ends. -/
def Strips (s t : List Char) : Prop :=
  ∃ a b, s = a ++ t ++ b ∧ (∀ c ∈ a, Blank c) ∧ (∀ c ∈ b, Blank c) ∧ (∀ c r, t = c :: r → ¬ Blank c) ∧
    ∀ c r, t = r ++ [c] → ¬ Blank c

/-- A text on one line. -/
def oneLine (s : List Char) : List Char := s.map (fun c => if c = '\n' then ' ' else c)

theorem blank_iff {c : Char} : isSpace c = true ↔ Blank c := by
  simp only [isSpace, Blank, Bool.or_eq_true, beq_iff_eq, List.mem_cons, List.not_mem_nil, or_false, or_assoc]

theorem not_blank_iff {c : Char} : isSpace c = false ↔ ¬ Blank c := by
  rw [← blank_iff]; simp

theorem strips_trim (s : List Char) : Strips s (trim s) := by
  obtain ⟨a, b, e, ha, hb, ht⟩ := trim_spec s
  exact ⟨a, b, e, fun c h => blank_iff.1 (ha c h), fun c h => blank_iff.1 (hb c h), fun c r h => not_blank_iff.1 (ht.1 c r h),
    fun c r h => not_blank_iff.1 (ht.2 c r h)⟩

theorem oneLine_eq (s : List Char) : s.map newlineToSpace = oneLine s := by
  refine List.map_congr_left (fun c _ => ?_)
  simp [newlineToSpace]

theorem strips_unique {s t u : List Char} (h : Strips s t) (h' : Strips s u) : t = u := by
  have key : ∀ {t}, Strips s t → trim s = t := by
    rintro t ⟨a, b, e, ha, hb, h1, h2⟩
    rw [e]
    exact trim_eq (fun c h => blank_iff.2 (ha c h)) (fun c h => blank_iff.2 (hb c h))
      ⟨fun c r h => not_blank_iff.2 (h1 c r h), fun c r h => not_blank_iff.2 (h2 c r h)⟩
  rw [← key h, ← key h']

/-! ## C51: comments -/

/-- **C51** (partial): from a text with line comments and at most one block comment exactly the comments are removed; each
    line end becomes a blank.  Missing: several block comments, line ends with a carriage return, and comments inside
    comments, for which the claim is false (below). -/
theorem C51_partial (l : List Seg) (ho : ∀ x ∈ l, x.Ok) (ha : Apart l) (hc : l.countP Seg.isBlock ≤ 1) :
    removeComments (written l) = oneLine (outside l) := by
  rw [removeComments_eq ho ha hc, oneLine_eq]

instance : DecidablePred Seg.Ok := fun x =>
  match x with
  | .code s => inferInstanceAs (Decidable ('/' ∉ s))
  | .line s => inferInstanceAs (Decidable ('\n' ∉ s ∧ '\r' ∉ s))
  | .block s => inferInstanceAs (Decidable ('\r' ∉ s ∧ ¬ ['/', '/'] <:+: s ∧ ¬ ['*', '/'] <:+: s))

example : removeComments "int // a\n/* b\n c */ *".toList = "int  *".toList :=
  Eq.trans (congrArg removeComments (by decide +kernel)) <| Eq.trans
   (C51_partial [.code "int ".toList, .line " a".toList, .block " b\n c ".toList, .code " *".toList] (by decide +kernel)
    (by
      intro a s b e
      match a, e with
      | [x, y], e => simp at e; rw [← e.2.2.2]; decide +kernel
      | x :: y :: z :: w :: v :: a, e => simp at e
      | [], e => simp at e
      | [x], e => simp at e
      | [x, y, z], e => simp at e
      | [x, y, z, w], e => simp at e)
    (by decide +kernel)) (by decide +kernel)

/-- The code between two block comments is lost. -/
theorem C51_refuted_two :
    ∃ l : List Seg, (∀ x ∈ l, x.Ok) ∧ "unsigned".toList <:+: outside l ∧ ¬ "unsigned".toList <:+: removeComments (written l) := by
  refine ⟨[.block " a ".toList, .code " unsigned ".toList, .block " b ".toList, .code " int ".toList], by decide +kernel, by decide +kernel, ?_⟩
  have : removeComments (written [.block " a ".toList, .code " unsigned ".toList, .block " b ".toList, .code " int ".toList]) =
      " int ".toList := by
    decide +kernel
  rw [this]
  decide +kernel

/-- Nothing is put in place of a comment: the words around it become one word. -/
theorem C51_refuted_merge : removeComments "unsigned// a\nlong/**/int ".toList = "unsignedlongint ".toList := by
  decide +kernel

/-- A line comment which ends with a carriage return stays. -/
theorem C51_refuted_carriage_return : removeComments "int // a\r\n*".toList = "int // a\r *".toList := by
  decide +kernel

/-- `//` inside a block comment removes the end of the comment, so the beginning stays. -/
theorem C51_refuted_nested : removeComments "int /* // */\n*".toList = "int /* *".toList := by
  decide +kernel

/-! ## C52: the arguments of an attribute -/

/-- **C52**: the arguments of an attribute are the texts between the commas behind the first parenthesis, without blanks
    at the ends. -/
theorem C52_args (pre : List Char) (parts : List (List Char)) (hp : '(' ∉ pre) (hne : parts ≠ [])
    (hc : ∀ p ∈ parts, ',' ∉ p) :
    (attrArgs (pre ++ '(' :: [','].intercalate parts)).length = parts.length ∧
      ∀ (i : Nat) p a, parts[i]? = some p → (attrArgs (pre ++ '(' :: [','].intercalate parts))[i]? = some a → Strips p a := by
  have h1 : (pre ++ '(' :: [','].intercalate parts).dropWhile (· != '(') = '(' :: [','].intercalate parts := by
    rw [dropWhile_append_all _ (fun c h => by
      have : c ≠ '(' := fun e => hp (e ▸ h)
      simpa using this)]
    simp
  have h2 : attrArgs (pre ++ '(' :: [','].intercalate parts) = parts.map trim := by
    unfold attrArgs
    rw [h1]
    exact splitArgs_intercalate hne hc
  rw [h2]
  refine ⟨by simp, ?_⟩
  intro i p a hi ha
  rw [List.getElem?_map, hi] at ha
  simp only [Option.map_some, Option.some.injEq] at ha
  rw [← ha]
  exact strips_trim p

/-- An attribute without parenthesis has no arguments. -/
theorem C52_none (s : List Char) (h : '(' ∉ s) : attrArgs s = [] := by
  unfold attrArgs
  have : s.dropWhile (· != '(') = [] := by
    have := dropWhile_append_all (· != '(') (a := s) (fun c hc => by
      have : c ≠ '(' := fun e => h (e ▸ hc)
      simpa using this) []
    simpa using this
  rw [this]

/-- **C52**: every text behind the parenthesis is the arguments joined with commas, up to blanks around the arguments. -/
theorem C52_join (pre body : List Char) (hp : '(' ∉ pre) :
    ∃ parts : List (List Char), body = [','].intercalate parts ∧
      (attrArgs (pre ++ '(' :: body)).length = parts.length ∧
      ∀ (i : Nat) p a, parts[i]? = some p → (attrArgs (pre ++ '(' :: body))[i]? = some a → Strips p a := by
  obtain ⟨parts, h1, h2, h3⟩ := exists_intercalate body
  refine ⟨parts, h3, ?_⟩
  rw [h3]
  exact C52_args pre parts hp h1 h2

example : attrArgs "format( printf ,\t1, 2 ".toList = ["printf".toList, "1".toList, "2".toList] := by
  decide +kernel

/-- A comma inside a string literal separates arguments, and blanks of the literal are lost: the arguments joined as the
    generator prints them (`, `) are another literal. -/
theorem C52_refuted_literal :
    attrArgs "deprecated(\"a  ,b\"".toList = ["\"a".toList, "b\"".toList] := by
  decide +kernel

/-! ## C69: the declared type of a field -/

/-- The text of a type as it stands in a declaration: it starts with a token, ends where a name may start, and has no
    comment and no body. -/
structure TypeSource (ty : List Char) : Prop where
  start : ∃ c r, ty = c :: r ∧ ¬ Blank c
  stop : ∃ r c, ty = r ++ [c] ∧ c ∈ [' ', '\n', '\r', '\t', '*', ')']
  plain : ∀ c ∈ ty, c ∉ ['{', ',', '[', '/']

/-- The name of a field. -/
structure NameSource (n : List Char) : Prop where
  nonempty : n ≠ []
  plain : ∀ c ∈ n, c.isAlphanum = true ∨ c = '_'

theorem TypeSource.text {ty : List Char} (h : TypeSource ty) : TypeText ty := by
  obtain ⟨⟨c, r, h1, h2⟩, ⟨r', c', h3, h4⟩, h5⟩ := h
  refine ⟨⟨c, r, h1, not_blank_iff.2 h2⟩, ⟨r', c', h3, ?_⟩, fun d hd => ?_⟩
  · simpa [isStop, or_assoc] using h4
  · simpa using h5 d hd

theorem NameSource.text {n : List Char} (h : NameSource n) : NameText n := by
  refine ⟨h.nonempty, fun c hc => ?_⟩
  have hi : isIdent c = true := by simpa [isIdent] using h.plain c hc
  obtain ⟨h1, h2, h3, h4, h5, h6, h7, h8⟩ := isIdent_ne hi
  refine ⟨h4, h6, h7, h3, h8, ?_⟩
  have key : ∀ d : Char, isIdent d = false → c ≠ d := by
    rintro d hd rfl; rw [hi] at hd; cases hd
  simp [isStop, h1, h2, key '\n' (by decide +kernel), key '\r' (by decide +kernel), key '\t' (by decide +kernel), key ')' (by decide +kernel)]

/-- **C69** (partial): the declared type of a field is the text before its name, whether the name is not part of the text
    (one declarator), or is followed by the other declarators or the size of the array.  Missing: comments (C51),
    references, and the second declarator of a declaration, for which the claim is false (below). -/
theorem C69_field_partial (ty n sp rest : List Char) (sep : Char) (ht : TypeSource ty) (hn : NameSource n)
    (hsp : ∀ c ∈ sp, Blank c) (hsep : sep = ',' ∨ sep = '[') (hr : '{' ∉ rest) :
    Strips (oneLine ty) (declareString true ty) ∧
      Strips (oneLine ty) (declareString true (ty ++ n ++ sp ++ sep :: rest)) := by
  rw [declareString_type true ht.text, declareString_field ht.text hn.text (fun c h => blank_iff.2 (hsp c h)) hsep hr, oneLine_eq]
  exact ⟨strips_trim _, strips_trim _⟩

example : declareString true "const A_t\n *".toList = "const A_t  *".toList ∧
    declareString true "const A_t *x [2], y[3".toList = "const A_t *".toList := by
  decide +kernel

example : TypeSource "const A_t *".toList ∧ NameSource "x".toList :=
  ⟨⟨⟨'c', _, rfl, by simp [Blank]⟩, ⟨"const A_t ".toList, '*', by decide +kernel, by simp⟩, by decide +kernel⟩, by decide +kernel, by decide +kernel⟩

/-- The declared type of a parameter or return value without comment and body is its text: up to the last character after
    which a name may start.  Commas and brackets are part of it. -/
theorem C69_type_partial (ty n : List Char) (stop : ∃ r c, ty = r ++ [c] ∧ c ∈ [' ', '\n', '\r', '\t', '*', ')'])
    (hn : ∀ c ∈ n, c ∉ [' ', '\n', '\r', '\t', '*', ')']) (plain : ∀ c ∈ ty ++ n, c ≠ '{' ∧ c ≠ '/') :
    Strips (oneLine ty) (declareString false (ty ++ n)) := by
  have h1 : (ty ++ n).contains '{' = false := contains_false (fun h => (plain _ h).1 rfl)
  have hs : ∀ c, isStop c = true ↔ c ∈ [' ', '\n', '\r', '\t', '*', ')'] := by intro c; simp [isStop, or_assoc]
  obtain ⟨r, c, e, hc⟩ := stop
  unfold declareString
  rw [h1, if_neg (by simp), if_neg (by simp), popName_append ⟨r, c, e, (hs c).2 hc⟩
    (fun c hc => by
      cases h : isStop c with
      | false => rfl
      | true => exact absurd ((hs c).1 h) (hn c hc)),
    removeComments_plain (fun h => (plain '/' (by simp [h])).2 rfl), oneLine_eq]
  exact strips_trim _

/-- `MAP(int, long) *x`. -/
example : declareString false "MAP(int, long) *x".toList = "MAP(int, long) *".toList ∧
    (∀ c ∈ "x".toList, c ∉ [' ', '\n', '\r', '\t', '*', ')']) ∧ ∀ c ∈ "MAP(int, long) *x".toList, c ≠ '{' ∧ c ≠ '/' := by
  decide +kernel

/-- If the type is defined in the declaration, the declared type is the text before the body, without its comments. -/
theorem C69_body (b : Bool) (l : List Seg) (rest : List Char) (ho : ∀ x ∈ l, x.Ok) (ha : Apart l)
    (hc : l.countP Seg.isBlock ≤ 1) (hb : '{' ∉ written l) :
    Strips (oneLine (outside l)) (declareString b (written l ++ '{' :: rest)) := by
  have h1 : (written l ++ '{' :: rest).takeWhile (· != '{') = written l := takeWhile_append_stop _ (by
    intro c hc
    have : c ≠ '{' := fun e => hb (e ▸ hc)
    simpa using this) '{' (by simp) _
  unfold declareString
  rw [if_pos (by simp), h1, C51_partial l ho ha hc]
  exact strips_trim _

example : declareString true "struct s // a\n{ int a; } ".toList = "struct s".toList := by
  decide +kernel

/-- In `A_t *x, y` the declared type of `y` is `A_t *`: the struct which EasyMock writes for it has another member. -/
theorem C69_refuted_second : declareString true "A_t *x, ".toList = "A_t *".toList := by
  decide +kernel

/-- The reference is lost if no blank follows it. -/
theorem C69_refuted_reference : declareString false "const A_t &".toList = "const A_t".toList := by
  decide +kernel

/-! ## C70: the declared type of a return value -/

/-- A word of a return type: an identifier or stars. -/
def TypeWord (w : List Char) : Prop := w ≠ [] ∧ ((∀ c ∈ w, c.isAlphanum = true ∨ c = '_') ∨ ∀ c ∈ w, c = '*')

/-- `__attribute__((...))` on one line. -/
def OneAttribute (d : List Char) : Prop :=
  ∃ a b x e, d = "__attribute__".toList ++ a ++ ['('] ++ b ++ ['('] ++ x ++ [')'] ++ e ++ [')'] ∧
    (∀ c ∈ a ++ b ++ e, Blank c) ∧ '\n' ∉ x ∧ '\r' ∉ x

/-- The word stands for nothing: a macro without parameters whose definition is empty or an attribute. -/
def Nothing (ms : MacroInfo) (w : List Char) : Prop := ∃ d, ms w = some (d, false) ∧ (d = [] ∨ OneAttribute d)

theorem oneAttribute_iff {d : List Char} : IsAttribute d ↔ OneAttribute d := by
  constructor
  · rintro ⟨a, b, x, e, rfl, ha, hb, he, hx⟩
    refine ⟨a, b, x, e, by simp, ?_, ?_, ?_⟩
    · intro c hc
      simp only [List.mem_append] at hc
      rcases hc with (hc | hc) | hc
      · exact blank_iff.1 (ha c hc)
      · exact blank_iff.1 (hb c hc)
      · exact blank_iff.1 (he c hc)
    · intro h; exact absurd (hx _ h) (by decide +kernel)
    · intro h; exact absurd (hx _ h) (by decide +kernel)
  · rintro ⟨a, b, x, e, rfl, h, hn, hr⟩
    refine ⟨a, b, x, e, by simp, fun c hc => blank_iff.2 (h c (by simp [hc])), fun c hc => blank_iff.2 (h c (by simp [hc])),
      fun c hc => blank_iff.2 (h c (by simp [hc])), fun c hc => ?_⟩
    have h1 : c ≠ '\n' := fun e => hn (e ▸ hc)
    have h2 : c ≠ '\r' := fun e => hr (e ▸ hc)
    simp [isLineEnd, h1, h2]

theorem nothing_iff {ms : MacroInfo} {w : List Char} : removable ms w = some false ↔ Nothing ms w := by
  rw [vanishes_iff]
  unfold Vanishes Nothing
  constructor
  · rintro ⟨d, h, h2⟩; exact ⟨d, h, h2.imp id oneAttribute_iff.1⟩
  · rintro ⟨d, h, h2⟩; exact ⟨d, h, h2.imp id oneAttribute_iff.2⟩

/-- **C70** (partial): the declared type of a return value consists of exactly the words before the name of the function
    which are no storage class and do not stand for nothing, in their order.  The words are separated by one blank each.
    Missing: comments and attributes written in place (`C70_attribute_partial`), references, templates; and the claim is false if a word contains the
    name of such a macro or ends like a storage class (below). -/
theorem C70_partial (ms : MacroInfo) (name tail : List Char) (ws : List (List Char)) (keep : List Char → Bool)
    (hne : ws ≠ []) (hw : ∀ w ∈ ws, TypeWord w)
    (ht : tail = [' '] ∨ (tail = [] ∧ ∀ l w, ws = l ++ [w] → ∀ c ∈ w, c = '*'))
    (hid : ∀ t, Nothing ms t → ∀ c ∈ t, c.isAlphanum = true ∨ c = '_')
    (hp : ∀ t, Nothing ms t → ∀ w ∈ ws, t <:+: w → w = t)
    (hs : ∀ k ∈ ["inline".toList, "extern".toList, "static".toList], (∀ w ∈ ws, k <:+ w → w = k) ∧ ws.count k ≤ 1 ∧
      ∀ l, ws ≠ l ++ [k])
    (hk : ∀ w ∈ ws, keep w = true ↔ ¬ Nothing ms w ∧ w ∉ ["inline".toList, "extern".toList, "static".toList]) :
    words (returnString ms name ([' '].intercalate ws ++ tail)) = ws.filter keep := by
  have hword : ∀ w ∈ ws, Word w := fun w h => ⟨(hw w h).1, (hw w h).2.imp (fun h c hc => by simpa [isIdent] using h c hc) id⟩
  have := returnString_words (ms := ms) (name := name) hne hword ht
    (fun t h c hc => by simpa [isIdent] using hid t (nothing_iff.1 (vanishes_iff.2 h)) c hc)
    (fun t h w hw => hp t (nothing_iff.1 (vanishes_iff.2 h)) w hw)
    (fun k hk => (hs k hk).1) (fun k hk => (hs k hk).2.1)
    (fun k hk l v e e2 => (hs k hk).2.2 l (by rw [e, e2]))
  rw [show [' '].intercalate ws = spaced ws from rfl, this]
  refine List.filter_congr (fun w hwm => ?_)
  rw [Bool.eq_iff_iff, hk w hwm, Bool.and_eq_true, ← nothing_iff]
  simp [storage]

/-- Two macros for the examples. -/
def exampleMacros : MacroInfo := fun w =>
  if w = "API".toList then some ([], false)
  else if w = "NORETURN".toList then some ("__attribute__ ((noreturn))".toList, false)
  else if w = "LIMIT".toList then some ("3".toList, false)
  else none

example : words (returnString exampleMacros "f".toList "extern API const LIMIT * NORETURN ".toList) =
    ["const".toList, "LIMIT".toList, "*".toList] := by
  decide +kernel

/-- The hypotheses of C70 hold for a declaration with a storage class, an empty macro and a pointer. -/
example : words (returnString exampleMacros "f".toList "extern API const int **".toList) =
    ["const".toList, "int".toList, "**".toList] := by
  have hN : ∀ t, Nothing exampleMacros t → t = "API".toList ∨ t = "NORETURN".toList := by
    rintro t ⟨d, h, h2⟩
    unfold exampleMacros at h
    split at h
    · exact Or.inl ‹_›
    · split at h
      · exact Or.inr ‹_›
      · split at h
        · simp only [Option.some.injEq, Prod.mk.injEq, and_true] at h
          subst h
          rcases h2 with h2 | ⟨a, b, x, e, h2, -⟩
          · cases h2
          · have := congrArg List.head? h2
            simp at this
        · cases h
  have hws : ∀ w ∈ ["extern".toList, "API".toList, "const".toList, "int".toList, "**".toList], ∀ t, Nothing exampleMacros t →
      t <:+: w → w = t := by
    intro w hw t ht
    rcases hN t ht with rfl | rfl
    · revert w; decide +kernel
    · revert w; decide +kernel
  have := C70_partial exampleMacros "f".toList [] ["extern".toList, "API".toList, "const".toList, "int".toList, "**".toList]
    (fun w => w != "extern".toList && w != "API".toList) (by simp)
    (by
      intro w hw
      refine ⟨?_, ?_⟩
      · revert w; decide +kernel
      · revert w; decide +kernel)
    (Or.inr ⟨rfl, by
      intro l w e c hc
      have h2 := congrArg List.getLast? e
      simp only [List.getLast?_append, List.getLast?_singleton, Option.some_or] at h2
      have : w = "**".toList := by simpa using h2.symm
      subst this
      revert c
      decide +kernel⟩)
    (by
      intro t ht
      rcases hN t ht with rfl | rfl <;> decide +kernel)
    (fun t ht w hw => hws w hw t ht)
    (by
      intro k hk
      refine ⟨?_, ?_, ?_⟩
      · revert k; decide +kernel
      · revert k; decide +kernel
      · intro l e
        have h2 := congrArg List.getLast? e
        simp only [List.getLast?_append, List.getLast?_singleton, Option.some_or] at h2
        have : k = "**".toList := by simpa using h2.symm
        subst this
        revert hk
        decide +kernel)
    (by
      intro w hw
      have hA : Nothing exampleMacros "API".toList := ⟨[], by decide +kernel, Or.inl rfl⟩
      simp only [List.mem_cons, List.not_mem_nil, or_false] at hw
      rcases hw with rfl | rfl | rfl | rfl | rfl
      · exact iff_of_false (by decide +kernel) (fun h => h.2 (by decide +kernel))
      · exact iff_of_false (by decide +kernel) (fun h => h.1 hA)
      · exact iff_of_true (by decide +kernel) ⟨fun h => by rcases hN _ h with h | h <;> exact absurd h (by decide +kernel), by decide +kernel⟩
      · exact iff_of_true (by decide +kernel) ⟨fun h => by rcases hN _ h with h | h <;> exact absurd h (by decide +kernel), by decide +kernel⟩
      · exact iff_of_true (by decide +kernel) ⟨fun h => by rcases hN _ h with h | h <;> exact absurd h (by decide +kernel), by decide +kernel⟩)
  exact this.trans (by decide +kernel)

/-- The name of an empty macro is also removed inside the name of the type. -/
theorem C70_refuted_macro_part :
    returnString exampleMacros "f".toList "API API_RESULT ".toList = "_RESULT".toList := by
  decide +kernel

/-- The token loop ignores the blanks which it skips and so looks up ends of words as well: a macro which is not even
    written in the declaration changes the type. -/
theorem C70_refuted_word_end :
    returnString (fun w => if w = "O".toList then some ([], false) else none) "f".toList "const FOO ".toList =
      "const F".toList := by
  decide +kernel

/-- **C70** (partial), an attribute being written between the words and no macro being removed: the declared type consists
    of the other words which are no storage class.  Missing: several attributes (below), attributes on several lines or with
    a brace or a slash in them. -/
theorem C70_attribute_partial (ms : MacroInfo) (name attr tail : List Char) (ws1 ws2 : List (List Char))
    (hms : ∀ t d p, ms t = some (d, p) → d ≠ [] ∧ ¬ OneAttribute d)
    (hw : ∀ w ∈ ws1 ++ ws2, TypeWord w) (ha : OneAttribute attr) (hc : ∀ c ∈ attr, c ∉ ['{', '/', '\n'])
    (ht : tail = [' '] ∨ (tail = [] ∧ ∀ l w, ws2 = l ++ [w] → ∀ c ∈ w, c = '*'))
    (hs : ∀ k ∈ ["inline".toList, "extern".toList, "static".toList], (∀ w ∈ ws1 ++ ws2, k <:+ w → w = k) ∧
      (ws1 ++ ws2).count k ≤ 1 ∧ ∀ l, ws2 ≠ l ++ [k]) :
    words (returnString ms name ([' '].intercalate (ws1 ++ [attr] ++ ws2) ++ tail)) =
      (ws1 ++ ws2).filter (fun w => w ∉ ["inline".toList, "extern".toList, "static".toList]) := by
  have hword : ∀ w ∈ ws1 ++ ws2, Word w :=
    fun w h => ⟨(hw w h).1, (hw w h).2.imp (fun h c hc => by simpa [isIdent] using h c hc) id⟩
  have hrem : ∀ t, removable ms t = none := by
    intro t
    unfold removable
    cases h : ms t with
    | none => rfl
    | some q =>
      obtain ⟨d, p⟩ := q
      simp only
      rw [if_neg]
      rw [Bool.or_eq_true, attrPattern_whole, List.isEmpty_iff, oneAttribute_iff, not_or]
      exact hms t d p h
  have := returnString_attribute (name := name) hrem (fun w h => hword w (by simp [h])) (fun w h => hword w (by simp [h]))
    (oneAttribute_iff.2 ha) (fun h => hc _ h (by simp)) (fun h => hc _ h (by simp)) (fun h => hc _ h (by simp)) ht
    (fun k hk => (hs k hk).1) (fun k hk => (hs k hk).2.1) (fun k hk => (hs k hk).2.2)
  rw [List.append_assoc, List.singleton_append, show [' '].intercalate (ws1 ++ attr :: ws2) = spaced (ws1 ++ attr :: ws2) from rfl,
    this]
  refine List.filter_congr (fun w hwm => ?_)
  simp [storage]

/-- The hypotheses hold for an attribute with arguments between a storage class and a pointer. -/
example : words (returnString (fun _ => none) "f".toList "static __attribute__ ((section(\".a b\"))) int *".toList) =
    ["int".toList, "*".toList] := by
  have := C70_attribute_partial (fun _ => none) "f".toList "__attribute__ ((section(\".a b\")))".toList []
    ["static".toList] ["int".toList, "*".toList] (by simp)
    (by
      intro w hw
      refine ⟨?_, ?_⟩
      · revert w; decide +kernel
      · revert w; decide +kernel)
    ⟨[' '], [], "section(\".a b\")".toList, [], by decide +kernel, by simp [Blank], by decide +kernel, by decide +kernel⟩
    (by decide +kernel)
    (Or.inr ⟨rfl, by
      intro l w e c hc
      have h2 := congrArg List.getLast? e
      simp only [List.getLast?_append, List.getLast?_singleton, Option.some_or] at h2
      have : w = "*".toList := by simpa using h2.symm
      subst this
      revert c
      decide +kernel⟩)
    (by
      intro k hk
      refine ⟨?_, ?_, ?_⟩
      · revert k; decide +kernel
      · revert k; decide +kernel
      · intro l e
        have h2 := congrArg List.getLast? e
        simp only [List.getLast?_append, List.getLast?_singleton, Option.some_or] at h2
        have : k = "*".toList := by simpa using h2.symm
        subst this
        revert hk
        decide +kernel)
  rw [show "static __attribute__ ((section(\".a b\"))) int *".toList =
    [' '].intercalate (["static".toList] ++ ["__attribute__ ((section(\".a b\")))".toList] ++ ["int".toList, "*".toList]) ++ []
    from by decide +kernel, this]
  decide +kernel

/-- Two attributes: what stands between them is erased with them. -/
theorem C70_refuted_attributes :
    returnString (fun _ => none) "f".toList "__attribute__((cold)) int __attribute__((pure)) *".toList = "*".toList := by
  decide +kernel

/-- A type whose name ends like a storage class is cut. -/
theorem C70_refuted_static :
    returnString (fun _ => none) "f".toList "my_static *".toList = "my_*".toList := by
  decide +kernel

/-- A storage class behind the type is kept. -/
theorem C70_refuted_last : returnString (fun _ => none) "f".toList "int static ".toList = "int static".toList := by
  decide +kernel

end EasyMock.Parser
