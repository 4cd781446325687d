import Verif.Types.Spec
import Verif.Types.Lemmas

/-! # Type predicates and declaration texts (C56, C57) -/

namespace EasyMock.Types

/-! ## C56: predicates -/

/-- C56.  Every predicate answers for exactly one kind of type: a forward reference
    (`IncompleteType`) answers no to all of them, whatever flags it copied. -/
theorem C56_predicates (t : Ty) :
    (isComposable t = true ↔ ∃ i kw n fs emb fwd ms, t = .comp i kw n fs emb fwd ms) ∧
    (isEnum t = true ↔ ∃ i n vs, t = .enum i n vs) ∧
    (isPointer t = true ↔ ∃ i u, t = .ptr i u) ∧
    (isReference t = true ↔ ∃ i u, t = .ref i u) ∧
    (isFunctionType t = true ↔ ∃ i info s r ps, t = .fn i info s r ps) ∧
    (isConst t = true ↔ ∃ i u, t = .const i u) ∧
    ((attrs t).typedef = true ↔ ∃ i n u, t = .tdef i n u) := by
  cases t with
  | comp i kw n fs emb fwd ms =>
    cases kw <;>
      simp [isComposable, isEnum, isPointer, isReference, isFunctionType, isConst, attrs]
  | _ => simp [isComposable, isEnum, isPointer, isReference, isFunctionType, isConst, attrs]

/-- C56.  A composable type is a union exactly if it was declared with that keyword; classes
    count as structs. -/
theorem C56_struct_or_union (i : Bool) (kw : Kw) (n : String) (fs : Fields) (emb fwd : Bool)
    (ms : Methods) :
    ((attrs (.comp i kw n fs emb fwd ms)).union = true ↔ kw = .union) ∧
    ((attrs (.comp i kw n fs emb fwd ms)).struct = true ↔ kw = .struct ∨ kw = .cls) := by
  cases kw <;> simp [attrs]

/-- C56.  The `implicit` mark set by the parser is reported for every kind of type except forward
    references. -/
theorem C56_implicit (t : Ty) : isImplicit t = true ↔
    ∃ u : Ty, t = u ∧ (match u with
      | .ctype _ _ i | .ptr i _ | .ref i _ | .const i _ | .tdef i _ _ | .enum i _ _
      | .comp i _ _ _ _ _ _ | .fn i _ _ _ _ => i = true
      | .incomplete .. => False) := by
  cases t with
  | comp i kw n fs emb fwd ms => cases kw <;> simp [isImplicit, attrs]
  | _ => simp [isImplicit, attrs]

/-- C56.  A struct, class, union or enum is anonymous exactly if it has no name. -/
theorem C56_anonymous (t : Ty) (h : isComposable t = true ∨ isEnum t = true) :
    isAnonymous t = true ↔ (attrs t).name = "" := by
  cases t with
  | comp i kw n fs emb fwd ms =>
    cases kw <;> simp [isAnonymous, isComposable, attrs, rawType]
  | enum i n vs => simp [isAnonymous, isComposable, isEnum, attrs, rawType]
  | _ => simp [isComposable, isEnum, attrs] at h
  
example : isComposable (.comp false .union "u" .nil false false .nil) = true ∧
    isAnonymous (.comp false .union "u" .nil false false .nil) = false ∧
    isAnonymous (.comp false .union "" .nil false false .nil) = true := by decide +kernel

/-- C56.  The answer is misleading for derived types: every pointer to a named struct claims to be
    anonymous, because a pointer has no name of its own. -/
theorem C56_refuted_pointer_anonymous (n : String) :
    isAnonymous (.ptr false (.comp false .struct n .nil false false .nil)) = true := by
  simp [isAnonymous, isComposable, attrs, rawType]

/-! ## C57: declaration texts -/

/-- A declaration text as a C programmer reads it. -/
inductive Reading where
  | named (text : String)
  | pointer (to : Reading)
  | reference (to : Reading)
  | constant (of : Reading)
  deriving DecidableEq, Repr

/-- Read a declaration text given in reverse: the last token is the outermost layer. -/
def readRev : List Char → Reading
  | '*' :: r => .pointer (readRev r)
  | '&' :: r => .reference (readRev r)
  | 't' :: 's' :: 'n' :: 'o' :: 'c' :: ' ' :: r => .constant (readRev r)
  | r => .named (String.ofList r.reverse)

/-- Read a declaration text. -/
def read (s : String) : Reading := readRev s.toList.reverse

/-- What a type means, layer by layer; a typedef is known by its name. -/
def meaning : Ty → Reading
  | .ctype c _ _ => .named c.str
  | .ptr _ t => .pointer (meaning t)
  | .ref _ t => .reference (meaning t)
  | .const _ t => .constant (meaning t)
  | .tdef _ n _ => .named n
  | .enum _ n _ => .named (if n = "" then "enum" else "enum " ++ n)
  | .comp _ kw n _ _ _ _ | .incomplete _ kw n =>
    .named (if n = "" then kw.str else kw.str ++ " " ++ n)
  | .fn .. => .named ""

/-- An identifier: no blank, star or ampersand, and not the word `const`. -/
def Ident (n : String) : Prop :=
  (∀ c ∈ n.toList, c ≠ ' ' ∧ c ≠ '*' ∧ c ≠ '&') ∧ n ≠ "const"

/-- The types whose names are identifiers and which contain no function type. -/
def Declarable : Ty → Prop
  | .ctype .. => True
  | .ptr _ t | .ref _ t | .const _ t => Declarable t
  | .tdef _ n _ => Ident n ∧ n ≠ ""
  | .enum _ n _ | .comp _ _ n _ _ _ _ | .incomplete _ _ n => Ident n
  | .fn .. => False

theorem trimR_append_blank (s : String) (h : s.toList.getLast? ≠ some ' ') (hs : s ≠ "") :
    trimR (s ++ " ") = s := by
  unfold trimR
  have : (s ++ " ").toList.reverse = ' ' :: s.toList.reverse := by simp [String.toList_append]
  rw [this]
  cases hr : s.toList.reverse with
  | nil =>
    exfalso; apply hs
    have : s.toList = [] := by simpa using hr
    exact String.toList_inj.mp (by simpa using this)
  | cons c cs =>
    have hc : s.toList.getLast? = some c := by
      rw [← List.reverse_reverse s.toList, hr]; simp
    rw [hc] at h
    have hb : (c == ' ') = false := by simpa using h
    simp only [List.dropWhile_cons, hb, beq_self_eq_true, if_true]
    rw [if_neg (by simp), ← hr]
    simp

theorem trimR_self (s : String) (h : s.toList.getLast? ≠ some ' ') : trimR s = s := by
  unfold trimR
  cases hr : s.toList.reverse with
  | nil =>
    have : s.toList = [] := by simpa using hr
    have hs : s = "" := String.toList_inj.mp (by simpa using this)
    subst hs; rfl
  | cons c cs =>
    have hc : s.toList.getLast? = some c := by
      rw [← List.reverse_reverse s.toList, hr]; simp
    rw [hc] at h
    have hb : (c == ' ') = false := by simpa using h
    simp only [List.dropWhile_cons, hb]
    rw [if_neg (by simp), ← hr]
    simp

theorem readRev_ident (n : List Char) (p : List Char) (hn : n ≠ [])
    (hc : ∀ c ∈ n, c ≠ ' ' ∧ c ≠ '*' ∧ c ≠ '&') (hk : n ≠ "const".toList) (hp : p = [] ∨ p.getLast? = some ' ') :
    readRev (n.reverse ++ p.reverse) = .named (String.ofList (p ++ n)) := by
  have hk' : n.reverse ≠ ['t', 's', 'n', 'o', 'c'] := by
    intro h; apply hk
    rw [← List.reverse_reverse n, h]; rfl
  have hc' : ∀ c ∈ n.reverse, c ≠ ' ' ∧ c ≠ '*' ∧ c ≠ '&' := by
    intro c h; exact hc c (by simpa using h)
  have e : String.ofList (p ++ n) = String.ofList ((n.reverse ++ p.reverse).reverse) := by simp
  rw [e]
  generalize n.reverse = r at *
  have hr : r ≠ [] := by
    rintro rfl
    rcases hp with rfl | hp
    · have : n = [] := by simpa using e
      exact hn this
    · have := congrArg String.toList e
      simp at this
      exact hn this
  unfold readRev
  split
  · rename_i r' heq
    cases r with
    | nil => exact absurd rfl hr
    | cons c cs =>
      simp at heq
      exact absurd heq.1 (hc' c (by simp)).2.1
  · rename_i r' heq
    cases r with
    | nil => exact absurd rfl hr
    | cons c cs =>
      simp at heq
      exact absurd heq.1 (hc' c (by simp)).2.2
  · rename_i r' heq
    exfalso
    match r, hr, hc', hk', heq with
    | [_], _, _, _, heq =>
      simp at heq
      rcases hp with rfl | hp
      · simp at heq
      · have : p.reverse.head? = some ' ' := by simpa using hp
        rw [heq.2] at this; simp at this
    | [_, _], _, _, _, heq =>
      simp at heq
      rcases hp with rfl | hp
      · simp at heq
      · have : p.reverse.head? = some ' ' := by simpa using hp
        rw [heq.2.2] at this; simp at this
    | [_, _, _], _, _, _, heq =>
      simp at heq
      rcases hp with rfl | hp
      · simp at heq
      · have : p.reverse.head? = some ' ' := by simpa using hp
        rw [heq.2.2.2] at this; simp at this
    | [_, _, _, _], _, _, _, heq =>
      simp at heq
      rcases hp with rfl | hp
      · simp at heq
      · have : p.reverse.head? = some ' ' := by simpa using hp
        rw [heq.2.2.2.2] at this; simp at this
    | [_, _, _, _, _], _, _, hk', heq =>
      simp at heq
      obtain ⟨rfl, rfl, rfl, rfl, rfl, _⟩ := heq
      exact hk' rfl
    | a :: b :: c :: d :: e :: f :: rest, _, hc', _, heq =>
      simp at heq
      obtain ⟨rfl, rfl, rfl, rfl, rfl, rfl, _⟩ := heq
      exact (hc' ' ' (by simp)).1 rfl
  · rfl

theorem ident_last {n : String} (h : Ident n) : n.toList.getLast? ≠ some ' ' := by
  intro hl
  exact (h.1 ' ' (List.mem_of_getLast? hl)).1 rfl

theorem keyword_text (k n : String) (hk : k.toList.getLast? ≠ some ' ') (hk0 : k ≠ "")
    (h : Ident n) :
    trimR (k ++ " " ++ n) = if n = "" then k else k ++ " " ++ n := by
  by_cases hn : n = ""
  · subst hn
    simp [trimR_append_blank k hk hk0]
  · rw [if_neg hn, trimR_self]
    have hne : n.toList ≠ [] := by
      intro h0; apply hn; exact String.toList_inj.mp (by simpa using h0)
    rw [String.toList_append, List.getLast?_append]
    have := ident_last h
    cases hg : n.toList.getLast? with
    | none => exact absurd (by simpa using hg) hne
    | some c => rw [hg] at this; simpa using this

theorem read_keyword (k n : String) (hk : readRev k.toList.reverse = .named k) (h : Ident n) :
    read (if n = "" then k else k ++ " " ++ n) =
      .named (if n = "" then k else k ++ " " ++ n) := by
  by_cases hn : n = ""
  · simp [hn, read, hk]
  · simp only [if_neg hn]
    have hne : n.toList ≠ [] := by
      intro h0; apply hn; exact String.toList_inj.mp (by simpa using h0)
    have := readRev_ident n.toList (k ++ " ").toList hne h.1
      (fun e => h.2 (String.toList_inj.mp e)) (Or.inr (by simp [String.toList_append]))
    unfold read
    rw [String.toList_append, List.reverse_append, this, ← String.toList_append]
    simp [String.append_assoc]

/-- The declaration text ends in a visible character and can be read back. -/
theorem read_declPrefix : ∀ t, Declarable t →
    read (declPrefix t) = meaning t ∧ (declPrefix t).toList.getLast? ≠ some ' ' ∧
      declPrefix t ≠ "" ∧ declPostfix t = ""
  | .ctype c n i, _ => by
    have key : read c.str = .named c.str ∧ c.str.toList.getLast? ≠ some ' ' ∧ c.str ≠ "" := by
      cases c <;> decide +kernel
    exact ⟨key.1, key.2.1, key.2.2, rfl⟩
  | .ptr i t, h => by
    obtain ⟨h1, h2, h3, h4⟩ := read_declPrefix t h
    refine ⟨?_, by simp [declPrefix, String.toList_append], ?_, rfl⟩
    · simp only [read, declPrefix, String.toList_append, meaning]
      rw [List.reverse_append]
      show Reading.pointer (readRev (declPrefix t).toList.reverse) = _
      rw [← h1]; rfl
    · intro h0
      have := congrArg String.toList h0
      simp [declPrefix, String.toList_append] at this
  | .ref i t, h => by
    obtain ⟨h1, h2, h3, h4⟩ := read_declPrefix t h
    refine ⟨?_, by simp [declPrefix, String.toList_append], ?_, rfl⟩
    · simp only [read, declPrefix, String.toList_append, meaning]
      rw [List.reverse_append]
      show Reading.reference (readRev (declPrefix t).toList.reverse) = _
      rw [← h1]; rfl
    · intro h0
      have := congrArg String.toList h0
      simp [declPrefix, String.toList_append] at this
  | .const i t, h => by
    obtain ⟨h1, h2, h3, h4⟩ := read_declPrefix t h
    have e : declPrefix (.const i t) = declPrefix t ++ " const" := by
      simp only [declPrefix, h4, String.append_empty, trimR_append_blank _ h2 h3]
      rw [String.append_assoc]; rfl
    refine ⟨?_, by simp [e, String.toList_append], ?_, rfl⟩
    · rw [e]
      simp only [read, String.toList_append, meaning]
      rw [List.reverse_append]
      show Reading.constant (readRev (declPrefix t).toList.reverse) = _
      rw [← h1]; rfl
    · intro h0
      rw [e] at h0
      have := congrArg String.toList h0
      simp [String.toList_append] at this
  | .tdef i n t, h => by
    have hne : n.toList ≠ [] := by
      intro h0; apply h.2; exact String.toList_inj.mp (by simpa using h0)
    refine ⟨?_, ident_last h.1, h.2, rfl⟩
    have := readRev_ident n.toList [] hne h.1.1 (fun e => h.1.2 (String.toList_inj.mp e))
      (Or.inl rfl)
    simpa [read, declPrefix, meaning] using this
  | .enum i n vs, h => by
    have hs : declPrefix (.enum i n vs) = if n = "" then "enum" else "enum " ++ n := by
      have := keyword_text "enum" n (by decide +kernel) (by decide) h
      simpa [declPrefix] using this
    refine ⟨?_, ?_, ?_, rfl⟩
    · rw [hs]
      have := read_keyword "enum" n (by decide +kernel) h
      simpa [meaning] using this
    · rw [hs]
      split
      · decide +kernel
      · rename_i hn
        have hne : n.toList ≠ [] := by
          intro h0; apply hn; exact String.toList_inj.mp (by simpa using h0)
        rw [String.toList_append, List.getLast?_append]
        have := ident_last h
        cases hg : n.toList.getLast? with
        | none => exact absurd (by simpa using hg) hne
        | some c => rw [hg] at this; simpa using this
    · rw [hs]
      split
      · decide
      · intro h0
        have := congrArg String.toList h0
        simp [String.toList_append] at this
  | .comp i kw n _ _ _ _, h => keyword kw n h
  | .incomplete f kw n, h => keyword kw n h
  | .fn .., h => h.elim
where
  keyword (kw : Kw) (n : String) (h : Ident n) :
      read (trimR (kw.str ++ " " ++ n)) =
        .named (if n = "" then kw.str else kw.str ++ " " ++ n) ∧
      (trimR (kw.str ++ " " ++ n)).toList.getLast? ≠ some ' ' ∧
      trimR (kw.str ++ " " ++ n) ≠ "" ∧ "" = "" := by
    have hl : kw.str.toList.getLast? ≠ some ' ' := by cases kw <;> decide +kernel
    have hk0 : kw.str ≠ "" := by cases kw <;> decide
    have hr : readRev kw.str.toList.reverse = .named kw.str := by cases kw <;> decide +kernel
    rw [keyword_text kw.str n hl hk0 h]
    refine ⟨read_keyword kw.str n hr h, ?_, ?_, rfl⟩
    · split
      · exact hl
      · rename_i hn
        have hne : n.toList ≠ [] := by
          intro h0; apply hn; exact String.toList_inj.mp (by simpa using h0)
        rw [String.toList_append, List.getLast?_append]
        have := ident_last h
        cases hg : n.toList.getLast? with
        | none => exact absurd (by simpa using hg) hne
        | some c => rw [hg] at this; simpa using this
    · split
      · exact hk0
      · intro h0
        have := congrArg String.toList h0
        simp [String.toList_append] at this

/-- C57 (partial: no function types, which C declares around the name).  The declaration text
    written for a type, read back token by token from the right, is the type: pointers,
    references and `const` appear in the right order around the right name. -/
theorem C57_round_trip_partial (t : Ty) (h : Declarable t) :
    read (declPrefix t) = meaning t ∧ fullName t = declPrefix t := by
  obtain ⟨h1, h2, h3, h4⟩ := read_declPrefix t h
  refine ⟨h1, ?_⟩
  simp [fullName, h4, trimR_append_blank _ h2 h3]

/-- `struct s const* const&`. -/
def exDecl : Ty :=
  .ref false (.const false (.ptr false (.const false (.comp false .struct "s" .nil false false
    .nil))))

example : Declarable exDecl ∧ declPrefix exDecl = "struct s const* const&" := by
  refine ⟨?_, by decide +kernel⟩
  simp only [exDecl, Declarable, Ident]
  decide

/-- C57.  A function type is written `<result>(` … `)(<parameter types>)` around the name. -/
theorem C57_function (i : Bool) (info : FnInfo) (s : String) (r : Ty) (ps : Params) :
    declPrefix (.fn i info s r ps) = declPrefix r ++ "(" ∧
    declPostfix (.fn i info s r ps) = ")(" ++ ", ".intercalate (paramDecls ps) ++ ")" :=
  ⟨rfl, rfl⟩

/-- C57.  A parameter is declared by its source text when known, otherwise by its type. -/
theorem C57_declare_string (s : String) (t : Ty) :
    (s ≠ "" → declareString s t = s) ∧ (s = "" → declareString s t = declPrefix t) := by
  constructor
  · intro h
    have : s.isEmpty = false := by simpa using h
    simp [declareString, this]
  · rintro rfl; rfl

/-- C57 is false for pointers to functions: the complete declaration text of `int (*)(char)` is
    `int(*`, with an unclosed parenthesis and without parameters. -/
theorem C57_refuted_function_pointer :
    fullName (.ptr false (.fn false { name := "" } "int" (.ctype .int false false)
      (.cons "char" (.ctype .char true false) "" .nil))) = "int(*" := by decide +kernel

/-! ### Prototypes -/

theorem append_right_inj' {a b c : String} (h : a ++ c = b ++ c) : a = b := by
  have := congrArg String.toList h
  simp only [String.toList_append] at this
  exact String.toList_inj.mp (List.append_cancel_right this)

theorem append_left_inj' {a b c : String} (h : a ++ b = a ++ c) : b = c := by
  have := congrArg String.toList h
  simp only [String.toList_append] at this
  exact String.toList_inj.mp (List.append_cancel_left this)

theorem intercalate_snoc_length (sep x : List Char) (hx : x ≠ []) : ∀ l : List (List Char),
    (sep.intercalate l).length < (sep.intercalate (l ++ [x])).length
  | [] => by
    have := List.length_pos_iff.mpr hx
    simpa [List.intercalate] using this
  | [a] => by
    have := List.length_pos_iff.mpr hx
    simp [List.intercalate]; omega
  | a :: b :: l => by
    have ih := intercalate_snoc_length sep x hx (b :: l)
    simp only [List.intercalate, List.intersperse, List.cons_append, List.flatten_cons,
      List.length_append] at ih ⊢
    omega

/-- C57.  The prototype text by which methods are compared reflects every part of the
    declaration: functions which differ only in being static, inline, variadic or const, in their
    name, or in the class they belong to have different prototypes. -/
theorem C57_prototype_sensitive (info : FnInfo) (s : String) (r : Ty) (ps : Params)
    (parent : Option String) :
    prototype { info with isStatic := true } s r ps parent ≠
      prototype { info with isStatic := false } s r ps parent ∧
    prototype { info with inlined := true } s r ps parent ≠
      prototype { info with inlined := false } s r ps parent ∧
    prototype { info with classConst := true } s r ps parent ≠
      prototype { info with classConst := false } s r ps parent ∧
    prototype { info with variadic := true } s r ps parent ≠
      prototype { info with variadic := false } s r ps parent ∧
    (∀ n m, n ≠ m → prototype { info with name := n } s r ps parent ≠
      prototype { info with name := m } s r ps parent) ∧
    (∀ c d : String, c ≠ d → prototype info s r ps (some c) ≠ prototype info s r ps (some d)) ∧
    (∀ c, prototype info s r ps (some c) ≠ prototype info s r ps none) ∧
    (∀ s', s ≠ "" → s' ≠ "" → s ≠ s' → prototype info s r ps parent ≠
      prototype info s' r ps parent) := by
  have len : ∀ a b : String, a.toList.length ≠ b.toList.length → a ≠ b := by
    rintro a b h rfl; exact h rfl
  refine ⟨?_, ?_, ?_, ?_, ?_, ?_, ?_, ?_⟩
  · apply len; simp [prototype, String.toList_append]; omega
  · apply len; simp [prototype, String.toList_append]; omega
  · apply len; simp [prototype, String.toList_append]
  · apply len
    have := intercalate_snoc_length [',', ' '] ['.', '.', '.'] (by simp)
      ((protoParams ps).map String.toList)
    simp [prototype, String.toList_append]
    omega
  · intro n m hnm h
    simp only [prototype, String.append_assoc] at h
    apply hnm
    have h := append_left_inj' h
    have h := append_left_inj' h
    have h := append_left_inj' h
    have h := append_left_inj' h
    have h := append_left_inj' h
    have h := append_left_inj' h
    exact append_right_inj' h
  · intro c d hcd h
    simp only [prototype, String.append_assoc] at h
    apply hcd
    have h := append_left_inj' h
    have h := append_left_inj' h
    have h := append_left_inj' h
    have h := append_left_inj' h
    have h := append_left_inj' h
    exact append_right_inj' h
  · intro c
    apply len; simp [prototype, String.toList_append]; omega
  · intro s' h1 h2 hne h
    have e1 : declareString s r = s := (C57_declare_string s r).1 h1
    have e2 : declareString s' r = s' := (C57_declare_string s' r).1 h2
    simp only [prototype, String.append_assoc, e1, e2] at h
    apply hne
    have h := append_left_inj' h
    have h := append_left_inj' h
    have h := append_left_inj' h
    exact append_right_inj' h

/-- A method with every modifier. -/
def exInfo : FnInfo where
  name := "m"
  isStatic := true
  inlined := true
  classConst := true
  variadic := true
  attributes := [("aligned", ["8"]), ("pure", [])]

example : prototype exInfo "int" (.ctype .int false false)
      (.cons "" (.ctype .char true false) "a" .nil) (some "c") =
    "static inline __attribute__((aligned(8))) __attribute__((pure)) int c::m(char a, ...) const" :=
  by decide +kernel

end EasyMock.Types
