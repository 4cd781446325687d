import Verif.CFile.SourceRead
import Verif.Props.Typed

/-! # CFile: the texts of typed functions

The conditions which `FunOk` and `SrcOk` put on texts follow from conditions on types and names. -/

namespace EasyMock.CFile.Txt

open EasyMock.Gen
open EasyMock.Types (Ty Params FunDecl)
open EasyMock.CDecl (Word Spellable Spellables NoFn IsFn)

/-! ## Brackets -/

/-- Behind the text `b` brackets are open if `a` are in front of it. -/
def Moves (t : String) (a b : Nat) : Prop := ∀ d r, nests (a + d) (t.toList ++ r) = nests (b + d) r

theorem Moves.append {t u : String} {a b c : Nat} (h : Moves t a b) (h' : Moves u b c) : Moves (t ++ u) a c := by
  intro d r
  rw [String.toList_append, List.append_assoc, h, h']

theorem Moves.shift {t : String} {a b : Nat} (h : Moves t a b) (k : Nat) : Moves t (a + k) (b + k) := by
  intro d r
  rw [Nat.add_assoc, Nat.add_assoc, h]

theorem nests_flat : ∀ (t : List Char) (_ : ∀ c ∈ t, ¬(c = '(' ∨ c = '[') ∧ ¬(c = ')' ∨ c = ']')) (d : Nat) (r : List Char),
    nests d (t ++ r) = nests d r
  | [], _, _, _ => rfl
  | c :: t, h, d, r => by
    have hc := h c (by simp)
    simp only [List.cons_append, nests, hc.1, hc.2, if_false]
    exact nests_flat t (fun x hx => h x (by simp [hx])) d r

theorem Moves.flat {t : String} (h : ∀ c ∈ t.toList, ¬(c = '(' ∨ c = '[') ∧ ¬(c = ')' ∨ c = ']')) (a : Nat) : Moves t a a :=
  fun _ _ => nests_flat _ h _ _

theorem Moves.empty (a : Nat) : Moves "" a a := fun _ _ => rfl

theorem nests_append : ∀ (t : List Char) (d e : Nat) (r : List Char), nests d t = true → nests (d + e) (t ++ r) = nests e r
  | [], d, e, r, h => by
    have : d = 0 := by simpa [nests] using h
    subst this; simp
  | c :: t, d, e, r, h => by
    by_cases h1 : c = '(' ∨ c = '['
    · simp only [nests, h1, if_true] at h
      have := nests_append t (d + 1) e r h
      simp only [List.cons_append, nests, h1, if_true]
      rw [show d + e + 1 = d + 1 + e by omega]
      exact this
    · by_cases h2 : c = ')' ∨ c = ']'
      · simp only [nests, h1, h2, if_true, if_false, Bool.and_eq_true, bne_iff_ne] at h
        have := nests_append t (d - 1) e r h.2
        simp only [List.cons_append, nests, h1, h2, if_true, if_false]
        rw [show d + e - 1 = d - 1 + e by omega, this]
        have : (d + e != 0) = true := by simp; omega
        rw [this, Bool.true_and]
      · simp only [nests, h1, h2, if_false] at h
        simp only [List.cons_append, nests, h1, h2, if_false]
        exact nests_append t d e r h

theorem Moves.of {t : String} (h : nests 0 t.toList = true) (a : Nat) : Moves t a a := by
  intro d r
  have := nests_append t.toList 0 (a + d) r h
  rwa [Nat.zero_add] at this

theorem Moves.nests {t : String} (h : Moves t 0 0) : nests 0 t.toList = true := by
  have := h 0 []
  simpa [CFile.nests] using this

theorem Moves.lit {t : String} {a b : Nat} (c : List Char) (e : t.toList = c) (h : ∀ d r, CFile.nests (a + d) (c ++ r) = CFile.nests (b + d) r) :
    Moves t a b := fun d r => by rw [e]; exact h d r

theorem moves_open (a : Nat) : Moves "(" a (a + 1) := by
  intro d r
  have e : "(".toList = ['('] := by decide +kernel
  rw [e]
  show CFile.nests (a + d) ('(' :: r) = _
  simp only [CFile.nests, true_or, if_true]
  rw [show a + d + 1 = a + 1 + d by omega]

theorem moves_close (a : Nat) : Moves ")" (a + 1) a := by
  intro d r
  have e : ")".toList = [')'] := by decide +kernel
  rw [e]
  show CFile.nests (a + 1 + d) (')' :: r) = _
  have h1 : ¬(')' = '(' ∨ ')' = '[') := by decide
  simp only [CFile.nests, h1, if_false, true_or, if_true]
  have : (a + 1 + d != 0) = true := by simp
  rw [this, Bool.true_and, show a + 1 + d - 1 = a + d by omega]

theorem moves_closeOpen (a : Nat) : Moves ")(" (a + 1) (a + 1) := by
  have e : ")(" = ")" ++ "(" := by decide +kernel
  rw [e]
  exact (moves_close a).append (moves_open a)

/-! ## Texts -/

/-- Plain characters and a first character which starts a type. -/
structure Starts (t : String) : Prop where
  plain : Plain t
  first : ∃ c r, t.toList = c :: r ∧ (identChar c = true ∨ c = ':')

/-- The text does not end with white space. -/
def Closed (t : String) : Prop := ∀ x ∈ t.toList.getLast?, blank x = false

theorem Starts.append {t u : String} (h : Starts t) (hu : Plain u) : Starts (t ++ u) := by
  obtain ⟨c, r, e, hc⟩ := h.first
  exact ⟨h.plain.append hu, c, r ++ u.toList, by rw [String.toList_append, e]; rfl, hc⟩

theorem Closed.append {t u : String} (h : Closed u) (h0 : u ≠ "") : Closed (t ++ u) := by
  intro x hx
  rw [String.toList_append, List.getLast?_append] at hx
  cases hu : u.toList.getLast? with
  | none =>
    have : u.toList = [] := by simpa using hu
    exact absurd (String.toList_inj.mp (by rw [this]; rfl)) h0
  | some y =>
    rw [hu] at hx
    exact h x (by rw [hu]; simpa using hx)

theorem Closed.appendOr {t u : String} (h : Closed u) (ht : Closed t) : Closed (t ++ u) := by
  by_cases h0 : u = ""
  · subst h0; rw [String.append_empty]; exact ht
  · exact h.append h0

theorem typeText {t : String} (h : Starts t) (hc : Closed t) (hm : Moves t 0 0) : TypeText t.toList :=
  ⟨h.plain, hm.nests, h.first, hc⟩

theorem plain_empty : Plain "" := by intro c hc; cases hc
theorem plain_space : Plain " " := by unfold Plain; decide +kernel
theorem plain_comma : Plain ", " := by unfold Plain; decide +kernel
theorem plain_open : Plain "(" := by unfold Plain; decide +kernel
theorem plain_close : Plain ")" := by unfold Plain; decide +kernel
theorem plain_closeOpen : Plain ")(" := by unfold Plain; decide +kernel
theorem moves_space (a : Nat) : Moves " " a a := Moves.flat (by decide +kernel) a
theorem moves_comma (a : Nat) : Moves ", " a a := Moves.flat (by decide +kernel) a

theorem word_char {c : Char} (h : CDecl.wordChar c = true) : plainChar c = true ∧ ¬(c = '(' ∨ c = '[') ∧ ¬(c = ')' ∨ c = ']') ∧
    blank c = false ∧ (identChar c = true ∨ c = ':') := by
  unfold CDecl.wordChar at h
  by_cases hi : identChar c = true
  · exact ⟨ident_plain hi, (ident_bracket hi).1, (ident_bracket hi).2, ident_blank hi, Or.inl hi⟩
  · have : c = ':' := by
      unfold identChar at hi
      simp only [Bool.or_eq_true, beq_iff_eq] at h hi
      rcases h with h | h
      · exact absurd h hi
      · exact h
    subst this
    exact ⟨by decide, by decide, by decide, by decide, Or.inr rfl⟩

/-- The texts of words. -/
theorem word_text {n : String} (h : Word n) : Starts n ∧ Closed n ∧ ∀ a, Moves n a a := by
  have hne : n.toList ≠ [] := fun h0 => h.1 (String.toList_inj.mp (by rw [h0]; rfl))
  refine ⟨⟨fun c hc => (word_char (h.2.1 c hc)).1, ?_⟩, fun x hx => (word_char (h.2.1 x (List.mem_of_getLast? hx))).2.2.2.1,
    Moves.flat (fun c hc => ⟨(word_char (h.2.1 c hc)).2.1, (word_char (h.2.1 c hc)).2.2.1⟩)⟩
  cases hl : n.toList with
  | nil => exact absurd hl hne
  | cons c r => exact ⟨c, r, rfl, (word_char (h.2.1 c (by rw [hl]; simp))).2.2.2.2⟩

theorem ident_closed {n : String} (h : Ident n.toList) : Closed n := h.type.last
theorem ident_moves {n : String} (h : Ident n.toList) (a : Nat) : Moves n a a := Moves.of h.type.nests a

theorem starts_of {t : String} (h : TypeText t.toList) : Starts t := ⟨h.plain, h.first⟩

/-! ## Types -/

/-- The brackets which the text of a type leaves open. -/
def opens : Ty → Nat
  | .ptr _ t | .ref _ t | .const _ t => opens t
  | .fn _ _ _ r _ => opens r + 1
  | _ => 0

theorem opens_noFn : ∀ (t : Ty), NoFn t → opens t = 0
  | .ctype .., _ | .tdef .., _ | .enum .., _ | .comp .., _ | .incomplete .., _ => rfl
  | .ptr _ t, h | .ref _ t, h | .const _ t, h => opens_noFn t h
  | .fn .., h => h.elim

/-- The text in front of a name. -/
structure PrefixOk (t : Ty) : Prop where
  starts : Starts (Types.declPrefix t)
  closed : Closed (Types.declPrefix t)
  moves : Moves (Types.declPrefix t) 0 (opens t)

theorem two_words {k n : String} (hk : Word k) (h : Word n) : Starts (Types.trimR (k ++ " " ++ n)) ∧ Closed (Types.trimR (k ++ " " ++ n)) ∧
    Moves (Types.trimR (k ++ " " ++ n)) 0 0 := by
  rw [Types.keyword_text k n (CDecl.last_word hk) hk.1 (CDecl.word_ident h), if_neg h.1]
  obtain ⟨a1, a2, a3⟩ := word_text hk
  obtain ⟨b1, b2, b3⟩ := word_text h
  refine ⟨?_, b2.append h.1, ((a3 0).append (moves_space 0)).append (b3 0)⟩
  exact (a1.append plain_space).append b1.plain

theorem scalar_text (c : Types.CT) : Starts c.str ∧ Closed c.str ∧ Moves c.str 0 0 := by
  refine ⟨⟨?_, ?_⟩, ?_, Moves.flat ?_ 0⟩
  · cases c <;> (unfold Plain; decide +kernel)
  · cases c
    case char => exact ⟨'c', "har".toList, by decide +kernel, by decide⟩
    case uchar => exact ⟨'u', "nsigned char".toList, by decide +kernel, by decide⟩
    case schar => exact ⟨'s', "igned char".toList, by decide +kernel, by decide⟩
    case short => exact ⟨'s', "hort".toList, by decide +kernel, by decide⟩
    case ushort => exact ⟨'u', "nsigned short".toList, by decide +kernel, by decide⟩
    case int => exact ⟨'i', "nt".toList, by decide +kernel, by decide⟩
    case uint => exact ⟨'u', "nsigned int".toList, by decide +kernel, by decide⟩
    case long => exact ⟨'l', "ong".toList, by decide +kernel, by decide⟩
    case ulong => exact ⟨'u', "nsigned long".toList, by decide +kernel, by decide⟩
    case longLong => exact ⟨'l', "ong long".toList, by decide +kernel, by decide⟩
    case ulongLong => exact ⟨'u', "nsigned long long".toList, by decide +kernel, by decide⟩
    case float => exact ⟨'f', "loat".toList, by decide +kernel, by decide⟩
    case double => exact ⟨'d', "ouble".toList, by decide +kernel, by decide⟩
    case longDouble => exact ⟨'l', "ong double".toList, by decide +kernel, by decide⟩
    case int128 => exact ⟨'_', "_int128".toList, by decide +kernel, by decide⟩
    case uint128 => exact ⟨'u', "nsigned __int128".toList, by decide +kernel, by decide⟩
    case void => exact ⟨'v', "oid".toList, by decide +kernel, by decide⟩
    case invalid => exact ⟨'i', "nvalid".toList, by decide +kernel, by decide⟩
  · cases c <;> (unfold Closed; decide +kernel)
  · cases c <;> decide +kernel

theorem trim_prefix {t : Ty} {b : Bool} (h : Spellable b t) (hf : ¬ IsFn t) :
    Types.trimR (Types.declPrefix t ++ " " ++ Types.declPostfix t) = Types.declPrefix t := by
  obtain ⟨-, h2, h3, h4⟩ := CDecl.run_prefix t b [] h
  rw [h4 hf, String.append_empty, Types.trimR_append_blank _ h2 h3]

theorem plain_const : Plain " const" := by unfold Plain; decide +kernel
theorem closed_const : Closed "const" := by unfold Closed; decide +kernel

theorem prefix_ok : ∀ (t : Ty) (b : Bool), Spellable b t → PrefixOk t
  | .ctype c _ _, _, _ => ⟨(scalar_text c).1, (scalar_text c).2.1, (scalar_text c).2.2⟩
  | .ptr i t, _, h => by
    have ih := prefix_ok t true h
    refine ⟨ih.starts.append ?_, Closed.append ?_ (by decide +kernel), ih.moves.append (Moves.flat (by decide +kernel) _)⟩
    · unfold Plain; decide +kernel
    · unfold Closed; decide +kernel
  | .ref i t, _, h => by
    have ih := prefix_ok t true h.1
    refine ⟨ih.starts.append ?_, Closed.append ?_ (by decide +kernel), ih.moves.append (Moves.flat (by decide +kernel) _)⟩
    · unfold Plain; decide +kernel
    · unfold Closed; decide +kernel
  | .const i t, b, h => by
    have ih := prefix_ok t b h.1
    have e : Types.declPrefix (.const i t) = Types.declPrefix t ++ " " ++ "const" := by
      rw [Types.declPrefix, trim_prefix h.1 h.2]
    refine ⟨?_, ?_, ?_⟩
    · rw [e]
      exact (ih.starts.append plain_space).append (by unfold Plain; decide +kernel)
    · rw [e]
      exact closed_const.append (by decide +kernel)
    · rw [e]
      exact (ih.moves.append (moves_space _)).append (Moves.flat (by decide +kernel) _)
  | .tdef _ n _, _, h => ⟨(word_text h.1).1, (word_text h.1).2.1, (word_text h.1).2.2 0⟩
  | .enum _ n _, _, h => by
    have := two_words CDecl.word_enum h
    rw [show "enum" ++ " " = "enum " by decide +kernel] at this
    exact ⟨this.1, this.2.1, this.2.2⟩
  | .comp _ kw n _ _ _ _, _, h | .incomplete _ kw n, _, h => by
    have := two_words (CDecl.word_kw kw) h
    rw [← CDecl.kw_text] at this
    exact ⟨this.1, this.2.1, this.2.2⟩
  | .fn _ _ _ r _, _, h => by
    have ih := prefix_ok r false h.2.2.1
    refine ⟨ih.starts.append plain_open, Closed.append ?_ (by decide +kernel), ih.moves.append (moves_open _)⟩
    unfold Closed; decide +kernel

/-! ## Lists of parameters -/

/-- The text of an entry. -/
def entryText (e : String × String × Gen.Out × XDecl) : String := e.1 ++ " " ++ e.2.1 ++ e.2.2.2.text

theorem plist_ok : ∀ (l : PList), (∀ e ∈ l.entries, Plain (entryText e) ∧ Moves (entryText e) 0 0) → Plain l.text ∧ Moves l.text 0 0
  | .nil, _ => ⟨plain_empty, Moves.empty 0⟩
  | .cons t n o x .nil, h => h (t, n, o, x) (by simp [PList.entries])
  | .cons t n o x (.cons t' n' o' x' rest), h => by
    have h1 := h (t, n, o, x) (by simp [PList.entries])
    have h2 := plist_ok (.cons t' n' o' x' rest) (fun e he => h e (by rw [PList.entries]; exact List.mem_cons_of_mem _ he))
    rw [PList.text]
    exact ⟨(h1.1.append plain_comma).append h2.1, (h1.2.append (moves_comma 0)).append h2.2⟩

/-- The text behind a name. -/
structure ExtraOk (x : XDecl) (n : Nat) : Prop where
  plain : Plain x.text
  closed : Closed x.text
  moves : Moves x.text n 0

theorem extra_none : ExtraOk .none 0 :=
  ⟨plain_empty, fun x hx => (by cases hx), Moves.empty 0⟩

theorem name_word (n : String) (k : Nat) (h : n = "" ∨ Word n) : Word (if n.isEmpty then "__easymock_param" ++ toString k else n) := by
  split
  · exact CDecl.unnamed_word k
  · rename_i he
    rcases h with rfl | h
    · simp at he
    · exact h

mutual
theorem extra_ok : ∀ (t : Ty) (b : Bool) (k : Nat), Spellable b t → ExtraOk (extraOf b k t).1 (opens t)
  | .ptr i t, b, k, h => by
    rw [show extraOf b k (.ptr i t) = extraOf true k t by cases b <;> rfl]
    exact extra_ok t true k h
  | .const i t, b, k, h => by
    rw [show extraOf b k (.const i t) = extraOf b k t by cases b <;> rfl]
    exact extra_ok t b k h.1
  | .ref i t, true, k, h => extra_ok t true k h.1
  | .ref i t, false, k, h => by
    rw [show extraOf false k (.ref i t) = (.none, k) by rfl, show opens (.ref i t) = 0 from opens_noFn t (h.2 rfl)]
    exact extra_none
  | .tdef i n t, true, k, h => by
    rw [show extraOf true k (.tdef i n t) = extraOf true k t by rfl, CDecl.extraOf_noFn t true k (h.2 rfl)]
    exact extra_none
  | .tdef i n t, false, k, _ => extra_none
  | .ctype .., b, k, _ | .enum .., b, k, _ | .comp .., b, k, _ | .incomplete .., b, k, _ => by
    cases b <;> exact extra_none
  | .fn i info s r ps, false, k, h => by cases h.1
  | .fn i info s r ps, true, k, h => by
    have h1 := params_ok ps k h.2.2.2
    have h2 := extra_ok r false (paramSection k ps).2 h.2.2.1
    have hm := h1.2.shift (opens r + 1)
    rw [Nat.zero_add] at hm
    rw [show (extraOf true k (.fn i info s r ps)).1 = .decl (paramSection k ps).1 (extraOf false (paramSection k ps).2 r).1 by rfl]
    refine ⟨?_, ?_, ?_⟩
    · rw [XDecl.text]
      exact ((plain_closeOpen.append h1.1).append plain_close).append h2.plain
    · rw [XDecl.text]
      refine h2.closed.appendOr (Closed.append ?_ (by decide +kernel))
      unfold Closed; decide +kernel
    · rw [XDecl.text]
      exact (((moves_closeOpen (opens r)).append hm).append (moves_close (opens r))).append h2.moves

theorem params_ok : ∀ (ps : Params) (k : Nat), Spellables ps → Plain (paramSection k ps).1.text ∧ Moves (paramSection k ps).1.text 0 0
  | ps, k, h => plist_ok _ (entries_ok ps k h)

theorem entries_ok : ∀ (ps : Params) (k : Nat), Spellables ps →
    ∀ e ∈ (paramSection k ps).1.entries, Plain (entryText e) ∧ Moves (entryText e) 0 0
  | .nil, k, _ => by rw [paramSection]; intro e he; cases he
  | .cons s t n rest, k, h => by
    intro e he
    rw [Gen.paramSection_cons] at he
    rw [PList.entries, List.mem_cons] at he
    rcases he with rfl | he
    · have hp := prefix_ok t false h.2.1
      have hx := extra_ok t false k h.2.1
      obtain ⟨n1, n2, n3⟩ := word_text (name_word n (extraOf false k t).2 h.2.2.1)
      unfold entryText
      simp only
      rw [CDecl.declare_eq h.1]
      exact ⟨((hp.starts.plain.append plain_space).append n1.plain).append hx.plain,
        ((hp.moves.append (moves_space _)).append (n3 _)).append hx.moves⟩
    · exact entries_ok rest _ h.2.2.2 e he
end

theorem no_extra : ∀ (t : Ty) (b : Bool) (k : Nat), Spellable b t → opens t = 0 → (extraOf b k t).1 = .none
  | .ptr i t, b, k, h, h0 => by
    rw [show extraOf b k (.ptr i t) = extraOf true k t by cases b <;> rfl]
    exact no_extra t true k h h0
  | .const i t, b, k, h, h0 => by
    rw [show extraOf b k (.const i t) = extraOf b k t by cases b <;> rfl]
    exact no_extra t b k h.1 h0
  | .ref i t, true, k, h, h0 => no_extra t true k h.1 h0
  | .ref i t, false, k, _, _ => rfl
  | .tdef i n t, true, k, h, _ => by
    rw [show extraOf true k (.tdef i n t) = extraOf true k t by rfl, CDecl.extraOf_noFn t true k (h.2 rfl)]
  | .tdef i n t, false, k, _, _ => rfl
  | .ctype .., b, k, _, _ | .enum .., b, k, _, _ | .comp .., b, k, _, _ | .incomplete .., b, k, _, _ => by
    cases b <;> rfl
  | .fn .., _, _, _, h0 => by simp [opens] at h0

/-! ## Functions -/

/-- The text of a declarator in the source: none, that of the type, or another one. -/
def Written (s : String) (t : Ty) : Prop := s = "" ∨ s = Types.declPrefix t ∨ TypeText s.toList ∧ opens t = 0

theorem written_ok {s : String} {t : Ty} (hs : Spellable false t) (h : Written s t) :
    Starts (Types.declareString s t) ∧ Closed (Types.declareString s t) ∧ Moves (Types.declareString s t) 0 (opens t) := by
  have hp := prefix_ok t false hs
  rcases h with h | h | ⟨h1, h2⟩
  · rw [CDecl.declare_eq (Or.inl h)]; exact ⟨hp.starts, hp.closed, hp.moves⟩
  · rw [CDecl.declare_eq (Or.inr h)]; exact ⟨hp.starts, hp.closed, hp.moves⟩
  · unfold Types.declareString
    split
    · exact ⟨hp.starts, hp.closed, hp.moves⟩
    · rw [h2]; exact ⟨starts_of h1, h1.last, Moves.of h1.nests 0⟩

/-- A parameter which the generated files can declare: a spellable type; in C++ and for an output no pointer to a function which is
    written out; the type behind a reference has a name. -/
structure ParamText (c : Config) (s : String) (t : Ty) (n : String) : Prop where
  spell : Spellable false t
  text : Written s t
  name : n = "" ∨ Ident n.toList
  out : output t ≠ .none → opens t = 0
  flat : c.cpp = true → opens t = 0
  raw : reference t = true → TypeText (Types.attrs (Types.rawType t)).name.toList

/-- The same for all parameters. -/
inductive ParamsText (c : Config) : Params → Prop
  | nil : ParamsText c .nil
  | cons {s t n rest} : ParamText c s t n → ParamsText c rest → ParamsText c (.cons s t n rest)

/-- Plain characters and brackets which match. -/
def Balanced (t : String) : Prop := Plain t ∧ nests 0 t.toList = true

/-- The first word of a text. -/
def firstWord (t : String) : List Char := t.toList.takeWhile CDecl.wordChar

/-- A function which the generated files can declare. -/
structure FunText (c : Config) (f : FunDecl) : Prop where
  name : Ident f.info.name.toList
  origin : '\n' ∉ f.originFile.toList ∧ '\\' ∉ f.originFile.toList
  spaces : c.cpp = true → ∀ n ∈ f.ns, Ident n.toList
  cls : ∀ p ∈ f.parent, Ident (Types.attrs p).name.toList
  params : ParamsText c f.params
  spell : Spellable false f.ret
  text : Written f.retStr f.ret
  flat : c.cpp = true → opens f.ret = 0
  attrs : ∀ a ∈ keptAttrs c f, Balanced a.1 ∧ ∀ x ∈ a.2, Balanced x
  word : firstWord (Types.declareString f.retStr f.ret) ≠ "namespace".toList ∧
    firstWord (Types.declareString f.retStr f.ret) ≠ "static".toList

theorem name_ident (n : String) (k : Nat) (h : n = "" ∨ Ident n.toList) :
    Ident (if n.isEmpty then "__easymock_param" ++ toString k else n).toList := by
  split
  · refine Ident.append ⟨by decide +kernel, by decide +kernel⟩ (fun c hc => ?_)
    have e : (toString k).toList = Nat.toDigits 10 k := by simp [toString, Nat.repr]
    rw [e] at hc
    have : c.isDigit = true := Nat.isDigit_of_mem_toDigits (by decide) (by decide) hc
    simp [identChar, Char.isAlphanum, this]
  · rename_i he
    rcases h with rfl | h
    · simp at he
    · exact h

/-- What holds for an entry of the section of the parameters and the member for it. -/
structure EntryOk (c : Config) (e : String × String × Gen.Out × XDecl) (m : MemberType) : Prop where
  name : Ident e.2.1.toList
  plain : Plain (entryText e)
  moves : Moves (entryText e) 0 0
  type : Starts e.1
  member : MemberOk (e, m)
  matcher : c.cpp = true → TypeText e.1.toList
  out : e.2.2.1 ≠ .none → TypeText e.1.toList

theorem unqualify_opens (t : Ty) : opens (unqualify t) = opens t := by cases t <;> rfl

theorem deref_ok : ∀ (t : Ty) (b : Bool), Spellable b t → opens t = 0 →
    ∃ b', Spellable b' (Types.dereferenced t) ∧ opens (Types.dereferenced t) = 0
  | .ref _ t, _, h, h0 => deref_ok t true h.1 h0
  | .ctype .., b, h, h0 | .ptr .., b, h, h0 | .const .., b, h, h0 | .tdef .., b, h, h0 | .enum .., b, h, h0
  | .comp .., b, h, h0 | .incomplete .., b, h, h0 | .fn .., b, h, h0 => ⟨b, h, h0⟩

theorem full_ok {t : Ty} {b : Bool} (h : Spellable b t) (h0 : opens t = 0) : TypeText (Types.fullName t).toList := by
  have hf : ¬ IsFn t := by cases t <;> simp [opens, IsFn] at h0 ⊢
  have hp := prefix_ok t b h
  unfold Types.fullName
  rw [trim_prefix h hf]
  exact typeText hp.starts hp.closed (h0 ▸ hp.moves)

/-- The text of a declaration. -/
theorem declared_ok {a n : String} {x : XDecl} {k : Nat} (h1 : Starts a) (h2 : Moves a 0 k) (hn : Ident n.toList) (hx : ExtraOk x k) :
    TypeText (a ++ " " ++ n ++ x.text).toList := by
  refine typeText ((h1.append plain_space).append hn.plain |>.append hx.plain) ?_
    (((h2.append (moves_space _)).append (ident_moves hn _)).append hx.moves)
  refine hx.closed.appendOr ((ident_closed hn).append ?_)
  rintro rfl
  exact hn.1 rfl

theorem reference_opens {t : Ty} (h : Spellable false t) (hr : reference t = true) : opens t = 0 := by
  cases t with
  | ref i u => exact opens_noFn u (h.2 rfl)
  | const i u =>
    cases u with
    | ref j u => exact opens_noFn u (h.1.2 rfl)
    | _ => cases hr
  | _ => cases hr

theorem member_ok {c : Config} {s n : String} {t : Ty} (h : ParamText c s t n) (o : Gen.Out) (k : Nat) {m : String} (hn : Ident m.toList) :
    MemberOk ((Types.declareString s t, m, o, (extraOf false k t).1), memberOf s t) := by
  have hx := extra_ok t false k h.spell
  obtain ⟨w1, w2, w3⟩ := written_ok h.spell h.text
  by_cases hr : reference t = true
  · have h0 := reference_opens h.spell hr
    obtain ⟨b, d1, d2⟩ := deref_ok t false h.spell h0
    have : memberOf s t = .reference (Types.attrs (Types.rawType t)).name (Types.fullName (Types.dereferenced t)) := by
      cases t with
      | ref i u => rfl
      | const i u =>
        cases u with
        | ref j u => rfl
        | _ => cases hr
      | _ => cases hr
    rw [this]
    exact ⟨h.raw hr, full_ok d1 d2⟩
  · have hr : reference t = false := by simpa using hr
    by_cases hp : pointer t = true
    · rw [member_pointer s t hp]
      exact declared_ok w1 w3 hn hx
    · rw [member_plain s t (by simpa using hp) hr]
      have hu := prefix_ok (unqualify t) false (spellable_unqualify h.spell)
      have hm := hu.moves
      rw [unqualify_opens] at hm
      rw [full_text (spellable_unqualify h.spell)]
      exact declared_ok hu.starts hm hn hx

theorem entries_text {c : Config} : ∀ (ps : Params) (k : Nat), ParamsText c ps →
    (membersOf ps).length = (paramSection k ps).1.entries.length ∧
    ∀ p ∈ (paramSection k ps).1.entries.zip (membersOf ps), EntryOk c p.1 p.2
  | .nil, k, _ => by rw [paramSection]; exact ⟨rfl, fun p hp => by cases hp⟩
  | .cons s t n rest, k, .cons h hr => by
    rw [Gen.paramSection_cons]
    obtain ⟨i1, i2⟩ := entries_text rest (if n.isEmpty then (extraOf false k t).2 + 1 else (extraOf false k t).2) hr
    rw [PList.entries, membersOf]
    refine ⟨by simp [i1], ?_⟩
    intro p hp
    rw [List.zip_cons_cons, List.mem_cons] at hp
    rcases hp with rfl | hp
    · have hn := name_ident n (extraOf false k t).2 h.name
      obtain ⟨w1, w2, w3⟩ := written_ok h.spell h.text
      have hd := declared_ok w1 w3 hn (extra_ok t false k h.spell)
      exact ⟨hn, hd.plain, Moves.of hd.nests 0, w1, member_ok h _ k hn, fun hc => typeText w1 w2 (h.flat hc ▸ w3),
        fun ho => typeText w1 w2 (h.out ho ▸ w3)⟩
    · exact i2 p hp

theorem attr_ok {a : String × List String} (h : Balanced a.1 ∧ ∀ x ∈ a.2, Balanced x) :
    Starts (attrText a) ∧ Moves (attrText a) 0 0 := by
  have hs : ∀ l : List String, (∀ x ∈ l, Balanced x) → Plain (expandSep id ", " l) ∧ Moves (expandSep id ", " l) 0 0 := by
    intro l
    induction l with
    | nil => intro _; exact ⟨plain_empty, Moves.empty 0⟩
    | cons x l ih =>
      intro hl
      have hx := hl x (by simp)
      cases l with
      | nil => exact ⟨hx.1, Moves.of hx.2 0⟩
      | cons y l =>
        have ih := ih (fun z hz => hl z (by simp [hz]))
        exact ⟨(hx.1.append plain_comma).append ih.1, ((Moves.of hx.2 0).append (moves_comma 0)).append ih.2⟩
  have h1 : Plain (if a.2.isEmpty then "" else "(" ++ expandSep id ", " a.2 ++ ")") ∧
      Moves (if a.2.isEmpty then "" else "(" ++ expandSep id ", " a.2 ++ ")") 0 0 := by
    split
    · exact ⟨plain_empty, Moves.empty 0⟩
    · have := hs a.2 h.2
      exact ⟨(plain_open.append this.1).append plain_close, ((moves_open 0).append (this.2.shift 1)).append (moves_close 0)⟩
  have ho : Moves "__attribute__((" 0 2 := by
    have e : "__attribute__((" = "__attribute__" ++ "(" ++ "(" := by decide +kernel
    rw [e]
    exact ((Moves.flat (by decide +kernel) 0).append (moves_open 0)).append (moves_open 1)
  have hcl : Moves ")) " 2 0 := by
    have e : ")) " = ")" ++ ")" ++ " " := by decide +kernel
    rw [e]
    exact ((moves_close 1).append (moves_close 0)).append (moves_space 0)
  have hst : Starts "__attribute__((" :=
    ⟨by unfold Plain; decide +kernel, '_', "_attribute__((".toList, by decide +kernel, Or.inl (by decide)⟩
  unfold attrText
  refine ⟨((hst.append h.1.1).append h1.1).append (by unfold Plain; decide +kernel), ?_⟩
  exact ((ho.append ((Moves.of h.1.2 2))).append (h1.2.shift 2)).append hcl

theorem attrs_ok : ∀ (l : List (String × List String)), (∀ a ∈ l, Balanced a.1 ∧ ∀ x ∈ a.2, Balanced x) →
    (l = [] ∨ (Starts (expandSep attrText " " l) ∧ ∃ r, (expandSep attrText " " l).toList = "__attribute__(".toList ++ r)) ∧
    Moves (expandSep attrText " " l) 0 0
  | [], _ => ⟨Or.inl rfl, Moves.empty 0⟩
  | a :: l, h => by
    have ha := attr_ok (h a (by simp))
    have hh : ∃ r, (attrText a).toList = "__attribute__(".toList ++ r := by
      refine ⟨'(' :: (a.1 ++ (if a.2.isEmpty then "" else "(" ++ expandSep id ", " a.2 ++ ")") ++ ")) ").toList, ?_⟩
      unfold attrText
      simp only [String.toList_append]
      have e : "__attribute__((".toList = "__attribute__(".toList ++ ['('] := by decide +kernel
      rw [e]
      simp [List.append_assoc]
    obtain ⟨r, hr⟩ := hh
    cases l with
    | nil => exact ⟨Or.inr ⟨ha.1, r, hr⟩, ha.2⟩
    | cons b l =>
      have ih := attrs_ok (b :: l) (fun x hx => h x (by simp [hx]))
      have hp : Starts (expandSep attrText " " (b :: l)) := (ih.1.resolve_left (by simp)).1
      refine ⟨Or.inr ⟨(ha.1.append plain_space).append hp.plain, ?_⟩, (ha.2.append (moves_space 0)).append ih.2⟩
      refine ⟨r ++ " ".toList ++ (expandSep attrText " " (b :: l)).toList, ?_⟩
      rw [show expandSep attrText " " (a :: b :: l) = attrText a ++ " " ++ expandSep attrText " " (b :: l) from rfl]
      rw [String.toList_append, String.toList_append, hr]
      simp [List.append_assoc]

section
variable {c : Config} {k : Nat} {f : FunDecl}

/-- The section of the function. -/
theorem sec_fields (c : Config) (k : Nat) (f : FunDecl) : ∃ k1 k2,
    (funSection c k f).1.params = (paramSection k1 f.params).1 ∧ (funSection c k f).1.topExtra = (extraOf false k f.ret).1 ∧
    ((funSection c k f).1.hasReturn = true → (funSection c k f).1.retExtra = (extraOf false k2 f.ret).1) := by
  refine ⟨(if (!returnsVoid f.ret) then extraOf false (extraOf false k f.ret).2 f.ret else (.none, (extraOf false k f.ret).2)).2,
    (extraOf false k f.ret).2, rfl, rfl, fun h => ?_⟩
  have h' : (!returnsVoid f.ret) = true := h
  simp [funSection, h']

theorem parameters_ok (h : FunText c f) : Plain (parameters (funSection c k f).1) ∧ Moves (parameters (funSection c k f).1) 0 0 ∧
    Closed (parameters (funSection c k f).1) ∧ parameters (funSection c k f).1 ≠ "" ∧
    ∃ r, (parameters (funSection c k f).1).toList = '(' :: r := by
  obtain ⟨k1, k2, e1, e2, e3⟩ := sec_fields c k f
  have hl := (entries_text f.params k1 h.params)
  have he : ∀ e ∈ (paramSection k1 f.params).1.entries, Plain (entryText e) ∧ Moves (entryText e) 0 0 := by
    intro e he
    obtain ⟨m, hm⟩ : ∃ m, (e, m) ∈ (paramSection k1 f.params).1.entries.zip (membersOf f.params) := by
      obtain ⟨i, hi, rfl⟩ := List.mem_iff_getElem.mp he
      have hi' : i < (membersOf f.params).length := by rw [hl.1]; exact hi
      exact ⟨(membersOf f.params)[i], List.mem_iff_getElem.mpr ⟨i, by simp; omega, by simp⟩⟩
    exact ⟨(hl.2 _ hm).plain, (hl.2 _ hm).moves⟩
  have hp := plist_ok _ he
  have hv : ∀ b : Bool, ∀ e : Bool, Plain (if b then (if e then "" else ", ") ++ "..." else "") ∧
      Moves (if b then (if e then "" else ", ") ++ "..." else "") 0 0 := by
    intro b e
    cases b <;> cases e
    · exact ⟨plain_empty, Moves.empty 0⟩
    · exact ⟨plain_empty, Moves.empty 0⟩
    · exact ⟨by unfold Plain; decide +kernel, Moves.flat (by decide +kernel) 0⟩
    · exact ⟨by unfold Plain; decide +kernel, Moves.flat (by decide +kernel) 0⟩
  have hv := hv (funSection c k f).1.variadic (funSection c k f).1.params.entries.isEmpty
  unfold parameters
  rw [e1] at hv ⊢
  refine ⟨((plain_open.append hp.1).append hv.1).append plain_close,
    (((moves_open 0).append (hp.2.shift 1)).append (hv.2.shift 1)).append (moves_close 0), Closed.append ?_ (by decide +kernel), ?_, ?_⟩
  · unfold Closed; decide +kernel
  · intro h0
    have := congrArg String.toList h0
    simp [String.toList_append] at this
  · have e : "(".toList = ['('] := by decide +kernel
    refine ⟨_, by rw [String.toList_append, String.toList_append, String.toList_append, e]; rfl⟩

/-- The signature from the name on. -/
def sigTail (s : FunSection) : String :=
  (match s.cls with | some c => c ++ "::" | none => "") ++ s.name ++ parameters s ++ s.topExtra.text ++
  (if s.classConst then " const" else "")

theorem signature_eq (s : FunSection) : mockSignature s = expandSep attrText " " s.attrs ++ s.ret ++ " " ++ sigTail s := by
  unfold mockSignature sigTail
  cases s.cls <;> simp only [sassoc]

theorem tail_ok (h : FunText c f) : Plain (sigTail (funSection c k f).1) ∧ Closed (sigTail (funSection c k f).1) ∧
    sigTail (funSection c k f).1 ≠ "" ∧ Moves (sigTail (funSection c k f).1) (opens f.ret) 0 := by
  obtain ⟨p1, p2, p3, p4, r, p5⟩ := parameters_ok (k := k) h
  have hx := extra_ok f.ret false k h.spell
  have hc : ∀ o : Option String, (∀ n ∈ o, Ident n.toList) → Plain (match o with | some c => c ++ "::" | none => "") ∧
      ∀ a, Moves (match o with | some c => c ++ "::" | none => "") a a := by
    intro o ho
    cases o with
    | none => exact ⟨plain_empty, Moves.empty⟩
    | some n =>
      have hn := ho n rfl
      exact ⟨hn.plain.append (by unfold Plain; decide +kernel), fun a => (ident_moves hn a).append (Moves.flat (by decide +kernel) a)⟩
  have hc := hc (funSection c k f).1.cls (by
    intro n hn
    have hn : f.parent.map (fun p => (Types.attrs p).name) = some n := hn
    obtain ⟨p, hp, rfl⟩ := Option.map_eq_some_iff.mp hn
    exact h.cls p hp)
  have hk : ∀ b : Bool, Plain (if b then " const" else "") ∧ (∀ a, Moves (if b then " const" else "") a a) ∧ Closed (if b then " const" else "") := by
    intro b
    cases b
    · exact ⟨plain_empty, Moves.empty, fun x hx => (by cases hx)⟩
    · exact ⟨plain_const, Moves.flat (by decide +kernel), by unfold Closed; decide +kernel⟩
  have hk := hk (funSection c k f).1.classConst
  have hm := p2.shift (opens f.ret)
  rw [Nat.zero_add] at hm
  have hn : Ident (funSection c k f).1.name.toList := h.name
  have ht : (funSection c k f).1.topExtra = (extraOf false k f.ret).1 := rfl
  unfold sigTail
  rw [ht]
  refine ⟨(((hc.1.append hn.plain).append p1).append hx.plain).append hk.1, hk.2.2.appendOr (hx.closed.appendOr (p3.append p4)), ?_,
    ((((hc.2 _).append (ident_moves hn _)).append hm).append hx.moves).append (hk.2.1 0)⟩
  intro h0
  have := congrArg String.toList h0
  simp only [String.toList_append, p5] at this
  simp at this

theorem signature_ok (h : FunText c f) : TypeText (mockSignature (funSection c k f).1).toList := by
  obtain ⟨t1, t2, t3, t4⟩ := tail_ok (k := k) h
  obtain ⟨w1, w2, w3⟩ := written_ok h.spell h.text
  obtain ⟨a1, a2⟩ := attrs_ok (keptAttrs c f) h.attrs
  rw [signature_eq]
  have hr : (funSection c k f).1.ret = Types.declareString f.retStr f.ret := rfl
  have ha : (funSection c k f).1.attrs = keptAttrs c f := rfl
  rw [hr, ha]
  refine typeText ?_ (t2.append t3) (((a2.append w3).append (moves_space _)).append t4)
  rcases a1 with e | ⟨a1, -⟩
  · rw [e]
    have : expandSep attrText " " [] ++ Types.declareString f.retStr f.ret = Types.declareString f.retStr f.ret := by
      rw [expandSep, String.empty_append]
    rw [this]
    exact (w1.append plain_space).append t1
  · exact ((a1.append w1.plain).append plain_space).append t1

/-! ### The first word -/

theorem wordsFrom_head : ∀ (t acc : List Char), acc ≠ [] → (wordsFrom acc t).head? = some (acc ++ t.takeWhile (fun c => !blank c))
  | [], acc, h => by simp [wordsFrom, h]
  | c :: t, acc, h => by
    unfold wordsFrom
    cases hb : blank c with
    | true => simp [h, hb]
    | false =>
      simp only [Bool.false_eq_true, if_false]
      rw [wordsFrom_head t (acc ++ [c]) (by simp)]
      simp [hb]

theorem words_head {c : Char} {t : List Char} (h : blank c = false) : (words (c :: t)).head? = some ((c :: t).takeWhile (fun c => !blank c)) := by
  unfold words wordsFrom
  simp only [h, Bool.false_eq_true, if_false]
  rw [wordsFrom_head t _ (by simp)]
  simp [h]

theorem takeWhile_first {t w : List Char} (hw : ∀ c ∈ w, CDecl.wordChar c = true) (h : t.takeWhile (fun c => !blank c) = w) :
    t.takeWhile CDecl.wordChar = w := by
  have e : t = w ++ t.dropWhile (fun c => !blank c) := by rw [← h]; exact (List.takeWhile_append_dropWhile).symm
  rw [e, List.takeWhile_append_of_pos hw]
  cases hd : t.dropWhile (fun c => !blank c) with
  | nil => simp
  | cons x r =>
    have hx : blank x = true := by
      have := List.head?_dropWhile_not (p := fun c => !blank c) (l := t)
      rw [hd] at this
      simpa using this
    have : CDecl.wordChar x = false := by
      cases hh : CDecl.wordChar x with
      | false => rfl
      | true => rw [(word_char hh).2.2.2.1] at hx; cases hx
    simp [this]

theorem signature_first (h : FunText c f) {w : List Char} (hw : ∀ c ∈ w, CDecl.wordChar c = true) (h1 : w ≠ "__attribute__".toList)
    (h2 : firstWord (Types.declareString f.retStr f.ret) ≠ w) : (words (mockSignature (funSection c k f).1).toList).head? ≠ some w := by
  obtain ⟨x, r, e, hx⟩ := (signature_ok (k := k) h).first
  have hb : blank x = false := by
    rcases hx with hx | rfl
    · exact ident_blank hx
    · decide
  rw [e, words_head hb, ← e]
  intro h0
  have h0 := takeWhile_first hw (Option.some.inj h0)
  rw [signature_eq] at h0
  have ha : (funSection c k f).1.attrs = keptAttrs c f := rfl
  have hr : (funSection c k f).1.ret = Types.declareString f.retStr f.ret := rfl
  rw [ha, hr] at h0
  obtain ⟨a1, a2⟩ := attrs_ok (keptAttrs c f) h.attrs
  have hsp : " ".toList = [' '] := by decide +kernel
  rcases a1 with e | ⟨-, r', a1⟩
  · rw [e, expandSep, String.empty_append] at h0
    apply h2
    rw [← h0]
    unfold firstWord
    rw [String.toList_append, String.toList_append, hsp, List.append_assoc]
    generalize (Types.declareString f.retStr f.ret).toList = l
    induction l with
    | nil =>
      show [] = List.takeWhile CDecl.wordChar (' ' :: _)
      rw [List.takeWhile_cons_of_neg (by decide)]
    | cons y l ih =>
      rw [List.cons_append, List.takeWhile_cons, List.takeWhile_cons, ih]
  · apply h1
    rw [← h0, String.toList_append, String.toList_append, String.toList_append, a1]
    have e2 : "__attribute__(".toList = "__attribute__".toList ++ ['('] := by decide +kernel
    rw [e2]
    simp only [List.append_assoc]
    rw [List.takeWhile_append_of_pos (by decide +kernel), List.singleton_append, List.takeWhile_cons_of_neg (by decide), List.append_nil]

/-! ### What the generated files need -/

theorem entry_ok (h : FunText c f) (e : String × String × Gen.Out × XDecl) (he : e ∈ (funSection c k f).1.params.entries) :
    ∃ m, (e, m) ∈ (funSection c k f).1.params.entries.zip (membersOf f.params) ∧ EntryOk c e m := by
  obtain ⟨k1, k2, e1, e2, e3⟩ := sec_fields c k f
  rw [e1] at he ⊢
  have hl := (entries_text f.params k1 h.params)
  obtain ⟨i, hi, rfl⟩ := List.mem_iff_getElem.mp he
  have hi' : i < (membersOf f.params).length := by rw [hl.1]; exact hi
  have hm : ((paramSection k1 f.params).1.entries[i], (membersOf f.params)[i]) ∈
      (paramSection k1 f.params).1.entries.zip (membersOf f.params) :=
    List.mem_iff_getElem.mpr ⟨i, by simp; omega, by simp⟩
  exact ⟨_, hm, hl.2 _ hm⟩

theorem plain_sep {α : Type} (g : α → String) {sep : String} (hs : Plain sep) : ∀ (l : List α), (∀ x ∈ l, Plain (g x)) → Plain (expandSep g sep l)
  | [], _ => plain_empty
  | [x], h => h x (by simp)
  | x :: y :: l, h => ((h x (by simp)).append hs).append (plain_sep g hs (y :: l) (fun z hz => h z (by simp [hz])))

theorem plain_join {l : List String} (h : ∀ x ∈ l, Plain x) : Plain (String.join l) := by
  induction l with
  | nil => exact plain_empty
  | cons x l ih => rw [join_cons]; exact (h x (by simp)).append (ih (fun y hy => h y (by simp [hy])))

theorem plain_if {b : Bool} {x y : String} (hx : Plain x) (hy : Plain y) : Plain (if b then x else y) := by cases b <;> assumption

theorem instance_plain (s : FunSection) (h : ∀ n ∈ s.cls, Ident n.toList) : Plain (instanceText s (fun n => "::" ++ n ++ "* instance")) := by
  unfold instanceText
  cases hc : s.cls with
  | none => exact plain_empty
  | some n =>
    have h1 : Plain "::" := by unfold Plain; decide +kernel
    have h2 : Plain "* instance" := by unfold Plain; decide +kernel
    refine ((h1.append (h n hc).plain).append h2).append (plain_join ?_)
    intro x hx
    obtain ⟨_, -, rfl⟩ := List.mem_map.mp hx
    exact plain_comma

theorem matchers_plain (c : Config) (s : FunSection) (h : ∀ e ∈ s.params.entries, Plain e.1 ∧ Plain e.2.1) : Plain (matcherList c s) := by
  unfold matcherList
  have h1 : Plain "easyMock_match_" := by unfold Plain; decide +kernel
  have h2 : Plain "::EasyMock::EasyMock_Matcher_Cpp<" := by unfold Plain; decide +kernel
  have h3 : Plain "> " := by unfold Plain; decide +kernel
  have h4 : Plain "EasyMock_Matcher " := by unfold Plain; decide +kernel
  refine plain_sep _ plain_comma _ (fun e he => ?_)
  have ht : Plain (matcherType c e.1) := plain_if ((h2.append (h e he).1).append h3) h4
  exact (ht.append h1).append (h e he).2

theorem outs_plain (s : FunSection) (h : ∀ e ∈ s.params.entries, Plain e.1 ∧ Plain e.2.1) : Plain (outList s) := by
  unfold outList
  have h1 : Plain "out_" := by unfold Plain; decide +kernel
  have h2 : Plain ", easyMock_size_t " := by unfold Plain; decide +kernel
  have h3 : Plain "_size" := by unfold Plain; decide +kernel
  refine plain_sep _ plain_comma _ (fun e he => ?_)
  have he := h e (outs_mem he)
  have hz : Plain (if e.2.2.1 == .sized then ", easyMock_size_t " ++ "out_" ++ e.2.1 ++ "_size" else "") :=
    plain_if (((h2.append h1).append he.2).append h3) plain_empty
  exact (((he.1.append plain_space).append h1).append he.2).append hz

theorem output_plain (c : Config) (s : FunSection) (hc : ∀ n ∈ s.cls, Ident n.toList) (h : ∀ e ∈ s.params.entries, Plain e.1 ∧ Plain e.2.1)
    (hp : Plain s.params.text) (hr : Plain s.ret) (hx : s.hasReturn = true → Plain s.retExtra.text) : Plain (expectOutputParams c s) := by
  have hcp : Plain (commaIfParams s) := plain_if plain_empty plain_comma
  have hco : Plain (commaIfOuts s) := plain_if plain_empty plain_comma
  have ht : Plain " to_return" := by unfold Plain; decide +kernel
  have hv : Plain (if s.hasReturn then commaIfParams s ++ s.ret ++ " to_return" ++ s.retExtra.text else "") := by
    cases hb : s.hasReturn with
    | false => exact plain_empty
    | true => exact ((hcp.append hr).append ht).append (hx hb)
  unfold expectOutputParams expectParams
  exact ((((((instance_plain s hc).append hp).append hv).append hcp).append (matchers_plain c s h)).append hco).append (outs_plain s h)

theorem expect_plain (h : FunText c f) : Plain (expectOutputParams c (funSection c k f).1) := by
  have hent := entry_ok (k := k) h
  refine output_plain c _ ?_ (fun e he => ?_)
    (plist_ok _ (fun e he => ⟨(hent e he).choose_spec.2.plain, (hent e he).choose_spec.2.moves⟩)).1
    (written_ok h.spell h.text).1.plain (fun hr => ?_)
  · intro n hn
    have hn : f.parent.map (fun p => (Types.attrs p).name) = some n := hn
    obtain ⟨p, hp, rfl⟩ := Option.map_eq_some_iff.mp hn
    exact h.cls p hp
  · obtain ⟨m, -, hm⟩ := hent e he
    exact ⟨hm.type.plain, hm.name.plain⟩
  · obtain ⟨k1, k2, e1, e2, e3⟩ := sec_fields c k f
    rw [e3 hr]
    exact (extra_ok f.ret false k2 h.spell).plain

theorem noClose {t : String} (h : Plain t) : NoClose t.toList := by
  intro a b e
  have := h '/' (by rw [e]; simp)
  exact absurd this (by decide)

/-- What the header needs. -/
theorem fun_ok (h : FunText c f) : FunOk c (srcFun c k f).toFun := by
  have hs := signature_ok (k := k) h
  refine ⟨h.name, ⟨noClose hs.plain, fun hb => absurd (hs.plain _ hb) (by decide), h.origin⟩, expect_plain h,
    fun hc => ⟨h.spaces hc, ?_⟩, fun _ _ => ?_⟩
  · intro n hn
    have hn : f.parent.map (fun p => (Types.attrs p).name) = some n := hn
    obtain ⟨p, hp, rfl⟩ := Option.map_eq_some_iff.mp hn
    exact h.cls p hp
  · obtain ⟨x, r, e, hx⟩ := hs.first
    refine ⟨plain_proper hs.plain, ⟨x, r, e, ?_⟩, hs.last⟩
    rcases hx with hx | rfl
    · refine ⟨ident_blank hx, ?_, ?_⟩
      · rintro rfl; exact absurd hx (by decide)
      · rintro rfl; exact absurd hx (by decide)
    · decide

theorem result_ok (h : FunText c f) (hr : (funSection c k f).1.hasReturn = true) : ResultOk (srcFun c k f) := by
  obtain ⟨k1, k2, e1, e2, e3⟩ := sec_fields c k f
  have e3 := e3 hr
  have h1 : (srcFun c k f).sec = (funSection c k f).1 := rfl
  have h2 : (srcFun c k f).result = resultOf f.ret := rfl
  unfold ResultOk
  rw [h1, h2, e2, e3]
  have reg : ∀ (hne : resultOf f.ret = .regular (nonQualifiedText f.ret)) (hd : Types.dereferenced f.ret = f.ret),
      ∀ k' (n : String), Ident n.toList → TypeText (nonQualifiedText f.ret ++ " " ++ n ++ (extraOf false k' f.ret).1.text).toList := by
    intro _ hd k' n hn
    have hu := prefix_ok (unqualify f.ret) false (spellable_unqualify h.spell)
    have hm := hu.moves
    rw [unqualify_opens] at hm
    unfold nonQualifiedText
    rw [hd, full_text (spellable_unqualify h.spell)]
    exact declared_ok hu.starts hm hn (extra_ok f.ret false k' h.spell)
  have go : resultOf f.ret = .regular (nonQualifiedText f.ret) → Types.dereferenced f.ret = f.ret → (match resultOf f.ret with
      | .regular type => (∀ n : String, Ident n.toList → TypeText (type ++ " " ++ n ++ (extraOf false k2 f.ret).1.text).toList) ∧
          (∀ n : String, Ident n.toList → TypeText (type ++ " " ++ n ++ (extraOf false k f.ret).1.text).toList)
      | .reference raw deref => TypeText raw.toList ∧ TypeText deref.toList ∧ (extraOf false k2 f.ret).1.text = "") := by
    intro he hd
    rw [he]
    exact ⟨reg he hd k2, reg he hd k⟩
  cases ht : f.ret with
  | ref i u =>
    have hs := h.spell
    rw [ht] at hs
    have h0 : opens (.ref i u) = 0 := opens_noFn u (hs.2 rfl)
    obtain ⟨b, d1, d2⟩ := deref_ok (.ref i u) false hs h0
    refine ⟨?_, full_ok d1 d2, ?_⟩
    · have : Spellable b (unqualify (Types.dereferenced (.ref i u))) := by
        revert d1
        generalize Types.dereferenced (.ref i u) = t
        intro d1
        cases t <;> first | exact d1 | exact d1.1
      exact full_ok this (by rw [unqualify_opens]; exact d2)
    · rw [no_extra _ _ _ hs h0]; rfl
  | _ => rw [ht] at go; exact go rfl rfl

theorem raw_ok (h : FunText c f) (hr : (funSection c k f).1.hasReturn = true) (h0 : opens f.ret = 0) :
    (funSection c k f).1.retExtra.text = "" ∧ TypeText (srcFun c k f).result.raw.toList := by
  obtain ⟨k1, k2, e1, e2, e3⟩ := sec_fields c k f
  refine ⟨by rw [e3 hr, no_extra _ _ _ h.spell h0]; rfl, ?_⟩
  have h2 : (srcFun c k f).result = resultOf f.ret := rfl
  rw [h2]
  obtain ⟨b, d1, d2⟩ := deref_ok f.ret false h.spell h0
  have hq : TypeText (nonQualifiedText f.ret).toList := by
    have : Spellable b (unqualify (Types.dereferenced f.ret)) := by
      revert d1
      generalize Types.dereferenced f.ret = t
      intro d1
      cases t <;> first | exact d1 | exact d1.1
    exact full_ok this (by rw [unqualify_opens]; exact d2)
  cases ht : f.ret <;> (rw [ht] at hq; exact hq)

/-- What the source needs. -/
theorem src_ok (h : FunText c f) : SrcOk c (srcFun c k f) := by
  have hent := entry_ok (k := k) h
  obtain ⟨k1, k2, e1, e2, e3⟩ := sec_fields c k f
  have hl := entries_text f.params k1 h.params
  refine ⟨fun_ok h, ?_, fun e he => (hent e he).choose_spec.2.name, ?_, ?_, fun hc e he => (hent e he).choose_spec.2.matcher hc,
    fun hr => result_ok h hr, fun hc hr => raw_ok h hr (h.flat hc), fun e he => ?_, signature_ok h, ?_⟩
  · intro n hn
    have hn : f.parent.map (fun p => (Types.attrs p).name) = some n := hn
    obtain ⟨p, hp, rfl⟩ := Option.map_eq_some_iff.mp hn
    exact h.cls p hp
  · show (membersOf f.params).length = (funSection c k f).1.params.entries.length
    rw [e1]; exact hl.1
  · intro p hp
    have hp : p ∈ (funSection c k f).1.params.entries.zip (membersOf f.params) := hp
    rw [e1] at hp
    exact (hl.2 p hp).member
  · have he : e ∈ (funSection c k f).1.outs := he
    obtain ⟨m, -, hm⟩ := hent e (outs_mem he)
    refine hm.out ?_
    have := (List.mem_filter.mp he).2
    simpa using this
  · exact signature_first h (by decide +kernel) (by decide +kernel) h.word.1

end

end EasyMock.CFile.Txt
