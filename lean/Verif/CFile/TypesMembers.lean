import Verif.CFile.TypesRead
import Verif.CFile.TypesModel
import Verif.CFile.CmpText

/-! # CFile: the texts of members and of composite types -/

namespace EasyMock.CFile.TypeDecl

open EasyMock.Types (Ty Fields Kw)
open EasyMock.CDecl (Word Spellable NoFn IsFn kwWord toks toks_sep read_rename read_eq)
open EasyMock.Gen (extraOf)
open EasyMock.CFile.Txt (CName)
open EasyMock.Emit (written boundOf nameless tagOf Mirror MirrorDecl composite)

variable {H : Type} (e : Emit.Env H)

/-! ## Conditions -/

/-- The text in front of the name of a member declares its type: it is made from the type; or it is the text of the source, which says
    the type; or the type is an enumeration without name. -/
inductive Spelled (s : String) : Ty → Prop
  | type {t} : Spellable false t → (s = "" ∨ s = Types.declPrefix t) → Spelled s t
  | source {t} : nameless t = none → (∀ k, (extraOf false k t).1 = .none) → (∃ c r, s.toList = c :: r ∧ blank c = false) →
      CDecl.read (s ++ " x") = some ("x".toList, semIn e t) → Spelled s t
  | enum {i vs} : s = "" → CName (e.anon (.enum i "" vs)) → Spelled s (.enum i "" vs)

mutual
/-- The members of a composite type. -/
def FieldsOk : Fields → Prop
  | .nil => True
  | .field s t n _ rest => FieldOk s n t ∧ FieldsOk rest
  | .bit s t n _ rest => composite t = false ∧ (n = "" ∨ CName n) ∧ Spelled e s t ∧ (∀ k, (extraOf false k t).1 = .none) ∧ FieldsOk rest

/-- A member. -/
def FieldOk (s n : String) : Ty → Prop
  | .comp _ _ m fs _ _ _ => (m = "" ∨ CName m) ∧ (n = "" → m = "") ∧ (n = "" ∨ CName n) ∧ FieldsOk fs
  | t => CName n ∧ Spelled e s t
end

/-! ## Texts in front of a name -/

theorem sem_in : ∀ (t : Ty) (b : Bool), Spellable b t → nameless t = none ∧ semIn e t = CDecl.semOf t
  | .ctype .., _, _ | .tdef .., _, _ | .incomplete .., _, _ | .fn .., _, _ => ⟨rfl, rfl⟩
  | .ptr _ t, _, h => by
    obtain ⟨h1, h2⟩ := sem_in t true h
    exact ⟨h1, by rw [semIn, h2]; rfl⟩
  | .ref _ t, _, h => by
    obtain ⟨h1, h2⟩ := sem_in t true h.1
    exact ⟨h1, by rw [semIn, h2]; rfl⟩
  | .const _ t, b, h => by
    obtain ⟨h1, h2⟩ := sem_in t b h.1
    exact ⟨h1, by rw [semIn, h2]; rfl⟩
  | .enum i n vs, _, h => by
    have h' : Word n := h
    have hn : n.isEmpty = false := by simpa using h'.1
    refine ⟨by rw [nameless, if_neg h'.1], ?_⟩
    rw [semIn, tagOf, show (Types.attrs (.enum i n vs)).name = n from rfl, hn]
    rfl
  | .comp i kw n fs emb fwd ms, _, h => by
    have h' : Word n := h
    have hn : n.isEmpty = false := by simpa using h'.1
    refine ⟨by rw [nameless, if_neg h'.1], ?_⟩
    rw [semIn, tagOf, show (Types.attrs (.comp i kw n fs emb fwd ms)).name = n by cases kw <;> rfl, hn]
    rfl

theorem prefix_close : ∀ (t : Ty) (b : Bool), Spellable b t → ')' ∉ (Types.declPrefix t).toList
  | .ctype c _ _, _, _ => by
    rw [Types.declPrefix]
    cases c <;> decide +kernel
  | .ptr _ t, _, h => by
    rw [Types.declPrefix, String.toList_append, List.mem_append, not_or]
    exact ⟨prefix_close t true h, by decide +kernel⟩
  | .ref _ t, _, h => by
    rw [Types.declPrefix, String.toList_append, List.mem_append, not_or]
    exact ⟨prefix_close t true h.1, by decide +kernel⟩
  | .const _ t, b, h => by
    rw [Types.declPrefix, Txt.trim_prefix h.1 h.2, String.toList_append, String.toList_append, List.mem_append, List.mem_append, not_or, not_or]
    exact ⟨⟨prefix_close t b h.1, by decide +kernel⟩, by decide +kernel⟩
  | .tdef _ n _, _, h => fun hm => absurd (h.1.2.1 _ hm) (by decide)
  | .enum _ n _, _, h => by
    rw [Types.declPrefix]
    exact fun hm => two_close CDecl.word_enum h (by rw [show "enum" ++ " " = "enum " by decide +kernel]; exact hm)
  | .comp _ kw n _ _ _ _, _, h | .incomplete _ kw n, _, h => by
    rw [Types.declPrefix, CDecl.kw_text]
    exact two_close (CDecl.word_kw kw) h
  | .fn _ _ _ r _, _, h => by
    rw [Types.declPrefix, String.toList_append, List.mem_append, not_or]
    exact ⟨prefix_close r false h.2.2.1, by decide +kernel⟩
where
  two_close {k n : String} (hk : Word k) (h : Word n) : ')' ∉ (Types.trimR (k ++ " " ++ n)).toList := by
    rw [Types.keyword_text k n (CDecl.last_word hk) hk.1 (CDecl.word_ident h), if_neg h.1, String.toList_append, String.toList_append,
      List.mem_append, List.mem_append, not_or, not_or]
    exact ⟨⟨fun hm => absurd (hk.2.1 _ hm) (by decide), by decide +kernel⟩, fun hm => absurd (h.2.1 _ hm) (by decide)⟩

theorem ident_blank {c : Char} (h : identChar c = true ∨ c = ':') : blank c = false := by
  cases hb : blank c with
  | false => rfl
  | true =>
    exfalso
    rcases h with h | rfl
    · simp only [blank, Bool.or_eq_true, beq_iff_eq] at hb
      rcases hb with ((((rfl | rfl) | rfl) | rfl) | rfl) | rfl <;> exact absurd h (by decide)
    · exact absurd hb (by decide)

theorem kw_enum : Types.trimR "enum " = "enum" := by decide +kernel

/-- What the text in front of a name does. -/
theorem spelled_text {s : String} {t : Ty} (h : Spelled e s t) :
    (∃ c r, (written e s t).toList = c :: r ∧ blank c = false) ∧
    (∀ k n, Word n → CDecl.read (written e s t ++ " " ++ n ++ (extraOf false k t).1.text) = some (n.toList, semIn e t)) ∧
    ((∃ k, (extraOf false k t).1 ≠ .none) → ')' ∉ (written e s t).toList) := by
  cases h with
  | type hs hw =>
    obtain ⟨h1, h2⟩ := sem_in e t false hs
    have hwr : written e s t = Types.declPrefix t := by
      unfold written
      rw [h1]
      rcases hw with rfl | rfl
      · rw [if_pos rfl]; simp
      · split <;> simp
    rw [hwr]
    obtain ⟨c, r, e1, e2⟩ := (Txt.prefix_ok t false hs).starts.first
    refine ⟨⟨c, r, e1, ident_blank e2⟩, fun k n hn => ?_, fun _ => prefix_close t false hs⟩
    rw [h2]
    exact CDecl.read_param k hs hn
  | source h1 hx hf hr =>
    obtain ⟨c, r, e1, e2⟩ := hf
    have h0 : s ≠ "" := by rintro rfl; cases e1
    have hwr : written e s t = s := by
      unfold written
      rw [h1, if_neg h0]; simp
    rw [hwr]
    refine ⟨⟨c, r, e1, e2⟩, fun k n hn => ?_, fun ⟨k, hk⟩ => absurd (hx k) hk⟩
    rw [hx k, Gen.XDecl.text, String.append_empty]
    refine read_rename (n := "x") (by unfold Word; decide +kernel) hn ?_
    rw [String.append_assoc, show " " ++ "x" = " x" by decide +kernel]
    exact hr
  | @enum i vs h0 hn =>
    subst h0
    have hwr : written e "" (.enum i "" vs) = "enum" ++ " " ++ e.anon (.enum i "" vs) := by
      unfold written
      rw [if_pos rfl, nameless, if_pos rfl, Types.declPrefix, String.append_empty, kw_enum]
      simp only [String.append_assoc]
    have hx : ∀ k, (extraOf false k (.enum i "" vs)).1 = .none := fun k => rfl
    rw [hwr]
    refine ⟨⟨'e', ("num" ++ " " ++ e.anon (.enum i "" vs)).toList, ?_, by decide⟩, fun k n hm => ?_, fun ⟨k, hk⟩ => absurd (hx k) hk⟩
    · rw [String.toList_append, String.toList_append, String.toList_append, String.toList_append]
      rfl
    · have := CDecl.read_param (t := .enum i (e.anon (.enum i "" vs)) vs) k hn.word hm
      rw [Types.declPrefix, show "enum " = "enum" ++ " " by decide +kernel,
        Types.keyword_text "enum" _ (CDecl.last_word CDecl.word_enum) CDecl.word_enum.1 (CDecl.word_ident hn.word), if_neg hn.word.1] at this
      exact this

/-! ## Pieces -/

/-- A text which is one declaration, wherever it stands. -/
structure Piece (T : List Char) : Prop where
  lists : Lists (T ++ [';']) [T]
  bal : Bal T
  text : ∀ c ∈ T, textChar c = true

theorem piece_decl {T : List Char} (h : Head T) (hl : ∀ x ∈ T.getLast?, blank x = false) : Piece T :=
  ⟨Lists.decl h hl, Bal.ok h.ok, fun c hc => ok_text (h.ok c hc)⟩

theorem bal_end : Bal [';', '\n'] := Bal.chars (by decide)

theorem Piece.line {T : List Char} (h : Piece T) : Lists (T ++ [';', '\n']) [T] ∧ Bal (T ++ [';', '\n']) ∧
    ∀ c ∈ T ++ [';', '\n'], textChar c = true := by
  refine ⟨?_, h.bal.append bal_end, ?_⟩
  · rw [show T ++ [';', '\n'] = (T ++ [';']) ++ ['\n'] by simp, show [T] = [T] ++ [] by simp]
    exact h.lists.append (Lists.blanks (by decide))
  · intro c hc
    rcases List.mem_append.1 hc with hc | hc
    · exact h.text c hc
    · have : ∀ c ∈ [';', '\n'], textChar c = true := by decide
      exact this c hc

theorem digit_ok {c : Char} (h : c.isDigit = true) : okChar c = true ∧ blank c = false ∧ identChar c = true := by
  have : identChar c = true := by simp [identChar, Char.isAlphanum, h]
  refine ⟨word_ok ?_, ident_blank (Or.inl this), this⟩
  simp [CDecl.wordChar, Char.isAlphanum, h]

theorem nat_ok (k : Nat) : ∀ c ∈ (toString k).toList, okChar c = true ∧ blank c = false ∧ identChar c = true := by
  intro c hc
  have e : (toString k).toList = Nat.toDigits 10 k := by simp [toString, Nat.repr]
  rw [e] at hc
  exact digit_ok (Nat.isDigit_of_mem_toDigits (by decide) (by decide) hc)

theorem int_ok (a : Int) : ∀ c ∈ (toString a).toList, okChar c = true := by
  intro c hc
  cases a with
  | ofNat k => exact (nat_ok k c hc).1
  | negSucc k =>
    have e : (toString (Int.negSucc k)).toList = '-' :: (toString (k + 1)).toList := by
      show ("-" ++ toString (k + 1)).toList = _
      rw [String.toList_append]; rfl
    rw [e] at hc
    rcases List.mem_cons.1 hc with rfl | hc
    · decide
    · exact (nat_ok _ c hc).1

theorem bound_ok (a : Int) : (∀ c ∈ (boundOf a).toList, okChar c = true) ∧ ∀ x ∈ (boundOf a).toList.getLast?, blank x = false := by
  unfold boundOf
  split
  · exact ⟨by decide +kernel, by decide +kernel⟩
  · rw [String.toList_append, String.toList_append]
    refine ⟨fun c hc => ?_, ?_⟩
    · rcases List.mem_append.1 hc with hc | hc
      · rcases List.mem_append.1 hc with hc | hc
        · have : ∀ c ∈ "[".toList, okChar c = true := by decide +kernel
          exact this c hc
        · exact int_ok a c hc
      · have : ∀ c ∈ "]".toList, okChar c = true := by decide +kernel
        exact this c hc
    · rw [last_append (by decide +kernel)]
      decide +kernel

theorem last_or {a b : List Char} (ha : ∀ x ∈ a.getLast?, blank x = false) (hb : ∀ x ∈ b.getLast?, blank x = false) :
    ∀ x ∈ (a ++ b).getLast?, blank x = false := by
  by_cases h : b = []
  · subst h; rw [List.append_nil]; exact ha
  · rw [last_append h]; exact hb

theorem cname_last {n : String} (h : CName n) : ∀ x ∈ n.toList.getLast?, blank x = false :=
  fun x hx => ident_blank (Or.inl (h.ident.2 x (List.mem_of_getLast? hx)))

theorem cname_ok {n : String} (h : CName n) : ∀ c ∈ n.toList, okChar c = true := fun c hc => word_ok (h.word.2.1 c hc)

theorem cname_nonblank {n : String} (h : CName n) : ∀ c ∈ n.toList, blank c = false := fun c hc => ident_blank (Or.inl (h.ident.2 c hc))

theorem cname_ne {n : String} (h : CName n) : n.toList ≠ [] := h.ident.1

/-- The text behind the name of a member. -/
theorem extra_text (x : Gen.XDecl) : (x = .none ∧ x.text.toList = []) ∨ (x ≠ .none ∧ ∃ r, x.text.toList = ')' :: r) := by
  cases x with
  | none => exact Or.inl ⟨rfl, rfl⟩
  | decl ps inner =>
    refine Or.inr ⟨by simp, ("(" ++ ps.text ++ ")" ++ inner.text).toList, ?_⟩
    rw [Gen.XDecl.text, show ")(" = ")" ++ "(" by decide +kernel]
    simp only [String.toList_append, List.append_assoc]
    rfl

theorem extra_last : ∀ (x : Gen.XDecl), ∀ c ∈ x.text.toList.getLast?, blank c = false
  | .none => by decide +kernel
  | .decl ps inner => by
    rw [Gen.XDecl.text, String.toList_append]
    refine last_or ?_ (extra_last inner)
    rw [String.toList_append, last_append (by decide +kernel)]
    decide +kernel

/-- The text of a member without braces, from the text `w` in front of its name and the text behind it. -/
theorem plain_declares {w : String} {x : Gen.XDecl} {S : CDecl.Sem} {n suffix : String} (h1 : ∃ c r, w.toList = c :: r ∧ blank c = false)
    (hr : CDecl.read (w ++ " " ++ n ++ x.text) = some (n.toList, S)) (h3 : x ≠ .none → ')' ∉ w.toList) (hn : CName n)
    (hs : (∀ c ∈ suffix.toList, okChar c = true) ∧ ∀ x ∈ suffix.toList.getLast?, blank x = false) :
    Piece (w ++ " " ++ (n ++ suffix) ++ x.text).toList ∧ Declares (w ++ " " ++ (n ++ suffix) ++ x.text).toList S n.toList suffix.toList := by
  obtain ⟨c, r, e1, e2⟩ := h1
  have hc := read_chars hr
  have hT : (w ++ " " ++ (n ++ suffix) ++ x.text).toList =
      (w.toList ++ [' ']) ++ n.toList ++ suffix.toList ++ x.text.toList := by
    simp only [String.toList_append, List.append_assoc]; rfl
  have hR : w ++ " " ++ n ++ x.text = String.ofList (w.toList ++ [' '] ++ n.toList ++ x.text.toList) := by
    apply String.toList_inj.1
    rw [String.toList_ofList]
    simp only [String.toList_append, List.append_assoc]; rfl
  rw [hR, String.toList_ofList] at hc
  have hok : ∀ y ∈ (w.toList ++ [' ']) ++ n.toList ++ suffix.toList ++ x.text.toList, okChar y = true := by
    intro y hy
    rcases List.mem_append.1 hy with hy | hy
    · rcases List.mem_append.1 hy with hy | hy
      · exact hc y (List.mem_append_left _ hy)
      · exact hs.1 y hy
    · exact hc y (List.mem_append_right _ hy)
  have hl : ∀ y ∈ ((w.toList ++ [' ']) ++ n.toList ++ suffix.toList ++ x.text.toList).getLast?, blank y = false := by
    refine last_or (last_or ?_ hs.2) (extra_last x)
    rw [last_append (cname_ne hn)]
    exact cname_last hn
  rw [hT]
  refine ⟨piece_decl ⟨hok, c, _, by rw [e1]; rfl, e2⟩ hl, ⟨_, _, rfl, ?_, ?_, by rw [← hR]; exact hr⟩⟩
  · exact fun hm => absurd (hok _ hm) (by decide)
  · rcases extra_text x with ⟨-, hx0⟩ | ⟨hx0, hr'⟩
    · exact Or.inl hx0
    · refine Or.inr ⟨hr', ?_⟩
      rw [List.mem_append, not_or]
      exact ⟨h3 hx0, by decide⟩

/-- A member without braces. -/
theorem plain_member {s : String} {t : Ty} {n suffix : String} (k : Nat) (h : Spelled e s t) (hn : CName n)
    (hs : (∀ c ∈ suffix.toList, okChar c = true) ∧ ∀ x ∈ suffix.toList.getLast?, blank x = false) :
    Piece (written e s t ++ " " ++ (n ++ suffix) ++ (extraOf false k t).1.text).toList ∧
    Member e (written e s t ++ " " ++ (n ++ suffix) ++ (extraOf false k t).1.text).toList t n.toList suffix.toList := by
  obtain ⟨h1, h2, h3⟩ := spelled_text e h
  obtain ⟨p, d⟩ := plain_declares h1 (h2 k n hn.word) (fun hx => h3 ⟨k, hx⟩) hn hs
  exact ⟨p, .plain (cname_ne hn) d⟩

/-- The text of a bit-field without a name, from the text in front of its width. -/
theorem pad_declares {w : String} {S : CDecl.Sem} {suffix : String} (h1 : ∃ c r, w.toList = c :: r ∧ blank c = false)
    (hr : CDecl.read (w ++ " " ++ "x") = some ("x".toList, S))
    (hs : (∀ c ∈ suffix.toList, okChar c = true) ∧ ∀ x ∈ suffix.toList.getLast?, blank x = false) (h0 : suffix.toList ≠ []) :
    Piece (w ++ " " ++ suffix).toList ∧ Pads (w ++ " " ++ suffix).toList S suffix.toList := by
  obtain ⟨c, r, e1, e2⟩ := h1
  have hc := read_chars hr
  have hT : (w ++ " " ++ suffix).toList = (w.toList ++ [' ']) ++ suffix.toList := by
    simp only [String.toList_append, List.append_assoc]; rfl
  have hok : ∀ y ∈ (w.toList ++ [' ']) ++ suffix.toList, okChar y = true := by
    intro y hy
    rcases List.mem_append.1 hy with hy | hy
    · refine hc y ?_
      rw [String.toList_append, String.toList_append]
      exact List.mem_append_left _ hy
    · exact hs.1 y hy
  have hl : ∀ y ∈ ((w.toList ++ [' ']) ++ suffix.toList).getLast?, blank y = false := by
    rw [last_append h0]; exact hs.2
  rw [hT]
  refine ⟨piece_decl ⟨hok, c, _, by rw [e1]; rfl, e2⟩ hl, ⟨_, rfl, fun hm => absurd (hok _ hm) (by decide), ?_⟩⟩
  rw [read_eq] at hr ⊢
  have ha : (w ++ " " ++ "x").toList = w.toList ++ ' ' :: "x".toList := by
    simp only [String.toList_append, List.append_assoc]; rfl
  have hb : (String.ofList (w.toList ++ [' '] ++ " x".toList)).toList = w.toList ++ ' ' :: ([] ++ ' ' :: "x".toList) := by
    rw [String.toList_ofList, show " x".toList = ' ' :: "x".toList by decide +kernel]
    simp
  rw [ha, toks_sep _ _ _ (by decide)] at hr
  rw [hb, toks_sep _ _ _ (by decide), toks_sep _ _ _ (by decide)]
  exact hr

/-- A bit-field without a name. -/
theorem pad_member {s : String} {t : Ty} {suffix : String} (h : Spelled e s t) (hx : ∀ k, (extraOf false k t).1 = .none)
    (hs : (∀ c ∈ suffix.toList, okChar c = true) ∧ ∀ x ∈ suffix.toList.getLast?, blank x = false) (h0 : suffix.toList ≠ []) :
    Piece (written e s t ++ " " ++ suffix).toList ∧ Member e (written e s t ++ " " ++ suffix).toList t [] suffix.toList := by
  obtain ⟨h1, h2, h3⟩ := spelled_text e h
  have hr := h2 0 "x" (by unfold Word; decide +kernel)
  rw [hx 0, Gen.XDecl.text, String.append_empty] at hr
  obtain ⟨p, d⟩ := pad_declares h1 hr hs h0
  exact ⟨p, .pad h0 d⟩

/-! ## Composite types -/

/-- What a keyword and a tag open. -/
theorem word_head {k m : String} (hk' : CName k) (hk1 : k ≠ "namespace") (hk2 : k ≠ "extern") (hm : m = "" ∨ CName m) : Tagged (k ++ " " ++ m ++ "\n").toList ∧
    words (k ++ " " ++ m ++ "\n").toList = k.toList :: (if m = "" then [] else [m.toList]) := by
  have e : (k ++ " " ++ m ++ "\n").toList = k.toList ++ ' ' :: (m.toList ++ '\n' :: []) := by
    simp only [String.toList_append, List.append_assoc]; rfl
  have hk : ∀ c ∈ k.toList, okChar c = true ∧ blank c = false ∧ c ≠ ')' := by
    intro c hc
    refine ⟨cname_ok hk' c hc, cname_nonblank hk' c hc, ?_⟩
    rintro rfl
    exact absurd (hk'.ident.2 _ hc) (by decide)
  have hk0 : k.toList ≠ [] := cname_ne hk'
  have hmc : ∀ c ∈ m.toList, okChar c = true ∧ blank c = false ∧ c ≠ ')' := by
    rcases hm with rfl | hm
    · decide +kernel
    · intro c hc
      refine ⟨cname_ok hm c hc, cname_nonblank hm c hc, ?_⟩
      rintro rfl
      exact absurd (hm.ident.2 _ hc) (by decide)
  have hw : words (k ++ " " ++ m ++ "\n").toList = k.toList :: (if m = "" then [] else [m.toList]) := by
    rw [e, words, words_word k.toList [] _ ' ' (fun c hc => (hk c hc).2.1) (by decide), List.nil_append, if_neg hk0,
      words_word m.toList [] _ '\n' (fun c hc => (hmc c hc).2.1) (by decide), List.nil_append]
    by_cases h : m = ""
    · subst h
      rw [if_pos rfl, if_pos (by decide +kernel)]
      rfl
    · rw [if_neg h, if_neg (by intro h0; exact h (String.toList_inj.1 (by rw [h0]; rfl)))]
      rfl
  refine ⟨⟨⟨?_, ?_⟩, ?_, ?_, ?_⟩, hw⟩
  · intro c hc
    rw [e] at hc
    rcases List.mem_append.1 hc with hc | hc
    · exact (hk c hc).1
    · rcases List.mem_cons.1 hc with rfl | hc
      · decide
      · rcases List.mem_append.1 hc with hc | hc
        · exact (hmc c hc).1
        · simp only [List.mem_singleton] at hc; subst hc; decide
  · rw [e]
    cases hl : k.toList with
    | nil => exact absurd hl hk0
    | cons c r => exact ⟨c, _, rfl, (hk c (by rw [hl]; simp)).2.1⟩
  · rw [e]
    intro hc
    rcases List.mem_append.1 hc with hc | hc
    · exact (hk _ hc).2.2 rfl
    · rcases List.mem_cons.1 hc with hc | hc
      · exact absurd hc (by decide)
      · rcases List.mem_append.1 hc with hc | hc
        · exact (hmc _ hc).2.2 rfl
        · exact absurd hc (by decide)
  · rw [hw, List.head?_cons]
    intro h
    exact hk1 (String.toList_inj.1 (Option.some.inj h))
  · rw [hw, List.head?_cons]
    intro h
    exact hk2 (String.toList_inj.1 (Option.some.inj h))

theorem kw_head {kw : Kw} {m : String} (hm : m = "" ∨ CName m) : Tagged (kw.str ++ " " ++ m ++ "\n").toList ∧
    words (kw.str ++ " " ++ m ++ "\n").toList = (kwWord kw).toList :: (if m = "" then [] else [m.toList]) := by
  rw [← CDecl.kw_text]
  exact word_head (CName.of (Txt.kw_text kw).1 (Txt.kw_text kw).2) (by cases kw <;> decide +kernel) (by cases kw <;> decide +kernel) hm

/-- The text behind the braces of a composite type. -/
def tailText (field : String) : String := if field.isEmpty then "" else " " ++ field

theorem tail_ok {field : String} (h1 : ∀ c ∈ field.toList, okChar c = true) (h2 : ∀ x ∈ field.toList.head?, blank x = false)
    (h3 : ∀ x ∈ field.toList.getLast?, blank x = false) :
    (∀ c ∈ (tailText field).toList, okChar c = true) ∧ (∀ x ∈ (tailText field).toList.getLast?, blank x = false) ∧
    trim (tailText field).toList = field.toList := by
  unfold tailText
  by_cases h : field = ""
  · subst h
    rw [if_pos (show "".isEmpty = true from rfl)]
    exact ⟨by decide +kernel, by decide +kernel, by decide +kernel⟩
  · have h0 : field.toList ≠ [] := fun h0 => h (String.toList_inj.1 (by rw [h0]; rfl))
    rw [if_neg (by simpa using h), show (" " ++ field).toList = ' ' :: field.toList by rw [String.toList_append]; rfl]
    refine ⟨?_, ?_, ?_⟩
    · intro c hc
      rcases List.mem_cons.1 hc with rfl | hc
      · decide
      · exact h1 c hc
    · rw [show ' ' :: field.toList = [' '] ++ field.toList from rfl, last_append h0]
      exact h3
    · rw [show trim (' ' :: field.toList) = trim field.toList by unfold trim; rw [List.dropWhile_cons]; rfl]
      exact trim_id h2 h3

/-- A composite type with its members. -/
theorem record_piece {num : Ty → String → Nat} {kw : Kw} {m field : String} {ms : Emit.Members} {ds : List (List Char)}
    (hm : m = "" ∨ CName m) (h1 : ∀ c ∈ field.toList, okChar c = true) (h2 : ∀ x ∈ field.toList.head?, blank x = false)
    (h3 : ∀ x ∈ field.toList.getLast?, blank x = false) (hl : Lists (membersText num ms).toList ds) (hb : Bal (membersText num ms).toList)
    (ht : ∀ c ∈ (membersText num ms).toList, textChar c = true) :
    ∃ T head body tail, (recordText num field (.mk kw m true ms)).toList = T ++ [';', '\n'] ∧ Piece T ∧ Braces T head body tail ∧
      words head = (kwWord kw).toList :: (if m = "" then [] else [m.toList]) ∧ trim tail = field.toList ∧ Holds body ds := by
  obtain ⟨hh, hw⟩ := kw_head (kw := kw) hm
  obtain ⟨t1, t2, t3⟩ := tail_ok h1 h2 h3
  refine ⟨(kw.str ++ " " ++ m ++ "\n").toList ++ '{' :: (("\n    ".toList ++ (membersText num ms).toList ++ "\n".toList) ++ '}' :: (tailText field).toList),
    _, _, _, ?_, ⟨Lists.braces hh ?_ t1 t2, ?_, ?_⟩, ⟨rfl, ?_, ?_⟩, hw, t3, Lists.holds ?_⟩
  · rw [recordText, if_pos rfl]
    show (_ ++ (tailText field) ++ ";\n").toList = _
    simp only [String.toList_append, List.append_assoc]
    rw [show "\n{\n".toList = ['\n', '{', '\n'] by decide +kernel, show "\n    ".toList = '\n' :: "    ".toList by decide +kernel,
      show "\n}".toList = ['\n', '}'] by decide +kernel, show "\n".toList = ['\n'] by decide +kernel, show ";\n".toList = [';', '\n'] by decide +kernel]
    simp only [List.cons_append, List.nil_append, List.append_assoc]
  · exact ((Bal.chars (by decide +kernel)).append hb).append (Bal.chars (by decide +kernel))
  · have hi : Bal ("\n    ".toList ++ (membersText num ms).toList ++ "\n".toList) :=
      ((Bal.chars (by decide +kernel)).append hb).append (Bal.chars (by decide +kernel))
    rw [show ∀ a b c d : List Char, a ++ '{' :: ((b ++ c ++ d) ++ '}' :: (tailText field).toList) =
      a ++ (('{' :: ((b ++ c ++ d) ++ ['}'])) ++ (tailText field).toList) by intro a b c d; simp]
    exact (Bal.ok hh.ok).append (hi.braces.append (Bal.ok t1))
  · intro c hc
    rcases List.mem_append.1 hc with hc | hc
    · exact ok_text (hh.ok c hc)
    · rcases List.mem_cons.1 hc with rfl | hc
      · decide
      · rcases List.mem_append.1 hc with hc | hc
        · rcases List.mem_append.1 hc with hc | hc
          · rcases List.mem_append.1 hc with hc | hc
            · have : ∀ c ∈ "\n    ".toList, textChar c = true := by decide +kernel
              exact this c hc
            · exact ht c hc
          · have : ∀ c ∈ "\n".toList, textChar c = true := by decide +kernel
            exact this c hc
        · rcases List.mem_cons.1 hc with rfl | hc
          · decide
          · exact ok_text (t1 c hc)
  · exact fun hc => absurd (hh.ok _ hc) (by decide)
  · exact fun hc => absurd (t1 _ hc) (by decide)
  · rw [show ds = [] ++ ds ++ [] by simp]
    exact ((Lists.blanks (by decide +kernel)).append hl).append (Lists.blanks (by decide +kernel))

theorem field_ok {n : String} {a : Int} (hn : n = "" ∨ CName n) :
    (∀ c ∈ (if n = "" then "" else n ++ boundOf a).toList, okChar c = true) ∧
    (∀ x ∈ (if n = "" then "" else n ++ boundOf a).toList.head?, blank x = false) ∧
    ∀ x ∈ (if n = "" then "" else n ++ boundOf a).toList.getLast?, blank x = false := by
  rcases hn with rfl | hn
  · rw [if_pos rfl]
    exact ⟨by decide +kernel, by decide +kernel, by decide +kernel⟩
  · rw [if_neg hn.word.1, String.toList_append]
    refine ⟨?_, ?_, last_or (cname_last hn) (bound_ok a).2⟩
    · intro c hc
      rcases List.mem_append.1 hc with hc | hc
      · exact cname_ok hn c hc
      · exact (bound_ok a).1 c hc
    · cases hl : n.toList with
      | nil => exact absurd hl (cname_ne hn)
      | cons c r =>
        intro x hx
        simp only [List.cons_append, List.head?_cons, Option.mem_def, Option.some.injEq] at hx
        subst hx
        exact cname_nonblank hn _ (by rw [hl]; simp)

/-- A composite type mentioned by its tag, and what the text of the member says. -/
theorem mention_declares {num : Ty → String → Nat} {i : Bool} {kw : Kw} {m n : String} {fs : Fields} {emb fwd : Bool} {meth : Types.Methods}
    {ms : Emit.Members} (a : Int) (hm : CName m) (hn : CName n) :
    ∃ T, (recordText num (n ++ boundOf a) (.mk kw m false ms)).toList = T ++ [';', '\n'] ∧ Piece T ∧
      Declares T (semIn e (.comp i kw m fs emb fwd meth)) n.toList (boundOf a).toList := by
  have hw : written e "" (.comp i kw m fs emb fwd meth) = kw.str ++ " " ++ m := by
    unfold written
    rw [if_pos rfl, nameless, if_neg hm.word.1, Types.declPrefix, CDecl.kw_text,
      Types.keyword_text _ _ (CDecl.last_word (CDecl.word_kw kw)) (CDecl.word_kw kw).1 (CDecl.word_ident hm.word), if_neg hm.word.1]
    simp
  obtain ⟨h1, h2, h3⟩ := spelled_text e (Spelled.type (e := e) (s := "") (t := .comp i kw m fs emb fwd meth) hm.word (Or.inl rfl))
  have h := plain_declares h1 (h2 0 n hn.word) (fun hx => h3 ⟨0, hx⟩) hn (suffix := boundOf a) ⟨(bound_ok a).1, (bound_ok a).2⟩
  rw [show (extraOf false 0 (.comp i kw m fs emb fwd meth)).1 = .none from rfl, Gen.XDecl.text, String.append_empty, hw] at h
  refine ⟨_, ?_, h.1, h.2⟩
  have h0 : (n ++ boundOf a).isEmpty = false := by
    have : n ++ boundOf a ≠ "" := by
      intro h0
      have := congrArg String.toList h0
      rw [String.toList_append] at this
      exact cname_ne hn (List.append_eq_nil_iff.1 this).1
    simpa using this
  rw [recordText, h0]
  simp only [Bool.false_eq_true, if_false, String.toList_append, List.append_assoc]
  rfl

/-- A composite type mentioned by its tag. -/
theorem mention_piece {num : Ty → String → Nat} {i : Bool} {kw : Kw} {m n : String} {fs : Fields} {emb fwd : Bool} {meth : Types.Methods}
    {ms : Emit.Members} (a : Int) (hm : CName m) (hn : CName n) :
    ∃ T, (recordText num (n ++ boundOf a) (.mk kw m false ms)).toList = T ++ [';', '\n'] ∧ Piece T ∧
      Member e T (.comp i kw m fs emb fwd meth) n.toList (boundOf a).toList := by
  obtain ⟨T, h1, h2, h3⟩ := mention_declares e (num := num) (i := i) (kw := kw) (fs := fs) (emb := emb) (fwd := fwd) (meth := meth) (ms := ms) a hm hn
  exact ⟨T, h1, h2, .plain (cname_ne hn) h3⟩

mutual
/-- The members of a composite type, from the description of its body. -/
theorem members_read (num : Ty → String → Nat) : ∀ (fs : Fields) (ms : Emit.Members), Mirror e fs ms → FieldsOk e fs →
    ∃ ds, Lists (membersText num ms).toList ds ∧ Bal (membersText num ms).toList ∧ (∀ c ∈ (membersText num ms).toList, textChar c = true) ∧
      Members e ds fs
  | .nil, .nil, _, _ => ⟨[], Lists.nil, Bal.nil, (fun c hc => by rw [membersText] at hc; cases hc), Members.nil⟩
  | .field s t n a rest, .plain d u m ms, h, hok => by
    obtain ⟨hc, rfl, rfl, rfl, hr⟩ := h
    obtain ⟨ds, h1, h2, h3, h4⟩ := members_read num rest ms hr hok.2
    have hf : CName n ∧ Spelled e s u := by
      have := hok.1
      cases u <;> first | exact this | exact absurd hc (by simp [composite])
    obtain ⟨p, hm⟩ := plain_member e (num u (n ++ boundOf a)) hf.2 hf.1 (bound_ok a)
    obtain ⟨l1, l2, l3⟩ := p.line
    refine ⟨_ :: ds, ?_, ?_, ?_, .field (by rw [if_neg hf.1.word.1]; exact hm) h4⟩
    · rw [membersText, String.toList_append, String.toList_append]
      exact l1.append h1
    · rw [membersText, String.toList_append, String.toList_append]
      exact l2.append h2
    · rw [membersText, String.toList_append, String.toList_append]
      intro c hc
      rcases List.mem_append.1 hc with hc | hc
      · exact l3 c hc
      · exact h3 c hc
  | .field s t n a rest, .sub d m ms, h, hok => by
    obtain ⟨hd, hm, hr⟩ := h
    obtain ⟨ds, h1, h2, h3, h4⟩ := members_read num rest ms hr hok.2
    obtain ⟨T, eT, p, hmem⟩ := record_read num t d s n a hd hok.1
    rw [← hm] at eT
    obtain ⟨l1, l2, l3⟩ := p.line
    refine ⟨T :: ds, ?_, ?_, ?_, .field hmem h4⟩
    · rw [membersText, String.toList_append, eT]
      exact l1.append h1
    · rw [membersText, String.toList_append, eT]
      exact l2.append h2
    · rw [membersText, String.toList_append, eT]
      intro c hc
      rcases List.mem_append.1 hc with hc | hc
      · exact l3 c hc
      · exact h3 c hc
  | .bit s t n k rest, .plain d u m ms, h, hok => by
    obtain ⟨hc, rfl, rfl, rfl, hr⟩ := h
    obtain ⟨-, hn, hs, hx, hrest⟩ := hok
    obtain ⟨ds, h1, h2, h3, h4⟩ := members_read num rest ms hr hrest
    have hsuf : (∀ c ∈ (":" ++ toString k).toList, okChar c = true) ∧ (∀ x ∈ (":" ++ toString k).toList.getLast?, blank x = false) ∧
        (":" ++ toString k).toList ≠ [] := by
      rw [String.toList_append]
      refine ⟨?_, last_or (by decide +kernel) (fun x hx => (nat_ok k x (List.mem_of_getLast? hx)).2.1), ?_⟩
      · intro c hc
        rcases List.mem_append.1 hc with hc | hc
        · have : ∀ c ∈ ":".toList, okChar c = true := by decide +kernel
          exact this c hc
        · exact (nat_ok k c hc).1
      · rw [show ":".toList = [':'] by decide +kernel]; simp
    have key : ∃ T, (written e s u ++ " " ++ (n ++ ":" ++ toString k) ++ memberExtra num u (n ++ ":" ++ toString k)).toList = T ∧ Piece T ∧
        Member e T u n.toList (":" ++ toString k).toList := by
      refine ⟨_, rfl, ?_⟩
      rw [memberExtra, hx, Gen.XDecl.text, String.append_empty, String.append_assoc (s₁ := n)]
      rcases hn with rfl | hn
      · rw [String.empty_append]
        exact pad_member e hs hx ⟨hsuf.1, hsuf.2.1⟩ hsuf.2.2
      · have := plain_member e 0 hs hn ⟨hsuf.1, hsuf.2.1⟩
        rw [hx, Gen.XDecl.text, String.append_empty] at this
        exact this
    obtain ⟨T, eT, p, hm⟩ := key
    obtain ⟨l1, l2, l3⟩ := p.line
    refine ⟨T :: ds, ?_, ?_, ?_, .bit hm h4⟩
    · rw [membersText, String.toList_append, String.toList_append, eT]
      exact l1.append h1
    · rw [membersText, String.toList_append, String.toList_append, eT]
      exact l2.append h2
    · rw [membersText, String.toList_append, String.toList_append, eT]
      intro c hc
      rcases List.mem_append.1 hc with hc | hc
      · exact l3 c hc
      · exact h3 c hc
  | .bit s t n k rest, .sub d m ms, h, hok => by
    obtain ⟨hd, -, -⟩ := h
    have := hok.1
    cases t <;> first | exact hd.elim | cases this
  | .field .., .nil, h, _ => h.elim
  | .bit .., .nil, h, _ => h.elim
  | .nil, .plain .., h, _ => h.elim
  | .nil, .sub .., h, _ => h.elim

/-- A member of a composite type. -/
theorem record_read (num : Ty → String → Nat) : ∀ (t : Ty) (d : Emit.Decl) (s n : String) (a : Int), MirrorDecl e t d → FieldOk e s n t →
    ∃ T, (recordText num (if n = "" then "" else n ++ boundOf a) d).toList = T ++ [';', '\n'] ∧ Piece T ∧
      Member e T t n.toList (if n = "" then [] else (boundOf a).toList)
  | .comp i kw m fs emb fwd meth, .mk kw' m' body ms, s, n, a, hd, hok => by
    obtain ⟨rfl, rfl, hb, hmir⟩ := hd
    obtain ⟨hm, hnm, hn, hfs⟩ := hok
    cases body with
    | false =>
      have hm0 : m' ≠ "" := fun h0 => by cases hb h0
      have hn0 : n ≠ "" := fun h0 => hm0 (hnm h0)
      have hn' : CName n := hn.resolve_left hn0
      have hm' : CName m' := hm.resolve_left hm0
      rw [if_neg hn0, if_neg hn0]
      exact mention_piece e a hm' hn'
    | true =>
      obtain ⟨ds, h1, h2, h3, h4⟩ := members_read num fs ms (hmir rfl) hfs
      obtain ⟨f1, f2, f3⟩ := field_ok (a := a) hn
      obtain ⟨T, head, body, tail, eT, p, hB, hw, ht, hH⟩ := record_piece (kw := kw') hm f1 f2 f3 h1 h2 h3
      refine ⟨T, eT, p, .record hB hw ?_ hH h4⟩
      rw [ht]
      by_cases h0 : n = ""
      · subst h0
        rw [if_pos rfl, if_pos rfl]
        rfl
      · rw [if_neg h0, if_neg h0, String.toList_append]
  | .ctype .., .mk .., _, _, _, h, _ | .ptr .., .mk .., _, _, _, h, _ | .ref .., .mk .., _, _, _, h, _ | .const .., .mk .., _, _, _, h, _
  | .tdef .., .mk .., _, _, _, h, _ | .enum .., .mk .., _, _, _, h, _ | .incomplete .., .mk .., _, _, _, h, _ | .fn .., .mk .., _, _, _, h, _ => h.elim
end

end EasyMock.CFile.TypeDecl
