import Verif.CFile.TypesMembers
import Verif.CFile.HeaderWhole
import Verif.Emit.Sound

/-! # CFile: the texts of the declarations of types -/

namespace EasyMock.CFile.TypeDecl

open EasyMock.Types (Ty Fields Params Kw)
open EasyMock.CDecl (wordChar Word Spellable Spellables NoFn IsFn kwWord toks toks_sep read_eq)
open EasyMock.Gen (extraOf paramSection)
open EasyMock.CFile.Txt (CName)
open EasyMock.Emit (tagOf Mirror Faithful visible)

variable {H : Type} (e : Emit.Env H) {num : Ty → String → Nat}

/-! ## Conditions -/

/-- Parameters which are no pointers to functions. -/
def FlatParams : Params → Prop
  | .nil => True
  | .cons _ t _ rest => Txt.opens t = 0 ∧ FlatParams rest

/-- A type of which a typedef can be declared: one with a name behind pointers and qualifiers; an enumeration or a composite type without
    name; a pointer to a function whose parameters and result are no pointers to functions. -/
inductive TdOk : Ty → Prop
  | named {t} : Spellable false t → NoFn t → (Types.attrs (Types.rawType t)).name.isEmpty = false → TdOk t
  | enum {i vs} : CName (e.anon (.enum i "" vs)) → TdOk (.enum i "" vs)
  | comp {i kw fs emb fwd ms} : CName (e.anon (.comp i kw "" fs emb fwd ms)) → TdOk (.comp i kw "" fs emb fwd ms)
  | fn {i j info r ret ps} : Spellable true (.fn j info r ret ps) → Txt.opens ret = 0 → FlatParams ps → TdOk (.ptr i (.fn j info r ret ps))

/-- A type whose declaration can be read. -/
def TypeOk : Ty → Prop
  | .tdef _ n t => CName n ∧ TdOk e t
  | .enum i n vs => CName (Emit.enumName e i n vs) ∧ ∀ v ∈ vs, Ident v.2.toList
  | .comp i kw n fs emb fwd ms => CName (tagOf e (.comp i kw n fs emb fwd ms)) ∧ FieldsOk e fs
  | .incomplete _ _ n => n = "" ∨ CName n
  | _ => True

/-! ## Typedefs -/

theorem raw_noFn : ∀ (t : Ty), NoFn t → ¬ IsFn (Types.rawType t)
  | .ptr _ t, h | .ref _ t, h | .const _ t, h | .tdef _ _ t, h => raw_noFn t h
  | .ctype .., _ | .enum .., _ | .comp .., _ | .incomplete .., _ => id
  | .fn .., h => h.elim

theorem typedef_noFn (n : String) (t : Ty) (h : ¬ IsFn (Types.rawType t)) : typedefText e n t = Types.fullName t ++
    (if (Types.attrs (Types.rawType t)).name.isEmpty then " " ++ e.anon (Types.rawType t) else "") ++ " " ++ n := by
  unfold typedefText
  split
  · rename_i hr
    exact absurd (by rw [hr]; trivial) h
  · rfl

/-- The parameters get the name `x`. -/
def named : Params → Params
  | .nil => .nil
  | .cons s t _ rest => .cons s t "x" (named rest)

theorem named_ok : ∀ (ps : Params), Spellables ps → Spellables (named ps) ∧ CDecl.semsOf (named ps) = CDecl.semsOf ps
  | .nil, _ => ⟨trivial, rfl⟩
  | .cons s t n rest, h => by
    obtain ⟨h1, h2, h3, h4⟩ := h
    obtain ⟨i1, i2⟩ := named_ok rest h4
    exact ⟨⟨h1, h2, Or.inr (by unfold Word; decide +kernel), i1⟩, by simp only [named, CDecl.semsOf, i2]⟩

theorem flat_prefix : ∀ (t : Ty) (b : Bool), Spellable b t → Txt.opens t = 0 → ∀ c ∈ (Types.declPrefix t).toList, c ≠ '(' ∧ c ≠ ','
  | .ctype c _ _, _, _, _ => by
    rw [Types.declPrefix]
    cases c <;> decide +kernel
  | .ptr _ t, _, h, h0 => by
    rw [Types.declPrefix, String.toList_append]
    intro c hc
    rcases List.mem_append.1 hc with hc | hc
    · exact flat_prefix t true h h0 c hc
    · have : ∀ c ∈ "*".toList, c ≠ '(' ∧ c ≠ ',' := by decide +kernel
      exact this c hc
  | .ref _ t, _, h, h0 => by
    rw [Types.declPrefix, String.toList_append]
    intro c hc
    rcases List.mem_append.1 hc with hc | hc
    · exact flat_prefix t true h.1 h0 c hc
    · have : ∀ c ∈ "&".toList, c ≠ '(' ∧ c ≠ ',' := by decide +kernel
      exact this c hc
  | .const _ t, b, h, h0 => by
    rw [Types.declPrefix, Txt.trim_prefix h.1 h.2, String.append_assoc, String.toList_append]
    intro c hc
    rcases List.mem_append.1 hc with hc | hc
    · exact flat_prefix t b h.1 h0 c hc
    · have : ∀ c ∈ (" " ++ "const").toList, c ≠ '(' ∧ c ≠ ',' := by decide +kernel
      exact this c hc
  | .tdef _ n _, _, h, _ => fun c hc => ⟨by rintro rfl; exact absurd (h.1.2.1 _ hc) (by decide), by rintro rfl; exact absurd (h.1.2.1 _ hc) (by decide)⟩
  | .enum _ n _, _, h, _ => by
    rw [Types.declPrefix]
    intro c hc
    exact two_flat CDecl.word_enum h c (by rw [show "enum" ++ " " = "enum " by decide +kernel]; exact hc)
  | .comp _ kw n _ _ _ _, _, h, _ | .incomplete _ kw n, _, h, _ => by
    rw [Types.declPrefix, CDecl.kw_text]
    exact two_flat (CDecl.word_kw kw) h
  | .fn .., _, _, h0 => by simp [Txt.opens] at h0
where
  two_flat {k n : String} (hk : Word k) (h : Word n) : ∀ c ∈ (Types.trimR (k ++ " " ++ n)).toList, c ≠ '(' ∧ c ≠ ',' := by
    rw [Types.keyword_text k n (CDecl.last_word hk) hk.1 (CDecl.word_ident h), if_neg h.1, String.toList_append, String.toList_append]
    intro c hc
    have key : wordChar c = true ∨ c = ' ' → c ≠ '(' ∧ c ≠ ',' := by
      rintro (h | rfl)
      · exact ⟨by rintro rfl; exact absurd h (by decide), by rintro rfl; exact absurd h (by decide)⟩
      · decide
    rcases List.mem_append.1 hc with hc | hc
    · rcases List.mem_append.1 hc with hc | hc
      · exact key (Or.inl (hk.2.1 c hc))
      · rw [show " ".toList = [' '] by decide +kernel] at hc
        exact key (Or.inr (by simpa using hc))
    · exact key (Or.inl (h.2.1 c hc))

/-- The parameters with the names of `nameEach`. -/
def spread (l : List Char) : List Char := l.flatMap (fun c => if c = ',' then [' ', 'x', ','] else [c])

theorem spread_id : ∀ (l : List Char), (∀ c ∈ l, c ≠ ',') → spread l = l
  | [], _ => rfl
  | c :: l, h => by
    have : spread (c :: l) = [c] ++ spread l := by
      simp only [spread, List.flatMap_cons, if_neg (h c (by simp))]
    rw [this, spread_id l (fun x hx => h x (by simp [hx]))]
    rfl

theorem spread_append (a b : List Char) : spread (a ++ b) = spread a ++ spread b := List.flatMap_append

theorem inter_params : ∀ (ps : Params) (k : Nat), Spellables ps → FlatParams ps → ps ≠ .nil →
    spread (", ".intercalate (Types.paramDecls ps)).toList ++ [' ', 'x'] = (paramSection k (named ps)).1.text.toList ∧
    (∀ c ∈ (", ".intercalate (Types.paramDecls ps)).toList, c ≠ '(') ∧
    ∃ c r, (", ".intercalate (Types.paramDecls ps)).toList = c :: r ∧ blank c = false
  | .nil, _, _, _, h => absurd rfl h
  | .cons s t n .nil, k, h, hf, _ => by
    have hs : (if s.isEmpty then Types.declPrefix t else s) = Types.declPrefix t := CDecl.declare_eq h.1
    have hx : (extraOf false k t).1 = .none := Txt.no_extra t false k h.2.1 hf.1
    have hd := flat_prefix t false h.2.1 hf.1
    obtain ⟨c, r, e1, e2⟩ := (Txt.prefix_ok t false h.2.1).starts.first
    have hi : ", ".intercalate (Types.paramDecls (.cons s t n .nil)) = Types.declPrefix t := by
      rw [Types.paramDecls, Types.paramDecls, hs]; simp
    rw [hi]
    refine ⟨?_, fun c hc => (hd c hc).1, c, r, e1, ident_blank e2⟩
    rw [spread_id _ (fun c hc => (hd c hc).2), named, named, paramSection, paramSection, hx, CDecl.declare_eq h.1]
    simp only [Gen.PList.text, Gen.XDecl.text, String.append_empty, String.toList_append]
    rw [if_neg (by decide +kernel), show "x".toList = ['x'] by decide +kernel, show " ".toList = [' '] by decide +kernel]
    simp
  | .cons s t n (.cons s' t' n' rest), k, h, hf, _ => by
    have hs : (if s.isEmpty then Types.declPrefix t else s) = Types.declPrefix t := CDecl.declare_eq h.1
    have hx : (extraOf false k t).1 = .none := Txt.no_extra t false k h.2.1 hf.1
    have hd := flat_prefix t false h.2.1 hf.1
    obtain ⟨c, r, e1, e2⟩ := (Txt.prefix_ok t false h.2.1).starts.first
    obtain ⟨i1, i2, -⟩ := inter_params (.cons s' t' n' rest) (extraOf false k t).2 h.2.2.2 hf.2 (by simp)
    have hi : ", ".intercalate (Types.paramDecls (.cons s t n (.cons s' t' n' rest))) =
        Types.declPrefix t ++ ", " ++ ", ".intercalate (Types.paramDecls (.cons s' t' n' rest)) := by
      rw [Types.paramDecls, hs, Types.paramDecls, String.intercalate_cons_cons]
    have ht : (paramSection k (named (.cons s t n (.cons s' t' n' rest)))).1.text.toList =
        (Types.declPrefix t).toList ++ [' ', 'x', ',', ' '] ++ (paramSection (extraOf false k t).2 (named (.cons s' t' n' rest))).1.text.toList := by
      rw [named, paramSection]
      dsimp only
      rw [if_neg (show ¬ ("x".isEmpty = true) by decide +kernel), if_neg (show ¬ ("x".isEmpty = true) by decide +kernel), hx, CDecl.declare_eq h.1]
      rw [named, paramSection]
      dsimp only
      rw [Gen.PList.text]
      simp only [Gen.XDecl.text, String.append_empty, String.toList_append]
      rw [show "x".toList = ['x'] by decide +kernel, show " ".toList = [' '] by decide +kernel, show ", ".toList = [',', ' '] by decide +kernel]
      simp only [List.append_assoc, List.cons_append, List.nil_append]
    rw [hi, String.toList_append, String.toList_append, ht]
    refine ⟨?_, ?_, c, _, by rw [e1]; rfl, ident_blank e2⟩
    · rw [spread_append, spread_append, spread_id _ (fun c hc => (hd c hc).2),
        show spread ", ".toList = [' ', 'x', ',', ' '] by decide +kernel, List.append_assoc, i1]
    · intro c hc
      rcases List.mem_append.1 hc with hc | hc
      · rcases List.mem_append.1 hc with hc | hc
        · exact (hd c hc).1
        · have : ∀ c ∈ ", ".toList, c ≠ '(' := by decide +kernel
          exact this c hc
      · exact i2 c hc

theorem each_params (ps : Params) (k : Nat) (h : Spellables ps) (hf : FlatParams ps) :
    nameEach (", ".intercalate (Types.paramDecls ps)).toList = (paramSection k (named ps)).1.text.toList ∧
    ∀ c ∈ (", ".intercalate (Types.paramDecls ps)).toList, c ≠ '(' := by
  by_cases h0 : ps = .nil
  · subst h0
    rw [named, paramSection, Types.paramDecls, show (", ".intercalate []).toList = [] by decide +kernel]
    exact ⟨rfl, by decide⟩
  · obtain ⟨h1, h2, c, r, h3, h4⟩ := inter_params ps k h hf h0
    refine ⟨?_, h2⟩
    unfold nameEach
    rw [if_neg (by rw [h3]; simp [h4])]
    exact h1

theorem params_cut {pre I : List Char} (h : ∀ c ∈ I, c ≠ '(') : nameParams (pre ++ '(' :: (I ++ [')'])) = pre ++ '(' :: (nameEach I ++ [')']) := by
  have e1 : (pre ++ '(' :: (I ++ [')'])).reverse = ')' :: (I.reverse ++ '(' :: pre.reverse) := by simp
  have h' : ∀ c ∈ I.reverse, (c ≠ '(') := fun c hc => h c (by simpa using hc)
  have e2 : ∀ (l r : List Char), (∀ c ∈ l, c ≠ '(') → (l ++ '(' :: r).dropWhile (· ≠ '(') = '(' :: r ∧ (l ++ '(' :: r).takeWhile (· ≠ '(') = l := by
    intro l r hl
    induction l with
    | nil => simp
    | cons c l ih =>
      have hc := hl c (by simp)
      have := ih (fun x hx => hl x (by simp [hx]))
      simpa [hc] using this
  unfold nameParams
  rw [e1]
  simp only [(e2 _ _ h').1, (e2 _ _ h').2]
  simp

theorem params_id {t : List Char} (h : ∀ x ∈ t.getLast?, x ≠ ')') : nameParams t = t := by
  unfold nameParams
  split
  · rename_i r hr
    exfalso
    refine h ')' ?_ rfl
    rw [← List.head?_reverse, hr]
    rfl
  · rfl

/-! ## Blocks -/

/-- A text which is one declaration and the end of a line. -/
structure Block (X T : List Char) : Prop where
  lists : Lists X [T]
  text : ∀ c ∈ X, textChar c = true
  last : X.getLast? = some '\n'

theorem Piece.block {T : List Char} (h : Piece T) : Block (T ++ [';', '\n']) T :=
  ⟨h.line.1, h.line.2.2, by rw [last_append (by simp)]; rfl⟩

theorem trim_end {t b : List Char} (h0 : t ≠ []) (h1 : ∀ x ∈ t.head?, blank x = false) (h2 : ∀ x ∈ t.getLast?, blank x = false)
    (hb : ∀ c ∈ b, blank c = true) : trim (t ++ b) = t := by
  cases t with
  | nil => exact absurd rfl h0
  | cons c r =>
    have hc : blank c = false := h1 c rfl
    have e1 : ((c :: r) ++ b).dropWhile blank = (c :: r) ++ b := by simp [hc]
    have e2 : (c :: r).dropWhile blank = c :: r := by simp [hc]
    have h := trim_id h1 h2
    unfold trim at h ⊢
    rw [e2] at h
    rw [e1, List.reverse_append, List.dropWhile_append_of_pos (by simpa using hb), h]

theorem Head.block {t : List Char} (h : Head t) : Block (t ++ [';', '\n']) (trim t) := by
  obtain ⟨c, r, e1, hc⟩ := h.first
  refine ⟨fun S D => ?_, ?_, by rw [last_append (by simp)]; rfl⟩
  · rw [show t ++ [';', '\n'] = (t ++ [';']) ++ ['\n'] by simp, List.foldlM_append, List.foldlM_append, h.feed]
    simp only [Option.bind_eq_bind, Option.bind_some]
    rw [feed_end e1 hc]
    simp only [Option.bind_some]
    rw [feed_blank _ _ ⟨rfl, rfl, rfl, rfl⟩ (by decide)]
    rfl
  · intro c hc
    rcases List.mem_append.1 hc with hc | hc
    · exact ok_text (h.ok c hc)
    · have : ∀ c ∈ [';', '\n'], textChar c = true := by decide
      exact this c hc

/-! ## The texts of typedefs -/

theorem typedef_of {n : String} {t : Ty} {d b : List Char} (ht : (typedefText e n t).toList = d ++ b) (hb : ∀ c ∈ b, c = ' ')
    (hok : ∀ c ∈ d, okChar c = true) (h0 : d ≠ []) (hl : ∀ x ∈ d.getLast?, blank x = false)
    (hr : CDecl.read (String.ofList (nameParams d)) = some (n.toList, semIn e t)) :
    ∃ T, Block (itemBody e num (.td n t)).toList T ∧ Typedef e T n t := by
  have ht0 : "typedef ".toList = 't' :: "ypedef ".toList := by decide +kernel
  have hX : (itemBody e num (.td n t)).toList = ("typedef ".toList ++ d ++ b) ++ [';', '\n'] := by
    have h2 : ";\n".toList = [';', '\n'] := by decide +kernel
    show ("typedef " ++ typedefText e n t ++ ";\n").toList = _
    generalize "typedef " = u
    simp only [String.toList_append, ht, h2, List.append_assoc]
  have hT : trim ("typedef ".toList ++ d ++ b) = "typedef ".toList ++ d := by
    refine trim_end (List.append_ne_nil_of_left_ne_nil (by decide +kernel) _)
      (by rw [ht0, List.cons_append, List.head?_cons]; intro x hx; rw [← Option.some.inj hx]; decide) ?_ (fun c hc => by rw [hb c hc]; decide)
    rw [last_append h0]; exact hl
  refine ⟨"typedef ".toList ++ d, ?_, d, rfl, hr⟩
  rw [hX]
  have := Head.block (t := "typedef ".toList ++ d ++ b) ⟨?_, ?_⟩
  · rw [hT] at this; exact this
  · intro c hc
    rcases List.mem_append.1 hc with hc | hc
    · rcases List.mem_append.1 hc with hc | hc
      · have : ∀ c ∈ "typedef ".toList, okChar c = true := by decide +kernel
        exact this c hc
      · exact hok c hc
    · rw [hb c hc]; decide
  · exact ⟨'t', "ypedef ".toList ++ d ++ b, by rw [ht0]; rfl, by decide⟩

/-- A typedef whose name is the end of its text. -/
theorem typedef_plain {n : String} {t : Ty} {s : String} (hn : CName n) (ht : typedefText e n t = s ++ " " ++ n)
    (hr : CDecl.read (s ++ " " ++ n) = some (n.toList, semIn e t)) : ∃ T, Block (itemBody e num (.td n t)).toList T ∧ Typedef e T n t := by
  have hl : ∀ x ∈ (s ++ " " ++ n).toList.getLast?, identChar x = true := by
    rw [String.toList_append, last_append (cname_ne hn)]
    exact fun x hx => hn.ident.2 x (List.mem_of_getLast? hx)
  refine typedef_of e (d := (s ++ " " ++ n).toList) (b := []) (by rw [ht, List.append_nil]) (by simp) (read_chars hr) ?_
    (fun x hx => ident_blank (Or.inl (hl x hx))) ?_
  · rw [String.toList_append]; simp
  · rw [params_id (fun x hx => by rintro rfl; exact absurd (hl _ hx) (by decide)), String.ofList_toList]
    exact hr

theorem word_text {k m : String} (hk : Word k) (hm : Word m) : Types.trimR (k ++ " " ++ m) = k ++ " " ++ m := by
  rw [Types.keyword_text k m (CDecl.last_word hk) hk.1 (CDecl.word_ident hm), if_neg hm.1]

theorem keyword_alone {k : String} (hk : Word k) : Types.trimR (Types.trimR (k ++ " " ++ "") ++ " " ++ "") = k := by
  rw [String.append_empty, String.append_empty, Types.trimR_append_blank _ (CDecl.last_word hk) hk.1,
    Types.trimR_append_blank _ (CDecl.last_word hk) hk.1]

theorem typedef_block {n : String} {t : Ty} (hn : CName n) (h : TdOk e t) : ∃ T, Block (itemBody e num (.td n t)).toList T ∧ Typedef e T n t := by
  cases h with
  | named hs hf hne =>
    have hnf : ¬ IsFn t := CDecl.not_isFn_false t hs
    have hr := CDecl.read_param 0 hs hn.word
    rw [Txt.no_extra t false 0 hs (Txt.opens_noFn t hf), Gen.XDecl.text, String.append_empty, ← (sem_in e t false hs).2] at hr
    refine typedef_plain e hn ?_ hr
    rw [typedef_noFn e n t (raw_noFn t hf), if_neg (by rw [hne]; decide), String.append_empty, Types.fullName, Txt.trim_prefix hs hnf]
  | @enum i vs ha =>
    have hr := CDecl.read_param (t := .enum i (e.anon (.enum i "" vs)) vs) 0 ha.word hn.word
    rw [Types.declPrefix, show "enum " = "enum" ++ " " by decide +kernel, word_text CDecl.word_enum ha.word,
      show (extraOf false 0 (.enum i (e.anon (.enum i "" vs)) vs)).1.text = "" from rfl, String.append_empty,
      show CDecl.semOf (.enum i (e.anon (.enum i "" vs)) vs) = semIn e (.enum i "" vs) from rfl] at hr
    refine typedef_plain e (s := "enum" ++ " " ++ e.anon (.enum i "" vs)) hn ?_ hr
    rw [typedef_noFn e n (.enum i "" vs) (fun h => h)]
    rw [if_pos (show (Types.attrs (Types.rawType (.enum i "" vs))).name.isEmpty = true from rfl),
      show Types.fullName (.enum i "" vs) = Types.trimR (Types.trimR ("enum " ++ "") ++ " " ++ "") from rfl, show "enum " = "enum" ++ " " by decide +kernel,
      keyword_alone CDecl.word_enum]
    simp only [String.append_assoc]
    rfl
  | @comp i kw fs emb fwd ms ha =>
    have hr := CDecl.read_param (t := .comp i kw (e.anon (.comp i kw "" fs emb fwd ms)) fs emb fwd ms) 0 ha.word hn.word
    rw [Types.declPrefix, CDecl.kw_text, word_text (CDecl.word_kw kw) ha.word,
      show (extraOf false 0 (.comp i kw (e.anon (.comp i kw "" fs emb fwd ms)) fs emb fwd ms)).1.text = "" from rfl, String.append_empty,
      show CDecl.semOf (.comp i kw (e.anon (.comp i kw "" fs emb fwd ms)) fs emb fwd ms) = semIn e (.comp i kw "" fs emb fwd ms) by
        cases kw <;> rfl] at hr
    refine typedef_plain e (s := kwWord kw ++ " " ++ e.anon (.comp i kw "" fs emb fwd ms)) hn ?_ hr
    rw [typedef_noFn e n (.comp i kw "" fs emb fwd ms) (fun h => h)]
    rw [if_pos (show (Types.attrs (Types.rawType (.comp i kw "" fs emb fwd ms))).name.isEmpty = true by cases kw <;> rfl),
      show Types.fullName (.comp i kw "" fs emb fwd ms) = Types.trimR (Types.trimR (kw.str ++ " " ++ "") ++ " " ++ "") from rfl, CDecl.kw_text, keyword_alone (CDecl.word_kw kw)]
    simp only [String.append_assoc]
    rfl
  | @fn i j info r ret ps hs h0 hp =>
    obtain ⟨n1, n2⟩ := named_ok ps hs.2.2.2
    have hs' : Spellable false (.ptr i (.fn j info r ret (named ps))) := ⟨hs.1, hs.2.1, hs.2.2.1, n1⟩
    have hr := CDecl.read_param 0 hs' hn.word
    obtain ⟨p1, p2⟩ := each_params ps 0 hs.2.2.2 hp
    have hI : nameEach (", ".intercalate (Types.paramDecls ps)).toList = (paramSection 0 (named ps)).1.text.toList := p1
    have hx : (extraOf false 0 (.ptr i (.fn j info r ret (named ps)))).1.text = ")(" ++ (paramSection 0 (named ps)).1.text ++ ")" := by
      show (Gen.XDecl.decl (paramSection 0 (named ps)).1 (extraOf false (paramSection 0 (named ps)).2 ret).1).text = _
      rw [Txt.no_extra ret false _ hs.2.2.1 h0, Gen.XDecl.text, Gen.XDecl.text, String.append_empty]
    have hsem : CDecl.semOf (.ptr i (.fn j info r ret (named ps))) = semIn e (.ptr i (.fn j info r ret ps)) := by
      show CDecl.Sem.ptr (CDecl.semOf (.fn j info r ret (named ps))) = .ptr (CDecl.semOf (.fn j info r ret ps))
      rw [CDecl.semOf, CDecl.semOf, n2]
    rw [hx, hsem, Types.declPrefix, Types.declPrefix] at hr
    have hfull : Types.fullName (.ptr i (.fn j info r ret ps)) = Types.declPrefix ret ++ "(" ++ "*" := by
      show Types.trimR (Types.declPrefix ret ++ "(" ++ "*" ++ " " ++ "") = _
      rw [String.append_empty]
      apply Types.trimR_append_blank
      · rw [String.toList_append, last_append (by decide +kernel)]; decide +kernel
      · intro h
        have := congrArg String.toList h
        rw [String.toList_append] at this
        exact absurd this (by simp)
    have ht : (typedefText e n (.ptr i (.fn j info r ret ps))).toList =
        ((Types.declPrefix ret).toList ++ '(' :: '*' :: (n.toList ++ [')'])) ++ '(' :: ((", ".intercalate (Types.paramDecls ps)).toList ++ [')']) ++ [' '] := by
      show (Types.fullName (.ptr i (.fn j info r ret ps)) ++ n ++ Types.declPostfix (.fn j info r ret ps) ++ " " ++ "").toList = _
      rw [hfull, Types.declPostfix]
      simp only [String.toList_append, List.append_assoc, List.cons_append, List.nil_append, String.toList_empty, List.append_nil]
      rfl
    have hN : nameParams (((Types.declPrefix ret).toList ++ '(' :: '*' :: (n.toList ++ [')'])) ++ '(' :: ((", ".intercalate (Types.paramDecls ps)).toList ++ [')'])) =
        (Types.declPrefix ret).toList ++ '(' :: ([] ++ '*' :: (n.toList ++ [')'] ++ '(' :: ((paramSection 0 (named ps)).1.text.toList ++ [')']))) := by
      rw [params_cut p2, hI]; simp
    have hR : (Types.declPrefix ret ++ "(" ++ "*" ++ " " ++ n ++ (")(" ++ (paramSection 0 (named ps)).1.text ++ ")")).toList =
        (Types.declPrefix ret).toList ++ '(' :: ([] ++ '*' :: ([] ++ ' ' :: (n.toList ++ [')'] ++ '(' :: ((paramSection 0 (named ps)).1.text.toList ++ [')'])))) := by
      simp only [String.toList_append, List.append_assoc]
      rfl
    have hread : CDecl.read (String.ofList (nameParams (((Types.declPrefix ret).toList ++ '(' :: '*' :: (n.toList ++ [')'])) ++
        '(' :: ((", ".intercalate (Types.paramDecls ps)).toList ++ [')'])))) = some (n.toList, semIn e (.ptr i (.fn j info r ret ps))) := by
      rw [read_eq, hR, toks_sep _ _ _ (by decide), toks_sep _ _ '*' (by decide), toks_sep _ _ ' ' (by decide)] at hr
      rw [read_eq, String.toList_ofList, hN, toks_sep _ _ _ (by decide), toks_sep _ _ '*' (by decide)]
      exact hr
    refine typedef_of e ht (by simp) ?_ (by simp) ?_ hread
    · have hc := read_chars hread
      rw [String.toList_ofList, params_cut p2] at hc
      intro c hm
      rcases List.mem_append.1 hm with hm | hm
      · exact hc c (List.mem_append_left _ hm)
      · refine hc c (List.mem_append_right _ ?_)
        rcases List.mem_cons.1 hm with rfl | hm
        · simp
        · rcases List.mem_append.1 hm with hm | hm
          · exact List.mem_cons_of_mem _ (List.mem_append_left _ (mem_each hm))
          · exact List.mem_cons_of_mem _ (List.mem_append_right _ hm)
    · rw [last_append (by simp)]
      intro x hx
      rw [show '(' :: ((", ".intercalate (Types.paramDecls ps)).toList ++ [')']) = ('(' :: (", ".intercalate (Types.paramDecls ps)).toList) ++ [')'] by simp,
        last_append (by simp)] at hx
      cases hx; decide
where
  mem_each {c : Char} {l : List Char} (h : c ∈ l) : c ∈ nameEach l := by
    unfold nameEach
    split
    · exact h
    · refine List.mem_append_left _ (List.mem_flatMap.2 ⟨c, h, ?_⟩)
      split
      · rename_i hc; rw [hc]; simp
      · simp

end EasyMock.CFile.TypeDecl
