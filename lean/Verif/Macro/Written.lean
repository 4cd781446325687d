import Verif.Macro.Model
import Verif.Macro.Lemmas
import Verif.Props.Gen

/-! # The text written for a macro is read as its definition -/

namespace EasyMock.Macro

open EasyMock.Gen (Directive macroTable macroText joinTokens macroParam hasMacroDefine addMacroDefine deleteMacroDefine)

/-! ## Identifiers and the punctuation of parameters -/

/-- What may follow an identifier. -/
def Clear (s : List Char) : Prop := ∀ c, s.head? = some c → identChar c = false ∧ c ≠ '"' ∧ c ≠ '\''

theorem clear_nil : Clear [] := by intro c h; simp at h
theorem clear_space (s : List Char) : Clear (' ' :: s) := by
  intro c h; simp at h; subst h; decide
theorem clear_comma (s : List Char) : Clear (',' :: s) := by
  intro c h; simp at h; subst h; decide
theorem clear_open (s : List Char) : Clear ('(' :: s) := by
  intro c h; simp at h; subst h; decide
theorem clear_close (s : List Char) : Clear (')' :: s) := by
  intro c h; simp at h; subst h; decide

theorem all_takeWhile (f : Char → Bool) : ∀ (w s : List Char), w.all f = true → (∀ c, s.head? = some c → f c = false) →
    (w ++ s).takeWhile f = w ∧ (w ++ s).dropWhile f = s
  | [], s, _, h => by
    cases s with
    | nil => simp
    | cons c s =>
      have := h c rfl
      simp [this]
  | a :: w, s, hw, h => by
    simp only [List.all_cons, Bool.and_eq_true] at hw
    have ih := all_takeWhile f w s hw.2 h
    simp [hw.1, ih.1, ih.2]

theorem ident_all {w : List Char} (h : isIdent w = true) : w.all identChar = true ∧ w ≠ [] := by
  cases w with
  | nil => simp [isIdent] at h
  | cons c r =>
    simp only [isIdent, Bool.and_eq_true] at h
    refine ⟨?_, by simp⟩
    simp only [List.all_cons, Bool.and_eq_true]
    exact ⟨by simp [identChar, h.1], h.2⟩

theorem nextAt_ident (cpp sp : Bool) {w : List Char} (s : List Char) (hw : isIdent w = true) (hs : Clear s) :
    nextAt cpp sp (w ++ s) = .tok ⟨sp, w⟩ s := by
  have hall := (ident_all hw).1
  have htd := all_takeWhile identChar w s hall (fun c hc => (hs c hc).1)
  cases w with
  | nil => simp [isIdent] at hw
  | cons c r =>
    simp only [isIdent, Bool.and_eq_true] at hw
    have ht : token cpp (c :: r ++ s) = some (c :: r, s) := by
      rw [List.cons_append]
      simp only [token, hw.1, if_true, word]
      rw [← List.cons_append, htd.1, htd.2]
      cases s with
      | nil => rfl
      | cons d s =>
        have h := hs d rfl
        simp [wordAt, h.2.1, h.2.2]
    have hne : c ≠ '/' := by intro e; rw [e] at hw; exact absurd hw.1 (by decide)
    unfold nextAt
    rw [List.cons_append] at ht ⊢
    split
    · rename_i e; cases e
    · rename_i e; injection e with e; exact absurd e hne
    · rename_i e; injection e with e; exact absurd e hne
    · rw [ht]

theorem ident_noBlank {w : List Char} (s : List Char) (hw : isIdent w = true) : (w ++ s).dropWhile blank = w ++ s := by
  cases w with
  | nil => simp [isIdent] at hw
  | cons c r =>
    simp only [isIdent, Bool.and_eq_true] at hw
    have : blank c = false := by
      cases hb : blank c with
      | false => rfl
      | true =>
        simp only [blank, Bool.or_eq_true, beq_iff_eq] at hb
        rcases hb with rfl | rfl
        · exact absurd hw.1 (by decide)
        · exact absurd hw.1 (by decide)
    simp [this]

theorem next_ident (cpp : Bool) {w : List Char} (s : List Char) (hw : isIdent w = true) (hs : Clear s) :
    next cpp (w ++ s) = .tok ⟨false, w⟩ s := by
  rw [next_eq, ident_noBlank s hw]
  simp only [bne_self_eq_false]
  exact nextAt_ident cpp false s hw hs

theorem next_spaced_ident (cpp : Bool) {w : List Char} (s : List Char) (hw : isIdent w = true) (hs : Clear s) :
    next cpp (' ' :: (w ++ s)) = .tok ⟨true, w⟩ s :=
  next_blank cpp _ _ _ _ (next_ident cpp s hw hs)

def dots : List Char := ['.', '.', '.']

theorem next_comma (cpp : Bool) (s : List Char) : next cpp (',' :: s) = .tok ⟨false, [',']⟩ s := by
  have : next cpp (',' :: s) = nextAt cpp false (',' :: s) := by
    rw [next_eq]
    simp [blank]
  rw [this]
  cases cpp <;> rfl

theorem next_close (cpp : Bool) (s : List Char) : next cpp (')' :: s) = .tok ⟨false, [')']⟩ s := by
  have : next cpp (')' :: s) = nextAt cpp false (')' :: s) := by
    rw [next_eq]
    simp [blank]
  rw [this]
  cases cpp <;> rfl

theorem next_dots (cpp : Bool) (s : List Char) : next cpp (dots ++ s) = .tok ⟨false, dots⟩ s := by
  have : next cpp (dots ++ s) = nextAt cpp false (dots ++ s) := by
    rw [next_eq]
    simp [dots, blank]
  rw [this]
  cases cpp <;> rfl

theorem next_hash (cpp : Bool) (c : Char) (s : List Char) (h : c ≠ '#') :
    next cpp ('#' :: c :: s) = .tok ⟨false, ['#']⟩ (c :: s) := by
  have : next cpp ('#' :: c :: s) = nextAt cpp false ('#' :: c :: s) := by
    rw [next_eq]
    simp [blank]
  rw [this]
  have hc : ('#' == c) = false := by simp [Ne.symm h]
  have ht : token cpp ('#' :: c :: s) = some (['#'], c :: s) := by
    have e : token cpp ('#' :: c :: s) = punctuator cpp ('#' :: c :: s) := by
      cases cpp <;> rfl
    rw [e, punctuator]
    have : (punctuators cpp).find? (fun p => p.isPrefixOf ('#' :: c :: s)) = none := by
      cases cpp <;> simp [punctuators, List.isPrefixOf, hc]
    rw [this]
  show (match token cpp ('#' :: c :: s) with
    | some (t, rest) => Next.tok ⟨false, t⟩ rest
    | none => .bad) = _
  rw [ht]

/-! ## The list of parameters -/

/-- The text of a parameter. -/
def Param (p : List Char) : Prop := isIdent p = true ∨ p = dots

theorem next_param (cpp : Bool) {p : List Char} (s : List Char) (h : Param p) (hs : Clear s) :
    next cpp (p ++ s) = .tok ⟨false, p⟩ s := by
  rcases h with h | rfl
  · exact next_ident cpp s h hs
  · exact next_dots cpp s

/-- The parameters behind the first. -/
def commas (ps : List (List Char)) : List Char := (ps.map (',' :: ·)).flatten

/-- Their tokens. -/
def commaToks (ps : List (List Char)) : List Lexeme := (ps.map (fun p => [⟨false, [',']⟩, ⟨false, p⟩])).flatten

theorem clear_commas (ps : List (List Char)) (s : List Char) : Clear (commas ps ++ ')' :: s) := by
  cases ps with
  | nil => exact clear_close s
  | cons p ps => exact clear_comma _

theorem lexN_commas (cpp : Bool) (s : List Char) (m : Nat) (body : List Lexeme)
    (hs : ∀ k, m ≤ k → lexN cpp k s = some body) : ∀ (ps : List (List Char)), (∀ p ∈ ps, Param p) →
    ∀ k, m + 2 * ps.length + 1 ≤ k →
    lexN cpp k (commas ps ++ ')' :: s) = some (commaToks ps ++ ⟨false, [')']⟩ :: body)
  | [], _, k, hk => by
    obtain ⟨k, rfl⟩ : ∃ j, k = j + 1 := ⟨k - 1, by omega⟩
    show lexN cpp (k + 1) (')' :: s) = some (⟨false, [')']⟩ :: body)
    rw [lexN, next_close]
    simp only [hs k (by simp at hk; omega), Option.map_some]
  | p :: ps, h, k, hk => by
    obtain ⟨k, rfl⟩ : ∃ j, k = j + 2 := ⟨k - 2, by simp at hk; omega⟩
    have ih := lexN_commas cpp s m body hs ps (fun x hx => h x (List.mem_cons_of_mem _ hx)) k (by
      simp only [List.length_cons] at hk; omega)
    have e : commas (p :: ps) ++ ')' :: s = ',' :: (p ++ (commas ps ++ ')' :: s)) := by simp [commas]
    rw [e, lexN, next_comma]
    simp only
    rw [lexN, next_param cpp _ (h p List.mem_cons_self) (clear_commas ps s)]
    simp only [ih, Option.map_some]
    simp [commaToks]

theorem commas_length (ps : List (List Char)) (h : ∀ p ∈ ps, p ≠ []) : 2 * ps.length ≤ (commas ps).length := by
  induction ps with
  | nil => simp
  | cons p ps ih =>
    have h1 := ih (fun x hx => h x (List.mem_cons_of_mem _ hx))
    have h2 : 0 < p.length := List.length_pos_iff.mpr (h p List.mem_cons_self)
    simp only [commas, List.map_cons, List.flatten_cons, List.length_append, List.length_cons] at h1 ⊢
    omega

theorem Param.ne {p : List Char} (h : Param p) : p ≠ [] := by
  rcases h with h | rfl
  · exact (ident_all h).2
  · simp [dots]

theorem lex_params (cpp : Bool) (p : List Char) (ps : List (List Char)) (ts : List (List Char)) (hp : Param p)
    (hps : ∀ p ∈ ps, Param p) (ht : ∀ t ∈ ts, IsToken cpp t) :
    lex cpp (p ++ (commas ps ++ ')' :: ' ' :: spread ts)) =
      some (⟨false, p⟩ :: (commaToks ps ++ ⟨false, [')']⟩ :: ts.map (⟨true, ·⟩))) := by
  have hl := spread_length cpp ts ht
  have hc := commas_length ps (fun x hx => (hps x hx).ne)
  have hp1 : 0 < p.length := List.length_pos_iff.mpr hp.ne
  unfold lex
  obtain ⟨k, hk⟩ : ∃ k, k = (p ++ (commas ps ++ ')' :: ' ' :: spread ts)).length := ⟨_, rfl⟩
  rw [← hk, lexN, next_param cpp _ hp (clear_commas ps _)]
  have hk' : ts.length + 1 + 2 * ps.length + 1 ≤ k := by
    rw [hk]; simp only [List.length_append, List.length_cons]; omega
  have := lexN_commas cpp (' ' :: spread ts) (ts.length + 1) _ (fun j hj => lexN_blank_spread cpp ts ht j hj) ps hps k hk'
  simp only [this, Option.map_some]

/-- The parameters as they are written. -/
def written (f : Formals) : List (List Char) :=
  f.names ++ (match f.variadic with
    | .no => []
    | .dots => [dots]
    | .named n => [n])

/-- The parameters which are written so that they are read back. -/
structure FormalsOk (f : Formals) : Prop where
  names : ∀ n ∈ f.names, isIdent n = true ∧ n ≠ "__VA_ARGS__".toList
  variadic : f.variadic = .no ∨ f.variadic = .dots
  some : f.names ≠ [] ∨ f.variadic = .dots

theorem ident_ne_dots {n : List Char} (h : isIdent n = true) : n ≠ dots := by
  intro e; subst e; exact absurd h (by decide)

theorem formalsOf_written : ∀ (ns : List (List Char)) (v : Variadic), (∀ n ∈ ns, isIdent n = true) → (v = .no ∨ v = .dots) →
    ∀ p ps, written ⟨ns, v⟩ = p :: ps →
    formalsOf (p :: (ps.map (fun q => [[','], q])).flatten) = some ⟨ns, v⟩
  | [], v, _, hv, p, ps, h => by
    rcases hv with rfl | rfl
    · simp [written] at h
    · simp only [written, List.nil_append, List.cons.injEq] at h
      obtain ⟨rfl, rfl⟩ := h
      rfl
  | n :: ns, v, hn, hv, p, ps, h => by
    have h1 : p = n ∧ written ⟨ns, v⟩ = ps := by
      simp only [written, List.cons_append, List.cons.injEq] at h ⊢
      exact ⟨h.1.symm, h.2⟩
    obtain ⟨rfl, h2⟩ := h1
    have hp := hn p List.mem_cons_self
    cases ps with
    | nil =>
      have : ns = [] ∧ v = .no := by
        rcases hv with rfl | rfl
        · simpa [written] using h2
        · simp [written] at h2
      obtain ⟨rfl, rfl⟩ := this
      have hd := ident_ne_dots hp
      unfold dots at hd
      simp only [List.map_nil, List.flatten_nil, formalsOf, hd, hp, if_true, if_false]
    | cons q qs =>
      have ih := formalsOf_written ns v (fun x hx => hn x (List.mem_cons_of_mem _ hx)) hv q qs h2
      simp only [List.map_cons, List.flatten_cons, List.cons_append, List.nil_append]
      rw [formalsOf]
      simp only [hp, beq_self_eq_true, Bool.and_self, if_true, ih, Option.map_some]

theorem formals_written (f : Formals) (hf : FormalsOk f) (p : List Char) (ps : List (List Char)) (hw : written f = p :: ps)
    (body : List Lexeme) :
    formals (⟨false, p⟩ :: (commaToks ps ++ ⟨false, [')']⟩ :: body)) = some (f, body) := by
  have hall : ∀ q ∈ p :: ps, q ≠ [')'] := by
    intro q hq
    rw [← hw] at hq
    simp only [written, List.mem_append] at hq
    rcases hq with hq | hq
    · intro e; subst e; exact absurd (hf.names _ hq).1 (by decide)
    · rcases hf.variadic with hv | hv
      · rw [hv] at hq; simp at hq
      · rw [hv] at hq; simp at hq; subst hq; decide
  have key : ∀ (qs : List (List Char)), (∀ q ∈ qs, q ≠ [')']) →
      (commaToks qs ++ ⟨false, [')']⟩ :: body).takeWhile (fun t => t.text != [')']) = commaToks qs ∧
      (commaToks qs ++ ⟨false, [')']⟩ :: body).dropWhile (fun t => t.text != [')']) = ⟨false, [')']⟩ :: body := by
    intro qs
    induction qs with
    | nil => intro _; simp [commaToks]
    | cons q qs ih =>
      intro h
      have h1 := ih (fun x hx => h x (List.mem_cons_of_mem _ hx))
      have h2 : (q != [')']) = true := by simpa using h q List.mem_cons_self
      have h3 : (([','] : List Char) != [')']) = true := by decide
      have e : commaToks (q :: qs) = ⟨false, [',']⟩ :: ⟨false, q⟩ :: commaToks qs := rfl
      rw [e]
      simp only [List.cons_append, List.takeWhile_cons, List.dropWhile_cons, h2, h3, if_true, h1.1, h1.2, and_self]
  have hk := key ps (fun q hq => hall q (List.mem_cons_of_mem _ hq))
  have hp : (p != [')']) = true := by simpa using hall p List.mem_cons_self
  have hmap : (commaToks ps).map (·.text) = (ps.map (fun q => [[','], q])).flatten := by
    clear hk hw hall key
    induction ps with
    | nil => rfl
    | cons q qs ih =>
      have e : commaToks (q :: qs) = ⟨false, [',']⟩ :: ⟨false, q⟩ :: commaToks qs := rfl
      rw [e]
      simp [ih]
  unfold formals
  simp only [List.dropWhile_cons, List.takeWhile_cons, hp, if_true, hk.1, hk.2, List.map_cons, hmap, List.isEmpty_cons,
    Bool.false_eq_true, if_false]
  obtain ⟨ns, v⟩ := f
  rw [formalsOf_written ns v (fun n hn => (hf.names n hn).1) hf.variadic p ps hw]
  rfl

/-! ## The lines -/

theorem definition_object (cpp : Bool) (id : List Char) (ts : List (List Char)) (hid : isIdent id = true)
    (ht : ∀ t ∈ ts, IsToken cpp t) :
    definition cpp (' ' :: (id ++ spread ts)) = some (id, ⟨none, ts.map (⟨true, ·⟩)⟩) := by
  have hc : Clear (spread ts) := by
    cases ts with
    | nil => exact clear_nil
    | cons t ts => exact clear_space _
  unfold definition
  rw [next_spaced_ident cpp _ hid hc]
  simp only [hid, if_true]
  have : lex cpp (spread ts) = _ := lex_spread cpp ts ht
  cases ts with
  | nil => rfl
  | cons t ts =>
    have e : spread (t :: ts) = ' ' :: (t ++ spread ts) := rfl
    rw [e] at this ⊢
    show (lex cpp (' ' :: (t ++ spread ts))).map _ = _
    rw [this]
    rfl

theorem definition_function (cpp : Bool) (id : List Char) (f : Formals) (ts : List (List Char)) (p : List Char)
    (ps : List (List Char)) (hid : isIdent id = true) (hf : FormalsOk f) (hw : written f = p :: ps)
    (ht : ∀ t ∈ ts, IsToken cpp t) :
    definition cpp (' ' :: (id ++ '(' :: (p ++ (commas ps ++ ')' :: ' ' :: spread ts)))) =
      some (id, ⟨some f, ts.map (⟨true, ·⟩)⟩) := by
  have hparam : ∀ q ∈ p :: ps, Param q := by
    intro q hq
    rw [← hw] at hq
    simp only [written, List.mem_append] at hq
    rcases hq with hq | hq
    · exact .inl (hf.names _ hq).1
    · rcases hf.variadic with hv | hv
      · rw [hv] at hq; simp at hq
      · rw [hv] at hq; simp at hq; exact .inr hq
  unfold definition
  rw [next_spaced_ident cpp _ hid (clear_open _)]
  simp only [hid, if_true]
  rw [lex_params cpp p ps ts (hparam p List.mem_cons_self) (fun q hq => hparam q (List.mem_cons_of_mem _ hq)) ht]
  simp only [Option.bind_eq_bind, Option.bind_some]
  rw [formals_written f hf p ps hw]
  rfl

theorem linesOf_append (l r : List Char) (h : '\n' ∉ l) : linesOf (l ++ '\n' :: r) = l :: linesOf r := by
  induction l with
  | nil => simp [linesOf]
  | cons c l ih =>
    simp only [List.mem_cons, not_or] at h
    rw [List.cons_append, linesOf, if_neg (Ne.symm h.1), ih h.2]

theorem line_ifndef (cpp : Bool) (s : State) (id : List Char) (hid : isIdent id = true) :
    line cpp s ("#ifndef ".toList ++ id) = some { s with conds := (s.table id).isNone :: s.conds } := by
  have e : "#ifndef ".toList ++ id = '#' :: 'i' :: (['f', 'n', 'd', 'e', 'f'] ++ (' ' :: (id ++ []))) := by simp
  rw [e]
  unfold line
  rw [next_hash cpp 'i' _ (by decide)]
  have e2 : next cpp ('i' :: (['f', 'n', 'd', 'e', 'f'] ++ (' ' :: (id ++ [])))) =
      .tok ⟨false, ['i', 'f', 'n', 'd', 'e', 'f']⟩ (' ' :: (id ++ [])) :=
    next_ident cpp (w := ['i', 'f', 'n', 'd', 'e', 'f']) _ (by decide) (clear_space _)
  simp only [e2, if_true]
  have e3 : named cpp (' ' :: (id ++ [])) = some id := by
    unfold named
    rw [next_spaced_ident cpp [] hid clear_nil]
    simp only [hid, Bool.true_and]
    rfl
  rw [e3]
  rfl

theorem line_endif (cpp : Bool) (s : State) (b : Bool) (cs : List Bool) (hs : s.conds = b :: cs) (r : List Char) :
    line cpp s ("#endif //macro ".toList ++ r) = some { s with conds := cs } := by
  have e : "#endif //macro ".toList ++ r = '#' :: 'e' :: (['n', 'd', 'i', 'f'] ++ (' ' :: ("//macro ".toList ++ r))) := by simp
  rw [e]
  unfold line
  rw [next_hash cpp 'e' _ (by decide)]
  have e2 : next cpp ('e' :: (['n', 'd', 'i', 'f'] ++ (' ' :: ("//macro ".toList ++ r)))) =
      .tok ⟨false, ['e', 'n', 'd', 'i', 'f']⟩ (' ' :: ("//macro ".toList ++ r)) :=
    next_ident cpp (w := ['e', 'n', 'd', 'i', 'f']) _ (by decide) (clear_space _)
  simp only [e2]
  rw [if_neg (by decide), if_neg (by decide), if_pos trivial, hs]

theorem line_define (cpp : Bool) (s : State) (r : List Char) (id : List Char) (d : Def)
    (h : definition cpp (' ' :: r) = some (id, d)) :
    line cpp s ("#define ".toList ++ r) = some (if s.active then { s with table := s.table.set id (some d) } else s) := by
  have e : "#define ".toList ++ r = '#' :: 'd' :: (['e', 'f', 'i', 'n', 'e'] ++ (' ' :: r)) := by simp
  rw [e]
  unfold line
  rw [next_hash cpp 'd' _ (by decide)]
  have e2 : next cpp ('d' :: (['e', 'f', 'i', 'n', 'e'] ++ (' ' :: r))) =
      .tok ⟨false, ['d', 'e', 'f', 'i', 'n', 'e']⟩ (' ' :: r) :=
    next_ident cpp (w := ['d', 'e', 'f', 'i', 'n', 'e']) _ (by decide) (clear_space _)
  simp only [e2]
  rw [if_neg (by decide), if_neg (by decide), if_neg (by decide), if_pos trivial, h]
  rfl

theorem line_comment (cpp : Bool) (s : State) (r : List Char) : line cpp s ("// from: ".toList ++ r) = some s := by
  have e : "// from: ".toList ++ r = '/' :: '/' :: (" from: ".toList ++ r) := by simp
  rw [e]
  have : next cpp ('/' :: '/' :: (" from: ".toList ++ r)) = .done := by
    rw [next_eq]
    simp [blank, nextAt]
  unfold line
  rw [this]

theorem line_empty (cpp : Bool) (s : State) : line cpp s [] = some s := rfl

/-! ## One macro -/

/-- A definition of the header which is written so that it is read back. -/
structure SourceOk (cpp : Bool) (d : Source) : Prop where
  tokens : ∀ t ∈ d.tokens, IsToken cpp t.spelling ∧ ∀ x, t ≠ .other x
  formals : ∀ f, d.formals = some f → FormalsOk f

/-- The entry of the table for a definition. -/
def entry (id : String) (d : Source) (loc : String) : Gen.Macro :=
  ⟨id, ((d.formals.map Formals.params).getD []).map macroParam, joinTokens (d.tokens.map tokenString), loc⟩

/-- What a preprocessor reads for it. -/
def readAs (d : Source) : Def := ⟨d.formals, d.tokens.map (fun t => ⟨true, t.spelling⟩)⟩

theorem readAs_meaning (d : Source) : (readAs d).meaning = d.meaning := by
  simp [readAs, Def.meaning, Def.tokens, Source.meaning, Function.comp_def]

theorem tokenString_spelling {t : Tok} (h : ∀ x, t ≠ .other x) : (tokenString t).toList = t.spelling := by
  cases t with
  | other x => exact absurd rfl (h x)
  | _ => rfl

theorem intercalate_spread : ∀ (t : String) (ts : List String),
    (" ".intercalate (t :: ts)).toList = t.toList ++ spread (ts.map String.toList)
  | t, [] => by simp [spread]
  | t, u :: us => by
    rw [String.intercalate_cons_cons]
    simp only [String.toList_append]
    rw [intercalate_spread u us]
    simp [spread]

theorem intercalate_commas : ∀ (t : String) (ts : List String),
    (",".intercalate (t :: ts)).toList = t.toList ++ commas (ts.map String.toList)
  | t, [] => by simp [commas]
  | t, u :: us => by
    rw [String.intercalate_cons_cons]
    simp only [String.toList_append]
    rw [intercalate_commas u us]
    simp [commas]

/-- The replacement behind `#define`. -/
theorem replacement_text {cpp : Bool} {d : Source} (h : SourceOk cpp d) :
    (if (joinTokens (d.tokens.map tokenString)).isEmpty then "" else " " ++ joinTokens (d.tokens.map tokenString)).toList =
      spread (d.tokens.map Tok.spelling) := by
  have hne : ∀ t ∈ d.tokens.map tokenString, t ≠ "" := by
    intro t ht
    obtain ⟨x, hx, rfl⟩ := List.mem_map.mp ht
    intro e
    have h1 := tokenString_spelling (h.tokens x hx).2
    rw [e] at h1
    exact (h.tokens x hx).1.ne h1.symm
  have hmap : (d.tokens.map tokenString).map String.toList = d.tokens.map Tok.spelling := by
    rw [List.map_map]
    exact List.map_congr_left (fun t ht => tokenString_spelling (h.tokens t ht).2)
  rw [Gen.joinTokens_eq _ hne]
  revert hne hmap
  generalize d.tokens.map tokenString = l
  generalize d.tokens.map Tok.spelling = m
  intro hne hmap
  subst hmap
  cases l with
  | nil => rfl
  | cons t ts =>
    have : (" ".intercalate (t :: ts)).isEmpty = false := by
      rw [← Bool.not_eq_true, String.isEmpty_iff]
      intro e
      have := congrArg String.toList e
      rw [intercalate_spread] at this
      have ht : t.toList = [] := (List.append_eq_nil_iff.mp (by simpa using this)).1
      exact hne t List.mem_cons_self (by rw [← String.toList_inj, ht]; rfl)
    rw [this]
    simp only [Bool.false_eq_true, if_false, String.toList_append, intercalate_spread]
    rfl

/-- The names of the parameters of the table. -/
theorem params_written {f : Formals} (h : FormalsOk f) : (f.params.map macroParam).map String.toList = written f := by
  have hn : (f.names.map String.ofList).map macroParam = f.names.map String.ofList := by
    rw [List.map_map]
    refine List.map_congr_left (fun n hn => ?_)
    have : String.ofList n ≠ "__VA_ARGS__" := by
      intro e
      have := congrArg String.toList e
      rw [String.toList_ofList] at this
      exact (h.names n hn).2 this
    simp [macroParam, this]
  have hnn : (f.names.map String.ofList).map String.toList = f.names := by
    rw [List.map_map]
    conv => rhs; rw [← List.map_id f.names]
    exact List.map_congr_left (fun n _ => String.toList_ofList)
  unfold Formals.params written
  rw [List.map_append, List.map_append, hn, hnn]
  rcases h.variadic with hv | hv
  · rw [hv]; rfl
  · rw [hv]; rfl

theorem definition_entry {cpp : Bool} {id : String} {d : Source} {loc : String} (hid : isIdent id.toList = true)
    (h : SourceOk cpp d) :
    ∃ r, macroText (entry id d loc) = "#ifndef " ++ id ++ "\n// from: " ++ loc ++ "\n#define " ++ String.ofList r ++
        "\n#endif //macro " ++ id ++ "\n\n" ∧ '\n' ∉ r ∧
      definition cpp (' ' :: r) = some (id.toList, readAs d) := by
  have hrep := replacement_text h
  have htok : ∀ t ∈ d.tokens.map Tok.spelling, IsToken cpp t := by
    intro t ht
    obtain ⟨x, hx, rfl⟩ := List.mem_map.mp ht
    exact (h.tokens x hx).1
  have hnl : ∀ w, isIdent w = true → '\n' ∉ w := by
    intro w hw hm
    have := List.all_eq_true.mp (ident_all hw).1 _ hm
    exact absurd this (by decide)
  have hsp : '\n' ∉ spread (d.tokens.map Tok.spelling) := by
    intro hm
    simp only [spread, List.mem_flatten, List.mem_map] at hm
    obtain ⟨l, ⟨t, ⟨x, hx, rfl⟩, rfl⟩, hm⟩ := hm
    simp only [List.mem_cons] at hm
    rcases hm with hm | hm
    · exact absurd hm (by decide)
    · exact (h.tokens x hx).1.2 hm
  have hread : readAs d = ⟨d.formals, (d.tokens.map Tok.spelling).map (⟨true, ·⟩)⟩ := by
    simp [readAs, Function.comp_def]
  cases hf : d.formals with
  | none =>
    refine ⟨id.toList ++ spread (d.tokens.map Tok.spelling), ?_, ?_, ?_⟩
    · have e : (entry id d loc).params = [] := by simp [entry, hf]
      unfold macroText
      rw [e]
      have : String.ofList (id.toList ++ spread (d.tokens.map Tok.spelling)) =
          id ++ (if (joinTokens (d.tokens.map tokenString)).isEmpty then "" else " " ++ joinTokens (d.tokens.map tokenString)) := by
        rw [← String.toList_inj, String.toList_ofList, String.toList_append, hrep]
      rw [this]
      simp [entry, String.append_assoc]
    · simp only [List.mem_append, not_or]
      exact ⟨hnl _ hid, hsp⟩
    · rw [definition_object cpp _ _ hid htok, hread, hf]
  | some f =>
    have hfo := h.formals f hf
    have hw := params_written hfo
    obtain ⟨p, ps, hpp⟩ : ∃ p ps, f.params.map macroParam = p :: ps := by
      cases hl : f.params.map macroParam with
      | cons p ps => exact ⟨p, ps, rfl⟩
      | nil =>
        exfalso
        rw [hl] at hw
        have hw : written f = [] := hw.symm
        unfold written at hw
        rcases hfo.some with hs | hs
        · exact hs (List.append_eq_nil_iff.mp hw).1
        · rw [hs] at hw; simp at hw
    rw [hpp] at hw
    refine ⟨id.toList ++ '(' :: (p.toList ++ (commas (ps.map String.toList) ++ ')' :: ' ' :: spread (d.tokens.map Tok.spelling))),
      ?_, ?_, ?_⟩
    · have e : (entry id d loc).params = p :: ps := by simp [entry, hf, ← hpp]
      unfold macroText
      rw [e]
      have : String.ofList (id.toList ++ '(' :: (p.toList ++ (commas (ps.map String.toList) ++
            ')' :: ' ' :: spread (d.tokens.map Tok.spelling)))) =
          id ++ (("(" ++ ",".intercalate (p :: ps) ++ ")" ++ " ") ++
          (if (joinTokens (d.tokens.map tokenString)).isEmpty then "" else " " ++ joinTokens (d.tokens.map tokenString))) := by
        rw [← String.toList_inj, String.toList_ofList]
        simp only [String.toList_append, hrep, intercalate_commas]
        simp
      rw [this]
      simp [entry, String.append_assoc]
    · have hcm : '\n' ∉ p.toList ++ commas (ps.map String.toList) := by
        have hq : ∀ q ∈ p.toList :: ps.map String.toList, '\n' ∉ q := by
          intro q hq
          have hq : q ∈ written f := by rw [← hw]; exact hq
          simp only [written, List.mem_append] at hq
          rcases hq with hq | hq
          · exact hnl _ (hfo.names q hq).1
          · rcases hfo.variadic with hv | hv
            · rw [hv] at hq; simp at hq
            · rw [hv] at hq; simp at hq; subst hq; decide
        intro hm
        simp only [List.mem_append, commas, List.mem_flatten, List.mem_map] at hm
        rcases hm with hm | ⟨l, ⟨q, hq1, rfl⟩, hm⟩
        · exact hq _ List.mem_cons_self hm
        · simp only [List.mem_cons] at hm
          rcases hm with hm | hm
          · exact absurd hm (by decide)
          · exact hq q (List.mem_cons_of_mem _ (List.mem_map.mpr hq1)) hm
      simp only [List.mem_append, List.mem_cons, not_or] at hcm ⊢
      exact ⟨hnl _ hid, by decide, hcm.1, hcm.2, by decide, by decide, hsp⟩
    · rw [definition_function cpp _ f _ p.toList (ps.map String.toList) hid hfo hw.symm htok, hread, hf]

/-- The table after the lines of one macro. -/
def step (T : Table) (id : List Char) (d : Def) : Table := if (T id).isSome then T else T.set id (some d)

theorem run_entry {cpp : Bool} {id : String} {d : Source} {loc : String} (hid : isIdent id.toList = true)
    (h : SourceOk cpp d) (hloc : '\n' ∉ loc.toList) (T : Table) (rest : List Char) :
    run cpp ⟨T, []⟩ (linesOf ((macroText (entry id d loc)).toList ++ rest)) =
      run cpp ⟨step T id.toList (readAs d), []⟩ (linesOf rest) := by
  obtain ⟨r, hr, hr1, hr2⟩ := definition_entry (loc := loc) hid h
  have hnl : '\n' ∉ id.toList := by
    intro hm
    have := List.all_eq_true.mp (ident_all hid).1 _ hm
    exact absurd this (by decide)
  have e : (macroText (entry id d loc)).toList ++ rest =
      ("#ifndef ".toList ++ id.toList) ++ '\n' :: (("// from: ".toList ++ loc.toList) ++ '\n' ::
      (("#define ".toList ++ r) ++ '\n' :: (("#endif //macro ".toList ++ id.toList) ++ '\n' :: ([] ++ '\n' :: rest)))) := by
    rw [hr]
    simp [List.append_assoc]
  have n1 : '\n' ∉ "#ifndef ".toList ++ id.toList := by
    rw [List.mem_append, not_or]; exact ⟨by decide, hnl⟩
  have n2 : '\n' ∉ "// from: ".toList ++ loc.toList := by
    rw [List.mem_append, not_or]; exact ⟨by decide, hloc⟩
  have n3 : '\n' ∉ "#define ".toList ++ r := by
    rw [List.mem_append, not_or]; exact ⟨by decide, hr1⟩
  have n4 : '\n' ∉ "#endif //macro ".toList ++ id.toList := by
    rw [List.mem_append, not_or]; exact ⟨by decide, hnl⟩
  rw [e, linesOf_append _ _ n1, linesOf_append _ _ n2, linesOf_append _ _ n3, linesOf_append _ _ n4,
    linesOf_append _ _ (by simp)]
  unfold run
  simp only [List.foldlM_cons]
  rw [line_ifndef cpp _ _ hid]
  simp only [Option.bind_eq_bind, Option.bind_some]
  rw [line_comment]
  simp only [Option.bind_some]
  rw [line_define cpp _ r _ _ hr2]
  simp only [Option.bind_some]
  unfold step
  cases hT : T id.toList with
  | none =>
    simp only [State.active, Option.isNone_none, List.all_cons, List.all_nil, id_eq, Bool.and_self, if_true]
    rw [line_endif cpp _ true [] rfl]
    simp only [Option.bind_some, line_empty, Option.isSome_none, Bool.false_eq_true, if_false]
  | some x =>
    simp only [State.active, Option.isNone_some, List.all_cons, List.all_nil, id_eq, Bool.false_and, if_false,
      Bool.false_eq_true]
    rw [line_endif cpp _ false [] rfl]
    simp only [Option.bind_some, line_empty, Option.isSome_some, if_true]

end EasyMock.Macro
