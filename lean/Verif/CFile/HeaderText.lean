import Verif.CFile.Header

/-! # CFile: the whole generated header, read -/

namespace EasyMock.CFile

open EasyMock.Gen

variable {m is : List (List Char)} {cs : List Bool} {S : List Scope} {D : List Decl}

/-! ## Directives -/

/-- The words of the directives of a header. -/
theorem dir_words : (∀ c ∈ kwIfndef, identChar c = true) ∧ (∀ c ∈ kwIfdef, identChar c = true) ∧
    (∀ c ∈ kwEndif, identChar c = true) ∧ (∀ c ∈ kwDefine, identChar c = true) ∧ (∀ c ∈ kwInclude, identChar c = true) := by
  decide +kernel

theorem runs_directive {f f' : File} {name : List Char} {x : Char} {xs : List Char}
    (hs : Scans ('#' :: (name ++ ' ' :: x :: xs) ++ ['\n']) ['#' :: (name ++ ' ' :: x :: xs)])
    (hn : ∀ c ∈ name, identChar c = true) (hne : ∃ x xs, name = x :: xs) (hx : blank x = false)
    (h : f.directive name (x :: xs) = some f') : Runs f ('#' :: (name ++ ' ' :: x :: xs) ++ ['\n']) f' := by
  refine ⟨_, hs, ?_⟩
  rw [List.foldlM_cons, line_directive f name _ hn (.inr ⟨x, xs, rfl, hx⟩) hne]
  show (f.directive name (x :: xs)) >>= _ = _
  rw [h]
  rfl

theorem endif_text : "#endif\n".toList = '#' :: (kwEndif ++ []) ++ ['\n'] := by decide +kernel

theorem runs_endif {b : Bool} : Runs (st m (b :: cs) is S D) "#endif\n".toList (st m cs is S D) := by
  refine ⟨['#' :: (kwEndif ++ [])], ?_, ?_⟩
  · exact Scans.of (by decide +kernel) (by decide +kernel)
  · rw [List.foldlM_cons, line_directive _ kwEndif [] dir_words.2.2.1 (.inl rfl) ⟨'e', kwEndif.tail, by decide +kernel⟩]
    have h1 : kwEndif ≠ kwIfndef := by decide +kernel
    have h2 : kwEndif ≠ kwIfdef := by decide +kernel
    simp [File.directive, h1, h2]

/-- The name which C++ compilers define. -/
def cplusplus : List Char := "__cplusplus".toList

theorem cplusplus_word : cplusplus.takeWhile identChar = cplusplus := by decide +kernel

theorem ifdef_text : "#ifdef __cplusplus\n".toList = '#' :: (kwIfdef ++ ' ' :: cplusplus) ++ ['\n'] := by decide +kernel

theorem cplusplus_cons : cplusplus = '_' :: cplusplus.tail := by decide +kernel

theorem directive_ifdef (f : File) (t : List Char) :
    f.directive kwIfdef t = some { f with conds := f.macros.contains (t.takeWhile identChar) :: f.conds } := by
  have h1 : kwIfdef ≠ kwIfndef := by decide +kernel
  simp [File.directive, h1]

theorem directive_ifndef (f : File) (t : List Char) :
    f.directive kwIfndef t = some { f with conds := (!f.macros.contains (t.takeWhile identChar)) :: f.conds } := by
  simp [File.directive]

theorem directive_define (f : File) (t : List Char) :
    f.directive kwDefine t = some (if f.active then { f with macros := t.takeWhile identChar :: f.macros } else f) := by
  have h1 : kwDefine ≠ kwIfndef := by decide +kernel
  have h2 : kwDefine ≠ kwIfdef := by decide +kernel
  have h3 : kwDefine ≠ kwEndif := by decide +kernel
  unfold File.directive
  simp only [h1, h2, h3, if_false, if_true]

theorem directive_include (f : File) (t : List Char) :
    f.directive kwInclude t = some (if f.active then { f with includes := f.includes ++ [trim t] } else f) := by
  have h1 : kwInclude ≠ kwIfndef := by decide +kernel
  have h2 : kwInclude ≠ kwIfdef := by decide +kernel
  have h3 : kwInclude ≠ kwEndif := by decide +kernel
  have h4 : kwInclude ≠ kwDefine := by decide +kernel
  unfold File.directive
  simp only [h1, h2, h3, h4, if_false, if_true]

theorem runs_ifdef : Runs (st m cs is S D) "#ifdef __cplusplus\n".toList (st m (m.contains cplusplus :: cs) is S D) := by
  rw [ifdef_text, cplusplus_cons]
  refine runs_directive ?_ dir_words.2.1 ⟨'i', kwIfdef.tail, by decide +kernel⟩ (by decide) ?_
  · exact Scans.of (by decide +kernel) (by decide +kernel)
  · rw [directive_ifdef, ← cplusplus_cons, cplusplus_word]

/-! ## The block for C++ around a C header -/

/-- `extern "C"`. -/
def externText : List Char := kwExtern ++ ' ' :: kwC

theorem extern_text : DeclText externText := by
  refine ⟨by decide +kernel, ⟨'e', externText.tail, by decide +kernel, by decide, by decide, by decide⟩, ?_⟩
  have : externText.getLast? = some '"' := by decide +kernel
  rw [this]
  intro x hx
  cases hx
  decide

theorem extern_line : "extern \"C\" {\n".toList = externText ++ [' ', '{'] ++ ['\n'] := by decide +kernel

theorem extern_scans : Scans "extern \"C\" {\n".toList [externText ++ [' ', '{']] :=
  Scans.of (by decide +kernel) (by decide +kernel)

theorem runs_extern (ha : cs.all id = true) :
    Runs (st m cs is S D) "extern \"C\" {\n".toList (st m cs is (S ++ [.externC]) D) := by
  refine ⟨_, extern_scans, ?_⟩
  have ho : opens (externText ++ [' ']) = .scope .externC := by decide +kernel
  have hb : CFile.blank '\n' = true := by decide
  have hne := extern_text.nonempty
  have ha' : (st m cs is S D).active = true := ha
  rw [List.foldlM_cons, line_code (extern_text.noDirective _) ha', List.append_assoc, List.foldlM_append,
    feed_start extern_text (st_top m cs is S D)]
  simp [Reader.step, Reader.plain, ho, hb, hne]

theorem quiet_extern : Quiet "extern \"C\" {\n".toList := by
  refine ⟨_, extern_scans, ?_⟩
  intro l hl
  simp only [List.mem_singleton] at hl
  subst hl
  exact extern_text.noDirective _

theorem close_scans : Scans "}\n".toList [['}']] := Scans.of (by decide +kernel) (by decide +kernel)

theorem runs_close {s : Scope} (ha : cs.all id = true) :
    Runs (st m cs is (S ++ [s]) D) "}\n".toList (st m cs is S D) := by
  refine ⟨_, close_scans, ?_⟩
  have hb : CFile.blank '\n' = true := by decide
  have ht : trim [] = [] := rfl
  have ha' : (st m cs is (S ++ [s]) D).active = true := ha
  rw [List.foldlM_cons, line_code (by decide) ha']
  simp [Reader.step, Reader.plain, hb, ht]

theorem quiet_close : Quiet "}\n".toList :=
  ⟨_, close_scans, by intro l hl; simp only [List.mem_singleton] at hl; subst hl; decide⟩

/-- The scopes around a C header. -/
def cScopes (m : List (List Char)) : List Scope := if m.contains cplusplus then [.externC] else []

theorem cBegin_text : "#ifdef __cplusplus\nextern \"C\" {\n#endif\n" =
    "#ifdef __cplusplus\n" ++ "extern \"C\" {\n" ++ "#endif\n" := by decide +kernel

theorem cEnd_text : "#ifdef __cplusplus\n}\n#endif\n" = "#ifdef __cplusplus\n" ++ "}\n" ++ "#endif\n" := by decide +kernel

theorem runs_cBegin (ha : cs.all id = true) :
    Runs (st m cs is S D) "#ifdef __cplusplus\nextern \"C\" {\n#endif\n".toList (st m cs is (S ++ cScopes m) D) := by
  rw [cBegin_text]
  refine runs_str (runs_str runs_ifdef ?_) (runs_endif (b := m.contains cplusplus))
  unfold cScopes
  cases hc : m.contains cplusplus with
  | true =>
    exact runs_extern (by simpa using ha)
  | false =>
    have := quiet_extern.runs (f := st m (false :: cs) is S D) rfl
    simpa using this

theorem runs_cEnd (ha : cs.all id = true) :
    Runs (st m cs is (S ++ cScopes m) D) "#ifdef __cplusplus\n}\n#endif\n".toList (st m cs is S D) := by
  rw [cEnd_text]
  refine runs_str (runs_str runs_ifdef ?_) (runs_endif (b := m.contains cplusplus))
  unfold cScopes
  cases hc : m.contains cplusplus with
  | true =>
    exact runs_close (by simpa using ha)
  | false =>
    have := quiet_close.runs (f := st m (false :: cs) is S D) rfl
    simpa using this

theorem runs_cBeginOff (ha : cs.all id = false) :
    Runs (st m cs is S D) "#ifdef __cplusplus\nextern \"C\" {\n#endif\n".toList (st m cs is S D) := by
  rw [cBegin_text]
  exact runs_str (runs_str runs_ifdef (quiet_extern.runs (by simp only [File.active, List.all_cons, ha, Bool.and_false])))
    (runs_endif (b := m.contains cplusplus))

theorem runs_cEndOff (ha : cs.all id = false) :
    Runs (st m cs is S D) "#ifdef __cplusplus\n}\n#endif\n".toList (st m cs is S D) := by
  rw [cEnd_text]
  exact runs_str (runs_str runs_ifdef (quiet_close.runs (by simp only [File.active, List.all_cons, ha, Bool.and_false])))
    (runs_endif (b := m.contains cplusplus))

/-! ## The guard and the includes -/

/-- A file name which can stand between the quotes of an include directive and in the name of a macro. -/
structure NameOk (path : String) : Prop where
  chars : ∀ c ∈ (fileName path).toList, c ≠ '"' ∧ c ≠ '\'' ∧ c ≠ '\\' ∧ c ≠ '\n'

theorem fileName_slash (path : String) : '/' ∉ (fileName path).toList := by
  unfold fileName
  rw [String.toList_ofList]
  intro h
  rw [List.mem_reverse] at h
  have := List.all_takeWhile (p := fun x => decide (x ≠ '/')) (l := path.toList.reverse)
  rw [List.all_eq_true] at this
  simpa using this _ h

theorem fileName_line {path : String} (h : NameOk path) : ∀ c ∈ (fileName path).toList, lineChar c = true := by
  intro c hc
  obtain ⟨h1, h2, h3, h4⟩ := h.chars c hc
  have h5 : c ≠ '/' := fun e => fileName_slash path (e ▸ hc)
  simp [lineChar, h1, h2, h3, h4, h5]

theorem stem_sub (t : String) : ∀ c ∈ (CmdLine.stem t).toList, c ∈ t.toList := by
  intro c hc
  unfold CmdLine.stem at hc
  rw [String.toList_ofList] at hc
  have h0 : ∀ c ∈ (t.toList.reverse.takeWhile (· ≠ '/')).reverse, c ∈ t.toList := by
    intro c hc
    rw [List.mem_reverse] at hc
    simpa using (List.takeWhile_prefix _).subset hc
  split at hc
  · rw [List.mem_reverse] at hc
    have h1 := (List.dropWhile_suffix _).subset (List.mem_of_mem_drop hc)
    rw [List.mem_reverse] at h1
    exact h0 c h1
  · exact h0 c hc

theorem upper_cases (c : Char) : upperC c = c ∧ ¬('a' ≤ c ∧ c ≤ 'z') ∨ ∃ n, n < 26 ∧ upperC c = Char.ofNat (65 + n) := by
  unfold upperC
  by_cases h : 'a' ≤ c ∧ c ≤ 'z'
  · right
    have h1 : 97 ≤ c.toNat := h.1
    have h2 : c.toNat ≤ 122 := h.2
    refine ⟨c.toNat - 97, by omega, ?_⟩
    rw [if_pos h]
    congr 1
    omega
  · left
    rw [if_neg h]
    exact ⟨rfl, h⟩

theorem upper_line {c : Char} (h : lineChar c = true) : lineChar (upperC c) = true := by
  rcases upper_cases c with ⟨e, _⟩ | ⟨n, hn, e⟩
  · rw [e]; exact h
  · rw [e]
    have : ∀ n < 26, lineChar (Char.ofNat (65 + n)) = true := by decide
    exact this n hn

theorem upper_noC (c : Char) : upperC c ≠ 'c' := by
  rcases upper_cases c with ⟨e, h⟩ | ⟨n, hn, e⟩
  · rw [e]; rintro rfl; exact h ⟨by decide, by decide⟩
  · rw [e]
    have : ∀ n < 26, Char.ofNat (65 + n) ≠ 'c' := by decide
    exact this n hn

theorem guard_chars (path : String) (P : Char → Prop) (h1 : ∀ c ∈ "_EASYMOCK_H".toList, P c)
    (h2 : ∀ c ∈ (fileName path).toList, P (upperC c)) : ∀ c ∈ (Gen.guard path).toList, P c := by
  have hu : P '_' := h1 '_' (by decide +kernel)
  have e : "_".toList = ['_'] := by decide +kernel
  intro c hc
  unfold Gen.guard guardStem at hc
  rw [String.toList_append, String.toList_append, e, String.toList_ofList] at hc
  simp only [List.append_assoc, List.mem_append, List.mem_singleton, List.mem_map] at hc
  rcases hc with rfl | ⟨x, ⟨y, hy, rfl⟩, rfl⟩ | h
  · exact hu
  · split
    · exact hu
    · exact h2 y (stem_sub _ y hy)
  · exact h1 c h

theorem guard_line {path : String} (h : NameOk path) : ∀ c ∈ (Gen.guard path).toList, lineChar c = true := by
  have h1 : ∀ c ∈ "_EASYMOCK_H".toList, lineChar c = true := by decide +kernel
  refine guard_chars path (fun c => lineChar c = true) h1 ?_
  intro c hc
  exact upper_line (fileName_line h c hc)

/-- The macro which the guard of a header defines: what a compiler sees of it. -/
def guardWord (path : String) : List Char := (Gen.guard path).toList.takeWhile identChar

theorem guard_noC (path : String) : ∀ c ∈ (Gen.guard path).toList, c ≠ 'c' := by
  have h3 : ∀ c ∈ "_EASYMOCK_H".toList, c ≠ 'c' := by decide +kernel
  refine guard_chars path (fun c => c ≠ 'c') h3 ?_
  intro c _
  exact upper_noC c

theorem mem_word {x : Char} {t : List Char} (h : x ∈ t.takeWhile identChar) : x ∈ t :=
  (List.takeWhile_prefix _).subset h

theorem cplusplus_c : 'c' ∈ cplusplus := by decide +kernel

theorem guardWord_cplusplus (path : String) : guardWord path ≠ cplusplus := by
  intro h
  have h0 := cplusplus_c
  rw [← h] at h0
  have h1 := guard_noC path 'c' (mem_word h0)
  exact h1 rfl

theorem guard_cons (path : String) : ∃ t, (Gen.guard path).toList = '_' :: t := by
  have e : "_".toList = ['_'] := by decide +kernel
  unfold Gen.guard
  rw [String.toList_append, String.toList_append, e]
  exact ⟨_, rfl⟩

theorem word_text (w : String) (k : List Char) (path : String) (hw : w.toList = '#' :: (k ++ [' '])) {t : List Char}
    (ht : (Gen.guard path).toList = '_' :: t) :
    (w ++ Gen.guard path ++ "\n").toList = '#' :: (k ++ ' ' :: '_' :: t) ++ ['\n'] := by
  have e : "\n".toList = ['\n'] := by decide +kernel
  rw [String.toList_append, String.toList_append, hw, ht, e]
  simp

theorem guard_scans (k : List Char) (path : String) (hk : ∀ c ∈ k, identChar c = true) (h : NameOk path) {t : List Char}
    (ht : (Gen.guard path).toList = '_' :: t) :
    Scans ('#' :: (k ++ ' ' :: '_' :: t) ++ ['\n']) ['#' :: (k ++ ' ' :: '_' :: t)] := by
  apply Scans.line
  intro c hc
  rw [← ht] at hc
  simp only [List.mem_cons, List.mem_append] at hc
  rcases hc with rfl | h' | rfl | h'
  · decide
  · exact plain_line (ident_plain (hk c h'))
  · decide
  · exact guard_line h c h'

theorem runs_ifndef {path : String} (h : NameOk path) :
    Runs (st m cs is S D) ("#ifndef " ++ Gen.guard path ++ "\n").toList (st m ((!m.contains (guardWord path)) :: cs) is S D) := by
  obtain ⟨t, ht⟩ := guard_cons path
  rw [word_text "#ifndef " kwIfndef path (by decide +kernel) ht]
  refine runs_directive (guard_scans kwIfndef path dir_words.1 h ht) dir_words.1 ⟨'i', kwIfndef.tail, by decide +kernel⟩ (by decide) ?_
  rw [directive_ifndef, ← ht]
  rfl

theorem runs_define {path : String} (h : NameOk path) (ha : cs.all id = true) :
    Runs (st m cs is S D) ("#define " ++ Gen.guard path ++ "\n").toList (st (guardWord path :: m) cs is S D) := by
  obtain ⟨t, ht⟩ := guard_cons path
  rw [word_text "#define " kwDefine path (by decide +kernel) ht]
  refine runs_directive (guard_scans kwDefine path dir_words.2.2.2.1 h ht) dir_words.2.2.2.1 ⟨'d', kwDefine.tail, by decide +kernel⟩
    (by decide) ?_
  rw [directive_define, ← ht]
  simp [File.active, ha, guardWord]

theorem runs_defineOff {path : String} (h : NameOk path) (ha : cs.all id = false) :
    Runs (st m cs is S D) ("#define " ++ Gen.guard path ++ "\n").toList (st m cs is S D) := by
  obtain ⟨t, ht⟩ := guard_cons path
  rw [word_text "#define " kwDefine path (by decide +kernel) ht]
  refine runs_directive (guard_scans kwDefine path dir_words.2.2.2.1 h ht) dir_words.2.2.2.1 ⟨'d', kwDefine.tail, by decide +kernel⟩
    (by decide) ?_
  rw [directive_define]
  simp [File.active, ha]

/-- A name in quotes, as an include directive has it. -/
def quoted (n : String) : List Char := '"' :: (n.toList ++ ['"'])

theorem proper_quoted : ∀ {t : List Char}, (∀ c ∈ t, c ≠ '"' ∧ c ≠ '\\' ∧ c ≠ '\n') → properFrom true (t ++ ['"']) = true
  | [], _ => by decide
  | c :: t, h => by
    obtain ⟨h1, h2, h3⟩ := h c (by simp)
    have := proper_quoted (t := t) (fun x hx => h x (by simp [hx]))
    simp [properFrom, h1, h2, h3, this]

theorem quote_text (n : String) : ("#include \"" ++ n ++ "\"\n").toList =
    '#' :: (kwInclude ++ ' ' :: '"' :: (n.toList ++ ['"'])) ++ ['\n'] := by
  have e1 : "#include \"".toList = '#' :: (kwInclude ++ [' ', '"']) := by decide +kernel
  have e2 : "\"\n".toList = ['"', '\n'] := by decide +kernel
  rw [String.toList_append, String.toList_append, e1, e2]
  simp

theorem quote_scans {n : String} (h : ∀ c ∈ n.toList, c ≠ '"' ∧ c ≠ '\\' ∧ c ≠ '\n') :
    Scans ('#' :: (kwInclude ++ ' ' :: '"' :: (n.toList ++ ['"'])) ++ ['\n'])
      ['#' :: (kwInclude ++ ' ' :: '"' :: (n.toList ++ ['"']))] := by
  apply Scans.proper
  have h1 : properFrom false ('#' :: (kwInclude ++ [' '])) = true := by decide +kernel
  have h2 : properFrom false ('"' :: (n.toList ++ ['"'])) = true := by simpa [properFrom] using proper_quoted h
  have := proper_append h1 h2
  simpa using this

theorem trim_quoted (n : String) : trim (quoted n) = quoted n := by
  apply trim_id
  · intro x hx
    simp only [quoted, List.head?_cons, Option.mem_def, Option.some.injEq] at hx
    subst hx; decide
  · intro x hx
    have e : quoted n = ('"' :: n.toList) ++ ['"'] := rfl
    rw [e, last_append (by simp)] at hx
    simp only [List.getLast?_singleton, Option.mem_def, Option.some.injEq] at hx
    subst hx; decide

theorem runs_quote {n : String} (h : ∀ c ∈ n.toList, c ≠ '"' ∧ c ≠ '\\' ∧ c ≠ '\n') (ha : cs.all id = true) :
    Runs (st m cs is S D) ("#include \"" ++ n ++ "\"\n").toList (st m cs (is ++ [quoted n]) S D) := by
  rw [quote_text]
  refine runs_directive (quote_scans h) dir_words.2.2.2.2 ⟨'i', kwInclude.tail, by decide +kernel⟩ (by decide) ?_
  rw [directive_include, if_pos (by simpa [File.active] using ha)]
  have := trim_quoted n
  unfold quoted at this ⊢
  rw [this]

theorem runs_quoteOff {n : String} (h : ∀ c ∈ n.toList, c ≠ '"' ∧ c ≠ '\\' ∧ c ≠ '\n') (ha : cs.all id = false) :
    Runs (st m cs is S D) ("#include \"" ++ n ++ "\"\n").toList (st m cs is S D) := by
  rw [quote_text]
  refine runs_directive (quote_scans h) dir_words.2.2.2.2 ⟨'i', kwInclude.tail, by decide +kernel⟩ (by decide) ?_
  rw [directive_include]
  simp [File.active, ha]

/-- A line which includes a header of the system. -/
theorem runs_system {w : String} (n : List Char) (hw : w.toList = '#' :: (kwInclude ++ ' ' :: '<' :: n) ++ ['\n'])
    (hs : Scans w.toList ['#' :: (kwInclude ++ ' ' :: '<' :: n)]) (ht : trim ('<' :: n) = '<' :: n) :
    Runs (st m cs is S D) w.toList (st m cs (if cs.all id then is ++ ['<' :: n] else is) S D) := by
  rw [hw] at hs ⊢
  refine runs_directive hs dir_words.2.2.2.2 ⟨'i', kwInclude.tail, by decide +kernel⟩ (by decide) ?_
  rw [directive_include, ht]
  by_cases h : cs.all id = true
  · simp [File.active, h]
  · simp [File.active, h]

/-- The headers of the system. -/
def stdarg : List Char := "<stdarg.h>".toList
@[inherit_doc stdarg] def easyMockH : List Char := "<easyMock.h>".toList

theorem runs_stdarg : Runs (st m cs is S D) "#include <stdarg.h>\n".toList
    (st m cs (if cs.all id then is ++ [stdarg] else is) S D) := by
  have e : stdarg = '<' :: stdarg.tail := by decide +kernel
  rw [e]
  exact runs_system _ (by decide +kernel) (Scans.of (by decide +kernel) (by decide +kernel)) (by decide +kernel)

theorem runs_easyMock : Runs (st m cs is S D) "#include <easyMock.h>\n".toList
    (st m cs (if cs.all id then is ++ [easyMockH] else is) S D) := by
  have e : easyMockH = '<' :: easyMockH.tail := by decide +kernel
  rw [e]
  exact runs_system _ (by decide +kernel) (Scans.of (by decide +kernel) (by decide +kernel)) (by decide +kernel)

end EasyMock.CFile
