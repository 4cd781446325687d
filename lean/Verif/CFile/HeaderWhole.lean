import Verif.CFile.HeaderText

/-! # CFile: the whole generated header -/

namespace EasyMock.CFile

open EasyMock.Gen

variable {m is : List (List Char)} {cs : List Bool} {S : List Scope} {D : List Decl}

/-! ## The whole header -/

/-- A text of blank lines and comments. -/
def Empty (t : String) : Prop := ∃ ls, Scans t.toList ls ∧ ∀ l ∈ ls, ∀ c ∈ l, blank c = true

theorem Empty.append {a b : String} (ha : Empty a) (hb : Empty b) : Empty (a ++ b) := by
  obtain ⟨la, sa, ea⟩ := ha
  obtain ⟨lb, sb, eb⟩ := hb
  refine ⟨la ++ lb, by rw [String.toList_append]; exact sa.append sb, fun l hl => ?_⟩
  rcases List.mem_append.mp hl with h | h
  · exact ea l h
  · exact eb l h

theorem Empty.line {t : String} (h0 : '\\' ∉ t.toList) (h : t.toList.foldl Scan.step ⟨.code, [], []⟩ = ⟨.code, [], [[]]⟩) :
    Empty t := ⟨[[]], Scans.of h0 h, by simp⟩

theorem Empty.join : ∀ {l : List String}, (∀ t ∈ l, Empty t) → Empty (String.join l)
  | [], _ => ⟨[], ⟨by simp [String.join], fun d => by simp [String.join]⟩, by simp⟩
  | t :: l, h => by
    rw [join_cons]
    exact (h t (by simp)).append (Empty.join (fun x hx => h x (by simp [hx])))

theorem licence_empty : Empty licence := by
  apply Empty.join
  unfold licenceLines
  repeat (refine List.forall_mem_cons.mpr ⟨Empty.line (by decide +kernel) (by decide +kernel), ?_⟩)
  simp

theorem runs_licence : Runs (st m cs is S D) licence.toList (st m cs is S D) := by
  obtain ⟨ls, hs, hb⟩ := licence_empty
  exact Runs.blank hs (st_top m cs is S D) hb

theorem usedBegin_scans : Scans "/*------------------ GENERATING USED TYPE -------------------*/\n".toList [[' ']] :=
  Scans.of (by decide +kernel) (by decide +kernel)
theorem usedEnd_scans : Scans "/*----------------- END GENERATING USED TYPE -----------------*/\n".toList [[' ']] :=
  Scans.of (by decide +kernel) (by decide +kernel)
theorem compareBegin_scans : Scans "/*----------------- GENERATING COMPARE SECTION -----------------*/\n".toList [[' ']] :=
  Scans.of (by decide +kernel) (by decide +kernel)
theorem compareEnd_scans : Scans "/*--------------- END GENERATING COMPARE SECTION ----------------*/\n".toList [[' ']] :=
  Scans.of (by decide +kernel) (by decide +kernel)

theorem runs_comment {t : String} (h : Scans t.toList [[' ']]) : Runs (st m cs is S D) t.toList (st m cs is S D) :=
  Runs.blank h (st_top m cs is S D) (fun _ hl => one_blank hl)

/-- What the types of a header declare: nothing if it includes the mocked header. -/
def typesSeen (c : Config) (path : String) (m : List (List Char)) (types : String) : Option Seen :=
  if c.genTypes then readFile (guardWord path :: m) types else some ⟨guardWord path :: m, [], []⟩

/-- The scopes around everything in a header. -/
def baseScopes (c : Config) (m : List (List Char)) : List Scope := if c.cpp then [] else cScopes m

/-- What a header can be made of. -/
structure HeaderOk (c : Config) (path types : String) (cmps : List String) (fs : List Fun) : Prop where
  name : NameOk path
  types : c.genTypes = true → '\\' ∉ types.toList
  cmps : ∀ n ∈ cmps, Ident n.toList
  funs : ∀ f ∈ fs, FunOk c f

theorem readFile_of {t : String} {M I : List (List Char)} (h : Runs (st m [] [] [] []) t.toList (st M [] I [] D)) :
    readFile m t = some ⟨M, I, D⟩ := by
  obtain ⟨ls, hs, e⟩ := h
  unfold readFile
  rw [hs.lines]
  have e' : ls.foldlM File.line ⟨m, [], [], Reader.start⟩ = some (st M [] I [] D) := e
  simp only [e']

theorem types_runs {c : Config} {path types : String} {sT : Seen} (hb : c.genTypes = true → '\\' ∉ types.toList)
    (h : typesSeen c path m types = some sT) (ha : cs.all id = true) :
    Runs (st (guardWord path :: m) cs is S D)
      (if c.genTypes then
        "/*------------------ GENERATING USED TYPE -------------------*/\n" ++ types ++
        "/*----------------- END GENERATING USED TYPE -----------------*/\n"
       else "").toList
      (st sT.macros cs (is ++ sT.includes) S (D ++ sT.decls.map (Decl.under S))) := by
  unfold typesSeen at h
  cases hg : c.genTypes with
  | true =>
    rw [hg] at h
    simp only [if_true] at h ⊢
    have := Runs.block (f := st (guardWord path :: m) cs is S D) (hb hg) h (st_top _ cs is S D) ha
    exact runs_str (runs_str (runs_comment usedBegin_scans) this) (runs_comment usedEnd_scans)
  | false =>
    rw [hg] at h
    simp only [Bool.false_eq_true, if_false, Option.some.injEq] at h ⊢
    subst h
    simpa using runs_empty _

/-- The header up to the functions. -/
def headerFront (c : Config) (path types : String) (cmps : List String) : String :=
  licence ++
  ("#ifndef " ++ Gen.guard path ++ "\n") ++
  ("#define " ++ Gen.guard path ++ "\n") ++
  "\n" ++
  (if c.genTypes then "" else "#include \"" ++ fileName path ++ "\"\n") ++
  "#include <stdarg.h>\n" ++
  "#include <easyMock.h>\n" ++
  "\n" ++
  (if c.cpp then "" else "#ifdef __cplusplus\nextern \"C\" {\n#endif\n") ++
  (if c.genTypes then
    "/*------------------ GENERATING USED TYPE -------------------*/\n" ++ types ++
    "/*----------------- END GENERATING USED TYPE -----------------*/\n"
   else "") ++
  "\n" ++
  "/*----------------- GENERATING COMPARE SECTION -----------------*/\n" ++
  String.join (cmps.map headerCmp) ++
  "/*--------------- END GENERATING COMPARE SECTION ----------------*/\n" ++
  "\n"

theorem headerText_front (c : Config) (path types : String) (cmps : List String) (fs : List Fun) :
    headerText c path types cmps fs = headerFront c path types cmps ++ String.join (fs.map (headerFun c)) ++
      (if c.cpp then "" else "#ifdef __cplusplus\n}\n#endif\n") ++ "#endif\n" := rfl

theorem front_runs {c : Config} {path types : String} {cmps : List String} {fs : List Fun} {sT : Seen}
    (hok : HeaderOk c path types cmps fs) (hT : typesSeen c path m types = some sT) (hg : m.contains (guardWord path) = false) :
    Runs (st m [] [] [] []) (headerFront c path types cmps).toList
      (st sT.macros [true] ((if c.genTypes then [] else [quoted (fileName path)]) ++ [stdarg, easyMockH] ++ sT.includes)
        (baseScopes c m)
        (sT.decls.map (Decl.under (baseScopes c m)) ++ (cmps.map (cmpDecls (baseScopes c m))).flatten)) := by
  have hon : ([true] : List Bool).all id = true := rfl
  have hcs : cScopes (guardWord path :: m) = cScopes m := by
    have : (cplusplus == guardWord path) = false := by
      rw [beq_eq_false_iff_ne]; exact (guardWord_cplusplus path).symm
    unfold cScopes
    rw [List.contains_cons, this, Bool.false_or]
  have h1 := runs_licence (m := m) (cs := []) (is := []) (S := []) (D := [])
  have h2 := runs_ifndef (m := m) (cs := []) (is := []) (S := []) (D := []) hok.name
  rw [hg] at h2
  have h3 := runs_define (m := m) (cs := [true]) (is := []) (S := []) (D := []) hok.name hon
  have h4 := runs_newline (st_top (guardWord path :: m) [true] [] [] [])
  have h5 : Runs (st (guardWord path :: m) [true] [] [] [])
      (if c.genTypes then "" else "#include \"" ++ fileName path ++ "\"\n").toList
      (st (guardWord path :: m) [true] (if c.genTypes then [] else [quoted (fileName path)]) [] []) := by
    cases c.genTypes with
    | true => exact runs_empty _
    | false => exact runs_quote (fun x hx => ⟨(hok.name.chars x hx).1, (hok.name.chars x hx).2.2⟩) hon
  generalize (if c.genTypes then [] else [quoted (fileName path)]) = I at h5 ⊢
  have h6 := runs_stdarg (m := guardWord path :: m) (cs := [true]) (is := I) (S := []) (D := [])
  have h7 := runs_easyMock (m := guardWord path :: m) (cs := [true]) (is := I ++ [stdarg]) (S := []) (D := [])
  rw [if_pos hon] at h6 h7
  have h8 := runs_newline (st_top (guardWord path :: m) [true] (I ++ [stdarg] ++ [easyMockH]) [] [])
  have h9 : Runs (st (guardWord path :: m) [true] (I ++ [stdarg] ++ [easyMockH]) [] [])
      (if c.cpp then "" else "#ifdef __cplusplus\nextern \"C\" {\n#endif\n").toList
      (st (guardWord path :: m) [true] (I ++ [stdarg] ++ [easyMockH]) (baseScopes c m) []) := by
    unfold baseScopes
    cases c.cpp with
    | true => exact runs_empty _
    | false =>
      have := runs_cBegin (m := guardWord path :: m) (cs := [true]) (is := I ++ [stdarg] ++ [easyMockH]) (S := []) (D := []) hon
      rw [hcs] at this
      exact this
  have h10 := types_runs (is := I ++ [stdarg] ++ [easyMockH]) (S := baseScopes c m) (D := []) hok.types hT hon
  rw [List.nil_append] at h10
  generalize baseScopes c m = B at h9 h10 ⊢
  generalize hJ : I ++ [stdarg] ++ [easyMockH] ++ sT.includes = J at h10
  generalize hE1 : sT.decls.map (Decl.under B) = E1 at h10 ⊢
  have h11 := runs_newline (st_top sT.macros [true] J B E1)
  have h12 := runs_comment (m := sT.macros) (cs := [true]) (is := J) (S := B) (D := E1) compareBegin_scans
  have h13 := runs_join (m := sT.macros) (cs := [true]) (is := J) (S := B) headerCmp (cmpDecls B) cmps E1
    (fun n hn _ => runs_cmp (hok.cmps n hn) hon)
  generalize hE2 : E1 ++ (cmps.map (cmpDecls B)).flatten = E2 at h13 ⊢
  have h14 := runs_comment (m := sT.macros) (cs := [true]) (is := J) (S := B) (D := E2) compareEnd_scans
  have h15 := runs_newline (st_top sT.macros [true] J B E2)
  have hJ' : I ++ [stdarg, easyMockH] ++ sT.includes = J := by rw [← hJ]; simp [List.append_assoc]
  rw [hJ']
  unfold headerFront
  exact runs_str (runs_str (runs_str (runs_str (runs_str (runs_str (runs_str (runs_str (runs_str (runs_str
    (runs_str (runs_str (runs_str (runs_str h1 h2) h3) h4) h5) h6) h7) h8) h9) h10) h11) h12) h13) h14) h15

theorem header_runs {c : Config} {path types : String} {cmps : List String} {fs : List Fun} {sT : Seen}
    (hok : HeaderOk c path types cmps fs) (hT : typesSeen c path m types = some sT)
    (hcpp : c.cpp = false → sT.macros.contains cplusplus = m.contains cplusplus) (hg : m.contains (guardWord path) = false) :
    Runs (st m [] [] [] []) (headerText c path types cmps fs).toList
      (st sT.macros [] ((if c.genTypes then [] else [quoted (fileName path)]) ++ [stdarg, easyMockH] ++ sT.includes) []
        (sT.decls.map (Decl.under (baseScopes c m)) ++ (cmps.map (cmpDecls (baseScopes c m))).flatten ++
          (fs.map (funDecls (baseScopes c m) c)).flatten)) := by
  have hon : ([true] : List Bool).all id = true := rfl
  have h1 := front_runs hok hT hg
  generalize ((if c.genTypes then [] else [quoted (fileName path)]) ++ [stdarg, easyMockH] ++ sT.includes) = J at h1 ⊢
  generalize (sT.decls.map (Decl.under (baseScopes c m)) ++ (cmps.map (cmpDecls (baseScopes c m))).flatten) = E at h1 ⊢
  have h16 := runs_join (m := sT.macros) (cs := [true]) (is := J) (S := baseScopes c m) (headerFun c) (funDecls (baseScopes c m) c)
    fs E (fun f hf _ => runs_fun (hok.funs f hf) hon)
  generalize (E ++ (fs.map (funDecls (baseScopes c m) c)).flatten) = E2 at h16 ⊢
  have h18 : Runs (st sT.macros [true] J (baseScopes c m) E2)
      (if c.cpp then "" else "#ifdef __cplusplus\n}\n#endif\n").toList (st sT.macros [true] J [] E2) := by
    have e : c.cpp = false → cScopes sT.macros = cScopes m := by
      intro h; unfold cScopes; rw [hcpp h]
    unfold baseScopes
    cases hc : c.cpp with
    | true => exact runs_empty _
    | false =>
      have := runs_cEnd (m := sT.macros) (cs := [true]) (is := J) (S := []) (D := E2) hon
      rw [e hc] at this
      exact this
  have h19 := runs_endif (m := sT.macros) (cs := []) (is := J) (S := []) (D := E2) (b := true)
  rw [headerText_front]
  exact runs_str (runs_str (runs_str h1 h16) h18) h19

theorem header_off {c : Config} {path types : String} {cmps : List String} {fs : List Fun} {m' : List (List Char)} {sT : Seen}
    (hok : HeaderOk c path types cmps fs) (hT : typesSeen c path m' types = some sT) (hg : m.contains (guardWord path) = true) :
    Runs (st m [] [] [] []) (headerText c path types cmps fs).toList (st m [] [] [] []) := by
  have hoff : ([false] : List Bool).all id = false := rfl
  have hact : (st m [false] [] [] []).active = false := rfl
  have q : ∀ {t : String}, Quiet t.toList → Runs (st m [false] [] [] []) t.toList (st m [false] [] [] []) := fun h => h.runs hact
  have qc : ∀ {t : String}, Scans t.toList [[' ']] → Quiet t.toList := fun h => Quiet.blank h (fun _ hl => one_blank hl)
  have h1 := runs_licence (m := m) (cs := []) (is := []) (S := []) (D := [])
  have h2 := runs_ifndef (m := m) (cs := []) (is := []) (S := []) (D := []) hok.name
  rw [hg] at h2
  have h3 := runs_defineOff (m := m) (cs := [false]) (is := []) (S := []) (D := []) hok.name hoff
  have h4 := q quiet_newline
  have h5 : Runs (st m [false] [] [] [])
      (if c.genTypes then "" else "#include \"" ++ fileName path ++ "\"\n").toList (st m [false] [] [] []) := by
    cases c.genTypes with
    | true => exact runs_empty _
    | false => exact runs_quoteOff (fun x hx => ⟨(hok.name.chars x hx).1, (hok.name.chars x hx).2.2⟩) hoff
  have h6 := runs_stdarg (m := m) (cs := [false]) (is := []) (S := []) (D := [])
  have h7 := runs_easyMock (m := m) (cs := [false]) (is := []) (S := []) (D := [])
  rw [if_neg (by decide)] at h6 h7
  have h9 : Runs (st m [false] [] [] [])
      (if c.cpp then "" else "#ifdef __cplusplus\nextern \"C\" {\n#endif\n").toList (st m [false] [] [] []) := by
    cases c.cpp with
    | true => exact runs_empty _
    | false => exact runs_cBeginOff hoff
  have h10 : Runs (st m [false] [] [] [])
      (if c.genTypes then
        "/*------------------ GENERATING USED TYPE -------------------*/\n" ++ types ++
        "/*----------------- END GENERATING USED TYPE -----------------*/\n"
       else "").toList (st m [false] [] [] []) := by
    unfold typesSeen at hT
    cases hgt : c.genTypes with
    | true =>
      rw [hgt] at hT
      simp only [if_true] at hT ⊢
      exact runs_str (runs_str (runs_comment usedBegin_scans) (Runs.blockOff (hok.types hgt) hT hact))
        (runs_comment usedEnd_scans)
    | false => exact runs_empty _
  have h12 := q (qc compareBegin_scans)
  have h13 := q (quiet_join headerCmp cmps (fun n hn => quiet_cmp (hok.cmps n hn)))
  have h14 := q (qc compareEnd_scans)
  have h16 := q (quiet_join (headerFun c) fs (fun f hf => quiet_fun (hok.funs f hf)))
  have h18 : Runs (st m [false] [] [] [])
      (if c.cpp then "" else "#ifdef __cplusplus\n}\n#endif\n").toList (st m [false] [] [] []) := by
    cases c.cpp with
    | true => exact runs_empty _
    | false => exact runs_cEndOff hoff
  have h19 := runs_endif (m := m) (cs := []) (is := []) (S := []) (D := []) (b := false)
  unfold headerText
  exact runs_str (runs_str (runs_str (runs_str (runs_str (runs_str (runs_str (runs_str (runs_str (runs_str (runs_str (runs_str
    (runs_str (runs_str (runs_str (runs_str (runs_str h1 h2) h3) h4) h5) h6) h7) h4) h9) h10) h4) h12) h13) h14) h4) h16) h18)
    h19

/-! ## A name which is no identifier -/

theorem join_append : ∀ {a b : List Char}, '\\' ∉ a → joinLines false (a ++ b) = a ++ joinLines false b
  | [], _, _ => rfl
  | c :: a, b, h => by
    simp only [List.mem_cons, not_or] at h
    simp [joinLines, Ne.symm h.1, join_append h.2]

/-- A file is not read if its beginning is not. -/
theorem readFile_none {a b : String} {la : List (List Char)} (hs : Scans a.toList la)
    (h : la.foldlM File.line (st m [] [] [] []) = none) : readFile m (a ++ b) = none := by
  unfold readFile
  cases hl : linesOf (a ++ b).toList with
  | none => rfl
  | some ls =>
    unfold linesOf at hl
    rw [String.toList_append, join_append hs.1, List.foldl_append, hs.2] at hl
    have hd := scan_done (joinLines false b.toList) ⟨.code, [], []⟩ la
    simp only [List.append_nil] at hd
    rw [List.nil_append, hd] at hl
    split at hl
    · rename_i e
      cases hl
      simp only [Scan.mk.injEq] at e
      simp only
      rw [← e.2.2, List.foldlM_append]
      have h' : la.foldlM File.line ⟨m, [], [], Reader.start⟩ = none := h
      rw [h']
      rfl
    · cases hl

theorem name_scans {n : List Char} (h0 : n ≠ []) (hp : ∀ c ∈ n, plainChar c = true) (hb : ∀ c ∈ n, blank c = false) :
    Scans (spaceLines n) [spaceText n, ['{']] := by
  have h1 := Scans.proper (name_text h0 hp hb).proper
  have h2 : Scans ['{', '\n'] [['{']] := Scans.of (by decide) (by decide)
  have := h1.append h2
  simpa [spaceLines] using this

theorem name_fails {n : List Char} (h0 : n ≠ []) (hp : ∀ c ∈ n, plainChar c = true) (hb : ∀ c ∈ n, blank c = false)
    (hn : n.all identChar = false) {f : File} (hr : AtTop f.reader) (ha : f.active = true) :
    [spaceText n, ['{']].foldlM File.line f = none := by
  have ht := name_text h0 hp hb
  have hd := ht.noDirective []
  rw [List.append_nil] at hd
  have e1 : File.line f (spaceText n) = some { f with reader := { f.reader with piece := spaceText n ++ ['\n'] } } := by
    rw [line_code hd ha, List.foldlM_append, feed_start ht hr]
    have hne := ht.nonempty
    have hb : CFile.blank '\n' = true := by decide
    simp [Reader.step, Reader.plain, hr.place, hr.quote, hne]
  have ha' : File.active { f with reader := { f.reader with piece := spaceText n ++ ['\n'] } } = true := ha
  have e2 : File.line { f with reader := { f.reader with piece := spaceText n ++ ['\n'] } } ['{'] = none := by
    rw [line_code (by decide) ha']
    simp [Reader.step, Reader.plain, hr.place, hr.quote, opens_name h0 hb, hn]
  rw [List.foldlM_cons, e1]
  show File.line _ ['{'] >>= _ = _
  rw [e2]
  rfl

/-- The scopes of a class, opened. -/
def classBegin (s : FunSection) : String := match s.cls with | some k => "namespace " ++ k ++ "\n{\n" | none => ""

theorem runs_classBegin {s : FunSection} (hcls : ∀ k ∈ s.cls, Ident k.toList) (ha : cs.all id = true) :
    Runs (st m cs is S D) (classBegin s).toList (st m cs is (S ++ spaces s.cls.toList) D) := by
  unfold classBegin
  cases hk : s.cls with
  | none => simpa using runs_empty _
  | some k => exact runs_space (hcls k (by rw [hk]; rfl)) ha

theorem front_some {c : Config} {path : String} {cmps : List String} (hok : HeaderOk c path "" cmps [])
    (ht : c.genTypes = false) (hg : m.contains (guardWord path) = false) :
    ∃ M J S E, Runs (st m [] [] [] []) (headerFront c path "" cmps).toList (st M [true] J S E) := by
  have hT : typesSeen c path m "" = some ⟨guardWord path :: m, [], []⟩ := by unfold typesSeen; rw [ht]; rfl
  exact ⟨_, _, _, _, front_runs hok hT hg⟩

/-- The header of a C++ file up to the namespace named after its first function. -/
theorem first_some {c : Config} {path : String} {cmps : List String} {f : Fun} (hok : HeaderOk c path "" cmps [])
    (ht : c.genTypes = false) (hg : m.contains (guardWord path) = false) (hcom : CommentOk f)
    (hns : ∀ n ∈ f.sec.ns, Ident n.toList) (hcls : ∀ k ∈ f.sec.cls, Ident k.toList) :
    ∃ M J S E, Runs (st m [] [] [] []) (headerFront c path "" cmps ++ (generateComment f ++
      (("namespace " ++ "EasyMock" ++ "\n{\n") ++ (namespaceBegin f.sec.ns ++ ("\n" ++ classBegin f.sec))))).toList
      (st M [true] J S E) := by
  have hon : ([true] : List Bool).all id = true := rfl
  obtain ⟨M, J, S, E, h1⟩ := front_some (m := m) hok ht hg
  have h2 := Runs.blank (generate_scans hcom) (st_top M [true] J S E) (fun _ hl => two_blank hl)
  have h3 := runs_space (m := M) (is := J) (S := S) (D := E) easyMock_ident hon
  have h4 := runs_begin (m := M) (is := J) (D := E) hns hon (S := S ++ [.space "EasyMock".toList])
  have h5 := runs_newline (st_top M [true] J (S ++ [.space "EasyMock".toList] ++ spaces f.sec.ns) E)
  have h6 := runs_classBegin (m := M) (is := J) (D := E) (S := S ++ [.space "EasyMock".toList] ++ spaces f.sec.ns) hcls hon
  exact ⟨_, _, _, _, runs_str h1 (runs_str h2 (runs_str h3 (runs_str h4 (runs_str h5 h6))))⟩

/-- The text of a function in the header up to that namespace, and behind. -/
theorem headerFun_split {c : Config} {f : Fun} (hc : c.cpp = true) (ht : c.genTypes = false) :
    headerFun c f = generateComment f ++ ("namespace " ++ "EasyMock" ++ "\n{\n" ++ (namespaceBegin f.sec.ns ++ ("\n" ++
      (classBegin f.sec ++ (("namespace " ++ f.sec.name ++ "\n{\n") ++
        (String.join ((headerDecls c f.sec).map (· ++ "\n")) ++ ((expectEnd c f.sec ++ "\n") ++ (endGenerateComment f ++ "\n")))))))) := by
  have e0 : ∀ t : String, t ++ "" = t := fun t => String.append_empty
  have eb : expectBegin c f.sec ++ "\n" = ("namespace " ++ "EasyMock" ++ "\n{\n") ++ (namespaceBegin f.sec.ns ++ ("\n" ++
      (classBegin f.sec ++ ("namespace " ++ f.sec.name ++ "\n{\n")))) := by
    rw [← begin_open f.sec.name, ← easyMock_begin]
    unfold expectBegin classBegin
    rw [if_pos hc]
    cases f.sec.cls <;> simp only [sassoc]
  have em : mockPrototype c f.sec = "" := by
    unfold mockPrototype mustDeclare
    rw [ht]
    rfl
  unfold headerFun
  rw [em, e0, eb]
  simp only [sassoc]

/-- The header of a C++ file with a function whose name is no identifier is not read. -/
theorem operator_fails {c : Config} {path : String} {cmps : List String} {f : Fun} {fs : List Fun}
    (hok : HeaderOk c path "" cmps []) (hc : c.cpp = true) (ht : c.genTypes = false) (hg : m.contains (guardWord path) = false)
    (hcom : CommentOk f) (hns : ∀ n ∈ f.sec.ns, Ident n.toList) (hcls : ∀ k ∈ f.sec.cls, Ident k.toList)
    (h0 : f.sec.name.toList ≠ []) (hp : ∀ c ∈ f.sec.name.toList, plainChar c = true)
    (hb : ∀ c ∈ f.sec.name.toList, blank c = false) (hn : f.sec.name.toList.all identChar = false) :
    readFile m (headerText c path "" cmps (f :: fs)) = none := by
  obtain ⟨M, J, S, E, ls, hs, e⟩ := first_some (m := m) hok ht hg hcom hns hcls
  have hs2 := hs.append (name_scans h0 hp hb)
  rw [← begin_text, ← String.toList_append] at hs2
  have hfail := name_fails h0 hp hb hn (st_top M [true] J S E) rfl
  have hnone : (ls ++ [spaceText f.sec.name.toList, ['{']]).foldlM File.line (st m [] [] [] []) = none := by
    rw [List.foldlM_append, e]
    exact hfail
  rw [headerText_front, List.map_cons, join_cons, headerFun_split hc ht]
  have hrest := readFile_none (b := String.join ((headerDecls c f.sec).map (· ++ "\n")) ++ ((expectEnd c f.sec ++ "\n") ++
    ((endGenerateComment f ++ "\n") ++ (String.join (fs.map (headerFun c)) ++
      ((if c.cpp then "" else "#ifdef __cplusplus\n}\n#endif\n") ++ "#endif\n"))))) hs2 hnone
  simp only [sassoc] at hrest ⊢
  exact hrest

end EasyMock.CFile
