import Verif.CFile.CmpDeclared
import Verif.CFile.ProgramText
import Verif.CFile.LocalText
import Verif.Props.CmpType
import Verif.Props.Source
import Verif.Props.TypedProgram
import Verif.Props.Output

/-! # The generated files of a program: C78 and C79 from the types, and C85

`Txt.FunText` says which functions can be declared; nothing is assumed of the texts which are generated for them.  C85 puts the
pieces together: the functions of a program are parsed, the files are generated, read as files (`readFile`), and each declaration
in them is read as C (`CDecl.read`). -/

namespace EasyMock.CFile

open EasyMock.Gen
open EasyMock.Types (Ty Params FunDecl)
open EasyMock.Parser
open EasyMock.CDecl
open EasyMock.CFile.Txt (FunText ParamText ParamsText firstWord)

/-! ## C78 and C79 from the types -/

theorem srcFuns_mem {c : Config} : ∀ {fs : List FunDecl} {k : Nat} {s : SrcFun}, s ∈ srcFuns c k fs → ∃ f ∈ fs, ∃ j, s = srcFun c j f
  | [], _, _, h => by cases h
  | f :: fs, k, s, h => by
    rw [srcFuns] at h
    rcases List.mem_cons.mp h with rfl | h
    · exact ⟨f, by simp, k, rfl⟩
    · obtain ⟨g, hg, j, e⟩ := srcFuns_mem h
      exact ⟨g, by simp [hg], j, e⟩

theorem srcFuns_has {c : Config} {f : FunDecl} : ∀ (fs : List FunDecl) (k : Nat), f ∈ fs → ∃ j, srcFun c j f ∈ srcFuns c k fs
  | g :: fs, k, h => by
    rw [srcFuns]
    rcases List.mem_cons.mp h with rfl | h
    · exact ⟨k, by simp⟩
    · obtain ⟨j, hj⟩ := srcFuns_has (c := c) fs (funSection c k g).2 h
      exact ⟨j, by simp [hj]⟩

theorem header_typed {c : Config} {path types : String} {cmps : List String} {k : Nat} {fs : List FunDecl} (hn : NameOk path)
    (ht : c.genTypes = true → '\\' ∉ types.toList) (hc : ∀ n ∈ cmps, Ident n.toList) (h : ∀ f ∈ fs, FunText c f) :
    HeaderOk c path types cmps ((srcFuns c k fs).map SrcFun.toFun) := by
  refine ⟨hn, ht, hc, fun g hg => ?_⟩
  obtain ⟨s, hs, rfl⟩ := List.mem_map.mp hg
  obtain ⟨f, hf, j, rfl⟩ := srcFuns_mem hs
  exact Txt.fun_ok (h f hf)

theorem source_typed {c : Config} {path : String} {cmps : List SrcCmp} {k : Nat} {fs : List FunDecl} (hn : NameOk path)
    (hc : ∀ n ∈ cmps, CmpOk n) (h : ∀ f ∈ fs, FunText c f) : SourceOk c path cmps (srcFuns c k fs) := by
  refine ⟨hn, hc, fun s hs => ?_⟩
  obtain ⟨f, hf, j, rfl⟩ := srcFuns_mem hs
  exact Txt.src_ok (h f hf)

theorem not_static {c : Config} {k : Nat} {fs : List FunDecl} (h : ∀ f ∈ fs, FunText c f) :
    ∀ s ∈ srcFuns c k fs, (words (mockSignature s.sec).toList).head? ≠ some "static".toList := by
  intro s hs
  obtain ⟨f, hf, j, rfl⟩ := srcFuns_mem hs
  exact Txt.signature_first (h f hf) (by decide +kernel) (by decide +kernel) (h f hf).word.2

/-- C78 and C79 from the types (partial: `FunText`; the comparators; the text of the generated types).  In C and in C++, the
    header and the source generated for a list of functions are accepted; the source includes the header, and defines for other
    files exactly what the header declares, with the same texts and in the same scopes, and the mocks which the mocked header
    declares. -/
theorem C79_typed_partial (c : Config) (path types : String) (cmps : List SrcCmp) (k : Nat) (fs : List FunDecl) (m m' : List (List Char))
    (sT : Seen) (hn : NameOk path) (ht : c.genTypes = true → '\\' ∉ types.toList) (hc : ∀ n ∈ cmps, CmpOk n)
    (hf : ∀ f ∈ fs, FunText c f) (hT : typesSeen c path m types = some sT)
    (hcpp : c.cpp = false → sT.macros.contains cplusplus = m.contains cplusplus) (hg : guardWord path ∉ m) :
    ∃ hs ss, readFile m (headerText c path types (cmps.map (fun k => k.cmp.name)) ((srcFuns c k fs).map SrcFun.toFun)) = some hs ∧
    readFile m' (sourceText c path cmps (srcFuns c k fs)) = some ss ∧
    '"' :: ("easyMock_" ++ fileName path).toList ++ ['"'] ∈ ss.includes ∧
    ∃ D defs, (hs.decls.drop sT.decls.length).map Decl.key = D ∧
    ((ss.decls.map Decl.entry).filter Entry.external).map (fun e => (e.scopes, e.text)) = defs ∧
    D.Sublist defs ∧
    (∀ x ∈ defs, x ∈ D ∨ ∃ s ∈ srcFuns c k fs, (c.genTypes = false ∨ s.sec.cls ≠ none) ∧ x.2 = (mockSignature s.sec).toList) ∧
    (c.genTypes = true → (∀ f ∈ fs, f.parent = none) → D = defs) := by
  have h1 : HeaderOk c path types (cmps.map (fun k => k.cmp.name)) ((srcFuns c k fs).map SrcFun.toFun) :=
    header_typed hn ht (fun n h => by obtain ⟨x, hx, rfl⟩ := List.mem_map.mp h; exact (hc x hx).name) hf
  have h2 : SourceOk c path cmps (srcFuns c k fs) := source_typed hn hc hf
  obtain ⟨hs, ss, D, defs, e1, e2, e3, e4, e5, e6, e7⟩ := C79_declared_partial c path types cmps (srcFuns c k fs) m m' sT h1 hT hcpp hg h2 (not_static hf)
  obtain ⟨ss', e8, -, e9, -⟩ := C79_source_partial c path cmps (srcFuns c k fs) m' h2
  rw [e2, Option.some.injEq] at e8
  subst e8
  refine ⟨hs, ss, e1, e2, ?_, D, defs, e3, e4, e5, e6, fun h3 h4 => e7 h3 (fun s hs => ?_)⟩
  · rw [e9]; exact List.mem_append_right _ (by simp)
  · obtain ⟨f, hf', j, rfl⟩ := srcFuns_mem hs
    show f.parent.map _ = none
    rw [h4 f hf']; rfl

/-- C79 for the generated comparators (partial: as above; the names in the types are identifiers; the members of the types without name
    which are declared inside others can be spelled).  The files with the comparators of a generation are accepted, and the source
    defines each comparator: it declares the type, if its type has no name and is declared inside another one (C91 says what this
    declaration says); it converts its arguments to pointers to its type (C86), and makes its checks; the header declares it. -/
theorem C79_generated_partial (c : Config) (path types : String) (env : StructCmp.Env) (num : Ty → String → Nat) (steps : List StructCmp.Step)
    (k : Nat) (fs : List FunDecl) (m m' : List (List Char))
    (sT : Seen) (hn : NameOk path) (ht : c.genTypes = true → '\\' ∉ types.toList) (hs : ∀ s ∈ steps, Txt.StepNames (TypeDecl.LocalOk (asEmit env)) s)
    (hf : ∀ f ∈ fs, FunText c f) (hT : typesSeen c path m types = some sT)
    (hcpp : c.cpp = false → sT.macros.contains cplusplus = m.contains cplusplus) (hg : guardWord path ∉ m) :
    ∃ hs ss, readFile m (headerText c path types ((StructCmp.program env steps).map (fun k => k.name)) ((srcFuns c k fs).map SrcFun.toFun)) = some hs ∧
    readFile m' (sourceText c path ((StructCmp.program env steps).map (Txt.srcCmp (localText (asEmit env) num))) (srcFuns c k fs)) = some ss ∧
    ((hs.decls.drop sT.decls.length).map Decl.key).Sublist
      (((ss.decls.map Decl.entry).filter Entry.external).map (fun e => (e.scopes, e.text))) ∧
    ∀ x ∈ StructCmp.program env steps,
      (∃ declared : List CFile.Item,
        (localText (asEmit env) num x.ty = "" ∧ declared = [] ∨
         ∃ text, (localText (asEmit env) num x.ty).toList = text ++ [';', '\n'] ∧ declared = [.stmt text]) ∧
      ⟨[], ("int cmp_" ++ x.name ++
        "(const void *currentCall_ptr, const void *expectedCall_ptr, const char *paramName, char *errorMessage )").toList,
        some (some ([says "(void)currentCall_ptr", says "(void)expectedCall_ptr", says "(void)paramName", says "(void)errorMessage"] ++ declared ++ [
          says ("const " ++ x.decl ++ " *currentCall_val = (" ++ ("const " ++ x.decl) ++ " *)currentCall_ptr"), says "(void)currentCall_val",
          says ("const " ++ x.decl ++ " *expectedCall_val = (" ++ ("const " ++ x.decl) ++ " *)expectedCall_ptr"), says "(void)expectedCall_val"] ++
          ((x.checks.filter (fun y => !y.array) ++ x.checks.filter (fun y => y.array)).map (checkItems x.article)).flatten ++
          [says "return 0"]))⟩ ∈ ss.decls.map Decl.entry) ∧
      ⟨[], ("int cmp_deref_ptr_" ++ x.name ++
        "(const void *currentCall_ptr, const void *expectedCall_ptr, const char *paramName, char *errorMessage )").toList,
        some (some [says ("const " ++ x.decl ++ " **currentCall_val = (" ++ ("const " ++ x.decl) ++ " **)currentCall_ptr"),
          says ("const " ++ x.decl ++ " **expectedCall_val = (" ++ ("const " ++ x.decl) ++ " **)expectedCall_ptr"),
          says ("return cmp_" ++ x.name ++ "((const void*)*currentCall_val, (const void*)*expectedCall_val, paramName, errorMessage)")])⟩ ∈
        ss.decls.map Decl.entry := by
  have hc : ∀ n ∈ (StructCmp.program env steps).map (Txt.srcCmp (localText (asEmit env) num)), CmpOk n := Txt.program_text (TypeDecl.local_innerOk num) hs
  obtain ⟨hs', ss, h1, h2, -, D, defs, h3, h4, h5, -⟩ := C79_typed_partial c path types
    ((StructCmp.program env steps).map (Txt.srcCmp (localText (asEmit env) num))) k fs m m' sT hn ht hc hf hT hcpp hg
  obtain ⟨ss', e1, -, -, e2⟩ := C79_source_partial c path ((StructCmp.program env steps).map (Txt.srcCmp (localText (asEmit env) num)))
    (srcFuns c k fs) m' (source_typed hn hc hf)
  rw [h2, Option.some.injEq] at e1
  subst e1
  rw [List.map_map] at h1
  refine ⟨hs', ss, h1, h2, by rw [h3, h4]; exact h5, fun x hx => ?_⟩
  have hm : ∀ e ∈ cmpEntries (Txt.srcCmp (localText (asEmit env) num) x), e ∈ ss.decls.map Decl.entry := by
    intro e he
    rw [e2]
    refine List.mem_append_left _ (List.mem_append_left _ (List.mem_append_right _ ?_))
    exact List.mem_flatten.mpr ⟨_, List.mem_map_of_mem (List.mem_map_of_mem hx), he⟩
  refine ⟨⟨innerItems (Txt.srcCmp (localText (asEmit env) num) x), ?_, hm _ List.mem_cons_self⟩, hm _ (List.mem_cons_of_mem _ List.mem_cons_self)⟩
  unfold innerItems
  rcases (hc _ (List.mem_map_of_mem hx)).inner with h0 | h0
  · rw [if_pos h0]; exact Or.inl ⟨h0, rfl⟩
  · obtain ⟨u, e3, -⟩ := h0.ends
    have h0 : (Txt.srcCmp (localText (asEmit env) num) x).inner ≠ "" := by
      intro h
      rw [h] at e3
      have := congrArg List.length e3
      simp at this
    rw [if_neg h0, e3]
    refine Or.inr ⟨u, e3, ?_⟩
    rw [show u ++ [';', '\n'] = (u ++ [';']) ++ ['\n'] by simp, List.dropLast_concat, List.dropLast_concat]

/-! ## C85 -/

/-- The parameters of a function: the output which is offered for each (C46), and its type. -/
def slots (D : Decls) : List ParamD → Sems → List (Gen.Out × Sem)
  | d :: ds, .cons S Ss => (CDecl.offered D d.q, S) :: slots D ds Ss
  | _, _ => []

/-- The value which a function returns, if there is one. -/
def returnOf (d : FnD) (R : Sem) : Option Sem :=
  match d.ret with
  | .mk false _ (.builtin .void) => none
  | _ => some R

/-- The Expect functions for a function: they take its parameters, the value to return and a matcher for each parameter; the second
    one, which there is if a parameter has an output, also takes a value for each output, and its size if this is not known. -/
def expectDeclared (name : String) (ps : List (Gen.Out × Sem)) (R : Option Sem) : List (List Char × Sem) :=
  let types := ps.map (·.2) ++ R.toList ++ ps.map (fun _ => word "EasyMock_Matcher")
  let outs := (ps.filter (fun p => p.1 != .none)).flatMap (fun p => p.2 :: (if p.1 == .sized then [word "easyMock_size_t"] else []))
  ((name ++ "_ExpectAndReturn").toList, .fn (word "void") (.ofList types) false) ::
  (if outs = [] then [] else [((name ++ "_ExpectReturnAndOutput").toList, .fn (word "void") (.ofList (types ++ outs)) false)])

/-- A function of the program, what the parser makes of it, the types of its parameters, and its result. -/
structure Row where
  d : FnD
  f : FunDecl
  Ss : Sems
  R : Sem

theorem pars_slots {D : Decls} : ∀ (ds : List ParamD) (ps : Params) (Ss : Sems) (k : Nat), ParamsOf D ds ps → (∀ d ∈ ds, ¬ CArr d.q.ty) →
    Listed ps Ss → (pars (paramSection k ps).1.names ps Ss).map (fun p => (p.out, p.sem)) = slots D ds Ss
  | [], _, _, k, .nil, _, .nil => by rw [paramSection]; rfl
  | d :: ds, _, _, k, .cons (t := t) (ps := ps) h1 h2 _ _ h, ha, .cons (S := S) (Ss := Ss) _ _ hrest => by
    rw [Gen.paramSection_cons, slots]
    rw [← pars_slots ds ps Ss _ h (fun x hx => ha x (List.mem_cons_of_mem d hx)) hrest, ← den_offered h1 h2 (ha d List.mem_cons_self)]
    unfold PList.names
    rw [PList.entries, List.map_cons, pars]
    rfl

theorem plain_array {D : Decls} {b : Bool} {q : Parser.Q} (h : PlainQ D b (dropVolatile q)) : ¬ CArr q.ty := by
  obtain ⟨k, v, t⟩ := q
  have h := h.2.1
  match t, h with
  | .tdef n (.mk _ _ u), h => exact h.2.1
  | .builtin _, _ | .ptr _, _ | .ref _, _ | .record _, _ | .enum _, _ | .fn .., _ => exact id

theorem no_array {D : Decls} {ms : MacroInfo} {d : FnD} {Ss : Sems} {R : Sem} (h : Txt.FnText D ms d Ss R) : ∀ p ∈ d.params, ¬ CArr p.q.ty := by
  have aux : ∀ (ps : List ParamD) (Ss : Sems), ParamsAre D ps Ss → ∀ p ∈ ps, p.macroText = none → ¬ CArr p.q.ty := by
    intro ps Ss h
    induction h with
    | nil => intro p hp; cases hp
    | cons _ hp _ ih =>
      intro p hm hn
      rcases List.mem_cons.mp hm with rfl | hm
      · cases hp with
        | type _ h _ => exact plain_array h
        | text _ e => rw [hn] at e; cases e
      · exact ih p hm hn
  intro p hp
  cases e : p.macroText with
  | none => exact aux _ _ h.params p hp e
  | some ty => exact plain_array ((h.plain p hp).text ty e).1

/-- Parameters which have names keep them. -/
theorem names_given {D : Decls} : ∀ (ds : List ParamD) (ps : Params) (Ss : Sems) (k : Nat), ParamsOf D ds ps → Listed ps Ss →
    ((pars (paramSection k ps).1.names ps Ss).map Par.name).length = ds.length ∧
    ∀ x ∈ (ds.map ParamD.name).zip ((pars (paramSection k ps).1.names ps Ss).map Par.name), x.1 ≠ "" → x.2 = x.1
  | [], _, _, k, .nil, .nil => ⟨by rw [paramSection]; rfl, fun x hx => by cases hx⟩
  | d :: ds, _, _, k, .cons (s := s) (t := t) (ps := ps) _ _ _ _ h, .cons (S := S) (Ss := Ss) _ _ hrest => by
    obtain ⟨h1, h2⟩ := names_given ds ps Ss (if d.name.isEmpty then (extraOf false k t).2 + 1 else (extraOf false k t).2) h hrest
    have e : (pars (paramSection k (.cons s t d.name ps)).1.names (.cons s t d.name ps) (.cons S Ss)).map Par.name =
        (if d.name.isEmpty then "__easymock_param" ++ toString (extraOf false k t).2 else d.name) ::
        (pars (paramSection (if d.name.isEmpty then (extraOf false k t).2 + 1 else (extraOf false k t).2) ps).1.names ps Ss).map Par.name := by
      rw [Gen.paramSection_cons]
      unfold PList.names
      rw [PList.entries, List.map_cons, pars]
      rfl
    rw [e]
    refine ⟨by rw [List.length_cons, List.length_cons, h1], fun x hx hne => ?_⟩
    rw [List.map_cons, List.zip_cons_cons] at hx
    rcases List.mem_cons.mp hx with rfl | hx
    · have hne : d.name ≠ "" := hne
      show (if d.name.isEmpty then _ else _) = _
      rw [if_neg (by simpa using hne)]
    · exact h2 x hx hne

theorem returned_of {D : Decls} {ms : MacroInfo} {d : FnD} {f : FunDecl} {R R' : Sem} (h : FnOf D ms d f) (ht : Txt.ResultText D ms d R) :
    returned f R' = returnOf d R' := by
  rcases ht.value with ⟨v, hv⟩ | hv
  · have hv' : returnsVoid f.ret = true := nothing_returns (by rw [← hv]; exact h.ret)
    rw [returned, hv', returnOf, hv]; rfl
  · have hv' : returnsVoid f.ret = false := value_returns h.ret h.retNI hv
    rw [returned, hv', returnOf, if_neg (by decide)]
    split
    · rename_i e
      rw [e] at hv
      rcases hv with hv | hv
      · cases hv
      · exact absurd rfl hv
    · rfl

/-- What the texts declare which the files have for a function. -/
structure FnSays (D : Decls) (c : Config) (k : Nat) (r : Row) : Prop where
  mock : read (mockSignature (funSection c k r.f).1) = some (r.d.name.toList, .fn r.R r.Ss r.d.variadic)
  expect : (("void " ++ (funSection c k r.f).1.name ++ "_ExpectAndReturn(" ++ expectParams c (funSection c k r.f).1 ++ ")") ::
    (if (funSection c k r.f).1.outs = [] then []
     else ["void " ++ (funSection c k r.f).1.name ++ "_ExpectReturnAndOutput(" ++ expectOutputParams c (funSection c k r.f).1 ++ ")"])).map read =
    (expectDeclared r.d.name (slots D r.d.params r.Ss) (returnOf r.d r.R)).map some

theorem append_semi {a b : List String} (h : a.map (· ++ ";") = b.map (· ++ ";")) : a = b := by
  induction a generalizing b with
  | nil => cases b with
    | nil => rfl
    | cons => cases h
  | cons x a ih =>
    cases b with
    | nil => cases h
    | cons y b =>
      rw [List.map_cons, List.map_cons, List.cons.injEq] at h
      rw [ih h.2]
      congr 1
      have := congrArg String.toList h.1
      rw [String.toList_append, String.toList_append, List.append_left_inj] at this
      exact String.toList_inj.mp this

theorem expect_lines {c : Config} (hc : c.cpp = false) (s : FunSection) : headerDecls c s =
    (("void " ++ s.name ++ "_ExpectAndReturn(" ++ expectParams c s ++ ")") ::
    (if s.outs = [] then [] else ["void " ++ s.name ++ "_ExpectReturnAndOutput(" ++ expectOutputParams c s ++ ")"])).map (· ++ ";") := by
  have e3 : "_" ++ ("ExpectAndReturn" ++ "(") = "_ExpectAndReturn(" := by decide +kernel
  have e4 : "_" ++ ("ExpectReturnAndOutput" ++ "(") = "_ExpectReturnAndOutput(" := by decide +kernel
  have e5 : ")" ++ ";" = ");" := by decide +kernel
  unfold headerDecls expectName expectOutputName
  rw [hc, ← e3, ← e4, if_neg (by decide)]
  cases ho : s.outs with
  | nil =>
    rw [if_pos (by rfl), if_pos rfl]
    simp only [List.map_cons, List.map_nil, List.append_nil, sassoc, e5]
  | cons x l =>
    rw [if_neg (by simp), if_neg (by simp)]
    simp only [List.map_cons, List.map_nil, sassoc, e5, List.cons_append, List.nil_append]

theorem declared_pars (name : String) (ps : List Par) (R : Option Sem) :
    (expectDeclared name (ps.map (fun p => (p.out, p.sem))) R).map some =
      some ((name ++ "_ExpectAndReturn").toList, .fn (word "void") (.ofList (expectTypes ps R)) false) ::
      (if ps.any (fun p => p.out != .none) then
        [some ((name ++ "_ExpectReturnAndOutput").toList, .fn (word "void") (.ofList (expectTypes ps R ++ outTypes ps)) false)]
       else []) := by
  have h1 : (ps.map (fun p => (p.out, p.sem))).map (·.2) = ps.map (·.sem) := by rw [List.map_map]; rfl
  have h2 : (ps.map (fun p => (p.out, p.sem))).map (fun _ => word "EasyMock_Matcher") = ps.map (fun _ => word "EasyMock_Matcher") := by
    rw [List.map_map]; rfl
  have h3 : ((ps.map (fun p => (p.out, p.sem))).filter (fun p => p.1 != .none)).flatMap
      (fun p => p.2 :: (if p.1 == .sized then [word "easyMock_size_t"] else [])) = outTypes ps := by
    rw [List.filter_map, List.flatMap_map]; rfl
  have h4 : outTypes ps = [] ↔ ps.any (fun p => p.out != .none) = false := by
    unfold outTypes
    rw [List.any_eq_false]
    constructor
    · intro h p hp ho
      rw [List.flatMap_eq_nil_iff] at h
      cases h p (List.mem_filter.mpr ⟨hp, ho⟩)
    · intro h
      rw [List.filter_eq_nil_iff.mpr h]; rfl
  unfold expectDeclared
  simp only [h1, h2, h3]
  rw [List.map_cons]
  congr 1
  by_cases ho : outTypes ps = []
  · rw [if_pos ho, h4.mp ho]; rfl
  · rw [if_neg ho, show ps.any (fun p => p.out != .none) = true from (Bool.not_eq_false _).mp (fun h => ho (h4.mpr h))]; rfl

theorem fn_says {D : Decls} {ms : MacroInfo} {ds : List FnD} {fs : List FunDecl}
    (hA : Unambiguous D (Used D (ds.flatMap typesOf))) (hC : NamedCycles D (Used D (ds.flatMap typesOf)))
    (hp : ParsedFile D ms ds fs) (i : Nat) (r : Row) (hd : ds[i]? = some r.d) (hf : fs[i]? = some r.f)
    (ht : Txt.FnText D ms r.d r.Ss r.R) (c : Config) (hc : c.cpp = false) (ha : c.attrs = []) (k : Nat) : FnSays D c k r := by
  have h := (C76_functions_partial hA hC hp).2 i r.d r.f hd hf
  have hl := params_listed r.d.params r.f.params r.Ss h.params ht.params
  have ho := params_plain r.d.params r.f.params r.Ss h.params ht.params (fun p hp => (ht.plain p hp).noRef)
  have hattrs : (funSection c k r.f).1.attrs = [] := by
    show keptAttrs c r.f = []
    unfold keptAttrs
    rw [ha]
    exact List.filter_eq_nil_iff.mpr (fun a _ h => by cases h)
  have hres : ResultIs D ms r.d r.R := by
    rcases ht.result.text with ⟨kept, h1, h2, h3, -⟩ | ⟨h1, h2, h3, -⟩
    · exact .words kept h1 h2 h3
    · exact .fnPtr ht.result.plain h1 h2 h3
  refine ⟨?_, ?_⟩
  · have := C76_partial hA hC hp i r.d r.f hd hf (by rw [ht.free]; intro m h; cases h) ht.name.2 ht.params hres
      (by rw [ht.free]; intro m h; cases h) c k
    rw [declName, declType, ht.free] at this
    rw [← this, ← hattrs]
  · have hent : returnsVoid r.f.ret = false → CDecl.Entry r.f.retStr r.f.ret r.R := by
      intro hv
      have hval : Value r.d.ret := by
        rcases ht.result.value with ⟨v, hv'⟩ | hv'
        · have : returnsVoid r.f.ret = true := nothing_returns (by rw [← hv']; exact h.ret)
          rw [hv] at this; cases this
        · exact hv'
      refine result_entry h ht.name.2 ?_
      rcases ht.result.text with ⟨kept, h1, h2, h3, h4, -⟩ | ⟨h1, h2, h3, -⟩
      · exact .words kept hval h1 h2 h3 h4
      · exact .fnPtr hval ht.result.plain h1 h2 h3
    obtain ⟨-, texts, e1, e2⟩ := C81_expect_partial c k r.f hc (h.free ht.free).1 (by rw [h.name]; exact ht.name.2) hl ho hent
    have hs := pars_slots r.d.params r.f.params r.Ss (if !returnsVoid r.f.ret then extraOf false (extraOf false k r.f.ret).2 r.f.ret
      else (.none, (extraOf false k r.f.ret).2)).2 h.params (no_array ht) hl
    have hs : (pars (funSection c k r.f).1.params.names r.f.params r.Ss).map (fun p => (p.out, p.sem)) = slots D r.d.params r.Ss := hs
    rw [returned_of h ht.result, h.name] at e2
    generalize hps : pars (funSection c k r.f).1.params.names r.f.params r.Ss = ps at hs e2
    have hL : headerDecls c (funSection c k r.f).1 =
        (("void " ++ (funSection c k r.f).1.name ++ "_ExpectAndReturn(" ++ expectParams c (funSection c k r.f).1 ++ ")") ::
        (if (funSection c k r.f).1.outs = [] then []
         else ["void " ++ (funSection c k r.f).1.name ++ "_ExpectReturnAndOutput(" ++ expectOutputParams c (funSection c k r.f).1 ++ ")"])).map
          (· ++ ";") := expect_lines hc _
    rw [hL] at e1
    rw [append_semi e1, e2, ← hs]
    exact (declared_pars _ _ _).symm

/-- The functions of a list of rows, one after the other. -/
theorem says_all {D : Decls} {c : Config} : ∀ (rows : List Row) (k : Nat), (∀ r ∈ rows, ∀ k, FnSays D c k r) →
    ∀ {α : Type} (g : SrcFun → List α) (h : Row → List α), (∀ r ∈ rows, ∀ k, FnSays D c k r → g (srcFun c k r.f) = h r) →
    ((srcFuns c k (rows.map Row.f)).map g).flatten = rows.flatMap h
  | [], _, _, _, _, _, _ => rfl
  | r :: rows, k, hs, _, g, h, hg => by
    rw [List.map_cons, srcFuns, List.map_cons, List.flatten_cons, List.flatMap_cons, hg r (by simp) k (hs r (by simp) k),
      says_all rows _ (fun x hx => hs x (by simp [hx])) g h (fun x hx => hg x (by simp [hx]))]

theorem rows_say {D : Decls} {ms : MacroInfo} {rows : List Row}
    (hA : Unambiguous D (Used D ((rows.map Row.d).flatMap typesOf))) (hC : NamedCycles D (Used D ((rows.map Row.d).flatMap typesOf)))
    (hp : ParsedFile D ms (rows.map Row.d) (rows.map Row.f)) (ht : ∀ r ∈ rows, Txt.FnText D ms r.d r.Ss r.R)
    {c : Config} (hc : c.cpp = false) (ha : c.attrs = []) :
    (∀ f ∈ rows.map Row.f, FunText c f) ∧ ∀ r ∈ rows, ∀ k, FnSays D c k r := by
  have hi : ∀ r ∈ rows, ∃ i : Nat, rows[i]? = some r := fun r hr => List.mem_iff_getElem?.mp hr
  constructor
  · intro f hf
    obtain ⟨r, hr, rfl⟩ := List.mem_map.mp hf
    obtain ⟨i, hi⟩ := hi r hr
    exact Txt.fn_text hc ha ((C76_functions_partial hA hC hp).2 i r.d r.f (by rw [List.getElem?_map, hi]; rfl)
      (by rw [List.getElem?_map, hi]; rfl)) (ht r hr)
  · intro r hr k
    obtain ⟨i, hi⟩ := hi r hr
    exact fn_says hA hC hp i r (by rw [List.getElem?_map, hi]; rfl) (by rw [List.getElem?_map, hi]; rfl) (ht r hr) c hc ha k

/-- **C85** (partial: `FnText`; without `-t` and `--generate-attribute`).  From the program to the header: for the functions of a
    file in C, the generated header is accepted by C and by C++, includes the mocked header, and declares exactly the
    comparators, each as a matcher, and the Expect functions of the functions, in their order, with the types which the parameters and the results have in the program. -/
theorem C85_header_partial {D : Decls} {ms : MacroInfo} {rows : List Row}
    (hA : Unambiguous D (Used D ((rows.map Row.d).flatMap typesOf))) (hC : NamedCycles D (Used D ((rows.map Row.d).flatMap typesOf)))
    (hp : ParsedFile D ms (rows.map Row.d) (rows.map Row.f)) (ht : ∀ r ∈ rows, Txt.FnText D ms r.d r.Ss r.R)
    (c : Config) (hc : c.cpp = false) (ha : c.attrs = []) (hg : c.genTypes = false) (path : String) (hn : NameOk path)
    (cmps : List String) (hcmp : ∀ n ∈ cmps, Ident n.toList) (k : Nat)
    (m : List (List Char)) (hm : guardWord path ∉ m) :
    ∃ s, readFile m (headerText c path "" cmps ((srcFuns c k (rows.map Row.f)).map SrcFun.toFun)) = some s ∧
    s.includes = [quoted (fileName path), stdarg, easyMockH] ∧
    (∀ d ∈ s.decls, d.body = none ∧ d.scopes = (if cplusplus ∈ m then [.externC] else [])) ∧
    s.decls.map (fun d => read (String.ofList d.text)) =
      cmps.flatMap (fun n => (cmpDeclared n).map some) ++
      rows.flatMap (fun r => (expectDeclared r.d.name (slots D r.d.params r.Ss) (returnOf r.d r.R)).map some) := by
  obtain ⟨h1, h2⟩ := rows_say hA hC hp ht hc ha
  have hok : HeaderOk c path "" cmps ((srcFuns c k (rows.map Row.f)).map SrcFun.toFun) :=
    header_typed hn (fun h => by rw [hg] at h; cases h) hcmp h1
  have hT : typesSeen c path m "" = some ⟨guardWord path :: m, [], []⟩ := by unfold typesSeen; rw [hg]; rfl
  have hcpp : (guardWord path :: m).contains cplusplus = m.contains cplusplus := by
    have : (cplusplus == guardWord path) = false := by
      rw [beq_eq_false_iff_ne]; exact (guardWord_cplusplus path).symm
    rw [List.contains_cons, this, Bool.false_or]
  obtain ⟨base, hb, hr⟩ := C78_header_partial c path "" cmps _ m _ hok hT (fun _ => hcpp) hm
  have hb : base = (if cplusplus ∈ m then [.externC] else []) := by rw [hb, hc]; simp
  refine ⟨_, hr, by rw [hg]; rfl, ?_, ?_⟩
  · intro d hd
    simp only [hg, hc, Bool.false_eq_true, false_and, if_false, List.map_nil, List.nil_append, List.append_nil,
      List.map_map] at hd
    rw [← hb]
    rcases List.mem_append.mp hd with hd | hd
    · obtain ⟨l, hl, hd⟩ := List.mem_flatten.mp hd
      obtain ⟨n, -, rfl⟩ := List.mem_map.mp hl
      rcases List.mem_cons.mp hd with rfl | hd
      · exact ⟨rfl, rfl⟩
      · rw [List.mem_singleton] at hd
        subst hd
        exact ⟨rfl, rfl⟩
    obtain ⟨l, hl, hd⟩ := List.mem_flatten.mp hd
    obtain ⟨s, -, rfl⟩ := List.mem_map.mp hl
    rcases List.mem_cons.mp hd with rfl | hd
    · exact ⟨rfl, rfl⟩
    · split at hd
      · cases hd
      · rw [List.mem_singleton] at hd
        subst hd
        exact ⟨rfl, rfl⟩
  · simp only [hg, hc, Bool.false_eq_true, false_and, if_false, List.map_nil, List.nil_append, List.append_nil, List.map_append,
      List.map_map, List.map_flatten]
    refine congr (congrArg _ ?_) ?_
    · refine (congrArg List.flatten (List.map_congr_left (fun n h => ?_))).trans (List.flatMap_def ..).symm
      rw [← cmps_read (hcmp n h)]
      show [read (String.ofList (cmpSignature n).toList), read (String.ofList (cmpDerefSignature n).toList)] = _
      rw [String.ofList_toList, String.ofList_toList]
      rfl
    refine says_all rows k h2 _ _ (fun r _ k hs => ?_)
    rw [← hs.expect]
    show List.map _ (_ :: _) = _
    rw [List.map_cons, List.map_cons]
    have e : ∀ t : String, read (String.ofList t.toList) = read t := fun t => by rw [String.ofList_toList]
    refine congr (congrArg _ (e _)) ?_
    show List.map _ (if (funSection c k r.f).1.outs = [] then _ else _) = _
    split
    · rfl
    · exact congrArg (fun x => [x]) (e _)

/-- **C85** (partial: as above).  From the program to the source: the generated source is accepted, and the functions which it
    defines for other files are the comparators, as the header declares them, and for each function of the program in their order, the mock, with the name, the types, and the
    result of the function, and variadic if it is, and its Expect functions, as the header declares them; the members of the
    structure in which it stores a call have the types of the parameters and of the result. -/
theorem C85_source_partial {D : Decls} {ms : MacroInfo} {rows : List Row}
    (hA : Unambiguous D (Used D ((rows.map Row.d).flatMap typesOf))) (hC : NamedCycles D (Used D ((rows.map Row.d).flatMap typesOf)))
    (hp : ParsedFile D ms (rows.map Row.d) (rows.map Row.f)) (ht : ∀ r ∈ rows, Txt.FnText D ms r.d r.Ss r.R)
    (c : Config) (hc : c.cpp = false) (ha : c.attrs = []) (path : String) (hn : NameOk path)
    (cmps : List SrcCmp) (hcmp : ∀ n ∈ cmps, CmpOk n) (k : Nat) (m : List (List Char)) :
    ∃ s, readFile m (sourceText c path cmps (srcFuns c k (rows.map Row.f))) = some s ∧
    '"' :: ("easyMock_" ++ fileName path).toList ++ ['"'] ∈ s.includes ∧
    ((s.decls.map Decl.entry).filter Entry.external).map (fun e => (e.scopes, read (String.ofList e.text))) =
      cmps.flatMap (fun n => (cmpDeclared n.cmp.name).map (fun x => ([], some x))) ++
      rows.flatMap (fun r => ((r.d.name.toList, Sem.fn r.R r.Ss r.d.variadic) ::
        expectDeclared r.d.name (slots D r.d.params r.Ss) (returnOf r.d r.R)).map (fun x => ([], some x))) ∧
    ∀ r ∈ rows, (∀ p ∈ r.d.params, p.macroText = none) → ∃ (ps : List Par) (items : List Item),
      ps.map (fun p => (p.out, p.sem)) = slots D r.d.params r.Ss ∧
      (ps.map Par.name).length = r.d.params.length ∧
      (∀ x ∈ (r.d.params.map ParamD.name).zip (ps.map Par.name), x.1 ≠ "" → x.2 = x.1) ∧
      ⟨[], ("typedef struct  {} _" ++ r.d.name ++ "_data").toList, some (some items)⟩ ∈ s.decls.map Decl.entry ∧
      items.map readItem = (memberTypes r.d.name ps (returnOf r.d (spellQ D r.d.ret))).map (fun m => some (m.1.toList, m.2)) := by
  obtain ⟨h1, h2⟩ := rows_say hA hC hp ht hc ha
  have hok : SourceOk c path cmps (srcFuns c k (rows.map Row.f)) := source_typed hn hcmp h1
  obtain ⟨s, hs, -, hi, hd⟩ := C79_source_partial c path cmps (srcFuns c k (rows.map Row.f)) m hok
  obtain ⟨s', hs', he⟩ := C79_offered_partial c path cmps (srcFuns c k (rows.map Row.f)) m hok (not_static h1)
  rw [hs, Option.some.injEq] at hs'
  subst hs'
  refine ⟨s, hs, ?_, ?_, ?_⟩
  · rw [hi]; exact List.mem_append_right _ (by simp)
  · have : ((s.decls.map Decl.entry).filter Entry.external).map (fun e => (e.scopes, read (String.ofList e.text))) =
        (((s.decls.map Decl.entry).filter Entry.external).map (fun e => (e.scopes, e.text))).map (fun x => (x.1, read (String.ofList x.2))) := by
      rw [List.map_map]; rfl
    rw [this, he]
    unfold offered
    simp only [hc, Bool.false_eq_true, if_false, List.map_nil, List.map_append, List.map_map, List.map_flatten]
    refine congr (congrArg _ ?_) ?_
    · refine (congrArg List.flatten (List.map_congr_left (fun n h => ?_))).trans (List.flatMap_def ..).symm
      have e2 : (fun x : List Char × Sem => (([] : List Scope), some x)) = (fun x => ([], x)) ∘ some := rfl
      rw [e2, ← List.map_map, ← cmps_read (hcmp n h).name]
      show [(([] : List Scope), read (String.ofList (cmpSignature n.cmp.name).toList)),
        ([], read (String.ofList (cmpDerefSignature n.cmp.name).toList))] = _
      rw [String.ofList_toList, String.ofList_toList]
      rfl
    refine says_all rows k h2 _ _ (fun r _ k hs => ?_)
    have e : ∀ t : String, read (String.ofList t.toList) = read t := fun t => by rw [String.ofList_toList]
    have e0 : "_" ++ "ExpectAndReturn(" = "_ExpectAndReturn(" := by decide +kernel
    have e1 : "_" ++ "ExpectReturnAndOutput(" = "_ExpectReturnAndOutput(" := by decide +kernel
    have hm := hs.mock
    have hx := congrArg (List.map (fun x => (([] : List Scope), x))) hs.expect
    rw [← e0, ← e1, List.map_map, List.map_map] at hx
    rw [List.map_cons, ← hm]
    have e2 : (fun x : List Char × Sem => (([] : List Scope), some x)) = (fun x => ([], x)) ∘ some := rfl
    rw [e2, ← hx]
    show List.map _ (_ :: _ :: _) = _ :: _
    rw [List.map_cons, List.map_cons, List.map_cons]
    refine congr (congrArg _ (congrArg (Prod.mk []) (e _))) (congr (congrArg _ (congrArg (Prod.mk []) ?_)) ?_)
    · show read (String.ofList _) = read _
      rw [e]; simp only [sassoc]; rfl
    · show List.map _ (List.map _ (if (funSection c k r.f).1.outs = [] then _ else _)) = _
      split
      · rfl
      · refine congrArg (fun x => [(([] : List Scope), x)]) ?_
        show read (String.ofList _) = read _
        rw [e]; simp only [sassoc]; rfl
  · intro r hr hmac
    obtain ⟨i, hi⟩ := List.mem_iff_getElem?.mp hr
    have hmem : ∃ j, srcFun c j r.f ∈ srcFuns c k (rows.map Row.f) := srcFuns_has _ _ (List.mem_map.mpr ⟨r, hr, rfl⟩)
    obtain ⟨j, hj⟩ := hmem
    have h := (C76_functions_partial hA hC hp).2 i r.d r.f (by rw [List.getElem?_map, hi]; rfl) (by rw [List.getElem?_map, hi]; rfl)
    have ht := ht r hr
    have hl := params_listed r.d.params r.f.params r.Ss h.params ht.params
    have hs1 := pars_slots r.d.params r.f.params r.Ss (if !returnsVoid r.f.ret then extraOf false (extraOf false j r.f.ret).2 r.f.ret
      else (.none, (extraOf false j r.f.ret).2)).2 h.params (no_array ht) hl
    obtain ⟨hn1, hn2⟩ := names_given r.d.params r.f.params r.Ss (if !returnsVoid r.f.ret then extraOf false (extraOf false j r.f.ret).2 r.f.ret
      else (.none, (extraOf false j r.f.ret).2)).2 h.params hl
    refine ⟨pars (funSection c j r.f).1.params.names r.f.params r.Ss, dataItems c (srcFun c j r.f), hs1, hn1, hn2, ?_, ?_⟩
    · rw [hd]
      refine List.mem_append_left _ (List.mem_append_right _ (List.mem_flatten.mpr ⟨_, List.mem_map.mpr ⟨_, hj, rfl⟩, ?_⟩))
      have e0 : dataEntry c (srcFun c j r.f) = ⟨[], ("typedef struct  {} _" ++ r.d.name ++ "_data").toList, some (some (dataItems c (srcFun c j r.f)))⟩ := by
        unfold dataEntry
        rw [hc, if_neg (by decide)]
        have e1 : MockCode.dataType (srcFun c j r.f).sec = "_" ++ r.d.name ++ "_data" := by
          have hcls : (srcFun c j r.f).sec.cls = none := by show r.f.parent.map _ = none; rw [(h.free ht.free).1]; rfl
          have hname : (srcFun c j r.f).sec.name = r.d.name := h.name
          unfold MockCode.dataType dataPrefix
          rw [hcls, hname]; rfl
        have e2 : "typedef struct  {} " ++ "_" = "typedef struct  {} _" := by decide +kernel
        rw [e1, ← e2]
        simp only [sassoc]
      rw [← e0]
      unfold funEntries
      simp
    · refine C80_program_partial hA hC hp i r.d r.f (by rw [List.getElem?_map, hi]; rfl) (by rw [List.getElem?_map, hi]; rfl) ht.free
        ht.name.2 ht.params (fun p hp => ⟨(ht.plain p hp).noRef, hmac p hp⟩) ?_ c hc j
      unfold ReturnStored
      rcases ht.result.value with ⟨v, hv⟩ | hv
      · exact Or.inl ⟨v, hv, by rw [returnOf, hv]⟩
      · refine Or.inr ⟨hv, ht.result.plain, ht.result.noRef, ?_⟩
        rw [returnOf]
        split
        · rename_i e
          rw [e] at hv
          rcases hv with hv | hv
          · cases hv
          · exact absurd rfl hv
        · rfl

/-! ## Examples -/

/-- The functions `f` and `g` of the example of C76. -/
def fileParsed : List FunDecl :=
  match parseUnit listUnit exampleMacros 3 [exampleF, exampleG] with
  | .ok fs => fs
  | _ => []

/-- The result of `f`. -/
def fileResult : Sem := .ptr (.ptr (.qual "const".toList (.named ["List".toList])))

/-- The rows of the example. -/
def fileRows : List Row :=
  match fileParsed with
  | [f, g] => [⟨exampleF, f, exampleSems, fileResult⟩,
      ⟨exampleG, g, .cons (.ptr (.named ["struct".toList, "N".toList])) .nil, spellQ listUnit exampleG.ret⟩]
  | _ => []

theorem file_rows : fileRows.map Row.d = [exampleF, exampleG] ∧ fileRows.map Row.f = fileParsed := ⟨rfl, rfl⟩

theorem file_parsed : ParsedFile listUnit exampleMacros (fileRows.map Row.d) (fileRows.map Row.f) := ⟨3, rfl⟩

theorem used_file {i : Nat} {n : String} (h : Used listUnit ((fileRows.map Row.d).flatMap typesOf) i n) :
    Used listUnit ([exampleF, exampleG, exampleM].flatMap typesOf) i n := by
  rw [file_rows.1] at h
  rcases h with ⟨q, hq, v, h⟩ | h
  · refine Or.inl ⟨q, ?_, v, h⟩
    simp only [List.flatMap_cons, List.flatMap_nil, List.mem_append, List.append_nil] at hq ⊢
    rcases hq with h | h
    · exact Or.inl h
    · exact Or.inr (Or.inl h)
  · exact Or.inr h

theorem file_unambiguous : Unambiguous listUnit (Used listUnit ((fileRows.map Row.d).flatMap typesOf)) := by
  have h := example_unambiguous
  exact ⟨fun i n j m a b => h.tags i n j m (used_file a) (used_file b), fun i n j m a b => h.names i n j m (used_file a) (used_file b),
    fun i n j m a b => h.apart i n j m (used_file a) (used_file b), fun i n j m a b => h.keys i n j m (used_file a) (used_file b)⟩

theorem file_named : NamedCycles listUnit (Used listUnit ((fileRows.map Row.d).flatMap typesOf)) :=
  fun i n h => example_named i n (used_file h)

theorem file_param_f : ∀ p ∈ exampleF.params, Txt.ParamOk listUnit p := by
  intro p hp
  simp only [exampleF, List.mem_cons, List.not_mem_nil, or_false] at hp
  rcases hp with rfl | rfl | rfl | rfl | rfl
  · exact ⟨trivial, Or.inl rfl, by intro ty h; cases h⟩
  · exact ⟨trivial, Or.inr (by decide +kernel), by intro ty h; cases h⟩
  · exact ⟨trivial, Or.inr (by decide +kernel), by intro ty h; cases h⟩
  · exact ⟨trivial, Or.inr (by decide +kernel), by intro ty h; cases h⟩
  · refine ⟨trivial, Or.inr (by decide +kernel), ?_⟩
    intro ty h
    cases h
    refine ⟨?_, by decide +kernel, by decide +kernel, ⟨'L', "IST_PTR *".toList, by decide +kernel, Or.inl (by decide)⟩, by decide +kernel⟩
    simp only [dropVolatile, qPtr, qDef, qRec, PlainQ, CDecl.Plain, CFn, CArr, CNoFn]
    decide +kernel

theorem file_f : Txt.FnText listUnit exampleMacros exampleF exampleSems fileResult := by
  refine ⟨rfl, ⟨by decide +kernel, by decide +kernel⟩, by decide +kernel, example_params, file_param_f, ?_, trivial, Or.inr (Or.inr trivial), Or.inl ?_⟩
  · simp only [exampleF, qPtr, qRec, PlainQ, CDecl.Plain, CFn, CArr, CNoFn]
    decide +kernel
  · refine ⟨_, example_words, by decide +kernel, Or.inl trivial, ⟨'c', _, _, rfl, by decide⟩, by decide +kernel⟩

theorem file_g : Txt.FnText listUnit exampleMacros exampleG (.cons (.ptr (.named ["struct".toList, "N".toList])) .nil)
    (spellQ listUnit exampleG.ret) := by
  refine ⟨rfl, ⟨by decide +kernel, by decide +kernel⟩, by decide +kernel, .cons (Or.inr (by decide +kernel)) (.type rfl ?_ (by decide +kernel)) .nil,
    ?_, ?_, trivial, Or.inr (Or.inr trivial),
    Or.inr ⟨.ptr .fn, Or.inr trivial, rfl, by decide +kernel, by decide +kernel⟩⟩
  · simp only [dropVolatile, qPtr, qRec, PlainQ, CDecl.Plain, CFn, listUnit, unitOf]
    decide +kernel
  · intro p hp
    simp only [exampleG, List.mem_cons, List.not_mem_nil, or_false] at hp
    subst hp
    exact ⟨trivial, Or.inr (by decide +kernel), by intro ty h; cases h⟩
  · simp [exampleG, qPtr, qInt, PlainQ, CDecl.Plain, PlainQs, PlainBuiltin, CFn]

theorem file_text : ∀ r ∈ fileRows, Txt.FnText listUnit exampleMacros r.d r.Ss r.R := by
  intro r hr
  have e : fileRows = [⟨exampleF, fileRows[0].f, exampleSems, fileResult⟩,
    ⟨exampleG, fileRows[1].f, .cons (.ptr (.named ["struct".toList, "N".toList])) .nil, spellQ listUnit exampleG.ret⟩] := rfl
  rw [e] at hr
  rcases List.mem_cons.mp hr with rfl | hr
  · exact file_f
  · rcases List.mem_cons.mp hr with rfl | hr
    · exact file_g
    · cases hr

theorem file_name : NameOk "inc/list.h" := by constructor <;> decide +kernel

/-- What C85 says about the header for `f` and `g`. -/
example : ∃ s, readFile [] (headerText {} "inc/list.h" "" ["struct_N"] ((srcFuns {} 0 fileParsed).map SrcFun.toFun)) = some s ∧
    s.decls.map (fun d => (read (String.ofList d.text)).map (fun x => String.ofList x.1)) =
      [some "cmp_struct_N", some "cmp_deref_ptr_struct_N", some "f_ExpectAndReturn", some "f_ExpectReturnAndOutput", some "g_ExpectAndReturn", some "g_ExpectReturnAndOutput"] ∧
    (s.decls[4]?).bind (fun d => read (String.ofList d.text)) = some ("g_ExpectAndReturn".toList, .fn (word "void")
      (.cons (.ptr (.named ["struct".toList, "N".toList]))
        (.cons (.ptr (.fn (.ptr (.named ["int".toList])) (.cons (.named ["long".toList]) .nil) false))
        (.cons (word "EasyMock_Matcher") .nil))) false) := by
  obtain ⟨s, h1, -, -, h2⟩ := C85_header_partial file_unambiguous file_named file_parsed file_text {} rfl rfl rfl "inc/list.h" file_name
    ["struct_N"] (by intro n hn; rw [List.mem_singleton] at hn; subst hn; decide +kernel) 0 [] (by decide +kernel)
  refine ⟨s, h1, ?_, ?_⟩
  · have e : ∀ l : List Decl, l.map (fun d => (read (String.ofList d.text)).map (fun x => String.ofList x.1)) =
        (l.map (fun d => read (String.ofList d.text))).map (fun r => r.map (fun x => String.ofList x.1)) := fun l => by
      rw [List.map_map]; rfl
    rw [e, h2]
    decide +kernel
  · have e : (s.decls[4]?).bind (fun d => read (String.ofList d.text)) = ((s.decls.map (fun d => read (String.ofList d.text)))[4]?).join := by
      rw [List.getElem?_map]; cases s.decls[4]? <;> rfl
    rw [e, h2]
    decide +kernel

/-- What C85 says about the source for `f` and `g`: `f` has a parameter written with a macro, `g` has none. -/
example : ∃ s, readFile [] (sourceText {} "inc/list.h" [exCmp] (srcFuns {} 0 fileParsed)) = some s ∧
    ((s.decls.map Decl.entry).filter Entry.external).map (fun e => (read (String.ofList e.text)).map (fun x => String.ofList x.1)) =
      [some "cmp_struct_s", some "cmp_deref_ptr_struct_s", some "f", some "f_ExpectAndReturn", some "f_ExpectReturnAndOutput", some "g", some "g_ExpectAndReturn", some "g_ExpectReturnAndOutput"] ∧
    ∃ items, ⟨[], "typedef struct  {} _g_data".toList, some (some items)⟩ ∈ s.decls.map Decl.entry ∧
    items.map readItem = [some ("n".toList, .ptr (.named ["struct".toList, "N".toList])), some ("_g_match_n".toList, word "EasyMock_Matcher"),
      some ("_g_returnValue".toList, .ptr (.fn (.ptr (.named ["int".toList])) (.cons (.named ["long".toList]) .nil) false)),
      some ("out_n".toList, .ptr (.named ["struct".toList, "N".toList]))] := by
  obtain ⟨s, h1, -, h2, h3⟩ := C85_source_partial file_unambiguous file_named file_parsed file_text {} rfl rfl "inc/list.h" file_name
    [exCmp] (by intro n hn; rw [List.mem_singleton] at hn; subst hn; exact exCmp_ok) 0 []
  refine ⟨s, h1, ?_, ?_⟩
  · have e : ∀ l : List Entry, l.map (fun e => (read (String.ofList e.text)).map (fun x => String.ofList x.1)) =
        (l.map (fun e => (e.scopes, read (String.ofList e.text)))).map (fun r => r.2.map (fun x => String.ofList x.1)) := fun l => by
      rw [List.map_map]; rfl
    rw [e, h2]
    decide +kernel
  · obtain ⟨ps, items, h4, h5, h6, h7, h8⟩ := h3 (fileRows[1]) (List.getElem_mem _) (by
      intro p hp
      rw [show fileRows[1].d = exampleG from rfl] at hp
      simp only [exampleG, List.mem_cons, List.not_mem_nil, or_false] at hp
      subst hp; rfl)
    refine ⟨items, h7, h8.trans ?_⟩
    match ps, h5 with
    | [p], _ =>
      have h6 : p.name = "n" := h6 ("n", p.name) (List.mem_cons_self) (show ("n" : String) ≠ "" by decide)
      obtain ⟨h4, -⟩ := List.cons.inj h4
      have h4 := Prod.mk.inj h4
      obtain ⟨n, out, sem⟩ := p
      obtain rfl : n = "n" := h6
      obtain rfl : out = _ := h4.1
      obtain rfl : sem = _ := h4.2
      decide +kernel

/-! ## An example for C79 -/

/-- `exampleTyped`, in a namespace. -/
def spacedTyped : FunDecl := { exampleTyped with ns := ["lib"], originFile := "inc/list.h" }

theorem spaced_text : Txt.FunText {} spacedTyped := by
  have hp : ∀ {s t n}, Spellable false t → s = "" → Ident n.toList → (output t ≠ .none → Txt.opens t = 0) → (reference t = false) →
      Txt.ParamText {} s t n := fun h1 h2 h3 h4 h5 => ⟨h1, Or.inl h2, Or.inr h3, h4, (fun h => by cases h), fun h => by rw [h5] at h; cases h⟩
  obtain ⟨⟨-, h1, -, -, h2, -, -, h3, -, -, h4, -⟩, h5⟩ := example_typed
  refine ⟨by decide +kernel, by decide +kernel, (fun h => by cases h), (fun p h => by cases h), ?_, h5, Or.inl rfl, (fun h => by cases h), ?_,
    by decide +kernel⟩
  · refine .cons (hp h1 rfl (by decide +kernel) (fun _ => rfl) rfl) (.cons (hp h2 rfl (by decide +kernel) (fun _ => rfl) rfl)
      (.cons (hp h3 rfl (by decide +kernel) (fun _ => rfl) rfl) (.cons ?_ .nil)))
    exact ⟨h4, Or.inl rfl, Or.inl rfl, (fun h => absurd (by decide +kernel) h), (fun h => by cases h), (fun h => by cases h)⟩
  · intro a h
    cases h

/-- C79 for a file with this function and the comparator for `struct s`. -/
example : ∃ hs ss, readFile [] (headerText {} "inc/list.h" "" ["struct_s"] ((srcFuns {} 0 [spacedTyped]).map SrcFun.toFun)) = some hs ∧
    readFile [] (sourceText {} "inc/list.h" [exCmp] (srcFuns {} 0 [spacedTyped])) = some ss ∧
    (hs.decls.map Decl.key).Sublist (((ss.decls.map Decl.entry).filter Entry.external).map (fun e => (e.scopes, e.text))) := by
  obtain ⟨hs, ss, h1, h2, -, D, defs, h3, h4, h5, -⟩ := C79_typed_partial {} "inc/list.h" "" [exCmp] 0 [spacedTyped] [] []
    ⟨[guardWord "inc/list.h"], [], []⟩ file_name (fun h => by cases h)
    (by intro n hn; rw [List.mem_singleton] at hn; subst hn; exact exCmp_ok)
    (by intro f hf; rw [List.mem_singleton] at hf; subst hf; exact spaced_text) rfl (fun _ => by decide +kernel) (by decide +kernel)
  exact ⟨hs, ss, h1, h2, by rw [h4, show hs.decls.map Decl.key = D from h3]; exact h5⟩

/-- `typedef struct Tab { struct S { int a : 3; } s; char b[4]; } T_t;`, a pointer to which is a parameter. -/
def viewedStep : StructCmp.Step :=
  .param (.ptr false (.tdef false "T_t" (.comp false .struct "Tab"
    (.field "" (.comp false .struct "S" (.bit "" (.ctype .int false false) "a" 3 .nil) true false .nil) "s" (-1)
    (.field "" (.ctype .char false false) "b" 4 .nil)) false false .nil)))

theorem viewed_names {P : Ty → Prop} : Txt.StepNames P viewedStep := by
  have hn : ∀ n : String, Word n → (n.toList ≠ [] ∧ ∀ c ∈ n.toList, identChar c = true) → Txt.CName n := fun n h1 h2 => ⟨h1, h2⟩
  refine ⟨hn _ (by decide +kernel) (by decide +kernel), Or.inl (hn _ (by decide +kernel) (by decide +kernel)), ?_, ?_, trivial⟩
  · exact ⟨hn _ (by decide +kernel) (by decide +kernel), Or.inl (hn _ (by decide +kernel) (by decide +kernel)),
      Or.inr ⟨hn _ (by decide +kernel) (by decide +kernel), trivial, trivial, rfl⟩, trivial⟩
  · exact ⟨hn _ (by decide +kernel) (by decide +kernel), trivial⟩

/-- The comparators `cmp_T_t` and `cmp_struct_S` of this parameter. -/
example : ∃ (hs ss : Seen),
    readFile [] (headerText {} "inc/list.h" "" ["T_t", "struct_S"] ((srcFuns {} 0 [spacedTyped]).map SrcFun.toFun)) = some hs ∧
    (∃ e ∈ ss.decls.map Decl.entry, e.text.take 15 = "int cmp_T_t(con".toList) ∧
    (∃ e ∈ ss.decls.map Decl.entry, e.text.take 20 = "int cmp_struct_S(con".toList) := by
  have hp : StructCmp.program ⟨fun t => (Types.attrs t).name.length, ["EasyMock_all_comparators"]⟩ [viewedStep] =
      [⟨"T_t", " struct", [⟨"s", false, .call "struct_S"⟩, ⟨"b", true, .neq "T_t" (some "c") none⟩], "T_t", .comp false .struct "Tab"
         (.field "" (.comp false .struct "S" (.bit "" (.ctype .int false false) "a" 3 .nil) true false .nil) "s" (-1)
         (.field "" (.ctype .char false false) "b" 4 .nil)) false false .nil⟩,
       ⟨"struct_S", " struct", [⟨"a", false, .neq "T_t::S" (some "d") (some "int")⟩], "struct S",
         .comp false .struct "S" (.bit "" (.ctype .int false false) "a" 3 .nil) true false .nil⟩] := by decide +kernel
  obtain ⟨hs, ss, h1, -, -, h2⟩ := C79_generated_partial {} "inc/list.h" "" ⟨fun t => (Types.attrs t).name.length, ["EasyMock_all_comparators"]⟩
    (fun _ _ => 0) [viewedStep] 0 [spacedTyped] [] [] ⟨[guardWord "inc/list.h"], [], []⟩ file_name (fun h => by cases h)
    (by intro n hn; rw [List.mem_singleton] at hn; subst hn; exact viewed_names)
    (by intro f hf; rw [List.mem_singleton] at hf; subst hf; exact spaced_text) rfl (fun _ => by decide +kernel) (by decide +kernel)
  rw [hp] at h1 h2
  obtain ⟨_, -, h3⟩ := (h2 _ List.mem_cons_self).1
  obtain ⟨_, -, h4⟩ := (h2 _ (List.mem_cons_of_mem _ List.mem_cons_self)).1
  refine ⟨hs, ss, h1, ⟨_, h3, ?_⟩, ⟨_, h4, ?_⟩⟩
  · have e : List.take 15 ("int cmp_" ++ "T_t" ++
        "(const void *currentCall_ptr, const void *expectedCall_ptr, const char *paramName, char *errorMessage )").toList =
        "int cmp_T_t(con".toList := by decide +kernel
    dsimp only
    exact e
  · have e : List.take 20 ("int cmp_" ++ "struct_S" ++
        "(const void *currentCall_ptr, const void *expectedCall_ptr, const char *paramName, char *errorMessage )").toList =
        "int cmp_struct_S(con".toList := by decide +kernel
    dsimp only
    exact e

end EasyMock.CFile
