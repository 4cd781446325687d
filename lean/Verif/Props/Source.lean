import Verif.CFile.SourceItems
import Verif.Props.MockCode
import Verif.Props.CFile

/-! # What a compiler finds in the generated sources: C79

The texts of the generated sources, read by the readers of `Verif.CFile.Spec` and `Verif.CFile.Code`; the statements are those of
`Verif.CFile.Meaning`. -/

namespace EasyMock.CFile

open EasyMock.Gen

variable {c : Config} {f : SrcFun}

/-- C79 (partial: the names of the file, of the comparators and of the functions are identifiers, the texts of types and signatures
    have matching brackets and no quotes; in C++ results which are no function pointers).  The generated source is a text
    which a compiler accepts as a sequence of declarations.  It includes the framework and the generated header, defines no macro,
    and declares, in this order and nothing else: the functions of the file, the two functions of each comparator, for each mocked
    function its data structure, its static objects, the mock in its namespaces, the Expect functions in theirs and
    the function they call, and the registration of the file.  The bodies are the statements of the abstract syntax which
    `MockCode` interprets: the mock is the prelude and `mockBody`, the functions of the file are `resetAll`, `initAll`, `verifyAll`,
    `constructorBody` and `destructorBody`; a comparator makes its checks in the order of `StructCmp`. -/
theorem C79_source_partial (c : Config) (path : String) (cmps : List SrcCmp) (fs : List SrcFun) (m : List (List Char))
    (h : SourceOk c path cmps fs) :
    ∃ s, readFile m (sourceText c path cmps fs) = some s ∧ s.macros = m ∧
    s.includes = ["<easyMock_framework.h>", "<easyMock_glueStdlib.h>", "<MockedFunction.h>", "<cstring.h>"].map String.toList ++
      (if c.cpp then ["<sstream>".toList, "<tuple>".toList] else []) ++ ['"' :: ("easyMock_" ++ fileName path).toList ++ ['"']] ∧
    s.decls.map Decl.entry =
      frontEntries ++ (cmps.map cmpEntries).flatten ++ (fs.map (funEntries c)).flatten ++ backEntries path fs := by
  refine ⟨_, readFile_of (source_runs h), rfl, rfl, ?_⟩
  have h1 : ∀ l : List SrcCmp, (∀ k ∈ l, CmpOk k) → (l.map cmpDefs).flatten.map Decl.entry = (l.map cmpEntries).flatten := by
    intro l hl
    rw [List.map_flatten, List.map_map]
    congr 1
    exact List.map_congr_left (fun k hk => cmp_entries (hl k hk))
  have h2 : ∀ l : List SrcFun, (∀ f ∈ l, SrcOk c f) → (l.map (sourceDecls c)).flatten.map Decl.entry = (l.map (funEntries c)).flatten := by
    intro l hl
    rw [List.map_flatten, List.map_map]
    congr 1
    exact List.map_congr_left (fun k hk => source_entries (hl k hk))
  rw [List.map_append, List.map_append, List.map_append, h1 cmps h.cmps, h2 fs h.funs, front_entries, back_entries h.funs]

/-! ## The Expect functions -/

/-- Two lists whose elements correspond to each other, in order. -/
def Paired {α β : Type} (R : α → β → Prop) (a : List α) (b : List β) : Prop := a.length = b.length ∧ ∀ x ∈ a.zip b, R x.1 x.2

section
variable {α β γ : Type} {R : α → β → Prop}

theorem Paired.nil : Paired R [] [] := ⟨rfl, by simp⟩

theorem Paired.cons {x : α} {y : β} {a : List α} {b : List β} (h : R x y) (t : Paired R a b) : Paired R (x :: a) (y :: b) := by
  refine ⟨by simp [t.1], ?_⟩
  intro z hz
  rw [List.zip_cons_cons, List.mem_cons] at hz
  rcases hz with rfl | hz
  · exact h
  · exact t.2 z hz

theorem Paired.one {x : α} {y : β} (h : R x y) : Paired R [x] [y] := .cons h .nil

theorem Paired.append : ∀ {a a' : List α} {b b' : List β}, Paired R a b → Paired R a' b' → Paired R (a ++ a') (b ++ b')
  | [], _, [], _, _, h => h
  | [], _, _ :: _, _, h, _ => by have := h.1; simp at this
  | _ :: _, _, [], _, h, _ => by have := h.1; simp at this
  | x :: a, a', y :: b, b', h, h' => by
    refine Paired.cons (h.2 (x, y) (by simp)) (Paired.append (a := a) (b := b) ⟨by simpa using h.1, ?_⟩ h')
    intro z hz
    exact h.2 z (by rw [List.zip_cons_cons]; simp [hz])

theorem Paired.each (g : γ → List α) (k : γ → List β) : ∀ (l : List γ), (∀ x ∈ l, Paired R (g x) (k x)) →
    Paired R (l.map g).flatten (l.map k).flatten
  | [], _ => .nil
  | x :: l, h => by
    rw [List.map_cons, List.map_cons, List.flatten_cons, List.flatten_cons]
    exact (h x (by simp)).append (Paired.each g k l (fun y hy => h y (by simp [hy])))

theorem zip_fst {a : List α} {b : List β} (h : b.length = a.length) : (a.zip b).map Prod.fst = a := by
  rw [List.map_fst_zip]; omega

end

/-- C79.  The function which the Expect functions call gives each member of its object the value of the variable which
    `MockCode.commonBody` says, in its order, and hands the object and the name of the function to the framework. -/
theorem C79_common (f : SrcFun) (h : f.members.length = f.sec.params.entries.length) :
    ∃ L : List Item, commonItems f = [says (MockCode.dataType f.sec ++ " mockedData")] ++ L ++
      [says ("MockedFunction_addExpectedCall(&" ++ MockCode.mockedName f.sec ++ ", &mockedData)"),
       says ("easyMock_addCall(MockedFunction_getName(&" ++ MockCode.mockedName f.sec ++ "))")] ∧
    Paired Stores L (MockCode.commonBody f.sec) := by
  refine ⟨(if f.sec.cls.isSome then [assigns "instance" "instance"] else []) ++
    ((f.sec.params.entries.zip f.members).map (fun p =>
      [match p.2 with
       | .regular _ => copies p.1.2.1 p.1.2.1
       | .reference _ _ => assigns p.1.2.1 p.1.2.1,
       assigns (MockCode.matchMember f.sec p.1.2.1) ("easyMock_match_" ++ p.1.2.1)])).flatten ++
    (f.sec.outs.map (fun e =>
      (if e.2.2.1 == .sized then [assigns ("out_" ++ e.2.1 ++ "_size") ("out_" ++ e.2.1 ++ "_size")] else []) ++
      [copies ("out_" ++ e.2.1) ("out_" ++ e.2.1)])).flatten ++
    (if f.sec.hasReturn then [assigns (MockCode.retMember f.sec) "to_return"] else []), ?_, ?_⟩
  · have e1 : "MockedFunction_addExpectedCall(&mocked_" = "MockedFunction_addExpectedCall(&" ++ "mocked_" := by decide +kernel
    have e2 : "easyMock_addCall(MockedFunction_getName(&mocked_" = "easyMock_addCall(MockedFunction_getName(&" ++ "mocked_" := by
      decide +kernel
    have r1 : "MockedFunction_addExpectedCall(&" ++ MockCode.mockedName f.sec ++ ", &mockedData)" =
        "MockedFunction_addExpectedCall(&mocked_" ++ f.sec.name ++ ", &mockedData)" := by
      rw [e1]; unfold MockCode.mockedName; simp only [sassoc]
    have r2 : "easyMock_addCall(MockedFunction_getName(&" ++ MockCode.mockedName f.sec ++ "))" =
        "easyMock_addCall(MockedFunction_getName(&mocked_" ++ f.sec.name ++ "))" := by
      rw [e2]; unfold MockCode.mockedName; simp only [sassoc]
    rw [r1, r2]
    unfold commonItems
    simp only [List.append_assoc]
    rfl
  · unfold MockCode.commonBody
    refine Paired.append (Paired.append (Paired.append ?_ ?_) ?_) ?_
    · cases f.sec.cls.isSome with
      | false => exact .nil
      | true => exact .one (.inr rfl)
    · have e : f.sec.params.entries.map (fun e => [MockCode.Assign.mk e.2.1 e.2.1,
          ⟨MockCode.matchMember f.sec e.2.1, "easyMock_match_" ++ e.2.1⟩]) =
          (f.sec.params.entries.zip f.members).map (fun p => [MockCode.Assign.mk p.1.2.1 p.1.2.1,
          ⟨MockCode.matchMember f.sec p.1.2.1, "easyMock_match_" ++ p.1.2.1⟩]) := by
        conv => lhs; rw [← zip_fst h]
        rw [List.map_map]
        rfl
      rw [e]
      refine Paired.each _ _ _ ?_
      intro p _
      refine .cons ?_ (.one (.inr rfl))
      cases p.2 with
      | regular t => exact .inl rfl
      | reference a b => exact .inr rfl
    · refine Paired.each _ _ _ ?_
      intro e _
      refine Paired.append ?_ (.one (.inl rfl))
      cases e.2.2.1 == Gen.Out.sized with
      | false => exact .nil
      | true => exact .one (.inr rfl)
    · cases f.sec.hasReturn with
      | false => exact .nil
      | true => exact .one (.inr rfl)

/-- The declaration of a member: by itself, or as a reference behind the object which it refers to before it is assigned. -/
def Declares (g : List Item) (n : String) : Prop :=
  (∃ type behind, g = [declares type n behind]) ∨
  ∃ raw deref, g = [declares raw ("default_" ++ n) "",
    declares ("std::reference_wrapper<" ++ deref ++ ">") n ("{ default_" ++ n ++ " }")]

theorem member_declares (type : MemberType) (n behind : String) : Declares (memberItems type n behind) n := by
  cases type with
  | regular t => exact .inl ⟨_, _, rfl⟩
  | reference raw deref => exact .inr ⟨_, _, rfl⟩

/-- C79.  The data structure has the members which `MockCode` resolves names among, in the same order. -/
theorem C79_members (c : Config) (f : SrcFun) (h : f.members.length = f.sec.params.entries.length) :
    ∃ G : List (List Item), dataItems c f = G.flatten ∧ Paired Declares G (dataMembers f.sec) := by
  refine ⟨(f.sec.cls.toList.map (fun k => [declares ("::" ++ k ++ "*") "instance" ""])) ++
    ((f.sec.params.entries.zip f.members).map (fun p =>
      [memberItems p.2 p.1.2.1 p.1.2.2.2.text,
      [declares (if c.cpp then "::EasyMock::EasyMock_Matcher_Cpp<" ++ p.1.1 ++ ">" else "EasyMock_Matcher")
        (MockCode.matchMember f.sec p.1.2.1) ""]])).flatten ++
    (if f.sec.hasReturn then [memberItems f.result (MockCode.retMember f.sec) f.sec.retExtra.text] else []) ++
    (f.sec.outs.map (fun e => [declares e.1 ("out_" ++ e.2.1) ""] ::
      (if e.2.2.1 == .sized then [[declares "easyMock_size_t" ("out_" ++ e.2.1 ++ "_size") ""]] else []))).flatten, ?_, ?_⟩
  · unfold dataItems
    rw [List.flatten_append, List.flatten_append, List.flatten_append]
    congr 1
    · congr 1
      · congr 1
        · cases f.sec.cls <;> rfl
        · rw [List.flatten_flatten, List.map_map]
          rfl
      · cases f.sec.hasReturn <;> simp
    · rw [List.flatten_flatten, List.map_map]
      congr 1
      refine List.map_congr_left fun p _ => ?_
      show _ = List.flatten (_ :: _)
      rw [List.flatten_cons]
      cases p.2.2.1 == Gen.Out.sized <;> rfl
  · unfold dataMembers
    refine Paired.append (Paired.append (Paired.append ?_ ?_) ?_) ?_
    · unfold instanceNames
      cases f.sec.cls with
      | none => exact .nil
      | some k => exact .one (.inl ⟨_, _, rfl⟩)
    · have e : f.sec.params.entries.map (fun e => [e.2.1, dataPrefix f.sec ++ "_match_" ++ e.2.1]) =
          (f.sec.params.entries.zip f.members).map (fun p => [p.1.2.1, dataPrefix f.sec ++ "_match_" ++ p.1.2.1]) := by
        conv => lhs; rw [← zip_fst h]
        rw [List.map_map]
        rfl
      rw [e]
      refine Paired.each _ _ _ ?_
      intro p _
      exact .cons (member_declares _ _ _) (.one (.inl ⟨_, _, rfl⟩))
    · cases f.sec.hasReturn with
      | false => exact .nil
      | true => exact .one (member_declares _ _ _)
    · refine Paired.each _ _ _ ?_
      intro e _
      refine .cons (.inl ⟨_, _, rfl⟩) ?_
      cases e.2.2.1 == Gen.Out.sized with
      | false => exact .nil
      | true => exact .one (.inl ⟨_, _, rfl⟩)

/-- C79.  The body of an Expect function is one call of the common function with the arguments which `MockCode` interprets. -/
theorem C79_expect_partial (c : Config) (f : SrcFun) (hl : MockCode.ListsOk f.sec) :
    [says (commonName f.sec ++ "(" ++ expectCall f.sec ++ ")")] = [commonCall f.sec (MockCode.shortArgs f.sec)] ∧
    [says (commonName f.sec ++ "(" ++ expectOutputCall f.sec ++ ")")] = [commonCall f.sec (MockCode.longArgs f.sec)] := by
  obtain ⟨h1, h2⟩ := MockCode.C66_text c f.sec hl
  unfold commonCall
  rw [h1, h2]
  exact ⟨rfl, rfl⟩

/-! ## What other files can use -/

/-- A definition of a function which other files see: a body, no structure, and not `static`. -/
def Entry.external (e : Entry) : Bool := e.inside.isSome && !e.text.contains '{' && (words e.text).head? != some "static".toList

theorem static_external {S : List Scope} {t r : String} {i : Option (Option (List Item))} (e : t = "static " ++ r) :
    Entry.external ⟨S, t.toList, i⟩ = false := by
  have h : (words t.toList).head? = some "static".toList := by
    rw [e, ta, show "static ".toList = "static".toList ++ [' '] from by decide +kernel, List.append_assoc, List.singleton_append,
      words_first (by decide) (by decide +kernel) (by decide +kernel)]
  unfold Entry.external
  simp only [h, bne_self_eq_false, Bool.and_false]

theorem plain_external {S : List String} {t : String} {i : List Item} (hp : Plain t) (hw : (words t.toList).head? ≠ some "static".toList) :
    (defines S t i).external = true := by
  have h : '{' ∉ t.toList := fun hm => absurd (hp _ hm) (by decide)
  unfold Entry.external defines
  have h' : t.toList.contains '{' = false := by simpa using h
  have hw' : ((words t.toList).head? != some "static".toList) = true := by rw [bne_iff_ne]; exact hw
  rw [h', hw']
  rfl

theorem lead_external {S : List String} {pre rest : String} {w : List Char} {i : List Item} (hl : Lead pre w)
    (hw : w ≠ "static".toList) (hp : Plain rest) : (defines S (pre ++ rest) i).external = true := by
  refine plain_external (hl.plain.append hp) ?_
  obtain ⟨r, e⟩ := hl.text
  rw [ta, e, List.append_assoc, List.cons_append, words_first (by decide) hl.nonempty hl.word]
  simpa using hw

theorem cmp_external {k : SrcCmp} (h : CmpOk k) : (cmpEntries k).filter Entry.external = cmpEntries k := by
  have hp : Plain cmpParams := by unfold Plain; decide +kernel
  unfold cmpEntries
  rw [sassoc, sassoc]
  have h1 := fun i => lead_external (S := []) (i := i) lead_cmp (by decide +kernel) (h.name.plain.append hp)
  have h2 := fun i => lead_external (S := []) (i := i) lead_deref (by decide +kernel) (h.name.plain.append hp)
  rw [List.filter_cons_of_pos (h1 _), List.filter_cons_of_pos (h2 _), List.filter_nil]

theorem public_external (h : SrcOk c f) (hw : (words (mockSignature f.sec).toList).head? ≠ some "static".toList) :
    (publicEntries c f).filter Entry.external = publicEntries c f := by
  have hsub : Plain (expectParams c f.sec) := by
    intro ch hch
    apply h.base.params ch
    unfold expectOutputParams
    rw [String.toList_append, String.toList_append]
    simp [hch]
  have hpre : Plain (if c.cpp then "" else f.sec.name ++ "_") := by
    split
    · unfold Plain; decide +kernel
    · exact h.base.name.plain.append (by unfold Plain; decide +kernel)
  have hc : Plain ")" := by unfold Plain; decide +kernel
  have p1 := fun S i => plain_external (S := S) (i := i) h.sig.plain hw
  have p2 := fun S i => lead_external (S := S) (i := i) lead_void (by decide +kernel)
    (((hpre.append (show Plain "ExpectAndReturn(" by unfold Plain; decide +kernel)).append hsub).append hc)
  have p3 := fun S i => lead_external (S := S) (i := i) lead_void (by decide +kernel)
    (((hpre.append (show Plain "ExpectReturnAndOutput(" by unfold Plain; decide +kernel)).append h.base.params).append hc)
  rw [← sassoc, ← sassoc, ← sassoc] at p2 p3
  unfold publicEntries
  simp only
  rw [List.filter_append, List.filter_cons_of_pos (p1 _ _), List.filter_cons_of_pos (p2 _ _), List.filter_nil]
  congr 1
  split
  · rfl
  · rw [List.filter_cons_of_pos (p3 _ _), List.filter_nil]

theorem fun_external (h : SrcOk c f) (hw : (words (mockSignature f.sec).toList).head? ≠ some "static".toList) :
    (funEntries c f).filter Entry.external = publicEntries c f := by
  have e0 : "static void " = "static " ++ "void " := by decide +kernel
  have hd : (dataEntry c f).external = false := by
    unfold dataEntry Entry.external
    have : '{' ∈ (if c.cpp then "struct " ++ MockCode.dataType f.sec ++ " {}" else "typedef struct  {} " ++ MockCode.dataType f.sec).toList := by
      split
      · rw [ta]; exact List.mem_append_right _ (by decide +kernel)
      · rw [ta]; exact List.mem_append_left _ (by decide +kernel)
    simp only [Option.isSome_some, Bool.true_and, Bool.and_eq_false_iff, Bool.not_eq_false']
    left
    simpa using this
  have ho : (objectEntries c f).filter Entry.external = [] := by
    rw [List.filter_eq_nil_iff]
    intro e he
    have : e.inside = none := by
      unfold objectEntries names at he
      rcases List.mem_append.mp he with he | he
      · simp only [List.mem_cons, List.not_mem_nil, or_false] at he
        rcases he with rfl | rfl <;> rfl
      · split at he
        · simp only [List.mem_singleton] at he
          subst he; rfl
        · cases he
    unfold Entry.external
    simp [this]
  have hs : (defines [] ("static void " ++ commonName f.sec ++ "(" ++ expectOutputParams c f.sec ++ ")") (commonItems f)).external = false := by
    refine static_external (r := "void " ++ commonName f.sec ++ "(" ++ expectOutputParams c f.sec ++ ")") ?_
    rw [e0]; simp only [sassoc]
  unfold funEntries
  rw [List.cons_append, List.cons_append, List.filter_cons_of_neg (by rw [hd]; decide), List.filter_append, List.filter_append, ho,
    public_external h hw, List.filter_cons_of_neg (by rw [hs]; decide), List.filter_nil, List.nil_append, List.append_nil]

/-- The functions which the source defines for others: for each comparator two, for each function the mock and its Expect
    functions. -/
def offered (c : Config) (cmps : List SrcCmp) (fs : List SrcFun) : List (List Scope × String) :=
  (cmps.map (fun k => [([], "int cmp_" ++ k.cmp.name ++ cmpParams), ([], "int cmp_deref_ptr_" ++ k.cmp.name ++ cmpParams)])).flatten ++
  (fs.map (fun f =>
    [((if c.cpp then f.sec.ns else []).map (fun n => .space n.toList), mockSignature f.sec)] ++
    (let scopes := (if c.cpp then "EasyMock" :: (f.sec.ns ++ f.sec.cls.toList ++ [f.sec.name]) else []).map (fun n => Scope.space n.toList)
     let front := if c.cpp then "" else f.sec.name ++ "_"
     (scopes, "void " ++ front ++ "ExpectAndReturn(" ++ expectParams c f.sec ++ ")") ::
     (if f.sec.outs = [] then []
      else [(scopes, "void " ++ front ++ "ExpectReturnAndOutput(" ++ expectOutputParams c f.sec ++ ")")])))).flatten

/-- C79 (partial: as `C79_source_partial`; no signature starts with `static`).  Of what the source defines, other files can use
    exactly the comparators, the mocks and the Expect functions, each defined once: everything else is `static`. -/
theorem C79_offered_partial (c : Config) (path : String) (cmps : List SrcCmp) (fs : List SrcFun) (m : List (List Char))
    (h : SourceOk c path cmps fs) (hw : ∀ f ∈ fs, (words (mockSignature f.sec).toList).head? ≠ some "static".toList) :
    ∃ s, readFile m (sourceText c path cmps fs) = some s ∧
    ((s.decls.map Decl.entry).filter Entry.external).map (fun e => (e.scopes, e.text)) =
      (offered c cmps fs).map (fun x => (x.1, x.2.toList)) := by
  obtain ⟨s, hs, _, _, hd⟩ := C79_source_partial c path cmps fs m h
  refine ⟨s, hs, ?_⟩
  rw [hd]
  have h1 : ∀ l : List SrcCmp, (∀ k ∈ l, CmpOk k) → (l.map cmpEntries).flatten.filter Entry.external = (l.map cmpEntries).flatten := by
    intro l hl
    rw [List.filter_flatten, List.map_map]
    refine congrArg List.flatten ?_
    exact List.map_congr_left (fun k hk => cmp_external (hl k hk))
  have h2 : ∀ l : List SrcFun, (∀ f ∈ l, f ∈ fs) → (l.map (funEntries c)).flatten.filter Entry.external = (l.map (publicEntries c)).flatten := by
    intro l hl
    rw [List.filter_flatten, List.map_map]
    refine congrArg List.flatten ?_
    exact List.map_congr_left (fun k hk => fun_external (h.funs k (hl k hk)) (hw k (hl k hk)))
  have h3 : frontEntries.filter Entry.external = [] := by decide +kernel
  have h4 : (backEntries path fs).filter Entry.external = [] := by
    rw [List.filter_eq_nil_iff]
    intro e he
    unfold backEntries at he
    simp only [List.mem_cons, List.not_mem_nil, or_false] at he
    have key : ∀ (S : List Scope) (t : String) i, (∃ r, t = "static " ++ r) → ¬ Entry.external ⟨S, t.toList, i⟩ = true := by
      rintro S t i ⟨r, e⟩
      rw [static_external e]; decide
    rcases he with rfl | rfl | rfl | rfl | rfl | rfl
    · exact key _ _ _ ⟨"void easyMock_resetAllMocksInThisHeader()", by decide +kernel⟩
    · exact key _ _ _ ⟨"void easyMock_initAllMocksInThisHeader()", by decide +kernel⟩
    · exact key _ _ _ ⟨"easyMock_bool easyMock_verifyAllMocksInThisHeader()", by decide +kernel⟩
    · unfold names Entry.external
      simp
    · exact key _ _ _ ⟨"void __attribute__((constructor(102))) easyMock_register_this_header()", by decide +kernel⟩
    · exact key _ _ _ ⟨"void __attribute__((destructor)) easyMock_unregister_this_header()", by decide +kernel⟩
  rw [List.filter_append, List.filter_append, List.filter_append, h1 cmps h.cmps, h2 fs (fun _ hf => hf), h3, h4]
  unfold offered
  rw [List.nil_append, List.append_nil, List.map_append, List.map_append, List.map_flatten, List.map_flatten, List.map_flatten,
    List.map_flatten, List.map_map, List.map_map, List.map_map, List.map_map]
  refine congr (congrArg HAppend.hAppend rfl) (congrArg List.flatten ?_)
  refine List.map_congr_left fun f _ => ?_
  simp only [Function.comp_def, publicEntries]
  cases f.sec.outs <;> rfl

/-- The scopes without `extern "C"`, and the text. -/
def Decl.key (d : Decl) : List Scope × List Char := (d.scopes.filter (· != .externC), d.text)

theorem key_base {cond : Prop} [Decidable cond] (ns : List String) (t : List Char) (b : Option (List Char)) :
    Decl.key ⟨(if cond then [Scope.externC] else []) ++ ns.map (fun n => Scope.space n.toList), t, b⟩ =
      (ns.map (fun n => Scope.space n.toList), t) := by
  have h1 : (ns.map (fun n => Scope.space n.toList)).filter (· != .externC) = ns.map (fun n => Scope.space n.toList) := by
    rw [List.filter_eq_self]
    intro x hx
    obtain ⟨n, _, rfl⟩ := List.mem_map.mp hx
    rfl
  have h2 : (if cond then [Scope.externC] else []).filter (· != .externC) = [] := by split <;> rfl
  unfold Decl.key
  simp only [List.filter_append, h1, h2, List.nil_append]

theorem sublist_each {α γ : Type} (g k : γ → List α) : ∀ (l : List γ), (∀ x ∈ l, (g x).Sublist (k x)) →
    (l.map g).flatten.Sublist (l.map k).flatten
  | [], _ => List.Sublist.refl _
  | x :: l, h => by
    rw [List.map_cons, List.map_cons, List.flatten_cons, List.flatten_cons]
    exact (h x (by simp)).append (sublist_each g k l (fun y hy => h y (by simp [hy])))

/-- What the header and the source have for the Expect functions. -/
def expectKeys (c : Config) (s : FunSection) : List (List Scope × List Char) :=
  let scopes := (if c.cpp then "EasyMock" :: (s.ns ++ s.cls.toList ++ [s.name]) else []).map (fun n => Scope.space n.toList)
  let front := if c.cpp then "" else s.name ++ "_"
  (scopes, ("void " ++ front ++ "ExpectAndReturn(" ++ expectParams c s ++ ")").toList) ::
  (if s.outs = [] then [] else [(scopes, ("void " ++ front ++ "ExpectReturnAndOutput(" ++ expectOutputParams c s ++ ")").toList)])

/-- The mock with its namespaces. -/
def mockKey (c : Config) (s : FunSection) : List Scope × List Char :=
  ((if c.cpp then s.ns else []).map (fun n => .space n.toList), (mockSignature s).toList)

/-- The comparators. -/
def cmpKeys (k : SrcCmp) : List (List Scope × List Char) :=
  [([], ("int cmp_" ++ k.cmp.name ++ cmpParams).toList), ([], ("int cmp_deref_ptr_" ++ k.cmp.name ++ cmpParams).toList)]

theorem offered_keys (c : Config) (cmps : List SrcCmp) (fs : List SrcFun) : (offered c cmps fs).map (fun x => (x.1, x.2.toList)) =
    (cmps.map cmpKeys).flatten ++ (fs.map (fun f => mockKey c f.sec :: expectKeys c f.sec)).flatten := by
  unfold offered
  rw [List.map_append, List.map_flatten, List.map_flatten, List.map_map, List.map_map]
  refine congr (congrArg HAppend.hAppend rfl) (congrArg List.flatten ?_)
  refine List.map_congr_left fun f _ => ?_
  unfold expectKeys
  simp only [Function.comp_def]
  cases f.sec.outs <;> rfl

theorem header_keys (c : Config) (cond : Prop) [Decidable cond] (cmps : List SrcCmp) (fs : List SrcFun) :
    ((((cmps.map (fun k : SrcCmp => k.cmp.name)).map (fun n =>
        let args := "(const void *currentCall_ptr, const void *expectedCall_ptr, const char *paramName, char *errorMessage )"
        [(⟨if cond then [Scope.externC] else [], ("int cmp_" ++ n ++ args).toList, none⟩ : Decl),
          ⟨if cond then [Scope.externC] else [], ("int cmp_deref_ptr_" ++ n ++ args).toList, none⟩])).flatten ++
      ((fs.map SrcFun.toFun).map (fun f : Fun =>
        (if c.genTypes = true ∧ f.sec.cls = none then
          [⟨(if cond then [Scope.externC] else []) ++ (if c.cpp then f.sec.ns.map (fun n => .space n.toList) else []),
            (mockSignature f.sec).toList, none⟩]
         else []) ++
        (if c.cpp then
          (let scopes := ("EasyMock" :: (f.sec.ns ++ f.sec.cls.toList ++ [f.sec.name])).map (fun n => Scope.space n.toList)
           ⟨scopes, ("void ExpectAndReturn(" ++ expectParams c f.sec ++ ")").toList, none⟩ ::
           (if f.sec.outs = [] then []
            else [⟨scopes, ("void ExpectReturnAndOutput(" ++ expectOutputParams c f.sec ++ ")").toList, none⟩]))
         else
          ⟨if cond then [Scope.externC] else [], ("void " ++ f.sec.name ++ "_ExpectAndReturn(" ++ expectParams c f.sec ++ ")").toList, none⟩ ::
          (if f.sec.outs = [] then []
           else [⟨if cond then [Scope.externC] else [],
             ("void " ++ f.sec.name ++ "_ExpectReturnAndOutput(" ++ expectOutputParams c f.sec ++ ")").toList,
             none⟩])))).flatten) : List Decl).map Decl.key =
    (cmps.map cmpKeys).flatten ++
    (fs.map (fun f => (if c.genTypes = true ∧ f.sec.cls = none then [mockKey c f.sec] else []) ++ expectKeys c f.sec)).flatten := by
  have k0 := fun t b => key_base (cond := cond) [] t b
  have k1 := fun ns t b => key_base (cond := cond) ns t b
  have k2 := fun ns t b => key_base (cond := False) ns t b
  simp only [List.map_nil, List.append_nil, if_false, List.nil_append] at k0 k2
  rw [List.map_append, List.map_flatten, List.map_flatten, List.map_map, List.map_map, List.map_map, List.map_map]
  refine congr (congrArg HAppend.hAppend (congrArg List.flatten ?_)) (congrArg List.flatten ?_)
  · refine List.map_congr_left fun k _ => ?_
    simp only [Function.comp_def, List.map_cons, List.map_nil, k0]
    rfl
  · refine List.map_congr_left fun f _ => ?_
    simp only [Function.comp_def, List.map_append]
    refine congr (congrArg HAppend.hAppend ?_) ?_
    · split
      · simp only [List.map_cons, List.map_nil]
        unfold mockKey
        cases c.cpp with
        | true => simp only [if_true, k1]
        | false => simp only [Bool.false_eq_true, if_false, List.append_nil, k0, List.map_nil]
      · rfl
    · unfold expectKeys
      have e3 : "_" ++ "ExpectAndReturn(" = "_ExpectAndReturn(" := by decide +kernel
      have e4 : "_" ++ "ExpectReturnAndOutput(" = "_ExpectReturnAndOutput(" := by decide +kernel
      have e5 : "void " ++ "" ++ "ExpectAndReturn(" = "void ExpectAndReturn(" := by decide +kernel
      have e6 : "void " ++ "" ++ "ExpectReturnAndOutput(" = "void ExpectReturnAndOutput(" := by decide +kernel
      have r1 : ∀ p : String, "void " ++ (f.sec.name ++ "_") ++ "ExpectAndReturn(" ++ p ++ ")" =
          "void " ++ f.sec.name ++ "_ExpectAndReturn(" ++ p ++ ")" := by
        intro p; rw [← e3]; simp only [sassoc]
      have r2 : ∀ p : String, "void " ++ (f.sec.name ++ "_") ++ "ExpectReturnAndOutput(" ++ p ++ ")" =
          "void " ++ f.sec.name ++ "_ExpectReturnAndOutput(" ++ p ++ ")" := by
        intro p; rw [← e4]; simp only [sassoc]
      cases c.cpp with
      | true =>
        have k3 := fun t b => k2 ("EasyMock" :: (f.sec.ns ++ f.sec.cls.toList ++ [f.sec.name])) t b
        simp only [List.map_cons] at k3
        simp only [if_true, List.map_cons, k3, e5, e6]
        split
        · rfl
        · simp only [List.map_cons, List.map_nil, k3]
      | false =>
        simp only [Bool.false_eq_true, if_false, List.map_cons, List.map_nil, k0, r1, r2]
        split
        · rfl
        · simp only [List.map_cons, List.map_nil, k0]

/-- C79 (partial: as `C78_header_partial` and `C79_source_partial`).  What the header declares, the source defines: behind the types
    which the header repeats, its declarations are, in the same order, scopes and words, among the functions which the
    source offers; they are all of them when the header has the types and there are no member functions, and otherwise all but mocks
    (which the mocked header declares). -/
theorem C79_declared_partial (c : Config) (path types : String) (cmps : List SrcCmp) (fs : List SrcFun) (m m' : List (List Char))
    (sT : Seen) (hok : HeaderOk c path types (cmps.map (fun k => k.cmp.name)) (fs.map SrcFun.toFun))
    (hT : typesSeen c path m types = some sT)
    (hcpp : c.cpp = false → sT.macros.contains cplusplus = m.contains cplusplus) (hg : guardWord path ∉ m)
    (h : SourceOk c path cmps fs) (hw : ∀ f ∈ fs, (words (mockSignature f.sec).toList).head? ≠ some "static".toList) :
    ∃ hs ss D defs, readFile m (headerText c path types (cmps.map (fun k => k.cmp.name)) (fs.map SrcFun.toFun)) = some hs ∧
    readFile m' (sourceText c path cmps fs) = some ss ∧
    (hs.decls.drop sT.decls.length).map Decl.key = D ∧
    ((ss.decls.map Decl.entry).filter Entry.external).map (fun e => (e.scopes, e.text)) = defs ∧
    D.Sublist defs ∧
    (∀ x ∈ defs, x ∈ D ∨ ∃ f ∈ fs, (c.genTypes = false ∨ f.sec.cls ≠ none) ∧ x.2 = (mockSignature f.sec).toList) ∧
    (c.genTypes = true → (∀ f ∈ fs, f.sec.cls = none) → D = defs) := by
  obtain ⟨ss, hss, hds⟩ := C79_offered_partial c path cmps fs m' h hw
  obtain ⟨base, hb, hh⟩ := C78_header_partial c path types _ _ m sT hok hT hcpp hg
  subst hb
  rw [offered_keys] at hds
  refine ⟨_, ss, _, _, hh, hss, rfl, hds, ?_⟩
  have e : ∀ (x : List Decl) (a b : List Decl) (n : Nat), x.length = n → (x ++ a ++ b).drop n = a ++ b := by
    intro x a b n hn
    rw [List.append_assoc, ← hn, List.drop_left]
  rw [e _ _ _ _ (by rw [List.length_map]), header_keys c _]
  refine ⟨(List.Sublist.refl _).append (sublist_each _ _ _ ?_), ?_, ?_⟩
  · intro f _
    split
    · exact List.Sublist.refl _
    · exact List.sublist_cons_self _ _
  · intro x hx
    rcases List.mem_append.mp hx with hx | hx
    · exact .inl (List.mem_append_left _ hx)
    · obtain ⟨l, hl, hx⟩ := List.mem_flatten.mp hx
      obtain ⟨f, hf, rfl⟩ := List.mem_map.mp hl
      by_cases hc : c.genTypes = true ∧ f.sec.cls = none
      · refine .inl (List.mem_append_right _ (List.mem_flatten.mpr ⟨_, List.mem_map.mpr ⟨f, hf, rfl⟩, ?_⟩))
        simp only [hc, and_self, if_true]
        exact hx
      · rcases List.mem_cons.mp hx with rfl | hx
        · refine .inr ⟨f, hf, ?_, rfl⟩
          by_cases hg : c.genTypes = true
          · exact .inr (fun hn => hc ⟨hg, hn⟩)
          · exact .inl (by simpa using hg)
        · refine .inl (List.mem_append_right _ (List.mem_flatten.mpr ⟨_, List.mem_map.mpr ⟨f, hf, rfl⟩, ?_⟩))
          exact List.mem_append_right _ hx
  · intro hg hn
    refine congr (congrArg HAppend.hAppend rfl) (congrArg List.flatten ?_)
    refine List.map_congr_left fun f hf => ?_
    rw [if_pos ⟨hg, hn f hf⟩]
    rfl

/-! ## Examples -/

/-- What can be checked of a text by evaluation. -/
def typeCheck (t : List Char) : Bool :=
  t.all plainChar && nests 0 t && (match t with | x :: _ => identChar x || x == ':' | [] => false) &&
  (match t.getLast? with | some x => !blank x | none => true)

theorem typeText_of {t : List Char} (h : typeCheck t = true) : TypeText t := by
  unfold typeCheck at h
  simp only [Bool.and_eq_true, List.all_eq_true] at h
  refine ⟨h.1.1.1, h.1.1.2, ?_, ?_⟩
  · cases t with
    | nil => have := h.1.2; simp at this
    | cons x r => exact ⟨x, r, rfl, by have := h.1.2; simpa using this⟩
  · intro x hx
    have := h.2
    rw [hx] at this
    simpa using this

theorem nests_append : ∀ {a : List Char} {d : Nat}, nests d a = true → ∀ b, nests 0 b = true → nests d (a ++ b) = true
  | [], d, h, b, hb => by
    have : d = 0 := by simpa [nests] using h
    subst this; exact hb
  | x :: a, d, h, b, hb => by
    rw [List.cons_append]
    unfold nests at h ⊢
    split
    · rename_i hx; rw [if_pos hx] at h; exact nests_append h b hb
    · rename_i hx
      rw [if_neg hx] at h
      split
      · rename_i hy
        rw [if_pos hy] at h
        simp only [Bool.and_eq_true] at h ⊢
        exact ⟨h.1, nests_append h.2 b hb⟩
      · rename_i hy; rw [if_neg hy] at h; exact nests_append h b hb

/-- A type and a name make the declaration of a variable. -/
theorem TypeText.declares {t n : String} (h : TypeText t.toList) (hn : Ident n.toList) : TypeText (t ++ " " ++ n ++ "").toList := by
  rw [String.append_empty, ta, ta]
  have hs : " ".toList = [' '] := by decide +kernel
  rw [hs]
  obtain ⟨x, r, e, hx⟩ := h.first
  refine ⟨?_, ?_, ⟨x, r ++ [' '] ++ n.toList, by rw [e]; simp, hx⟩, ?_⟩
  · intro y hy
    rcases List.mem_append.mp hy with hy | hy
    · rcases List.mem_append.mp hy with hy | hy
      · exact h.plain y hy
      · rw [List.mem_singleton.mp hy]; decide
    · exact hn.type.plain y hy
  · rw [List.append_assoc]
    refine nests_append h.nests _ ?_
    show CFile.nests 0 (' ' :: n.toList) = true
    exact hn.type.nests
  · rw [List.getLast?_append, List.getLast?_eq_some_getLast hn.1, Option.some_or]
    intro z hz
    rw [← List.getLast?_eq_some_getLast hn.1] at hz
    exact hn.type.last z hz

/-- `int f(int a, int *b)`. -/
def exSrc (ns : List String) (name : String) : SrcFun := { exFun ns name with members := [.regular "int", .regular "int *"], result := .regular "int" }

theorem exSrc_ok (cpp : Bool) (ns : List String) (name : String) (hf : FunOk { cpp := cpp } (exFun ns name))
    (hs : TypeText (mockSignature (exFun ns name).sec).toList) (hw : (words (mockSignature (exFun ns name).sec).toList).head? ≠ some kwNamespace) :
    SrcOk { cpp := cpp } (exSrc ns name) where
  base := hf
  cls := by intro k hk; cases hk
  names := by
    intro e he
    have : e = ("int", "a", .none, .none) ∨ e = ("int *", "b", .plain, .none) := by
      simpa [exSrc, exFun, PList.entries] using he
    rcases this with rfl | rfl <;> decide +kernel
  members := rfl
  member := by
    intro p hp
    have : p = (("int", "a", .none, .none), .regular "int") ∨ p = (("int *", "b", .plain, .none), .regular "int *") := by
      simpa [exSrc, exFun, PList.entries, SrcFun.params] using hp
    rcases this with rfl | rfl
    · exact typeText_of (by decide +kernel)
    · exact typeText_of (by decide +kernel)
  matcher := by
    intro _ e he
    have : e = ("int", "a", .none, .none) ∨ e = ("int *", "b", .plain, .none) := by
      simpa [exSrc, exFun, PList.entries] using he
    rcases this with rfl | rfl <;> exact typeText_of (by decide +kernel)
  result := by
    intro _
    have h : TypeText "int".toList := typeText_of (by decide +kernel)
    exact ⟨fun n hn => h.declares hn, fun n hn => h.declares hn⟩
  plainResult := fun _ _ => ⟨rfl, (typeText_of (by decide +kernel) : TypeText "int".toList)⟩
  outs := by
    intro e he
    have : e = ("int *", "b", .plain, .none) := by
      have h : (exSrc ns name).sec.outs = [("int *", "b", .plain, .none)] := rfl
      rw [h] at he
      simpa using he
    subst this
    exact typeText_of (by decide +kernel)
  sig := hs
  word := hw

/-- `struct s { int a; int v[3]; struct t u; }` -/
def exCmp : SrcCmp :=
  ⟨⟨"struct_s", " struct", [⟨"a", false, .neq "s" (some "d") none⟩, ⟨"v", true, .neq "s" (some "d") none⟩, ⟨"u", false, .call "struct_t"⟩],
    "struct s", .comp false .struct "s" .nil false false .nil⟩, "struct s", ""⟩

theorem exCmp_ok : CmpOk exCmp where
  name := by decide +kernel
  article := ⟨by decide +kernel, by decide +kernel, ⟨' ', "struct".toList, by decide +kernel, by decide⟩, by decide +kernel⟩
  type := typeText_of (by decide +kernel)
  checks := by
    intro x hx
    have ht : TypeText "s".toList := typeText_of (by decide +kernel)
    have hd : TypeText "d".toList := typeText_of (by decide +kernel)
    simp only [exCmp, List.mem_cons, List.not_mem_nil, or_false] at hx
    rcases hx with rfl | rfl | rfl
    · refine ⟨by decide +kernel, ?_, by rintro _ ⟨⟩⟩
      rintro _ _ _ ⟨⟩
      exact ⟨Or.inr ht.inert, by intro t h; cases h; exact hd, by intro t h; cases h⟩
    · refine ⟨by decide +kernel, ?_, by rintro _ ⟨⟩⟩
      rintro _ _ _ ⟨⟩
      exact ⟨Or.inr ht.inert, by intro t h; cases h; exact hd, by intro t h; cases h⟩
    · refine ⟨by decide +kernel, by rintro _ _ _ ⟨⟩, ?_⟩
      rintro _ ⟨⟩
      decide +kernel
  inner := Or.inl rfl

theorem exSource_ok (cpp : Bool) : SourceOk { cpp := cpp } "inc/a.h" [exCmp] [exSrc ["n"] "f", exSrc [] "g"] where
  name := ⟨by decide +kernel⟩
  cmps := by intro k hk; simp only [List.mem_singleton] at hk; subst hk; exact exCmp_ok
  funs := by
    intro f hf
    simp only [List.mem_cons, List.not_mem_nil, or_false] at hf
    rcases hf with rfl | rfl
    · exact exSrc_ok cpp _ _ (exFun_ok cpp).1 (typeText_of (by decide +kernel)) (by decide +kernel)
    · exact exSrc_ok cpp _ _ (exFun_ok cpp).2 (typeText_of (by decide +kernel)) (by decide +kernel)

/-- The definitions which the source for C++ offers. -/
example : ∃ s, readFile [cplusplus] (sourceText { cpp := true } "inc/a.h" [exCmp] [exSrc ["n"] "f", exSrc [] "g"]) = some s ∧
    ((s.decls.map Decl.entry).filter Entry.external).map (fun e => (e.scopes.length, String.ofList (e.text.take 40))) =
      [(0, "int cmp_struct_s(const void *currentCall"), (0, "int cmp_deref_ptr_struct_s(const void *c"),
       (1, "int f(int a, int * b)"), (3, "void ExpectAndReturn(int a, int * b, int"), (3, "void ExpectReturnAndOutput(int a, int * "),
       (0, "int g(int a, int * b)"), (2, "void ExpectAndReturn(int a, int * b, int"), (2, "void ExpectReturnAndOutput(int a, int * ")] := by
  obtain ⟨s, hs, hd⟩ := C79_offered_partial _ _ _ _ [cplusplus] (exSource_ok true) (by
    intro f hf
    simp only [List.mem_cons, List.not_mem_nil, or_false] at hf
    rcases hf with rfl | rfl <;> decide +kernel)
  refine ⟨s, hs, ?_⟩
  have e : ((s.decls.map Decl.entry).filter Entry.external).map (fun e => (e.scopes.length, String.ofList (e.text.take 40))) =
      (((s.decls.map Decl.entry).filter Entry.external).map (fun e => (e.scopes, e.text))).map
        (fun x => (x.1.length, String.ofList (x.2.take 40))) := by
    rw [List.map_map]; rfl
  rw [e, hd]
  decide +kernel

/-- The statements of a comparator, and of the function which the Expect functions call. -/
example : (cmpItems exCmp).length = 24 ∧
    (commonItems (exSrc [] "g")).map (fun i => match i with | .stmt t => String.ofList t | _ => "") =
      ["_g_data mockedData",
       "easyMock_memcpy((void*)&mockedData.a, (void*)&a, sizeof(mockedData.a))", "mockedData._g_match_a = easyMock_match_a",
       "easyMock_memcpy((void*)&mockedData.b, (void*)&b, sizeof(mockedData.b))", "mockedData._g_match_b = easyMock_match_b",
       "easyMock_memcpy((void*)&mockedData.out_b, (void*)&out_b, sizeof(mockedData.out_b))",
       "mockedData._g_returnValue = to_return",
       "MockedFunction_addExpectedCall(&mocked_g, &mockedData)", "easyMock_addCall(MockedFunction_getName(&mocked_g))"] := by
  decide +kernel

/-- `int & C::h(int & a) const`, in a namespace. -/
def exMember : SrcFun :=
  { sec := { name := "h", cls := some "C", classConst := true, ns := ["n"], attrs := [], ret := "int &", hasReturn := true,
             topExtra := .none, retExtra := .none, params := .cons "int &" "a" .none .none .nil, variadic := false },
    origin := "inc/c.h", members := [.reference "int" "int"], result := .reference "int" "int" }

theorem exMember_ok : SrcOk { cpp := true } exMember where
  base := funOk_of (by decide +kernel) (by simp)
  cls := by decide +kernel
  names := by decide +kernel
  members := rfl
  member := by
    intro p hp
    have : p = (("int &", "a", .none, .none), .reference "int" "int") := by
      simpa [exMember, PList.entries, SrcFun.params] using hp
    subst this
    exact ⟨typeText_of (by decide +kernel), typeText_of (by decide +kernel)⟩
  matcher := by
    intro _ e he
    have : e = ("int &", "a", .none, .none) := by simpa [exMember, PList.entries] using he
    subst this
    exact typeText_of (by decide +kernel)
  result := fun _ => ⟨typeText_of (by decide +kernel), typeText_of (by decide +kernel), by decide +kernel⟩
  plainResult := fun _ _ => ⟨by decide +kernel, typeText_of (by decide +kernel)⟩
  outs := by
    intro e he
    have : exMember.sec.outs = [] := by decide +kernel
    rw [this] at he
    cases he
  sig := typeText_of (by decide +kernel)
  word := by decide +kernel

/-- The members of its data structure: references stand behind the objects which they refer to first. -/
example : ∃ s, readFile [cplusplus] (sourceText { cpp := true } "inc/c.h" [] [exMember]) = some s ∧
    ((s.decls.map Decl.entry).drop 3).head?.map (fun e => (String.ofList e.text, e.inside.map (fun i => i.map (fun l => l.map (fun x =>
      match x with | .stmt t => String.ofList t | _ => ""))))) =
    some ("struct C_h_data {}", some (some ["::C* instance", "int default_a", "std::reference_wrapper<int> a{ default_a }",
      "::EasyMock::EasyMock_Matcher_Cpp<int &> C_h_match_a", "int default_C_h_returnValue",
      "std::reference_wrapper<int> C_h_returnValue{ default_C_h_returnValue }"])) := by
  obtain ⟨s, hs, _, _, hd⟩ := C79_source_partial { cpp := true } "inc/c.h" [] [exMember] [cplusplus]
    ⟨⟨by decide +kernel⟩, by simp, by
      intro f hf
      simp only [List.mem_singleton] at hf
      subst hf
      exact exMember_ok⟩
  refine ⟨s, hs, ?_⟩
  rw [hd]
  decide +kernel

end EasyMock.CFile
