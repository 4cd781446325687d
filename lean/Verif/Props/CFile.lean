import Verif.CFile.HeaderWhole

/-! # What a test sees of the generated headers: C78

The texts of the generated headers, read by the reader of `Verif.CFile.Spec`. -/

namespace EasyMock.CFile

open EasyMock.Gen

/-- C78 (partial: the names of the file, of the comparators and of the functions are what C and C++ allow, the texts of the
    signatures do not end the comments they are written into; see the refutations for operators).  Read where the name of its
    guard is not defined, the header declares the types it repeats, the comparators, and then for each function, in their order:
    the function itself (if the header does not include the mocked header and the function is no member) in its namespaces, the
    function `ExpectAndReturn` and, if the function has pointers to write through, `ExpectReturnAndOutput`: in C with the name of
    the function in front, inside `extern "C"` exactly if the reader is a C++ compiler; in C++ in the namespaces `EasyMock`, those
    of the function, its class and its name.  Nothing else is declared; the header includes the mocked header or has its types,
    and includes `stdarg.h` and `easyMock.h`. -/
theorem C78_header_partial (c : Config) (path types : String) (cmps : List String) (fs : List Fun) (m : List (List Char))
    (sT : Seen) (hok : HeaderOk c path types cmps fs) (hT : typesSeen c path m types = some sT)
    (hcpp : c.cpp = false → sT.macros.contains cplusplus = m.contains cplusplus) (hg : guardWord path ∉ m) :
    ∃ base : List Scope, base = (if c.cpp = false ∧ cplusplus ∈ m then [.externC] else []) ∧
    readFile m (headerText c path types cmps fs) = some ⟨sT.macros,
      (if c.genTypes then [] else [quoted (fileName path)]) ++ [stdarg, easyMockH] ++ sT.includes,
      sT.decls.map (fun d => ⟨base ++ d.scopes, d.text, d.body⟩) ++
      (cmps.map (fun n =>
        let args := "(const void *currentCall_ptr, const void *expectedCall_ptr, const char *paramName, char *errorMessage )"
        [⟨base, ("int cmp_" ++ n ++ args).toList, none⟩, ⟨base, ("int cmp_deref_ptr_" ++ n ++ args).toList, none⟩])).flatten ++
      (fs.map (fun f =>
        (if c.genTypes = true ∧ f.sec.cls = none then
          [⟨base ++ (if c.cpp then f.sec.ns.map (fun n => .space n.toList) else []), (mockSignature f.sec).toList, none⟩]
         else []) ++
        (if c.cpp then
          (let scopes := ("EasyMock" :: (f.sec.ns ++ f.sec.cls.toList ++ [f.sec.name])).map (fun n => Scope.space n.toList)
           ⟨scopes, ("void ExpectAndReturn(" ++ expectParams c f.sec ++ ")").toList, none⟩ ::
           (if f.sec.outs = [] then []
            else [⟨scopes, ("void ExpectReturnAndOutput(" ++ expectOutputParams c f.sec ++ ")").toList, none⟩]))
         else
          ⟨base, ("void " ++ f.sec.name ++ "_ExpectAndReturn(" ++ expectParams c f.sec ++ ")").toList, none⟩ ::
          (if f.sec.outs = [] then []
           else [⟨base, ("void " ++ f.sec.name ++ "_ExpectReturnAndOutput(" ++ expectOutputParams c f.sec ++ ")").toList,
             none⟩])))).flatten⟩ := by
  refine ⟨_, rfl, ?_⟩
  have hg' : m.contains (guardWord path) = false := by simpa using hg
  have hb : baseScopes c m = (if c.cpp = false ∧ cplusplus ∈ m then [.externC] else []) := by
    unfold baseScopes cScopes
    cases c.cpp <;> simp
  rw [readFile_of (header_runs hok hT hcpp hg'), hb]
  congr 1
  congr 2
  congr 1
  refine List.map_congr_left ?_
  intro f _
  unfold funDecls mockDecls expectDecls
  congr 1
  · cases c.genTypes <;> cases f.sec.cls <;> simp
  · have e1 : "void " ++ "ExpectAndReturn" ++ "(" = "void ExpectAndReturn(" := by decide +kernel
    have e2 : "void " ++ "ExpectReturnAndOutput" ++ "(" = "void ExpectReturnAndOutput(" := by decide +kernel
    have e3 : "_" ++ ("ExpectAndReturn" ++ "(") = "_ExpectAndReturn(" := by decide +kernel
    have e4 : "_" ++ ("ExpectReturnAndOutput" ++ "(") = "_ExpectReturnAndOutput(" := by decide +kernel
    have e0 : ∀ t : String, "" ++ t = t := fun t => String.empty_append
    unfold expectScopes expectName expectOutputName
    cases hc : c.cpp with
    | true =>
      simp only [if_true, e0, e1, e2, List.isEmpty_iff, Bool.true_eq_false, false_and, if_false, List.nil_append]
    | false =>
      simp only [Bool.false_eq_true, if_false, List.isEmpty_iff, true_and, List.append_nil]
      have r1 : ∀ p : String, "void " ++ (f.sec.name ++ "_" ++ "ExpectAndReturn") ++ "(" ++ p ++ ")" =
          "void " ++ f.sec.name ++ "_ExpectAndReturn(" ++ p ++ ")" := by
        intro p; rw [← e3]; simp only [sassoc]
      have r2 : ∀ p : String, "void " ++ (f.sec.name ++ "_" ++ "ExpectReturnAndOutput") ++ "(" ++ p ++ ")" =
          "void " ++ f.sec.name ++ "_ExpectReturnAndOutput(" ++ p ++ ")" := by
        intro p; rw [← e4]; simp only [sassoc]
      rw [r1, r2]

/-- C78.  A header which is included again declares nothing. -/
theorem C78_again_partial (c : Config) (path types : String) (cmps : List String) (fs : List Fun) (m m' : List (List Char))
    (sT : Seen) (hok : HeaderOk c path types cmps fs) (hT : typesSeen c path m' types = some sT) (hg : guardWord path ∈ m) :
    readFile m (headerText c path types cmps fs) = some ⟨m, [], []⟩ :=
  readFile_of (header_off hok hT (by simpa using hg))

/-! ## Several headers -/

/-- A generated header which includes the mocked header. -/
structure Header where
  cpp : Bool
  attrs : List String
  path : String
  cmps : List String
  funs : List Fun

/-- The options it was generated with. -/
def Header.config (h : Header) : Config := { cpp := h.cpp, attrs := h.attrs }

/-- Its text. -/
def Header.text (h : Header) : String := headerText h.config h.path "" h.cmps h.funs

/-- What can be in it. -/
def Header.Ok (h : Header) : Prop := HeaderOk h.config h.path "" h.cmps h.funs

/-- What it declares when it is read for the first time. -/
def Header.decls (m : List (List Char)) (h : Header) : List Decl :=
  (h.cmps.map (cmpDecls (baseScopes h.config m))).flatten ++ (h.funs.map (funDecls (baseScopes h.config m) h.config)).flatten

/-- The headers which count: of those with the same guard the first, if its guard is not defined. -/
def firsts : List (List Char) → List Header → List Header
  | _, [] => []
  | m, h :: hs => if guardWord h.path ∈ m then firsts m hs else h :: firsts (guardWord h.path :: m) hs

theorem header_seen (h : Header) (m : List (List Char)) (hok : h.Ok) (hg : guardWord h.path ∉ m) :
    readFile m h.text = some ⟨guardWord h.path :: m, [quoted (fileName h.path), stdarg, easyMockH], h.decls m⟩ := by
  have hT : typesSeen h.config h.path m "" = some ⟨guardWord h.path :: m, [], []⟩ := rfl
  have hcpp : (guardWord h.path :: m).contains cplusplus = m.contains cplusplus := by
    have : (cplusplus == guardWord h.path) = false := by
      rw [beq_eq_false_iff_ne]; exact (guardWord_cplusplus h.path).symm
    rw [List.contains_cons, this, Bool.false_or]
  have := readFile_of (header_runs hok hT (fun _ => hcpp) (by simpa using hg))
  simpa [Header.text, Header.config, Header.decls] using this

theorem base_guard (c : Config) (path : String) (m : List (List Char)) : baseScopes c (guardWord path :: m) = baseScopes c m := by
  have : (cplusplus == guardWord path) = false := by
    rw [beq_eq_false_iff_ne]; exact (guardWord_cplusplus path).symm
  unfold baseScopes cScopes
  rw [List.contains_cons, this, Bool.false_or]

/-- C78 (partial: as `C78_header_partial`; headers which include the mocked header).  A test which includes any sequence of
    generated headers sees the declarations of each header once: of headers with the same guard those of the first. -/
theorem C78_sequence_partial (hs : List Header) (m : List (List Char)) (hok : ∀ h ∈ hs, h.Ok) :
    readFiles m (hs.map Header.text) = some ⟨((firsts m hs).map (fun h => guardWord h.path)).reverse ++ m,
      ((firsts m hs).map (fun h => [quoted (fileName h.path), stdarg, easyMockH])).flatten,
      ((firsts m hs).map (Header.decls m)).flatten⟩ := by
  induction hs generalizing m with
  | nil => rfl
  | cons h hs ih =>
    have ih' := fun m => ih m (fun x hx => hok x (by simp [hx]))
    rw [List.map_cons]
    unfold readFiles
    by_cases hg : guardWord h.path ∈ m
    · have e : readFile m h.text = some ⟨m, [], []⟩ := C78_again_partial h.config h.path "" h.cmps h.funs m []
        ⟨[guardWord h.path], [], []⟩ (hok h (by simp)) rfl hg
      simp only [e, ih', firsts, hg, if_true, Option.map_some, List.nil_append]
    · have hd : ∀ (x : Header), x.decls (guardWord h.path :: m) = x.decls m := by
        intro x; unfold Header.decls; rw [base_guard]
      have hd' : Header.decls (guardWord h.path :: m) = Header.decls m := funext hd
      simp only [header_seen h m (hok h (by simp)) hg, ih', firsts, hg, if_false, Option.map_some, List.map_cons,
        List.flatten_cons, List.reverse_cons, hd', List.append_assoc, List.cons_append, List.nil_append]

theorem firsts_all : ∀ (hs : List Header) (m : List (List Char)), (hs.map (fun h => guardWord h.path)).Nodup →
    (∀ h ∈ hs, guardWord h.path ∉ m) → firsts m hs = hs
  | [], _, _, _ => rfl
  | h :: hs, m, hn, hm => by
    rw [List.map_cons, List.nodup_cons] at hn
    rw [firsts, if_neg (hm h (by simp)), firsts_all hs _ hn.2]
    intro x hx
    simp only [List.mem_cons, not_or]
    exact ⟨fun e => hn.1 (by rw [← e]; exact List.mem_map_of_mem hx), hm x (by simp [hx])⟩

/-- C78 (partial: as above).  Headers with different guards can be included in any order: each declares everything it has. -/
theorem C78_all_partial (hs : List Header) (m : List (List Char)) (hok : ∀ h ∈ hs, h.Ok)
    (hn : (hs.map (fun h => guardWord h.path)).Nodup) (hm : ∀ h ∈ hs, guardWord h.path ∉ m) :
    ∃ s, readFiles m (hs.map Header.text) = some s ∧ s.decls = (hs.map (Header.decls m)).flatten := by
  have := C78_sequence_partial hs m hok
  rw [firsts_all hs m hn hm] at this
  exact ⟨_, this, rfl⟩

/-! ## Examples -/

theorem noClose_of {k : List Char} (h : '/' ∉ k) : NoClose k := by
  have := NoClose.after (a := []) (fun a b e => by cases a <;> simp at e) h
  simpa using this

/-- `int f(int a, int *b)`, declared in a namespace. -/
def exFun (ns : List String) (name : String) : Fun :=
  ⟨{ name := name, cls := none, classConst := false, ns := ns, attrs := [], ret := "int", hasReturn := true,
     topExtra := .none, retExtra := .none, params := .cons "int" "a" .none .none (.cons "int *" "b" .plain .none .nil),
     variadic := false }, "inc/a.h"⟩

/-- What can be checked of a function by evaluation. -/
theorem funOk_of {c : Config} {f : Fun}
    (h : (Ident f.sec.name.toList ∧ '/' ∉ (mockSignature f.sec).toList ∧ '\\' ∉ (mockSignature f.sec).toList) ∧
      ('\n' ∉ f.origin.toList ∧ '\\' ∉ f.origin.toList) ∧ (∀ x ∈ (expectOutputParams c f.sec).toList, plainChar x = true) ∧
      (∀ n ∈ f.sec.ns, Ident n.toList) ∧ (∀ k ∈ f.sec.cls.toList, Ident k.toList))
    (hd : c.genTypes = true → f.sec.cls = none → DeclText (mockSignature f.sec).toList) : FunOk c f :=
  ⟨h.1.1, ⟨noClose_of h.1.2.1, h.1.2.2, h.2.1⟩, h.2.2.1, fun _ => ⟨h.2.2.2.1, by
    intro k hk
    exact h.2.2.2.2 k (by simpa using hk)⟩, hd⟩

instance (n : List Char) : Decidable (Ident n) := inferInstanceAs (Decidable (_ ∧ _))

theorem exFun_ok (cpp : Bool) : FunOk { cpp := cpp } (exFun ["n"] "f") ∧ FunOk { cpp := cpp } (exFun [] "g") := by
  refine ⟨funOk_of ?_ (by simp), funOk_of ?_ (by simp)⟩
  · cases cpp <;> decide +kernel
  · cases cpp <;> decide +kernel

/-- A header with one function. -/
def exHeader (cpp : Bool) (path : String) (f : Fun) : Header := ⟨cpp, [], path, ["struct_s"], [f]⟩

theorem exHeader_ok (cpp : Bool) (path : String) (f : Fun) (hp : ∀ x ∈ (fileName path).toList,
    x ≠ '"' ∧ x ≠ '\'' ∧ x ≠ '\\' ∧ x ≠ '\n') (hf : FunOk { cpp := cpp } f) : (exHeader cpp path f).Ok := by
  refine ⟨⟨hp⟩, fun h => (by cases h), ?_, ?_⟩
  · intro n hn
    simp only [exHeader, List.mem_singleton] at hn
    subst hn
    decide +kernel
  · intro g hg
    simp only [exHeader, List.mem_singleton] at hg
    subst hg
    exact hf

/-- Two headers for C++, included in a test: each Expect function is declared once, in its namespace. -/
example : ∃ s, readFiles [cplusplus] ([exHeader true "inc/a.h" (exFun ["n"] "f"), exHeader true "inc/b.h" (exFun [] "g"),
      exHeader true "inc/a.h" (exFun ["n"] "f")].map Header.text) = some s ∧
    s.decls.map (fun d => (d.scopes.length, String.ofList d.text)) =
      [(0, "int cmp_struct_s(const void *currentCall_ptr, const void *expectedCall_ptr, const char *paramName, char *errorMessage )"),
       (0, "int cmp_deref_ptr_struct_s(const void *currentCall_ptr, const void *expectedCall_ptr, const char *paramName, char *errorMessage )"),
       (3, "void ExpectAndReturn(int a, int * b, int to_return, ::EasyMock::EasyMock_Matcher_Cpp<int> easyMock_match_a, ::EasyMock::EasyMock_Matcher_Cpp<int *> easyMock_match_b)"),
       (3, "void ExpectReturnAndOutput(int a, int * b, int to_return, ::EasyMock::EasyMock_Matcher_Cpp<int> easyMock_match_a, ::EasyMock::EasyMock_Matcher_Cpp<int *> easyMock_match_b, int * out_b)"),
       (0, "int cmp_struct_s(const void *currentCall_ptr, const void *expectedCall_ptr, const char *paramName, char *errorMessage )"),
       (0, "int cmp_deref_ptr_struct_s(const void *currentCall_ptr, const void *expectedCall_ptr, const char *paramName, char *errorMessage )"),
       (2, "void ExpectAndReturn(int a, int * b, int to_return, ::EasyMock::EasyMock_Matcher_Cpp<int> easyMock_match_a, ::EasyMock::EasyMock_Matcher_Cpp<int *> easyMock_match_b)"),
       (2, "void ExpectReturnAndOutput(int a, int * b, int to_return, ::EasyMock::EasyMock_Matcher_Cpp<int> easyMock_match_a, ::EasyMock::EasyMock_Matcher_Cpp<int *> easyMock_match_b, int * out_b)")] := by
  have h1 := exHeader_ok true "inc/a.h" (exFun ["n"] "f") (by decide +kernel) (exFun_ok true).1
  have h2 := exHeader_ok true "inc/b.h" (exFun [] "g") (by decide +kernel) (exFun_ok true).2
  refine ⟨_, C78_sequence_partial _ _ ?_, by decide +kernel⟩
  intro h hh
  simp only [List.mem_cons, List.not_mem_nil, or_false] at hh
  rcases hh with rfl | rfl | rfl
  · exact h1
  · exact h2
  · exact h1

/-- The same for C, in a test written in C++. -/
example : ∃ s, readFiles [cplusplus] ([exHeader false "inc/a.h" (exFun [] "g")].map Header.text) = some s ∧
    s.decls.map (fun d => (d.scopes, String.ofList d.text)) =
      [([.externC], "int cmp_struct_s(const void *currentCall_ptr, const void *expectedCall_ptr, const char *paramName, char *errorMessage )"),
       ([.externC], "int cmp_deref_ptr_struct_s(const void *currentCall_ptr, const void *expectedCall_ptr, const char *paramName, char *errorMessage )"),
       ([.externC], "void g_ExpectAndReturn(int a, int * b, int to_return, EasyMock_Matcher easyMock_match_a, EasyMock_Matcher easyMock_match_b)"),
       ([.externC], "void g_ExpectReturnAndOutput(int a, int * b, int to_return, EasyMock_Matcher easyMock_match_a, EasyMock_Matcher easyMock_match_b, int * out_b)")] := by
  have h1 := exHeader_ok false "inc/a.h" (exFun [] "g") (by decide +kernel) (exFun_ok false).2
  obtain ⟨s, hs, hd⟩ := C78_all_partial [exHeader false "inc/a.h" (exFun [] "g")] [cplusplus]
    (by intro h hh; simp only [List.mem_singleton] at hh; subst hh; exact h1) (by simp) (by
      intro h hh
      simp only [List.mem_singleton] at hh ⊢
      exact guardWord_cplusplus _)
  exact ⟨s, hs, by rw [hd]; decide +kernel⟩

/-- The types of a header which does not include the mocked header. -/
def exTypes : String := "#ifndef struct_s_easymock\n#define struct_s_easymock\nstruct s\n{\nint a;\n};\n#endif\n"

theorem exDecl : DeclText (mockSignature (exFun ["n"] "f").sec).toList := by
  refine ⟨by decide +kernel, ⟨'i', (mockSignature (exFun ["n"] "f").sec).toList.tail, by decide +kernel, by decide, by decide,
    by decide⟩, by decide +kernel⟩

/-- With the types in the header, the function and the types are declared in it as well. -/
example : ∃ s, readFile [] (headerText { genTypes := true, cpp := true } "inc/a.h" exTypes [] [exFun ["n"] "f"]) = some s ∧
    s.includes = [stdarg, easyMockH] ∧
    (s.decls.map (fun d => (d.scopes, String.ofList d.text))).take 2 =
      [([], "struct s\n{\nint a;\n}"), ([.space "n".toList], "int f(int a, int * b)")] := by
  have hok : HeaderOk { genTypes := true, cpp := true } "inc/a.h" exTypes [] [exFun ["n"] "f"] := by
    refine ⟨⟨by decide +kernel⟩, fun _ => by decide +kernel, by simp, ?_⟩
    intro f hf
    simp only [List.mem_singleton] at hf
    subst hf
    exact funOk_of (by decide +kernel) (fun _ _ => exDecl)
  have hT : typesSeen { genTypes := true, cpp := true } "inc/a.h" [] exTypes =
      some ⟨["struct_s_easymock".toList, guardWord "inc/a.h"], [], [⟨[], "struct s\n{\nint a;\n}".toList, none⟩]⟩ := by
    decide +kernel
  obtain ⟨base, hb, e⟩ := C78_header_partial _ _ _ _ _ _ _ hok hT (by simp) (by simp)
  subst hb
  exact ⟨_, e, rfl, by decide +kernel⟩

/-! ## Refutations -/

/-- C78 is false for files whose names differ in `-` and `_`, or behind a dot in the middle: their headers have one guard, and of
    two of them included in a test the second declares nothing. -/
theorem C78_refuted_guard : ∃ a b : Header, a.Ok ∧ b.Ok ∧ fileName a.path ≠ fileName b.path ∧
    (∃ s, readFiles [] [b.text] = some s ∧ (b.decls []).all (fun d => s.decls.contains d) = true) ∧
    ∃ s, readFiles [] [a.text, b.text] = some s ∧
      s.decls.all (fun d => String.ofList d.text != "void g_ExpectAndReturn(int a, int * b, int to_return, EasyMock_Matcher easyMock_match_a, EasyMock_Matcher easyMock_match_b)") = true ∧
      (b.decls []).any (fun d => String.ofList d.text == "void g_ExpectAndReturn(int a, int * b, int to_return, EasyMock_Matcher easyMock_match_a, EasyMock_Matcher easyMock_match_b)") = true := by
  have h1 := exHeader_ok false "inc/a-b.h" (exFun ["n"] "f") (by decide +kernel) (exFun_ok false).1
  have h2 := exHeader_ok false "inc/a_b.h" (exFun [] "g") (by decide +kernel) (exFun_ok false).2
  have e1 := C78_sequence_partial [exHeader false "inc/a_b.h" (exFun [] "g")] [] (by
    intro h hh; simp only [List.mem_singleton] at hh; subst hh; exact h2)
  have e2 := C78_sequence_partial [exHeader false "inc/a-b.h" (exFun ["n"] "f"), exHeader false "inc/a_b.h" (exFun [] "g")] [] (by
    intro h hh
    simp only [List.mem_cons, List.not_mem_nil, or_false] at hh
    rcases hh with rfl | rfl
    · exact h1
    · exact h2)
  refine ⟨_, _, h1, h2, by decide +kernel, ⟨_, e1, by decide +kernel⟩, _, e2, by decide +kernel, by decide +kernel⟩

/-- The guards of files with a dot in the middle: what is behind it does not count. -/
theorem C78_refuted_dot : guardWord "inc/my.a.h" = guardWord "inc/my.b.h" ∧ guardWord "inc/my.a.h" = "_MY".toList := by
  decide +kernel

/-- C78 is false for C++ functions whose names are no identifiers: no header with one as its first function, such as
    `operator+`, is accepted. -/
theorem C78_refuted_operator (h : Header) (f : Fun) (fs : List Fun) (m : List (List Char)) (hfs : h.funs = f :: fs)
    (hok : Header.Ok { h with funs := [] }) (hc : h.cpp = true) (hg : guardWord h.path ∉ m)
    (hcom : CommentOk f) (hns : ∀ n ∈ f.sec.ns, Ident n.toList) (hcls : ∀ k ∈ f.sec.cls, Ident k.toList)
    (h0 : f.sec.name ≠ "") (hp : ∀ c ∈ f.sec.name.toList, plainChar c = true ∧ blank c = false)
    (hn : ∃ c ∈ f.sec.name.toList, identChar c = false) :
    readFile m h.text = none := by
  unfold Header.text
  rw [hfs]
  refine operator_fails (c := h.config) hok hc rfl (by simpa using hg) hcom hns hcls (by simpa using h0) (fun c hc => (hp c hc).1)
    (fun c hc => (hp c hc).2) ?_
  obtain ⟨c, hc, hi⟩ := hn
  rw [List.all_eq_false]
  exact ⟨c, hc, by simp [hi]⟩

example : readFile [cplusplus] (exHeader true "inc/a.h" (exFun ["n"] "operator+")).text = none := by
  refine C78_refuted_operator _ (exFun ["n"] "operator+") [] _ rfl ?_ rfl (by decide +kernel) ?_ (by decide +kernel)
    (by simp [exFun]) (by decide +kernel) (by decide +kernel) (by decide +kernel)
  · exact ⟨⟨by decide +kernel⟩, fun h => (by cases h), by
      intro n hn
      simp only [exHeader, List.mem_singleton] at hn
      subst hn
      decide +kernel, by simp⟩
  · exact ⟨noClose_of (by decide +kernel), by decide +kernel, by decide +kernel⟩

end EasyMock.CFile
