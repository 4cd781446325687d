import Verif.Props.Gen2

/-! # Properties of the names and signatures in the generated code

C59, C61-C65. -/

namespace EasyMock.Gen

open EasyMock.Types

/-! ## C59: parameters and the names of the generated code do not capture each other -/

/-- C59 (partial: no parameter has one of the listed names — see the refutations).  In the mock, `&p` in the
    check of parameter `p` and `p` where outputs are written denote the parameter. -/
theorem C59_parameter_partial (s : FunSection) (i : Nat) (hi : i < s.params.names.length)
    (hn : s.params.names.Nodup)
    (hr : s.params.names[i] ∉ ["errorMessage", "curCallVal", "printCallStack", "checkCallsOrder",
      "default_res", "currentDataCall", "currentCall"]) :
    resolveCheck s s.params.names[i] = .parameter i ∧ resolveMock s s.params.names[i] = .parameter i := by
  have h1 : s.params.names[i] ∉ checkLocals := by
    intro h; apply hr
    simp only [checkLocals, List.mem_cons, List.not_mem_nil, or_false] at h ⊢
    rcases h with h | h <;> simp [h]
  have h2 : s.params.names[i] ∉ mockLocals s := by
    intro h; apply hr
    unfold mockLocals at h
    cases hb : s.hasReturn <;> simp only [hb, if_true, Bool.false_eq_true, if_false, List.mem_cons, List.cons_append,
      List.nil_append, List.not_mem_nil, or_false] at h ⊢
    · rcases h with h | h | h | h <;> simp [h]
    · rcases h with h | h | h | h | h <;> simp [h]
  have h3 : s.params.names[i] ∈ s.params.names := List.getElem_mem hi
  have h4 := hn.idxOf_getElem i hi
  constructor
  · rw [resolveCheck, if_neg h1, if_neg h2, if_pos h3, h4]
  · rw [resolveMock, if_neg h2, if_pos h3, h4]

/-- C59 (partial: no parameter is called like something of the framework or like an object generated for the
    function).  The framework functions, the mock object and the default result used by the mock are those at
    file scope. -/
theorem C59_global_partial (s : FunSection) (x : String)
    (hx : x ∈ ["easyMock_bool", "easyMock_printCallStack", "easyMock_checkCallsOrder", "easyMock_memcpy",
      "MockedFunction_addActualCall", "MockedFunction_getName", "MockedFunction_getCurrentCallParam",
      "MockedFunction_getNbActualCall", "easyMock_addError", "EasyMock_Matcher", "easyMock_popCurrentCall",
      "cstring_compare_const_char", "cstring_c_str", "mocked_" ++ s.name, "_" ++ s.name ++ "_data",
      "dummyRes_" ++ s.name])
    (hp : x ∉ s.params.names) : resolveMock s x = .global := by
  have hl : x ∉ ["printCallStack", "checkCallsOrder", "default_res", "currentDataCall", "currentCall"] := by
    intro h
    have hd : ∀ y ∈ ["printCallStack", "checkCallsOrder", "default_res", "currentDataCall", "currentCall"],
        y.toList.take 2 ∈ [['p', 'r'], ['c', 'h'], ['d', 'e'], ['c', 'u']] := by decide +kernel
    have h2 := hd x h
    simp only [List.mem_cons, List.not_mem_nil, or_false] at hx
    rcases hx with rfl | rfl | rfl | rfl | rfl | rfl | rfl | rfl | rfl | rfl | rfl | rfl | rfl | rfl | rfl | rfl
    all_goals first
      | exact absurd h2 (by decide +kernel)
      | (simp [String.toList_append] at h2)
  have h2 : x ∉ mockLocals s := by
    intro h; apply hl
    unfold mockLocals at h
    cases hb : s.hasReturn <;> simp only [hb, if_true, Bool.false_eq_true, if_false, List.mem_cons, List.cons_append,
      List.nil_append, List.not_mem_nil, or_false] at h ⊢
    · rcases h with h | h | h | h <;> simp [h]
    · rcases h with h | h | h | h | h <;> simp [h]
  rw [resolveMock, if_neg h2, if_neg hp]

/-- C59.  These are all the names at file scope which the mock uses. -/
theorem C59_globals (s : FunSection) : ∀ x ∈ mockGlobals s,
    x ∈ ["easyMock_bool", "easyMock_printCallStack", "easyMock_checkCallsOrder", "easyMock_memcpy",
      "MockedFunction_addActualCall", "MockedFunction_getName", "MockedFunction_getCurrentCallParam",
      "MockedFunction_getNbActualCall", "easyMock_addError", "EasyMock_Matcher", "easyMock_popCurrentCall",
      "cstring_compare_const_char", "cstring_c_str", "mocked_" ++ s.name, "_" ++ s.name ++ "_data",
      "dummyRes_" ++ s.name] := by
  intro x h
  rcases List.mem_append.mp h with h | h
  · exact List.mem_append_left ["dummyRes_" ++ s.name] h
  · cases hb : s.hasReturn
    · simp [hb] at h
    · simp only [hb, if_true] at h
      rw [List.mem_singleton.mp h]
      simp only [List.mem_cons, true_or, or_true]

/-- A section with the parameters `int x` and one called `n`. -/
def exNamed (n : String) : FunSection :=
  { exSection with params := .cons "int" "x" .none .none (.cons "int" n .none .none .nil) }

example : resolveCheck (exNamed "y") "y" = .parameter 1 ∧ resolveMock (exNamed "y") "mocked_f" = .global ∧
    "y" ∉ ["errorMessage", "curCallVal", "printCallStack", "checkCallsOrder", "default_res", "currentDataCall",
      "currentCall"] := by decide +kernel

/-- C59 is false for parameters called `errorMessage` or `curCallVal`: the check of the parameter compares a
    local variable of the mock instead of the argument. -/
theorem C59_refuted_check :
    resolveCheck (exNamed "errorMessage") "errorMessage" = .innerLocal ∧
    resolveCheck (exNamed "curCallVal") "curCallVal" = .innerLocal := by decide +kernel

/-- C59 is false for parameters called like a local variable of the mock (in C the redeclaration is an error),
    and for a parameter called like the mock object, which hides it. -/
theorem C59_refuted_local :
    resolveCheck (exNamed "currentCall") "currentCall" = .outerLocal ∧
    resolveMock (exNamed "mocked_f") "mocked_f" = .parameter 1 := by decide +kernel

/-! ## C65: the value to return -/

/-- The function returns nothing, in C's terms. -/
def cVoid (t : Ty) : Bool :=
  match strip t with
  | .ctype .void _ _ => true
  | _ => false

/-- C65 (partial: `void` is not hidden behind a typedef or qualified — see the refutation).  The Expect functions
    have a parameter for the value to return exactly when the function returns a value. -/
theorem C65_return_partial (c : Config) (k : Nat) (f : FunDecl) (h : (∀ i n u, f.ret ≠ .tdef i n u))
    (h' : ∀ i u, f.ret ≠ .const i u) : (funSection c k f).1.hasReturn = !cVoid f.ret := by
  simp only [funSection]
  congr 1
  cases hr : f.ret with
  | tdef i n u => exact absurd hr (h i n u)
  | const i u => exact absurd hr (h' i u)
  | ctype ct n i => cases ct <;> rfl
  | comp i kw n fs e w ms => cases kw <;> rfl
  | ptr i u => simp [returnsVoid, attrs, isVoid, cVoid, strip]
  | ref i u => simp [returnsVoid, attrs, isVoid, cVoid, strip]
  | enum i n vs => simp [returnsVoid, attrs, isVoid, cVoid, strip]
  | incomplete f' kw n => simp [returnsVoid, isVoid, cVoid, strip]
  | fn i info s r ps => simp [returnsVoid, attrs, isVoid, cVoid, strip]

/-- C65 is false for functions declared to return a typedef of `void`, and `const void`: a parameter of type `void`
    is generated. -/
theorem C65_refuted :
    cVoid (.tdef false "V" (.ctype .void false false)) = true ∧
    returnsVoid (.tdef false "V" (.ctype .void false false)) = false ∧
    returnsVoid (.const false (.ctype .void false false)) = false := by decide +kernel

example : returnsVoid (.ctype .void false false) = true ∧ returnsVoid exInt = false ∧
    returnsVoid (.ptr false (.ctype .void false false)) = false := by decide +kernel

/-! ## C63: attributes -/

/-- C63.  Exactly the attributes of the function whose name was requested are written, in their order. -/
theorem C63_attributes (c : Config) (k : Nat) (f : FunDecl) :
    (funSection c k f).1.attrs.Sublist f.info.attributes ∧
    (∀ a, a ∈ (funSection c k f).1.attrs ↔ a ∈ f.info.attributes ∧ a.1 ∈ c.attrs) ∧
    (∀ a, (funSection c k f).1.attrs.count a = if a.1 ∈ c.attrs then f.info.attributes.count a else 0) := by
  simp only [funSection, keptAttrs]
  refine ⟨List.filter_sublist, ?_, ?_⟩
  · intro a; simp
  · intro a
    by_cases h : a.1 ∈ c.attrs
    · rw [if_pos h, List.count_filter (by simpa using h)]
    · rw [if_neg h, List.count_eq_zero]
      simp [h]

/-- C63.  The definition of the mock: attributes, return type, class, name, parameters, `const`. -/
theorem C63_signature (s : FunSection) :
    mockSignature s =
    " ".intercalate (s.attrs.map (fun a => "__attribute__((" ++ a.1 ++
      (if a.2 = [] then "" else "(" ++ ", ".intercalate a.2 ++ ")") ++ ")) ")) ++
    s.ret ++ " " ++ (match s.cls with | some c => c ++ "::" | none => "") ++ s.name ++
    "(" ++ ", ".intercalate (paramDecls' s ++ (if s.variadic then ["..."] else [])) ++ ")" ++
    s.topExtra.text ++ (if s.classConst then " const" else "") := by
  unfold mockSignature
  rw [C49_mock, expandSep_eq]
  have : attrText = (fun a => "__attribute__((" ++ a.1 ++
      (if a.2 = [] then "" else "(" ++ ", ".intercalate a.2 ++ ")") ++ ")) ") := by
    funext a
    unfold attrText
    rw [expandSep_eq]
    cases h : a.2 <;> simp
  rw [this]
  simp only [String.append_assoc]
  cases s.cls <;> rfl

/-- The text may be put between the quotes of a C string literal. -/
def LiteralSafe (x : String) : Prop := ∀ c ∈ x.toList, c ≠ '"' ∧ c ≠ '\\' ∧ c ≠ '\n'

theorem LiteralSafe.append {x y : String} (hx : LiteralSafe x) (hy : LiteralSafe y) : LiteralSafe (x ++ y) := by
  intro c hc
  rw [String.toList_append, List.mem_append] at hc
  exact hc.elim (hx c) (hy c)

theorem LiteralSafe.intercalate {sep : String} (hs : LiteralSafe sep) : ∀ {l : List String},
    (∀ x ∈ l, LiteralSafe x) → LiteralSafe (sep.intercalate l)
  | [], _ => by simp [LiteralSafe]
  | [x], h => by simpa using h x (by simp)
  | x :: y :: l, h => by
    rw [String.intercalate_cons_cons]
    exact ((h x (by simp)).append hs).append
      (LiteralSafe.intercalate hs (fun z hz => h z (List.mem_cons_of_mem _ hz)))

/-- C63 (partial: no attribute with a string argument — see the refutation).  The signature, which is written
    into a string literal to name the mock (GEN:763), leaves the literal intact. -/
theorem C63_literal_partial (s : FunSection)
    (ha : ∀ a ∈ s.attrs, LiteralSafe a.1 ∧ ∀ p ∈ a.2, LiteralSafe p) (hr : LiteralSafe s.ret)
    (hc : ∀ c, s.cls = some c → LiteralSafe c) (hn : LiteralSafe s.name)
    (hp : ∀ e ∈ s.params.entries, LiteralSafe e.1 ∧ LiteralSafe e.2.1 ∧ LiteralSafe e.2.2.2.text)
    (ht : LiteralSafe s.topExtra.text) : LiteralSafe (mockSignature s) := by
  rw [C63_signature]
  have lit : ∀ l ∈ ["", " ", "__attribute__((", "(", ")", ")) ", ", ", "::", "...", " const"], LiteralSafe l := by
    intro l hl
    have : ∀ l ∈ ["", " ", "__attribute__((", "(", ")", ")) ", ", ", "::", "...", " const"],
      ∀ c ∈ l.toList, c ≠ '"' ∧ c ≠ '\\' ∧ c ≠ '\n' := by decide +kernel
    exact this l hl
  have hcls : LiteralSafe (match s.cls with | some c => c ++ "::" | none => "") := by
    cases h : s.cls with
    | none => exact lit "" (by simp)
    | some c => exact (hc c h).append (lit "::" (by simp))
  have hat : LiteralSafe (" ".intercalate (s.attrs.map (fun a => "__attribute__((" ++ a.1 ++
      (if a.2 = [] then "" else "(" ++ ", ".intercalate a.2 ++ ")") ++ ")) "))) := by
    refine LiteralSafe.intercalate (lit " " (by simp)) ?_
    intro x hx
    obtain ⟨a, h1, rfl⟩ := List.mem_map.mp hx
    refine (((lit _ (by simp)).append (ha a h1).1).append ?_).append (lit _ (by simp))
    split
    · exact lit "" (by simp)
    · exact ((lit _ (by simp)).append (LiteralSafe.intercalate (lit _ (by simp)) (ha a h1).2)).append
        (lit _ (by simp))
  have hps : LiteralSafe (", ".intercalate (paramDecls' s ++ (if s.variadic then ["..."] else []))) := by
    refine LiteralSafe.intercalate (lit _ (by simp)) ?_
    intro x hx
    rcases List.mem_append.mp hx with hx | hx
    · obtain ⟨e, h1, rfl⟩ := List.mem_map.mp hx
      exact (((hp e h1).1.append (lit _ (by simp))).append (hp e h1).2.1).append (hp e h1).2.2
    · cases h : s.variadic
      · simp [h] at hx
      · simp only [h, if_true, List.mem_singleton] at hx
        rw [hx]; exact lit _ (by simp)
  have hcc : LiteralSafe (if s.classConst then " const" else "") := by
    split
    · exact lit _ (by simp)
    · exact lit _ (by simp)
  exact ((((((((hat.append hr).append (lit _ (by simp))).append hcls).append hn).append
    (lit _ (by simp))).append hps).append (lit _ (by simp))).append ht).append hcc

/-- C63 is false for attributes with a string argument, such as `section("s")`: the signature contains quotes. -/
theorem C63_refuted_literal :
    '"' ∈ (mockSignature { exSection with attrs := [("section", ["\"s\""])] }).toList := by decide +kernel

example : mockSignature { exSection with attrs := [("format", ["printf", "1", "2"]), ("cold", [])] } =
    "__attribute__((format(printf, 1, 2)))  __attribute__((cold)) int f(int __easymock_param0, char * a, void * p)" := by
  decide +kernel

/-! ## C64: parameters which point to functions -/

/-- The function type is redeclared by the declarator: no further function pointers in the result. -/
def PlainResult (r : Ty) : Prop := ∀ k, extraOf false k r = (.none, k)

/-- C64 (partial: the pointed function is not variadic and its result is no function pointer; the parameter's type
    is no typedef — see the refutations).  A parameter which points to a function is declared with the return
    type, the parameter types and the parameters' names of that function. -/
theorem C64_pointer_partial (k : Nat) (i j : Bool) (info : FnInfo) (rs : String) (r : Ty) (ps : Params) (n : String)
    (hn : n ≠ "") (hr : PlainResult r) :
    (paramSection k (.cons "" (.ptr i (.fn j info rs r ps)) n .nil)).1.text =
    declPrefix r ++ "(*" ++ " " ++ n ++ ")(" ++
    ", ".intercalate ((paramSection k ps).1.entries.map (fun e => e.1 ++ " " ++ e.2.1 ++ e.2.2.2.text)) ++ ")" := by
  have hn' : n.isEmpty = false := by simpa [String.isEmpty_iff] using hn
  rw [paramSection_cons]
  have hx : extraOf false k (.ptr i (.fn j info rs r ps)) =
      (.decl (paramSection k ps).1 .none, (paramSection k ps).2) := by
    have h1 := hr (paramSection k ps).2
    rw [extraOf, extraOf]
    rw [h1]
  have hd : declareString "" (.ptr i (.fn j info rs r ps)) = declPrefix r ++ "(*" := by
    have : declareString "" (.ptr i (.fn j info rs r ps)) = declPrefix r ++ "(" ++ "*" := by
      simp [declareString, declPrefix]
    rw [this, String.append_assoc]
    rfl
  simp only [hx, hn', Bool.false_eq_true, if_false, hd, paramSection, PList.text, XDecl.text]
  rw [PList.text_eq (paramSection k ps).1, show paramText = (fun e => e.1 ++ " " ++ e.2.1 ++ e.2.2.2.text) from rfl]
  simp only [String.append_assoc, String.append_empty]

/-- C64.  A parameter declared through a typedef of a function pointer is declared by the name of the typedef. -/
theorem C64_typedef (k : Nat) (i : Bool) (name : String) (t : Ty) (n : String) (hn : n ≠ "") :
    (paramSection k (.cons "" (.tdef i name t) n .nil)).1.text = name ++ " " ++ n := by
  have hn' : n.isEmpty = false := by simpa [String.isEmpty_iff] using hn
  rw [paramSection_cons]
  simp [hn', declareString, declPrefix, extraOf, paramSection, PList.text, XDecl.text]

/-- C64 is false for pointers to variadic functions: they are declared like pointers to functions which are not
    variadic. -/
theorem C64_refuted_variadic (k : Nat) (s n : String) (i j : Bool) (info : FnInfo) (rs : String) (r : Ty)
    (ps : Params) : (paramSection k (.cons s (.ptr i (.fn j { info with variadic := true } rs r ps)) n .nil)).1.text =
    (paramSection k (.cons s (.ptr i (.fn j { info with variadic := false } rs r ps)) n .nil)).1.text := by
  have h1 : extraOf false k (.ptr i (.fn j { info with variadic := true } rs r ps)) =
      extraOf false k (.ptr i (.fn j { info with variadic := false } rs r ps)) := by
    rw [extraOf, extraOf, extraOf, extraOf]
  have h2 : declareString s (.ptr i (.fn j { info with variadic := true } rs r ps)) =
      declareString s (.ptr i (.fn j { info with variadic := false } rs r ps)) := by
    unfold declareString
    rw [declPrefix, declPrefix, declPrefix, declPrefix]
  rw [paramSection_cons, paramSection_cons, h1, h2]
  have h3 : ∀ a b o x r, PList.text (.cons a b .none x r) = PList.text (.cons a b o x r) := by
    intro a b o x r
    cases r <;> rw [PList.text, PList.text]
  rw [← h3, ← h3 _ _ (output _)]

/-- C64 is false for pointers to a typedef of a function pointer (`cb_t *p`): the parameters of the function are
    written after the name although the declaration does not open a parenthesis. -/
theorem C64_refuted_pointer_to_typedef :
    (paramSection 0 (.cons "" (.ptr false (.tdef false "cb_t" (.ptr false (.fn false { name := "" } "" exInt
      (.cons "" exInt "" .nil))))) "p" .nil)).1.text = "cb_t* p)(int __easymock_param0)" := by decide +kernel

example : (paramSection 0 (.cons "" (.ptr false (.fn false { name := "" } "" exInt
    (.cons "" exInt "" (.cons "" (.ctype .char false false) "c" .nil)))) "cb" .nil)).1.text =
    "int(* cb)(int __easymock_param0, char c)" ∧ PlainResult exInt :=
  ⟨by decide +kernel, fun _ => rfl⟩

/-! ## C62: the names of the parameters of the Expect functions and of the stored data -/

/-- The name of an output argument and of its size. -/
def outNames (s : FunSection) : List String :=
  s.outs.flatMap (fun e => ("out_" ++ e.2.1) :: (if e.2.2.1 == .sized then ["out_" ++ e.2.1 ++ "_size"] else []))

theorem outs_names (s : FunSection) : (s.outs.map (fun e => e.2.1)).Sublist s.params.names :=
  List.filter_sublist.map _

theorem append_left_inj (a : String) {x y : String} (h : a ++ x = a ++ y) : x = y := by
  have h1 := congrArg String.toList h
  simp only [String.toList_append] at h1
  exact String.toList_inj.mp (List.append_cancel_left h1)

theorem append_right_inj (a : String) {x y : String} (h : x ++ a = y ++ a) : x = y := by
  have h1 := congrArg String.toList h
  simp only [String.toList_append] at h1
  exact String.toList_inj.mp (List.append_cancel_right h1)

theorem mem_outNames {s : FunSection} {x : String} (h : x ∈ outNames s) :
    ∃ n ∈ s.params.names, x = "out_" ++ n ∨ x = "out_" ++ n ++ "_size" := by
  obtain ⟨e, h1, h2⟩ := List.mem_flatMap.mp h
  have hn : e.2.1 ∈ s.params.names := (outs_names s).subset (List.mem_map.mpr ⟨e, h1, rfl⟩)
  refine ⟨e.2.1, hn, ?_⟩
  cases hs : e.2.2.1 == .sized
  · simp [hs] at h2; exact Or.inl h2
  · simp [hs] at h2; exact h2

theorem outNames_nodup (s : FunSection) (hn : s.params.names.Nodup)
    (hz : ∀ a ∈ s.params.names, ∀ b ∈ s.params.names, b ≠ a ++ "_size") : (outNames s).Nodup := by
  have key : ∀ l : List (String × String × Out × XDecl), (l.map (fun e => e.2.1)).Sublist s.params.names →
      (l.flatMap (fun e => ("out_" ++ e.2.1) ::
        (if e.2.2.1 == .sized then ["out_" ++ e.2.1 ++ "_size"] else []))).Nodup ∧
      ∀ x ∈ l.flatMap (fun e => ("out_" ++ e.2.1) ::
        (if e.2.2.1 == .sized then ["out_" ++ e.2.1 ++ "_size"] else [])),
        ∃ n ∈ l.map (fun e => e.2.1), x = "out_" ++ n ∨ x = "out_" ++ n ++ "_size" := by
    intro l
    induction l with
    | nil => intro _; simp
    | cons e l ih =>
      intro hs
      rw [List.map_cons] at hs
      have hs' : (l.map (fun e => e.2.1)).Sublist s.params.names :=
        (List.sublist_cons_self _ _).trans hs
      obtain ⟨ih1, ih2⟩ := ih hs'
      have hnd : (e.2.1 :: l.map (fun e => e.2.1)).Nodup := hs.nodup hn
      obtain ⟨hne, _⟩ := List.nodup_cons.mp hnd
      have he : e.2.1 ∈ s.params.names := hs.subset List.mem_cons_self
      have hone : ∀ x, x ∈ (("out_" ++ e.2.1) ::
          (if e.2.2.1 == .sized then ["out_" ++ e.2.1 ++ "_size"] else [])) →
          x = "out_" ++ e.2.1 ∨ x = "out_" ++ e.2.1 ++ "_size" := by
        intro x hx
        cases hz : e.2.2.1 == .sized <;> simp [hz] at hx
        · exact Or.inl hx
        · exact hx
      have hdis : ∀ n ∈ l.map (fun e => e.2.1), ∀ x, (x = "out_" ++ n ∨ x = "out_" ++ n ++ "_size") →
          ¬ (x = "out_" ++ e.2.1 ∨ x = "out_" ++ e.2.1 ++ "_size") := by
        intro n hn' x hx hx'
        have hnm := hs'.subset hn'
        rcases hx with rfl | rfl <;> rcases hx' with h | h
        · exact hne (append_left_inj _ h ▸ hn')
        · rw [String.append_assoc] at h
          exact hz _ he _ hnm (append_left_inj _ h)
        · rw [String.append_assoc] at h
          exact hz _ hnm _ he (append_left_inj _ h).symm
        · have h' := append_right_inj _ h
          exact hne (append_left_inj _ h' ▸ hn')
      rw [List.flatMap_cons]
      refine ⟨List.nodup_append.mpr ⟨?_, ih1, ?_⟩, ?_⟩
      · cases hzz : e.2.2.1 == .sized
        · simp
        · simp only [if_true, List.nodup_cons, List.mem_singleton, List.not_mem_nil, not_false_eq_true,
            List.nodup_nil, and_true]
          intro h
          have h1 := congrArg (fun x => x.toList.length) h
          simp [String.toList_append] at h1
      · intro a ha b hb hab
        obtain ⟨n, h1, h2⟩ := ih2 b hb
        exact hdis n h1 b h2 (hab ▸ hone a ha)
      · intro x hx
        rcases List.mem_append.mp hx with hx | hx
        · exact ⟨e.2.1, by simp, hone x hx⟩
        · obtain ⟨n, h1, h2⟩ := ih2 x hx
          exact ⟨n, by rw [List.map_cons]; exact List.mem_cons_of_mem _ h1, h2⟩
  exact (key s.outs (outs_names s)).1

/-- The text starts with `p`. -/
def StartsWith (p x : String) : Prop := ∃ r, x = p ++ r

theorem map_prefix_nodup (p : String) : ∀ {l : List String}, l.Nodup → (l.map (fun n => p ++ n)).Nodup
  | [], _ => by simp
  | x :: l, h => by
    obtain ⟨h1, h2⟩ := List.nodup_cons.mp h
    simp only [List.map_cons, List.nodup_cons]
    refine ⟨?_, map_prefix_nodup p h2⟩
    intro hm
    obtain ⟨y, hy, e⟩ := List.mem_map.mp hm
    exact h1 (append_left_inj _ e ▸ hy)

theorem expectNames_eq (s : FunSection) : expectNames s =
    instanceNames s ++ s.params.names ++ (if s.hasReturn then ["to_return"] else []) ++
    s.params.names.map (fun n => "easyMock_match_" ++ n) ++ outNames s := by
  unfold expectNames outNames
  rw [List.flatMap_def]

theorem mem_instanceNames {s : FunSection} {x : String} (h : x ∈ instanceNames s) : x = "instance" ∧ s.cls ≠ none := by
  unfold instanceNames at h
  cases hc : s.cls <;> simp [hc] at h
  exact ⟨h, by simp⟩

/-- `instance` contains no underscore. -/
theorem instance_ne {x : String} (h : '_' ∈ x.toList) : "instance" ≠ x := by
  rintro rfl
  exact absurd h (by decide)

/-- C62 (partial: no parameter is called `to_return`, or `instance` for a member of a class, starts with `easyMock_match_` or `out_`, and no parameter is
    called like another one followed by `_size` — see the refutations).  The parameters of the Expect functions
    have distinct names. -/
theorem C62_expect_names_partial (s : FunSection) (hn : s.params.names.Nodup)
    (hz : ∀ a ∈ s.params.names, ∀ b ∈ s.params.names, b ≠ a ++ "_size")
    (hr : "to_return" ∉ s.params.names) (hi : s.cls ≠ none → "instance" ∉ s.params.names)
    (hm : ∀ n ∈ s.params.names, ¬ StartsWith "easyMock_match_" n ∧ ¬ StartsWith "out_" n) :
    (expectNames s).Nodup := by
  have first : ∀ (p x : String), x.toList.head? ≠ p.toList.head? → p ≠ "" → ∀ y, p ++ y ≠ x := by
    rintro p x h hp y rfl
    apply h
    rw [String.toList_append]
    cases hp' : p.toList with
    | nil => exact absurd (String.toList_inj.mp hp') hp
    | cons c cs => simp
  rw [expectNames_eq]
  simp only [List.append_assoc]
  refine List.nodup_append.mpr ⟨by unfold instanceNames; split <;> simp, ?_, ?_⟩
  rotate_left
  · intro a ha b hb hab
    obtain ⟨e1, e2⟩ := mem_instanceNames ha
    rw [e1] at hab
    simp only [List.mem_append] at hb
    rcases hb with hb | hb | hb | hb
    · exact hi e2 (hab ▸ hb)
    · cases hh : s.hasReturn
      · simp [hh] at hb
      · simp only [hh, if_true, List.mem_singleton] at hb
        exact instance_ne (by rw [hb]; decide) hab
    · obtain ⟨n, _, rfl⟩ := List.mem_map.mp hb
      exact instance_ne (by simp [String.toList_append]) hab
    · obtain ⟨n, _, h | h⟩ := mem_outNames hb
      · exact instance_ne (by simp [h, String.toList_append]) hab
      · exact instance_ne (by simp [h, String.toList_append]) hab
  simp only [← List.append_assoc]
  refine List.nodup_append.mpr ⟨List.nodup_append.mpr ⟨List.nodup_append.mpr ⟨hn, ?_, ?_⟩, ?_, ?_⟩, ?_, ?_⟩
  · cases s.hasReturn <;> simp
  · intro a ha b hb hab
    cases hh : s.hasReturn
    · simp [hh] at hb
    · simp [hh] at hb
      exact hr (by rw [← hb, ← hab]; exact ha)
  · exact map_prefix_nodup _ hn
  · intro a ha b hb hab
    obtain ⟨n, _, rfl⟩ := List.mem_map.mp hb
    rcases List.mem_append.mp ha with ha | ha
    · exact (hm a ha).1 ⟨n, hab⟩
    · cases hh : s.hasReturn
      · simp [hh] at ha
      · simp [hh] at ha
        exact first "easyMock_match_" a (by rw [ha]; decide +kernel) (by decide) n hab.symm
  · exact outNames_nodup s hn hz
  · intro a ha b hb hab
    obtain ⟨n, _, hb'⟩ := mem_outNames hb
    have hob : StartsWith "out_" a := by
      rw [hab]
      rcases hb' with rfl | rfl
      · exact ⟨_, rfl⟩
      · exact ⟨n ++ "_size", by rw [String.append_assoc]⟩
    rcases List.mem_append.mp ha with ha | ha
    · rcases List.mem_append.mp ha with ha | ha
      · exact (hm a ha).2 hob
      · cases hh : s.hasReturn
        · simp [hh] at ha
        · simp [hh] at ha
          obtain ⟨r, e⟩ := hob
          exact first "out_" a (by rw [ha]; decide +kernel) (by decide) r e.symm
    · obtain ⟨m, _, rfl⟩ := List.mem_map.mp ha
      obtain ⟨r, e⟩ := hob
      refine first "out_" ("easyMock_match_" ++ m) ?_ (by decide) r e.symm
      rw [String.toList_append]
      simp

/-- A class name does not make the names of the members look like outputs. -/
theorem not_out {s : FunSection} (h : ∀ c, s.cls = some c → ¬ StartsWith "out_" (c ++ "_")) (y r : String) :
    dataPrefix s ++ y ≠ "out_" ++ r := by
  intro e
  have e1 := congrArg String.toList e
  cases hc : s.cls with
  | none => simp [dataPrefix, hc, String.toList_append] at e1
  | some c =>
    apply h c hc
    simp only [dataPrefix, hc, Option.getD_some, String.toList_append] at e1
    rw [show "out_".toList = ['o', 'u', 't', '_'] from rfl, show "_".toList = ['_'] from rfl] at e1
    generalize hl : c.toList = l at e1
    match l with
    | [] => simp at e1
    | [a] => simp at e1
    | [a, b] => simp at e1
    | a :: b :: d :: [] =>
      simp at e1
      refine ⟨"", String.toList_inj.mp ?_⟩
      simp [String.toList_append, hl, e1]
    | a :: b :: d :: f :: l =>
      simp at e1
      refine ⟨String.ofList (l ++ ['_']), String.toList_inj.mp ?_⟩
      simp [String.toList_append, hl, e1]

/-- C62 (partial: no parameter starts with `_f_match_` or `out_`, none is called `_f_returnValue`, none like another
    one followed by `_size`, and for a member of a class none `instance`; the class is not called `out` or `out_...`).  The members of the structure which stores a call have distinct names. -/
theorem C62_members_partial (s : FunSection) (hn : s.params.names.Nodup)
    (hz : ∀ a ∈ s.params.names, ∀ b ∈ s.params.names, b ≠ a ++ "_size")
    (hr : s.cls.getD "" ++ "_" ++ s.name ++ "_returnValue" ∉ s.params.names)
    (hm : ∀ n ∈ s.params.names, ¬ StartsWith (s.cls.getD "" ++ "_" ++ s.name ++ "_match_") n ∧ ¬ StartsWith "out_" n)
    (hi : s.cls ≠ none → "instance" ∉ s.params.names)
    (ho : ∀ c, s.cls = some c → ¬ StartsWith "out_" (c ++ "_")) :
    (dataMembers s).Nodup := by
  have hd : dataMembers s = instanceNames s ++ (s.params.names.flatMap (fun n => [n, dataPrefix s ++ "_match_" ++ n]) ++
      (if s.hasReturn then [dataPrefix s ++ "_returnValue"] else []) ++ outNames s) := by
    unfold dataMembers outNames PList.names
    rw [List.flatMap_def, List.flatMap_def, List.map_map, List.append_assoc, List.append_assoc, List.append_assoc]
    rfl
  change dataPrefix s ++ "_returnValue" ∉ s.params.names at hr
  change ∀ n ∈ s.params.names, ¬ StartsWith (dataPrefix s ++ "_match_") n ∧ ¬ StartsWith "out_" n at hm
  have key : ∀ l : List String, l.Nodup → (∀ n ∈ l, ¬ StartsWith (dataPrefix s ++ "_match_") n) →
      (l.flatMap (fun n => [n, dataPrefix s ++ "_match_" ++ n])).Nodup := by
    intro l
    induction l with
    | nil => intros; simp
    | cons x l ih =>
      intro hnd hst
      obtain ⟨h1, h2⟩ := List.nodup_cons.mp hnd
      rw [List.flatMap_cons]
      refine List.nodup_append.mpr ⟨?_, ih h2 (fun n h => hst n (List.mem_cons_of_mem _ h)), ?_⟩
      · simp only [List.nodup_cons, List.mem_singleton, List.not_mem_nil, not_false_eq_true, List.nodup_nil,
          and_true]
        intro h
        exact hst x List.mem_cons_self ⟨x, h⟩
      · intro a ha b hb hab
        obtain ⟨y, hy, hb'⟩ := List.mem_flatMap.mp hb
        simp only [List.mem_cons, List.not_mem_nil, or_false] at ha hb'
        rcases ha with rfl | rfl <;> rcases hb' with rfl | rfl
        · exact h1 (hab ▸ hy)
        · exact hst a List.mem_cons_self ⟨_, hab⟩
        · exact hst b (List.mem_cons_of_mem _ hy) ⟨_, hab.symm⟩
        · exact h1 (append_left_inj _ hab ▸ hy)
  rw [hd]
  have hmem : ∀ x ∈ s.params.names.flatMap (fun n => [n, dataPrefix s ++ "_match_" ++ n]),
      x ∈ s.params.names ∨ StartsWith (dataPrefix s ++ "_match_") x := by
    intro x hx
    obtain ⟨y, hy, h⟩ := List.mem_flatMap.mp hx
    simp only [List.mem_cons, List.not_mem_nil, or_false] at h
    rcases h with rfl | rfl
    · exact Or.inl hy
    · exact Or.inr ⟨y, rfl⟩
  have hmr : ∀ r, dataPrefix s ++ "_match_" ++ r ≠ dataPrefix s ++ "_returnValue" := by
    intro r h
    rw [String.append_assoc] at h
    have h1 := congrArg (fun x => x.toList) (append_left_inj _ h)
    simp [String.toList_append] at h1
  have hout : ∀ x ∈ outNames s, StartsWith "out_" x := by
    intro x hx
    obtain ⟨n, _, h⟩ := mem_outNames hx
    rcases h with rfl | rfl
    · exact ⟨_, rfl⟩
    · exact ⟨n ++ "_size", by rw [String.append_assoc]⟩
  have hus : ∀ y r : String, dataPrefix s ++ y ≠ "out_" ++ r := not_out ho
  refine List.nodup_append.mpr ⟨by unfold instanceNames; split <;> simp, ?_, ?_⟩
  rotate_left
  · intro a ha b hb hab
    obtain ⟨e1, e2⟩ := mem_instanceNames ha
    rw [e1] at hab
    rcases List.mem_append.mp hb with hb | hb
    · rcases List.mem_append.mp hb with hb | hb
      · rcases hmem b hb with h | ⟨r, h⟩
        · exact hi e2 (hab ▸ h)
        · exact instance_ne (by simp [h, String.toList_append]) hab
      · cases hh : s.hasReturn
        · simp [hh] at hb
        · simp only [hh, if_true, List.mem_singleton] at hb
          exact instance_ne (by simp [hb, String.toList_append]) hab
    · obtain ⟨n, _, h | h⟩ := mem_outNames hb
      · exact instance_ne (by simp [h, String.toList_append]) hab
      · exact instance_ne (by simp [h, String.toList_append]) hab
  refine List.nodup_append.mpr ⟨List.nodup_append.mpr ⟨key _ hn (fun n h => (hm n h).1), ?_, ?_⟩, ?_, ?_⟩
  · cases s.hasReturn <;> simp
  · intro a ha b hb hab
    cases hh : s.hasReturn
    · simp [hh] at hb
    · simp only [hh, if_true, List.mem_singleton] at hb
      rcases hmem a ha with h | ⟨r, h⟩
      · exact hr (by rw [← hb, ← hab]; exact h)
      · exact hmr r (by rw [← h, hab, hb])
  · exact outNames_nodup s hn hz
  · intro a ha b hb hab
    obtain ⟨r, hb'⟩ := hout b hb
    rcases List.mem_append.mp ha with ha | ha
    · rcases hmem a ha with h | ⟨r', h⟩
      · exact (hm a h).2 ⟨r, by rw [hab, hb']⟩
      · rw [h, hb', String.append_assoc] at hab
        exact hus _ _ hab
    · cases hh : s.hasReturn
      · simp [hh] at ha
      · simp only [hh, if_true, List.mem_singleton] at ha
        rw [ha, hb'] at hab
        exact hus _ _ hab

/-- A section with parameters `void *a` and `int *n`. -/
def exOuts (n : String) : FunSection :=
  { exSection with params := .cons "void *" "a" .sized .none (.cons "int *" n .plain .none .nil) }

example : (expectNames (exOuts "b")).Nodup ∧ (dataMembers (exOuts "b")).Nodup ∧
    expectNames (exOuts "b") = ["a", "b", "to_return", "easyMock_match_a", "easyMock_match_b", "out_a", "out_a_size",
      "out_b"] ∧
    dataMembers (exOuts "b") = ["a", "_f_match_a", "b", "_f_match_b", "_f_returnValue", "out_a", "out_a_size",
      "out_b"] := by decide +kernel

/-- C62 is false for functions such as `f(void *a, int *a_size)`: two parameters of `ExpectReturnAndOutput` and two
    members of the stored data are called `out_a_size`. -/
theorem C62_refuted_size :
    (exOuts "a_size").params.names.Nodup ∧ ¬ (expectNames (exOuts "a_size")).Nodup ∧
    ¬ (dataMembers (exOuts "a_size")).Nodup := by decide +kernel

example : expectNames { exOuts "b" with cls := some "C" } = ["instance", "a", "b", "to_return", "easyMock_match_a",
      "easyMock_match_b", "out_a", "out_a_size", "out_b"] ∧
    dataMembers { exOuts "b" with cls := some "C" } = ["instance", "a", "C_f_match_a", "b", "C_f_match_b", "C_f_returnValue",
      "out_a", "out_a_size", "out_b"] := by decide +kernel

/-- C62 is false for a parameter of a member function called `instance`, and for the members of the data of a function
    `f(void *a, int *f_match_a)` of a class called `out`: the output of the second parameter is called like the matcher of the
    first one. -/
theorem C62_refuted_class :
    (exOuts "instance").params.names.Nodup ∧ ¬ (expectNames { exOuts "instance" with cls := some "C" }).Nodup ∧
    ¬ (dataMembers { exOuts "instance" with cls := some "C" }).Nodup ∧
    (exOuts "f_match_a").params.names.Nodup ∧ (dataMembers (exOuts "f_match_a")).Nodup ∧
    ¬ (dataMembers { exOuts "f_match_a" with cls := some "out" }).Nodup := by decide +kernel

/-- C62 is false for parameters called `to_return` or `out_a`. -/
theorem C62_refuted_names :
    (exOuts "to_return").params.names.Nodup ∧ ¬ (expectNames (exOuts "to_return")).Nodup ∧
    (exOuts "out_a").params.names.Nodup ∧ ¬ (expectNames (exOuts "out_a")).Nodup := by decide +kernel

end EasyMock.Gen
