import Verif.Props.Gen4

/-! # C47: the numbers of unnamed parameters; C68: the declarations in the header -/

namespace EasyMock.Gen

open EasyMock.Types

/-! ## C47: numbers -/

mutual
/-- The names of all parameters declared by a declarator, in the order in which they are made. -/
def XDecl.written : XDecl → List String
  | .none => []
  | .decl ps inner => ps.written ++ inner.written

/-- The names of all parameters declared in a parameter list, those of pointed functions included, in the order in which
    they are made. -/
def PList.written : PList → List String
  | .nil => []
  | .cons _ n _ x rest => x.written ++ n :: rest.written
end

/-- The names of all parameters declared in the section of a function, in the order in which they are made. -/
def FunSection.written (s : FunSection) : List String := s.topExtra.written ++ s.retExtra.written ++ s.params.written

/-- The name looks like one made for an unnamed parameter. -/
def auto (x : String) : Bool := ("__easymock_param".toList).isPrefixOf x.toList

theorem auto_number (i : Nat) : auto ("__easymock_param" ++ toString i) = true := by
  unfold auto
  rw [String.toList_append]
  exact List.isPrefixOf_iff_prefix.mpr (List.prefix_append _ _)

/-- The numbers `k`, `k + 1`, ..., `k + m - 1`. -/
def numbers (k m : Nat) : List String := (List.range' k m).map (fun i => "__easymock_param" ++ toString i)

theorem numbers_append (k m m' : Nat) : numbers k m ++ numbers (k + m) m' = numbers k (m + m') := by
  unfold numbers
  rw [← List.map_append, List.range'_append_1]

theorem filter_auto_cons_name (k : Nat) (n : String) (hn : n = "" ∨ auto n = false) :
    [if n.isEmpty = true then "__easymock_param" ++ toString k else n].filter auto =
      numbers k (if n.isEmpty = true then 1 else 0) := by
  by_cases he : n.isEmpty = true
  · simp only [he, if_true]
    rw [List.filter_cons_of_pos (auto_number k)]
    rfl
  · have hne : n ≠ "" := by
      intro h; apply he; subst h; decide
    have ha := hn.resolve_left hne
    simp only [he]
    rw [List.filter_cons_of_neg (by simp [ha])]
    rfl

mutual
theorem written_params : ∀ (ps : Params) (k : Nat),
    (∀ qs ∈ ps :: Params.fnLists ps, ∀ n ∈ sourceNames qs, auto n = false) →
    ∃ m, (paramSection k ps).2 = k + m ∧ (paramSection k ps).1.written.filter auto = numbers k m
  | .nil, k, _ => ⟨0, rfl, rfl⟩
  | .cons s t n rest, k, h => by
    obtain ⟨m1, h1, h2⟩ := written_type t false k (fun qs hq => h qs (by simp [Params.fnLists, hq]))
    have hn : n = "" ∨ auto n = false := .inr (h _ List.mem_cons_self n (by simp [sourceNames]))
    obtain ⟨m2, h3, h4⟩ := written_params rest (if n.isEmpty then (extraOf false k t).2 + 1 else (extraOf false k t).2)
      (fun qs hq => by
        intro x hx
        rcases List.mem_cons.mp hq with rfl | hq
        · exact h _ List.mem_cons_self x (by simp [sourceNames, hx])
        · exact h qs (by simp [Params.fnLists, hq]) x hx)
    refine ⟨m1 + ((if n.isEmpty = true then 1 else 0) + m2), ?_, ?_⟩
    · simp only [paramSection]
      rw [h3, h1]
      split <;> omega
    · simp only [paramSection, PList.written]
      rw [List.filter_append, h2, ← List.singleton_append, List.filter_append, filter_auto_cons_name _ n hn, h4, h1]
      rw [show (if n.isEmpty = true then k + m1 + 1 else k + m1) = k + m1 + (if n.isEmpty = true then 1 else 0) by
        split <;> omega]
      rw [numbers_append, numbers_append]

theorem written_type : ∀ (t : Ty) (b : Bool) (k : Nat), (∀ qs ∈ Ty.fnLists t, ∀ n ∈ sourceNames qs, auto n = false) →
    ∃ m, (extraOf b k t).2 = k + m ∧ (extraOf b k t).1.written.filter auto = numbers k m
  | .ptr _ t, b, k, h => by
    rw [extraOf]
    exact written_type t true k (fun qs hq => h qs (by simpa [Ty.fnLists] using hq))
  | .const _ t, b, k, h => by
    rw [extraOf]
    exact written_type t b k (fun qs hq => h qs (by simpa [Ty.fnLists] using hq))
  | .ref _ t, b, k, h => by
    cases b
    · exact ⟨0, by simp [extraOf], by simp [extraOf, XDecl.written, numbers]⟩
    · rw [extraOf]
      exact written_type t true k (fun qs hq => h qs (by simpa [Ty.fnLists] using hq))
  | .tdef _ _ t, b, k, h => by
    cases b
    · exact ⟨0, by simp [extraOf], by simp [extraOf, XDecl.written, numbers]⟩
    · rw [extraOf]
      exact written_type t true k (fun qs hq => h qs (by simpa [Ty.fnLists] using hq))
  | .fn _ _ _ r ps, b, k, h => by
    cases b
    · exact ⟨0, by simp [extraOf], by simp [extraOf, XDecl.written, numbers]⟩
    · obtain ⟨m1, h1, h2⟩ := written_params ps k (fun qs hq => h qs (by
        rcases List.mem_cons.mp hq with rfl | hq
        · simp [Ty.fnLists]
        · simp [Ty.fnLists, hq]))
      obtain ⟨m2, h3, h4⟩ := written_type r false (paramSection k ps).2 (fun qs hq => h qs (by simp [Ty.fnLists, hq]))
      rw [extraOf]
      refine ⟨m1 + m2, ?_, ?_⟩
      · simp only; rw [h3, h1]; omega
      · simp only [XDecl.written]
        rw [List.filter_append, h2, h4, h1, numbers_append]
  | .ctype .., b, k, _ => ⟨0, by cases b <;> simp [extraOf], by cases b <;> simp [extraOf, XDecl.written, numbers]⟩
  | .enum .., b, k, _ => ⟨0, by cases b <;> simp [extraOf], by cases b <;> simp [extraOf, XDecl.written, numbers]⟩
  | .comp .., b, k, _ => ⟨0, by cases b <;> simp [extraOf], by cases b <;> simp [extraOf, XDecl.written, numbers]⟩
  | .incomplete .., b, k, _ => ⟨0, by cases b <;> simp [extraOf], by cases b <;> simp [extraOf, XDecl.written, numbers]⟩
end

/-- The source gives no parameter a name which looks like one for an unnamed parameter. -/
def NoAuto (f : FunDecl) : Prop :=
  ∀ qs ∈ f.params :: (Params.fnLists f.params ++ Ty.fnLists f.ret), ∀ n ∈ sourceNames qs, auto n = false

theorem written_section (c : Config) (k : Nat) (f : FunDecl) (h : NoAuto f) :
    ∃ m, (funSection c k f).2 = k + m ∧ (funSection c k f).1.written.filter auto = numbers k m := by
  have hret : ∀ qs ∈ Ty.fnLists f.ret, ∀ n ∈ sourceNames qs, auto n = false :=
    fun qs hq => h qs (List.mem_cons_of_mem _ (List.mem_append_right _ hq))
  obtain ⟨m1, h1, h2⟩ := written_type f.ret false k hret
  have hrv : ∃ m, (if (!returnsVoid f.ret) = true then extraOf false (extraOf false k f.ret).2 f.ret
        else (.none, (extraOf false k f.ret).2)).2 = k + m1 + m ∧
      ((if (!returnsVoid f.ret) = true then extraOf false (extraOf false k f.ret).2 f.ret
        else (.none, (extraOf false k f.ret).2)).1).written.filter auto = numbers (k + m1) m := by
    split
    · obtain ⟨m, h3, h4⟩ := written_type f.ret false (extraOf false k f.ret).2 hret
      rw [h1] at h3 h4 ⊢
      exact ⟨m, h3, h4⟩
    · exact ⟨0, by rw [h1]; rfl, rfl⟩
  obtain ⟨m2, h3, h4⟩ := hrv
  obtain ⟨m3, h5, h6⟩ := written_params f.params (k + m1 + m2) (fun qs hq => h qs (by
    rcases List.mem_cons.mp hq with rfl | hq
    · exact List.mem_cons_self
    · exact List.mem_cons_of_mem _ (List.mem_append_left _ hq)))
  refine ⟨m1 + m2 + m3, ?_, ?_⟩
  · unfold funSection
    simp only
    rw [h3, h5]; omega
  · unfold funSection FunSection.written
    simp only
    rw [List.filter_append, List.filter_append, h2, h4, h3, h6, numbers_append,
      show k + m1 + m2 = k + (m1 + m2) by omega, numbers_append]

/-- C47 (partial: no name in the source starts with `__easymock_param`).  In one run of the generator the unnamed
    parameters, those of pointed functions included, are numbered consecutively through all functions: no number occurs
    twice in the generated file. -/
theorem C47_numbers_partial (c : Config) : ∀ (fs : List FunDecl) (k : Nat), (∀ f ∈ fs, NoAuto f) →
    ∃ m, ((funSections c k fs).flatMap FunSection.written).filter auto =
      (List.range' k m).map (fun i => "__easymock_param" ++ toString i)
  | [], k, _ => ⟨0, rfl⟩
  | f :: fs, k, h => by
    obtain ⟨m1, h1, h2⟩ := written_section c k f (h f List.mem_cons_self)
    obtain ⟨m2, h3⟩ := C47_numbers_partial c fs (k + m1) (fun g hg => h g (List.mem_cons_of_mem _ hg))
    refine ⟨m1 + m2, ?_⟩
    rw [funSections, List.flatMap_cons, List.filter_append, h2, h1, h3]
    exact numbers_append k m1 m2

/-- C47 (partial, as above).  All generated names in the file are distinct. -/
theorem C47_file_partial (c : Config) (fs : List FunDecl) (k : Nat) (h : ∀ f ∈ fs, NoAuto f) :
    (((funSections c k fs).flatMap FunSection.written).filter auto).Nodup := by
  obtain ⟨m, hm⟩ := C47_numbers_partial c fs k h
  rw [hm]
  have hinj : ∀ i j : Nat, "__easymock_param" ++ toString i = "__easymock_param" ++ toString j → i = j := by
    intro i j e
    have := append_left_inj _ e
    have h2 : Nat.repr i = Nat.repr j := this
    exact Nat.repr_injective h2
  rw [List.Nodup, List.pairwise_map]
  refine List.Pairwise.imp ?_ (List.nodup_range' (s := k) (n := m))
  intro a b hab e
  exact hab (hinj a b e)

/-- `int (*)(int)`. -/
def exCb : Ty := .ptr false (.fn false { name := "" } "int" exInt (.cons "int" exInt "" .nil))

/-- Two functions which return and take pointers to functions with unnamed parameters. -/
def exCallbacks : List FunDecl :=
  [{ info := { name := "f" }, retStr := "int (*", ret := exCb, params := .cons "int" exInt "" .nil },
   { info := { name := "g" }, retStr := "int", ret := exInt, params := .cons "int (*" exCb "cb" .nil }]

example : (∀ f ∈ exCallbacks, NoAuto f) ∧ ((funSections {} 0 exCallbacks).flatMap FunSection.written).filter auto =
    ["__easymock_param0", "__easymock_param1", "__easymock_param2", "__easymock_param3"] := by
  refine ⟨?_, by decide +kernel⟩
  intro f hf qs hq n hn
  simp only [exCallbacks, List.mem_cons, List.not_mem_nil, or_false] at hf
  rcases hf with rfl | rfl
  all_goals
    simp only [exCb, exInt, Params.fnLists, Ty.fnLists, List.mem_cons, List.mem_append, List.not_mem_nil, or_false,
      false_or] at hq
    first
      | (rcases hq with rfl | rfl <;> (simp [sourceNames] at hn; subst hn; decide +kernel))

/-! ## C68: the declarations in the header -/

theorem headerDecls_eq (c : Config) (s : FunSection) {p q : String} (hp : expectParams c s = p)
    (hq : expectOutputParams c s = q) :
    headerDecls c s = ("void " ++ (if c.cpp then "" else s.name ++ "_") ++ "ExpectAndReturn(" ++ p ++ ");") ::
      (if ∃ e ∈ s.params.entries, e.2.2.1 ≠ Out.none then
        ["void " ++ (if c.cpp then "" else s.name ++ "_") ++ "ExpectReturnAndOutput(" ++ q ++ ");"]
       else []) := by
  unfold headerDecls
  rw [hp, hq]
  unfold expectName expectOutputName
  simp only [List.cons_append, List.nil_append, String.append_assoc]
  have e1 : ∀ x : String, "ExpectAndReturn(" ++ x = "ExpectAndReturn" ++ ("(" ++ x) := by
    intro x; rw [← String.append_assoc]; rfl
  have e2 : ∀ x : String, "ExpectReturnAndOutput(" ++ x = "ExpectReturnAndOutput" ++ ("(" ++ x) := by
    intro x; rw [← String.append_assoc]; rfl
  simp only [e1, e2]
  congr 1
  by_cases h : ∃ e ∈ s.params.entries, e.2.2.1 ≠ Out.none
  · rw [if_pos h, if_neg]
    obtain ⟨x, hx, hne⟩ := h
    have hm : x ∈ s.outs := List.mem_filter.mpr ⟨hx, by simpa using hne⟩
    intro he
    rw [List.isEmpty_iff] at he
    rw [he] at hm
    simp at hm
  · rw [if_neg h, if_pos]
    rw [List.isEmpty_iff]
    unfold FunSection.outs
    apply List.filter_eq_nil_iff.mpr
    intro x hx hne
    exact h ⟨x, hx, by simpa using hne⟩

/-- C68 (partial: functions which are not members of a class; for those see C49).  The header offers `ExpectAndReturn` with one
    argument per parameter, the value to return and one matcher per parameter; it offers `ExpectReturnAndOutput`, with the
    outputs as further arguments, exactly if there is an output parameter. In C the names start with the name of the
    function. -/
theorem C68_header_partial (c : Config) (s : FunSection) (hc : s.cls = none) :
    headerDecls c s =
      ("void " ++ (if c.cpp then "" else s.name ++ "_") ++ "ExpectAndReturn(" ++ ", ".intercalate
        (((commonParams c s).take (s.params.names.length + (if s.hasReturn then 1 else 0) + s.params.names.length)).map
          (fun p => p.1 ++ p.2.1 ++ p.2.2)) ++ ");") ::
      (if ∃ e ∈ s.params.entries, e.2.2.1 ≠ Out.none then
        ["void " ++ (if c.cpp then "" else s.name ++ "_") ++ "ExpectReturnAndOutput(" ++ ", ".intercalate
          ((commonParams c s).map (fun p => p.1 ++ p.2.1 ++ p.2.2)) ++ ");"]
       else []) := by
  exact headerDecls_eq c s (C60_no_output_partial c s hc).2.2 (C60_output_partial c s hc).1

/-! ## C60, C68: member functions -/

theorem intercalate_first (a : String) (l : List String) :
    ", ".intercalate (a :: l) = a ++ (if l.isEmpty then "" else ", ") ++ ", ".intercalate l := by
  cases l with
  | nil => simp
  | cons b l => rw [String.intercalate_cons_cons]; rfl

/-- The lists of a member function start with the object. -/
theorem member_lists (c : Config) (s : FunSection) (cls : String) (hc : s.cls = some cls) :
    let t : FunSection := { s with cls := none }
    let commas := String.join (s.params.entries.map (fun _ => ", "))
    expectParams c s = "::" ++ cls ++ "* instance" ++ commas ++ expectParams c t ∧
    expectOutputParams c s = "::" ++ cls ++ "* instance" ++ commas ++ expectOutputParams c t ∧
    expectCall s = "instance" ++ commas ++ expectCall t ∧
    expectOutputCall s = "instance" ++ commas ++ expectOutputCall t := by
  have e1 : expectParams c s = "::" ++ cls ++ "* instance" ++ String.join (s.params.entries.map (fun _ => ", ")) ++
      expectParams c { s with cls := none } := by
    unfold expectParams
    simp only [instanceText, hc, String.append_assoc, String.empty_append]
    rfl
  refine ⟨e1, ?_, ?_, ?_⟩
  · unfold expectOutputParams
    rw [e1]
    simp only [String.append_assoc]
    rfl
  · unfold expectCall
    simp only [instanceText, hc, String.append_assoc, String.empty_append]
    rfl
  · unfold expectOutputCall
    simp only [instanceText, hc, String.append_assoc, String.empty_append]
    rfl

/-- C60 (partial: members of a class with exactly one parameter, or without parameters and without result; see C49 for the
    others).  The Expect functions take the object first and pass it on as the first argument; the other parameters are as for
    functions which are no members. -/
theorem C60_member_partial (c : Config) (s : FunSection) (cls : String) (hc : s.cls = some cls)
    (hn : s.params.entries.length = 1 ∨ (s.params.entries = [] ∧ s.hasReturn = false)) :
    expectOutputParams c s = ", ".intercalate (("::" ++ cls ++ "* instance") ::
      (commonParams c s).map (fun p => p.1 ++ p.2.1 ++ p.2.2)) ∧
    expectOutputCall s = ", ".intercalate ("instance" :: (commonParams c s).map (fun p => p.2.1)) ∧
    expectParams c s = ", ".intercalate (("::" ++ cls ++ "* instance") :: ((commonParams c s).take (s.params.names.length +
      (if s.hasReturn then 1 else 0) + s.params.names.length)).map (fun p => p.1 ++ p.2.1 ++ p.2.2)) ∧
    expectCall s = ", ".intercalate ("instance" :: noOutputArgs s) ∧
    (noOutputArgs s).length = (commonParams c s).length := by
  obtain ⟨m1, m2, m3, m4⟩ := member_lists c s cls hc
  obtain ⟨n1, n2, n3⟩ := C60_no_output_partial c { s with cls := none } rfl
  obtain ⟨o1, o2⟩ := C60_output_partial c { s with cls := none } rfl
  have p1 : commonParams c { s with cls := none } = commonParams c s := rfl
  have p2 : noOutputArgs { s with cls := none } = noOutputArgs s := rfl
  simp only [p1, p2] at n1 n2 n3 o1 o2
  refine ⟨?_, ?_, ?_, ?_, n2⟩
  · rw [m2, o1, intercalate_first]
    rcases hn with hn | ⟨hn, hr⟩
    · obtain ⟨x, hx⟩ := List.length_eq_one_iff.mp hn
      simp [hx, commonParams, String.join]
    · simp [hn, hr, commonParams, String.join]
  · rw [m4, o2, intercalate_first]
    rcases hn with hn | ⟨hn, hr⟩
    · obtain ⟨x, hx⟩ := List.length_eq_one_iff.mp hn
      simp [hx, commonParams, String.join]
    · simp [hn, hr, commonParams, String.join]
  · rw [m1, n3, intercalate_first]
    rcases hn with hn | ⟨hn, hr⟩
    · obtain ⟨x, hx⟩ := List.length_eq_one_iff.mp hn
      cases hr : s.hasReturn <;> simp [hx, commonParams, String.join, PList.names, hr]
    · simp [hn, hr, commonParams, String.join, PList.names]
  · rw [m3, n1, intercalate_first]
    rcases hn with hn | ⟨hn, hr⟩
    · obtain ⟨x, hx⟩ := List.length_eq_one_iff.mp hn
      simp [hx, noOutputArgs, String.join, PList.names]
    · simp [hn, hr, noOutputArgs, String.join, PList.names]

example : (exMember (.cons "int" "a" .none .none .nil)).cls = some "K" ∧
    (exMember (.cons "int" "a" .none .none .nil)).params.entries.length = 1 ∧
    expectCall (exMember (.cons "int" "a" .none .none .nil)) = "instance, a, easyMock_match_a" ∧
    expectParams { cpp := true } (exMember (.cons "int" "a" .none .none .nil)) =
      "::K* instance, int a, ::EasyMock::EasyMock_Matcher_Cpp<int> easyMock_match_a" := by decide +kernel

/-- C68 (partial: the members of a class named in C60).  The header offers for a member function what it offers for other
    functions, with the object as the first argument. -/
theorem C68_member_partial (c : Config) (s : FunSection) (cls : String) (hc : s.cls = some cls)
    (hn : s.params.entries.length = 1 ∨ (s.params.entries = [] ∧ s.hasReturn = false)) :
    headerDecls c s =
      ("void " ++ (if c.cpp then "" else s.name ++ "_") ++ "ExpectAndReturn(" ++ ", ".intercalate (("::" ++ cls ++ "* instance") ::
        ((commonParams c s).take (s.params.names.length + (if s.hasReturn then 1 else 0) + s.params.names.length)).map
          (fun p => p.1 ++ p.2.1 ++ p.2.2)) ++ ");") ::
      (if ∃ e ∈ s.params.entries, e.2.2.1 ≠ Out.none then
        ["void " ++ (if c.cpp then "" else s.name ++ "_") ++ "ExpectReturnAndOutput(" ++ ", ".intercalate
          (("::" ++ cls ++ "* instance") :: (commonParams c s).map (fun p => p.1 ++ p.2.1 ++ p.2.2)) ++ ");"]
       else []) := by
  obtain ⟨h1, -, h2, -⟩ := C60_member_partial c s cls hc hn
  exact headerDecls_eq c s h2 h1

/-- C68.  In C every name the header offers for a function, and the common function both bodies call, is defined in the
    source. -/
theorem C68_defined (c : Config) (s : FunSection) (hc : c.cpp = false) : expectName c s ∈ fileSymbols s ∧
    (s.outs ≠ [] → expectOutputName c s ∈ fileSymbols s) ∧ commonName s ∈ fileSymbols s := by
  have h := (C61_offered s).1
  refine ⟨?_, ?_, ?_⟩
  · have : expectName c s = s.name ++ "_ExpectAndReturn" := by
      unfold expectName
      rw [hc]
      simp only [Bool.false_eq_true, if_false, String.append_assoc]
      rfl
    rw [this]
    exact h _ (by simp)
  · intro ho
    have : expectOutputName c s = s.name ++ "_ExpectReturnAndOutput" := by
      unfold expectOutputName
      rw [hc]
      simp only [Bool.false_eq_true, if_false, String.append_assoc]
      rfl
    rw [this]
    have hb : s.outs.isEmpty = false := by
      cases hx : s.outs with
      | nil => exact absurd hx ho
      | cons _ _ => rfl
    unfold fileSymbols
    simp [hb]
  · exact h _ (by simp [commonName])

example : headerDecls {} exSection =
    ["void f_ExpectAndReturn(int __easymock_param0, char * a, void * p, int to_return, EasyMock_Matcher " ++
      "easyMock_match___easymock_param0, EasyMock_Matcher easyMock_match_a, EasyMock_Matcher easyMock_match_p);",
     "void f_ExpectReturnAndOutput(int __easymock_param0, char * a, void * p, int to_return, EasyMock_Matcher " ++
      "easyMock_match___easymock_param0, EasyMock_Matcher easyMock_match_a, EasyMock_Matcher easyMock_match_p, " ++
      "char * out_a, void * out_p, easyMock_size_t out_p_size);"] ∧ exSection.cls = none ∧ exSection.outs.length = 2 := by
  decide +kernel

end EasyMock.Gen
