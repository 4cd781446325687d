import Verif.Gen.Lemmas2

/-! # Properties of the generated parameter lists, names and signatures

C46, C47, C49, C59-C63. -/

namespace EasyMock.Gen

open EasyMock.Types

/-! ## C46: output arguments -/

/-- The type below qualifiers and typedefs. -/
def strip : Ty → Ty
  | .const _ t => strip t
  | .tdef _ _ t => strip t
  | t => t

/-- The C type is `const`, directly or through a typedef. -/
def cConst : Ty → Bool
  | .const _ _ => true
  | .tdef _ _ t => cConst t
  | _ => false

/-- The output argument a parameter of the C type deserves: one for a pointer to non-constant data, with a
    size when the size of the pointed data is unknown. -/
def cOutput (t : Ty) : Out :=
  match strip t with
  | .ptr _ p =>
    if cConst p then .none
    else match strip p with
      | .fn .. => .none
      | .ctype .void _ _ => .sized
      | .comp _ _ _ _ _ true _ => .sized
      | _ => .plain
  | _ => .none

/-- C46 (partial: the parameter is not hidden behind a typedef, the pointee is neither a typedef nor a pointer,
    and is not built in like `va_list` — see the refutations).  An output argument is offered exactly for
    pointers to non-constant data, with a size exactly for `void` and incomplete types. -/
theorem C46_pointer_partial (t p : Ty) (i : Bool) (ht : t = .ptr i p ∨ ∃ j, t = .const j (.ptr i p))
    (hp : ∀ k n u, p ≠ .tdef k n u) (hp' : ∀ k u, p ≠ .ptr k u) (hi : (attrs p).implicit = false) :
    output t = cOutput t := by
  have h1 : output t = output (.ptr i p) := by
    rcases ht with rfl | ⟨j, rfl⟩ <;> rfl
  have h2 : cOutput t = cOutput (.ptr i p) := by
    rcases ht with rfl | ⟨j, rfl⟩ <;> rfl
  rw [h1, h2]
  cases p with
  | ptr k u => exact absurd rfl (hp' k u)
  | tdef k n u => exact absurd rfl (hp k n u)
  | const k u => rfl
  | ref k u =>
    simp only [attrs] at hi
    subst hi
    rfl
  | ctype c n k =>
    simp only [attrs] at hi
    subst hi
    cases c <;> rfl
  | enum k n vs =>
    simp only [attrs] at hi
    subst hi
    rfl
  | comp k kw n fs emb fwd ms =>
    have : k = false := by cases kw <;> simpa [attrs] using hi
    subst this
    cases kw <;> cases fwd <;> rfl
  | incomplete f kw n => rfl
  | fn k info s r ps => simp [output, unqualify, mostPointed, isConst, isImplicit, isFunctionType, attrs,
      cOutput, strip, cConst]

/-- C46.  No output argument for a parameter which is no pointer. -/
theorem C46_no_pointer (t : Ty) (h : ∀ i p, strip t ≠ .ptr i p) : output t = .none := by
  unfold output
  split
  · next i p e =>
    exfalso
    cases t <;> simp [unqualify] at e
    next a b => obtain ⟨rfl, rfl⟩ := e; exact h _ _ rfl
    next a b => subst e; exact h _ _ rfl
  · rfl

/-- C46.  For pointers to pointers the innermost pointee decides, whatever the number of levels. -/
theorem C46_levels (is : List Bool) (i : Bool) (p : Ty) :
    output (is.foldr .ptr (.ptr i p)) = output (.ptr i p) := by
  have hm : ∀ is : List Bool, mostPointed (is.foldr .ptr (.ptr i p)) = mostPointed (.ptr i p) := by
    intro is
    induction is with
    | nil => rfl
    | cons a is ih => exact ih
  cases is with
  | nil => rfl
  | cons a is =>
    have := hm (a :: is)
    simp only [List.foldr_cons] at this ⊢
    simp only [output, unqualify, this]

/-- C46.  No output argument for built-in types such as `va_list`. -/
theorem C46_implicit (i : Bool) (p : Ty) (hp : ∀ k u, p ≠ .ptr k u) (hinc : ∀ f k n, p ≠ .incomplete f k n)
    (hi : (attrs p).implicit = true) : output (.ptr i p) = .none := by
  have h1 : mostPointed (.ptr i p) = p := by
    cases p with
    | ptr k u => exact absurd rfl (hp k u)
    | _ => rfl
  have h2 : isImplicit p = true := by
    unfold isImplicit
    rw [hi]
    cases p with
    | incomplete f k n => exact absurd rfl (hinc f k n)
    | comp i kw n fs e w ms => cases kw <;> rfl
    | _ => rfl
  simp [output, unqualify, h1, h2]

/-- `int`. -/
def exInt : Ty := .ctype .int false false

example : output (.ptr false exInt) = .plain ∧ output (.const false (.ptr false exInt)) = .plain ∧
    output (.ptr false (.const false exInt)) = .none ∧
    output (.ptr false (.ctype .void false false)) = .sized ∧
    output (.ptr false (.comp false .struct "s" .nil false true .nil)) = .sized ∧
    output (.ptr false (.comp false .struct "s" .nil false false .nil)) = .plain ∧
    output exInt = .none ∧ output (.ptr false (.ctype .char false true)) = .none := by decide +kernel

/-- C46 is false for parameters declared through a typedef of a pointer: none is offered. -/
theorem C46_refuted_typedef_pointer :
    cOutput (.tdef false "P" (.ptr false exInt)) = .plain ∧
    output (.tdef false "P" (.ptr false exInt)) = .none := by decide +kernel

/-- C46 is false for pointers to a typedef of a constant type: an output argument is offered, and the mock
    writes through the pointer. -/
theorem C46_refuted_typedef_const :
    cOutput (.ptr false (.tdef false "C" (.const false exInt))) = .none ∧
    output (.ptr false (.tdef false "C" (.const false exInt))) = .plain := by decide +kernel

/-- C46 is false for pointers to a typedef of `void`: no size is asked for. -/
theorem C46_refuted_typedef_void :
    cOutput (.ptr false (.tdef false "V" (.ctype .void false false))) = .sized ∧
    output (.ptr false (.tdef false "V" (.ctype .void false false))) = .plain := by decide +kernel

/-- C46 is false for pointers to pointers: for `void **` a size is asked for although the size of a pointer is
    known, and for `const char **` no output argument is offered. -/
theorem C46_refuted_levels :
    cOutput (.ptr false (.ptr false (.ctype .void false false))) = .plain ∧
    output (.ptr false (.ptr false (.ctype .void false false))) = .sized ∧
    cOutput (.ptr false (.ptr false (.const false (.ctype .char false false)))) = .plain ∧
    output (.ptr false (.ptr false (.const false (.ctype .char false false)))) = .none := by decide +kernel

/-! ## C47: names of the parameters -/

/-- C47 (partial: no parameter of the source is called `__easymock_param` followed by a number — see the
    refutation).  The names written for the parameters of a function are distinct, whatever was generated
    before. -/
theorem C47_distinct_partial (k : Nat) (ps : Params)
    (hd : ((sourceNames ps).filter (fun n => !n.isEmpty)).Nodup)
    (hu : ∀ n ∈ sourceNames ps, ∀ i : Nat, n ≠ "__easymock_param" ++ toString i) :
    (paramSection k ps).1.names.Nodup := names_nodup ps k hd hu

/-- C47.  Every parameter keeps its position; a named one keeps its name, an unnamed one gets a number. -/
theorem C47_names : ∀ (ps : Params) (k : Nat),
    (paramSection k ps).1.names.length = (sourceNames ps).length ∧
    ∀ i (h : i < (sourceNames ps).length) (h' : i < (paramSection k ps).1.names.length),
      ((sourceNames ps)[i] ≠ "" → (paramSection k ps).1.names[i] = (sourceNames ps)[i]) ∧
      ((sourceNames ps)[i] = "" →
        ∃ j : Nat, k ≤ j ∧ (paramSection k ps).1.names[i] = "__easymock_param" ++ toString j)
  | .nil, k => by simp [paramSection, sourceNames, PList.names, PList.entries]
  | .cons s t n rest, k => by
    have h0 := extraOf_mono t false k
    have ih := C47_names rest (if n.isEmpty then (extraOf false k t).2 + 1 else (extraOf false k t).2)
    rw [paramSection_cons]
    refine ⟨by
      have := ih.1
      simp only [PList.names, PList.entries, List.map_cons, List.length_cons, sourceNames] at this ⊢
      omega, ?_⟩
    intro i h h'
    cases i with
    | zero =>
      simp only [sourceNames, PList.names, PList.entries, List.map_cons, List.getElem_cons_zero]
      constructor
      · intro hn
        rw [if_neg]
        simpa [String.isEmpty_iff] using hn
      · rintro rfl
        exact ⟨_, h0, rfl⟩
    | succ i =>
      have h2 := ih.2 i (by simpa [sourceNames] using h)
        (by simpa [PList.names, PList.entries] using h')
      simp only [sourceNames, PList.names, PList.entries, List.map_cons, List.getElem_cons_succ] at h2 ⊢
      refine ⟨h2.1, fun he => ?_⟩
      obtain ⟨j, hj, e⟩ := h2.2 he
      refine ⟨j, ?_, e⟩
      split at hj <;> omega

mutual
/-- The parameter lists of the function types which a declarator or parameter list redeclares. -/
def XDecl.lists : XDecl → List PList
  | .none => []
  | .decl ps inner => ps :: (ps.lists ++ inner.lists)

/-- The parameter lists nested in a parameter list. -/
def PList.lists : PList → List PList
  | .nil => []
  | .cons _ _ _ x rest => x.lists ++ rest.lists
end

mutual
/-- The parameter lists of all function types reached from the parameters. -/
def Params.fnLists : Params → List Params
  | .nil => []
  | .cons _ t _ rest => Ty.fnLists t ++ Params.fnLists rest

/-- The parameter lists of all function types reached from the type. -/
def Ty.fnLists : Ty → List Params
  | .ptr _ t | .ref _ t | .const _ t | .tdef _ _ t => Ty.fnLists t
  | .fn _ _ _ r ps => ps :: (Params.fnLists ps ++ Ty.fnLists r)
  | _ => []
end

mutual
theorem nested_params : ∀ (ps : Params) (k : Nat) (q : PList), q ∈ (paramSection k ps).1.lists →
    ∃ k' qs, qs ∈ Params.fnLists ps ∧ q = (paramSection k' qs).1
  | .nil, k, q, h => by simp [paramSection, PList.lists] at h
  | .cons s t n rest, k, q, h => by
    rw [paramSection_cons] at h
    simp only [PList.lists, List.mem_append] at h
    rcases h with h | h
    · obtain ⟨k', qs, h1, h2⟩ := nested_type t false k q h
      exact ⟨k', qs, by simp [Params.fnLists, h1], h2⟩
    · obtain ⟨k', qs, h1, h2⟩ := nested_params rest _ q h
      exact ⟨k', qs, by simp [Params.fnLists, h1], h2⟩

theorem nested_type : ∀ (t : Ty) (b : Bool) (k : Nat) (q : PList), q ∈ (extraOf b k t).1.lists →
    ∃ k' qs, qs ∈ Ty.fnLists t ∧ q = (paramSection k' qs).1
  | .ptr _ t, b, k, q, h => by
    rw [extraOf] at h
    obtain ⟨k', qs, h1, h2⟩ := nested_type t true k q h
    exact ⟨k', qs, by simpa [Ty.fnLists] using h1, h2⟩
  | .const _ t, b, k, q, h => by
    rw [extraOf] at h
    obtain ⟨k', qs, h1, h2⟩ := nested_type t b k q h
    exact ⟨k', qs, by simpa [Ty.fnLists] using h1, h2⟩
  | .ref _ t, b, k, q, h => by
    cases b
    · simp [extraOf, XDecl.lists] at h
    · rw [extraOf] at h
      obtain ⟨k', qs, h1, h2⟩ := nested_type t true k q h
      exact ⟨k', qs, by simpa [Ty.fnLists] using h1, h2⟩
  | .tdef _ _ t, b, k, q, h => by
    cases b
    · simp [extraOf, XDecl.lists] at h
    · rw [extraOf] at h
      obtain ⟨k', qs, h1, h2⟩ := nested_type t true k q h
      exact ⟨k', qs, by simpa [Ty.fnLists] using h1, h2⟩
  | .fn _ _ _ r ps, b, k, q, h => by
    cases b
    · simp [extraOf, XDecl.lists] at h
    · rw [extraOf] at h
      simp only [XDecl.lists, List.mem_cons, List.mem_append] at h
      rcases h with rfl | h | h
      · exact ⟨k, ps, by simp [Ty.fnLists], rfl⟩
      · obtain ⟨k', qs, h1, h2⟩ := nested_params ps k q h
        exact ⟨k', qs, by simp [Ty.fnLists, h1], h2⟩
      · obtain ⟨k', qs, h1, h2⟩ := nested_type r false _ q h
        exact ⟨k', qs, by simp [Ty.fnLists, h1], h2⟩
  | .ctype .., b, k, q, h => by cases b <;> simp [extraOf, XDecl.lists] at h
  | .enum .., b, k, q, h => by cases b <;> simp [extraOf, XDecl.lists] at h
  | .comp .., b, k, q, h => by cases b <;> simp [extraOf, XDecl.lists] at h
  | .incomplete .., b, k, q, h => by cases b <;> simp [extraOf, XDecl.lists] at h
end

/-- C47 (partial: as `C47_distinct_partial`).  The same holds for the parameters of the functions which the
    parameters point to, at any depth. -/
theorem C47_nested_partial (k : Nat) (ps : Params)
    (h : ∀ qs ∈ Params.fnLists ps, ((sourceNames qs).filter (fun n => !n.isEmpty)).Nodup ∧
      ∀ n ∈ sourceNames qs, ∀ i : Nat, n ≠ "__easymock_param" ++ toString i)
    (q : PList) (hq : q ∈ (paramSection k ps).1.lists) : q.names.Nodup := by
  obtain ⟨k', qs, h1, rfl⟩ := nested_params ps k q hq
  exact names_nodup qs k' (h qs h1).1 (h qs h1).2

/-- `int`, `int a`, `int (*cb)(int, char c)`, `int`. -/
def exParams : Params :=
  .cons "int" exInt "" (.cons "int" exInt "a" (.cons "int (*" (.ptr false (.fn false { name := "" } "int" exInt
    (.cons "int" exInt "" (.cons "char" (.ctype .char false false) "c" .nil)))) "cb"
    (.cons "int" exInt "" .nil)))

example : (paramSection 3 exParams).1.names = ["__easymock_param3", "a", "cb", "__easymock_param5"] ∧
    (paramSection 3 exParams).1.text = "int __easymock_param3, int a, " ++
      "int (* cb)(int __easymock_param4, char c), int __easymock_param5" := by decide +kernel

example : (paramSection 3 exParams).1.names.Nodup := by
  refine C47_distinct_partial 3 exParams (by decide +kernel) ?_
  intro n hn i e
  have h1 : n.toList.length ≤ 2 := by
    simp [exParams, sourceNames] at hn
    rcases hn with rfl | rfl | rfl | rfl <;> decide
  rw [e, String.toList_append, List.length_append] at h1
  have : ("__easymock_param" : String).toList.length = 16 := by decide +kernel
  omega

/-- C47 is false for a parameter which is called like a generated name. -/
theorem C47_refuted : ¬ (paramSection 0 (.cons "int" exInt "__easymock_param0"
    (.cons "int" exInt "" .nil))).1.names.Nodup := by decide +kernel

/-! ## C49: parameter lists -/

/-- The declarations of the parameters of a function, as written. -/
def paramDecls' (s : FunSection) : List String :=
  s.params.entries.map (fun e => e.1 ++ " " ++ e.2.1 ++ e.2.2.2.text)

theorem paramsText_eq (s : FunSection) : s.params.text = ", ".intercalate (paramDecls' s) :=
  PList.text_eq s.params

theorem isEmpty_app {α : Type} (a b : List α) : (a ++ b).isEmpty = (a.isEmpty && b.isEmpty) := by
  cases a <;> cases b <;> rfl

theorem isEmpty_map {α β : Type} (f : α → β) (l : List α) : (l.map f).isEmpty = l.isEmpty := by
  cases l <;> rfl

/-- C49.  The parameter list of the mock, for every number of parameters. -/
theorem C49_mock (s : FunSection) :
    parameters s = "(" ++ ", ".intercalate (paramDecls' s ++ (if s.variadic then ["..."] else [])) ++ ")" := by
  unfold parameters
  rw [paramsText_eq, intercalate_append']
  have h : (paramDecls' s).isEmpty = s.params.entries.isEmpty := isEmpty_map _ _
  rw [h]
  cases s.variadic <;> cases s.params.entries.isEmpty <;> simp [String.append_assoc]

/-- The declarations of the parameters of `ExpectAndReturn`: those of the function, the value to return, a
    matcher for every parameter. -/
def expectDecls (c : Config) (s : FunSection) : List String :=
  paramDecls' s ++ (if s.hasReturn then [s.ret ++ " to_return" ++ s.retExtra.text] else []) ++
  s.params.entries.map (fun e =>
    (if c.cpp then "::EasyMock::EasyMock_Matcher_Cpp<" ++ e.1 ++ "> " else "EasyMock_Matcher ") ++
      "easyMock_match_" ++ e.2.1)

/-- The declarations of the output parameters. -/
def outDecls (s : FunSection) : List String :=
  (s.params.entries.filter (fun e => e.2.2.1 != .none)).flatMap (fun e =>
    (e.1 ++ " out_" ++ e.2.1) ::
    (if e.2.2.1 == .sized then ["easyMock_size_t out_" ++ e.2.1 ++ "_size"] else []))

theorem matcherList_eq (c : Config) (s : FunSection) : matcherList c s =
    ", ".intercalate (s.params.entries.map (fun e =>
    (if c.cpp then "::EasyMock::EasyMock_Matcher_Cpp<" ++ e.1 ++ "> " else "EasyMock_Matcher ") ++
      "easyMock_match_" ++ e.2.1)) := by
  rw [matcherList, expandSep_eq]
  rfl

theorem expectParams_eq (c : Config) (s : FunSection) :
    expectParams c s = instanceText s (fun n => "::" ++ n ++ "* instance") ++
      ", ".intercalate (expectDecls c s) := by
  unfold expectParams expectDecls commaIfParams
  rw [paramsText_eq, matcherList_eq]
  have h : (paramDecls' s).isEmpty = s.params.entries.isEmpty := isEmpty_map _ _
  have h0 : s.params.entries.isEmpty = true → s.params.entries = [] := by simp
  rw [intercalate_append', intercalate_append', isEmpty_map]
  rw [h]
  have h1 : ((paramDecls' s) ++ (if s.hasReturn = true then
      [s.ret ++ " to_return" ++ s.retExtra.text] else [])).isEmpty =
      (s.params.entries.isEmpty && !s.hasReturn) := by
    rw [isEmpty_app, h]
    cases s.hasReturn <;> simp
  rw [h1]
  cases hr : s.hasReturn <;> cases he : s.params.entries.isEmpty <;>
    simp [String.append_assoc]

/-- C49 (partial: functions which are not members of a class — see the refutation).  The parameter list of
    `ExpectAndReturn`, for every number of parameters. -/
theorem C49_expect_partial (c : Config) (s : FunSection) (hc : s.cls = none) :
    expectParams c s = ", ".intercalate (expectDecls c s) := by
  rw [expectParams_eq]
  simp [instanceText, hc]

theorem flat_outs (sep : String) (f g : String × String × Out × XDecl → String)
    (p : String × String × Out × XDecl → Bool) : ∀ l : List (String × String × Out × XDecl),
    sep.intercalate (l.map (fun e => f e ++ (if p e then sep ++ g e else ""))) =
    sep.intercalate (l.flatMap (fun e => f e :: (if p e then [g e] else [])))
  | [] => rfl
  | e :: l => by
    have ih := flat_outs sep f g p l
    rw [List.flatMap_cons, List.map_cons]
    have h1 : ∀ (x : String) (xs : List String), sep.intercalate (x :: xs) =
        x ++ (if xs.isEmpty then "" else sep) ++ sep.intercalate xs := by
      intro x xs
      have := intercalate_append' sep [x] xs
      simpa using this
    rw [h1, ih, intercalate_append', isEmpty_map]
    have h2 : (l.flatMap (fun e => f e :: (if p e then [g e] else []))).isEmpty = l.isEmpty := by
      cases l <;> simp
    rw [h2]
    cases p e <;> cases l.isEmpty <;> simp [h1, String.append_assoc]

theorem outList_eq (s : FunSection) : outList s = ", ".intercalate (outDecls s) := by
  unfold outList outDecls FunSection.outs
  rw [expandSep_eq]
  have := flat_outs ", " (fun e => e.1 ++ " " ++ "out_" ++ e.2.1)
    (fun e => "easyMock_size_t " ++ "out_" ++ e.2.1 ++ "_size") (fun e => e.2.2.1 == .sized)
    (s.params.entries.filter (fun e => e.2.2.1 != .none))
  have e1 : ∀ a b : String, a ++ " " ++ "out_" ++ b = a ++ " out_" ++ b := by
    intro a b
    exact (String.append_assoc (s₁ := a) (s₂ := " ") (s₃ := "out_")) ▸ rfl
  have e2 : ∀ b : String, "easyMock_size_t " ++ "out_" ++ b = "easyMock_size_t out_" ++ b := fun _ => rfl
  have e3 : ∀ b : String, ", " ++ ("easyMock_size_t " ++ "out_" ++ b ++ "_size") =
      ", easyMock_size_t " ++ "out_" ++ b ++ "_size" := by
    intro b
    simp only [← String.append_assoc]
    rfl
  simp only [e3] at this
  simp only [e1, e2] at this ⊢
  exact this

theorem outDecls_isEmpty (s : FunSection) : (outDecls s).isEmpty = s.outs.isEmpty := by
  unfold outDecls FunSection.outs
  cases (s.params.entries.filter (fun e => e.2.2.1 != .none)) <;> simp

theorem expectDecls_isEmpty (c : Config) (s : FunSection) :
    (expectDecls c s).isEmpty = (s.params.entries.isEmpty && !s.hasReturn) := by
  have h : (paramDecls' s).isEmpty = s.params.entries.isEmpty := isEmpty_map _ _
  unfold expectDecls
  rw [isEmpty_app, isEmpty_app, isEmpty_map, h]
  cases s.hasReturn <;> cases s.params.entries.isEmpty <;> rfl

theorem outs_params (s : FunSection) (h : s.outs.isEmpty = false) : s.params.entries.isEmpty = false := by
  cases he : s.params.entries with
  | nil => simp [FunSection.outs, he] at h
  | cons x xs => rfl

/-- C49 (partial: functions which are not members of a class).  The parameter list of
    `ExpectReturnAndOutput`, for every number of parameters and outputs. -/
theorem C49_expect_output_partial (c : Config) (s : FunSection) (hc : s.cls = none) :
    expectOutputParams c s = ", ".intercalate (expectDecls c s ++ outDecls s) := by
  unfold expectOutputParams commaIfOuts
  rw [C49_expect_partial c s hc, outList_eq, intercalate_append', outDecls_isEmpty, expectDecls_isEmpty]
  cases ho : s.outs.isEmpty
  · rw [outs_params s ho]; simp
  · simp

/-- C49 (partial: members of a class with exactly one parameter, or without parameters and without result).
    The object is the first parameter. -/
theorem C49_member_partial (c : Config) (s : FunSection) (cls : String) (hc : s.cls = some cls)
    (hn : s.params.entries.length = 1 ∨ (s.params.entries = [] ∧ s.hasReturn = false)) :
    expectParams c s = ", ".intercalate (("::" ++ cls ++ "* instance") :: expectDecls c s) := by
  rw [expectParams_eq]
  have h1 := intercalate_append' ", " ["::" ++ cls ++ "* instance"] (expectDecls c s)
  rw [List.cons_append, List.nil_append] at h1
  rw [h1, expectDecls_isEmpty]
  simp only [instanceText, hc]
  rcases hn with hn | ⟨hn, hr⟩
  · have he : s.params.entries.isEmpty = false := by
      cases h : s.params.entries with
      | nil => rw [h] at hn; simp at hn
      | cons x xs => rfl
    have : s.params.entries.map (fun _ => ", ") = [", "] := by
      cases h : s.params.entries with
      | nil => rw [h] at hn; simp at hn
      | cons x xs =>
        rw [h] at hn
        have : xs = [] := List.length_eq_zero_iff.mp (by simpa using hn)
        simp [this]
    rw [this, he]
    simp
  · rw [hn, hr]
    simp

/-- C49 is false for members of a class with two or more parameters: the object is followed by an empty
    entry. -/
theorem C49_refuted_member (c : Config) (s : FunSection) (cls : String) (hc : s.cls = some cls)
    (hn : 2 ≤ s.params.entries.length) :
    ∃ rest, expectParams c s = "::" ++ cls ++ "* instance" ++ ", " ++ ", " ++ rest := by
  rw [expectParams_eq]
  simp only [instanceText, hc]
  match h : s.params.entries, hn with
  | x :: y :: rest, _ =>
    simp only [List.map_cons, String.join_cons, String.append_assoc]
    exact ⟨_, rfl⟩

/-- C49 is false for members of a class without parameters which return a value: the object and the value to
    return are not separated. -/
theorem C49_refuted_member_no_parameter (c : Config) (s : FunSection) (cls : String) (hc : s.cls = some cls)
    (hn : s.params.entries = []) (hr : s.hasReturn = true) :
    expectParams c s = "::" ++ cls ++ "* instance" ++ s.ret ++ " to_return" ++ s.retExtra.text := by
  rw [expectParams_eq]
  simp [instanceText, hc, expectDecls, paramDecls', hn, hr, String.append_assoc]

/-- `int f(int, char *a, void *p)`. -/
def exSection : FunSection :=
  let ps : Params := .cons "int" exInt "" (.cons "char *" (.ptr false (.ctype .char false false)) "a"
    (.cons "void *" (.ptr false (.ctype .void false false)) "p" .nil))
  (funSection {} 0 { info := { name := "f" }, retStr := "int", ret := exInt, params := ps }).1

example : expectOutputParams {} exSection = "int __easymock_param0, char * a, void * p, int to_return, " ++
    "EasyMock_Matcher easyMock_match___easymock_param0, EasyMock_Matcher easyMock_match_a, " ++
    "EasyMock_Matcher easyMock_match_p, char * out_a, void * out_p, easyMock_size_t out_p_size" := by
  decide +kernel

example : exSection.cls = none ∧ parameters exSection = "(int __easymock_param0, char * a, void * p)" ∧
    parameters { exSection with variadic := true } =
      "(int __easymock_param0, char * a, void * p, ...)" := by decide +kernel

/-- A member function of class `K` without result. -/
def exMember (ps : PList) : FunSection := { exSection with cls := some "K", hasReturn := false, params := ps }

example : expectParams { cpp := true } { exSection with cls := some "K", params := .nil } =
    "::K* instanceint to_return" ∧
    expectParams {} (exMember (.cons "int" "a" .none .none (.cons "int" "b" .none .none .nil))) =
    "::K* instance, , int a, int b, EasyMock_Matcher easyMock_match_a, EasyMock_Matcher easyMock_match_b" := by
  decide +kernel

/-! ## C60: the Expect functions forward their arguments -/

/-- The parameters of the common function of a function which is no member: text before the name, name, text
    after it. -/
def commonParams (c : Config) (s : FunSection) : List (String × String × String) :=
  s.params.entries.map (fun e => (e.1 ++ " ", e.2.1, e.2.2.2.text)) ++
  (if s.hasReturn then [(s.ret ++ " ", "to_return", s.retExtra.text)] else []) ++
  s.params.entries.map (fun e =>
    (if c.cpp then "::EasyMock::EasyMock_Matcher_Cpp<" ++ e.1 ++ "> " else "EasyMock_Matcher ",
      "easyMock_match_" ++ e.2.1, "")) ++
  (s.params.entries.filter (fun e => e.2.2.1 != .none)).flatMap (fun e =>
    (e.1 ++ " ", "out_" ++ e.2.1, "") ::
    (if e.2.2.1 == .sized then [("easyMock_size_t ", "out_" ++ e.2.1 ++ "_size", "")] else []))

/-- The arguments which `ExpectAndReturn` has to pass: its own parameters, and nothing for the outputs. -/
def noOutputArgs (s : FunSection) : List String :=
  s.params.names ++ (if s.hasReturn then ["to_return"] else []) ++
  s.params.names.map (fun n => "easyMock_match_" ++ n) ++
  (s.params.entries.filter (fun e => e.2.2.1 != .none)).flatMap (fun e =>
    "easyMock_null" :: (if e.2.2.1 == .sized then ["0"] else []))

theorem commonArgs_eq (s : FunSection) : commonArgs s = ", ".intercalate
    (s.params.names ++ (if s.hasReturn then ["to_return"] else []) ++
      s.params.names.map (fun n => "easyMock_match_" ++ n)) := by
  unfold commonArgs commaIfParams PList.names
  rw [expandSep_eq, expandSep_eq, intercalate_append', intercalate_append', isEmpty_app,
    isEmpty_map, isEmpty_map, isEmpty_map, List.map_map]
  have h0 : s.params.entries.isEmpty = true → s.params.entries = [] := by simp
  cases hr : s.hasReturn <;> cases he : s.params.entries.isEmpty
  · simp [String.append_assoc, Function.comp_def]
  · simp [h0 he]
  · simp [String.append_assoc, Function.comp_def]
  · simp [h0 he]

theorem commonArgs_list_isEmpty (s : FunSection) : (s.params.names ++
    (if s.hasReturn = true then ["to_return"] else []) ++
    s.params.names.map (fun n => "easyMock_match_" ++ n)).isEmpty =
    (s.params.entries.isEmpty && !s.hasReturn) := by
  unfold PList.names
  rw [isEmpty_app, isEmpty_app, isEmpty_map, isEmpty_map, isEmpty_map]
  cases s.hasReturn <;> cases s.params.entries.isEmpty <;> rfl

/-- C60 (partial: functions which are not members of a class).  `ExpectReturnAndOutput` calls the common
    function with one argument for each of its parameters, in their order: the parameter of
    `ExpectReturnAndOutput` with the same name. -/
theorem C60_output_partial (c : Config) (s : FunSection) (hc : s.cls = none) :
    expectOutputParams c s = ", ".intercalate ((commonParams c s).map (fun p => p.1 ++ p.2.1 ++ p.2.2)) ∧
    expectOutputCall s = ", ".intercalate ((commonParams c s).map (fun p => p.2.1)) := by
  constructor
  · rw [C49_expect_output_partial c s hc]
    congr 1
    unfold expectDecls outDecls commonParams paramDecls'
    simp only [List.map_append, List.map_map, List.map_flatMap, List.append_assoc]
    have e1 : ∀ a b : String, a ++ " " ++ ("out_" ++ b) = a ++ " out_" ++ b := by
      intro a b
      rw [← String.append_assoc]
      exact (String.append_assoc (s₁ := a) (s₂ := " ") (s₃ := "out_")) ▸ rfl
    have e2 : ∀ b : String, "easyMock_size_t " ++ ("out_" ++ b ++ "_size") =
        "easyMock_size_t out_" ++ b ++ "_size" := by
      intro b
      rw [String.append_assoc, ← String.append_assoc, ← String.append_assoc]
      rfl
    have e3 : s.ret ++ " " ++ "to_return" = s.ret ++ " to_return" := by
      rw [String.append_assoc]
      rfl
    congr 2
    · cases s.hasReturn
      · rfl
      · simp [e3]
    · congr 1
      · apply List.map_congr_left
        intro e _
        cases c.cpp <;> simp only [Function.comp, Bool.false_eq_true, if_true, if_false, String.append_assoc,
          String.append_empty]
      · congr 1
        funext e
        cases e.2.2.1 == .sized
        · simp [e1]
        · simp [e1, e2]
  · unfold expectOutputCall commaIfOuts
    rw [commonArgs_eq, expandSep_eq]
    have hz := flat_outs ", " (fun e => "out_" ++ e.2.1) (fun e => "out_" ++ e.2.1 ++ "_size")
      (fun e => e.2.2.1 == .sized) s.outs
    have e0 : ∀ b : String, ", " ++ ("out_" ++ b ++ "_size") = ", " ++ "out_" ++ b ++ "_size" := by
      intro b
      simp only [String.append_assoc]
    simp only [e0] at hz
    rw [hz]
    have h := intercalate_append' ", " (s.params.names ++ (if s.hasReturn then ["to_return"] else []) ++
      s.params.names.map (fun n => "easyMock_match_" ++ n)) (s.outs.flatMap (fun e => ("out_" ++ e.2.1) ::
      (if (e.2.2.1 == .sized) = true then ["out_" ++ e.2.1 ++ "_size"] else [])))
    have h2 : (s.outs.flatMap (fun e => ("out_" ++ e.2.1) ::
      (if (e.2.2.1 == .sized) = true then ["out_" ++ e.2.1 ++ "_size"] else []))).isEmpty =
      s.outs.isEmpty := by
      cases s.outs <;> simp
    rw [h2, commonArgs_list_isEmpty] at h
    have h3 : (commonParams c s).map (fun p => p.2.1) = (s.params.names ++
      (if s.hasReturn then ["to_return"] else []) ++
      s.params.names.map (fun n => "easyMock_match_" ++ n)) ++ (s.outs.flatMap (fun e => ("out_" ++ e.2.1) ::
      (if (e.2.2.1 == .sized) = true then ["out_" ++ e.2.1 ++ "_size"] else []))) := by
      unfold commonParams PList.names FunSection.outs
      simp only [List.map_append, List.map_map, List.map_flatMap, List.append_assoc]
      congr 2
      · cases s.hasReturn <;> rfl
      · congr 2
        funext e
        cases e.2.2.1 == .sized <;> rfl
    rw [h3, h]
    simp only [instanceText, hc]
    cases ho : s.outs.isEmpty
    · rw [outs_params s ho]; simp
    · simp

/-- C60 (partial: functions which are not members of a class).  `ExpectAndReturn` calls the common function
    with its parameters in the same positions, and with no outputs. -/
theorem C60_no_output_partial (c : Config) (s : FunSection) (hc : s.cls = none) :
    expectCall s = ", ".intercalate (noOutputArgs s) ∧
    (noOutputArgs s).length = (commonParams c s).length ∧
    expectParams c s = ", ".intercalate (((commonParams c s).take (s.params.names.length +
      (if s.hasReturn then 1 else 0) + s.params.names.length)).map (fun p => p.1 ++ p.2.1 ++ p.2.2)) := by
  refine ⟨?_, ?_, ?_⟩
  · unfold expectCall commaIfOuts noOutputArgs
    rw [commonArgs_eq, expandSep_eq]
    have hz := flat_outs ", " (fun _ => "easyMock_null") (fun _ => "0") (fun e => e.2.2.1 == .sized) s.outs
    have e0 : (", " : String) ++ "0" = ", 0" := rfl
    simp only [e0] at hz
    rw [hz]
    have h := intercalate_append' ", " (s.params.names ++ (if s.hasReturn then ["to_return"] else []) ++
      s.params.names.map (fun n => "easyMock_match_" ++ n)) (s.outs.flatMap (fun e => "easyMock_null" ::
      (if (e.2.2.1 == .sized) = true then ["0"] else [])))
    have h2 : (s.outs.flatMap (fun e => "easyMock_null" ::
      (if (e.2.2.1 == .sized) = true then ["0"] else []))).isEmpty = s.outs.isEmpty := by
      cases s.outs <;> simp
    rw [h2, commonArgs_list_isEmpty] at h
    unfold FunSection.outs at h ⊢
    rw [h]
    simp only [instanceText, hc]
    cases ho : s.outs.isEmpty
    · have ho' := ho
      unfold FunSection.outs at ho'
      rw [outs_params s ho, ho']; simp
    · have ho' := ho
      unfold FunSection.outs at ho'
      rw [ho']; simp
  · unfold noOutputArgs commonParams PList.names
    simp only [List.length_append, List.length_map]
    congr 1
    · cases s.hasReturn <;> rfl
    · rw [List.length_flatMap, List.length_flatMap]
      congr 2
      funext e
      cases e.2.2.1 == .sized <;> rfl
  · rw [C49_expect_partial c s hc]
    have hlen : s.params.names.length = s.params.entries.length := by simp [PList.names]
    have h1 : (commonParams c s).take (s.params.names.length + (if s.hasReturn then 1 else 0) +
        s.params.names.length) =
        s.params.entries.map (fun e => (e.1 ++ " ", e.2.1, e.2.2.2.text)) ++
        (if s.hasReturn then [(s.ret ++ " ", "to_return", s.retExtra.text)] else []) ++
        s.params.entries.map (fun e =>
          (if c.cpp then "::EasyMock::EasyMock_Matcher_Cpp<" ++ e.1 ++ "> " else "EasyMock_Matcher ",
            "easyMock_match_" ++ e.2.1, "")) := by
      unfold commonParams
      rw [List.take_append_of_le_length, List.take_of_length_le]
      · simp only [hlen, List.length_append, List.length_map]; cases s.hasReturn <;> simp
      · simp only [hlen, List.length_append, List.length_map]; cases s.hasReturn <;> simp
    rw [h1]
    congr 1
    unfold expectDecls paramDecls'
    simp only [List.map_append, List.map_map]
    have e3 : s.ret ++ " " ++ "to_return" = s.ret ++ " to_return" := by
      rw [String.append_assoc]
      rfl
    congr 1
    · congr 1
      cases s.hasReturn
      · rfl
      · simp [e3]
    · apply List.map_congr_left
      intro e _
      cases c.cpp <;> simp only [Function.comp, Bool.false_eq_true, if_true, if_false, String.append_assoc,
          String.append_empty]

example : expectOutputCall exSection = "__easymock_param0, a, p, to_return, " ++
    "easyMock_match___easymock_param0, easyMock_match_a, easyMock_match_p, out_a, out_p, out_p_size" ∧
    expectCall exSection = "__easymock_param0, a, p, to_return, easyMock_match___easymock_param0, " ++
    "easyMock_match_a, easyMock_match_p, easyMock_null, easyMock_null, 0" := by decide +kernel

end EasyMock.Gen
