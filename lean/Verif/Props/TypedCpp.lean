import Verif.CDecl.Cpp
import Verif.Props.Typed

/-! # The types in the Expect functions in C++: C81

The declarations in the generated files, read by `CDecl.readProcedure`. -/

namespace EasyMock.CFile

open EasyMock.Gen
open EasyMock.Types (Ty Params FunDecl)
open EasyMock.CDecl (Sem Sems read semOf semsOf Word Spellable Spellables NoFn Listed Declares Arg IsArg readProcedure)

/-- No parameter is a pointer to a function. -/
def AllPlain : Params → Prop
  | .nil => True
  | .cons _ t _ rest => NoFn t ∧ AllPlain rest

theorem AllPlain.outs : ∀ {ps : Params}, AllPlain ps → OutsPlain ps
  | .nil, _ => trivial
  | .cons _ _ _ _, h => ⟨fun _ => h.1, AllPlain.outs h.2⟩

theorem entries_plain : ∀ (ps : Params) (k : Nat), AllPlain ps → ∀ e ∈ (paramSection k ps).1.entries, e.2.2.2.text = ""
  | .nil, k, _, e, he => by rw [paramSection] at he; cases he
  | .cons s t n rest, k, h, e, he => by
    rw [Gen.paramSection_cons, PList.entries] at he
    rcases List.mem_cons.1 he with rfl | he
    · show (extraOf false k t).1.text = ""
      rw [CDecl.extraOf_noFn t false k h.1]; rfl
    · exact entries_plain rest _ h.2 e he

/-- The parameters of an Expect function: those of the function, the value to return, a matcher for values of the type of each
    parameter. -/
def expectArgs (ps : List Par) (R : Option Sem) : List Arg :=
  ps.map (fun p => .plain p.name.toList p.sem) ++ R.toList.map (.plain "to_return".toList) ++
  ps.map (fun p => .template "::EasyMock::EasyMock_Matcher_Cpp".toList p.sem ("easyMock_match_" ++ p.name).toList)

/-- The parameters for the outputs, each followed by a size if it is needed. -/
def outArgs (ps : List Par) : List Arg :=
  (ps.filter (fun p => p.out != .none)).flatMap (fun p =>
    .plain ("out_" ++ p.name).toList p.sem ::
    (if p.out == .sized then [.plain ("out_" ++ p.name ++ "_size").toList (word "easyMock_size_t")] else []))

/-- The object on which a member function is called. -/
def objectArgs (cls : Option String) : List Arg :=
  cls.toList.map (fun n => .plain "instance".toList (.ptr (word ("::" ++ n))))

theorem args_expect {c : Config} {s : FunSection} {R : Option Sem} (hc : c.cpp = true)
    (L : List ((String × String × Gen.Out × XDecl) × Par)) (h1 : s.params.entries = L.map (·.1)) (h3 : ∀ x ∈ L, Fits x.1 x.2)
    (hplain : ∀ e ∈ s.params.entries, e.2.2.2.text = "")
    (hr : match R with
      | some r => s.hasReturn = true ∧ Declares (s.ret ++ " to_return" ++ s.retExtra.text) "to_return" r
      | none => s.hasReturn = false) :
    ∃ D : List (String × Arg), D.map (·.1) = expectDecls c s ∧ D.map (·.2) = expectArgs (L.map (·.2)) R ∧ ∀ d ∈ D, IsArg d.1 d.2 := by
  have hmw : Word "::EasyMock::EasyMock_Matcher_Cpp" := by decide +kernel
  refine ⟨L.map (fun x => (x.1.1 ++ " " ++ x.1.2.1 ++ x.1.2.2.2.text, .plain x.2.name.toList x.2.sem)) ++
    R.toList.map (fun r => (s.ret ++ " to_return" ++ s.retExtra.text, .plain "to_return".toList r)) ++
    L.map (fun x => ("::EasyMock::EasyMock_Matcher_Cpp" ++ "<" ++ x.1.1 ++ "> " ++ ("easyMock_match_" ++ x.1.2.1),
      .template "::EasyMock::EasyMock_Matcher_Cpp".toList x.2.sem ("easyMock_match_" ++ x.2.name).toList)), ?_, ?_, ?_⟩
  · unfold expectDecls paramDecls'
    rw [h1, List.map_append, List.map_append, List.map_map, List.map_map, List.map_map, List.map_map, List.map_map]
    have e1 : ∀ t n : String, "::EasyMock::EasyMock_Matcher_Cpp" ++ "<" ++ t ++ "> " ++ ("easyMock_match_" ++ n) =
        "::EasyMock::EasyMock_Matcher_Cpp<" ++ t ++ "> " ++ "easyMock_match_" ++ n := by
      intro t n
      rw [← String.append_assoc]
      rfl
    congr 1
    · congr 1
      cases R with
      | none => rw [if_neg (by rw [hr]; decide)]; rfl
      | some r => rw [if_pos hr.1]; rfl
    · refine List.map_congr_left fun x _ => ?_
      simp only [Function.comp_apply, e1, hc]
      rfl
  · unfold expectArgs
    rw [List.map_append, List.map_append, List.map_map, List.map_map, List.map_map, List.map_map, List.map_map]
    rfl
  · intro d hd
    rw [List.mem_append, List.mem_append, List.mem_map, List.mem_map, List.mem_map] at hd
    rcases hd with (⟨x, hx, rfl⟩ | ⟨r, hx, rfl⟩) | ⟨x, hx, rfl⟩
    · have h := h3 x hx
      rw [h.name]
      exact CDecl.declares_arg (h.decl _ h.word)
    · cases R with
      | none => cases hx
      | some r' =>
        simp only [Option.toList_some, List.mem_singleton] at hx
        subst hx
        exact CDecl.declares_arg hr.2
    · have h := h3 x hx
      have hp : x.1.2.2.2.text = "" := hplain x.1 (by rw [h1]; exact List.mem_map_of_mem hx)
      have hd := h.decl "x" (by decide +kernel)
      rw [hp, String.append_empty] at hd
      rw [h.name]
      exact CDecl.template_arg hmw (word_of (x := 'm') (chars_app (by decide) h.word.2.1) (mem_left' (by decide)) (by decide)) hd

theorem args_out {s : FunSection} (L : List ((String × String × Gen.Out × XDecl) × Par)) (h1 : s.params.entries = L.map (·.1))
    (h3 : ∀ x ∈ L, Fits x.1 x.2) :
    ∃ D : List (String × Arg), D.map (·.1) = outDecls s ∧ D.map (·.2) = outArgs (L.map (·.2)) ∧ ∀ d ∈ D, IsArg d.1 d.2 := by
  have hsw : Word "easyMock_size_t" := by decide +kernel
  refine ⟨(L.filter (fun x => x.2.out != .none)).flatMap (fun x =>
    (x.1.1 ++ " out_" ++ x.1.2.1, .plain ("out_" ++ x.2.name).toList x.2.sem) ::
    (if x.2.out == .sized then [("easyMock_size_t" ++ " " ++ ("out_" ++ x.1.2.1 ++ "_size"),
      .plain ("out_" ++ x.2.name ++ "_size").toList (word "easyMock_size_t"))] else [])), ?_, ?_, ?_⟩
  · unfold outDecls
    have e0 : L.filter (fun x => x.2.out != .none) = L.filter ((fun e : String × String × Gen.Out × XDecl => e.2.2.1 != .none) ∘ (·.1)) := by
      refine List.filter_congr fun x hx => ?_
      simp only [Function.comp_apply, (h3 x hx).out]
    have e1 : ∀ n : String, "easyMock_size_t" ++ " " ++ ("out_" ++ n ++ "_size") = "easyMock_size_t out_" ++ n ++ "_size" := by
      intro n
      rw [← String.append_assoc, ← String.append_assoc]
      rfl
    rw [h1, List.filter_map, List.flatMap_map, List.map_flatMap, e0]
    refine congrArg List.flatten (List.map_congr_left fun x hx => ?_)
    rw [← (h3 x (List.mem_filter.1 hx).1).out, List.map_cons]
    cases x.1.2.2.1 == Gen.Out.sized
    · rfl
    · rw [if_pos rfl, if_pos rfl, List.map_cons, e1]; rfl
  · unfold outArgs
    rw [List.filter_map, List.flatMap_map, List.map_flatMap]
    refine congrArg List.flatten (List.map_congr_left fun x hx => ?_)
    rw [List.map_cons]
    cases x.2.out == Gen.Out.sized <;> rfl
  · intro d hd
    rw [List.mem_flatMap] at hd
    obtain ⟨x, hx, hd⟩ := hd
    rw [List.mem_filter] at hx
    have h := h3 x hx.1
    have hne : x.2.out ≠ .none := by simpa using hx.2
    have hw : Word ("out_" ++ x.2.name) := word_of (x := 'u') (chars_app (by decide) h.word.2.1) (mem_left' (by decide)) (by decide)
    rcases List.mem_cons.1 hd with rfl | hd
    · have e := h.decl _ hw
      rw [h.plain hne, String.append_empty] at e
      rw [h.name]
      have e2 : x.1.1 ++ " out_" ++ x.2.name = x.1.1 ++ " " ++ ("out_" ++ x.2.name) := by
        rw [String.append_assoc, String.append_assoc, ← String.append_assoc (s₁ := " ")]; rfl
      rw [e2]
      exact CDecl.declares_arg e
    · cases hs : x.2.out == Gen.Out.sized with
      | false => rw [hs] at hd; cases hd
      | true =>
        rw [hs, if_pos rfl, List.mem_singleton] at hd
        subst hd
        rw [h.name]
        exact CDecl.declares_arg (CDecl.declares_word hsw
          (word_of (x := 'u') (chars_app hw.2.1 (by decide)) (mem_left' (mem_left' (by decide))) (by decide)))

theorem object_arg {n : String} (h : Word n) : IsArg ("::" ++ n ++ "* instance") (.plain "instance".toList (.ptr (word ("::" ++ n)))) := by
  have hw : Word ("::" ++ n) := word_of (x := ':') (chars_app (by decide) h.2.1) (mem_left' (by decide)) (by decide)
  have hi : Word "instance" := by decide +kernel
  refine CDecl.declares_arg ⟨?_, ?_⟩
  all_goals
    have e : CDecl.toks ("::" ++ n ++ "* instance").toList = [.word ("::" ++ n).toList, .star, .word "instance".toList] := by
      rw [show ("::" ++ n ++ "* instance").toList = ("::" ++ n).toList ++ '*' :: ([] ++ ' ' :: "instance".toList) by
        simp [String.toList_append], CDecl.toks_sep _ _ _ (by decide), CDecl.toks_sep _ _ _ (by decide), CDecl.toks_word hw,
        CDecl.toks_word hi]
      rfl
  · intro stk
    refine ⟨.suffix "instance".toList [("::" ++ n).toList] [.star] [], by rw [e]; rfl, ?_⟩
    have hs : CDecl.spec [("::" ++ n).toList] = word ("::" ++ n) :=
      CDecl.spec_plain _ (by intro w hm; rw [List.mem_singleton] at hm; subst hm; exact hw.2.2)
    have h := CDecl.ended_suffix (n := "instance".toList) (ws := [("::" ++ n).toList]) (l := [.star]) (ls := []) (by simp)
    rw [hs] at h
    exact h
  · exact ⟨_, _, e⟩

/-- A member whose list of parameters is well formed, see `C49_refuted_member` for the others. -/
def MethodOk (f : FunDecl) : Prop :=
  ∀ p, f.parent = some p → Word (Types.attrs p).name ∧
    ((∃ s t n, f.params = .cons s t n .nil) ∨ (f.params = .nil ∧ returnsVoid f.ret = true))

theorem object_list {c : Config} {k : Nat} {f : FunDecl} (hm : MethodOk f) :
    let s := (funSection c k f).1
    let obj := s.cls.toList.map (fun n => "::" ++ n ++ "* instance")
    expectParams c s = ", ".intercalate (obj ++ expectDecls c s) ∧
    expectOutputParams c s = ", ".intercalate (obj ++ expectDecls c s ++ outDecls s) := by
  intro s obj
  have h1 : expectParams c s = ", ".intercalate (obj ++ expectDecls c s) := by
    cases hp : f.parent with
    | none =>
      have hcls : s.cls = none := by show (f.parent.map _) = none; rw [hp]; rfl
      show _ = ", ".intercalate (s.cls.toList.map _ ++ _)
      rw [hcls, C49_expect_partial c s hcls]; rfl
    | some p =>
      have hcls : s.cls = some (Types.attrs p).name := by show (f.parent.map _) = _; rw [hp]; rfl
      show _ = ", ".intercalate (s.cls.toList.map _ ++ _)
      rw [hcls]
      refine C49_member_partial c s _ hcls ?_
      rcases (hm p hp).2 with ⟨a, t, n, e⟩ | ⟨e, hv⟩
      · left
        show (paramSection _ f.params).1.entries.length = 1
        rw [e, Gen.paramSection_cons, paramSection]; rfl
      · right
        refine ⟨?_, ?_⟩
        · show (paramSection _ f.params).1.entries = []
          rw [e, paramSection]; rfl
        · show (!returnsVoid f.ret) = false
          rw [hv]; rfl
  refine ⟨h1, ?_⟩
  unfold expectOutputParams commaIfOuts
  rw [h1, outList_eq, intercalate_append' _ (obj ++ expectDecls c s), outDecls_isEmpty]
  cases ho : s.outs.isEmpty with
  | true => simp
  | false =>
    have he : (obj ++ expectDecls c s).isEmpty = false := by
      rw [isEmpty_app, expectDecls_isEmpty, outs_params s ho]; simp
    rw [he]; simp

theorem any_outs {s : FunSection} (L : List ((String × String × Gen.Out × XDecl) × Par)) (h1 : s.params.entries = L.map (·.1))
    (h3 : ∀ x ∈ L, Fits x.1 x.2) : (L.map (·.2)).any (fun p => p.out != .none) = !s.outs.isEmpty := by
  have a1 : s.outs = (L.map (·.1)).filter (fun e => e.2.2.1 != .none) := by
    rw [← h1]; rfl
  rw [a1, List.any_map, List.filter_map, isEmpty_map]
  clear h1 a1
  induction L with
  | nil => rfl
  | cons x L ih =>
    have hx := (h3 x (by simp)).out
    rw [List.any_cons, List.filter_cons, ih (fun y hy => h3 y (by simp [hy]))]
    simp only [Function.comp_apply, hx]
    cases x.2.out != Gen.Out.none <;> simp

/-- **C81** in C++ (partial: no parameter is a pointer to a function; members with one parameter, or with none and no result).  The
    header declares, for a function of any number of parameters: `ExpectAndReturn`, which takes the object (for a member),
    the parameters of the function in their order with their names and types, the value to return of the type of the result unless the
    function returns nothing, and for each parameter a matcher for values of its type; and, exactly if a
    parameter has an output, `ExpectReturnAndOutput` with in addition, for each output, a parameter of the type of its parameter, and a
    size behind it where the size is not known. -/
theorem C81_cpp_partial (c : Config) (k : Nat) (f : FunDecl) {Ss : Sems} {R : Sem} (hc : c.cpp = true) (hm : MethodOk f)
    (hp : Listed f.params Ss) (ho : AllPlain f.params) (hr : returnsVoid f.ret = false → CDecl.Entry f.retStr f.ret R) :
    let s := (funSection c k f).1
    let ps := pars s.params.names f.params Ss
    let args := objectArgs (f.parent.map (fun p => (Types.attrs p).name)) ++ expectArgs ps (returned f R)
    ps.length = s.params.entries.length ∧
    ∃ texts : List String, headerDecls c s = texts.map (· ++ ";") ∧ texts.map readProcedure =
      some ("ExpectAndReturn".toList, args) ::
      (if ps.any (fun p => p.out != .none) then [some ("ExpectReturnAndOutput".toList, args ++ outArgs ps)] else []) := by
  intro s ps args
  obtain ⟨L, h1, h2, h3⟩ := fits f.params Ss _ hp ho.outs
  have hps : ps = L.map (·.2) := h2
  have hL : s.params.entries = L.map (·.1) := h1
  have hlen : ps.length = s.params.entries.length := by
    rw [hps, hL, List.length_map, List.length_map]
  have hpl : ∀ e ∈ s.params.entries, e.2.2.2.text = "" := entries_plain f.params _ ho
  have hret : (match returned f R with
      | some r => s.hasReturn = true ∧ Declares (s.ret ++ " to_return" ++ s.retExtra.text) "to_return" r
      | none => s.hasReturn = false) := by
    unfold returned
    cases hv : returnsVoid f.ret with
    | true => simp [s, funSection, hv]
    | false =>
      refine ⟨by simp [s, funSection, hv], ?_⟩
      have := CDecl.declares_entry (hr hv) (extraOf false k f.ret).2 (n := "to_return") (by decide +kernel)
      simp only [s, funSection, hv, Bool.not_false, if_true]
      have e2 : ∀ a : String, a ++ " to_return" = a ++ " " ++ "to_return" := by
        intro a
        rw [String.append_assoc]; rfl
      rw [e2]
      exact this
  obtain ⟨D, d1, d2, d3⟩ := args_expect hc L hL h3 hpl hret
  obtain ⟨E, e1, e2, e3⟩ := args_out L hL h3
  obtain ⟨t1, t2⟩ := object_list (c := c) (k := k) hm
  obtain ⟨O, o1, o2, o3⟩ : ∃ O : List (String × Arg), O.map (·.1) = s.cls.toList.map (fun n => "::" ++ n ++ "* instance") ∧
      O.map (·.2) = objectArgs s.cls ∧ ∀ d ∈ O, IsArg d.1 d.2 := by
    refine ⟨s.cls.toList.map (fun n => ("::" ++ n ++ "* instance", .plain "instance".toList (.ptr (word ("::" ++ n))))), ?_, ?_, ?_⟩
    · rw [List.map_map]; rfl
    · rw [List.map_map]; rfl
    · intro d hd
      obtain ⟨n, hn, rfl⟩ := List.mem_map.1 hd
      refine object_arg ?_
      have hcls : s.cls = f.parent.map (fun p => (Types.attrs p).name) := rfl
      cases hpa : f.parent with
      | none => rw [hcls, hpa] at hn; cases hn
      | some p =>
        rw [hcls, hpa] at hn
        simp only [Option.map_some, Option.toList_some, List.mem_singleton] at hn
        subst hn
        exact (hm p hpa).1
  have n1 : expectName c s = "ExpectAndReturn" := by unfold expectName; rw [hc]; rfl
  have n2 : expectOutputName c s = "ExpectReturnAndOutput" := by unfold expectOutputName; rw [hc]; rfl
  have r1 := CDecl.readProcedure_list (name := "ExpectAndReturn") (by decide +kernel) (O ++ D)
    (fun d hd => (List.mem_append.1 hd).elim (o3 d) (d3 d))
  have r2 := CDecl.readProcedure_list (name := "ExpectReturnAndOutput") (by decide +kernel) (O ++ D ++ E)
    (fun d hd => (List.mem_append.1 hd).elim (fun h => (List.mem_append.1 h).elim (o3 d) (d3 d)) (e3 d))
  rw [List.map_append, List.map_append, o1, o2, d1, d2, ← t1, ← n1] at r1
  rw [List.map_append, List.map_append, List.map_append, List.map_append, o1, o2, d1, d2, e1, e2, ← t2, ← n2] at r2
  have hout : ps.any (fun p => p.out != .none) = !s.outs.isEmpty := by rw [hps]; exact any_outs L hL h3
  refine ⟨hlen, ?_⟩
  have ea : args = objectArgs s.cls ++ expectArgs (L.map (·.2)) (returned f R) := by rw [← hps]; rfl
  unfold headerDecls
  rw [hout, ea, hps]
  cases ho : s.outs.isEmpty with
  | true =>
    refine ⟨["void " ++ expectName c s ++ "(" ++ expectParams c s ++ ")"], ?_, ?_⟩
    · simp only [if_true, List.map_cons, List.map_nil, List.append_nil, String.append_assoc]
      rfl
    · rw [List.map_cons, List.map_nil, r1, n1]; rfl
  | false =>
    refine ⟨["void " ++ expectName c s ++ "(" ++ expectParams c s ++ ")",
      "void " ++ expectOutputName c s ++ "(" ++ expectOutputParams c s ++ ")"], ?_, ?_⟩
    · simp only [Bool.false_eq_true, if_false, List.map_cons, List.map_nil, List.cons_append, List.nil_append, String.append_assoc]
      rfl
    · rw [List.map_cons, List.map_cons, List.map_nil, r1, r2, n1, n2]; rfl

/-! ## C80 -/

/-- The type behind `const` and typedefs. -/
def target : Ty → Ty
  | .const _ t | .tdef _ _ t => target t
  | t => t

/-- A type which is written with a name. -/
def NamedTy : Ty → Prop
  | .ctype .. => True
  | .enum _ n _ | .comp _ _ n _ _ _ _ | .incomplete _ _ n => Word n
  | _ => False

/-- The type of an object, without `struct`, `union`, `class` and `enum`, which C++ does not need. -/
def objectSem (t : Ty) : Sem :=
  match target t with
  | .enum _ n _ | .comp _ _ n _ _ _ _ | .incomplete _ _ n => word n
  | t => semOf t

/-- The parameters are read as their types; references are references to named types, to `const` ones, or to typedefs of them. -/
def StorableCpp : Params → Sems → Prop
  | .nil, .nil => True
  | .cons _ t _ rest, .cons S Ss => Spellable false t ∧ S = semOf t ∧
      (reference t = false ∨ ∃ i r, t = .ref i r ∧ NamedTy (target r)) ∧ StorableCpp rest Ss
  | _, _ => False

theorem spell_down : ∀ (t : Ty), Spellable true t → NoFn t → Spellable false t
  | .ctype .., _, _ => trivial
  | .ptr _ _, h, _ => h
  | .ref _ _, h, hn => ⟨h.1, fun _ => hn⟩
  | .const _ t, h, hn => ⟨spell_down t h.1 hn, h.2⟩
  | .tdef _ _ _, h, _ => ⟨h.1, fun h => by cases h⟩
  | .enum .., h, _ | .comp .., h, _ | .incomplete .., h, _ => h
  | .fn .., _, hn => hn.elim

theorem raw_target : ∀ (t : Ty), NamedTy (target t) → Types.rawType t = target t
  | .ctype .., _ | .enum .., _ | .comp .., _ | .incomplete .., _ => rfl
  | .const _ t, h | .tdef _ _ t, h => raw_target t h
  | .ptr _ _, h | .ref _ _, h | .fn .., h => h.elim

theorem deref_target (t : Ty) (h : NamedTy (target t)) : Types.dereferenced t = t := by
  cases t <;> first | rfl | exact h.elim

theorem declares_spelled {t : Ty} (h : Spellable false t) (hn : NoFn t) {n : String} (hw : Word n) :
    Declares (Types.declPrefix t ++ " " ++ n) n (semOf t) := by
  have := CDecl.declares_entry (CDecl.entry_type (s := "") (Or.inl rfl) h) 0 hw
  rw [CDecl.declare_eq (Or.inl rfl), CDecl.extraOf_noFn t false 0 hn] at this
  rw [show XDecl.none.text = "" from rfl, String.append_empty] at this
  exact this

theorem declares_object (t : Ty) (h : NamedTy (target t)) {n : String} (hw : Word n) :
    Declares ((Types.attrs (Types.rawType t)).name ++ " " ++ n) n (objectSem t) := by
  rw [raw_target t h]
  unfold objectSem
  generalize target t = r at h
  cases r with
  | ctype c a b =>
    have := declares_spelled (t := .ctype c a b) trivial trivial hw
    exact this
  | «enum» _ m _ => exact CDecl.declares_word h hw
  | comp _ kw m _ _ _ _ =>
    cases kw <;> exact CDecl.declares_word h hw
  | incomplete _ kw m => exact CDecl.declares_word h hw
  | _ => exact h.elim

/-- A member of the data structure of a function, with the name it is initialised with. -/
abbrev MemberArg := Arg × Option (List Char)

/-- The value of a type: a member of the type without qualifier; for a reference an object, and a wrapper which refers to it. -/
def valueArgs (name : String) (value : Sem) : Option Sem → Sem → List MemberArg
  | some object, .ref S => [(.plain ("default_" ++ name).toList object, none),
      (.template "std::reference_wrapper".toList S name.toList, some ("default_" ++ name).toList)]
  | _, _ => [(.plain name.toList value, none)]

/-- The members of the data structure: the object of a member function; for each parameter its value and a matcher for values of its
    type; the result; the outputs. -/
def memberArgs (cls : Option String) (name : String) (ps : List (Par × Option Sem)) (R : Option (Sem × Option Sem)) : List MemberArg :=
  let pre := cls.getD "" ++ "_" ++ name
  (objectArgs cls).map (fun a => (a, none)) ++
  ps.flatMap (fun p =>
    valueArgs p.1.name (stored p.1.sem) p.2 p.1.sem ++
    [(.template "::EasyMock::EasyMock_Matcher_Cpp".toList p.1.sem (pre ++ "_match_" ++ p.1.name).toList, none)]) ++
  R.toList.flatMap (fun r => valueArgs (pre ++ "_returnValue") (unqual r.1) r.2 r.1) ++
  (outArgs (ps.map (·.1))).map (fun a => (a, none))

/-- The types of the objects to which the parameters which are references refer at first. -/
def objects : Params → List (Option Sem)
  | .nil => []
  | .cons _ (.ref _ r) _ rest => some (objectSem r) :: objects rest
  | .cons _ _ _ rest => none :: objects rest

/-- The type of the object to which a result which is a reference refers at first. -/
def resultObject : Ty → Option Sem
  | .ref _ r => some (unqual (semOf r))
  | _ => none

/-- What a statement declares in C++. -/
def readCpp : Item → Option MemberArg
  | .stmt t => CDecl.readMember t
  | _ => none

/-- The member for a parameter. -/
structure MemberCpp (e : String × String × Gen.Out × XDecl) (m : MemberType) (p : Par) (o : Option Sem) : Prop where
  fits : Fits e p
  plain : e.2.2.2.text = ""
  value : ∀ n, Word n → Word ("default_" ++ n) →
    (memberItems m n "").map readCpp = (valueArgs n (stored p.sem) o p.sem).map some

theorem reads_cpp {type name n : String} {S : Sem} (h : Declares (type ++ " " ++ name) n S) :
    readCpp (declares type name "") = some (.plain n.toList S, none) := by
  show CDecl.readMember (type ++ " " ++ name ++ "").toList = _
  rw [String.append_empty]
  exact CDecl.member_plain (CDecl.declares_arg h) h.brace

theorem reads_template {w T n : String} {S : Sem} (hw : Word w) (hn : Word n) (h : Declares (T ++ " " ++ "x") "x" S) :
    readCpp (declares (w ++ "<" ++ T ++ ">") n "") = some (.template w.toList S n.toList, none) := by
  show CDecl.readMember (w ++ "<" ++ T ++ ">" ++ " " ++ n ++ "").toList = _
  have e : w ++ "<" ++ T ++ ">" ++ " " ++ n = w ++ "<" ++ T ++ "> " ++ n := by
    rw [String.append_assoc (s₂ := ">")]; rfl
  rw [String.append_empty, e]
  exact CDecl.member_plain (CDecl.template_arg hw hn h) (CDecl.template_brace hw hn h)

theorem reads_wrapper {T n i : String} {S : Sem} (hn : Word n) (hi : Word i) (h : Declares (T ++ " " ++ "x") "x" S) :
    readCpp (declares ("std::reference_wrapper<" ++ T ++ ">") n ("{ " ++ i ++ " }")) =
      some (.template "std::reference_wrapper".toList S n.toList, some i.toList) := by
  have hw : Word "std::reference_wrapper" := by decide +kernel
  show CDecl.readMember ("std::reference_wrapper<" ++ T ++ ">" ++ " " ++ n ++ ("{ " ++ i ++ " }")).toList = _
  have e : "std::reference_wrapper<" ++ T ++ ">" ++ " " ++ n = "std::reference_wrapper" ++ "<" ++ T ++ "> " ++ n := by
    rw [String.append_assoc (s₂ := ">")]; rfl
  rw [e]
  exact CDecl.member_init (CDecl.template_arg hw hn h) (CDecl.template_brace hw hn h) hi

theorem value_reference {raw deref n : String} {value object S : Sem} (hn : Word n) (hd : Word ("default_" ++ n))
    (h1 : Declares (raw ++ " " ++ ("default_" ++ n)) ("default_" ++ n) object) (h2 : Declares (deref ++ " " ++ "x") "x" S) :
    (memberItems (.reference raw deref) n "").map readCpp = (valueArgs n value (some object) (.ref S)).map some := by
  have e : "{ default_" ++ n ++ " }" = "{ " ++ ("default_" ++ n) ++ " }" := by
    rw [← String.append_assoc]; rfl
  simp only [memberItems, List.map_cons, List.map_nil, e, valueArgs]
  rw [reads_cpp h1, reads_wrapper hn hd h2]

theorem value_plain {T n : String} {value S : Sem} {object : Option Sem} (hS : ∀ S', S ≠ .ref S') (h : Declares (T ++ " " ++ n) n value) :
    (memberItems (.regular T) n "").map readCpp = (valueArgs n value object S).map some := by
  simp only [memberItems, List.map_cons, List.map_nil]
  rw [reads_cpp h]
  cases object <;> cases S <;> first | rfl | exact absurd rfl (hS _)

theorem sem_not_ref {t : Ty} (h : reference t = false) : ∀ S, semOf t ≠ .ref S := by
  intro S hS
  cases t <;> first | (cases h; done) | (cases hS; done)

theorem members_fit_cpp : ∀ (ps : Params) (Ss : Sems) (k : Nat), Listed ps Ss → AllPlain ps → StorableCpp ps Ss →
    ∃ L : List (((String × String × Gen.Out × XDecl) × MemberType) × Par × Option Sem),
      (paramSection k ps).1.entries.zip (membersOf ps) = L.map (·.1) ∧ (paramSection k ps).1.entries = L.map (·.1.1) ∧
      pars (paramSection k ps).1.names ps Ss = L.map (·.2.1) ∧ objects ps = L.map (·.2.2) ∧ ∀ x ∈ L, MemberCpp x.1.1 x.1.2 x.2.1 x.2.2
  | .nil, _, k, .nil, _, _ => ⟨[], by rw [paramSection]; rfl, by rw [paramSection]; rfl, by rw [paramSection]; rfl, rfl, by simp⟩
  | .cons s t n rest, _, k, .cons (S := S) (Ss := Ss) hn hent hrest, ho, hst => by
    obtain ⟨name, hname⟩ : ∃ name, name = (if n.isEmpty then "__easymock_param" ++ toString (extraOf false k t).2 else n) := ⟨_, rfl⟩
    obtain ⟨k', hk'⟩ : ∃ k', k' = (if n.isEmpty then (extraOf false k t).2 + 1 else (extraOf false k t).2) := ⟨_, rfl⟩
    have hw : Word name := by
      rw [hname]
      split
      · exact CDecl.unnamed_word _
      · rename_i he
        rcases hn with rfl | hn
        · simp at he
        · exact hn
    obtain ⟨hs, hS, hr, hst'⟩ := hst
    obtain ⟨L, h0, h1, h2, h4, h3⟩ := members_fit_cpp rest Ss k' hrest ho.2 hst'
    obtain ⟨obj, hobj, hval⟩ : ∃ obj, objects (.cons s t n rest) = obj :: objects rest ∧
        ∀ n, Word n → Word ("default_" ++ n) → (memberItems (memberOf s t) n "").map readCpp =
          (valueArgs n (stored (semOf t)) obj (semOf t)).map some := by
      rcases hr with hr | ⟨i, r, rfl, hr⟩
      · refine ⟨none, ?_, fun n hn _ => ?_⟩
        · cases t <;> first | (cases hr; done) | rfl
        · subst hS
          obtain ⟨T, hT, hd⟩ := member_reads s k hs hr hent
          rw [hT]
          have := hd n hn
          rw [CDecl.extraOf_noFn t false k ho.1, show XDecl.none.text = "" from rfl, String.append_empty] at this
          exact value_plain (sem_not_ref hr) this
      · refine ⟨some (objectSem r), rfl, fun n hn hd => ?_⟩
        have hs' : Spellable false r := spell_down r hs.1 ho.1
        show (memberItems (.reference (Types.attrs (Types.rawType r)).name (Types.fullName (Types.dereferenced r))) n "").map readCpp = _
        rw [deref_target r hr, full_text hs']
        exact value_reference hn hd (declares_object r hr hd) (declares_spelled hs' ho.1 (by decide +kernel))
    rw [Gen.paramSection_cons, ← hname, ← hk', hobj]
    refine ⟨(((Types.declareString s t, name, output t, (extraOf false k t).1), memberOf s t), ⟨name, output t, S⟩, obj) :: L, ?_, ?_, ?_, ?_, ?_⟩
    · rw [PList.entries, membersOf, List.zip_cons_cons, h0]; rfl
    · rw [PList.entries, h1]; rfl
    · unfold PList.names at h2 ⊢
      rw [PList.entries, List.map_cons, pars, h2]; rfl
    · rw [h4]; rfl
    · intro x hx
      rcases List.mem_cons.1 hx with rfl | hx
      · have he : (extraOf false k t).1.text = "" := by rw [CDecl.extraOf_noFn t false k ho.1]; rfl
        refine ⟨⟨rfl, rfl, hw, fun m hm => CDecl.declares_entry hent k hm, fun h => he⟩, he, ?_⟩
        subst hS
        exact hval
      · exact h3 x hx

/-- **C80** in C++ (partial: no parameter is a pointer to a function; references refer to named types, `const` ones, or typedefs of
    them).  The data structure in which an Expect function stores an expected call has the object of a member function; a
    member for each parameter of the type of the parameter (without `const`, but for constant pointers), or for a
    reference a wrapper of the type it refers to, which refers at first to an object of this type; for each parameter a matcher for values of
    its type; the result in the same way; and for each output a pointer of the type of its parameter, in this order and nothing else. -/
theorem C80_cpp_partial (c : Config) (k : Nat) (f : FunDecl) {Ss : Sems} (hc : c.cpp = true) (hn : Word f.info.name)
    (hm : ∀ p, f.parent = some p → Word (Types.attrs p).name) (hp : Listed f.params Ss) (ho : AllPlain f.params)
    (hst : StorableCpp f.params Ss)
    (hr : returnsVoid f.ret = false → Spellable false f.ret ∧ NoFn f.ret ∧
      (reference f.ret = false ∨ ∃ i r, f.ret = .ref i r ∧ reference r = false)) :
    let s := (funSection c k f).1
    let ps := pars s.params.names f.params Ss
    (dataItems c (srcFun c k f)).map readCpp =
      (memberArgs (f.parent.map (fun p => (Types.attrs p).name)) f.info.name (ps.zip (objects f.params))
        ((returned f (semOf f.ret)).map (fun r => (r, resultObject f.ret)))).map some := by
  intro s ps
  obtain ⟨L, h0, h1, h2, h4, h3⟩ := members_fit_cpp f.params Ss _ hp ho hst
  have hps : ps = L.map (·.2.1) := h2
  have hz : s.params.entries.zip (membersOf f.params) = L.map (·.1) := h0
  have he : s.params.entries = L.map (·.1.1) := h1
  have hcls : s.cls = f.parent.map (fun p => (Types.attrs p).name) := rfl
  have hword : ∀ n, s.cls = some n → Word n := by
    intro n hn
    rw [hcls] at hn
    cases hpa : f.parent with
    | none => rw [hpa] at hn; cases hn
    | some p => rw [hpa] at hn; cases hn; exact hm p hpa
  obtain ⟨pre, hpre⟩ : ∃ pre, pre = s.cls.getD "" ++ "_" ++ f.info.name := ⟨_, rfl⟩
  have hdp : dataPrefix s = pre := by rw [hpre]; rfl
  have hpw : ∀ c ∈ pre.toList, CDecl.wordChar c = true := by
    rw [hpre]
    refine chars_app (chars_app ?_ (by decide)) hn.2.1
    cases hsc : s.cls with
    | none => intro c hc; cases hc
    | some n => exact (hword n hsc).2.1
  have hzip : ps.zip (objects f.params) = L.map (·.2) := by
    rw [hps, h4]
    clear h0 h1 h2 h3 h4 hps hz he
    induction L with
    | nil => rfl
    | cons x L ih => rw [List.map_cons, List.map_cons, List.zip_cons_cons, ih]; rfl
  have hdef : ∀ n, Word n → Word ("default_" ++ n) := fun n hn =>
    word_of (x := 'u') (chars_app (by decide) hn.2.1) (mem_left' (by decide)) (by decide)
  have hmw : Word "::EasyMock::EasyMock_Matcher_Cpp" := by decide +kernel
  rw [hzip, ← hcls]
  unfold dataItems memberArgs
  simp only [List.map_append]
  rw [← hpre]
  congr 1
  · congr 1
    · congr 1
      · show (s.cls.toList.map _).map readCpp = ((objectArgs s.cls).map _).map some
        cases hsc : s.cls with
        | none => rfl
        | some n =>
          have := object_arg (hword n hsc)
          have hb : '{' ∉ ("::" ++ n ++ "* instance").toList := by
            simp only [String.toList_append, List.mem_append, not_or]
            exact ⟨⟨by decide +kernel, CDecl.word_brace (hword n hsc)⟩, by decide +kernel⟩
          have e : "::" ++ n ++ "*" ++ " " ++ "instance" ++ "" = "::" ++ n ++ "* instance" := by
            rw [String.append_empty, String.append_assoc (s₂ := " "), String.append_assoc (s₂ := "*")]; rfl
          show [CDecl.readMember ("::" ++ n ++ "*" ++ " " ++ "instance" ++ "").toList] = _
          rw [e, CDecl.member_plain this hb]
          rfl
      · show ((((s.params.entries.zip (membersOf f.params))).map _).flatten).map readCpp = _
        rw [hz, List.map_map, List.map_flatten, List.map_map, List.flatMap_map, List.map_flatMap]
        refine congrArg List.flatten (List.map_congr_left fun x hx => ?_)
        have h := h3 x hx
        simp only [Function.comp_apply, List.map_append, List.map_cons, List.map_nil]
        rw [h.plain, h.fits.name, h.value _ h.fits.word (hdef _ h.fits.word)]
        congr 1
        have hw : Word (pre ++ "_match_" ++ x.2.1.name) :=
          word_of (x := 'm') (chars_app (chars_app hpw (by decide)) h.fits.word.2.1) (mem_left' (mem_right' (by decide))) (by decide)
        have e1 : MockCode.matchMember (srcFun c k f).sec x.2.1.name = pre ++ "_match_" ++ x.2.1.name := by
          show dataPrefix s ++ "_match_" ++ _ = _
          rw [hdp]
        have hd := h.fits.decl "x" (by decide +kernel)
        rw [h.plain, String.append_empty] at hd
        have e2 : "::EasyMock::EasyMock_Matcher_Cpp<" ++ x.1.1.1 ++ ">" = "::EasyMock::EasyMock_Matcher_Cpp" ++ "<" ++ x.1.1.1 ++ ">" := rfl
        rw [e1, hc, if_pos rfl, e2, reads_template hmw hw hd]
    · show (if s.hasReturn = true then _ else ([] : List Item)).map readCpp = _
      unfold returned
      cases hv : returnsVoid f.ret with
      | true =>
        rw [if_neg (by simp [s, funSection, hv])]
        rfl
      | false =>
        obtain ⟨h5, h6, h7⟩ := hr hv
        rw [if_pos (by simp [s, funSection, hv])]
        show (memberItems (resultOf f.ret) (dataPrefix s ++ "_returnValue") s.retExtra.text).map readCpp = _
        have hx : s.retExtra.text = "" := by
          have : s.retExtra = (extraOf false (extraOf false k f.ret).2 f.ret).1 := by
            simp [s, funSection, hv]
          rw [this, CDecl.extraOf_noFn f.ret false _ h6]; rfl
        have hw : Word (pre ++ "_returnValue") :=
          word_of (x := 'u') (chars_app hpw (by decide)) (mem_right' (by decide)) (by decide)
        rw [hdp, hx]
        simp only [Option.map_some, Option.toList_some, List.flatMap_cons, List.flatMap_nil, List.append_nil,
          Bool.false_eq_true, if_false]
        rcases h7 with h7 | ⟨i, r, h7, h8⟩
        · rw [result_type h5 h7]
          refine value_plain (sem_not_ref h7) ?_
          have := result_reads 0 h5 hw
          rw [CDecl.extraOf_noFn f.ret false 0 h6, show XDecl.none.text = "" from rfl, String.append_empty] at this
          exact this
        · rw [h7] at h5 h6
          have hs' : Spellable false r := spell_down r h5.1 h6
          have ed : Types.dereferenced r = r := dereferenced_eq r h8
          have e1 : resultOf f.ret = .reference (Types.declPrefix (unqualify r)) (Types.declPrefix r) := by
            rw [h7]
            show MemberType.reference (Types.fullName (unqualify (Types.dereferenced r))) (Types.fullName (Types.dereferenced r)) = _
            rw [ed, full_text hs', full_text (spellable_unqualify hs')]
          have e2 : resultObject f.ret = some (unqual (semOf r)) := by rw [h7]; rfl
          rw [e1, e2]
          rw [h7]
          refine value_reference hw (hdef _ hw) ?_ (declares_spelled hs' h6 (by decide +kernel))
          have := result_reads 0 hs' (hdef _ hw)
          rw [CDecl.extraOf_noFn r false 0 h6, show XDecl.none.text = "" from rfl, String.append_empty] at this
          exact this
  · have a1 : (srcFun c k f).sec.outs = (L.map (·.1.1)).filter (fun e => e.2.2.1 != .none) := by
      rw [← he]; rfl
    have a2 : L.filter (fun x => x.2.1.out != .none) = L.filter ((fun e : String × String × Gen.Out × XDecl => e.2.2.1 != .none) ∘ (·.1.1)) := by
      refine List.filter_congr fun x hx => ?_
      simp only [Function.comp_apply, (h3 x hx).fits.out]
    have hsw : Word "easyMock_size_t" := by decide +kernel
    unfold outArgs
    rw [a1, List.map_map, List.filter_map, List.filter_map, List.map_map, List.map_flatten, List.map_map, List.flatMap_map, List.filter_map, List.flatMap_map, List.map_flatMap]
    rw [show L.filter (((fun p : Par => p.out != .none) ∘ (·.1)) ∘ (·.2)) = L.filter (fun x => x.2.1.out != .none) from rfl, a2]
    refine congrArg List.flatten (List.map_congr_left fun x hx => ?_)
    rw [← a2, List.mem_filter] at hx
    have h := (h3 x hx.1).fits
    have hw : Word ("out_" ++ x.2.1.name) := word_of (x := 'u') (chars_app (by decide) h.word.2.1) (mem_left' (by decide)) (by decide)
    have hw2 : Word ("out_" ++ x.2.1.name ++ "_size") :=
      word_of (x := 'u') (chars_app hw.2.1 (by decide)) (mem_left' (mem_left' (by decide))) (by decide)
    have hd := h.decl _ hw
    rw [(h3 x hx.1).plain, String.append_empty] at hd
    simp only [Function.comp_apply, List.map_cons, h.name, h.out]
    rw [reads_cpp hd]
    congr 1
    cases x.2.1.out == Gen.Out.sized with
    | false => rfl
    | true =>
      simp only [if_true, List.map_cons, List.map_nil]
      rw [reads_cpp (CDecl.declares_word hsw hw2)]
      rfl

/-! ## Examples -/

/-- `const struct S *g(struct S *out, void *buf, const int &n)`. -/
def exampleCpp : FunDecl where
  info := { name := "g" }
  retStr := ""
  ret := .ptr false (.const false (.comp false .struct "S" .nil false false .nil))
  params :=
    .cons "" (.ptr false (.comp false .struct "S" .nil false false .nil)) "out"
    (.cons "" (.ptr false (.ctype .void false false)) "buf"
    (.cons "" (.ref false (.const false (.ctype .int false false))) "n" .nil))

theorem example_cpp : Spellables exampleCpp.params ∧ Spellable false exampleCpp.ret := by
  simp only [exampleCpp, Spellable, Spellables, CDecl.IsFn, NoFn]
  decide +kernel

/-- C81 for this function in C++. -/
example : ∃ texts : List String, headerDecls { cpp := true } (funSection { cpp := true } 3 exampleCpp).1 = texts.map (· ++ ";") ∧
    ∃ args outs, texts.map readProcedure = [some ("ExpectAndReturn".toList, args), some ("ExpectReturnAndOutput".toList, args ++ outs)] ∧
    args = [.plain "out".toList (.ptr (.named ["struct".toList, "S".toList])), .plain "buf".toList (.ptr (word "void")),
      .plain "n".toList (.ref (.qual "const".toList (word "int"))),
      .plain "to_return".toList (.ptr (.qual "const".toList (.named ["struct".toList, "S".toList]))),
      .template "::EasyMock::EasyMock_Matcher_Cpp".toList (.ptr (.named ["struct".toList, "S".toList])) "easyMock_match_out".toList,
      .template "::EasyMock::EasyMock_Matcher_Cpp".toList (.ptr (word "void")) "easyMock_match_buf".toList,
      .template "::EasyMock::EasyMock_Matcher_Cpp".toList (.ref (.qual "const".toList (word "int"))) "easyMock_match_n".toList] ∧
    outs = [.plain "out_out".toList (.ptr (.named ["struct".toList, "S".toList])), .plain "out_buf".toList (.ptr (word "void")),
      .plain "out_buf_size".toList (word "easyMock_size_t")] := by
  have hr : CDecl.Entry exampleCpp.retStr exampleCpp.ret (semOf exampleCpp.ret) := CDecl.entry_type (Or.inl rfl) example_cpp.2
  obtain ⟨-, texts, h1, h2⟩ := C81_cpp_partial { cpp := true } 3 exampleCpp rfl (fun p h => by cases h)
    (CDecl.listed_types _ example_cpp.1) ⟨trivial, trivial, trivial, trivial⟩ (fun _ => hr)
  refine ⟨texts, h1, _, _, ?_, rfl, rfl⟩
  exact h2.trans (by decide +kernel)

/-- C80 for this function in C++: the reference is stored with an object to which it refers at first. -/
example : (dataItems { cpp := true } (srcFun { cpp := true } 3 exampleCpp)).map readCpp =
    [some (.plain "out".toList (.ptr (.named ["struct".toList, "S".toList])), none),
     some (.template "::EasyMock::EasyMock_Matcher_Cpp".toList (.ptr (.named ["struct".toList, "S".toList])) "_g_match_out".toList, none),
     some (.plain "buf".toList (.ptr (word "void")), none),
     some (.template "::EasyMock::EasyMock_Matcher_Cpp".toList (.ptr (word "void")) "_g_match_buf".toList, none),
     some (.plain "default_n".toList (word "int"), none),
     some (.template "std::reference_wrapper".toList (.qual "const".toList (word "int")) "n".toList, some "default_n".toList),
     some (.template "::EasyMock::EasyMock_Matcher_Cpp".toList (.ref (.qual "const".toList (word "int"))) "_g_match_n".toList, none),
     some (.plain "_g_returnValue".toList (.ptr (.qual "const".toList (.named ["struct".toList, "S".toList]))), none),
     some (.plain "out_out".toList (.ptr (.named ["struct".toList, "S".toList])), none),
     some (.plain "out_buf".toList (.ptr (word "void")), none), some (.plain "out_buf_size".toList (word "easyMock_size_t"), none)] := by
  have hst : StorableCpp exampleCpp.params (semsOf exampleCpp.params) := by
    refine ⟨?_, rfl, Or.inl rfl, trivial, rfl, Or.inl rfl, ⟨⟨trivial, not_false⟩, fun _ => trivial⟩, rfl, Or.inr ⟨_, _, rfl, trivial⟩, trivial⟩
    show Word "S"
    decide +kernel
  exact (C80_cpp_partial { cpp := true } 3 exampleCpp rfl (by decide +kernel) (fun p h => by cases h) (CDecl.listed_types _ example_cpp.1)
    ⟨trivial, trivial, trivial, trivial⟩ hst (fun _ => ⟨example_cpp.2, trivial, Or.inl rfl⟩)).trans (by decide +kernel)

/-- `int A::m(int n)`, in namespaces. -/
def exampleMember (ns : List String) : FunDecl where
  info := { name := "m" }
  retStr := "int"
  ret := .ctype .int false false
  params := .cons "" (.ctype .int false false) "n" .nil
  parent := some (.comp false .cls "A" .nil false false .nil)
  ns := ns

/-- What the header declares for it. -/
theorem example_member (ns : List String) :
    ∃ texts : List String, headerDecls { cpp := true } (funSection { cpp := true } 0 (exampleMember ns)).1 = texts.map (· ++ ";") ∧
    texts.map readProcedure = [some ("ExpectAndReturn".toList, [.plain "instance".toList (.ptr (word "::A")),
      .plain "n".toList (word "int"), .plain "to_return".toList (word "int"),
      .template "::EasyMock::EasyMock_Matcher_Cpp".toList (word "int") "easyMock_match_n".toList])] := by
  have hs : Spellables (exampleMember ns).params ∧ Spellable false (exampleMember ns).ret := by
    simp only [exampleMember, Spellable, Spellables]
    decide +kernel
  have hr : CDecl.Entry (exampleMember ns).retStr (exampleMember ns).ret (semOf (exampleMember ns).ret) :=
    CDecl.entry_type (Or.inr rfl) hs.2
  obtain ⟨-, texts, h1, h2⟩ := C81_cpp_partial { cpp := true } 0 (exampleMember ns) rfl
    (fun p h => by cases h; exact ⟨by decide +kernel, Or.inl ⟨_, _, _, rfl⟩⟩)
    (CDecl.listed_types _ hs.1) ⟨trivial, trivial⟩ (fun _ => hr)
  exact ⟨texts, h1, h2.trans (by with_unfolding_all rfl)⟩

/-! ## Where C81 is false in C++ -/

/-- The object of a member of a class in a namespace is taken as an object of the class of this name outside of all namespaces:
    the Expect function of `n::A::m` takes a `::A*`, as that of `A::m` does. -/
theorem C81_refuted_namespace : ∀ ns : List String, ∃ text args,
    headerDecls { cpp := true } (funSection { cpp := true } 0 (exampleMember ns)).1 = [text ++ ";"] ∧
    readProcedure text = some ("ExpectAndReturn".toList, .plain "instance".toList (.ptr (word "::A")) :: args) := by
  intro ns
  obtain ⟨texts, h1, h2⟩ := example_member ns
  cases texts with
  | nil => cases h2
  | cons t rest =>
    obtain ⟨e1, e2⟩ := List.cons.inj h2
    have : rest = [] := by simpa using e2
    subst this
    exact ⟨t, _, h1, e1⟩

/-- The declaration for a parameter which is a pointer to a function cannot be read. -/
theorem C81_refuted_callback : ∃ f : FunDecl,
    headerDecls { cpp := true } (funSection { cpp := true } 0 f).1 =
      ["void ExpectAndReturn(int(* p)(), ::EasyMock::EasyMock_Matcher_Cpp<int(*> easyMock_match_p);"] ∧
    readProcedure "void ExpectAndReturn(int(* p)(), ::EasyMock::EasyMock_Matcher_Cpp<int(*> easyMock_match_p)" = none :=
  ⟨takes (.ptr false (.fn false { name := "" } "int" (.ctype .int false false) .nil)), by decide +kernel, by decide +kernel⟩

end EasyMock.CFile
