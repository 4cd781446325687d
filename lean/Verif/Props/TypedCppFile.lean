import Verif.CFile.ProgramCpp
import Verif.Props.TypedFile

/-! # The generated files of a program in C++: C85

As in `TypedFile`, for C++: free functions in namespaces, and member functions; the lists of parameters are read with
`CDecl.readProcedure`. -/

namespace EasyMock.CFile

open EasyMock.Gen
open EasyMock.Types (Ty Params FunDecl)
open EasyMock.Parser
open EasyMock.CDecl
open EasyMock.CFile.Txt (FunText CppText CppMember CppParam)

/-! ## What is declared -/

/-- The class of a function. -/
def classOf (D : Decls) (d : FnD) : Option String := d.member.map (fun m => (D.records m.record).tag)

/-- Where the Expect functions of a function are: in namespaces called like those of the function, its class, and itself. -/
def expectPath (D : Decls) (d : FnD) : List Scope :=
  ("EasyMock" :: (getNamespace d.scopes ++ (classOf D d).toList ++ [d.name])).map (fun n => .space n.toList)

/-- The parameters `ps` are those of the function: their types, their outputs (C46), and their names, if they have any. -/
structure ParsOf (D : Decls) (d : FnD) (Ss : Sems) (ps : List Par) : Prop where
  slots : ps.map (fun p => (p.out, p.sem)) = slots D d.params Ss
  names : (ps.map Par.name).length = d.params.length ∧ ∀ x ∈ (d.params.map ParamD.name).zip (ps.map Par.name), x.1 ≠ "" → x.2 = x.1

/-- The Expect functions of a function in C++: they take the object of a member function, the parameters, the value to return and a
    matcher for each parameter; the second one, which there is if a parameter has an output, also takes the outputs. -/
def cppDeclared (D : Decls) (d : FnD) (ps : List Par) (R : Option Sem) : List (List Char × List Arg) :=
  let args := objectArgs (classOf D d) ++ expectArgs ps R
  ("ExpectAndReturn".toList, args) :: (if outArgs ps = [] then [] else [("ExpectReturnAndOutput".toList, args ++ outArgs ps)])

/-- What the texts declare which the files have for a function. -/
structure CppSays (D : Decls) (c : Config) (k : Nat) (r : Row) (ps : List Par) : Prop where
  pars : ParsOf D r.d r.Ss ps
  spaces : (funSection c k r.f).1.ns = getNamespace r.d.scopes
  scopes : ("EasyMock" :: ((funSection c k r.f).1.ns ++ (funSection c k r.f).1.cls.toList ++ [(funSection c k r.f).1.name])).map
    (fun n => Scope.space n.toList) = expectPath D r.d
  mock : read (mockSignature (funSection c k r.f).1) = some ((declName D r.d).toList, declType r.d r.R r.Ss)
  expect : (("void ExpectAndReturn(" ++ expectParams c (funSection c k r.f).1 ++ ")") ::
    (if (funSection c k r.f).1.outs = [] then []
     else ["void ExpectReturnAndOutput(" ++ expectOutputParams c (funSection c k r.f).1 ++ ")"])).map readProcedure =
    (cppDeclared D r.d ps (returnOf r.d r.R)).map some

theorem cpp_lines {c : Config} (hc : c.cpp = true) (s : FunSection) : headerDecls c s =
    (("void ExpectAndReturn(" ++ expectParams c s ++ ")") ::
    (if s.outs = [] then [] else ["void ExpectReturnAndOutput(" ++ expectOutputParams c s ++ ")"])).map (· ++ ";") := by
  have e3 : "void " ++ ("ExpectAndReturn" ++ "(") = "void ExpectAndReturn(" := by decide +kernel
  have e4 : "void " ++ ("ExpectReturnAndOutput" ++ "(") = "void ExpectReturnAndOutput(" := by decide +kernel
  have e5 : ")" ++ ";" = ");" := by decide +kernel
  unfold headerDecls expectName expectOutputName
  rw [hc, ← e3, ← e4, if_pos rfl, String.empty_append, String.empty_append]
  cases ho : s.outs with
  | nil =>
    rw [if_pos (by rfl), if_pos rfl]
    simp only [List.map_cons, List.map_nil, List.append_nil, sassoc, e5]
  | cons x l =>
    rw [if_neg (by simp), if_neg (by simp)]
    simp only [List.map_cons, List.map_nil, sassoc, e5, List.cons_append, List.nil_append]

theorem outArgs_nil (ps : List Par) : outArgs ps = [] ↔ ps.any (fun p => p.out != .none) = false := by
  unfold outArgs
  rw [List.any_eq_false]
  constructor
  · intro h p hp ho
    rw [List.flatMap_eq_nil_iff] at h
    cases h p (List.mem_filter.mpr ⟨hp, ho⟩)
  · intro h
    rw [List.filter_eq_nil_iff.mpr h]; rfl

/-- No parameter is an array. -/
theorem no_arrays {D : Decls} {ds : List ParamD} {Ss : Sems} (h : ParamsAre D ds Ss) (hp : ∀ p ∈ ds, CppParam D p) :
    ∀ p ∈ ds, ¬ CArr p.q.ty := by
  have aux : ∀ (ps : List ParamD) (Ss : Sems), ParamsAre D ps Ss → ∀ p ∈ ps, p.macroText = none → ¬ CArr p.q.ty := by
    intro ps Ss h
    induction h with
    | nil => intro p hp; cases hp
    | cons _ hp _ ih =>
      intro p hm hn
      rcases List.mem_cons.mp hm with rfl | hm
      · cases hp with
        | type _ h _ => exact plain_array h
        | text _ e => rw [hn] at e; cases e
      · exact ih p hm hn
  intro p hm
  cases e : p.macroText with
  | none => exact aux _ _ h p hm e
  | some ty => exact plain_array ((hp p hm).text ty e).1

/-- The class which the generator finds is the one of the function. -/
theorem class_of {D : Decls} {ms : MacroInfo} {ds : List FnD} {fs : List FunDecl}
    (hA : Unambiguous D (Used D (ds.flatMap typesOf))) (hC : NamedCycles D (Used D (ds.flatMap typesOf)))
    (hp : ParsedFile D ms ds fs) {i : Nat} {d : FnD} {f : FunDecl} (hd : ds[i]? = some d) (hf : fs[i]? = some f)
    (hm : ∀ m ∈ d.member, CppMember D ds d m) : f.parent.map (fun p => (Types.attrs p).name) = classOf D d := by
  have h := (C76_functions_partial hA hC hp).2 i d f hd hf
  unfold classOf
  cases e : d.member with
  | none => rw [(h.free e).1]; rfl
  | some m =>
    obtain ⟨t, ht⟩ := C82_partial hA hC hp i d f hd hf m e (hm m e).stays
    rw [ht, Option.map_some, Txt.class_name ((h.member m e).1 t ht).1]
    rfl

/-- The parameters of a member function. -/
theorem method_ok {D : Decls} {ms : MacroInfo} {ds : List FnD} {d : FnD} {f : FunDecl} (h : FnOf D ms d f)
    (hm : ∀ m ∈ d.member, CppMember D ds d m) : MethodOk f := by
  intro p hp
  cases e : d.member with
  | none => rw [(h.free e).1] at hp; cases hp
  | some m =>
    have hmem := hm m e
    refine ⟨by rw [Txt.class_name ((h.member m e).1 p hp).1]; exact hmem.plain.cls, ?_⟩
    have hps := h.params
    rcases hmem.params with ⟨q, hq⟩ | ⟨hq, v, hv⟩
    · rw [hq] at hps
      generalize f.params = ps at hps
      cases hps with
      | cons _ _ _ _ hrest => cases hrest; exact Or.inl ⟨_, _, _, rfl⟩
    · rw [hq] at hps
      refine Or.inr ⟨?_, nothing_returns (by rw [← hv]; exact h.ret)⟩
      generalize f.params = ps at hps
      cases hps; rfl

theorem cpp_says {D : Decls} {ms : MacroInfo} {ds : List FnD} {fs : List FunDecl}
    (hA : Unambiguous D (Used D (ds.flatMap typesOf))) (hC : NamedCycles D (Used D (ds.flatMap typesOf)))
    (hp : ParsedFile D ms ds fs) (i : Nat) (r : Row) (hd : ds[i]? = some r.d) (hf : fs[i]? = some r.f)
    (ht : CppText D ms ds r.d r.Ss r.R) (c : Config) (hc : c.cpp = true) (ha : c.attrs = []) (k : Nat) :
    CppSays D c k r (pars (funSection c k r.f).1.params.names r.f.params r.Ss) := by
  have h := (C76_functions_partial hA hC hp).2 i r.d r.f hd hf
  have hl := params_listed r.d.params r.f.params r.Ss h.params ht.params
  have hpl := (Txt.params_cpp (c := c) r.d.params r.f.params r.Ss h.params ht.params ht.plain).2
  have hcls := class_of hA hC hp hd hf ht.member
  have hattrs : (funSection c k r.f).1.attrs = [] := by
    show keptAttrs c r.f = []
    unfold keptAttrs
    rw [ha]
    exact List.filter_eq_nil_iff.mpr (fun a _ h => by cases h)
  obtain ⟨kept, h1, h2, h3, h4, -⟩ : ∃ kept, ResultWords ms r.d.retText kept ∧
      read (String.ofList ([' '].intercalate kept) ++ " " ++ r.d.name) = some (r.d.name.toList, r.R) ∧
      (CNoFn r.d.ret.ty ∨ ∃ n k v t, r.d.ret = .mk false v (.tdef n (.mk k false t)) ∧ n ≠ "" ∧ ¬ CFn t ∧ ¬ CArr t) ∧
      (∃ c w l, kept = (c :: w) :: l ∧ wordChar c = true) ∧ kept.head? ≠ some "namespace".toList := by
    rcases ht.result.text with h | ⟨h1, -⟩
    · exact h
    · exfalso
      cases hq : r.d.ret with
      | mk k v c =>
        have hf := ht.flat
        rw [hq] at hf h1
        have h2 := isFn_noFn c hf
        rw [(isFn_iff c).2 h1] at h2
        cases h2
  have hres : ResultIs D ms r.d r.R := .words kept h1 h2 h3
  refine ⟨⟨?_, ?_⟩, h.ns, ?_, ?_, ?_⟩
  · exact pars_slots r.d.params r.f.params r.Ss (if !returnsVoid r.f.ret then extraOf false (extraOf false k r.f.ret).2 r.f.ret
      else (.none, (extraOf false k r.f.ret).2)).2 h.params (no_arrays ht.params ht.plain) hl
  · exact names_given r.d.params r.f.params r.Ss (if !returnsVoid r.f.ret then extraOf false (extraOf false k r.f.ret).2 r.f.ret
      else (.none, (extraOf false k r.f.ret).2)).2 h.params hl
  · have e1 : (funSection c k r.f).1.ns = getNamespace r.d.scopes := h.ns
    have e2 : (funSection c k r.f).1.cls = classOf D r.d := hcls
    have e3 : (funSection c k r.f).1.name = r.d.name := h.name
    rw [e1, e2, e3]
    rfl
  · have := C76_partial hA hC hp i r.d r.f hd hf (fun m hm => ⟨(ht.member m hm).plain, (ht.member m hm).stays⟩) ht.name.2 ht.params hres
      (fun m _ _ => ht.flat) c k
    rw [← this, ← hattrs]
  · have hent : returnsVoid r.f.ret = false → CDecl.Entry r.f.retStr r.f.ret r.R := by
      intro hv
      have hval : Value r.d.ret := by
        rcases ht.result.value with ⟨v, hv'⟩ | hv'
        · have : returnsVoid r.f.ret = true := nothing_returns (by rw [← hv']; exact h.ret)
          rw [hv] at this; cases this
        · exact hv'
      exact result_entry h ht.name.2 (.words kept hval h1 h2 h3 h4)
    obtain ⟨-, texts, e1, e2⟩ := C81_cpp_partial c k r.f hc (method_ok h ht.member) hl hpl hent
    rw [returned_of h ht.result, hcls] at e2
    generalize pars (funSection c k r.f).1.params.names r.f.params r.Ss = ps at e2
    have hL : headerDecls c (funSection c k r.f).1 = _ := cpp_lines hc _
    rw [hL] at e1
    rw [append_semi e1, e2]
    unfold cppDeclared
    rw [List.map_cons]
    congr 1
    by_cases ho : outArgs ps = []
    · rw [if_pos ho, (outArgs_nil ps).mp ho]; rfl
    · rw [if_neg ho, show ps.any (fun p => p.out != .none) = true from (Bool.not_eq_false _).mp (fun h => ho ((outArgs_nil ps).mpr h))]; rfl

/-- What is known of each function, put together for all of them: the sections of the functions are made one after the other. -/
theorem each_row {β : Type} {c : Config} (P : Nat → Row → β → Prop) : ∀ (rows : List Row) (k : Nat), (∀ r ∈ rows, ∀ k, ∃ x, P k r x) →
    ∃ xs : List β, xs.length = rows.length ∧ (∀ y ∈ rows.zip xs, ∃ k, P k y.1 y.2) ∧
    ∀ {α : Type} (g : SrcFun → List α) (h : Row → β → List α), (∀ r ∈ rows, ∀ k x, P k r x → g (srcFun c k r.f) = h r x) →
    ((srcFuns c k (rows.map Row.f)).map g).flatten = (rows.zip xs).flatMap (fun y => h y.1 y.2)
  | [], _, _ => ⟨[], rfl, (fun x hx => nomatch hx), fun _ _ _ => rfl⟩
  | r :: rows, k, hs => by
    obtain ⟨x, hx⟩ := hs r (by simp) k
    obtain ⟨xs, h1, h2, h3⟩ := each_row (c := c) P rows (funSection c k r.f).2 (fun x hx => hs x (by simp [hx]))
    refine ⟨x :: xs, by rw [List.length_cons, List.length_cons, h1], ?_, ?_⟩
    · intro y hy
      rw [List.zip_cons_cons] at hy
      rcases List.mem_cons.mp hy with rfl | hy
      · exact ⟨k, hx⟩
      · exact h2 y hy
    · intro α g h hg
      rw [List.map_cons, srcFuns, List.map_cons, List.flatten_cons, List.zip_cons_cons, List.flatMap_cons, hg r (by simp) k x hx,
        h3 g h (fun x hx => hg x (by simp [hx]))]

theorem rows_cpp {D : Decls} {ms : MacroInfo} {rows : List Row}
    (hA : Unambiguous D (Used D ((rows.map Row.d).flatMap typesOf))) (hC : NamedCycles D (Used D ((rows.map Row.d).flatMap typesOf)))
    (hp : ParsedFile D ms (rows.map Row.d) (rows.map Row.f)) (ht : ∀ r ∈ rows, CppText D ms (rows.map Row.d) r.d r.Ss r.R)
    {c : Config} (hc : c.cpp = true) (ha : c.attrs = []) :
    (∀ f ∈ rows.map Row.f, FunText c f) ∧ ∀ r ∈ rows, ∀ k, ∃ ps, CppSays D c k r ps := by
  have hi : ∀ r ∈ rows, ∃ i : Nat, rows[i]? = some r := fun r hr => List.mem_iff_getElem?.mp hr
  constructor
  · intro f hf
    obtain ⟨r, hr, rfl⟩ := List.mem_map.mp hf
    obtain ⟨i, hi⟩ := hi r hr
    exact Txt.cpp_text ha ((C76_functions_partial hA hC hp).2 i r.d r.f (by rw [List.getElem?_map, hi]; rfl)
      (by rw [List.getElem?_map, hi]; rfl)) (ht r hr)
  · intro r hr k
    obtain ⟨i, hi⟩ := hi r hr
    exact ⟨_, cpp_says hA hC hp i r (by rw [List.getElem?_map, hi]; rfl) (by rw [List.getElem?_map, hi]; rfl) (ht r hr) c hc ha k⟩

/-- **C85** in C++ (partial: `CppText`; without `-t` and `--generate-attribute`).  From the program to the header: for the functions of
    a file in C++, the generated header is accepted, includes the mocked header, and declares exactly the
    comparators, each as a matcher, and the Expect functions of the functions, in their order, in the namespaces `EasyMock`, those of the function, its class and its name, with
    the names and types which the parameters and the results have in the program. -/
theorem C85_cpp_header_partial {D : Decls} {ms : MacroInfo} {rows : List Row}
    (hA : Unambiguous D (Used D ((rows.map Row.d).flatMap typesOf))) (hC : NamedCycles D (Used D ((rows.map Row.d).flatMap typesOf)))
    (hp : ParsedFile D ms (rows.map Row.d) (rows.map Row.f)) (ht : ∀ r ∈ rows, CppText D ms (rows.map Row.d) r.d r.Ss r.R)
    (c : Config) (hc : c.cpp = true) (ha : c.attrs = []) (hg : c.genTypes = false) (path : String) (hn : NameOk path)
    (cmps : List String) (hcmp : ∀ n ∈ cmps, Ident n.toList) (k : Nat)
    (m : List (List Char)) (hm : guardWord path ∉ m) :
    ∃ s, readFile m (headerText c path "" cmps ((srcFuns c k (rows.map Row.f)).map SrcFun.toFun)) = some s ∧
    s.includes = [quoted (fileName path), stdarg, easyMockH] ∧ (∀ d ∈ s.decls, d.body = none) ∧
    ∃ pss : List (List Par), pss.length = rows.length ∧ (∀ x ∈ rows.zip pss, ParsOf D x.1.d x.1.Ss x.2) ∧
    ∃ ds es : List Decl, s.decls = ds ++ es ∧
    ds.map (fun d => (d.scopes, read (String.ofList d.text))) = cmps.flatMap (fun n => (cmpDeclared n).map (fun x => ([], some x))) ∧
    es.map (fun d => (d.scopes, readProcedure (String.ofList d.text))) =
      (rows.zip pss).flatMap (fun x => (cppDeclared D x.1.d x.2 (returnOf x.1.d x.1.R)).map (fun y => (expectPath D x.1.d, some y))) := by
  obtain ⟨h1, h2⟩ := rows_cpp hA hC hp ht hc ha
  have hok : HeaderOk c path "" cmps ((srcFuns c k (rows.map Row.f)).map SrcFun.toFun) :=
    header_typed hn (fun h => by rw [hg] at h; cases h) hcmp h1
  have hT : typesSeen c path m "" = some ⟨guardWord path :: m, [], []⟩ := by unfold typesSeen; rw [hg]; rfl
  obtain ⟨base, hb, hr⟩ := C78_header_partial c path "" cmps _ m _ hok hT (fun h => by rw [hc] at h; cases h) hm
  obtain ⟨pss, p1, p2, p3⟩ := each_row (CppSays D c) rows k h2
  refine ⟨_, hr, by rw [hg]; rfl, ?_, pss, p1, fun y hy => (p2 y hy).choose_spec.pars, _, _, rfl, ?_, ?_⟩
  · intro d hd
    simp only [hg, hc, Bool.false_eq_true, false_and, if_false, if_true, List.map_nil, List.nil_append,
      List.map_map] at hd
    rcases List.mem_append.mp hd with hd | hd
    · obtain ⟨l, hl, hd⟩ := List.mem_flatten.mp hd
      obtain ⟨n, -, rfl⟩ := List.mem_map.mp hl
      rcases List.mem_cons.mp hd with rfl | hd
      · rfl
      · rw [List.mem_singleton] at hd
        subst hd
        rfl
    obtain ⟨l, hl, hd⟩ := List.mem_flatten.mp hd
    obtain ⟨s, -, rfl⟩ := List.mem_map.mp hl
    rcases List.mem_cons.mp hd with rfl | hd
    · rfl
    · split at hd
      · cases hd
      · rw [List.mem_singleton] at hd
        subst hd
        rfl
  · have hb : base = [] := by rw [hb, hc]; rfl
    rw [List.map_nil, List.nil_append, List.map_flatten, List.map_map]
    refine (congrArg List.flatten (List.map_congr_left (fun n h => ?_))).trans (List.flatMap_def ..).symm
    have e2 : (fun x : List Char × Sem => (([] : List Scope), some x)) = (fun x => ([], x)) ∘ some := rfl
    rw [e2, ← List.map_map, ← cmps_read (hcmp n h)]
    show [(base, read (String.ofList (cmpSignature n).toList)), (base, read (String.ofList (cmpDerefSignature n).toList))] = _
    rw [String.ofList_toList, String.ofList_toList, hb]
    rfl
  · simp only [hg, hc, Bool.false_eq_true, false_and, if_false, if_true, List.nil_append,
      List.map_map, List.map_flatten]
    refine p3 _ (fun r ps => (cppDeclared D r.d ps (returnOf r.d r.R)).map (fun y => (expectPath D r.d, some y))) (fun r _ k ps hs => ?_)
    have hx := congrArg (List.map (fun x => (expectPath D r.d, x))) hs.expect
    rw [List.map_map] at hx
    rw [List.map_map] at hx
    have e2 : (fun y : List Char × List Arg => (expectPath D r.d, some y)) = (fun x => (expectPath D r.d, x)) ∘ some := rfl
    rw [e2, ← hx, ← hs.scopes]
    have e : ∀ t : String, readProcedure (String.ofList t.toList) = readProcedure t := fun t => by rw [String.ofList_toList]
    show List.map _ (_ :: _) = _
    rw [List.map_cons, List.map_cons]
    refine congr (congrArg _ (congrArg _ (e _))) ?_
    show List.map _ (if (funSection c k r.f).1.outs = [] then _ else _) = _
    split
    · rfl
    · exact congrArg (fun x => [(_, x)]) (e _)

/-! ## The data structure -/

/-- A type which is called by its name alone in C++. -/
def Referable (D : Decls) : CTy → Prop
  | .builtin b => PlainBuiltin D.charSigned b
  | .record id => Word (D.records id).tag
  | .enum id => Word (D.enums id).tag
  | _ => False

/-- The type of an object of this type. -/
def objectOf (D : Decls) : CTy → Sem
  | .record id => word (D.records id).tag
  | .enum id => word (D.enums id).tag
  | c => spell D c

/-- The type of the object to which a parameter which is a reference refers at first: the one behind its typedefs. -/
def refObject (D : Decls) : Q → Option Sem
  | .mk _ _ (.ref (.mk _ _ t)) => some (objectOf D t.canon)
  | _ => none

/-- A parameter which the data structure can store: no reference, or one to a type with a name. -/
def StoredParam (D : Decls) (p : ParamD) : Prop :=
  p.macroText = none ∧ (CNoRef p.q.ty ∨ ∃ v k w t, p.q = .mk false v (.ref (.mk k w t)) ∧ Referable D t.canon)

theorem core_object {D : Decls} {s v : Bool} {name : String} {c : CTy} {u : Ty} (h : DenT D s v name c u) (hr : Referable D c) :
    NamedTy (target u) ∧ objectSem u = objectOf D c := by
  have wrap : ∀ {core : Ty}, Wraps name core u → target core = core → target u = core := by
    rintro core (⟨-, rfl⟩ | ⟨-, rfl⟩) h
    · exact h
    · exact h
  match h with
  | .builtin (b := b) (c := ct) (naked := nk) hs w =>
    have ht := wrap w rfl
    unfold objectSem
    rw [ht]
    refine ⟨trivial, ?_⟩
    have hden : Den D false true (.mk false false (.builtin b)) (.ctype ct nk false) := .plain (.builtin hs (Or.inl ⟨rfl, rfl⟩))
    have hpl : PlainQ D false (.mk false false (.builtin b)) := by
      simp only [PlainQ, CDecl.Plain]
      exact ⟨trivial, hr, fun h => by cases h⟩
    have := (den_spell _ true false _ hden trivial hpl).2
    exact this
  | .enum w =>
    have ht := wrap w rfl
    unfold objectSem
    rw [ht]
    exact ⟨hr, rfl⟩
  | .record _ w _ =>
    have ht := wrap w rfl
    unfold objectSem
    rw [ht]
    exact ⟨hr, rfl⟩
  | .tag _ _ => exact ⟨hr, rfl⟩

theorem den_object {D : Decls} {s v : Bool} {q : Q} {u : Ty} (h : Den D s v q u) (hr : Referable D q.ty.canon) :
    NamedTy (target u) ∧ objectSem u = objectOf D q.ty.canon := by
  match h with
  | .plain h => exact core_object h hr
  | .const (t := t) h =>
    have := core_object h hr
    exact this

theorem params_stored {D : Decls} : ∀ (ds : List ParamD) (ps : Params) (Ss : Sems), ParamsOf D ds ps → ParamsAre D ds Ss →
    (∀ d ∈ ds, StoredParam D d) → StorableCpp ps Ss ∧ objects ps = ds.map (fun d => refObject D d.q)
  | [], _, _, .nil, .nil, _ => ⟨trivial, rfl⟩
  | d :: ds, _, _, .cons (s := s) (ps := ps) (t := t) h1 h2 h3 h4 h5, .cons (Ss := Ss) hn h h', hr => by
    have hd := hr d (by simp)
    obtain ⟨i1, i2⟩ := params_stored ds ps Ss h5 h' (fun x hx => hr x (by simp [hx]))
    match h with
    | .text ty hm _ _ _ _ _ => rw [hd.1] at hm; cases hm
    | .type _ hp hS =>
      obtain ⟨a, b⟩ := den_spell (dropVolatile d.q) true false t (den_volatile h1) h2 hp
      rcases hd.2 with hc | ⟨v, k, w, c, hq, hc⟩
      · have href := noRef_reference (den_noRef h1 hc)
        refine ⟨⟨a, by rw [hS, b], Or.inl href, i1⟩, ?_⟩
        rw [List.map_cons, ← i2]
        have e : refObject D d.q = none := by
          cases hq : d.q with
          | mk k v c =>
            rw [hq] at hc
            cases c <;> first | rfl | exact hc.elim
        rw [e]
        cases t <;> first | rfl | (cases href; done)
      · obtain ⟨u, hu, hden⟩ : ∃ u, t = .ref false u ∧ Den D false false (.mk k w c) u := by
          have h1 := h1
          rw [hq] at h1
          match h1 with
          | .plain h1 =>
            match h1 with
            | .ref h1 w => exact ⟨_, Wraps.bare w, h1⟩
        obtain ⟨o1, o2⟩ := den_object hden hc
        refine ⟨⟨a, by rw [hS, b], Or.inr ⟨_, _, hu, o1⟩, i1⟩, ?_⟩
        rw [List.map_cons, ← i2, hq, hu]
        show some (objectSem u) :: _ = _
        rw [o2]
        rfl

/-- **C85** in C++ (partial: as above).  From the program to the source: the generated source is accepted, and the functions which it
    defines for other files are the comparators, as the header declares them, and for each function of the program in their order, the mock, in the namespaces of the function, with
    its name, its class, its types and its result, and variadic or `const` if it is, and its Expect functions, as the header declares
    them; the structure in which it stores a call has the members which C80 asks for, with the types of the program. -/
theorem C85_cpp_source_partial {D : Decls} {ms : MacroInfo} {rows : List Row}
    (hA : Unambiguous D (Used D ((rows.map Row.d).flatMap typesOf))) (hC : NamedCycles D (Used D ((rows.map Row.d).flatMap typesOf)))
    (hp : ParsedFile D ms (rows.map Row.d) (rows.map Row.f)) (ht : ∀ r ∈ rows, CppText D ms (rows.map Row.d) r.d r.Ss r.R)
    (c : Config) (hc : c.cpp = true) (ha : c.attrs = []) (path : String) (hn : NameOk path)
    (cmps : List SrcCmp) (hcmp : ∀ n ∈ cmps, CmpOk n) (k : Nat) (m : List (List Char)) :
    ∃ s, readFile m (sourceText c path cmps (srcFuns c k (rows.map Row.f))) = some s ∧
    '"' :: ("easyMock_" ++ fileName path).toList ++ ['"'] ∈ s.includes ∧
    (∃ (ts : List String) (xs : List (List Par × String × List String)),
      ts.map read = cmps.flatMap (fun n => (cmpDeclared n.cmp.name).map some) ∧ xs.length = rows.length ∧
      (∀ y ∈ rows.zip xs, ParsOf D y.1.d y.1.Ss y.2.1 ∧
        read y.2.2.1 = some ((declName D y.1.d).toList, declType y.1.d y.1.R y.1.Ss) ∧
        y.2.2.2.map readProcedure = (cppDeclared D y.1.d y.2.1 (returnOf y.1.d y.1.R)).map some) ∧
      ((s.decls.map Decl.entry).filter Entry.external).map (fun e => (e.scopes, String.ofList e.text)) =
        ts.map (fun t => ([], t)) ++ (rows.zip xs).flatMap (fun y => ((getNamespace y.1.d.scopes).map (fun n => Scope.space n.toList), y.2.2.1) ::
          y.2.2.2.map (fun t => (expectPath D y.1.d, t)))) ∧
    ∀ r ∈ rows, (∀ p ∈ r.d.params, StoredParam D p) → ∃ (ps : List Par) (items : List Item), ParsOf D r.d r.Ss ps ∧
      ⟨[], ("struct " ++ (classOf D r.d).getD "" ++ "_" ++ r.d.name ++ "_data {}").toList, some (some items)⟩ ∈ s.decls.map Decl.entry ∧
      items.map readCpp = (memberArgs (classOf D r.d) r.d.name (ps.zip (r.d.params.map (fun p => refObject D p.q)))
        ((returnOf r.d (spellQ D r.d.ret)).map (fun R => (R, none)))).map some := by
  obtain ⟨h1, h2⟩ := rows_cpp hA hC hp ht hc ha
  have hok : SourceOk c path cmps (srcFuns c k (rows.map Row.f)) := source_typed hn hcmp h1
  obtain ⟨s, hs, -, hi, hd⟩ := C79_source_partial c path cmps (srcFuns c k (rows.map Row.f)) m hok
  obtain ⟨s', hs', he⟩ := C79_offered_partial c path cmps (srcFuns c k (rows.map Row.f)) m hok (not_static h1)
  rw [hs, Option.some.injEq] at hs'
  subst hs'
  refine ⟨s, hs, ?_, ?_, ?_⟩
  · rw [hi]; exact List.mem_append_right _ (by simp)
  · obtain ⟨xs, x1, x2, x3⟩ := each_row (c := c) (fun k r (x : List Par × String × List String) => CppSays D c k r x.1 ∧
        x.2.1 = mockSignature (funSection c k r.f).1 ∧
        x.2.2 = ("void ExpectAndReturn(" ++ expectParams c (funSection c k r.f).1 ++ ")") ::
          (if (funSection c k r.f).1.outs = [] then []
           else ["void ExpectReturnAndOutput(" ++ expectOutputParams c (funSection c k r.f).1 ++ ")"])) rows k
      (fun r hr k => (h2 r hr k).elim fun ps h => ⟨(ps, _, _), h, rfl, rfl⟩)
    refine ⟨cmps.flatMap (fun n => [cmpSignature n.cmp.name, cmpDerefSignature n.cmp.name]), xs, ?_, x1, fun y hy => ?_, ?_⟩
    · rw [List.map_flatMap]
      refine (List.flatMap_def ..).trans ((congrArg List.flatten (List.map_congr_left (fun n h => ?_))).trans (List.flatMap_def ..).symm)
      exact cmps_read (hcmp n h).name
    · obtain ⟨j, a1, a2, a3⟩ := x2 y hy
      rw [a2, a3]
      exact ⟨a1.pars, a1.mock, a1.expect⟩
    · have : ((s.decls.map Decl.entry).filter Entry.external).map (fun e => (e.scopes, String.ofList e.text)) =
          (((s.decls.map Decl.entry).filter Entry.external).map (fun e => (e.scopes, e.text))).map (fun x => (x.1, String.ofList x.2)) := by
        rw [List.map_map]; rfl
      rw [this, he]
      unfold offered
      simp only [hc, if_true, List.map_append, List.map_map, List.map_flatten, List.map_flatMap]
      refine congr (congrArg _ ?_) ?_
      · refine (congrArg List.flatten (List.map_congr_left (fun n h => ?_))).trans (List.flatMap_def ..).symm
        show [(([] : List Scope), String.ofList (cmpSignature n.cmp.name).toList), ([], String.ofList (cmpDerefSignature n.cmp.name).toList)] = _
        rw [String.ofList_toList, String.ofList_toList]
        rfl
      refine x3 _ (fun r x => ((getNamespace r.d.scopes).map (fun n => Scope.space n.toList), x.2.1) ::
          x.2.2.map (fun t => (expectPath D r.d, t))) (fun r _ k x hx => ?_)
      obtain ⟨a1, a2, a3⟩ := hx
      rw [a2, a3, ← a1.scopes, ← a1.spaces]
      have e : ∀ t : String, String.ofList t.toList = t := fun t => String.ofList_toList
      have e0 : "void " ++ "" ++ "ExpectAndReturn(" = "void ExpectAndReturn(" := by decide +kernel
      have e1 : "void " ++ "" ++ "ExpectReturnAndOutput(" = "void ExpectReturnAndOutput(" := by decide +kernel
      rw [← e0, ← e1]
      show List.map _ (_ :: _ :: _) = _ :: _
      rw [List.map_cons, List.map_cons, List.map_cons]
      refine congr (congrArg _ (congrArg (Prod.mk _) (e _))) (congr (congrArg _ (congrArg (Prod.mk _) (e _))) ?_)
      rw [List.map_map]
      show List.map _ (if (funSection c k r.f).1.outs = [] then _ else _) = _
      split
      · rfl
      · exact congrArg (fun x => [(_, x)]) (e _)
  · intro r hr hst
    obtain ⟨i, hi⟩ := List.mem_iff_getElem?.mp hr
    obtain ⟨j, hj⟩ : ∃ j, srcFun c j r.f ∈ srcFuns c k (rows.map Row.f) := srcFuns_has _ _ (List.mem_map.mpr ⟨r, hr, rfl⟩)
    have hd1 : (rows.map Row.d)[i]? = some r.d := by rw [List.getElem?_map, hi]; rfl
    have hf1 : (rows.map Row.f)[i]? = some r.f := by rw [List.getElem?_map, hi]; rfl
    have h := (C76_functions_partial hA hC hp).2 i r.d r.f hd1 hf1
    have ht := ht r hr
    have hl := params_listed r.d.params r.f.params r.Ss h.params ht.params
    have hpl := (Txt.params_cpp (c := c) r.d.params r.f.params r.Ss h.params ht.params ht.plain).2
    have hcls := class_of hA hC hp hd1 hf1 ht.member
    have says := cpp_says hA hC hp i r hd1 hf1 ht c hc ha j
    obtain ⟨st, hobj⟩ := params_stored r.d.params r.f.params r.Ss h.params ht.params hst
    refine ⟨_, dataItems c (srcFun c j r.f), says.pars, ?_, ?_⟩
    · rw [hd]
      refine List.mem_append_left _ (List.mem_append_right _ (List.mem_flatten.mpr ⟨_, List.mem_map.mpr ⟨_, hj, rfl⟩, ?_⟩))
      have e0 : dataEntry c (srcFun c j r.f) = ⟨[], ("struct " ++ (classOf D r.d).getD "" ++ "_" ++ r.d.name ++ "_data {}").toList,
          some (some (dataItems c (srcFun c j r.f)))⟩ := by
        unfold dataEntry
        rw [hc, if_pos rfl]
        have h1 : (srcFun c j r.f).sec.cls = classOf D r.d := hcls
        have h2 : (srcFun c j r.f).sec.name = r.d.name := h.name
        have e2 : "_data {}" = "_data" ++ " {}" := by decide +kernel
        unfold MockCode.dataType dataPrefix
        rw [h1, h2, e2]
        simp only [sassoc]
      rw [← e0]
      unfold funEntries
      simp
    · obtain ⟨s1, s2⟩ := den_spell r.d.ret true false r.f.ret h.ret h.retNI ht.result.plain
      have hnr := den_noRef h.ret ht.result.noRef
      have hres := C80_cpp_partial c j r.f hc (by rw [h.name]; exact ht.name.2) (fun p hp => (method_ok h ht.member p hp).1) hl hpl st
        (fun _ => ⟨s1, den_noFn h.ret ht.flat, Or.inl (noRef_reference hnr)⟩)
      have e : resultObject r.f.ret = none := by
        cases hq : r.f.ret with
        | ref i t => rw [hq] at hnr; exact hnr.elim
        | _ => rfl
      rw [hres, e, hcls, h.name, hobj, returned_of h ht.result, s2]

/-! ## Example -/

/-- `class P { int x; };` -/
def cppUnit : Decls := unitOf [{ kw := .cls, tag := "P", fields := [⟨"int x".toList, qInt, "x", none⟩] }]

/-- `int geo::move(P &p, const int &, int *out)`. -/
def cppMove : FnD where
  name := "move"
  ret := qInt
  retText := "int ".toList
  params := [⟨.mk false false (.ref (qRec 0)), "p", none⟩, ⟨.mk false false (.ref (.mk true false (.builtin .int))), "", none⟩,
    ⟨qPtr qInt, "out", none⟩]
  scopes := [⟨some "geo", ["geo"]⟩]

/-- `int P::get(int a) const`. -/
def cppGet : FnD where
  name := "get"
  ret := qInt
  retText := "int ".toList
  params := [⟨qInt, "a", none⟩]
  member := some { record := 0, access := some .pub, isConst := true }

/-- What the parser makes of them. -/
def cppParsed : List FunDecl :=
  match parseUnit cppUnit (fun _ => none) 3 [cppMove, cppGet] with
  | .ok fs => fs
  | _ => []

/-- The rows of the example. -/
def cppRows : List Row :=
  match cppParsed with
  | [f, g] => [⟨cppMove, f, .cons (.ref (.named ["class".toList, "P".toList])) (.cons (.ref (.qual "const".toList (word "int")))
      (.cons (.ptr (word "int")) .nil)), word "int"⟩, ⟨cppGet, g, .cons (word "int") .nil, word "int"⟩]
  | _ => []

theorem cpp_rows : cppRows.map Row.d = [cppMove, cppGet] ∧ cppRows.map Row.f = cppParsed := ⟨rfl, rfl⟩

theorem cpp_parsed : ParsedFile cppUnit (fun _ => none) (cppRows.map Row.d) (cppRows.map Row.f) := ⟨3, rfl⟩

theorem cpp_used {i : Nat} {n : String} (h : Used cppUnit ((cppRows.map Row.d).flatMap typesOf) i n) : i = 0 ∧ n = "" := by
  rw [cpp_rows.1] at h
  rcases h with ⟨q, hq, v, h⟩ | ⟨r, f, hf, v, h⟩
  · simp [typesOf, cppMove, cppGet] at hq
    rcases hq with rfl | rfl | rfl | rfl | rfl | rfl | rfl <;>
      simp [qPtr, qRec, qInt, Q.uses, CTy.uses] at h <;> simp [h]
  · cases r with
    | zero =>
      simp [cppUnit, unitOf] at hf
      subst hf
      simp [qInt, Q.uses, CTy.uses] at h
    | succ r => simp [cppUnit, unitOf] at hf

theorem cpp_unambiguous : Unambiguous cppUnit (Used cppUnit ((cppRows.map Row.d).flatMap typesOf)) := by
  apply C53_keys
  · intro i n j m hi hj _ _
    rw [(cpp_used hi).1, (cpp_used hj).1]
  · intro i n j m hi hj _ _
    rw [(cpp_used hi).1, (cpp_used hj).1]
  · intro i n j m hi hj _ _
    rw [(cpp_used hi).1, (cpp_used hj).1]
  · intro i n hi
    rw [(cpp_used hi).1]
    decide +kernel

theorem cpp_named : NamedCycles cppUnit (Used cppUnit ((cppRows.map Row.d).flatMap typesOf)) :=
  fun _ _ h hn => absurd (cpp_used h).2 hn

theorem cpp_words : ResultWords (fun _ => none) "int ".toList ["int".toList] := by
  have hN : ∀ t, ¬ Nothing (fun _ => none) t := by
    rintro t ⟨d, h, -⟩
    cases h
  refine ⟨["int".toList], [' '], (fun _ => true), by decide +kernel, by decide +kernel, by simp, ?_, Or.inl rfl,
    fun t h => absurd h (hN t), fun t h => absurd h (hN t), ?_, ?_⟩
  · intro w hw
    refine ⟨?_, ?_⟩
    · revert w; decide +kernel
    · revert w; decide +kernel
  · intro k hk
    refine ⟨?_, ?_, ?_⟩
    · revert k; decide +kernel
    · revert k; decide +kernel
    · intro l e
      have h2 := congrArg List.getLast? e
      simp only [List.getLast?_append, List.getLast?_singleton, Option.some_or] at h2
      have h3 : k = "int".toList := by simpa using h2.symm
      subst h3
      exact absurd hk (by decide +kernel)
  · intro w hw
    rw [List.mem_singleton] at hw
    subst hw
    exact iff_of_true rfl ⟨hN _, by decide +kernel⟩

theorem cpp_result {d : FnD} (h : d = cppMove ∨ d = cppGet) : Txt.ResultText cppUnit (fun _ => none) d (word "int") ∧ CNoFn d.ret.ty := by
  rcases h with rfl | rfl
  · refine ⟨⟨?_, trivial, Or.inr (Or.inr (by simp [ValueT])), Or.inl ⟨_, cpp_words, by decide +kernel, Or.inl trivial,
      ⟨'i', _, _, rfl, by decide⟩, by decide +kernel⟩⟩, trivial⟩
    simp [cppMove, qInt, PlainQ, CDecl.Plain, PlainBuiltin]
  · refine ⟨⟨?_, trivial, Or.inr (Or.inr (by simp [ValueT])), Or.inl ⟨_, cpp_words, by decide +kernel, Or.inl trivial,
      ⟨'i', _, _, rfl, by decide⟩, by decide +kernel⟩⟩, trivial⟩
    simp [cppGet, qInt, PlainQ, CDecl.Plain, PlainBuiltin]

theorem cpp_text : ∀ r ∈ cppRows, CppText cppUnit (fun _ => none) (cppRows.map Row.d) r.d r.Ss r.R := by
  intro r hr
  have e : cppRows = [⟨cppMove, cppRows[0].f, .cons (.ref (.named ["class".toList, "P".toList])) (.cons (.ref (.qual "const".toList (word "int")))
      (.cons (.ptr (word "int")) .nil)), word "int"⟩, ⟨cppGet, cppRows[1].f, .cons (word "int") .nil, word "int"⟩] := rfl
  rw [e] at hr
  rcases List.mem_cons.mp hr with rfl | hr
  · refine ⟨(fun m h => by cases h), by decide +kernel, by decide +kernel, by decide +kernel, ?_, ?_, (cpp_result (Or.inl rfl)).1, (cpp_result (Or.inl rfl)).2⟩
    · refine .cons (Or.inr (by decide +kernel)) (.type rfl ?_ (by decide +kernel)) (.cons (Or.inl rfl) (.type rfl ?_ (by decide +kernel))
        (.cons (Or.inr (by decide +kernel)) (.type rfl ?_ (by decide +kernel)) .nil))
      · simp only [dropVolatile, qRec, PlainQ, CDecl.Plain, CNoFn, CFn, cppUnit, unitOf]
        decide +kernel
      · simp [dropVolatile, PlainQ, CDecl.Plain, PlainBuiltin, CNoFn, CFn]
      · simp [dropVolatile, qPtr, qInt, PlainQ, CDecl.Plain, PlainBuiltin]
    · intro p hp
      simp only [cppMove, List.mem_cons, List.not_mem_nil, or_false] at hp
      rcases hp with rfl | rfl | rfl
      · exact ⟨trivial, Or.inr (show Word "P" by decide +kernel), Or.inr (by decide +kernel), (fun ty h => by cases h)⟩
      · exact ⟨trivial, Or.inr trivial, Or.inl rfl, (fun ty h => by cases h)⟩
      · exact ⟨trivial, Or.inl trivial, Or.inr (by decide +kernel), (fun ty h => by cases h)⟩
  · rw [List.mem_singleton] at hr
    subst hr
    refine ⟨?_, by decide +kernel, (fun n h => by cases h), by decide +kernel, ?_, ?_, (cpp_result (Or.inr rfl)).1, (cpp_result (Or.inr rfl)).2⟩
    · intro m h
      cases h
      refine ⟨⟨by decide +kernel, rfl, rfl⟩, by decide +kernel, .cls rfl (by decide +kernel) (Or.inl ⟨by decide +kernel, ?_⟩), Or.inl ⟨_, rfl⟩⟩
      exact List.not_mem_nil
    · refine .cons (Or.inr (by decide +kernel)) (.type rfl ?_ (by decide +kernel)) .nil
      simp [dropVolatile, qInt, PlainQ, CDecl.Plain, PlainBuiltin]
    · intro p hp
      simp only [cppGet, List.mem_cons, List.not_mem_nil, or_false] at hp
      subst hp
      exact ⟨trivial, Or.inl trivial, Or.inr (by decide +kernel), (fun ty h => by cases h)⟩

/-- What C85 says about the header for them. -/
example : ∃ s, readFile [] (headerText { cpp := true } "inc/list.h" "" ["P"] ((srcFuns { cpp := true } 0 cppParsed).map SrcFun.toFun)) = some s ∧
    (s.decls.drop 2).map (fun d => (d.scopes, (readProcedure (String.ofList d.text)).map (·.1))) =
      [([.space "EasyMock".toList, .space "geo".toList, .space "move".toList], some "ExpectAndReturn".toList),
       ([.space "EasyMock".toList, .space "geo".toList, .space "move".toList], some "ExpectReturnAndOutput".toList),
       ([.space "EasyMock".toList, .space "P".toList, .space "get".toList], some "ExpectAndReturn".toList)] ∧
    ((s.decls.drop 2)[2]?).bind (fun d => readProcedure (String.ofList d.text)) = some ("ExpectAndReturn".toList,
      [.plain "instance".toList (.ptr (word "::P")), .plain "a".toList (word "int"), .plain "to_return".toList (word "int"),
       .template "::EasyMock::EasyMock_Matcher_Cpp".toList (word "int") "easyMock_match_a".toList]) := by
  obtain ⟨s, h1, -, -, pss, h2, h3, ds, es, h0, h4', h4⟩ := C85_cpp_header_partial cpp_unambiguous cpp_named cpp_parsed cpp_text { cpp := true } rfl rfl rfl
    "inc/list.h" file_name ["P"] (by intro n hn; rw [List.mem_singleton] at hn; subst hn; decide +kernel) 0 [] (by decide +kernel)
  refine ⟨s, h1, ?_⟩
  have hd : s.decls.drop 2 = es := by
    have hl : ds.length = 2 := by simpa [cmpDeclared] using congrArg List.length h4'
    rw [h0, ← hl, List.drop_left]
  rw [hd]
  obtain ⟨ps, qs, rfl⟩ : ∃ ps qs, pss = [ps, qs] := by
    match pss, h2 with
    | [ps, qs], _ => exact ⟨ps, qs, rfl⟩
  have hp := (h3 (cppRows[0], ps) (by exact List.mem_cons_self)).slots
  have hq := h3 (cppRows[1], qs) (by exact List.mem_cons_of_mem _ List.mem_cons_self)
  obtain ⟨x, y, z, rfl⟩ : ∃ x y z, ps = [x, y, z] := by
    have hl := (h3 (cppRows[0], ps) (by exact List.mem_cons_self)).names.1
    match ps, hl with
    | [x, y, z], _ => exact ⟨x, y, z, rfl⟩
  obtain ⟨a, rfl⟩ : ∃ a, qs = [a] := by
    have hl := hq.names.1
    match qs, hl with
    | [a], _ => exact ⟨a, rfl⟩
  obtain ⟨n, out, sem⟩ := a
  obtain rfl : n = "a" := hq.names.2 ("a", n) List.mem_cons_self (show ("a" : String) ≠ "" by decide)
  have h5 := Prod.mk.inj (List.cons.inj hq.slots).1
  obtain rfl : out = _ := h5.1
  obtain rfl : sem = _ := h5.2
  obtain ⟨n1, o1, s1⟩ := x
  obtain ⟨n2, o2, s2⟩ := y
  obtain ⟨n3, o3, s3⟩ := z
  have hp := List.cons.inj hp
  have hp1 := Prod.mk.inj hp.1
  have hp2 := List.cons.inj hp.2
  have hp3 := Prod.mk.inj hp2.1
  have hp4 := Prod.mk.inj (List.cons.inj hp2.2).1
  obtain rfl : o1 = .none := hp1.1
  obtain rfl : o2 = .none := hp3.1
  obtain rfl : o3 = .plain := hp4.1
  constructor
  · have e : ∀ l : List Decl, l.map (fun d => (d.scopes, (readProcedure (String.ofList d.text)).map (·.1))) =
        (l.map (fun d => (d.scopes, readProcedure (String.ofList d.text)))).map (fun r => (r.1, r.2.map (·.1))) := fun l => by
      rw [List.map_map]; rfl
    rw [e, h4]
    rfl
  · have e : (es[2]?).bind (fun d => readProcedure (String.ofList d.text)) =
        ((es.map (fun d => (d.scopes, readProcedure (String.ofList d.text))))[2]?).bind (·.2) := by
      rw [List.getElem?_map]; cases es[2]? <;> rfl
    rw [e, h4]
    rfl

/-- What C85 says about the source for them: how the calls of `move` are stored. -/
example : ∃ s, readFile [] (sourceText { cpp := true } "inc/list.h" [exCmp] (srcFuns { cpp := true } 0 cppParsed)) = some s ∧
    ∃ items, ⟨[], "struct P_get_data {}".toList, some (some items)⟩ ∈ s.decls.map Decl.entry ∧
    items.map readCpp = [some (.plain "instance".toList (.ptr (word "::P")), none), some (.plain "a".toList (word "int"), none),
      some (.template "::EasyMock::EasyMock_Matcher_Cpp".toList (word "int") "P_get_match_a".toList, none),
      some (.plain "P_get_returnValue".toList (word "int"), none)] := by
  obtain ⟨s, h1, -, -, h3⟩ := C85_cpp_source_partial cpp_unambiguous cpp_named cpp_parsed cpp_text { cpp := true } rfl rfl "inc/list.h" file_name
    [exCmp] (by intro n hn; rw [List.mem_singleton] at hn; subst hn; exact exCmp_ok) 0 []
  refine ⟨s, h1, ?_⟩
  obtain ⟨ps, items, h4, h5, h6⟩ := h3 (cppRows[1]) (List.getElem_mem _) (by
    intro p hp
    rw [show cppRows[1].d = cppGet from rfl] at hp
    simp only [cppGet, List.mem_cons, List.not_mem_nil, or_false] at hp
    subst hp
    exact ⟨rfl, Or.inl trivial⟩)
  refine ⟨items, h5, h6.trans ?_⟩
  obtain ⟨a, rfl⟩ : ∃ a, ps = [a] := by
    have hl := h4.names.1
    match ps, hl with
    | [a], _ => exact ⟨a, rfl⟩
  obtain ⟨n, out, sem⟩ := a
  obtain rfl : n = "a" := h4.names.2 ("a", n) List.mem_cons_self (show ("a" : String) ≠ "" by decide)
  have h5 := Prod.mk.inj (List.cons.inj h4.slots).1
  obtain rfl : out = _ := h5.1
  obtain rfl : sem = _ := h5.2
  decide +kernel

end EasyMock.CFile
