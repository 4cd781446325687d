import Verif.CDecl.Lists
import Verif.CFile.Typed
import Verif.CFile.Meaning

/-! # The types in the Expect functions and in the data structures: C80 and C81

The declarations in the generated files, read by `CDecl.read`. -/

namespace EasyMock.CFile

open EasyMock.Gen
open EasyMock.Types (Ty Params FunDecl)
open EasyMock.CDecl (Sem Sems read semOf semsOf Word Spellable Spellables NoFn Listed Declares)

/-! ## Names -/

/-- Characters of identifiers, one of them in none of the qualifiers. -/
theorem word_of {s : String} (h : ∀ c ∈ s.toList, CDecl.wordChar c = true) {x : Char} (hx : x ∈ s.toList)
    (hk : x ∈ ['m', 'M', 'u', 'R', 'k', ':', 'd']) : Word s := by
  refine ⟨?_, h, ?_⟩
  · rintro rfl; cases hx
  · cases hq : CDecl.isQual s.toList with
    | false => rfl
    | true =>
      exfalso
      simp only [CDecl.isQual, Bool.or_eq_true, beq_iff_eq] at hq
      have key : ∀ l : List Char, s.toList = l → (∀ y ∈ ['m', 'M', 'u', 'R', 'k', ':', 'd'], y ∉ l) → False :=
        fun l e hl => hl x hk (e ▸ hx)
      rcases hq with ((hq | hq) | hq) | hq
      · exact key _ hq (by decide)
      · exact key _ hq (by decide)
      · exact key _ hq (by decide)
      · exact key _ hq (by decide)

theorem chars_app {a b : String} (ha : ∀ c ∈ a.toList, CDecl.wordChar c = true) (hb : ∀ c ∈ b.toList, CDecl.wordChar c = true) :
    ∀ c ∈ (a ++ b).toList, CDecl.wordChar c = true := by
  intro c hc
  rw [String.toList_append, List.mem_append] at hc
  exact hc.elim (ha c) (hb c)

theorem mem_left' {a b : String} {c : Char} (h : c ∈ a.toList) : c ∈ (a ++ b).toList := by
  rw [String.toList_append]; exact List.mem_append_left _ h

theorem mem_right' {a b : String} {c : Char} (h : c ∈ b.toList) : c ∈ (a ++ b).toList := by
  rw [String.toList_append]; exact List.mem_append_right _ h

/-! ## The parameters -/

/-- A parameter: its name, its output, and the type it is declared with. -/
structure Par where
  name : String
  out : Gen.Out
  sem : Sem

/-- The parameters with their names. -/
def pars : List String → Params → Sems → List Par
  | n :: ns, .cons _ t _ ps, .cons S Ss => ⟨n, output t, S⟩ :: pars ns ps Ss
  | _, _, _ => []

/-- Nothing follows the name of a parameter with an output: it is no pointer to a function. -/
def OutsPlain : Params → Prop
  | .nil => True
  | .cons _ t _ rest => (output t ≠ .none → NoFn t) ∧ OutsPlain rest

/-- An entry of the dictionary, and the parameter it is for. -/
structure Fits (e : String × String × Gen.Out × XDecl) (p : Par) : Prop where
  name : e.2.1 = p.name
  out : e.2.2.1 = p.out
  word : Word p.name
  decl : ∀ n, Word n → Declares (e.1 ++ " " ++ n ++ e.2.2.2.text) n p.sem
  plain : p.out ≠ .none → e.2.2.2.text = ""

theorem fits : ∀ (ps : Params) (Ss : Sems) (k : Nat), Listed ps Ss → OutsPlain ps →
    ∃ L : List ((String × String × Gen.Out × XDecl) × Par), (paramSection k ps).1.entries = L.map (·.1) ∧
      pars (paramSection k ps).1.names ps Ss = L.map (·.2) ∧ ∀ x ∈ L, Fits x.1 x.2
  | .nil, _, k, .nil, _ => ⟨[], by rw [paramSection]; rfl, by rw [paramSection]; rfl, by simp⟩
  | .cons s t n rest, _, k, .cons (S := S) (Ss := Ss) hn hent hrest, ho => by
    obtain ⟨name, hname⟩ : ∃ name, name = (if n.isEmpty then "__easymock_param" ++ toString (extraOf false k t).2 else n) := ⟨_, rfl⟩
    obtain ⟨k', hk'⟩ : ∃ k', k' = (if n.isEmpty then (extraOf false k t).2 + 1 else (extraOf false k t).2) := ⟨_, rfl⟩
    have hw : Word name := by
      rw [hname]
      split
      · exact CDecl.unnamed_word _
      · rename_i he
        rcases hn with rfl | hn
        · simp at he
        · exact hn
    obtain ⟨L, h1, h2, h3⟩ := fits rest Ss k' hrest ho.2
    rw [Gen.paramSection_cons, ← hname, ← hk']
    refine ⟨((Types.declareString s t, name, output t, (extraOf false k t).1), ⟨name, output t, S⟩) :: L, ?_, ?_, ?_⟩
    · rw [PList.entries, h1]; rfl
    · unfold PList.names at h2 ⊢
      rw [PList.entries, List.map_cons, pars, h2]; rfl
    · intro x hx
      rcases List.mem_cons.1 hx with rfl | hx
      · exact ⟨rfl, rfl, hw, fun m hm => CDecl.declares_entry hent k hm, fun h => by
          rw [CDecl.extraOf_noFn t false k (ho.1 h)]; rfl⟩
      · exact h3 x hx

/-! ## C81 -/

/-- The type of a word. -/
def word (w : String) : Sem := .named [w.toList]

/-- The types of the parameters of an Expect function: the parameters of the function, the value to return, a matcher for
    each parameter; for the outputs the types of their parameters, each followed by a size if it is needed. -/
def expectTypes (ps : List Par) (R : Option Sem) : List Sem :=
  ps.map (·.sem) ++ R.toList ++ ps.map (fun _ => word "EasyMock_Matcher")

/-- The same for the outputs. -/
def outTypes (ps : List Par) : List Sem :=
  (ps.filter (fun p => p.out != .none)).flatMap (fun p => p.sem :: (if p.out == .sized then [word "easyMock_size_t"] else []))

/-- The declarations of the parameters of the Expect functions, each with its name and type. -/
structure Lists (c : Config) (s : FunSection) (ps : List Par) (R : Option Sem) : Prop where
  expect : ∃ D : List (String × String × Sem), D.map (·.1) = expectDecls c s ∧ D.map (·.2.2) = expectTypes ps R ∧
    ∀ d ∈ D, Declares d.1 d.2.1 d.2.2
  out : ∃ D : List (String × String × Sem), D.map (·.1) = outDecls s ∧ D.map (·.2.2) = outTypes ps ∧
    ∀ d ∈ D, Declares d.1 d.2.1 d.2.2

theorem lists {c : Config} {s : FunSection} {R : Option Sem} (hc : c.cpp = false)
    (L : List ((String × String × Gen.Out × XDecl) × Par)) (h1 : s.params.entries = L.map (·.1)) (h3 : ∀ x ∈ L, Fits x.1 x.2)
    (hr : match R with
      | some r => s.hasReturn = true ∧ Declares (s.ret ++ " to_return" ++ s.retExtra.text) "to_return" r
      | none => s.hasReturn = false) : Lists c s (L.map (·.2)) R := by
  have hmw : Word "EasyMock_Matcher" := by decide +kernel
  have hsw : Word "easyMock_size_t" := by decide +kernel
  refine ⟨?_, ?_⟩
  · refine ⟨L.map (fun x => (x.1.1 ++ " " ++ x.1.2.1 ++ x.1.2.2.2.text, x.2.name, x.2.sem)) ++
      R.toList.map (fun r => (s.ret ++ " to_return" ++ s.retExtra.text, "to_return", r)) ++
      L.map (fun x => ("EasyMock_Matcher" ++ " " ++ ("easyMock_match_" ++ x.1.2.1), "easyMock_match_" ++ x.2.name, word "EasyMock_Matcher")), ?_, ?_, ?_⟩
    · unfold expectDecls paramDecls'
      rw [h1, List.map_append, List.map_append, List.map_map, List.map_map, List.map_map, List.map_map, List.map_map]
      have e1 : ∀ n : String, "EasyMock_Matcher" ++ " " ++ ("easyMock_match_" ++ n) = "EasyMock_Matcher " ++ "easyMock_match_" ++ n := by
        intro n
        rw [← String.append_assoc]
        rfl
      congr 1
      · congr 1
        cases R with
        | none => rw [if_neg (by rw [hr]; decide)]; rfl
        | some r => rw [if_pos hr.1]; rfl
      · refine List.map_congr_left fun x _ => ?_
        simp only [Function.comp_apply, e1, hc]
        rfl
    · unfold expectTypes
      rw [List.map_append, List.map_append, List.map_map, List.map_map, List.map_map, List.map_map, List.map_map]
      congr 1
      congr 1
      cases R <;> rfl
    · intro d hd
      rw [List.mem_append, List.mem_append, List.mem_map, List.mem_map, List.mem_map] at hd
      rcases hd with (⟨x, hx, rfl⟩ | ⟨r, hx, rfl⟩) | ⟨x, hx, rfl⟩
      · have h := h3 x hx
        rw [h.name]
        exact h.decl _ h.word
      · cases R with
        | none => cases hx
        | some r' =>
          simp only [Option.toList_some, List.mem_singleton] at hx
          subst hx
          exact hr.2
      · have h := h3 x hx
        rw [h.name]
        refine CDecl.declares_word hmw (word_of (x := 'm') (chars_app (by decide) h.word.2.1) (mem_left' (by decide)) (by decide))
  · refine ⟨(L.filter (fun x => x.2.out != .none)).flatMap (fun x =>
      (x.1.1 ++ " out_" ++ x.1.2.1, "out_" ++ x.2.name, x.2.sem) ::
      (if x.2.out == .sized then [("easyMock_size_t" ++ " " ++ ("out_" ++ x.1.2.1 ++ "_size"), "out_" ++ x.2.name ++ "_size", word "easyMock_size_t")]
       else [])), ?_, ?_, ?_⟩
    · unfold outDecls
      have e0 : L.filter (fun x => x.2.out != .none) = L.filter ((fun e : String × String × Gen.Out × XDecl => e.2.2.1 != .none) ∘ (·.1)) := by
        refine List.filter_congr fun x hx => ?_
        simp only [Function.comp_apply, (h3 x hx).out]
      have e1 : ∀ n : String, "easyMock_size_t" ++ " " ++ ("out_" ++ n ++ "_size") = "easyMock_size_t out_" ++ n ++ "_size" := by
        intro n
        rw [← String.append_assoc, ← String.append_assoc]
        rfl
      rw [h1, List.filter_map, List.flatMap_map, List.map_flatMap, e0]
      refine congrArg List.flatten (List.map_congr_left fun x hx => ?_)
      rw [← (h3 x (List.mem_filter.1 hx).1).out, List.map_cons]
      cases x.1.2.2.1 == Gen.Out.sized
      · rfl
      · rw [if_pos rfl, if_pos rfl, List.map_cons, e1]; rfl
    · unfold outTypes
      rw [List.filter_map, List.flatMap_map, List.map_flatMap]
      refine congrArg List.flatten (List.map_congr_left fun x hx => ?_)
      rw [List.map_cons]
      cases x.2.out == Gen.Out.sized <;> rfl
    · intro d hd
      rw [List.mem_flatMap] at hd
      obtain ⟨x, hx, hd⟩ := hd
      rw [List.mem_filter] at hx
      have h := h3 x hx.1
      have hne : x.2.out ≠ .none := by simpa using hx.2
      have hw : Word ("out_" ++ x.2.name) := word_of (x := 'u') (chars_app (by decide) h.word.2.1) (mem_left' (by decide)) (by decide)
      rcases List.mem_cons.1 hd with rfl | hd
      · have e := h.decl _ hw
        rw [h.plain hne, String.append_empty] at e
        rw [h.name]
        have e2 : x.1.1 ++ " out_" ++ x.2.name = x.1.1 ++ " " ++ ("out_" ++ x.2.name) := by
          rw [String.append_assoc, String.append_assoc, ← String.append_assoc (s₁ := " ")]; rfl
        rw [e2]
        exact e
      · cases hs : x.2.out == Gen.Out.sized with
        | false => rw [hs] at hd; cases hd
        | true =>
          rw [hs, if_pos rfl, List.mem_singleton] at hd
          subst hd
          rw [h.name]
          exact CDecl.declares_word hsw (word_of (x := 'u') (chars_app hw.2.1 (by decide)) (mem_left' (mem_left' (by decide))) (by decide))

/-- The type of the value to return, if there is one. -/
def returned (f : FunDecl) (R : Sem) : Option Sem := if returnsVoid f.ret then none else some R

theorem fun_lists {c : Config} {k : Nat} {f : FunDecl} {Ss : Sems} {R : Sem} (hc : c.cpp = false) (hp : Listed f.params Ss)
    (ho : OutsPlain f.params) (hr : returnsVoid f.ret = false → CDecl.Entry f.retStr f.ret R) :
    Lists c (funSection c k f).1 (pars (funSection c k f).1.params.names f.params Ss) (returned f R) := by
  obtain ⟨L, h1, h2, h3⟩ := fits f.params Ss _ hp ho
  have e : (pars (funSection c k f).1.params.names f.params Ss) = L.map (·.2) := h2
  rw [e]
  refine lists hc L h1 h3 ?_
  unfold returned
  cases hv : returnsVoid f.ret with
  | true => simp [funSection, hv]
  | false =>
    refine ⟨by simp [funSection, hv], ?_⟩
    have := CDecl.declares_entry (hr hv) (extraOf false k f.ret).2 (n := "to_return") (by decide +kernel)
    simp only [funSection, hv, Bool.not_false, if_true]
    have e2 : ∀ a : String, a ++ " to_return" = a ++ " " ++ "to_return" := by
      intro a
      rw [String.append_assoc]; rfl
    rw [e2]
    exact this

/-- **C81** (partial: C, and functions none of whose outputs is a pointer to a function).  The header declares, for a function of
    any number of parameters: `f_ExpectAndReturn`, which takes the parameters of the function in their order and of their
    types, the value to return of the type of the result unless the function returns nothing, and a matcher for each parameter; and,
    exactly if a parameter has an output, `f_ExpectReturnAndOutput` with in addition, for each output, a
    parameter of the type of its parameter, and a size behind it where the size is not known. -/
theorem C81_expect_partial (c : Config) (k : Nat) (f : FunDecl) {Ss : Sems} {R : Sem} (hc : c.cpp = false) (hm : f.parent = none)
    (hn : Word f.info.name) (hp : Listed f.params Ss) (ho : OutsPlain f.params)
    (hr : returnsVoid f.ret = false → CDecl.Entry f.retStr f.ret R) :
    let s := (funSection c k f).1
    let ps := pars s.params.names f.params Ss
    ps.length = s.params.entries.length ∧
    ∃ texts : List String, headerDecls c s = texts.map (· ++ ";") ∧ texts.map read =
      some ((f.info.name ++ "_ExpectAndReturn").toList, .fn (word "void") (.ofList (expectTypes ps (returned f R))) false) ::
      (if ps.any (fun p => p.out != .none) then
        [some ((f.info.name ++ "_ExpectReturnAndOutput").toList,
          .fn (word "void") (.ofList (expectTypes ps (returned f R) ++ outTypes ps)) false)]
       else []) := by
  intro s ps
  have hcls : s.cls = none := by show (f.parent.map _) = none; rw [hm]; rfl
  have hL : Lists c s ps (returned f R) := fun_lists hc hp ho hr
  obtain ⟨L, h1, h2, h3⟩ := fits f.params Ss _ hp ho
  have hlen : ps.length = s.params.entries.length := by
    show (pars (paramSection _ f.params).1.names f.params Ss).length = (paramSection _ f.params).1.entries.length
    rw [h1, h2, List.length_map, List.length_map]
  have hname : ∀ x : String, (x.toList.all CDecl.wordChar && (x.toList.contains 'R')) = true → Word (f.info.name ++ x) := by
    intro x hx
    rw [Bool.and_eq_true, List.all_eq_true, List.contains_iff_mem] at hx
    exact word_of (x := 'R') (chars_app hn.2.1 hx.1) (mem_right' hx.2) (by decide)
  obtain ⟨D, d1, d2, d3⟩ := hL.expect
  obtain ⟨E, e1, e2, e3⟩ := hL.out
  have n1 : expectName c s = f.info.name ++ "_ExpectAndReturn" := by
    unfold expectName; rw [hc]
    show f.info.name ++ "_" ++ "ExpectAndReturn" = _
    rw [String.append_assoc]; rfl
  have n2 : expectOutputName c s = f.info.name ++ "_ExpectReturnAndOutput" := by
    unfold expectOutputName; rw [hc]
    show f.info.name ++ "_" ++ "ExpectReturnAndOutput" = _
    rw [String.append_assoc]; rfl
  have t1 : expectParams c s = ", ".intercalate (D.map (·.1)) := by rw [d1, C49_expect_partial c s hcls]
  have t2 : expectOutputParams c s = ", ".intercalate ((D ++ E).map (·.1)) := by
    rw [List.map_append, d1, e1, C49_expect_output_partial c s hcls]
  have r1 := CDecl.read_procedure (hname "_ExpectAndReturn" (by decide)) D d3
  have r2 := CDecl.read_procedure (hname "_ExpectReturnAndOutput" (by decide)) (D ++ E)
    (fun d hd => (List.mem_append.1 hd).elim (d3 d) (e3 d))
  have hout : ps.any (fun p => p.out != .none) = !s.outs.isEmpty := by
    have a1 : s.outs = (L.map (·.1)).filter (fun e => e.2.2.1 != .none) := by
      rw [← h1]; rfl
    have a2 : ps = L.map (·.2) := h2
    rw [a1, a2, List.any_map, List.filter_map, isEmpty_map]
    clear h1 h2 a1 a2
    induction L with
    | nil => rfl
    | cons x L ih =>
      have hx := (h3 x (by simp)).out
      rw [List.any_cons, List.filter_cons, ih (fun y hy => h3 y (by simp [hy]))]
      simp only [Function.comp_apply, hx]
      cases x.2.out != Gen.Out.none <;> simp
  refine ⟨hlen, ?_⟩
  unfold headerDecls
  rw [hout]
  cases ho : s.outs.isEmpty with
  | true =>
    refine ⟨["void " ++ expectName c s ++ "(" ++ expectParams c s ++ ")"], ?_, ?_⟩
    · simp only [if_true, List.map_cons, List.map_nil, List.append_nil, String.append_assoc]
      rfl
    · rw [List.map_cons, List.map_nil, n1, t1, r1, d2]; rfl
  | false =>
    refine ⟨["void " ++ expectName c s ++ "(" ++ expectParams c s ++ ")",
      "void " ++ expectOutputName c s ++ "(" ++ expectOutputParams c s ++ ")"], ?_, ?_⟩
    · simp only [Bool.false_eq_true, if_false, List.map_cons, List.map_nil, List.cons_append, List.nil_append, String.append_assoc]
      rfl
    · rw [List.map_cons, List.map_cons, List.map_nil, n1, n2, t1, t2, r1, r2, d2, List.map_append, d2, e2]; rfl

/-! ## C80 -/

/-- What a statement declares. -/
def readItem : Item → Option (List Char × Sem)
  | .stmt t => read (String.ofList t)
  | _ => none

/-- The type without the qualifier around it. -/
def unqual : Sem → Sem
  | .qual _ s => s
  | s => s

/-- The type of the member for a parameter: the type of the parameter without qualifier, except that a constant pointer stays
    constant. -/
def stored : Sem → Sem
  | .qual q (.ptr s) => .qual q (.ptr s)
  | s => unqual s

/-- A pointer, constant or not. -/
def pointer : Ty → Bool
  | .ptr _ _ | .const _ (.ptr _ _) => true
  | _ => false

/-- A reference, constant or not. -/
def reference : Ty → Bool
  | .ref _ _ | .const _ (.ref _ _) => true
  | _ => false

/-- The parameters are no references; those which are no pointers are read as their types. -/
def Storable : Params → Sems → Prop
  | .nil, .nil => True
  | .cons _ t _ rest, .cons S Ss => Spellable false t ∧ reference t = false ∧ S = semOf t ∧ Storable rest Ss
  | _, _ => False

theorem full_text {t : Ty} (h : Spellable false t) : Types.fullName t = Types.declPrefix t := by
  obtain ⟨-, h2, h3, h4⟩ := CDecl.run_prefix t false [] h
  unfold Types.fullName
  rw [h4 (CDecl.not_isFn_false t h), String.append_empty, Types.trimR_append_blank _ h2 h3]

theorem spellable_unqualify {t : Ty} (h : Spellable false t) : Spellable false (unqualify t) := by
  cases t <;> first | exact h | exact h.1

theorem sem_unqualify (t : Ty) : semOf (unqualify t) = unqual (semOf t) := by
  cases t <;> rfl

theorem extra_unqualify (t : Ty) (k : Nat) : extraOf false k (unqualify t) = extraOf false k t := by
  cases t with
  | const i t => show extraOf false k t = _; rw [extraOf]
  | _ => rfl

theorem stored_eq (t : Ty) (h : pointer t = false) : stored (semOf t) = semOf (unqualify t) := by
  cases t with
  | const i t => cases t <;> first | (cases h; done) | rfl
  | _ => rfl

theorem dereferenced_eq (t : Ty) (h : reference t = false) : Types.dereferenced t = t := by
  cases t <;> first | (cases h; done) | rfl

theorem member_pointer (s : String) (t : Ty) (h : pointer t = true) : memberOf s t = .regular (Types.declareString s t) := by
  cases t with
  | const i t => cases t <;> first | (cases h; done) | rfl
  | ptr i t => rfl
  | _ => exact nomatch h

theorem member_plain (s : String) (t : Ty) (hp : pointer t = false) (hr : reference t = false) :
    memberOf s t = .regular (Types.fullName (unqualify t)) := by
  cases t with
  | const i t => cases t <;> first | (cases hp; done) | (cases hr; done) | rfl
  | _ => first | (cases hp; done) | (cases hr; done) | rfl

theorem stored_pointer (t : Ty) (h : pointer t = true) : stored (semOf t) = semOf t := by
  cases t with
  | const i t => cases t <;> first | (cases h; done) | rfl
  | ptr i t => rfl
  | _ => exact nomatch h

/-- The member for a parameter. -/
structure Member (e : String × String × Gen.Out × XDecl) (m : MemberType) (p : Par) : Prop where
  fits : Fits e p
  type : ∃ T, m = .regular T ∧ ∀ n, Word n → Declares (T ++ " " ++ n ++ e.2.2.2.text) n (stored p.sem)

theorem member_reads (s : String) {t : Ty} (k : Nat) (hs : Spellable false t) (hr : reference t = false)
    (he : CDecl.Entry s t (semOf t)) : ∃ T, memberOf s t = .regular T ∧ ∀ n, Word n →
      Declares (T ++ " " ++ n ++ (extraOf false k t).1.text) n (stored (semOf t)) := by
  cases hp : pointer t with
  | true => exact ⟨_, member_pointer s t hp, fun n hn => by rw [stored_pointer t hp]; exact CDecl.declares_entry he k hn⟩
  | false =>
    refine ⟨_, member_plain s t hp hr, fun n hn => ?_⟩
    have hs' := spellable_unqualify hs
    rw [full_text hs', stored_eq t hp, ← extra_unqualify t k]
    have := CDecl.declares_entry (CDecl.entry_type (s := "") (Or.inl rfl) hs') k hn
    rw [CDecl.declare_eq (Or.inl rfl)] at this
    exact this

theorem members_fit : ∀ (ps : Params) (Ss : Sems) (k : Nat), Listed ps Ss → OutsPlain ps → Storable ps Ss →
    ∃ L : List (((String × String × Gen.Out × XDecl) × MemberType) × Par),
      (paramSection k ps).1.entries.zip (membersOf ps) = L.map (·.1) ∧ (paramSection k ps).1.entries = L.map (·.1.1) ∧
      pars (paramSection k ps).1.names ps Ss = L.map (·.2) ∧ ∀ x ∈ L, Member x.1.1 x.1.2 x.2
  | .nil, _, k, .nil, _, _ => ⟨[], by rw [paramSection]; rfl, by rw [paramSection]; rfl, by rw [paramSection]; rfl, by simp⟩
  | .cons s t n rest, _, k, .cons (S := S) (Ss := Ss) hn hent hrest, ho, hst => by
    obtain ⟨name, hname⟩ : ∃ name, name = (if n.isEmpty then "__easymock_param" ++ toString (extraOf false k t).2 else n) := ⟨_, rfl⟩
    obtain ⟨k', hk'⟩ : ∃ k', k' = (if n.isEmpty then (extraOf false k t).2 + 1 else (extraOf false k t).2) := ⟨_, rfl⟩
    have hw : Word name := by
      rw [hname]
      split
      · exact CDecl.unnamed_word _
      · rename_i he
        rcases hn with rfl | hn
        · simp at he
        · exact hn
    obtain ⟨hs, hr, hS, hst'⟩ := hst
    obtain ⟨L, h0, h1, h2, h3⟩ := members_fit rest Ss k' hrest ho.2 hst'
    rw [Gen.paramSection_cons, ← hname, ← hk']
    refine ⟨(((Types.declareString s t, name, output t, (extraOf false k t).1), memberOf s t), ⟨name, output t, S⟩) :: L, ?_, ?_, ?_, ?_⟩
    · rw [PList.entries, membersOf, List.zip_cons_cons, h0]; rfl
    · rw [PList.entries, h1]; rfl
    · unfold PList.names at h2 ⊢
      rw [PList.entries, List.map_cons, pars, h2]; rfl
    · intro x hx
      rcases List.mem_cons.1 hx with rfl | hx
      · refine ⟨⟨rfl, rfl, hw, fun m hm => CDecl.declares_entry hent k hm, fun h => by
          rw [CDecl.extraOf_noFn t false k (ho.1 h)]; rfl⟩, ?_⟩
        subst hS
        exact member_reads s k hs hr hent
      · exact h3 x hx

/-- The members of the data structure of a function with their types: for each parameter its value, without qualifier, and its
    matcher; the result, without qualifier; for each output a pointer of the type of its parameter, and its size where it
    is not known. -/
def memberTypes (name : String) (ps : List Par) (R : Option Sem) : List (String × Sem) :=
  ps.flatMap (fun p => [(p.name, stored p.sem), ("_" ++ name ++ "_match_" ++ p.name, word "EasyMock_Matcher")]) ++
  R.toList.map (fun r => ("_" ++ name ++ "_returnValue", unqual r)) ++
  (ps.filter (fun p => p.out != .none)).flatMap (fun p =>
    ("out_" ++ p.name, p.sem) :: (if p.out == .sized then [("out_" ++ p.name ++ "_size", word "easyMock_size_t")] else []))

theorem reads_item {type name behind n : String} {S : Sem} (h : Declares (type ++ " " ++ name ++ behind) n S) :
    readItem (declares type name behind) = some (n.toList, S) := by
  show read (String.ofList (type ++ " " ++ name ++ behind).toList) = _
  rw [String.ofList_toList]
  exact h.read

theorem result_type {t : Ty} (hs : Spellable false t) (hr : reference t = false) : resultOf t = .regular (Types.declPrefix (unqualify t)) := by
  unfold resultOf nonQualifiedText
  rw [dereferenced_eq t hr, full_text (spellable_unqualify hs)]
  cases t <;> first | (cases hr; done) | rfl

theorem result_reads {t : Ty} (k : Nat) (hs : Spellable false t) {n : String} (hn : Word n) :
    Declares (Types.declPrefix (unqualify t) ++ " " ++ n ++ (extraOf false k t).1.text) n (unqual (semOf t)) := by
  have hs' := spellable_unqualify hs
  have := CDecl.declares_entry (CDecl.entry_type (s := "") (Or.inl rfl) hs') k hn
  rw [CDecl.declare_eq (Or.inl rfl), extra_unqualify, sem_unqualify] at this
  exact this

/-- **C80** (partial: C, functions without references, none of whose outputs is a pointer to a function).  The data structure in which an
    Expect function stores an expected call has a member for each parameter, of the type of the parameter (without `const`, but
    for constant pointers), a matcher for each parameter, the result with its type, and for each output a pointer of the type of its
    parameter, in this order and nothing else. -/
theorem C80_members_partial (c : Config) (k : Nat) (f : FunDecl) {Ss : Sems} (hc : c.cpp = false) (hm : f.parent = none)
    (hn : Word f.info.name) (hp : Listed f.params Ss) (ho : OutsPlain f.params) (hst : Storable f.params Ss)
    (hr : returnsVoid f.ret = false → Spellable false f.ret ∧ reference f.ret = false) :
    let s := (funSection c k f).1
    let ps := pars s.params.names f.params Ss
    (dataItems c (srcFun c k f)).map readItem =
      (memberTypes f.info.name ps (returned f (semOf f.ret))).map (fun m => some (m.1.toList, m.2)) := by
  intro s ps
  have hcls : s.cls = none := by show (f.parent.map _) = none; rw [hm]; rfl
  obtain ⟨L, h0, h1, h2, h3⟩ := members_fit f.params Ss _ hp ho hst
  have hps : ps = L.map (·.2) := h2
  have hz : s.params.entries.zip (membersOf f.params) = L.map (·.1) := h0
  have he : s.params.entries = L.map (·.1.1) := h1
  have hpre : dataPrefix s = "_" ++ f.info.name := by
    unfold dataPrefix; rw [hcls]
    show "" ++ "_" ++ f.info.name = _
    rw [String.empty_append]
  have hmw : Word "EasyMock_Matcher" := by decide +kernel
  have hsw : Word "easyMock_size_t" := by decide +kernel
  have hpw : ∀ c ∈ ("_" ++ f.info.name).toList, CDecl.wordChar c = true := chars_app (by decide) hn.2.1
  show ((dataItems c (srcFun c k f)).map readItem) = _
  unfold dataItems memberTypes
  rw [List.map_append, List.map_append, List.map_append, List.map_append, List.map_append]
  have e1 : ((srcFun c k f).sec.cls.toList.map (fun k => declares ("::" ++ k ++ "*") "instance" "")).map readItem = [] := by
    show (s.cls.toList.map _).map readItem = []
    rw [hcls]; rfl
  rw [e1, List.nil_append]
  congr 1
  · congr 1
    · show ((((s.params.entries.zip (membersOf f.params))).map _).flatten).map readItem = _
      rw [hz, hps, List.map_map, List.map_flatten, List.map_map, List.flatMap_map, List.map_flatMap]
      refine congrArg List.flatten (List.map_congr_left fun x hx => ?_)
      have h := h3 x hx
      obtain ⟨T, hT, hd⟩ := h.type
      simp only [Function.comp_apply, hT, memberItems, List.map_cons, List.map_nil, List.cons_append, List.nil_append]
      rw [h.fits.name, reads_item (hd _ h.fits.word)]
      congr 1
      have hw : Word ("_" ++ f.info.name ++ "_match_" ++ x.2.name) :=
        word_of (x := 'm') (chars_app (chars_app hpw (by decide)) h.fits.word.2.1) (mem_left' (mem_right' (by decide))) (by decide)
      have : MockCode.matchMember (srcFun c k f).sec x.2.name = "_" ++ f.info.name ++ "_match_" ++ x.2.name := by
        show dataPrefix s ++ "_match_" ++ _ = _
        rw [hpre]
      rw [this, hc, if_neg (by decide), reads_item (by rw [String.append_empty]; exact CDecl.declares_word hmw hw)]
      rfl
    · show (if s.hasReturn = true then _ else ([] : List Item)).map readItem = _
      unfold returned
      cases hv : returnsVoid f.ret with
      | true =>
        rw [if_neg (by simp [s, funSection, hv])]
        rfl
      | false =>
        obtain ⟨h4, h5⟩ := hr hv
        rw [if_pos (by simp [s, funSection, hv])]
        show (memberItems (resultOf f.ret) (dataPrefix s ++ "_returnValue") s.retExtra.text).map readItem = _
        have hx : s.retExtra = (extraOf false (extraOf false k f.ret).2 f.ret).1 := by
          simp [s, funSection, hv]
        rw [result_type h4 h5, hpre, hx]
        have hw : Word ("_" ++ f.info.name ++ "_returnValue") :=
          word_of (x := 'u') (chars_app hpw (by decide)) (mem_right' (by decide)) (by decide)
        show [readItem (declares _ _ _)] = _
        rw [reads_item (result_reads _ h4 hw)]
        rfl
  · have a1 : (srcFun c k f).sec.outs = (L.map (·.1.1)).filter (fun e => e.2.2.1 != .none) := by
      rw [← he]; rfl
    have a2 : L.filter (fun x => x.2.out != .none) = L.filter ((fun e : String × String × Gen.Out × XDecl => e.2.2.1 != .none) ∘ (·.1.1)) := by
      refine List.filter_congr fun x hx => ?_
      simp only [Function.comp_apply, (h3 x hx).fits.out]
    rw [a1, hps, List.filter_map, List.filter_map, List.map_map, List.map_flatten, List.map_map, List.flatMap_map, List.map_flatMap]
    rw [show L.filter ((fun p : Par => p.out != .none) ∘ (·.2)) = L.filter (fun x => x.2.out != .none) from rfl, a2]
    refine congrArg List.flatten (List.map_congr_left fun x hx => ?_)
    rw [← a2, List.mem_filter] at hx
    have h := (h3 x hx.1).fits
    have hne : x.2.out ≠ .none := by simpa using hx.2
    have hw : Word ("out_" ++ x.2.name) := word_of (x := 'u') (chars_app (by decide) h.word.2.1) (mem_left' (by decide)) (by decide)
    have hw2 : Word ("out_" ++ x.2.name ++ "_size") :=
      word_of (x := 'u') (chars_app hw.2.1 (by decide)) (mem_left' (mem_left' (by decide))) (by decide)
    have hd := h.decl _ hw
    rw [h.plain hne] at hd
    simp only [Function.comp_apply, List.map_cons, h.name, h.out]
    rw [reads_item hd]
    congr 1
    cases x.2.out == Gen.Out.sized with
    | false => rfl
    | true =>
      simp only [if_true, List.map_cons, List.map_nil]
      rw [reads_item (by rw [String.append_empty]; exact CDecl.declares_word hsw hw2)]
      rfl

/-- **C80**, the result (partial as above): the value which the mock returns if nothing else is expected, and the static object
    from which it is copied, have the type of the result without `const`. -/
theorem C80_result_partial (c : Config) (k : Nat) (f : FunDecl) (hc : c.cpp = false) (hn : Word f.info.name)
    (hv : returnsVoid f.ret = false) (hs : Spellable false f.ret) (hr : reference f.ret = false) :
    ((preludeItems (srcFun c k f))[2]?).bind readItem = some ("default_res".toList, unqual (semOf f.ret)) ∧
    ∃ t : String, names ("static " ++ t) ∈ funEntries c (srcFun c k f) ∧
      read t = some (("dummyRes_" ++ f.info.name).toList, unqual (semOf f.ret)) := by
  have hret : (srcFun c k f).sec.hasReturn = true := by
    show (funSection c k f).1.hasReturn = true
    simp [funSection, hv]
  have hres : (srcFun c k f).result = .regular (Types.declPrefix (unqualify f.ret)) := result_type hs hr
  have ht : (srcFun c k f).sec.topExtra = (extraOf false k f.ret).1 := rfl
  have hx : (srcFun c k f).sec.retExtra = (extraOf false (extraOf false k f.ret).2 f.ret).1 := by
    show (funSection c k f).1.retExtra = _
    simp [funSection, hv]
  refine ⟨?_, ?_⟩
  · unfold preludeItems
    rw [if_pos hret, hres, ht]
    have e : ∀ a b : String, a ++ " default_res" ++ b = a ++ " " ++ "default_res" ++ b := by
      intro a b
      rw [String.append_assoc (s₁ := a) (s₂ := " ")]; rfl
    show readItem (says _) = _
    rw [e]
    exact reads_item (result_reads k hs (by decide +kernel))
  · have hw : Word ("dummyRes_" ++ f.info.name) := word_of (x := 'm') (chars_app (by decide) hn.2.1) (mem_left' (by decide)) (by decide)
    refine ⟨Types.declPrefix (unqualify f.ret) ++ " " ++ ("dummyRes_" ++ f.info.name) ++ (srcFun c k f).sec.retExtra.text, ?_, ?_⟩
    · unfold funEntries objectEntries
      rw [if_pos hret, hres, hc]
      refine List.mem_cons_of_mem _ (List.mem_append_left _ (List.mem_append_left _ (List.mem_append_right _ ?_)))
      rw [List.mem_singleton]
      refine congrArg names ?_
      show _ = "static " ++ Types.declPrefix (unqualify f.ret) ++ " dummyRes_" ++ f.info.name ++ _ ++ ""
      have e : ∀ a b x : String, "static " ++ (a ++ " " ++ ("dummyRes_" ++ b) ++ x) = "static " ++ a ++ " dummyRes_" ++ b ++ x := by
        intro a b x
        rw [String.append_assoc (s₁ := a), ← String.append_assoc (s₁ := " "), ← String.append_assoc, ← String.append_assoc,
          ← String.append_assoc]; rfl
      rw [e, String.append_empty]
    · rw [hx]
      exact (result_reads _ hs hw).read

/-! ## Examples -/

/-- `const struct S *g(struct S *out, void *buf, const int n, int (*)(const char *))`. -/
def exampleTyped : FunDecl where
  info := { name := "g" }
  retStr := ""
  ret := .ptr false (.const false (.comp false .struct "S" .nil false false .nil))
  params :=
    .cons "" (.ptr false (.comp false .struct "S" .nil false false .nil)) "out"
    (.cons "" (.ptr false (.ctype .void false false)) "buf"
    (.cons "" (.const false (.ctype .int false false)) "n"
    (.cons "" (.ptr false (.fn false { name := "" } "int" (.ctype .int false false)
      (.cons "" (.ptr false (.const false (.ctype .char false false))) "" .nil))) "" .nil)))

theorem example_typed : Spellables exampleTyped.params ∧ Spellable false exampleTyped.ret := by
  simp only [exampleTyped, Spellable, Spellables, CDecl.IsFn]
  decide +kernel

theorem example_outs : OutsPlain exampleTyped.params :=
  ⟨fun _ => trivial, fun _ => trivial, fun _ => trivial, fun h => absurd (by decide +kernel) h, trivial⟩

theorem example_storable : Storable exampleTyped.params (semsOf exampleTyped.params) := by
  refine ⟨?_, rfl, rfl, ?_, rfl, rfl, ?_, rfl, rfl, ?_, rfl, rfl, trivial⟩
  all_goals
    simp only [Spellable, Spellables, CDecl.IsFn]
    first | done | decide +kernel

/-- C80 for this function. -/
example : (dataItems {} (srcFun {} 3 exampleTyped)).map readItem =
    [some ("out".toList, .ptr (.named ["struct".toList, "S".toList])), some ("_g_match_out".toList, word "EasyMock_Matcher"),
     some ("buf".toList, .ptr (word "void")), some ("_g_match_buf".toList, word "EasyMock_Matcher"),
     some ("n".toList, word "int"), some ("_g_match_n".toList, word "EasyMock_Matcher"),
     some ("__easymock_param4".toList, .ptr (.fn (word "int") (.cons (.ptr (.qual "const".toList (word "char"))) .nil) false)),
     some ("_g_match___easymock_param4".toList, word "EasyMock_Matcher"),
     some ("_g_returnValue".toList, .ptr (.qual "const".toList (.named ["struct".toList, "S".toList]))),
     some ("out_out".toList, .ptr (.named ["struct".toList, "S".toList])),
     some ("out_buf".toList, .ptr (word "void")), some ("out_buf_size".toList, word "easyMock_size_t")] :=
  (C80_members_partial {} 3 exampleTyped rfl rfl (by decide +kernel) (CDecl.listed_types _ example_typed.1) example_outs example_storable
    (fun _ => ⟨example_typed.2, rfl⟩)).trans (by decide +kernel)

/-- The default result of this function. -/
example : ((preludeItems (srcFun {} 3 exampleTyped))[2]?).bind readItem =
    some ("default_res".toList, .ptr (.qual "const".toList (.named ["struct".toList, "S".toList]))) :=
  (C80_result_partial {} 3 exampleTyped rfl (by decide +kernel) rfl example_typed.2 rfl).1.trans (by decide +kernel)

/-- C81 for this function. -/
example : ∃ texts : List String, headerDecls {} (funSection {} 3 exampleTyped).1 = texts.map (· ++ ";") ∧
    ∃ types outs, texts.map read = [some ("g_ExpectAndReturn".toList, .fn (word "void") (.ofList types) false),
      some ("g_ExpectReturnAndOutput".toList, .fn (word "void") (.ofList (types ++ outs)) false)] ∧
    types = [.ptr (.named ["struct".toList, "S".toList]), .ptr (word "void"), .qual "const".toList (word "int"),
      .ptr (.fn (word "int") (.cons (.ptr (.qual "const".toList (word "char"))) .nil) false),
      .ptr (.qual "const".toList (.named ["struct".toList, "S".toList])),
      word "EasyMock_Matcher", word "EasyMock_Matcher", word "EasyMock_Matcher", word "EasyMock_Matcher"] ∧
    outs = [.ptr (.named ["struct".toList, "S".toList]), .ptr (word "void"), word "easyMock_size_t"] := by
  have hr : CDecl.Entry exampleTyped.retStr exampleTyped.ret (semOf exampleTyped.ret) :=
    CDecl.entry_type (Or.inl rfl) example_typed.2
  obtain ⟨-, texts, h1, h2⟩ := C81_expect_partial {} 3 exampleTyped rfl rfl (by decide +kernel)
    (CDecl.listed_types _ example_typed.1) example_outs (fun _ => hr)
  exact ⟨texts, h1, _, _, h2.trans (by decide +kernel), rfl, rfl⟩

/-! ## Where C80 is false -/

/-- A function `void h(t p)`. -/
def takes (t : Ty) : FunDecl where
  info := { name := "h" }
  retStr := "void"
  ret := .ctype .void false false
  params := .cons "" t "p" .nil

/-- The member for a constant pointer is constant, but the Expect function writes to it. -/
theorem C80_refuted_const : ∃ f : FunDecl,
    ((dataItems {} (srcFun {} 0 f)).map readItem)[0]? = some (some ("p".toList, .qual "const".toList (.ptr (word "int")))) ∧
    copies "p" "p" ∈ commonItems (srcFun {} 0 f) :=
  ⟨takes (.const false (.ptr false (.ctype .int false false))), by decide +kernel, by decide +kernel⟩

/-- For a reference to a pointer, the object to which the member refers at first is no pointer: the file does not
    compile. -/
theorem C80_refuted_reference : ∃ f : FunDecl, (dataItems { cpp := true } (srcFun { cpp := true } 0 f)).take 2 =
    [says "int default_p", says "std::reference_wrapper<int*> p{ default_p }"] :=
  ⟨takes (.ref false (.ptr false (.ctype .int false false))), by decide +kernel⟩

/-- For a reference to a typedef of a structure without tag this object has no type. -/
theorem C80_refuted_anonymous : ∃ f : FunDecl, (dataItems { cpp := true } (srcFun { cpp := true } 0 f)).take 2 =
    [says " default_p", says "std::reference_wrapper<T> p{ default_p }"] :=
  ⟨takes (.ref false (.tdef false "T" (.comp false .struct "" .nil false false .nil))), by decide +kernel⟩

/-- In C++ the type of the matcher for a pointer to a function is cut off in the middle of its declarator. -/
theorem C80_refuted_matcher : ∃ f : FunDecl, ((dataItems { cpp := true } (srcFun { cpp := true } 0 f))[1]?) =
    some (says "::EasyMock::EasyMock_Matcher_Cpp<int(*> _h_match_p") :=
  ⟨takes (.ptr false (.fn false { name := "" } "int" (.ctype .int false false) .nil)), by decide +kernel⟩

end EasyMock.CFile
