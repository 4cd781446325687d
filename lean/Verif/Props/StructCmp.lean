import Verif.StructCmp.DiffLemmas
import Verif.StructCmp.TextLemmas

/-! # Generated comparators (C28, C29, C30, C58) -/

namespace EasyMock.StructCmp

open EasyMock.Types

/-- The comparators generated for a sequence of typedefs and parameter types. -/
def program (env : Env) (steps : List Step) : List Comparator := (genSteps env {} steps).2

theorem requested_all {env : Env} (h : "EasyMock_all_comparators" ∈ env.comparators) (N : String) :
    requested env N = true := by
  simp [requested, h]

theorem regOK_nil (env : Env) (PN : String → Ty → Prop) : RegOK env PN [] := by
  intro e he; cases he

theorem closed_program {env : Env} {PN : String → Ty → Prop} {full : String → String}
    (hn : Naming PN full) {steps : List Step}
    (g : GenOK (env := env) (PN := PN) (full := full) {} (genSteps env {} steps).1 (program env steps)) :
    Closed PN full (fun N => N ∈ (genSteps env {} steps).1.done) (program env steps) := by
  obtain ⟨new, d, nn, _⟩ := g.names
  have d' : (genSteps env {} steps).1.done = new := by rw [d]; simp
  intro N t hN hp
  have hmem : full N ∈ (program env steps).map (fun c => c.name) := by
    rw [nn]
    rw [d'] at hN
    exact List.mem_map_of_mem hN
  obtain ⟨c, hc, hcn⟩ := List.mem_map.mp hmem
  cases hf : (program env steps).find? (fun k => k.name == full N) with
  | none =>
    have := List.find?_eq_none.mp hf c hc
    simp [hcn] at this
  | some c' =>
    refine ⟨c', rfl, ?_⟩
    have hname := List.find?_some hf
    simp at hname
    obtain ⟨M, u, _, hM, hu, hm⟩ := g.comps c' (List.mem_of_find?_eq_some hf)
    have : N = M := hn.distinct N M t u hp hu (by rw [← hname, hM])
    subst this
    rw [hn.one N t u hp hu]
    exact hm

/-! ## C28, C29: comparators are exact and report the first difference -/

/-- C28 and C29, for every program whose names are unambiguous (`Naming`) and whose types are
    regular, with all comparators requested: the comparator of a parameter type returns 0 exactly
    if the two objects are equal, for all values, and never calls a function that does not exist nor
    uses an object as one of another type.

    Missing: the deviations below (`C28_refuted_*`), which violate the hypotheses. -/
theorem C28_exact_partial {env : Env} {PN : String → Ty → Prop} {full : String → String}
    (hall : "EasyMock_all_comparators" ∈ env.comparators) (hn : Naming PN full)
    (steps : List Step) (hr : RegularSteps env PN full steps) (t : Ty) (ht : Step.param t ∈ steps)
    (hc : isComposable (rawType t) = true) (hi : isImplicit (rawType t) = false) :
    ∃ N, PN N (rawType t) ∧ full N = N ∧ ∀ (S : Type) (neq : S → S → Bool), ∃ k, ∀ depth, k ≤ depth →
      ∀ (v w : Val S) (p : String), Fits (rawType t) v → Fits (rawType t) w →
      (run (program env steps) neq depth N v w p = .equal ↔ Same neq (rawType t) v w) ∧
      (¬ Same neq (rawType t) v w →
        ∃ a o f r, run (program env steps) neq depth N v w p = .diff a o f r) := by
  have g := genSteps_ok (requested_all hall) steps {} (regOK_nil env PN) (by simp) hr
  obtain ⟨N, hN, hp, hfull⟩ := g.2 t ht hc hi
  refine ⟨N, hp, hfull, ?_⟩
  intro S neq
  have ⟨hm, ho⟩ := holdsMembers_of_composable hc
  obtain ⟨k, hk⟩ := run_agrees neq (closed_program hn g.1) (rawType t) hm
  refine ⟨k, ?_⟩
  intro depth hd v w p hv hw
  have ha := hk depth hd N (by rw [ho]; exact hp) hN v w p hv hw
  rw [hfull] at ha
  rw [← diffs_nil_iff neq (rawType t) v w p hm hv hw]
  cases hrun : run (program env steps) neq depth N v w p with
  | equal =>
    rw [hrun] at ha
    have ha' : diffs neq (rawType t) v w p = [] := ha
    simp [ha']
  | diff a o f r =>
    rw [hrun] at ha
    have ha' : (diffs neq (rawType t) v w p).head? = some r := ha
    refine ⟨⟨fun h => by simp at h, fun h => by rw [h] at ha'; simp at ha'⟩, ?_⟩
    intro _
    exact ⟨a, o, f, r, rfl⟩
  | unlinked => rw [hrun] at ha; exact absurd ha (by simp [Agrees])
  | confused => rw [hrun] at ha; exact absurd ha (by simp [Agrees])
  | unfinished => rw [hrun] at ha; exact absurd ha (by simp [Agrees])

/-- In plain programs, a name belongs to one type. -/
theorem plain_naming {env : Env} {ts : List Ty}
    (htags : ∀ t ∈ ts, ∀ t' ∈ ts, ∀ u ∈ parts (rawType t), ∀ u' ∈ parts (rawType t'),
      tagName env u = tagName env u' → u = u') :
    Naming (fun N u => u ∈ ts.flatMap (fun t => parts (rawType t)) ∧ N = tagName env u) id := by
  refine ⟨?_, ?_⟩
  · rintro N a b ⟨ha, rfl⟩ ⟨hb, hab⟩
    obtain ⟨t, ht, hat⟩ := List.mem_flatMap.mp ha
    obtain ⟨t', ht', hbt⟩ := List.mem_flatMap.mp hb
    exact htags t ht t' ht' a hat b hbt hab
  · intro N M a b _ _ h; exact h

/-- Plain types are regular. -/
theorem plain_steps {env : Env} (hkey : ∀ u t, isComposable u = true → env.key u = env.key t → isComposable t = true)
    {ts : List Ty} (hplain : ∀ t ∈ ts, Plain (rawType t) ∧ NoCompositeTypedef t) :
    RegularSteps env (fun N u => u ∈ ts.flatMap (fun t => parts (rawType t)) ∧ N = tagName env u) id (ts.map .param) := by
  have hr : ∀ l : List Ty, (∀ t ∈ l, t ∈ ts) →
      RegularSteps env (fun N u => u ∈ ts.flatMap (fun t => parts (rawType t)) ∧ N = tagName env u) id
        (l.map .param) := by
    intro l
    induction l with
    | nil => intro _; trivial
    | cons x xs ih =>
      intro hl
      have hx := hl x List.mem_cons_self
      refine ⟨typedefsNamed_of_plain hkey x (hplain x hx).2, ?_, ih (fun t h => hl t (List.mem_cons_of_mem _ h))⟩
      intro _
      exact plain_regular hkey (rawType x) "" (hplain x hx).1
        (fun u hu => List.mem_flatMap.mpr ⟨x, hx, hu⟩)
  exact hr ts (fun _ h => h)

/-- C28 for plain C programs: structs, unions and classes declared at file scope, each tag naming one type,
    typedefs only of arithmetic types, enums and pointers to them; arrays, unions, anonymous members
    and bit-fields allowed. The comparator `<keyword>_<tag>` of every parameter type, passed by value or
    by pointer, is exact. -/
theorem C28_exact_plain_partial {env : Env}
    (hall : "EasyMock_all_comparators" ∈ env.comparators)
    (hkey : ∀ u t, isComposable u = true → env.key u = env.key t → isComposable t = true)
    (ts : List Ty) (hplain : ∀ t ∈ ts, Plain (rawType t) ∧ NoCompositeTypedef t)
    (htags : ∀ t ∈ ts, ∀ t' ∈ ts, ∀ u ∈ parts (rawType t), ∀ u' ∈ parts (rawType t'),
      tagName env u = tagName env u' → u = u')
    (t : Ty) (ht : t ∈ ts)
    (hc : isComposable (rawType t) = true) (hi : isImplicit (rawType t) = false)
    (S : Type) (neq : S → S → Bool) :
    ∃ k, ∀ depth, k ≤ depth →
      ∀ (v w : Val S) (p : String), Fits (rawType t) v → Fits (rawType t) w →
      (run (program env (ts.map .param)) neq depth (tagName env (rawType t)) v w p = .equal ↔
        Same neq (rawType t) v w) ∧
      (¬ Same neq (rawType t) v w → ∃ a o f r,
        run (program env (ts.map .param)) neq depth (tagName env (rawType t)) v w p =
          .diff a o f r) := by
  obtain ⟨N, ⟨_, rfl⟩, _, h⟩ := C28_exact_partial hall (plain_naming htags) (ts.map .param) (plain_steps hkey hplain) t
    (List.mem_map_of_mem ht) hc hi
  exact h S neq

/-- C29.  When a comparator rejects, its message designates a real difference: from both objects, following
    the members shown in the parameter text (`showPath`) and then the field (and index) named, one arrives
    at the two values shown, and these differ. It is the first of all differences in comparison
    order (`diffs`).

    Missing: as for C28. -/
theorem C29_first_difference_partial {env : Env} {PN : String → Ty → Prop} {full : String → String}
    (hall : "EasyMock_all_comparators" ∈ env.comparators) (hn : Naming PN full)
    (steps : List Step) (hr : RegularSteps env PN full steps) (t : Ty) (ht : Step.param t ∈ steps)
    (hc : isComposable (rawType t) = true) (hi : isImplicit (rawType t) = false) :
    ∃ N, PN N (rawType t) ∧ full N = N ∧ ∀ (S : Type) (neq : S → S → Bool), ∃ k, ∀ depth, k ≤ depth →
      ∀ (v w : Val S) (p : String), Fits (rawType t) v → Fits (rawType t) w →
      ∀ a o f r, run (program env steps) neq depth N v w p = .diff a o f r →
        (diffs neq (rawType t) v w p).head? = some r ∧
        ∃ path : Path, r.param = showPath p path ∧
          v.follow (path ++ [(r.field, r.idx)]) = some (.scalar r.cur) ∧
          w.follow (path ++ [(r.field, r.idx)]) = some (.scalar r.exp) ∧
          neq r.cur r.exp = true := by
  have g := genSteps_ok (requested_all hall) steps {} (regOK_nil env PN) (by simp) hr
  obtain ⟨N, hN, hp, hfull⟩ := g.2 t ht hc hi
  refine ⟨N, hp, hfull, ?_⟩
  intro S neq
  have ⟨hm, ho⟩ := holdsMembers_of_composable hc
  obtain ⟨k, hk⟩ := run_agrees neq (closed_program hn g.1) (rawType t) hm
  refine ⟨k, ?_⟩
  intro depth hd v w p hv hw a o f r hrun
  have ha := hk depth hd N (by rw [ho]; exact hp) hN v w p hv hw
  rw [hfull, hrun] at ha
  have ha' : (diffs neq (rawType t) v w p).head? = some r := ha
  exact ⟨ha', diffs_real neq (rawType t) v w p hm hv hw r (List.mem_of_mem_head? ha')⟩

/-! ### Witnesses for the hypotheses -/

section Witness

/-- `struct { int v; }`, known as `in_t`. -/
def wIn : Ty :=
  .comp false .struct "" (.field "" (.ctype .int false false) "v" (-1) .nil) false false .nil

/-- `struct Deep { char c[2]; }` declared inside `struct Inner`. -/
def wDeep : Ty :=
  .comp false .struct "Deep" (.field "" (.ctype .char false false) "c" 2 .nil) true false .nil

/-- `struct Inner { struct Deep { … } d; }` declared inside `struct Out`. -/
def wInner : Ty :=
  .comp false .struct "Inner" (.field "" wDeep "d" (-1) .nil) true false .nil

/-- `struct Out { in_t a[2]; struct Inner { … } e; struct { int z; }; int y:3; struct Out *p; }`. -/
def wOut : Ty :=
  .comp false .struct "Out"
    (.field "" (.tdef false "in_t" wIn) "a" 2
    (.field "" wInner "e" (-1)
    (.field "" (.comp false .struct "" (.field "" (.ctype .int false false) "z" (-1) .nil) true false
      .nil) "" (-1)
    (.bit "" (.ctype .int false false) "y" 3
    (.field "" (.ptr false (.incomplete ⟨false, false, false, false, false, true, false⟩ .struct "Out"))
      "p" (-1) .nil))))) false false .nil

open Classical in
/-- A hash which separates these types. -/
noncomputable def wKey (t : Ty) : Nat :=
  if t = wIn then 1 else if isComposable t = true then 2 else 0

noncomputable def wEnv : Env := { key := wKey, comparators := ["EasyMock_all_comparators"] }

/-- Which names belong to which type. -/
def wPN (N : String) (t : Ty) : Prop :=
  (N, t) ∈ [("in_t", wIn), ("struct_easymock_generated_anonymous_type_hash_1", wIn),
    ("struct_Out", wOut), ("struct_Inner", wInner), ("struct_Deep", wDeep)]

/-- The prefix of the type declared two levels deep. -/
def wFull (N : String) : String := if N = "struct_Deep" then "__struct_Deep" else N

theorem wNaming : Naming wPN wFull := by
  constructor
  · intro N t u h h'
    simp only [wPN, List.mem_cons, List.not_mem_nil, or_false, Prod.mk.injEq] at h h'
    rcases h with ⟨rfl, rfl⟩ | ⟨rfl, rfl⟩ | ⟨rfl, rfl⟩ | ⟨rfl, rfl⟩ | ⟨rfl, rfl⟩ <;>
    rcases h' with ⟨hh, rfl⟩ | ⟨hh, rfl⟩ | ⟨hh, rfl⟩ | ⟨hh, rfl⟩ | ⟨hh, rfl⟩ <;>
    first | rfl | (exact absurd hh (by decide))
  · intro N M t u h h' e
    simp only [wPN, List.mem_cons, List.not_mem_nil, or_false, Prod.mk.injEq] at h h'
    rcases h with ⟨rfl, rfl⟩ | ⟨rfl, rfl⟩ | ⟨rfl, rfl⟩ | ⟨rfl, rfl⟩ | ⟨rfl, rfl⟩ <;>
    rcases h' with ⟨rfl, rfl⟩ | ⟨rfl, rfl⟩ | ⟨rfl, rfl⟩ | ⟨rfl, rfl⟩ | ⟨rfl, rfl⟩ <;>
    first | rfl | (exact absurd e (by decide))

theorem wKey_in : wEnv.key wIn = 1 := by simp [wEnv, wKey]

theorem wRegular : RegularSteps wEnv wPN wFull [.param (.ptr false wOut)] := by
  have tag : tagName wEnv wIn = "struct_easymock_generated_anonymous_type_hash_1" := by
    unfold tagName anonymousName
    rw [wKey_in]
    rfl
  have only : ∀ u, isComposable u = true → wEnv.key u = wEnv.key wIn → u = wIn := by
    intro u hu h
    rw [wKey_in] at h
    simp only [wEnv, wKey, hu, if_true] at h
    split at h
    · assumption
    · simp at h
  have hin : ∀ prep, Regular wEnv wPN wFull prep wIn := by
    intro prep
    refine ⟨rfl, ?_, ?_, ⟨trivial, rfl, trivial⟩, trivial⟩
    · show wPN (tagName wEnv wIn) wIn
      rw [tag]; simp [wPN]
    · intro N h
      have h : wPN N wIn := h
      simp only [wPN, List.mem_cons, List.not_mem_nil, or_false, Prod.mk.injEq] at h
      rcases h with ⟨rfl, _⟩ | ⟨rfl, _⟩ | ⟨_, h⟩ | ⟨_, h⟩ | ⟨_, h⟩
      · rfl
      · rfl
      · simp [wIn, wOut] at h
      · simp [wIn, wInner] at h
      · simp [wIn, wDeep] at h
  have hdeep : Regular wEnv wPN wFull "__" wDeep := by
    refine ⟨rfl, ?_, ?_, ⟨trivial, rfl, trivial⟩, trivial⟩
    · show wPN "struct_Deep" wDeep
      simp [wPN]
    · intro N h
      have h : wPN N wDeep := h
      simp only [wPN, List.mem_cons, List.not_mem_nil, or_false, Prod.mk.injEq] at h
      rcases h with ⟨_, h⟩ | ⟨_, h⟩ | ⟨_, h⟩ | ⟨_, h⟩ | ⟨rfl, _⟩
      · simp [wIn, wDeep] at h
      · simp [wIn, wDeep] at h
      · simp [wOut, wDeep] at h
      · simp [wInner, wDeep] at h
      · rfl
  have hinner : Regular wEnv wPN wFull "_" wInner := by
    refine ⟨rfl, ?_, ?_, ⟨trivial, rfl, ?_⟩, trivial⟩
    · show wPN "struct_Inner" wInner
      simp [wPN]
    · intro N h
      have h : wPN N wInner := h
      simp only [wPN, List.mem_cons, List.not_mem_nil, or_false, Prod.mk.injEq] at h
      rcases h with ⟨_, h⟩ | ⟨_, h⟩ | ⟨_, h⟩ | ⟨rfl, _⟩ | ⟨_, h⟩
      · simp [wIn, wInner] at h
      · simp [wIn, wInner] at h
      · simp [wOut, wInner] at h
      · rfl
      · simp [wInner, wDeep] at h
    · exact hdeep
  refine ⟨trivial, ?_, trivial⟩
  intro _
  refine ⟨rfl, ?_, ?_, ?_⟩
  · show wPN "struct_Out" wOut
    simp [wPN]
  · intro N h
    have h : wPN N wOut := h
    simp only [wPN, List.mem_cons, List.not_mem_nil, or_false, Prod.mk.injEq] at h
    rcases h with ⟨_, h⟩ | ⟨_, h⟩ | ⟨rfl, _⟩ | ⟨_, h⟩ | ⟨_, h⟩
    · simp [wIn, wOut] at h
    · simp [wIn, wOut] at h
    · rfl
    · simp [wInner, wOut] at h
    · simp [wDeep, wOut] at h
  · refine ⟨⟨⟨?_, trivial⟩, rfl, hin _⟩, ⟨trivial, rfl, hinner⟩, ⟨trivial, rfl, ?_⟩, trivial,
      ⟨trivial, rfl, trivial⟩, trivial⟩
    · intro _ u hu _ h
      rw [only u hu h]
      simp [wPN]
    · exact ⟨⟨trivial, rfl, trivial⟩, trivial⟩

/-- The hypotheses of C28 and C29 hold for a program with a typedef of an anonymous struct used as
    array element, types declared two levels deep, an anonymous member, a bit-field and a
    recursive pointer; the conclusion applies to a parameter of type `struct Out *`. -/
example : ∃ N, wPN N wOut ∧ wFull N = N ∧ ∀ (S : Type) (neq : S → S → Bool), ∃ k, ∀ depth,
    k ≤ depth → ∀ (v w : Val S) (p : String), Fits wOut v → Fits wOut w →
    (run (program wEnv [.param (.ptr false wOut)]) neq depth N v w p = .equal ↔ Same neq wOut v w) ∧
    (¬ Same neq wOut v w → ∃ a o f r,
      run (program wEnv [.param (.ptr false wOut)]) neq depth N v w p = .diff a o f r) :=
  C28_exact_partial (by simp [wEnv]) wNaming _ wRegular (.ptr false wOut) (by simp) rfl rfl

/-- An object of type `struct Out`. -/
def wValue (z c1 a1 : Nat) : Val Nat :=
  .comp fun
    | "a" => some (.arr 2 fun i => .comp fun f => if f = "v" then some (.scalar (if i = 1 then a1 else 0))
        else none)
    | "e" => some (.comp fun f => if f = "d" then some (.comp fun g => if g = "c"
        then some (.arr 2 fun i => .scalar (if i = 1 then c1 else 0)) else none) else none)
    | "z" => some (.scalar z)
    | "y" => some (.scalar 1)
    | "p" => some (.scalar 4096)
    | _ => none

/-- It fits. -/
example : Fits wOut (wValue 1 2 3) := by
  refine ⟨_, rfl, ?_⟩
  refine ⟨⟨_, rfl, _, rfl, ?_⟩, ⟨_, rfl, ?_⟩, ⟨rfl, by decide, ?_⟩, Or.inr ⟨1, rfl⟩, ⟨_, rfl, 4096, rfl⟩,
    trivial⟩
  · intro i _
    exact ⟨_, rfl, ⟨_, rfl, _, rfl⟩, trivial⟩
  · refine ⟨_, rfl, ⟨_, rfl, ?_⟩, trivial⟩
    exact ⟨_, rfl, ⟨_, rfl, _, rfl, fun i _ => ⟨_, rfl⟩⟩, trivial⟩
  · exact ⟨_, rfl, ⟨_, rfl, 1, rfl⟩, trivial⟩

/-- Two fitting objects which differ in three places: the first difference is the one in the nested
    array of the member which is not an array. -/
example : (diffs (fun a b : Nat => a != b) wOut (wValue 1 2 3) (wValue 1 7 8) "out").map
    (fun r => (r.param, r.field, r.idx, r.cur, r.exp)) =
    [("out.e.d", "c", some 1, 2, 7), ("out.a", "v", none, 3, 8)] := by decide +kernel

end Witness

/-! ### Plain example -/

/-- `struct B { int x[3]; }` and `union U { struct B b; char c; }`. -/
example (S : Type) (neq : S → S → Bool) (key : Ty → Nat)
    (hkey : ∀ u t, isComposable u = true → key u = key t → isComposable t = true) :
    let B : Ty := .comp false .struct "B" (.field "" (.ctype .int false false) "x" 3 .nil) false false .nil
    let U : Ty := .comp false .union "U" (.field "" B "b" (-1)
      (.field "" (.ctype .char false false) "c" (-1) .nil)) false false .nil
    ∃ k, ∀ depth, k ≤ depth → ∀ (v w : Val S) (p : String), Fits U v → Fits U w →
      (run (program ⟨key, ["EasyMock_all_comparators"]⟩ ([.ptr false B, U].map .param)) neq depth
        "union_U" v w p = .equal ↔ Same neq U v w) := by
  intro B U
  obtain ⟨k, h⟩ := C28_exact_plain_partial (env := ⟨key, ["EasyMock_all_comparators"]⟩) (by simp) hkey
    [.ptr false B, U]
    (by
      intro t ht
      simp only [List.mem_cons, List.not_mem_nil, or_false] at ht
      rcases ht with rfl | rfl
      · exact ⟨⟨rfl, rfl, trivial, trivial⟩, trivial⟩
      · exact ⟨⟨rfl, rfl, ⟨rfl, rfl, trivial, trivial⟩, trivial, trivial⟩, trivial⟩)
    (by
      have hB : parts B = [B] := by simp [B, parts, partsFields]
      have hU : parts U = [U, B] := by simp [U, parts, partsFields, hB]
      have hne : tagName ⟨key, ["EasyMock_all_comparators"]⟩ B ≠
          tagName ⟨key, ["EasyMock_all_comparators"]⟩ U := by
        show "struct_B" ≠ "union_U"
        decide
      intro t ht t' ht' u hu u' hu' he
      have key : ∀ t ∈ [Ty.ptr false B, U], ∀ u ∈ parts (rawType t), u = B ∨ u = U := by
        intro t ht u hu
        simp only [List.mem_cons, List.not_mem_nil, or_false] at ht
        rcases ht with rfl | rfl
        · have hu : u ∈ parts B := hu
          rw [hB] at hu
          simp at hu; exact Or.inl hu
        · have hu : u ∈ parts U := hu
          rw [hU] at hu
          simp at hu; exact hu.symm
      rcases key t ht u hu with rfl | rfl <;> rcases key t' ht' u' hu' with rfl | rfl
      · rfl
      · exact absurd he hne
      · exact absurd he.symm hne
      · rfl)
    U (by simp) rfl rfl S neq
  exact ⟨k, fun depth hd v w p hv hw => (h depth hd v w p hv hw).1⟩

/-! ### Deviations -/

/-- C28 does not hold for a member whose typedef hides a pointer to a struct (as in linked lists): the
    generated code compares the pointees' type at the address of the pointer itself, so even two
    identical objects are not compared equal. -/
theorem C28_refuted_typedef_pointer :
    let node : Ty := .comp false .struct "node" (.field "" (.ctype .int false false) "v" (-1) .nil)
      false false .nil
    let A : Ty := .comp false .struct "A" (.field "" (.tdef false "node_p" (.ptr false node)) "next" (-1)
      .nil) false false .nil
    let env : Env := ⟨fun t => match t with
      | .comp _ _ n _ _ _ _ => 10 + n.length
      | .ptr .. => 1
      | _ => 0, ["EasyMock_all_comparators"]⟩
    ∀ (S : Type) (neq : S → S → Bool) (a b : S) (p : String) (depth : Nat),
      Fits A (.comp fun f => if f = "next" then some (.scalar a) else none) ∧
      run (program env [.param A]) neq (depth + 2) "struct_A"
        (.comp fun f => if f = "next" then some (.scalar a) else none)
        (.comp fun f => if f = "next" then some (.scalar b) else none) p = .confused := by
  intro node A env S neq a b p depth
  refine ⟨⟨_, rfl, ⟨_, rfl, a, rfl⟩, trivial⟩, ?_⟩
  have hp : program env [.param A] =
      [⟨"struct_A", " struct", [⟨"next", false, .call "struct_node"⟩], "struct A", A⟩,
       ⟨"struct_node", " struct", [⟨"v", false, .neq "node" (some "d") none⟩], "struct node", node⟩] := by
    decide +kernel
  rw [hp]
  rfl

/-- C28 does not hold when the typedef name of one type is the comparator name of another
    (`typedef struct T { int x; } struct_S;` and `struct S { int x; int y; }`): the second comparator is
    not generated, and objects of the second type which differ are reported equal. -/
theorem C28_refuted_name_clash :
    let T : Ty := .comp false .struct "T" (.field "" (.ctype .int false false) "x" (-1) .nil)
      false false .nil
    let U : Ty := .comp false .struct "S" (.field "" (.ctype .int false false) "x" (-1)
      (.field "" (.ctype .int false false) "y" (-1) .nil)) false false .nil
    let env : Env := ⟨fun t => match t with
      | .comp _ _ "T" _ _ _ _ => 1
      | .comp _ _ _ _ _ _ _ => 2
      | _ => 0, ["EasyMock_all_comparators"]⟩
    let obj : Nat → Val Nat := fun y => .comp fun
      | "x" => some (.scalar 0)
      | "y" => some (.scalar y)
      | _ => none
    ∀ depth,
      run (program env [.param (.tdef false "struct_S" T), .param U]) (fun a b => a != b) (depth + 1)
        "struct_S" (obj 1) (obj 2) "p" = .equal ∧
      Fits U (obj 1) ∧ Fits U (obj 2) ∧ ¬ Same (fun a b => a != b) U (obj 1) (obj 2) := by
  intro T U env obj depth
  have hp : program env [.param (.tdef false "struct_S" T), .param U] =
      [⟨"struct_S", " struct", [⟨"x", false, .neq "struct_S" (some "d") none⟩], "struct_S", T⟩] := by
    decide +kernel
  refine ⟨by rw [hp]; rfl, ⟨_, rfl, ⟨_, rfl, 0, rfl⟩, ⟨_, rfl, 1, rfl⟩, trivial⟩,
    ⟨_, rfl, ⟨_, rfl, 0, rfl⟩, ⟨_, rfl, 2, rfl⟩, trivial⟩, ?_⟩
  rintro ⟨-, ⟨v, w, hv, hw, a, b, ha, hb, h⟩, -⟩
  cases hv; cases hw; cases ha; cases hb
  exact absurd h (by decide)

/-- C28 without requesting the comparator of a nested type: the generated code does not link. -/
theorem C28_refuted_not_requested :
    let B : Ty := .comp false .struct "B" (.field "" (.ctype .int false false) "x" (-1) .nil)
      false false .nil
    let A : Ty := .comp false .struct "A" (.field "" B "b" (-1) .nil) false false .nil
    let env : Env := ⟨fun _ => 0, ["A"]⟩
    ∀ (S : Type) (neq : S → S → Bool) (v w : Val S) (p : String) (depth : Nat),
      run (program env [.param A]) neq (depth + 2) "struct_A"
        (.comp fun f => if f = "b" then some v else none)
        (.comp fun f => if f = "b" then some w else none) p = .unlinked "struct_B" := by
  intro B A env S neq v w p depth
  have hp : program env [.param A] =
      [⟨"struct_A", " struct", [⟨"b", false, .call "struct_B"⟩], "struct A", A⟩] := by
    decide +kernel
  rw [hp]
  rfl

/-! ## C29: texts -/

/-- The conversion `printf` needs for a value of an arithmetic type, by the C standard. -/
def conversion : CT → Option String
  | .char => some "c" | .uchar => some "c" | .schar => some "c" | .short => some "hi"
  | .ushort => some "hu" | .int => some "d" | .uint => some "u" | .long => some "li"
  | .ulong => some "lu" | .longLong => some "lli" | .ulongLong => some "llu" | .float => some "f"
  | .double => some "lf" | .longDouble => some "Lf"
  | .int128 => none | .uint128 => none | .void => none | .invalid => none

/-- C29.  The values of a member are printed with the conversion of its type, through any number of
    qualifiers and typedefs: arithmetic types by the table, pointers and function types with `%p`, enums
    with `%d`. -/
theorem C29_format (t : Ty) :
    (∀ c i j f, untypedef t = .ctype c i j → conversion c = some f → formatOf t = some f) ∧
    (∀ i u, untypedef t = .ptr i u → formatOf t = some "p") ∧
    (∀ i n vs, untypedef t = .enum i n vs → formatOf t = some "d") ∧
    (∀ i x s r ps, untypedef t = .fn i x s r ps → formatOf t = some "p") := by
  refine ⟨?_, ?_, ?_, ?_⟩
  · intro c i j f h hf
    unfold formatOf
    rw [h]
    cases c <;> simp_all [conversion, unqualified, isPointer, attrs, isFunctionType, isEnum, printfFormat]
  · intro i u h
    unfold formatOf
    rw [h]
    simp [unqualified, isPointer, attrs]
  · intro i n vs h
    unfold formatOf
    rw [h]
    simp [unqualified, isPointer, attrs, isFunctionType, isEnum]
  · intro i x s r ps h
    unfold formatOf
    rw [h]
    simp [unqualified, isPointer, attrs, isFunctionType]

example : formatOf (.const false (.tdef false "u32" (.tdef false "uint32_t" (.ctype .uint false false)))) =
    some "u" :=
  (C29_format _).1 .uint false false "u" rfl rfl

/-- C29 does not hold for 128-bit integers: the format has two floating-point conversions for one
    integer argument. -/
theorem C29_refuted_int128 :
    formatOf (.ctype .int128 false false) = some "lf%lf" ∧
    formatOf (.ctype .uint128 false false) = some "Lf%Lf" := ⟨rfl, rfl⟩

/-- The beginning of the comparator name of a type without typedef. -/
def kwPrefix : Kw → String
  | .struct => "struct_" | .union => "union_" | .cls => "class_"

/-- The keyword with its article, after `a`. -/
def articleText : Kw → String
  | .struct => " struct" | .union => "n union" | .cls => " class"

/-- The name by which the user requests the comparator of a type without typedef. -/
def requestName : Kw → String → String
  | .struct, tag => tag | .union, tag => tag | .cls, tag => "class_" ++ tag

/-- The name of the comparator of a flat type. -/
def flatName (kw : Kw) (tag : String) : Option String → String
  | none => kwPrefix kw ++ tag
  | some T => T

/-- The name of a flat type. -/
def flatOwner (tag : String) : Option String → String
  | none => tag
  | some T => T

/-- C29.  The whole comparator of a type with members of arithmetic type (bit-fields included): one
    check per member, in declaration order; bit-fields are printed through a cast to their
    declared type. -/
theorem C29_flat_program (env : Env) (hall : "EasyMock_all_comparators" ∈ env.comparators) (kw : Kw)
    (tag : String) (htag : tag ≠ "") (fs : List (String × CT × Option Nat))
    (hfs : ∀ x ∈ fs, x.1 ≠ "" ∧ (conversion x.2.1).isSome) (td : Option String) (htd : td ≠ some "") :
    ∃ decl, program env [.param (flat kw tag fs td)] =
      [{ name := flatName kw tag td
         article := articleText kw
         checks := fs.map (fun x =>
          ⟨x.1, false, .neq (flatOwner tag td) (conversion x.2.1) (x.2.2.map (fun _ => x.2.1.str))⟩)
         decl := decl
         ty := .comp false kw tag (flatFields fs) false false .nil }] := by
  have hconv : ∀ x ∈ fs, conversion x.2.1 = some (printfFormat x.2.1) := by
    intro x hx
    have := (hfs x hx).2
    revert this
    cases x.2.1 <;> simp [conversion, printfFormat]
  have hchecks : ∀ owner : String, fs.map (flatCheck owner) = fs.map (fun x =>
      ⟨x.1, false, .neq owner (conversion x.2.1)
        (x.2.2.map (fun _ => x.2.1.str))⟩) := by
    intro owner
    apply List.map_congr_left
    intro x hx
    unfold flatCheck
    rw [hconv x hx]
  have hgen : ∀ reg, genSection env "" "" { reg := reg, done := [] }
      (.comp false kw tag (flatFields fs) false false .nil) =
      (⟨reg, [comparatorName env reg (.comp false kw tag (flatFields fs) false false .nil)]⟩,
       [⟨comparatorName env reg (.comp false kw tag (flatFields fs) false false .nil), article kw,
        fs.map (flatCheck (mostDefinedName env reg
          (.comp false kw tag (flatFields fs) false false .nil))),
        declText env reg (.comp false kw tag (flatFields fs) false false .nil),
        .comp false kw tag (flatFields fs) false false .nil⟩]) := by
    intro reg
    unfold genSection
    simp only [requested_all hall, Bool.not_true, Bool.or_false, List.contains_nil,
      Bool.false_eq_true, if_false]
    rw [genFields_flat env _ rfl "" _ _ fs (fun x hx => (hfs x hx).1)]
    rfl
  have hart : article kw = articleText kw := by
    cases kw <;> rfl
  have hcomp : isComposable (.comp false kw tag (flatFields fs) false false .nil) = true :=
    isComposable_comp _ _ _ _ _ _ _
  have himp : isImplicit (.comp false kw tag (flatFields fs) false false .nil) = false := by
    cases kw <;> rfl
  have hname : (attrs (.comp false kw tag (flatFields fs) false false .nil)).name = tag := by
    cases kw <;> rfl
  cases td with
  | none =>
    have h := hgen []
    have hgo : program env [.param (flat kw tag fs none)] =
        (genSection env "" "" { reg := [], done := [] }
          (.comp false kw tag (flatFields fs) false false .nil)).2 := by
      simp only [program, genSteps, genStep, flat, rawType, hcomp, himp, registerRaw]
      simp
    rw [hgo, h]
    have e1 : comparatorName env [] (.comp false kw tag (flatFields fs) false false .nil) =
        flatName kw tag none := by
      unfold comparatorName typedefName
      simp only [List.find?_nil, empty_isEmpty, if_true, hname, isEmpty_false htag,
        Bool.false_eq_true, if_false]
      cases kw <;> rfl
    have e2 : mostDefinedName env [] (.comp false kw tag (flatFields fs) false false .nil) = tag := by
      unfold mostDefinedName typedefName
      simp only [List.find?_nil, empty_isEmpty, if_true, hname]
    rw [e1, e2, hchecks, hart]
    exact ⟨_, rfl⟩
  | some T =>
    have hT : T ≠ "" := fun h => htd (by rw [h])
    have h := hgen [(env.key (.comp false kw tag (flatFields fs) false false .nil), T)]
    have hgo : program env [.param (flat kw tag fs (some T))] =
        (genSection env "" ""
          { reg := [(env.key (.comp false kw tag (flatFields fs) false false .nil), T)], done := [] }
          (.comp false kw tag (flatFields fs) false false .nil)).2 := by
      simp only [program, genSteps, genStep, flat, rawType, hcomp, himp, registerRaw, register]
      simp [genSection]
    rw [hgo, h]
    have e0 : typedefName env [(env.key (.comp false kw tag (flatFields fs) false false .nil), T)]
        (.comp false kw tag (flatFields fs) false false .nil) = T := by
      unfold typedefName
      simp
    have e1 : comparatorName env
        [(env.key (.comp false kw tag (flatFields fs) false false .nil), T)]
        (.comp false kw tag (flatFields fs) false false .nil) = T := by
      unfold comparatorName
      rw [e0, isEmpty_false hT]
      simp
    have e2 : mostDefinedName env
        [(env.key (.comp false kw tag (flatFields fs) false false .nil), T)]
        (.comp false kw tag (flatFields fs) false false .nil) = T := by
      unfold mostDefinedName
      rw [e0, isEmpty_false hT]
      simp
    rw [e1, e2, hchecks, hart]
    exact ⟨_, rfl⟩

/-- C29.  The message for the first differing member of such a type, word for word. -/
theorem C29_flat_message (env : Env) (hall : "EasyMock_all_comparators" ∈ env.comparators) (kw : Kw)
    (tag : String) (htag : tag ≠ "") (pre post : List (String × CT × Option Nat)) (f : String) (c : CT)
    (b : Option Nat) (fmt : String) (hfmt : conversion c = some fmt)
    (hfs : ∀ x ∈ pre ++ (f, c, b) :: post, x.1 ≠ "" ∧ (conversion x.2.1).isSome) (td : Option String)
    (htd : td ≠ some "") (S : Type) (neq : S → S → Bool) (shown : Option String → S → String)
    (g g' : String → Option (Val S)) (p : String) (cur exp : S)
    (hpre : ∀ x ∈ pre, ∃ a e, g x.1 = some (.scalar a) ∧ g' x.1 = some (.scalar e) ∧ neq a e = false)
    (hcur : g f = some (.scalar cur)) (hexp : g' f = some (.scalar exp)) (hne : neq cur exp = true)
    (depth : Nat) :
    ∃ a o k r, run (program env [.param (flat kw tag (pre ++ (f, c, b) :: post) td)]) neq (depth + 1)
        (flatName kw tag td) (.comp g) (.comp g') p = .diff a o k r ∧
      message shown a o k r =
        "Parameter '" ++ p ++ "' which is a" ++
        articleText kw ++ " of type '" ++ flatOwner tag td ++ "' has field '" ++ f ++
        "' with value '" ++ shown (some fmt) cur ++ "', was expecting '" ++ shown (some fmt) exp ++ "'" := by
  have hconv : ∀ x ∈ pre ++ (f, c, b) :: post, conversion x.2.1 = some (printfFormat x.2.1) := by
    intro x hx
    have := (hfs x hx).2
    revert this
    cases x.2.1 <;> simp [conversion, printfFormat]
  have hchecks : ∀ owner : String, (pre ++ (f, c, b) :: post).map (fun x =>
      (⟨x.1, false, .neq owner (conversion x.2.1)
        (x.2.2.map (fun _ => x.2.1.str))⟩ : Check)) =
      (pre ++ (f, c, b) :: post).map (flatCheck owner) := by
    intro owner
    apply List.map_congr_left
    intro x hx
    unfold flatCheck
    rw [hconv x hx]
  have hf : fmt = printfFormat c := by
    have := hconv (f, c, b) (by simp)
    rw [hfmt] at this
    exact Option.some.inj this
  obtain ⟨decl, hdecl⟩ := C29_flat_program env hall kw tag htag _ hfs td htd
  rw [hdecl, hchecks]
  unfold run
  simp only [List.find?_cons, beq_self_eq_true]
  rw [filter_flat, evalChecks_flat neq _ _ _ p g g' f c b cur exp post hcur hexp hne pre hpre]
  refine ⟨_, _, _, _, rfl, ?_⟩
  subst hf
  cases td <;> rfl

example (S : Type) (neq : S → S → Bool) (shown : Option String → S → String) (x y a b : S)
    (hx : neq x x = false) (h : neq a b = true) :
    ∃ ar o k r, run (program ⟨fun _ => 0, ["EasyMock_all_comparators"]⟩
        [.param (flat .union "U" [("i", .int, none), ("n", .uint, some 3), ("c", .char, none)] none)])
        neq 1 "union_U"
        (.comp fun f => if f = "i" then some (.scalar x) else if f = "n" then some (.scalar a) else
          if f = "c" then some (.scalar x) else none)
        (.comp fun f => if f = "i" then some (.scalar x) else if f = "n" then some (.scalar b) else
          if f = "c" then some (.scalar y) else none) "u" = .diff ar o k r ∧
      message shown ar o k r = "Parameter 'u' which is an union of type 'U' has field 'n' with value '" ++
        shown (some "u") a ++ "', was expecting '" ++ shown (some "u") b ++ "'" := by
  refine C29_flat_message ⟨fun _ => 0, ["EasyMock_all_comparators"]⟩ (by simp) .union "U" (by decide)
    [("i", .int, none)] [("c", .char, none)] "n" .uint (some 3) "u" rfl ?_ none (by simp) S neq shown _ _
    "u" a b ?_ rfl rfl h 0
  · intro z hz
    simp only [List.cons_append, List.nil_append, List.mem_cons, List.not_mem_nil, or_false] at hz
    rcases hz with rfl | rfl | rfl <;> exact ⟨by simp, rfl⟩
  · intro z hz
    simp only [List.mem_singleton] at hz
    subst hz
    exact ⟨x, x, rfl, rfl, hx⟩

theorem evalLoop_first {S : Type} {body : Nat → Out S} {o : Out S} (ho : o ≠ .equal) :
    ∀ (n i k : Nat), (∀ j, i ≤ j → j < i + k → body j = .equal) → body (i + k) = o → k < n →
    evalLoop body i n = o
  | 0, _, _, _, _, h => by omega
  | n + 1, i, 0, _, hb, _ => by
    unfold evalLoop
    rw [show body i = o from hb]
    cases o <;> first | rfl | exact absurd rfl ho
  | n + 1, i, k + 1, hj, hb, h => by
    unfold evalLoop
    rw [hj i (Nat.le_refl _) (by omega)]
    exact evalLoop_first ho n (i + 1) k (fun j h1 h2 => hj j (by omega) (by omega))
      (by rw [show i + 1 + k = i + (k + 1) by omega]; exact hb) (by omega)

/-- C29.  The message for an array of arithmetic type: the first differing index is named. -/
theorem C29_array_message (env : Env) (hall : "EasyMock_all_comparators" ∈ env.comparators)
    (tag : String) (htag : tag ≠ "") (f : String) (c : CT) (fmt : String) (hfmt : conversion c = some fmt)
    (n : Nat) (S : Type) (neq : S → S → Bool) (shown : Option String → S → String)
    (a e : Nat → S) (p : String) (i : Nat) (hi : i < n) (hne : neq (a i) (e i) = true)
    (hpre : ∀ j, j < i → neq (a j) (e j) = false) (depth : Nat) :
    ∃ ar o k r, run (program env [.param (.comp false .struct tag
        (.field "" (.ctype c false false) f n .nil) false false .nil)]) neq (depth + 1)
        ("struct_" ++ tag)
        (.comp fun x => if x = f then some (.arr n fun j => .scalar (a j)) else none)
        (.comp fun x => if x = f then some (.arr n fun j => .scalar (e j)) else none) p =
          .diff ar o k r ∧
      message shown ar o k r = "Parameter '" ++ p ++ "' which is a" ++ " struct" ++ " of type '" ++ tag ++
        "' has field array '" ++ f ++ "[idx]' at idx == " ++ toString i ++ " with value '" ++
        shown (some fmt) (a i) ++ "', was expecting '" ++ shown (some fmt) (e i) ++ "'" := by
  have hf : fmt = printfFormat c := by
    revert hfmt
    cases c <;> simp [conversion, printfFormat] <;> exact fun h => h.symm
  have hprog : program env [.param (.comp false .struct tag
        (.field "" (.ctype c false false) f n .nil) false false .nil)] =
      [⟨"struct_" ++ tag, " struct", [⟨f, true, .neq tag (some (printfFormat c)) none⟩],
        declText env [] (.comp false .struct tag (.field "" (.ctype c false false) f n .nil) false false .nil),
        .comp false .struct tag (.field "" (.ctype c false false) f n .nil) false false .nil⟩] := by
    have hname : (attrs (.comp false .struct tag
        (.field "" (.ctype c false false) f n .nil) false false .nil)).name = tag := rfl
    have e1 : comparatorName env [] (.comp false .struct tag
        (.field "" (.ctype c false false) f n .nil) false false .nil) = "struct_" ++ tag := by
      unfold comparatorName typedefName
      simp only [List.find?_nil, empty_isEmpty, if_true, hname, isEmpty_false htag,
        Bool.false_eq_true, if_false]
      rfl
    have e2 : mostDefinedName env [] (.comp false .struct tag
        (.field "" (.ctype c false false) f n .nil) false false .nil) = tag := by
      unfold mostDefinedName typedefName
      simp only [List.find?_nil, empty_isEmpty, if_true, hname]
    have hpos : (n : Int) > 0 := by omega
    have hz : ((n : Int) == 0) = false := by
      have : (n : Int) ≠ 0 := by omega
      simpa using this
    have hcmp : comparedAsComposite (.ctype c false false) = false := rfl
    have hnz : nonZeroSize (.ctype c false false) = true := rfl
    have hcomp : (isComposable (rawType (.comp false .struct tag
        (.field "" (.ctype c false false) f n .nil) false false .nil)) &&
        !isImplicit (rawType (.comp false .struct tag
        (.field "" (.ctype c false false) f n .nil) false false .nil))) = true := rfl
    simp only [program, genSteps, genStep, registerRaw, List.append_nil]
    rw [if_pos hcomp]
    unfold genSection
    simp only [e1, e2, requested_all hall, Bool.not_true, Bool.or_false, List.contains_nil,
      Bool.false_eq_true, if_false]
    unfold genFields genFields
    simp only [hz, hnz, hcmp, registerRaw, registerDefined, formatOf_ctype, ownerText,
      embedded, e2, hpos, decide_true, Bool.not_true, Bool.and_false, Bool.or_false,
      Bool.false_eq_true, if_false, Bool.not_false, if_true]
    simp [generatedName, article, Kw.firstChar, Kw.str]
  rw [hprog]
  unfold run
  simp only [List.find?_cons, beq_self_eq_true]
  refine ⟨" struct", tag, some (printfFormat c),
    { param := p, field := f, idx := some i, cur := a i, exp := e i }, ?_, ?_⟩
  · simp only [List.filter_cons, List.filter_nil, Bool.not_true, Bool.false_eq_true, if_false, if_true,
      List.nil_append, evalChecks_one, evalCheck, Val.member, evalAction, evalNeq]
    apply evalLoop_first (by simp) n 0 i
    · intro j _ hj
      rw [hpre j (by omega)]
      simp
    · rw [Nat.zero_add, hne]
      simp
    · exact hi
  · subst hf
    rfl

example : ∃ ar o k r, run (program ⟨fun _ => 0, ["EasyMock_all_comparators"]⟩ [.param (.comp false .struct
        "T" (.field "" (.ctype .long false false) "x" 3 .nil) false false .nil)]) (fun a b : Nat => a != b) 1
        "struct_T"
        (.comp fun x => if x = "x" then some (.arr 3 fun _ => .scalar 7) else none)
        (.comp fun x => if x = "x" then some (.arr 3 fun j => .scalar (if j = 2 then 8 else 7)) else none)
        "p" = .diff ar o k r ∧
      message (fun _ n => toString n) ar o k r = "Parameter 'p' which is a struct of type 'T' has field \
        array 'x[idx]' at idx == 2 with value '7', was expecting '8'" := by
  obtain ⟨ar, o, k, r, h1, h2⟩ := C29_array_message ⟨fun _ => 0, ["EasyMock_all_comparators"]⟩ (by simp) "T"
    (by decide) "x" .long "li" rfl 3 Nat (fun a b => a != b) (fun _ n => toString n) (fun _ => 7)
    (fun j => if j = 2 then 8 else 7) "p" 2 (by decide) (by decide) (by intro j hj; simp; omega) 0
  exact ⟨ar, o, k, r, h1, by rw [h2]; decide +kernel⟩

/-- C29.  A member of a type declared inside other types is reported with the names of all of them,
    `A::B::C`, at every depth. -/
theorem C29_nested_owner (env : Env) (hall : "EasyMock_all_comparators" ∈ env.comparators) (n : String)
    (ms : List String) (hne : ∀ m ∈ n :: ms, m ≠ "") (hnd : (n :: ms).Nodup) :
    ∃ c, (program env [.param (nest false n ms)]).getLast? = some c ∧
      c.checks = [⟨"x", false, .neq (scopedName n ms) (some "d") none⟩] := by
  have h := genSection_nest env (requested_all hall) ms n "" "" false []
    (fun m hm => ⟨hne m hm, by simp⟩) hnd (fun _ _ => rfl)
  obtain ⟨_, c, h2, h3⟩ := h
  refine ⟨c, ?_, by rw [h3]; simp⟩
  have hr := nest_raw false n ms
  have hi : isImplicit (nest false n ms) = false := by cases ms <;> rfl
  simp only [program, genSteps, genStep, hr.1, hr.2.1, hi, hr.2.2.2.2.2, Bool.not_false, Bool.and_true,
    if_true, List.append_nil]
  exact h2

example : ∃ c, (program ⟨fun _ => 0, ["EasyMock_all_comparators"]⟩
      [.param (nest false "A" ["B", "C"])]).getLast? = some c ∧
    c.checks = [⟨"x", false, .neq "A::B::C" (some "d") none⟩] :=
  C29_nested_owner _ (by simp) "A" ["B", "C"] (by decide) (by decide)

/-- C29.  A member of anonymous members is reported by the comparator of the type that contains
    them, with `<anonymous>` once per level. -/
theorem C29_anonymous_owner (env : Env) (hall : "EasyMock_all_comparators" ∈ env.comparators) (n : String)
    (hn : n ≠ "") (hcolon : n.toList.getLast? ≠ some ':') (k : Nat) :
    ∃ decl, program env [.param (.comp false .struct n (.field "" (anonymousNest k) "" (-1) .nil)
        false false .nil)] =
      [⟨"struct_" ++ n, " struct",
        [⟨"x", false, .neq (n ++ "::" ++ "<anonymous>" ++ anonymousPath k) (some "d") none⟩], decl,
        .comp false .struct n (.field "" (anonymousNest k) "" (-1) .nil) false false .nil⟩] := by
  refine ⟨declText env [] (.comp false .struct n (.field "" (anonymousNest k) "" (-1) .nil) false false .nil), ?_⟩
  have hname : (attrs (.comp false .struct n (.field "" (anonymousNest k) "" (-1) .nil)
      false false .nil)).name = n := rfl
  have e1 : comparatorName env [] (.comp false .struct n (.field "" (anonymousNest k) "" (-1) .nil)
      false false .nil) = "struct_" ++ n := by
    unfold comparatorName typedefName
    simp only [List.find?_nil, empty_isEmpty, if_true, hname, isEmpty_false hn,
      Bool.false_eq_true, if_false]
    rfl
  have e2 : mostDefinedName env [] (.comp false .struct n (.field "" (anonymousNest k) "" (-1) .nil)
      false false .nil) = n := by
    unfold mostDefinedName typedefName
    simp only [List.find?_nil, empty_isEmpty, if_true, hname]
  have hcomp : (isComposable (rawType (.comp false .struct n (.field "" (anonymousNest k) "" (-1) .nil)
      false false .nil)) && !isImplicit (rawType (.comp false .struct n
      (.field "" (anonymousNest k) "" (-1) .nil) false false .nil))) = true := rfl
  simp only [program, genSteps, genStep, registerRaw, List.append_nil]
  rw [if_pos hcomp]
  unfold genSection
  simp only [e1, e2, requested_all hall, Bool.not_true, Bool.or_false, List.contains_nil,
    Bool.false_eq_true, if_false]
  unfold genFields genFields
  have hcmp : comparedAsComposite (anonymousNest k) = true := by cases k <;> rfl
  have hraw : ∀ reg, registerRaw env reg (anonymousNest k) = reg := by
    intro reg; cases k <;> rfl
  have e3 : ((-1 : Int) == 0 || decide ((-1 : Int) > 0) && !nonZeroSize (anonymousNest k))
      = false := by
    have : decide ((-1 : Int) > 0) = false := by decide
    rw [this]
    rfl
  have e4 : ¬ ((-1 : Int) > 0) := by decide
  have hd : anonymousDecl ("" ++ n) = n ++ "::" := by
    unfold anonymousDecl
    simp
    intro h
    exact absurd h hcolon
  have hl : (n ++ "::").toList.getLast? = some ':' := by
    rw [String.toList_append]; simp
  simp only [e3, hcmp, if_neg e4, hraw, empty_isEmpty, if_true, Bool.false_eq_true, if_false, hd,
    genAnonymous_nest env _ k _ _ hl]
  simp [generatedName, article, Kw.firstChar, Kw.str]

example : ∃ decl, program ⟨fun _ => 0, ["EasyMock_all_comparators"]⟩ [.param (.comp false .struct "A"
      (.field "" (anonymousNest 1) "" (-1) .nil) false false .nil)] =
    [⟨"struct_A", " struct", [⟨"x", false, .neq "A::<anonymous>::<anonymous>" (some "d") none⟩], decl,
      .comp false .struct "A" (.field "" (anonymousNest 1) "" (-1) .nil) false false .nil⟩] :=
  C29_anonymous_owner _ (by simp) "A" (by decide) (by decide) 1

/-! ## C30: called comparators exist -/

/-- C30, for unambiguous names and regular types with all comparators requested: every comparator called
    by a generated comparator is generated, exactly once, under the called name.

    Missing: types declared inside other types and met at different depths
    (`C30_refuted_two_depths`). -/
theorem C30_calls_resolved_partial {env : Env} {PN : String → Ty → Prop} {full : String → String}
    (hall : "EasyMock_all_comparators" ∈ env.comparators) (hn : Naming PN full)
    (steps : List Step) (hr : RegularSteps env PN full steps) (c : Comparator)
    (hc : c ∈ program env steps) (k : Check) (hk : k ∈ c.checks) (M : String)
    (hM : k.action = .call M) :
    ((program env steps).map (fun c => c.name)).count M = 1 := by
  have g := genSteps_ok (requested_all hall) steps {} (regOK_nil env PN) (by simp) hr
  obtain ⟨new, d, nn, pp⟩ := g.1.names
  have d' : (genSteps env {} steps).1.done = new := by rw [d]; simp
  have hnd : new.Nodup := by rw [← d']; exact g.1.nodup
  obtain ⟨N, t, _, _, _, hm⟩ := g.1.comps c hc
  have hcall : ∃ N, N ∈ new ∧ M = full N := by
    obtain ⟨i, kw, n, fs, emb, fwd, ms, rfl⟩ : ∃ i kw n fs emb fwd ms, t = .comp i kw n fs emb fwd ms := by
      cases t <;> simp only [MatchType] at hm
      exact ⟨_, _, _, _, _, _, _, rfl⟩
    rw [d'] at hm
    exact callsFields fs c.checks hm k hk M hM
  obtain ⟨N', hN', rfl⟩ := hcall
  show List.count (full N') ((genSteps env {} steps).2.map (fun c => c.name)) = 1
  rw [nn]
  have hndm : (new.map full).Nodup := by
    rw [List.nodup_iff_pairwise_ne, List.pairwise_map]
    refine List.Pairwise.imp_of_mem ?_ (List.nodup_iff_pairwise_ne.mp hnd)
    intro a b ha hb hab he
    obtain ⟨ta, hta⟩ := pp a ha
    obtain ⟨tb, htb⟩ := pp b hb
    exact hab (hn.distinct a b ta tb hta htb he)
  have hmem : full N' ∈ new.map full := List.mem_map_of_mem hN'
  have := List.nodup_iff_count.mp hndm (full N')
  have h2 := List.count_pos_iff.mpr hmem
  omega

/-- The hypotheses hold for the program above. -/
example (c : Comparator) (hc : c ∈ program wEnv [.param (.ptr false wOut)]) (k : Check)
    (hk : k ∈ c.checks) (M : String) (hM : k.action = .call M) :
    ((program wEnv [.param (.ptr false wOut)]).map (fun c => c.name)).count M = 1 :=
  C30_calls_resolved_partial (by simp [wEnv]) wNaming _ wRegular c hc k hk M hM

/-- C30, for every sequence of types and typedefs and every request: the comparators generated have
    pairwise different names up to a prefix of underscores, and exactly these names are recorded as
    generated. -/
theorem C30_once (env : Env) (steps : List Step) :
    ∃ l : List (Nat × String),
      (program env steps).map (fun c => c.name) =
        l.map (fun x => String.ofList (List.replicate x.1 '_') ++ x.2) ∧
      (l.map (fun x => x.2)).Nodup ∧ (genSteps env {} steps).1.done = l.map (fun x => x.2) := by
  have h := genSteps_once (env := env) steps {} (by simp)
  obtain ⟨l, d, nn, _⟩ := h.names
  have d' : (genSteps env {} steps).1.done = l.map (fun x => x.2) := by rw [d]; simp
  exact ⟨l, nn, by rw [← d']; exact h.nodup, d'⟩

/-- C30 does not hold in general: `struct A { struct B { struct C { int c; } c1; } b; }` followed by
    `struct D { struct C c2; }` (valid C). The comparator of `struct C` is generated once, as
    `cmp___struct_C`, but `cmp_struct_D` calls `cmp_struct_C`. -/
theorem C30_refuted_two_depths :
    let C : Ty := .comp false .struct "C" (.field "" (.ctype .int false false) "c" (-1) .nil) true false .nil
    let B : Ty := .comp false .struct "B" (.field "" C "c1" (-1) .nil) true false .nil
    let A : Ty := .comp false .struct "A" (.field "" B "b" (-1) .nil) false false .nil
    let D : Ty := .comp false .struct "D" (.field "" C "c2" (-1) .nil) false false .nil
    let env : Env := ⟨fun _ => 0, ["EasyMock_all_comparators"]⟩
    (program env [.param A, .param D]).map (fun c => c.name) =
      ["struct_A", "struct_B", "__struct_C", "struct_D"] ∧
    ∀ (S : Type) (neq : S → S → Bool) (v w : Val S) (p : String) (depth : Nat),
      run (program env [.param A, .param D]) neq (depth + 2) "struct_D"
        (.comp fun f => if f = "c2" then some v else none)
        (.comp fun f => if f = "c2" then some w else none) p = .unlinked "struct_C" := by
  intro C B A D env
  have hp : program env [.param A, .param D] =
      [⟨"struct_A", " struct", [⟨"b", false, .call "struct_B"⟩], "struct A", A⟩,
       ⟨"struct_B", " struct", [⟨"c1", false, .call "__struct_C"⟩], "struct B", B⟩,
       ⟨"__struct_C", " struct", [⟨"c", false, .neq "A::B::C" (some "d") none⟩], "struct C", C⟩,
       ⟨"struct_D", " struct", [⟨"c2", false, .call "struct_C"⟩], "struct D", D⟩] := by
    decide +kernel
  rw [hp]
  exact ⟨rfl, fun S neq v w p depth => rfl⟩

/-! ## C58: which comparators are generated -/

/-- C58.  A comparator is generated only if all comparators were requested or its name, without a
    leading `struct_` and then without a leading `union_`, was requested. -/
theorem C58_only_requested (env : Env) (steps : List Step) (N : String)
    (h : N ∈ (genSteps env {} steps).1.done) :
    "EasyMock_all_comparators" ∈ env.comparators ∨
    ∃ r ∈ env.comparators, N = r ∨ N = "struct_" ++ r ∨ N = "union_" ++ r ∨
      N = "struct_" ++ ("union_" ++ r) := by
  have ho := genSteps_once (env := env) steps {} (by simp)
  obtain ⟨l, d, _, rr⟩ := ho.names
  rw [d] at h
  simp only [List.nil_append, List.mem_map] at h
  obtain ⟨x, hx, rfl⟩ := h
  have := rr x hx
  unfold requested at this
  simp only [Bool.or_eq_true, List.contains_iff_mem] at this
  rcases this with h | h
  · exact Or.inl h
  · refine Or.inr ⟨_, h, ?_⟩
    have key : ∀ kw s : String, stripPrefix kw s = s ∨ s = kw ++ stripPrefix kw s := by
      intro kw s
      unfold stripPrefix
      split
      · rename_i hp
        right
        obtain ⟨t, ht⟩ := List.isPrefixOf_iff_prefix.mp hp
        apply String.toList_inj.mp
        rw [String.toList_append, String.toList_ofList, ← ht, List.drop_left]
      · exact Or.inl rfl
    rcases key "struct_" x.2 with h1 | h1 <;>
      rcases key "union_" (stripPrefix "struct_" x.2) with h2 | h2
    · exact Or.inl (by rw [h2, h1])
    · exact Or.inr (Or.inr (Or.inl (by rw [← h2, h1])))
    · exact Or.inr (Or.inl (by rw [h2]; exact h1))
    · exact Or.inr (Or.inr (Or.inr (by rw [← h2]; exact h1)))

example : "struct_B" ∈ (genSteps ⟨fun _ => 0, ["B"]⟩ {} [.param (.ptr false (.comp false .struct "B"
    (.field "" (.ctype .int false false) "x" (-1) .nil) false false .nil))]).1.done := by
  decide +kernel

/-- C58.  Conversely, the comparator of the type of a parameter (by value or behind pointers, references
    and typedefs) is generated if its tag was requested: `tag` for structs and unions, `class_tag` for
    classes. -/
theorem C58_requested_generated (env : Env) (before after : List Step) (t : Ty) (i : Bool) (kw : Kw)
    (tag : String) (fs : Fields) (emb : Bool) (ms : Methods)
    (ht : rawType t = .comp i kw tag fs emb false ms) (hi : i = false) (htag : tag ≠ "")
    (htd : ∀ e ∈ registerRaw env (genSteps env {} before).1.reg t, e.1 ≠ env.key (rawType t))
    (hpre : ¬ "union_".toList <+: tag.toList)
    (hreq : requestName kw tag ∈ env.comparators) :
    kwPrefix kw ++ tag ∈
      (genSteps env {} (before ++ .param t :: after)).1.done := by
  subst hi
  have hb := genSteps_once (env := env) before {} (by simp)
  have hsplit : ∀ (l : List Step) (σ : St) (m : List Step),
      (genSteps env σ (l ++ m)).1 = (genSteps env (genSteps env σ l).1 m).1 := by
    intro l
    induction l with
    | nil => intro σ m; rfl
    | cons s rest ih => intro σ m; exact ih (genStep env σ s).1 m
  rw [hsplit]
  generalize hσ : (genSteps env {} before).1 = σ at *
  have hc : isComposable (rawType t) = true := by rw [ht]; exact isComposable_comp _ _ _ _ _ _ _
  have hni : isImplicit (rawType t) = false := by
    rw [ht]; cases kw <;> rfl
  have htn : typedefName env (registerRaw env σ.reg t) (rawType t) = "" := by
    unfold typedefName
    have : (registerRaw env σ.reg t).find? (fun e => e.1 == env.key (rawType t)) = none := by
      apply List.find?_eq_none.mpr
      intro e he
      simpa using htd e he
    rw [this]
  have hname : comparatorName env (registerRaw env σ.reg t) (rawType t) =
      kwPrefix kw ++ tag := by
    unfold comparatorName
    rw [htn, ht]
    have : ∀ i, (attrs (.comp i kw tag fs emb false ms)).name = tag := by
      intro i; cases kw <;> rfl
    simp only [empty_isEmpty, if_true, this, isEmpty_false htag, Bool.false_eq_true, if_false]
    cases kw <;> rfl
  have hr : requested env (comparatorName env (registerRaw env σ.reg t) (rawType t)) = true := by
    rw [hname]
    unfold requested
    have strip : ∀ a b : String, stripPrefix a (a ++ b) = b := by
      intro a b
      unfold stripPrefix
      have : a.toList.isPrefixOf (a ++ b).toList = true := by
        rw [List.isPrefixOf_iff_prefix, String.toList_append]
        exact List.prefix_append _ _
      rw [if_pos this]
      apply String.toList_inj.mp
      rw [String.toList_ofList, String.toList_append, List.drop_left]
    have keep : ∀ a b : String, ¬ a.toList <+: b.toList → stripPrefix a b = b := by
      intro a b h
      unfold stripPrefix
      have : ¬ a.toList.isPrefixOf b.toList = true := by
        rw [List.isPrefixOf_iff_prefix]; exact h
      rw [if_neg this]
    cases kw with
    | struct =>
      simp only [requestName, kwPrefix] at hreq ⊢
      rw [strip, keep _ _ hpre]
      simp [hreq]
    | union =>
      simp only [requestName, kwPrefix] at hreq ⊢
      rw [keep "struct_" ("union_" ++ tag) (by
        rw [String.toList_append]
        intro h
        obtain ⟨z, hz⟩ := h
        simp at hz), strip]
      simp [hreq]
    | cls =>
      simp only [requestName, kwPrefix] at hreq ⊢
      rw [keep "struct_" ("class_" ++ tag) (by
        rw [String.toList_append]
        intro h
        obtain ⟨z, hz⟩ := h
        simp at hz), keep "union_" ("class_" ++ tag) (by
        rw [String.toList_append]
        intro h
        obtain ⟨z, hz⟩ := h
        simp at hz)]
      simp [hreq]
  have hd : σ.done.Nodup := hb.nodup
  have hsec := genSection_requested (env := env) "" "" { σ with reg := registerRaw env σ.reg t }
    (rawType t) ⟨_, _, _, _, _, _, ht⟩ hr ⟨0, rfl⟩ hd
  rw [hname, ← genSection_raw] at hsec
  have hsec1 := genSection_once (env := env) "" t 0 { σ with reg := registerRaw env σ.reg t } hd
  have hcond : (isComposable (rawType t) && !isImplicit (rawType t)) = true := by simp [hc, hni]
  simp only [genSteps, genStep]
  rw [if_pos hcond]
  have hrest := genSteps_once (env := env) after
    (genSection env "" "" { σ with reg := registerRaw env σ.reg t } t).1 hsec1.nodup
  obtain ⟨l, d, _, _⟩ := hrest.names
  rw [d]
  exact List.mem_append_left _ hsec

example : "union_U" ∈ (genSteps ⟨fun _ => 0, ["U"]⟩ {} ([] ++ .param (.ptr false (.comp false .union "U"
    (.field "" (.ctype .int false false) "x" (-1) .nil) false false .nil)) :: [])).1.done :=
  C58_requested_generated ⟨fun _ => 0, ["U"]⟩ [] [] _ false .union "U" _ false _ rfl rfl (by decide)
    (by intro e he; cases he) (by decide) (by simp [requestName])

/-- C58 does not hold for a struct whose tag begins with `union_`: requesting it by its tag generates
    nothing, and requesting the rest of the tag generates it. -/
theorem C58_refuted_tag :
    let t : Ty := .comp false .struct "union_a" (.field "" (.ctype .int false false) "x" (-1) .nil)
      false false .nil
    (genSteps ⟨fun _ => 0, ["union_a"]⟩ {} [.param t]).1.done = [] ∧
    (genSteps ⟨fun _ => 0, ["struct_union_a"]⟩ {} [.param t]).1.done = [] ∧
    (genSteps ⟨fun _ => 0, ["a"]⟩ {} [.param t]).1.done = ["struct_union_a"] := by
  decide +kernel

/-- C58 does not hold for classes requested by their name. -/
theorem C58_refuted_class :
    let t : Ty := .comp false .cls "K" (.field "" (.ctype .int false false) "x" (-1) .nil)
      false false .nil
    (genSteps ⟨fun _ => 0, ["K"]⟩ {} [.param t]).1.done = [] := by
  decide +kernel

end EasyMock.StructCmp
