import Verif.MockCode.FileLemmas
import Verif.Props.Framework2

/-! # C77: a process made of generated files -/

namespace EasyMock.MockCode

open EasyMock EasyMock.Gen EasyMock.Spec

variable {P : Program} {m0 : Mem}

/-- The operations of a test on the generated files which have the meaning of an operation of the framework model. -/
inductive Means (P : Program) : GOp → Op → Prop where
  /-- `ExpectReturnAndOutput` with the arguments of an expectation, in the order of its parameters -/
  | output (f : FnId) (file : GenFile) (fn : GenFn) (e : Exp) (alloc : Bool) : P.fn? f = some (file, fn) → Exact fn.sec e →
      fn.sec.outs ≠ [] → Means P (.expectReturnAndOutput f (longVals fn.sec e) alloc) (.expect f e alloc)
  /-- `ExpectAndReturn`: no outputs -/
  | noOutput (f : FnId) (file : GenFile) (fn : GenFn) (e : Exp) (alloc : Bool) : P.fn? f = some (file, fn) → Exact fn.sec e →
      (∀ o ∈ e.outs, o = ⟨0, 0⟩) → Means P (.expectAndReturn f (shortVals fn.sec e) alloc) (.expect f e alloc)
  /-- a call of the mock with as many arguments as it has parameters -/
  | call (f : FnId) (file : GenFile) (fn : GenFn) (c : Call) : P.fn? f = some (file, fn) → CallFits fn.sec c →
      Means P (.call f c) (.call f c)
  | init : Means P .init .init
  | check : Means P .check .check
  | load (i : Nat) : Means P (.load i) (.load i)
  | unload (i : Nat) : Means P (.unload i) (.unload i)
  | setOrder (b : Bool) : Means P (.setOrder b) (.setOrder b)
  | setPrint (b : Bool) : Means P (.setPrint b) (.setPrint b)
  | getStr : Means P .getStr .getStr
  | getArr : Means P .getArr .getArr
  | poke (a : Addr) (b : UInt8) : Means P (.poke a b) (.poke a b)

/-- A history of the generated files and a history of the framework model, operation by operation. -/
inductive MeansAll (P : Program) : List GOp → List Op → Prop where
  | nil : MeansAll P [] []
  | cons {o : GOp} {o' : Op} {l : List GOp} {l' : List Op} : Means P o o' → MeansAll P l l' → MeansAll P (o :: l) (o' :: l')

theorem MeansAll.fits {ops : List GOp} {ops' : List Op} (h : MeansAll P ops ops') : ∀ f e alloc, Op.expect f e alloc ∈ ops' →
    ∀ file fn, P.fn? f = some (file, fn) → Exact fn.sec e := by
  induction h with
  | nil => intro f e alloc hm; simp at hm
  | cons h1 _ ih =>
    intro f e alloc hm file fn hf
    rcases List.mem_cons.mp hm with hm | hm
    · cases h1 with
      | output f' file' fn' e' _ hf' he' _ =>
        cases hm
        rw [hf] at hf'; cases hf'; exact he'
      | noOutput f' file' fn' e' _ hf' he' _ =>
        cases hm
        rw [hf] at hf'; cases hf'; exact he'
      | _ => cases hm
    · exact ih f e alloc hm file fn hf

theorem noOuts_eq {s : FunSection} {e : Exp} (hf : Fits s e) (ho : ∀ o ∈ e.outs, o = ⟨0, 0⟩) : noOuts s e = e := by
  unfold noOuts
  have : s.outs.map (fun _ => (⟨0, 0⟩ : OutExp)) = e.outs := by
    apply List.ext_getElem
    · simp [hf.outs]
    · intro i h1 h2
      rw [List.getElem_map]
      exact (ho _ (List.getElem_mem h2)).symm
  rw [this]

theorem step_follows (hP : ∀ file ∈ P.files, PlainFile file) {g : GState} {st : State} (hR : Rel P g st)
    {gops : List GOp} {past : List Op} (hM : MeansAll P gops past) (hr : runRev P.cfg m0 past = .ok st)
    (hlen : past.length + 1 < 2 ^ 32) {o : GOp} {o' : Op} (hm : Means P o o') :
    Follows P (gstep P g o) (step P.cfg st o') := by
  have hlenf : P.cfg.files.length = P.files.length := by simp [Program.cfg]
  cases hm with
  | output f file fn e alloc hf he ho =>
    have hp := (hP file (List.mem_of_getElem? (fn_file hf).1)).fns fn (List.mem_of_getElem? (fn_file hf).2)
    simp only [gstep]
    refine expect_follows hP hR hf he alloc ?_
    exact runLong_eq he.fits (hp.names.expectOk hp.lists) ho
  | noOutput f file fn e alloc hf he ho =>
    have hp := (hP file (List.mem_of_getElem? (fn_file hf).1)).fns fn (List.mem_of_getElem? (fn_file hf).2)
    simp only [gstep]
    refine expect_follows hP hR hf he alloc ?_
    rw [runShort_eq he.fits (hp.names.expectOk hp.lists), noOuts_eq he.fits ho]
  | call f file fn c hf hc =>
    refine call_follows hP hR hr hlen ?_
    intro file' fn' hf'
    rw [hf] at hf'; cases hf'
    exact ⟨hc, fun e alloc hmem => (hM.fits f e alloc hmem file fn hf).fits⟩
  | init =>
    obtain ⟨hst, hnm⟩ := hR
    subst hst
    simp only [gstep, step, initFramework, hlenf]
    rw [resetFiles_follows hP _ g (fun i hi => List.mem_range.mp hi)]
    cases hs : resetFiles P.cfg g.st (List.range P.files.length) with
    | ub => simp [obind, Res.bind_ub, Follows]
    | exit => simp [obind, Res.bind_exit, Follows]
    | ok s =>
      simp only [obind, Res.bind_ok, Follows]
      refine ⟨_, rfl, rfl, ?_⟩
      intro f file fn hf hl
      apply hnm f file fn hf
      rw [← resetFiles_loaded P.cfg _ hs]
      exact hl
  | check =>
    obtain ⟨hst, hnm⟩ := hR
    subst hst
    simp only [gstep, step, verifyEasyMock, hlenf]
    rw [verifyFiles_follows hP _ g true (fun i hi => List.mem_range.mp hi) hnm]
    cases hs : verifyFiles P.cfg g.st (List.range P.files.length) with
    | ub => simp [obind, Res.bind_ub, Follows]
    | exit => simp [obind, Res.bind_exit, Follows]
    | ok r =>
      obtain ⟨s, b⟩ := r
      simp only [obind, Res.bind_ok, Follows, Bool.true_and]
      refine ⟨_, rfl, rfl, ?_⟩
      intro f file fn hf hl
      apply hnm f file fn hf
      rw [← verifyFiles_loaded P.cfg _ hs]
      exact hl
  | load i =>
    obtain ⟨hst, hnm⟩ := hR
    subst hst
    simp only [gstep, step, hlenf]
    cases hf : P.files[i]? with
    | none =>
      rw [List.getElem?_eq_none_iff] at hf
      rw [if_pos (.inr hf)]
      rfl
    | some file =>
      have hi : i < P.files.length := (List.getElem?_eq_some_iff.mp hf).1
      have hpf := hP file (List.mem_of_getElem? hf)
      simp only
      by_cases hl : g.st.loaded i = true
      · rw [if_pos hl, if_pos (.inl hl)]
        rfl
      · rw [if_neg hl, if_neg (by rintro (h | h); exact hl h; omega)]
        simp only [constructorBody, execCtor, execFile_init hpf file [] rfl, obind, cfg_fnsOf P hf, List.length_nil, Follows]
        refine ⟨_, rfl, rfl, ?_⟩
        intro f file' fn hf' hld
        obtain ⟨h1, h2⟩ := fn_file hf'
        by_cases he : f.file = i
        · rw [he, hf] at h1
          cases h1
          have hlt := (List.getElem?_eq_some_iff.mp h2).1
          simp only
          rw [if_pos ⟨he, by omega, hlt⟩, h2]
          rfl
        · simp only
          rw [if_neg (fun h => he h.1)]
          apply hnm f file' fn hf'
          simp only [State.registerMock, initFns_loaded] at hld
          simpa [he] using hld
  | unload i =>
    obtain ⟨hst, hnm⟩ := hR
    subst hst
    simp only [gstep, step]
    by_cases hl : g.st.loaded i = true
    · rw [if_pos hl]
      have hi : i < P.files.length := by
        obtain ⟨hs, hleg⟩ := run_sim (by omega) hr
        rw [hs.loaded] at hl
        rw [← hlenf]
        exact loaded_lt hleg hl
      have hf : P.files[i]? = some P.files[i] := List.getElem?_eq_getElem hi
      have hpf := hP P.files[i] (List.getElem_mem hi)
      rw [hf]
      simp only [hl, if_true, destructorBody, execCtor, execFile_reset hpf P.files[i] [] rfl, cfg_fnsOf P hf, List.length_nil]
      cases hs : resetFns g.st ((List.range' 0 (P.files[i]).length).map (FnId.mk i)) with
      | ub => simp [obind, Res.bind_ub, Follows]
      | exit => simp [obind, Res.bind_exit, Follows]
      | ok s =>
        simp only [obind, Res.bind_ok, Follows]
        refine ⟨_, rfl, rfl, ?_⟩
        intro f file fn hf' hld
        simp only at hld
        apply hnm f file fn hf'
        split at hld
        · cases hld
        · rw [← (resetFns_loaded hs).1]
          exact hld
    · rw [if_neg hl]
      split
      · rfl
      · rw [if_neg hl]; rfl
  | setOrder b =>
    obtain ⟨hst, hnm⟩ := hR
    subst hst
    exact ⟨_, rfl, rfl, hnm⟩
  | setPrint b =>
    obtain ⟨hst, hnm⟩ := hR
    subst hst
    refine ⟨_, rfl, rfl, ?_⟩
    intro f file fn hf hl
    apply hnm f file fn hf
    simp only [State.setPrintCallStack] at hl
    split at hl <;> exact hl
  | getStr => obtain ⟨hst, hnm⟩ := hR; subst hst; exact ⟨_, rfl, rfl, hnm⟩
  | getArr => obtain ⟨hst, hnm⟩ := hR; subst hst; exact ⟨_, rfl, rfl, hnm⟩
  | poke a b =>
    obtain ⟨hst, hnm⟩ := hR
    subst hst
    simp only [gstep, step]
    cases g.st.mem a with
    | none => rfl
    | some _ => exact ⟨_, rfl, rfl, hnm⟩

theorem run_follows (hP : ∀ file ∈ P.files, PlainFile file) {gops : List GOp} {ops : List Op} (hM : MeansAll P gops ops) :
    ops.length < 2 ^ 32 →
    match runRev P.cfg m0 ops with
    | .ok st => ∃ g, grun P m0 gops = some (.ok g) ∧ Rel P g st
    | .ub => grun P m0 gops = some .ub
    | .exit => grun P m0 gops = some .exit := by
  induction hM with
  | nil => intro _; exact ⟨_, rfl, rfl, by intro f file fn _ h; simp [State.initial] at h⟩
  | @cons o o' l l' h1 h2 ih =>
    intro hlen
    simp only [List.length_cons] at hlen
    have := ih (by omega)
    simp only [runRev]
    cases hr : runRev P.cfg m0 l' with
    | ub => rw [hr] at this; simp only at this; simp [grun, this, obind, Res.bind_ub]
    | exit => rw [hr] at this; simp only at this; simp [grun, this, obind, Res.bind_exit]
    | ok st =>
      rw [hr] at this
      obtain ⟨g, hg, hR⟩ := this
      have hf := step_follows hP hR h2 hr hlen h1
      simp only [Res.bind_ok]
      cases hs : step P.cfg st o' with
      | ub => rw [hs] at hf; simp only [Follows] at hf; simp [grun, hg, obind, hf, Res.bind_ub]
      | exit => rw [hs] at hf; simp only [Follows] at hf; simp [grun, hg, obind, hf, Res.bind_exit]
      | ok r =>
        obtain ⟨s', out⟩ := r
        rw [hs] at hf
        obtain ⟨g', hg', hR'⟩ := hf
        simp only [Res.bind_ok]
        exact ⟨g', by simp [grun, hg, obind, hg'], hR'⟩

/-- C77 (partial: see `PlainFile`, `PlainFn`, `Exact`).  A process made of the generated files behaves as the framework model says: whatever is
    observed after a history of the generated files - the result of a mock, the verdict, the errors - is what the model observes
    after the history meant. -/
theorem C77_partial (hP : ∀ file ∈ P.files, PlainFile file) {gops : List GOp} {ops : List Op} (hM : MeansAll P gops ops)
    (hlen : ops.length + 1 < 2 ^ 32) {o : GOp} {o' : Op} (ho : Means P o o') :
    gobserve P m0 gops o = some (observe P.cfg m0 ops o') := by
  have h := run_follows (m0 := m0) hP hM (by omega)
  unfold gobserve observe
  cases hr : runRev P.cfg m0 ops with
  | ub => rw [hr] at h; simp only at h; simp [h, obind, Res.bind_ub]
  | exit => rw [hr] at h; simp only at h; simp [h, obind, Res.bind_exit]
  | ok st =>
    rw [hr] at h
    obtain ⟨g, hg, hR⟩ := h
    have hf := step_follows hP hR hM hr hlen ho
    rw [hg]
    simp only [obind, Res.bind_ok]
    cases hs : step P.cfg st o' with
    | ub => rw [hs] at hf; simp only [Follows] at hf; simp [hf, Res.bind_ub]
    | exit => rw [hs] at hf; simp only [Follows] at hf; simp [hf, Res.bind_exit]
    | ok r =>
      obtain ⟨s', out⟩ := r
      rw [hs] at hf
      obtain ⟨g', hg', -⟩ := hf
      simp [hg', Res.bind_ok]

/-- C77 (partial, as above).  The verdict: `easyMock_check` is true if and only if no error has been reported and every function of every
    file in the process has been called as often as expected since it was reset. -/
theorem C77_verdict_partial (hP : ∀ file ∈ P.files, PlainFile file) {gops : List GOp} {ops : List Op} (hM : MeansAll P gops ops)
    (hlen : ops.length + 1 < 2 ^ 32) {g : GState} (hg : grun P m0 gops = some (.ok g)) :
    ∃ b, gobserve P m0 gops .check = some (.ok (.verdict b)) ∧
      (b = true ↔ g.st.errs = [] ∧ ∀ (i k : Nat) file fn, P.files[i]? = some file → file[k]? = some fn → loaded i ops = true →
        (exps ⟨i, k⟩ ops).length = calls ⟨i, k⟩ ops) := by
  have h := run_follows (m0 := m0) hP hM (by omega)
  cases hr : runRev P.cfg m0 ops with
  | ub => rw [hr] at h; simp only at h; rw [hg] at h; cases h
  | exit => rw [hr] at h; simp only at h; rw [hg] at h; cases h
  | ok st =>
    rw [hr] at h
    obtain ⟨g', hg', hst, -⟩ := h
    rw [hg] at hg'
    cases hg'
    obtain ⟨s', b, hs, hb⟩ := C03_verdict_exact hr hlen
    refine ⟨b, ?_, ?_⟩
    · rw [C77_partial hP hM hlen .check]
      unfold observe
      rw [hr, Res.bind_ok, hs]
      rfl
    · rw [hb, hst]
      constructor
      · rintro ⟨h1, h2⟩
        refine ⟨h1, ?_⟩
        intro i k file fn hf hk hl
        exact h2 ⟨i, k⟩ _ (by rw [cfg_fn, fn_of_file hf hk]; rfl) hl
      · rintro ⟨h1, h2⟩
        refine ⟨h1, ?_⟩
        intro f fc hf hl
        rw [cfg_fn] at hf
        cases hp : P.fn? f with
        | none => simp [hp] at hf
        | some x =>
          obtain ⟨file, fn⟩ := x
          obtain ⟨a, b⟩ := fn_file hp
          exact h2 f.file f.idx file fn a b hl

/-- C77 is false for a file with two functions of the same name (members of different classes or namespaces, overloads): the
    names of their objects are the same, and the file does not compile. -/
theorem C77_refuted_same_name (P : Program) (g : GState) (i : Nat) (file : GenFile) (hf : P.files[i]? = some file)
    (hl : g.st.loaded i = false) (hn : ¬ (file.map (fun g => g.sec.name)).Nodup) : gstep P g (.load i) = none := by
  have key : ∀ (l : GenFile) (r : GState × Bool), (∃ a ∈ l, resolve (objects file) (mockedName a.sec) = none) →
      execFile P i file (initAll l) r = none := by
    intro l
    induction l with
    | nil => rintro r ⟨a, ha, _⟩; simp at ha
    | cons b l ih =>
      rintro ⟨g, rv⟩ ⟨a, ha, hr⟩
      simp only [initAll, List.map_cons, execFile]
      cases h1 : resolve (objects file) (mockedName b.sec) with
      | none => rfl
      | some k =>
        cases h2 : resolve (dataTypes file) (dataType b.sec) with
        | none => rfl
        | some k' =>
          simp only
          split
          · refine ih _ ⟨a, ?_, hr⟩
            rcases List.mem_cons.mp ha with rfl | ha
            · rw [h1] at hr; cases hr
            · exact ha
          · rfl
  have hex : ∃ a ∈ file, resolve (objects file) (mockedName a.sec) = none := by
    have hd : ¬ (objects file).Nodup := by
      intro hd
      apply hn
      have : (objects file) = (file.map (fun g => g.sec.name)).map (fun n => "mocked_" ++ n) := by
        simp [objects, mockedName]
      rw [this] at hd
      exact List.Pairwise.of_map _ (fun a b h e => h (congrArg ("mocked_" ++ ·) e)) hd
    rw [List.nodup_iff_count] at hd
    simp only [Classical.not_forall] at hd
    obtain ⟨x, hx⟩ := hd
    have hm : x ∈ objects file := List.count_pos_iff.mp (by omega)
    obtain ⟨a, ha, rfl⟩ := List.mem_map.mp hm
    refine ⟨a, ha, ?_⟩
    unfold resolve
    rw [if_neg (by omega)]
  simp only [gstep, hf, hl, Bool.false_eq_true, if_false, constructorBody, execCtor, key file _ hex, obind]

/-- C77 is false for a function which has a parameter with the name of its object: the mock cannot be called. -/
theorem C77_refuted_object (P : Program) (g : GState) (f : FnId) (file : GenFile) (fn : GenFn) (c : Call)
    (hf : P.fn? f = some (file, fn)) (hl : g.st.loaded f.file = true) (hn : "mocked_" ++ fn.sec.name ∈ fn.sec.params.names) :
    gstep P g (.call f c) = none := by
  have : resolveMock fn.sec (mockedName fn.sec) ≠ .global := by
    unfold resolveMock
    split
    · simp
    · rw [if_pos (show mockedName fn.sec ∈ _ from hn)]; simp
  simp only [gstep, gcall, hf, hl, if_true]
  split
  · rename_i h _; exact absurd h this
  · rfl

/-! ## Examples -/

namespace Ex

/-- `int g(int x)`. -/
def secG : FunSection := { exSection with name := "g", params := .cons "int" "x" .none .none .nil }

def secH : FunSection := { secG with name := "h" }

theorem plainG : PlainNames secG := by
  have hnames : secG.params.names = ["x"] := by decide +kernel
  refine ⟨?_, ?_, ?_, ?_, fun h => absurd rfl h, (fun c h => by cases h), ?_⟩
  · decide +kernel
  · rw [hnames]; decide +kernel
  · rw [hnames]
    intro n hn
    refine ⟨not_startsWith ?_, not_startsWith ?_, not_startsWith ?_⟩
    · revert n; decide +kernel
    · revert n; decide +kernel
    · revert n; decide +kernel
  · decide +kernel
  · rw [hnames]; decide +kernel

theorem plainH : PlainNames secH := by
  have hnames : secH.params.names = ["x"] := by decide +kernel
  refine ⟨?_, ?_, ?_, ?_, fun h => absurd rfl h, (fun c h => by cases h), ?_⟩
  · decide +kernel
  · rw [hnames]; decide +kernel
  · rw [hnames]
    intro n hn
    refine ⟨not_startsWith ?_, not_startsWith ?_, not_startsWith ?_⟩
    · revert n; decide +kernel
    · revert n; decide +kernel
    · revert n; decide +kernel
  · decide +kernel
  · rw [hnames]; decide +kernel

/-- Two files: `int f(void *a, int *b)` with `int g(int x)`, and `int h(int x)`. -/
def prog : Program := { conf := {}, files := [[⟨sec, 4, [0, 4]⟩, ⟨secG, 4, []⟩], [⟨secH, 4, []⟩]] }

theorem prog_plain : ∀ file ∈ prog.files, PlainFile file := by
  have h1 : PlainFn ⟨sec, 4, [0, 4]⟩ := ⟨plain, .inl rfl, rfl, by decide +kernel, by decide +kernel⟩
  have h2 : PlainFn ⟨secG, 4, []⟩ := ⟨plainG, .inl rfl, rfl, by decide +kernel, by decide +kernel⟩
  have h3 : PlainFn ⟨secH, 4, []⟩ := ⟨plainH, .inl rfl, rfl, by decide +kernel, by decide +kernel⟩
  intro file hf
  simp only [prog, List.mem_cons, List.not_mem_nil, or_false] at hf
  rcases hf with rfl | rfl
  · refine ⟨?_, by decide +kernel, by decide +kernel⟩
    intro g hg
    simp only [List.mem_cons, List.not_mem_nil, or_false] at hg
    rcases hg with rfl | rfl
    · exact h1
    · exact h2
  · refine ⟨?_, by decide +kernel, by decide +kernel⟩
    intro g hg
    simp only [List.mem_cons, List.not_mem_nil, or_false] at hg
    subst hg
    exact h3

def expG : Exp := { params := [⟨[1], some eqM⟩], ret := [9, 0, 0, 0], outs := [] }

/-- Both files are loaded; `f` is expected with an output, `g` without; `f` is called, then `g`. -/
def gops : List GOp := [.call ⟨0, 1⟩ { args := [[1]] }, .call ⟨0, 0⟩ { args := [[1], [6]], outs := [40, 50] },
  .expectAndReturn ⟨0, 1⟩ (shortVals secG expG) true, .expectReturnAndOutput ⟨0, 0⟩ (longVals sec exp) true, .load 1, .load 0]

def ops : List Op := [.call ⟨0, 1⟩ { args := [[1]] }, .call ⟨0, 0⟩ { args := [[1], [6]], outs := [40, 50] },
  .expect ⟨0, 1⟩ expG true, .expect ⟨0, 0⟩ exp true, .load 1, .load 0]

theorem means : MeansAll prog gops ops := by
  have hx : Exact sec exp := by
    refine ⟨fits, fun _ => rfl, fun h => absurd h (by decide +kernel), ?_⟩
    intro j x o h1 h2 h3
    match j with
    | 0 => cases h1; exact absurd rfl h3
    | 1 => cases h1; cases h2; rfl
    | j + 2 => cases h2
  have hg : Exact secG expG := ⟨⟨rfl, rfl⟩, fun _ => rfl, fun h => absurd h (by decide +kernel), by intro j x o h1 h2; cases h2⟩
  refine .cons (.call ⟨0, 1⟩ _ ⟨secG, 4, []⟩ _ rfl ⟨rfl, rfl⟩) (.cons (.call ⟨0, 0⟩ _ ⟨sec, 4, [0, 4]⟩ _ rfl ⟨rfl, rfl⟩)
    (.cons (.noOutput ⟨0, 1⟩ _ ⟨secG, 4, []⟩ _ _ rfl hg (by intro o h; cases h))
    (.cons (.output ⟨0, 0⟩ _ ⟨sec, 4, [0, 4]⟩ _ _ rfl hx ?_) (.cons (.load 1) (.cons (.load 0) .nil)))))
  intro h
  exact absurd (congrArg List.length h) (by decide +kernel)

/-- The hypotheses of C77 hold, and the process ran. -/
example : (∀ file ∈ prog.files, PlainFile file) ∧ MeansAll prog gops ops ∧ ops.length + 1 < 2 ^ 32 ∧
    ∃ g, grun prog Ex.m0 gops = some (.ok g) := ⟨prog_plain, means, by decide, _, rfl⟩

def outOf (x : Option (Res Out)) : Option Out :=
  match x with
  | some (.ok o) => some o
  | _ => none

/-- The second call returns the value expected from `g`, everything is verified; a call of `h` is an error. -/
example : outOf (gobserve prog Ex.m0 gops.tail (.call ⟨0, 1⟩ { args := [[1]] })) = some (.ret (some [9, 0, 0, 0])) ∧
    outOf (gobserve prog Ex.m0 gops .check) = some (.verdict true) ∧
    outOf (gobserve prog Ex.m0 (.call ⟨1, 0⟩ { args := [[1]] } :: gops) .check) = some (.verdict false) ∧
    outOf (gobserve prog Ex.m0 (.init :: .call ⟨1, 0⟩ { args := [[1]] } :: gops) .check) = some (.verdict true) := by
  decide +kernel

/-- A file with two functions of one name, and a function with a parameter called like its object. -/
example : outOf (gobserve { conf := {}, files := [[⟨sec, 4, [0, 4]⟩, ⟨{ secG with name := "f" }, 4, []⟩]] } Ex.m0 [] (.load 0)) = none ∧
    "mocked_" ++ "f" ∈ (exNamed "mocked_f").params.names := by
  decide +kernel

end Ex

end EasyMock.MockCode
