import Verif.Props.Framework4

/-!
# C12 - C14: capacity, equivalence of the two back-ends, ownership of the copies
-/

namespace EasyMock
open Spec

section
variable {cfg : Cfg} {m0 : Mem} {past : List Op} {s : State}

/-! ## C12 -/

/-- C12: a C mock accepts a further expectation exactly when fewer than 256 were registered since its last reset (used
or not); otherwise the process ends. An accepted expectation is added behind the others, which stay as they are. -/
theorem C12_capacity_c (hr : runRev cfg m0 past = .ok s) (hlen : past.length + 1 < 2 ^ 32)
    {f : FnId} {fc : FnCfg} (hf : cfg.fn? f = some fc) (hld : loaded f.file past = true) (hc : fc.isC = true) (e : Exp) :
    (step cfg s (.expect f e true) = .exit ↔ 256 ≤ (exps f past).length) ∧
    ((∃ s', step cfg s (.expect f e true) = .ok (s', .none)) ↔ (exps f past).length < 256) ∧
    exps f (.expect f e true :: past) = exps f past ++ [e] := by
  obtain ⟨h, hl⟩ := run_sim (by omega) hr
  have hst := sim_step h hl hlen (.expect f e true)
  have hobs : Spec.observe cfg m0 past (.expect f e true) = if 256 ≤ (exps f past).length then .exit else .ok .none := by
    simp only [Spec.observe, hf, hld, Bool.true_eq_false, if_false, hc, or_false, true_and]
  rw [hobs] at hst
  refine ⟨?_, ?_, by simp⟩
  · by_cases h256 : 256 ≤ (exps f past).length
    · rw [if_pos h256] at hst; simp only at hst; simp [hst, h256]
    · rw [if_neg h256] at hst; obtain ⟨s', o', e1, _⟩ := hst; simp [e1]; omega
  · by_cases h256 : 256 ≤ (exps f past).length
    · rw [if_pos h256] at hst; simp only at hst; simp [hst]; omega
    · rw [if_neg h256] at hst
      obtain ⟨s', o', e1, _, e2⟩ := hst
      rw [e1, e2 (by simp)]
      exact ⟨fun _ => by omega, fun _ => ⟨s', rfl⟩⟩

/-- C12: a C++ mock never refuses an expectation. -/
theorem C12_capacity_cpp (hr : runRev cfg m0 past = .ok s) (hlen : past.length + 1 < 2 ^ 32)
    {f : FnId} {fc : FnCfg} (hf : cfg.fn? f = some fc) (hld : loaded f.file past = true) (hc : fc.isC = false) (e : Exp) (a : Bool) :
    ∃ s', step cfg s (.expect f e a) = .ok (s', .none) := by
  obtain ⟨h, hl⟩ := run_sim (by omega) hr
  have hst := sim_step h hl hlen (.expect f e a)
  have hobs : Spec.observe cfg m0 past (.expect f e a) = .ok .none := by
    simp only [Spec.observe, hf, hld, Bool.true_eq_false, if_false, hc, Bool.false_eq_true, false_and]
  rw [hobs] at hst
  obtain ⟨s', o', e1, _, e2⟩ := hst
  exact ⟨s', by rw [e1, e2 (by simp)]⟩

/-- C12: starting from `init`, 256 expectations are accepted and the 257th ends the process, even when all the others
were consumed in between. -/
theorem C12_exactly_256 (hr : runRev cfg m0 past = .ok s) {f : FnId} {fc : FnCfg} (hf : cfg.fn? f = some fc)
    (hld : loaded f.file past = true) (hc : fc.isC = true) (e : Exp) (n : Nat) (hlen : past.length + n + 2 < 2 ^ 32) :
    (∃ s', runRev cfg m0 (List.replicate n (.expect f e true) ++ .init :: past) = .ok s') ↔ n ≤ 256 := by
  obtain ⟨h, hl⟩ := run_sim (by omega) hr
  have hinit : ∃ t, runRev cfg m0 (.init :: past) = .ok t := by
    obtain ⟨t, e, _⟩ := (run_legal cfg m0 (.init :: past) (by simp; omega)).1 (legal_init hl)
    exact ⟨t, e⟩
  have hex : ∀ n, (exps f (List.replicate n (.expect f e true) ++ .init :: past)).length = n ∧
      loaded f.file (List.replicate n (.expect f e true) ++ .init :: past) = true := by
    intro n
    induction n with
    | zero => exact ⟨by simp, hld⟩
    | succ n ih =>
      rw [List.replicate_succ, List.cons_append, exps_expect]
      simp only [if_true, List.length_append, List.length_cons, List.length_nil]
      exact ⟨by omega, ih.2⟩
  induction n with
  | zero => simpa using hinit
  | succ n ih =>
    have ih := ih (by omega)
    constructor
    · rintro ⟨s', hs'⟩
      rw [List.replicate_succ, List.cons_append] at hs'
      obtain ⟨s1, hs1⟩ : ∃ s1, runRev cfg m0 (List.replicate n (.expect f e true) ++ .init :: past) = .ok s1 :=
        runRev_prefix (k := [.expect f e true]) hs'
      obtain ⟨hx, hy⟩ := hex n
      have hlt : (List.replicate n (Op.expect f e true) ++ .init :: past).length + 1 < 2 ^ 32 := by
        simp only [List.length_append, List.length_replicate, List.length_cons]; omega
      have := (C12_capacity_c hs1 hlt hf hy hc e).1
      simp only [runRev, hs1, Res.bind_ok] at hs'
      by_cases h256 : 256 ≤ n
      · rw [this.mpr (by rw [hx]; exact h256)] at hs'; simp at hs'
      · omega
    · intro hn
      obtain ⟨s1, hs1⟩ := ih.mpr (by omega)
      obtain ⟨hx, hy⟩ := hex n
      have hlt : (List.replicate n (Op.expect f e true) ++ .init :: past).length + 1 < 2 ^ 32 := by
        simp only [List.length_append, List.length_replicate, List.length_cons]; omega
      obtain ⟨s', hs'⟩ := (C12_capacity_c hs1 hlt hf hy hc e).2.1.mpr (by rw [hx]; omega)
      exact ⟨s', by rw [List.replicate_succ, List.cons_append]; exact runRev_cons hs1 hs'⟩

example : ∃ s, runRev Demo.cfg Demo.m0 Demo.hist = .ok s ∧ loaded Demo.g.file Demo.hist = true ∧
    (Demo.cfg.fn? Demo.g).map (·.isC) = some true ∧ (exps Demo.g Demo.hist).length < 256 := by
  obtain ⟨s, hs⟩ := Demo.of_isOk (r := runRev Demo.cfg Demo.m0 Demo.hist) (by decide +kernel)
  exact ⟨s, hs, by decide +kernel⟩

/-! ## C14 -/

/-- C14: after `easyMock_init` no copy is left allocated. -/
theorem C14_init_frees_everything (hr : runRev cfg m0 past = .ok s) (hlen : past.length + 1 < 2 ^ 32) :
    ∃ s', step cfg s .init = .ok (s', .none) ∧ ∀ q, s'.heap.blocks q = none := by
  obtain ⟨h, hl⟩ := run_sim (by omega) hr
  have hst := sim_step h hl hlen .init
  simp only [Spec.observe] at hst
  obtain ⟨s', o', e1, hs, e2⟩ := hst
  refine ⟨s', by rw [e1, e2 (by simp)], fun q => ?_⟩
  cases hq : s'.heap.blocks q with
  | none => rfl
  | some d =>
    obtain ⟨f, hv, ho⟩ := hs.minv.live q (by simp [hq])
    have hrep := hs.minv.rep f hv
    simp only [exps_init, calls_init] at hrep
    exact (rep_fresh_owns hrep q ho).elim

/-- C14: after a mock file left the process no copy of its functions is left allocated. -/
theorem C14_unload_frees_file (hr : runRev cfg m0 past = .ok s) (hlen : past.length + 1 < 2 ^ 32) {i : Nat} {s' : State} {o : Out}
    (hst : step cfg s (.unload i) = .ok (s', o)) (q : Nat) (hq : (s'.heap.blocks q).isSome) :
    ∃ f fc, cfg.fn? f = some fc ∧ f.file ≠ i ∧ (s'.mocks f).Owns q := by
  obtain ⟨hs, _⟩ := run_sim (past := .unload i :: past) (by simpa using hlen) (runRev_cons hr hst)
  obtain ⟨f, hv, ho⟩ := hs.minv.live q hq
  obtain ⟨fc, hf⟩ := Option.isSome_iff_exists.mp hv
  refine ⟨f, fc, hf, fun e => ?_, ho⟩
  have hrep := hs.minv.rep f hv
  simp only [exps_unload, calls_unload, e, if_true] at hrep
  exact rep_fresh_owns hrep q ho

/-- C14: every allocated copy is in exactly one slot of exactly one mock (so the reset of the mocks releases it exactly
once), it holds the expectation registered at that position, and every expectation of a C mock that can still serve a
call has its copy. -/
theorem C14_every_copy_has_one_owner (hr : runRev cfg m0 past = .ok s) (hlen : past.length < 2 ^ 32) :
    (∀ q d, s.heap.blocks q = some d → ∃ (f : FnId) (m : CMock) (i : Nat), (cfg.fn? f).isSome ∧ s.mocks f = .c m ∧ m.slots[i]? = some (some q) ∧
      (exps f past)[i]? = some d ∧
      ∀ (g : FnId) (m' : CMock) (j : Nat), (cfg.fn? g).isSome → s.mocks g = .c m' → m'.slots[j]? = some (some q) → g = f ∧ j = i) ∧
    (∀ (f : FnId) (fc : FnCfg) (i : Nat) (d : Exp), cfg.fn? f = some fc → fc.isC = true → calls f past ≤ i → (exps f past)[i]? = some d →
      ∃ m q, s.mocks f = .c m ∧ m.slots[i]? = some (some q) ∧ s.heap.blocks q = some d) := by
  obtain ⟨h, hl⟩ := run_sim hlen hr
  refine ⟨fun q d hq => ?_, fun f fc i d hf hc hi hd => ?_⟩
  · obtain ⟨f, hv, ho⟩ := h.minv.live q (by simp [hq])
    have hrep := h.minv.rep f hv
    cases hm : s.mocks f with
    | cpp m => rw [hm] at ho; exact ho.elim
    | c m =>
      rw [hm] at ho hrep
      obtain ⟨i, hi⟩ := ho
      obtain ⟨_, _, _, _, h5, h6, _⟩ := hrep
      obtain ⟨d', h7, h8⟩ := h6 i q hi
      rw [hq] at h8; cases h8
      refine ⟨f, m, i, hv, hm, hi, h7, fun g m' j hg hm' hj => ?_⟩
      have hgf : g = f := h.minv.uniq g f q hg hv (by rw [hm']; exact ⟨j, hj⟩) (by rw [hm]; exact ⟨i, hi⟩)
      subst hgf
      rw [hm] at hm'; cases hm'
      exact ⟨rfl, h5 j i q hj hi⟩
  · have hv : Valid cfg f := by simp [Valid, hf]
    have hrep := h.minv.rep f hv
    have hk := h.minv.kind f hv
    simp only [kindC, hf, hc] at hk
    cases hm : s.mocks f with
    | cpp m => rw [hm] at hk; simp [Mock.isC] at hk
    | c m =>
      rw [hm] at hrep
      obtain ⟨_, _, _, _, _, h6, h7⟩ := hrep
      obtain ⟨q, hq⟩ := h7 i hi (List.getElem?_eq_some_iff.mp hd).1
      obtain ⟨d', h8, h9⟩ := h6 i q hq
      rw [hd] at h8; cases h8
      exact ⟨m, q, rfl, hq, h9⟩

/-- C14: no operation of the framework releases a copy twice or reads a released copy: `init`, checks, registering
expectations and calls with defined copies never are undefined. (In the model a `free` or a read of a block that is not
allocated is undefined behaviour.) -/
theorem C14_no_invalid_release (hr : runRev cfg m0 past = .ok s) (hlen : past.length + 1 < 2 ^ 32) :
    step cfg s .init ≠ .ub ∧ (∀ i, loaded i past = true → step cfg s (.unload i) ≠ .ub) ∧
    (∀ f fc e a, cfg.fn? f = some fc → loaded f.file past = true → step cfg s (.expect f e a) ≠ .ub) ∧
    (∀ f fc c, cfg.fn? f = some fc → fc.outs = [] → loaded f.file past = true → step cfg s (.call f c) ≠ .ub) := by
  refine ⟨fun h => ?_, fun i hi h => ?_, fun f fc e a hf hl h => ?_, fun f fc c hf ho hl h => ?_⟩ <;>
    rcases C11_undefined_only_by_caller hr hlen _ h with ⟨_, _, _, h1, h2⟩ | ⟨_, _, h1, h2⟩ | ⟨_, h1, h2⟩ | ⟨_, h1, h2⟩ | ⟨_, _, h1, h2⟩ <;>
    cases h1
  · rw [hi] at h2; simp at h2
  · rcases h2 with h2 | h2
    · rw [hf] at h2; simp at h2
    · rw [hl] at h2; simp at h2
  · rcases h2 with h2 | h2 | ⟨fc', e, h2, h3, h4⟩
    · rw [hf] at h2; simp at h2
    · rw [hl] at h2; simp at h2
    · rw [hf] at h2; cases h2
      rw [ho] at h4
      simp [copies, zip3, copyAll] at h4

/-- In the demo history one copy is still allocated (the expectation of `g`); the one of `f` was released by its call. -/
example : ∃ s, runRev Demo.cfg Demo.m0 Demo.hist = .ok s ∧ s.heap.next = 2 ∧ (s.heap.blocks 0).isNone ∧ (s.heap.blocks 1).isSome := by
  obtain ⟨s, hs⟩ := Demo.of_isOk (r := runRev Demo.cfg Demo.m0 Demo.hist) (by decide +kernel)
  refine ⟨s, hs, ?_⟩
  have key : (match runRev Demo.cfg Demo.m0 Demo.hist with
    | .ok s => decide (s.heap.next = 2 ∧ (s.heap.blocks 0).isNone ∧ (s.heap.blocks 1).isSome) | _ => false) = true := by decide +kernel
  rw [hs] at key
  simpa using key

end

/-! ## C13 -/

section
variable {δ : Type}

/-- What the framework does with one mock. -/
inductive MOp (δ : Type) where
  | expect (d : δ)
  | call
  | reset

/-- What it gets back: nothing, or whether the call was expected and with which data. -/
structure MOut (δ : Type) where
  served : Option δ
  nbExpected : Nat
  nbActual : Nat

/-- One operation on a mock: `MockedFunction_addExpectedCall`, or `MockedFunction_addActualCall` followed by
`MockedFunction_getCurrentCallParam` when it succeeds (as the generated code does, GEN:624-636), or
`MockedFunction_reset`; then both counters. -/
def mstep (h : DHeap δ) (m : Mock δ) : MOp δ → Res (DHeap δ × Mock δ × MOut δ)
  | .expect d => do
    let (h', m') ← m.addExpectedCall true h d
    .ok (h', m', ⟨none, m'.getNbExpectedCall, m'.getNbActualCall⟩)
  | .call =>
    let r := m.addActualCall
    if r.2 then do
      let (h', m', d) ← r.1.getCurrentCallParam h
      .ok (h', m', ⟨d, m'.getNbExpectedCall, m'.getNbActualCall⟩)
    else .ok (h, r.1, ⟨none, r.1.getNbExpectedCall, r.1.getNbActualCall⟩)
  | .reset => do
    let (h', m') ← m.reset h
    .ok (h', m', ⟨none, m'.getNbExpectedCall, m'.getNbActualCall⟩)

def mrun (h : DHeap δ) (m : Mock δ) : List (MOp δ) → Res (List (MOut δ))
  | [] => .ok []
  | op :: ops => do
    let (h', m', o) ← mstep h m op
    let os ← mrun h' m' ops
    .ok (o :: os)

/-- The specification: a list of expectations and a number of calls. -/
def mspec (a : AMock δ) : List (MOp δ) → List (MOut δ)
  | [] => []
  | .expect d :: ops => ⟨none, a.exps.length + 1, a.calls⟩ :: mspec ⟨a.exps ++ [d], a.calls⟩ ops
  | .call :: ops => ⟨a.exps[a.calls]?, a.exps.length, a.calls + 1⟩ :: mspec ⟨a.exps, a.calls + 1⟩ ops
  | .reset :: ops => ⟨none, 0, 0⟩ :: mspec ⟨[], 0⟩ ops

/-- No more than `cap` expectations and no more than `maxc` calls between resets. -/
def Fits (cap maxc : Nat) (e c : Nat) : List (MOp δ) → Prop
  | [] => True
  | .expect _ :: ops => e + 1 ≤ cap ∧ Fits cap maxc (e + 1) c ops
  | .call :: ops => c + 1 ≤ maxc ∧ Fits cap maxc e (c + 1) ops
  | .reset :: ops => Fits cap maxc 0 0 ops

theorem mrun_eq {h : DHeap δ} {m : Mock δ} {a : AMock δ} (r : m.Rep h a) (hb : ∀ q, (h.blocks q).isSome → q < h.next)
    (hlive : ∀ q, (h.blocks q).isSome → m.Owns q)
    (ops : List (MOp δ)) (cap : Nat) (hcap : m.isC = true → cap ≤ 256) (hcap' : cap + 1 < 2 ^ 32)
    (hfit : Fits cap (2 ^ 32 - 2) a.exps.length a.calls ops) : mrun h m ops = .ok (mspec a ops) := by
  induction ops generalizing h m a with
  | nil => rfl
  | cons op ops ih =>
    cases op with
    | expect d =>
      obtain ⟨f1, f2⟩ := hfit
      obtain ⟨h', m', e1, r', fr, hk⟩ := addExpectedCall_ok r d hb (fun hc => by have := hcap hc; omega) (by omega)
      have hb' : ∀ q, (h'.blocks q).isSome → q < h'.next := fun q hq => by
        rcases fr.live q hq with ho | ho
        · exact fr.bound q ho
        · have := fr.next; have := hb q ho.1; omega
      have hl' : ∀ q, (h'.blocks q).isSome → m'.Owns q := fun q hq => by
        rcases fr.live q hq with ho | ho
        · exact ho
        · exact (ho.2 (hlive q ho.1)).elim
      have := ih r' hb' hl' (by rw [hk]; exact hcap) (by simpa [AMock.expect] using f2)
      simp only [mrun, mstep, e1, Res.bind_ok, this, r'.nbExpected, r'.nbActual]
      simp [mspec, AMock.expect]
    | call =>
      obtain ⟨f1, f2⟩ := hfit
      have hlt : a.calls + 1 < 2 ^ 32 := by omega
      obtain ⟨h1, h2, h3, h4, h5⟩ := addActualCall_rep r hlt
      cases hs : a.serving with
      | none =>
        have hf : m.addActualCall.2 = false := by rw [h1, hs]; rfl
        have r' := h2 hf
        have := ih r' hb (fun q hq => (h3 q).mpr (hlive q hq)) (by rw [h4]; exact hcap) (by simpa [AMock.call] using f2)
        simp only [mrun, mstep, hf, Bool.false_eq_true, if_false, Res.bind_ok, this, r'.nbExpected, r'.nbActual]
        have hn : a.exps[a.calls]? = none := hs
        simp [mspec, AMock.call, hn]
      | some d =>
        have hf : m.addActualCall.2 = true := by rw [h1, hs]; rfl
        obtain ⟨h', m', e1, r', fr, hk, _⟩ := getCurrentCallParam_ok r hb hlt d hs
        have hb' : ∀ q, (h'.blocks q).isSome → q < h'.next := fun q hq => by
          rcases fr.live q hq with ho | ho
          · exact fr.bound q ho
          · have := fr.next; have := hb q ho.1; omega
        have hl' : ∀ q, (h'.blocks q).isSome → m'.Owns q := fun q hq => by
          rcases fr.live q hq with ho | ho
          · exact ho
          · exact (ho.2 (hlive q ho.1)).elim
        have := ih r' hb' hl' (by rw [hk]; exact hcap) (by simpa [AMock.call] using f2)
        simp only [mrun, mstep, hf, if_true, e1, Res.bind_ok, this, r'.nbExpected, r'.nbActual]
        have hn : a.exps[a.calls]? = some d := hs
        simp [mspec, AMock.call, hn]
    | reset =>
      obtain ⟨h', m', e1, r', fr, hno, hk⟩ := reset_ok r
      have hb' : ∀ q, (h'.blocks q).isSome → q < h'.next := fun q hq => by
        rcases fr.live q hq with ho | ho
        · exact fr.bound q ho
        · have := fr.next; have := hb q ho.1; omega
      have hl' : ∀ q, (h'.blocks q).isSome → m'.Owns q := fun q hq => by
        rcases fr.live q hq with ho | ho
        · exact ho
        · exact (ho.2 (hlive q ho.1)).elim
      have := ih r' hb' hl' (by rw [hk]; exact hcap) (by simpa [AMock.fresh, Fits] using hfit)
      simp only [mrun, mstep, e1, Res.bind_ok, this, r'.nbExpected, r'.nbActual]
      simp [mspec, AMock.fresh]

/-- C13: on every sequence of operations with at most 256 expectations per reset period (and calls below the counter
range), a fresh C mock and a fresh C++ mock both succeed and give the same results: whether each call is expected, its
data, and both counters. -/
theorem C13_backends_equivalent (ops : List (MOp δ)) (hfit : Fits 256 (2 ^ 32 - 2) 0 0 ops) :
    mrun ⟨fun _ => none, 0⟩ (.c CMock.init) ops = .ok (mspec ⟨[], 0⟩ ops) ∧
    mrun ⟨fun _ => none, 0⟩ (.cpp CppMock.init) ops = .ok (mspec ⟨[], 0⟩ ops) := by
  refine ⟨?_, ?_⟩
  · exact mrun_eq (Rep_init _) (by simp) (by simp) ops 256 (by simp) (by omega) hfit
  · refine mrun_eq (a := AMock.fresh) ?_ (by simp) (by simp) ops 256 (by simp) (by omega) hfit
    exact ⟨rfl, rfl, rfl⟩

/-- C13: the limit is only on the C side; the C++ mock follows the same specification beyond it. -/
theorem C13_cpp_beyond_limit (ops : List (MOp δ)) (hfit : Fits (2 ^ 32 - 2) (2 ^ 32 - 2) 0 0 ops) :
    mrun ⟨fun _ => none, 0⟩ (.cpp CppMock.init) ops = .ok (mspec ⟨[], 0⟩ ops) := by
  refine mrun_eq (a := AMock.fresh) ?_ (by simp) (by simp) ops (2 ^ 32 - 2) (by simp [Mock.isC]) (by omega) hfit
  exact ⟨rfl, rfl, rfl⟩

example : Fits 256 (2 ^ 32 - 2) 0 0 ([.expect 5, .call, .call, .expect 6, .expect 7, .call, .reset, .call] : List (MOp Nat)) ∧
    (mspec ⟨[], 0⟩ ([.expect 5, .call, .call, .expect 6, .expect 7, .call, .reset, .call] : List (MOp Nat))).map (·.served) =
      [none, some 5, none, none, none, some 7, none, none] := by
  refine ⟨by simp [Fits], rfl⟩

end

/-! ### Whole framework -/

section
variable {cfg cfg' : Cfg} {m0 : Mem}

/-- The same mocks, generated for either back-end. -/
structure SameUpToBackend (cfg cfg' : Cfg) : Prop where
  length : cfg.files.length = cfg'.files.length
  fn : ∀ f, (cfg.fn? f).map (fun fc => { fc with isC := true }) = (cfg'.fn? f).map (fun fc => { fc with isC := true })
  backtrace : cfg.backtrace = cfg'.backtrace

/-- At most 256 expectations per function and reset period, all allocations succeed. -/
def WithinC (past : List Op) : Prop :=
  (∀ k p f e a, past = k ++ .expect f e a :: p → a = true ∧ (exps f p).length < 256)

theorem SameUpToBackend.fn_some (h : SameUpToBackend cfg cfg') {f : FnId} {fc : FnCfg} (hf : cfg.fn? f = some fc) :
    ∃ fc', cfg'.fn? f = some fc' ∧ fc'.name = fc.name ∧ fc'.shortName = fc.shortName ∧ fc'.ret = fc.ret ∧ fc'.isMember = fc.isMember ∧
      fc'.paramNames = fc.paramNames ∧ fc'.outs = fc.outs := by
  have := h.fn f
  rw [hf] at this
  cases hf' : cfg'.fn? f with
  | none => rw [hf'] at this; simp at this
  | some fc' =>
    rw [hf'] at this
    simp only [Option.map_some, Option.some.injEq, FnCfg.mk.injEq] at this
    exact ⟨fc', rfl, this.1.symm, this.2.1.symm, this.2.2.1.symm, this.2.2.2.2.1.symm, this.2.2.2.2.2.1.symm, this.2.2.2.2.2.2.symm⟩

theorem SameUpToBackend.fn_none (h : SameUpToBackend cfg cfg') {f : FnId} (hf : cfg.fn? f = none) : cfg'.fn? f = none := by
  have := h.fn f
  rw [hf] at this
  cases hf' : cfg'.fn? f with
  | none => rfl
  | some fc' => rw [hf'] at this; simp at this

theorem SameUpToBackend.name (h : SameUpToBackend cfg cfg') (f : FnId) : cfg'.name f = cfg.name f := by
  unfold Cfg.name
  cases hf : cfg.fn? f with
  | none => rw [h.fn_none hf]
  | some fc =>
    obtain ⟨fc', h1, h2, _⟩ := h.fn_some hf
    rw [h1]; exact h2

theorem SameUpToBackend.fifo (h : SameUpToBackend cfg cfg') (p : List Op) : Spec.fifo cfg' p = Spec.fifo cfg p := by
  induction p with
  | nil => rfl
  | cons op p ih => cases op <;> simp only [Spec.fifo, ih, h.name]

theorem fnsOf_length (cfg : Cfg) (i : Nat) : (cfg.fnsOf i).length = (cfg.files[i]?.map List.length).getD 0 := by
  unfold Cfg.fnsOf
  cases cfg.files[i]? <;> simp

theorem SameUpToBackend.fnsOf (h : SameUpToBackend cfg cfg') (i : Nat) : cfg'.fnsOf i = cfg.fnsOf i := by
  have hsome : ∀ f, (cfg'.fn? f).isSome = (cfg.fn? f).isSome := by
    intro f
    cases hf : cfg.fn? f with
    | none => rw [h.fn_none hf]
    | some fc => obtain ⟨fc', h1, _⟩ := h.fn_some hf; rw [h1]; rfl
  unfold Cfg.fnsOf
  cases h1 : cfg.files[i]? with
  | none =>
    have : cfg.files.length ≤ i := List.getElem?_eq_none_iff.mp h1
    rw [h.length] at this
    rw [List.getElem?_eq_none this]
  | some fns =>
    have : i < cfg.files.length := (List.getElem?_eq_some_iff.mp h1).1
    rw [h.length] at this
    have h2 : cfg'.files[i]? = some cfg'.files[i] := List.getElem?_eq_getElem this
    rw [h2]
    have hlen : cfg'.files[i].length = fns.length := by
      have key : ∀ j, j < cfg'.files[i].length ↔ j < fns.length := by
        intro j
        have := hsome ⟨i, j⟩
        unfold Cfg.fn? at this
        simp only [h1, h2, Option.bind_some] at this
        have aux : ∀ l : List FnCfg, l[j]?.isSome = true ↔ j < l.length := fun l => by simp
        rw [← aux, ← aux, this]
      have h3 := key fns.length
      have h4 := key cfg'.files[i].length
      omega
    simp only [hlen]

theorem SameUpToBackend.outOfOrder (h : SameUpToBackend cfg cfg') (p : List Op) {fc fc' : FnCfg} (hn : fc'.name = fc.name) :
    Spec.outOfOrder cfg' p fc' = Spec.outOfOrder cfg p fc := by
  unfold Spec.outOfOrder; rw [h.fifo, hn]

theorem SameUpToBackend.memCall (h : SameUpToBackend cfg cfg') (p : List Op) (m : Mem) (f : FnId) (c : Call) {fc fc' : FnCfg}
    (hn : fc'.name = fc.name) (ho : fc'.outs = fc.outs) : Spec.memCall cfg' p m f fc' c = Spec.memCall cfg p m f fc c := by
  unfold Spec.memCall; rw [h.outOfOrder p hn, ho]

theorem SameUpToBackend.mem (h : SameUpToBackend cfg cfg') (p : List Op) : Spec.mem cfg' m0 p = Spec.mem cfg m0 p := by
  induction p with
  | nil => rfl
  | cons op p ih =>
    cases op with
    | call f c =>
      simp only [Spec.mem]
      cases hf : cfg.fn? f with
      | none => rw [h.fn_none hf]; exact ih
      | some fc =>
        obtain ⟨fc', h1, h2, _, _, _, _, h3⟩ := h.fn_some hf
        rw [h1]
        simp only [ih, h.memCall p _ f c h2 h3]
    | poke a b => simp only [Spec.mem, ih]
    | _ => exact ih

theorem SameUpToBackend.liveFns (h : SameUpToBackend cfg cfg') (p : List Op) : Spec.liveFns cfg' p = Spec.liveFns cfg p := by
  unfold Spec.liveFns
  have : cfg'.fnsOf = cfg.fnsOf := funext h.fnsOf
  rw [h.length, this]

theorem SameUpToBackend.errs (h : SameUpToBackend cfg cfg') (p : List Op) : Spec.errs cfg' m0 p = Spec.errs cfg m0 p := by
  induction p with
  | nil => rfl
  | cons op p ih =>
    cases op with
    | call f c =>
      simp only [Spec.errs]
      cases hf : cfg.fn? f with
      | none => rw [h.fn_none hf]; exact ih
      | some fc =>
        obtain ⟨fc', h1, h2, h3, h4, h5, h6, h7⟩ := h.fn_some hf
        rw [h1]
        simp only [ih, h.backtrace]
        unfold callErrs
        rw [h.outOfOrder p h2, h.mem, h.fifo, h2, h3, h4, h5, h6]
    | check =>
      simp only [Spec.errs, ih]
      unfold checkErrs
      rw [h.liveFns]
      have : (fun f => if (exps f p).length = calls f p then none else some (ErrKind.count (cfg'.name f) (exps f p).length (calls f p))) =
        (fun f => if (exps f p).length = calls f p then none else some (ErrKind.count (cfg.name f) (exps f p).length (calls f p))) := by
        funext f; rw [h.name]
      rw [this]
    | init => rfl
    | _ => exact ih

theorem SameUpToBackend.observe (h : SameUpToBackend cfg cfg') (p : List Op) (op : Op)
    (hop : ∀ f e a, op = .expect f e a → a = true ∧ (exps f p).length < 256) :
    Spec.observe cfg' m0 p op = Spec.observe cfg m0 p op := by
  cases op with
  | expect f e a =>
    obtain ⟨ha, hx⟩ := hop f e a rfl
    simp only [Spec.observe]
    cases hf : cfg.fn? f with
    | none => rw [h.fn_none hf]
    | some fc =>
      obtain ⟨fc', h1, _⟩ := h.fn_some hf
      rw [h1]
      subst ha
      have : ¬ (256 ≤ (exps f p).length) := by omega
      simp [this]
  | call f c =>
    simp only [Spec.observe]
    cases hf : cfg.fn? f with
    | none => rw [h.fn_none hf]
    | some fc =>
      obtain ⟨fc', h1, h2, h3, h4, h5, h6, h7⟩ := h.fn_some hf
      rw [h1]
      simp only [h.mem, h.memCall p _ f c h2 h7, retVal, h4]
  | check => simp only [Spec.observe, verdict, h.errs, h.liveFns]
  | getStr => simp only [Spec.observe, h.errs]
  | getArr => simp only [Spec.observe, h.errs]
  | poke a b => simp only [Spec.observe, h.mem]
  | load i => simp only [Spec.observe, h.length]
  | _ => rfl

theorem SameUpToBackend.legal (h : SameUpToBackend cfg cfg') {p : List Op} (hw : WithinC p) :
    Legal cfg' m0 p ↔ Legal cfg m0 p := by
  induction p with
  | nil => exact Iff.rfl
  | cons op p ih =>
    have hw' : WithinC p := fun k q f e a hq => hw (op :: k) q f e a (by rw [hq]; rfl)
    simp only [Legal, ih hw', h.observe p op (fun f e a ho => hw [] p f e a (by rw [ho]; rfl))]

/-- C13: the same test against mocks generated for the C and for the C++ back-end (or any mixture) makes the same
observations, as long as no function gets more than 256 expectations between resets. -/
theorem C13_framework_equivalent (h : SameUpToBackend cfg cfg') {past : List Op} {s : State} (hr : runRev cfg m0 past = .ok s)
    (hlen : past.length + 1 < 2 ^ 32) (hw : WithinC past) (op : Op)
    (hop : ∀ f e a, op = .expect f e a → a = true ∧ (exps f past).length < 256)
    (harr : op = .getArr → (errs cfg m0 past).length < 2 ^ 32) :
    observe cfg' m0 past op = observe cfg m0 past op := by
  obtain ⟨_, hl⟩ := run_sim (by omega) hr
  rw [observe_eq cfg m0 past op hl hlen harr, observe_eq cfg' m0 past op ((h.legal hw).mpr hl) hlen (by rw [h.errs]; exact harr)]
  exact h.observe past op hop

/-- The demo configuration with all mocks turned to C++. -/
example : SameUpToBackend Demo.cfg { Demo.cfg with files := Demo.cfg.files.map (·.map fun fc => { fc with isC := false }) } := by
  refine ⟨by simp [Demo.cfg], fun f => ?_, rfl⟩
  simp only [Cfg.fn?, List.getElem?_map]
  cases h1 : Demo.cfg.files[f.file]? with
  | none => rfl
  | some l =>
    simp only [Option.map_some, Option.bind_some, List.getElem?_map]
    cases l[f.idx]? <;> rfl

end

end EasyMock
