import Verif.Props.Framework3

/-!
# C15 - C20: error log, sticky verdict, registration, ordinals, early calls, order queue
-/

namespace EasyMock
open Spec

section
variable {cfg : Cfg} {m0 : Mem} {past p k : List Op} {s t : State}

/-! ## C15 -/

/-- C15: between two inits the error log only grows at its end. -/
theorem C15_log_append_only (hp : runRev cfg m0 p = .ok s) (hk : runRev cfg m0 (k ++ p) = .ok t)
    (hlen : (k ++ p).length < 2 ^ 32) (hinit : Op.init ∉ k) : ∃ new, t.errs = s.errs ++ new := by
  obtain ⟨h1, _⟩ := run_sim (by simp only [List.length_append] at hlen; omega) hp
  obtain ⟨h2, _⟩ := run_sim hlen hk
  rw [h1.errs, h2.errs]
  exact errs_append cfg m0 k p hinit

/-- C15: only calls of mocked functions and checks add to the log; `init` empties it. -/
theorem C15_log_changes (hp : runRev cfg m0 past = .ok s) {op : Op} {s' : State} {o : Out} (hst : step cfg s op = .ok (s', o)) 
    (hlen : past.length + 1 < 2 ^ 32) :
    (op = .init → s'.errs = []) ∧
    (op ≠ .init → op ≠ .check → (∀ f c, op ≠ .call f c) → s'.errs = s.errs) := by
  obtain ⟨h1, _⟩ := run_sim (by omega) hp
  obtain ⟨h2, _⟩ := run_sim (past := op :: past) (by simpa using hlen) (runRev_cons hp hst)
  rw [h2.errs, h1.errs]
  refine ⟨fun e => by subst e; rfl, fun a b d => ?_⟩
  cases op with
  | init => exact (a rfl).elim
  | check => exact (b rfl).elim
  | call f c => exact (d f c rfl).elim
  | _ => rfl

/-- C15: the two getters describe the same log: the array holds every message in order and a terminating `NULL`, with
the right size; the string is the messages, each followed by a line end; both are `NULL` exactly when the log is empty. -/
theorem C15_getters (s : State) (cfg : Cfg) (h : s.errs.length < 2 ^ 32) :
    ∃ str arr n, step cfg s .getStr = .ok (s, .str str) ∧ step cfg s .getArr = .ok (s, .arr arr n) ∧
      n = s.errs.length ∧ (str = none ↔ s.errs = []) ∧ (arr = none ↔ s.errs = []) ∧
      (∀ x, str = some x → x = String.join (s.errs.map fun e => e.render ++ "\n\r")) ∧
      (∀ a, arr = some a → a.length = n + 1 ∧ a[n]? = some none ∧ ∀ i (hi : i < s.errs.length), a[i]? = some (some s.errs[i].render)) := by
  refine ⟨_, _, _, rfl, rfl, ?_, ?_, ?_, ?_, ?_⟩
  · rw [getErrorArr_eq s h]; split <;> simp_all
  · rw [getErrorStr_eq]; split <;> simp_all
  · rw [getErrorArr_eq s h]; split <;> simp_all
  · intro x hx
    rw [getErrorStr_eq] at hx
    split at hx
    · simp at hx
    · simpa using hx.symm
  · intro a ha
    rw [getErrorArr_eq s h] at ha ⊢
    split at ha
    · simp at ha
    · rename_i hne
      simp only [Option.some.injEq] at ha
      subst ha
      rw [if_neg hne]
      refine ⟨by simp, by simp, fun i hi => ?_⟩
      rw [List.getElem?_append_left (by simpa using hi)]
      simp [hi]

example : observe Demo.cfg Demo.m0 (.check :: Demo.hist) .getArr =
    .ok (.arr (some [some "Error: For function 'void g()' bad number of call. Expected 1, got 0",
      some "Error: For function 'int K::h(int a)' bad number of call. Expected 1, got 0", none]) 2) := by decide +kernel

/-! ## C16 -/

/-- C16: once an error is recorded every check fails until `init`. -/
theorem C16_failure_sticky (hp : runRev cfg m0 p = .ok s) (hne : s.errs ≠ []) (hk : runRev cfg m0 (k ++ p) = .ok t)
    (hlen : (k ++ p).length + 1 < 2 ^ 32) (hinit : Op.init ∉ k) :
    observe cfg m0 (k ++ p) .check = .ok (.verdict false) := by
  rw [observe_check hk hlen]
  obtain ⟨new, he⟩ := C15_log_append_only hp hk (by omega) hinit
  obtain ⟨h2, _⟩ := run_sim (by omega) hk
  congr 2
  cases hv : verdict cfg m0 (k ++ p) with
  | false => rfl
  | true =>
    have := (verdict_iff.mp hv).1
    rw [← h2.errs, he] at this
    simp at this
    exact (hne this.1).elim

theorem check_same : ∀ f, exps f (.check :: p) = exps f p ∧ calls f (.check :: p) = calls f p := by
  intro f; simp

/-- C16: a failed check is itself remembered: after a check that failed, every later check before `init` fails, even if
the missing calls are made in between. -/
theorem C16_failed_check_sticky (hp : observe cfg m0 p .check = .ok (.verdict false)) (hk : runRev cfg m0 (k ++ .check :: p) = .ok t)
    (hlen : (k ++ .check :: p).length + 1 < 2 ^ 32) (hinit : Op.init ∉ k) :
    observe cfg m0 (k ++ .check :: p) .check = .ok (.verdict false) := by
  obtain ⟨s1, hs1⟩ := runRev_prefix hk
  obtain ⟨s0, hs0⟩ := runRev_prefix (k := [.check]) hs1
  simp only [List.length_append, List.length_cons] at hlen
  obtain ⟨h1, l1⟩ := run_sim (past := .check :: p) (by simp; omega) hs1
  refine C16_failure_sticky hs1 ?_ hk (by simp only [List.length_append, List.length_cons]; omega) hinit
  rw [h1.errs]
  rw [observe_check hs0 (by omega)] at hp
  have hv : verdict cfg m0 p = false := by simpa using hp
  intro he
  simp only [Spec.errs, List.append_eq_nil_iff, List.map_eq_nil_iff] at he
  have : verdict cfg m0 p = true := by
    unfold verdict
    rw [Bool.and_eq_true]
    refine ⟨by simp [he.1], ?_⟩
    rw [List.all_eq_true]
    intro f hf
    have h3 := he.2
    unfold checkErrs at h3
    rw [List.filterMap_eq_nil_iff] at h3
    have := h3 f hf
    split at this
    · simpa
    · simp at this
  rw [hv] at this; simp at this

/-- C16: repeating a check gives the same verdict. -/
theorem C16_check_repeatable (hp : runRev cfg m0 p = .ok s) (n : Nat) (hlen : p.length + n + 1 < 2 ^ 32) :
    observe cfg m0 (List.replicate n .check ++ p) .check = observe cfg m0 p .check := by
  have hrun : ∀ n, p.length + n + 1 < 2 ^ 32 → ∃ t, runRev cfg m0 (List.replicate n .check ++ p) = .ok t := by
    intro n
    induction n with
    | zero => intro _; exact ⟨s, by simpa using hp⟩
    | succ n ih =>
      intro hl
      obtain ⟨t, ht⟩ := ih (by omega)
      have hl' : (List.replicate n Op.check ++ p).length + 1 < 2 ^ 32 := by
        rw [List.length_append, List.length_replicate]; omega
      obtain ⟨h, l⟩ := run_sim (by omega) ht
      have := sim_step h l hl' .check
      simp only [Spec.observe] at this
      obtain ⟨s', o', e, _⟩ := this
      exact ⟨s', by rw [List.replicate_succ, List.cons_append]; exact runRev_cons ht e⟩
  have hpass : ∀ n, verdict cfg m0 p = true → errs cfg m0 (List.replicate n .check ++ p) = [] := by
    intro n hv
    obtain ⟨h1, h2⟩ := verdict_iff.mp hv
    induction n with
    | zero => simpa using h1
    | succ n ih =>
      rw [List.replicate_succ, List.cons_append]
      simp only [Spec.errs, ih, List.nil_append, List.map_eq_nil_iff]
      unfold checkErrs
      rw [List.filterMap_eq_nil_iff]
      intro f hf
      have hef : ∀ n, exps f (List.replicate n .check ++ p) = exps f p ∧ calls f (List.replicate n .check ++ p) = calls f p ∧
          ∀ i, loaded i (List.replicate n .check ++ p) = loaded i p := by
        intro n
        induction n with
        | zero => simp
        | succ n ih =>
          rw [List.replicate_succ, List.cons_append, (check_same f).1, (check_same f).2]
          exact ⟨ih.1, ih.2.1, fun i => ih.2.2 i⟩
      rw [(hef n).1, (hef n).2.1, if_pos]
      unfold liveFns at hf
      simp only [List.mem_flatMap, List.mem_filter, List.mem_range, mem_fnsOf] at hf
      obtain ⟨i, ⟨_, hl⟩, rfl, hv'⟩ := hf
      exact h2 f hv' (by rw [← (hef n).2.2]; exact hl)
  obtain ⟨t, ht⟩ := hrun n hlen
  have hl' : (List.replicate n Op.check ++ p).length + 1 < 2 ^ 32 := by
    rw [List.length_append, List.length_replicate]; omega
  cases hv : verdict cfg m0 p with
  | true =>
    rw [observe_check ht hl', observe_check hp (by omega), hv]
    congr 2
    obtain ⟨h1, h2⟩ := verdict_iff.mp hv
    refine verdict_iff.mpr ⟨hpass n hv, ?_⟩
    intro f hv' hld
    have hef : ∀ n, exps f (List.replicate n .check ++ p) = exps f p ∧ calls f (List.replicate n .check ++ p) = calls f p ∧
        loaded f.file (List.replicate n .check ++ p) = loaded f.file p := by
      intro n
      induction n with
      | zero => simp
      | succ n ih =>
        rw [List.replicate_succ, List.cons_append, (check_same f).1, (check_same f).2]
        exact ⟨ih.1, ih.2.1, ih.2.2⟩
    rw [(hef n).1, (hef n).2.1]
    exact h2 f hv' (by rw [← (hef n).2.2]; exact hld)
  | false =>
    have hf : observe cfg m0 p .check = .ok (.verdict false) := by rw [observe_check hp (by omega), hv]
    rw [hf]
    cases n with
    | zero => simpa using hf
    | succ n =>
      have e : List.replicate (n + 1) Op.check ++ p = List.replicate n Op.check ++ .check :: p := by
        rw [List.replicate_succ', List.append_assoc]; rfl
      rw [e] at ht hl' ⊢
      refine C16_failed_check_sticky hf ht hl' ?_
      intro h
      have := List.eq_of_mem_replicate h
      simp at this

/-- The same apart from recorded errors. -/
structure SameButErrs (cfg : Cfg) (m0 : Mem) (p q : List Op) : Prop where
  order : Spec.order p = Spec.order q
  loaded : ∀ i, Spec.loaded i p = Spec.loaded i q
  fifo : Spec.fifo cfg p = Spec.fifo cfg q
  mem : Spec.mem cfg m0 p = Spec.mem cfg m0 q
  exps : ∀ f, Spec.exps f p = Spec.exps f q
  calls : ∀ f, Spec.calls f p = Spec.calls f q

theorem SameButErrs.cons {p q : List Op} (h : SameButErrs cfg m0 p q) (op : Op) : SameButErrs cfg m0 (op :: p) (op :: q) := by
  have hs : ∀ f, serving f p = serving f q := fun f => by unfold serving; rw [h.exps, h.calls]
  refine ⟨?_, ?_, ?_, ?_, ?_, ?_⟩
  · cases op <;> simp only [Spec.order, h.order]
  · intro i; cases op <;> simp only [Spec.loaded, h.loaded]
  · cases op <;> simp only [Spec.fifo, h.fifo, hs]
  · have hmc : ∀ m f fc c, memCall cfg p m f fc c = memCall cfg q m f fc c := by
      intro m f fc c; unfold memCall outOfOrder; rw [hs, h.order, h.fifo]
    cases op <;> simp only [Spec.mem, h.mem, hmc]
  · intro f; rw [exps_cons, exps_cons, h.exps]
  · intro f; rw [calls_cons, calls_cons, h.calls]

theorem SameButErrs.observe {p q : List Op} (h : SameButErrs cfg m0 p q) (op : Op)
    (h1 : op ≠ .check) (h2 : op ≠ .getStr) (h3 : op ≠ .getArr) : Spec.observe cfg m0 p op = Spec.observe cfg m0 q op := by
  have hs : ∀ f, serving f p = serving f q := fun f => by unfold serving; rw [h.exps, h.calls]
  cases op with
  | check => exact (h1 rfl).elim
  | getStr => exact (h2 rfl).elim
  | getArr => exact (h3 rfl).elim
  | expect f e a => simp only [Spec.observe, h.loaded, h.exps]
  | call f c =>
    have hmc : ∀ m f fc c, memCall cfg p m f fc c = memCall cfg q m f fc c := by
      intro m f fc c; unfold memCall outOfOrder; rw [hs, h.order, h.fifo]
    have hrv : ∀ fc, retVal p f fc = retVal q f fc := by intro fc; unfold retVal; rw [hs]
    simp only [Spec.observe, h.loaded, h.mem, hmc, hrv]
  | load i => simp only [Spec.observe, h.loaded]
  | unload i => simp only [Spec.observe, h.loaded]
  | poke a b => simp only [Spec.observe, h.mem]
  | _ => rfl

/-- C16: a check changes no later result: with or without a check at some point, every later operation other than
checks and error getters has the same observation (returned values, terminations). -/
theorem C16_check_changes_no_result (hk : runRev cfg m0 (k ++ p) = .ok s) (hk' : runRev cfg m0 (k ++ .check :: p) = .ok t)
    (hlen : (k ++ p).length + 2 < 2 ^ 32) (op : Op)
    (h1 : op ≠ .check) (h2 : op ≠ .getStr) (h3 : op ≠ .getArr) :
    observe cfg m0 (k ++ .check :: p) op = observe cfg m0 (k ++ p) op ∧ t.mem = s.mem := by
  have hsame : SameButErrs cfg m0 (k ++ .check :: p) (k ++ p) := by
    clear hk hk' hlen
    induction k with
    | nil => exact ⟨rfl, fun _ => rfl, rfl, rfl, fun f => (check_same f).1, fun f => (check_same f).2⟩
    | cons o k ih => exact ih.cons o
  have hlen' : (k ++ .check :: p).length + 1 < 2 ^ 32 := by
    simp only [List.length_append, List.length_cons] at hlen ⊢; omega
  obtain ⟨a1, l1⟩ := run_sim (by omega) hk
  obtain ⟨a2, l2⟩ := run_sim (by omega) hk'
  refine ⟨?_, by rw [a1.mem, a2.mem, hsame.mem]⟩
  rw [observe_eq cfg m0 _ op l1 (by omega) (fun h => (h3 h).elim), observe_eq cfg m0 _ op l2 hlen' (fun h => (h3 h).elim)]
  exact hsame.observe op h1 h2 h3

/-- C16: a check made too early does change later verdicts: the numbers it reports stay in the log. -/
theorem C16_premature_check_poisons : ∃ (cfg : Cfg) (m0 : Mem) (p q : List Op),
    observe cfg m0 (q ++ p) .check = .ok (.verdict true) ∧ observe cfg m0 (q ++ .check :: p) .check = .ok (.verdict false) :=
  ⟨Demo.cfg, Demo.m0, Demo.hist, [.call Demo.h (Demo.cH 3), .call Demo.g Demo.cG], by decide +kernel, by decide +kernel⟩

/-! ## C17 -/

/-- C17: registering a mock file again changes nothing. -/
theorem C17_register_idempotent (s : State) (i : Nat) : (s.registerMock i).registerMock i = s.registerMock i := by
  unfold State.registerMock
  congr 1
  funext j
  by_cases h : j = i <;> simp [h]

/-- C17: unregistering undoes registering (on a file that was not registered), and does not concern other files. -/
theorem C17_unregister (s : State) (i : Nat) :
    ((s.registerMock i).unregisterMock i).reg i = false ∧
    (∀ j, j ≠ i → ((s.registerMock i).unregisterMock i).reg j = s.reg j) := by
  refine ⟨by simp [State.unregisterMock], fun j h => by simp [State.unregisterMock, State.registerMock, h]⟩

/-- C17 (order checking off or not): after a file was unloaded, as long as it is not loaded again, a check looks at the
recorded errors and at the functions of the other loaded files only. -/
theorem C17_unloaded_file_not_checked (hr : runRev cfg m0 (k ++ .unload i :: p) = .ok s) (hlen : (k ++ .unload i :: p).length + 1 < 2 ^ 32)
    (hk : Op.load i ∉ k) :
    ∃ s' b, step cfg s .check = .ok (s', .verdict b) ∧
      (b = true ↔ s.errs = [] ∧ ∀ f fc, cfg.fn? f = some fc → f.file ≠ i → loaded f.file (k ++ .unload i :: p) = true →
        (exps f (k ++ .unload i :: p)).length = calls f (k ++ .unload i :: p)) ∧
      (∀ x ∈ s'.errs.drop s.errs.length, ∃ f, f.file ≠ i ∧ x.kind = .count (cfg.name f) (exps f (k ++ .unload i :: p)).length (calls f (k ++ .unload i :: p))) := by
  have hun : loaded i (k ++ .unload i :: p) = false := by
    clear hr hlen
    induction k with
    | nil => simp [Spec.loaded]
    | cons op k ih =>
      have ih := ih (fun h => hk (by simp [h]))
      cases op with
      | load j =>
        have : j ≠ i := fun e => hk (by simp [e])
        simpa [Spec.loaded, this] using ih
      | unload j => by_cases e : j = i <;> simp [Spec.loaded, e] <;> exact ih
      | _ => exact ih
  obtain ⟨s', b, h1, h2⟩ := C03_verdict_exact hr hlen
  obtain ⟨s'', b', g1, g2, _, _, _, g3⟩ := C03_check_reports hr hlen
  rw [h1] at g1; cases g1
  refine ⟨s', b, h1, ?_, ?_⟩
  · rw [h2]
    refine and_congr Iff.rfl ⟨fun h f fc hf _ => h f fc hf, fun h f fc hf hld => ?_⟩
    refine h f fc hf (fun e => ?_) hld
    rw [e, hun] at hld; simp at hld
  · intro x hx
    rw [g2, List.drop_left] at hx
    simp only [List.mem_map, List.mem_filter] at hx
    obtain ⟨f, ⟨hf, _⟩, rfl⟩ := hx
    refine ⟨f, fun e => ?_, rfl⟩
    have := ((g3 f).mp hf).2
    rw [e, hun] at this; simp at this

/-- C17: loading or unloading a file leaves the functions of the other files alone, and the recorded errors. -/
theorem C17_other_files_unaffected (hr : runRev cfg m0 p = .ok s) (hlen : p.length + 1 < 2 ^ 32) {op : Op} {i : Nat}
    (hop : op = .load i ∨ op = .unload i) {s' : State} {o : Out} (hst : step cfg s op = .ok (s', o)) :
    (∀ f, f.file ≠ i → exps f (op :: p) = exps f p ∧ calls f (op :: p) = calls f p ∧ loaded f.file (op :: p) = loaded f.file p) ∧
    s'.errs = s.errs ∧ s'.mem = s.mem ∧ s'.order = s.order ∧ s'.fifo = s.fifo ∧
    (∀ f, f.file = i → exps f (op :: p) = [] ∧ calls f (op :: p) = 0) := by
  obtain ⟨h1, _⟩ := run_sim (by omega) hr
  obtain ⟨h2, _⟩ := run_sim (past := op :: p) (by simpa using hlen) (runRev_cons hr hst)
  rw [h2.errs, h1.errs, h2.mem, h1.mem, h2.order, h1.order, h2.fifo, h1.fifo]
  rcases hop with rfl | rfl
  · refine ⟨fun f hf => ?_, rfl, rfl, rfl, rfl, fun f hf => by simp [hf]⟩
    simp [Ne.symm hf, Spec.loaded]
  · refine ⟨fun f hf => ?_, rfl, rfl, rfl, rfl, fun f hf => by simp [hf]⟩
    simp [Ne.symm hf, Spec.loaded]

/-- C17, partial: with order checking off, an unloaded file has no influence at all on the other functions: whatever
operations on functions of other files follow, a call behaves as in a history in which the file's operations are
missing. What is missing: with order checking on this is false, see `C17_unload_leaves_order_queue`. -/
theorem C17_unload_no_influence_partial {q : List Op} (hr : runRev cfg m0 p = .ok s) (hq : runRev cfg m0 q = .ok t)
    (hlen : p.length + 1 < 2 ^ 32) (hlenq : q.length + 1 < 2 ^ 32) (hoff : s.order = false) {i : Nat}
    {f : FnId} (hf : f.file ≠ i)
    (hq' : q = p.filter (fun op => match op with
      | .expect g _ _ => g.file != i | .call g _ => g.file != i | .load j => j != i | .unload j => j != i | _ => true))
    (hmem : s.mem = t.mem) (c : Call) :
    (∃ s' t' o new, step cfg s (.call f c) = .ok (s', o) ∧ step cfg t (.call f c) = .ok (t', o) ∧ s'.mem = t'.mem ∧
      s'.errs = s.errs ++ new ∧ t'.errs = t.errs ++ new) ∨
    (step cfg s (.call f c) = .ub ∧ step cfg t (.call f c) = .ub) := by
  refine C08_call_independent hr hq hlen hlenq hoff ?_ hmem c
  rw [hq', List.filter_filter]
  congr 1
  funext op
  cases op with
  | expect g e a =>
    by_cases h : g = f
    · subst h; simp [concerns, hf]
    · simp [concerns, h]
  | call g e =>
    by_cases h : g = f
    · subst h; simp [concerns, hf]
    · simp [concerns, h]
  | load j =>
    by_cases h : j = f.file
    · subst h; simp [concerns, hf]
    · simp [concerns, h]
  | unload j =>
    by_cases h : j = f.file
    · subst h; simp [concerns, hf]
    · simp [concerns, h]
  | _ => simp [concerns]

/-- C17, refuted part: with order checking on, unloading a file leaves its expectations in the order queue, so a correct
test of another file fails. -/
theorem C17_unload_leaves_order_queue : ∃ (cfg : Cfg) (m0 : Mem) (p : List Op) (f g : FnId) (e e' : Exp) (c : Call),
    f.file ≠ g.file ∧ order p = true ∧
    observe cfg m0 (.call g c :: .expect g e' true :: p) .check = .ok (.verdict true) ∧
    observe cfg m0 (.call g c :: .expect g e' true :: .unload f.file :: .expect f e true :: p) .check = .ok (.verdict false) ∧
    observe cfg m0 (.unload f.file :: .expect f e true :: p) .check = .ok (.verdict true) :=
  ⟨Demo.cfg, Demo.m0, Demo.boot, Demo.f, Demo.h, Demo.eF 1 1, Demo.eH 3 30, Demo.cH 3, by decide, rfl,
    by decide +kernel, by decide +kernel, by decide +kernel⟩

/-- An unloaded file with open expectations does not make the check fail. -/
example : observe Demo.cfg Demo.m0 (.unload 0 :: .unload 1 :: Demo.hist) .check = .ok (.verdict true) ∧
    observe Demo.cfg Demo.m0 Demo.hist .check = .ok (.verdict false) := by decide +kernel

/-! ## C18 -/

theorem fmtD_small {n : Nat} (h : n < 2 ^ 31) : fmtD n = toString n := by
  unfold fmtD; rw [if_pos h]

/-- Where an error comes from: the operation that recorded it and the numbers it carries. -/
def Origin (cfg : Cfg) (past : List Op) (x : Err) : Prop :=
  ∃ k op p, past = k ++ op :: p ∧ Op.init ∉ k ∧
    match x.kind with
    | .unexpected n _ => ∃ f c, op = .call f c ∧ cfg.name f = n ∧ (exps f p).length ≤ calls f p
    | .mismatch ord n _ => ∃ f c, op = .call f c ∧ cfg.name f = n ∧ ord = calls f p + 1 ∧ calls f p < (exps f p).length
    | .badInstance ord n _ _ => ∃ f c, op = .call f c ∧ cfg.name f = n ∧ ord = calls f p + 1 ∧ calls f p < (exps f p).length
    | .order n _ => ∃ f c, op = .call f c ∧ cfg.name f = n ∧ calls f p < (exps f p).length
    | .count n a b => op = .check ∧ ∃ f, cfg.name f = n ∧ a = (exps f p).length ∧ b = calls f p ∧ a ≠ b
    | _ => False

theorem Origin.mono {x : Err} {op : Op} (h : Origin cfg p x) (ho : op ≠ .init) : Origin cfg (op :: p) x := by
  obtain ⟨k, o, q, h1, h2, h3⟩ := h
  refine ⟨op :: k, o, q, by rw [h1]; rfl, ?_, h3⟩
  simp only [List.mem_cons, not_or]
  exact ⟨fun e => ho e.symm, h2⟩

/-- C18: every error in the log was recorded by an operation since the last init. An argument or object error carries
the ordinal of the call (the number of calls of that function since its last reset, counting this one), a count error
carries the numbers of expectations and of calls of that function since its last reset, at the time of the check. -/
theorem C18_numbers_right (hr : runRev cfg m0 past = .ok s) (hlen : past.length < 2 ^ 32) :
    ∀ x ∈ s.errs, Origin cfg past x := by
  obtain ⟨h, hl⟩ := run_sim hlen hr
  rw [h.errs]
  clear h hr hlen
  induction past with
  | nil => intro x hx; simp [Spec.errs] at hx
  | cons op past ih =>
    have ih := ih hl.1
    intro x hx
    cases op with
    | init => simp [Spec.errs] at hx
    | call f c =>
      obtain ⟨fc, hf, hld⟩ := legal_fn? hl
      simp only [Spec.errs, hf, List.mem_append, List.mem_map] at hx
      rcases hx with hx | ⟨kd, hk, rfl⟩
      · exact (ih x hx).mono (by simp)
      · refine ⟨[], .call f c, past, rfl, by simp, ?_⟩
        unfold callErrs at hk
        have hsv := serving_isSome f past
        cases hs : serving f past with
        | none =>
          rw [hs] at hk hsv; simp at hk hsv; subst hk
          exact ⟨f, c, rfl, name_eq hf, hsv⟩
        | some e =>
          rw [hs] at hk hsv
          simp at hsv
          simp only [List.mem_append, List.mem_map] at hk
          rcases hk with (hk | ⟨m, _, rfl⟩) | hk
          · split at hk
            · simp at hk; subst hk; exact ⟨f, c, rfl, name_eq hf, rfl, hsv⟩
            · simp at hk
          · exact ⟨f, c, rfl, name_eq hf, rfl, hsv⟩
          · split at hk
            · simp at hk; subst hk; exact ⟨f, c, rfl, name_eq hf, hsv⟩
            · simp at hk
    | check =>
      simp only [Spec.errs, List.mem_append, List.mem_map] at hx
      rcases hx with hx | ⟨kd, hk, rfl⟩
      · exact (ih x hx).mono (by simp)
      · refine ⟨[], .check, past, rfl, by simp, ?_⟩
        unfold checkErrs at hk
        simp only [List.mem_filterMap] at hk
        obtain ⟨f, hm, hk⟩ := hk
        split at hk
        · simp at hk
        · rename_i hne
          simp at hk; subst hk
          exact ⟨rfl, f, rfl, rfl, rfl, hne⟩
    | _ => exact (ih x hx).mono (by simp)

/-- C18: the numbers are printed in decimal as long as they are below 2^31. -/
theorem C18_numbers_printed {k a b : Nat} (n m : String) (hk : k < 2 ^ 31) (ha : a < 2 ^ 31) (hb : b < 2 ^ 31) :
    (ErrKind.mismatch k n m).render = "Error : at call " ++ toString k ++ " of '" ++ n ++ "': " ++ m ∧
    (ErrKind.count n a b).render = "Error: For function '" ++ n ++ "' bad number of call. Expected " ++ toString a ++ ", got " ++ toString b := by
  refine ⟨?_, ?_⟩
  · show "Error : at call " ++ fmtD k ++ _ ++ _ ++ _ ++ _ = _; rw [fmtD_small hk]
  · show "Error: For function '" ++ n ++ _ ++ fmtD a ++ _ ++ fmtD b = _; rw [fmtD_small ha, fmtD_small hb]

/-- C02: the text of an unexpected-call error names the called function. -/
theorem C02_message (n : String) (f : String) :
    (ErrKind.unexpected n none).render = "Error : unexpected call of '" ++ n ++ "'." ∧
    (ErrKind.unexpected n (some f)).render = "Error : unexpected call of '" ++ n ++ "'." ++ (" " ++ f ++ " is returning a random value.") := by
  refine ⟨?_, rfl⟩
  show _ ++ "" = _
  exact String.append_empty

/-- C04: the text of an order error names the call received first and the call expected second. -/
theorem C04_order_message (got exp : String) :
    (ErrKind.order got exp).render = "Error : got call to '" ++ got ++ "',  but was expecting call to '" ++ exp ++ "'" := rfl

/-- C55: the text of an object error names the expected and the actual object. -/
theorem C55_message {k : Nat} (n : String) (e g : Addr) (hk : k < 2 ^ 31) :
    (ErrKind.badInstance k n e g).render = "Error : at call " ++ toString k ++ " of '" ++ n ++ "': " ++ "Expecting this object being " ++
      ("0x" ++ String.ofList (Nat.toDigits 16 e)) ++ ", got this = " ++ ("0x" ++ String.ofList (Nat.toDigits 16 g)) ++ "\n" := by
  rw [← fmtD_small hk]
  rfl

/-- C15: the text handed out for an error is its message, followed by the back trace when one was requested. -/
theorem C15_text (k : ErrKind) (b : String) :
    (Err.mk k none).render = k.render ∧ (Err.mk k (some b)).render = k.render ++ "\n\r" ++ b := ⟨rfl, rfl⟩

/-- C18: above that bound they are printed as negative numbers. -/
theorem C18_bound_needed : fmtD (2 ^ 31) = "-2147483648" := by decide +kernel

example : ∃ s, runRev Demo.cfg Demo.m0 (.check :: Demo.hist) = .ok s ∧ s.errs ≠ [] := by
  obtain ⟨s, hs⟩ := Demo.of_isOk (r := runRev Demo.cfg Demo.m0 (.check :: Demo.hist)) (by decide +kernel)
  refine ⟨s, hs, ?_⟩
  rw [(run_sim (by decide) hs).1.errs]
  decide +kernel

/-! ## C19 -/

theorem calls_mono {f : FnId} (hk : ∀ op ∈ k, resets f op = false) : calls f p ≤ calls f (k ++ p) := by
  induction k with
  | nil => simp
  | cons op k ih =>
    have := ih (fun o ho => hk o (by simp [ho]))
    rw [List.cons_append, calls_cons, hk op (by simp)]
    simp only [Bool.false_eq_true, if_false]
    omega

/-- C19: after a call for which no expectation was registered yet, every check until `init` fails, whatever expectations
are added; and the expectation registered at the position of that call never serves a call: later calls are served by
later expectations only. -/
theorem C19_early_call_not_forgiven (hr : runRev cfg m0 (k ++ .call f c :: p) = .ok s)
    (hlen : (k ++ .call f c :: p).length + 1 < 2 ^ 32) (hearly : (exps f p).length ≤ calls f p) :
    (Op.init ∉ k → observe cfg m0 (k ++ .call f c :: p) .check = .ok (.verdict false)) ∧
    ((∀ op ∈ k, resets f op = false) → ∀ e, serving f (k ++ .call f c :: p) = some e →
      ∃ j, calls f p < j ∧ (exps f (k ++ .call f c :: p))[j]? = some e) := by
  refine ⟨fun hinit => ?_, fun hk e he => ?_⟩
  · obtain ⟨s1, hs1⟩ := runRev_prefix hr
    obtain ⟨s0, hs0⟩ := runRev_prefix (k := [.call f c]) hs1
    refine C16_failure_sticky hs1 ?_ hr hlen hinit
    simp only [List.length_append, List.length_cons] at hlen
    obtain ⟨h1, l1⟩ := run_sim (past := .call f c :: p) (by simp; omega) hs1
    obtain ⟨fc, hf, hld⟩ := legal_fn? l1
    rw [h1.errs]
    simp only [Spec.errs, hf]
    have : serving f p = none := List.getElem?_eq_none hearly
    simp [callErrs, this]
  · refine ⟨calls f (k ++ .call f c :: p), ?_, he⟩
    have := calls_mono (p := .call f c :: p) hk
    rw [calls_call] at this
    simp at this
    omega

/-- An early call, then an expectation that evens up the numbers: the check still fails. -/
example : Demo.isOk (runRev Demo.cfg Demo.m0 [.expect Demo.g {} true, .call Demo.g {}, .load 0]) = true ∧
    (exps Demo.g [.load 0]).length ≤ calls Demo.g [.load 0] ∧
    observe Demo.cfg Demo.m0 [.expect Demo.g {} true, .call Demo.g {}, .load 0] .check = .ok (.verdict false) := by decide +kernel

/-! ## C20 -/

/-- Expectations registered since the last init. -/
def registered : List Op → Nat
  | [] => 0
  | .init :: _ => 0
  | .expect _ _ _ :: p => registered p + 1
  | _ :: p => registered p

/-- Expectations consumed by expected calls since the last init. -/
def consumed : List Op → Nat
  | [] => 0
  | .init :: _ => 0
  | .call f _ :: p => consumed p + (if calls f p < (exps f p).length then 1 else 0)
  | _ :: p => consumed p

/-- C20: the order queue holds exactly one entry per expectation registered and not consumed since the last init. -/
theorem C20_queue_length (hr : runRev cfg m0 past = .ok s) (hlen : past.length < 2 ^ 32) :
    s.fifo.length + consumed past = registered past := by
  obtain ⟨h, hl⟩ := run_sim hlen hr
  rw [h.fifo]
  clear h hr hlen
  induction past with
  | nil => rfl
  | cons op past ih =>
    have ih := ih hl.1
    cases op with
    | expect f e a => simp only [Spec.fifo, registered, consumed, List.length_append, List.length_cons, List.length_nil]; omega
    | call f c =>
      obtain ⟨fc, hf, hld⟩ := legal_fn? hl
      have hne := fifo_ne_nil hl.1 (f := f) (by simp [Valid, hf])
      simp only [Spec.fifo, registered, consumed, serving_isSome] at hne ⊢
      by_cases hs : calls f past < (exps f past).length
      · simp only [hs, decide_true, if_true, List.length_tail]
        have : fifo cfg past ≠ [] := hne (by simp [hs])
        have := List.length_pos_iff.mpr this
        omega
      · simp only [hs, decide_false, if_false]
        exact ih
    | init => rfl
    | _ => exact ih

/-- The functions of the expectations registered since the last init, oldest first. -/
def regs : List Op → List FnId
  | [] => []
  | .init :: _ => []
  | .expect f _ _ :: p => regs p ++ [f]
  | _ :: p => regs p

/-- What is left of a registration list when function `f` was called `c f` times: the first `c f` entries of each `f`
are gone. -/
def left (c : FnId → Nat) : List FnId → List FnId
  | [] => []
  | f :: r => if c f = 0 then f :: left c r else left (fun g => if g = f then c g - 1 else c g) r

theorem left_snoc (l : List FnId) (f : FnId) : ∀ c : FnId → Nat, c f ≤ l.count f → left c (l ++ [f]) = left c l ++ [f] := by
  induction l with
  | nil => intro c h; simp at h; simp [left, h]
  | cons a l ih =>
    intro c h
    simp only [List.cons_append, left]
    by_cases ha : c a = 0
    · rw [if_pos ha, if_pos ha, ih c]
      · rfl
      · rw [List.count_cons] at h
        by_cases e : a = f
        · subst e; omega
        · simpa [e] using h
    · rw [if_neg ha, if_neg ha, ih]
      rw [List.count_cons] at h
      by_cases e : f = a
      · subst e; simp at h ⊢; omega
      · have e' : a ≠ f := fun hh => e hh.symm
        simpa [e, e'] using h

theorem left_call (l : List FnId) : ∀ (c : FnId → Nat) (f : FnId) (r : List FnId), left c l = f :: r →
    left (fun g => c g + (if g = f then 1 else 0)) l = r := by
  induction l with
  | nil => intro c f r h; simp [left] at h
  | cons a l ih =>
    intro c f r h
    simp only [left] at h ⊢
    by_cases ha : c a = 0
    · rw [if_pos ha] at h
      simp only [List.cons.injEq] at h
      obtain ⟨rfl, rfl⟩ := h
      rw [if_neg (by simp)]
      congr 1
      funext g
      by_cases e : g = a <;> simp [e]
    · rw [if_neg ha] at h
      rw [if_neg (by omega)]
      have := ih _ f r h
      rw [← this]
      congr 1
      funext g
      by_cases e : g = a
      · subst e; simp only [if_true]; omega
      · simp [e]

theorem mem_left (l : List FnId) : ∀ (c : FnId → Nat) (f : FnId), f ∈ left c l → f ∈ l := by
  induction l with
  | nil => intro c f h; simp [left] at h
  | cons a l ih =>
    intro c f h
    simp only [left] at h
    split at h
    · rcases List.mem_cons.mp h with rfl | h
      · simp
      · simp [ih c f h]
    · simp [ih _ f h]

theorem left_init (l : List FnId) : left (fun _ => 0) l = l := by
  induction l with
  | nil => rfl
  | cons a l ih => simp [left, ih]

/-- C20: while the order is checked and nothing went wrong since the last init (no error recorded, no file unloaded), the
order queue lists exactly the pending expectations, in the order of their registration. -/
theorem C20_queue_content (hd : DistinctNames cfg) (hr : runRev cfg m0 (k ++ .init :: p) = .ok s) (hlen : (k ++ .init :: p).length < 2 ^ 32)
    (ho : order p = true) (hso : ∀ b, Op.setOrder b ∉ k) (hun : ∀ i, Op.unload i ∉ k) (hin : Op.init ∉ k) (herr : s.errs = []) :
    s.fifo = (left (fun f => calls f (k ++ .init :: p)) (regs (k ++ .init :: p))).map cfg.name := by
  obtain ⟨h, hl⟩ := run_sim hlen hr
  rw [h.errs] at herr
  rw [h.fifo]
  clear h hr hlen
  suffices hmain : fifo cfg (k ++ .init :: p) = (left (fun f => calls f (k ++ .init :: p)) (regs (k ++ .init :: p))).map cfg.name ∧
      (∀ f, (regs (k ++ .init :: p)).count f = (exps f (k ++ .init :: p)).length) ∧
      (∀ f, calls f (k ++ .init :: p) ≤ (exps f (k ++ .init :: p)).length) ∧
      (∀ f ∈ regs (k ++ .init :: p), Valid cfg f) by exact hmain.1
  induction k with
  | nil =>
    refine ⟨?_, fun f => ?_, fun f => ?_, fun f hf => ?_⟩
    · simp [Spec.fifo, regs, left]
    · simp [regs]
    · simp
    · simp [regs] at hf
  | cons op k ih =>
    have hq : order (k ++ .init :: p) = true := by
      rw [order_append k _ (fun b hb => hso b (by simp [hb]))]; exact ho
    have herr' : errs cfg m0 (k ++ .init :: p) = [] := by
      obtain ⟨new, e⟩ := errs_append cfg m0 [op] (k ++ .init :: p) (by
        simp only [List.mem_singleton]; intro e; exact hin (by simp [e]))
      rw [List.cons_append] at herr
      rw [show [op] ++ (k ++ .init :: p) = op :: (k ++ .init :: p) from rfl, herr] at e
      exact (List.append_eq_nil_iff.mp e.symm).1
    obtain ⟨i1, i2, i3, i4⟩ := ih (fun b hb => hso b (by simp [hb])) (fun i hi => hun i (by simp [hi]))
      (fun hi => hin (by simp [hi])) herr' hl.1
    rw [List.cons_append] at herr hl ⊢
    cases op with
    | init => exact (hin (by simp)).elim
    | unload i => exact (hun i (by simp)).elim
    | setOrder b => exact (hso b (by simp)).elim
    | expect f e a =>
      have hv : Valid cfg f := by
        obtain ⟨_, o, hob⟩ := hl
        unfold Valid
        cases hf : cfg.fn? f with
        | none => simp [Spec.observe, hf] at hob
        | some _ => rfl
      simp only [Spec.fifo, regs, calls_expect, exps_expect]
      refine ⟨?_, fun g => ?_, fun g => ?_, fun g hg => ?_⟩
      · rw [left_snoc _ _ _ (by rw [i2]; exact i3 f), i1, List.map_append]; rfl
      · rw [List.count_append, i2]
        by_cases e : f = g <;> simp [e]
      · have := i3 g
        by_cases e : f = g
        · subst e; simp; omega
        · simp [e]; exact this
      · rcases List.mem_append.mp hg with hg | hg
        · exact i4 g hg
        · simp at hg; subst hg; exact hv
    | call f c =>
      obtain ⟨fc, hf, hld⟩ := legal_fn? hl
      simp only [Spec.errs, hf, List.append_eq_nil_iff, List.map_eq_nil_iff] at herr
      obtain ⟨e, hsv, _, _, hord⟩ := callErrs_nil_iff.mp herr.2
      have hlt : calls f (k ++ .init :: p) < (exps f (k ++ .init :: p)).length := by
        have := serving_isSome f (k ++ .init :: p)
        rw [hsv] at this; simpa using this.symm
      have hhead : (fifo cfg (k ++ .init :: p)).head? = some fc.name := by
        apply Classical.byContradiction
        intro hh; exact hord ⟨hq, hh⟩
      simp only [Spec.fifo, hsv, Option.isSome_some, if_true, regs]
      cases hL : left (fun f => calls f (k ++ .init :: p)) (regs (k ++ .init :: p)) with
      | nil => rw [i1, hL] at hhead; simp at hhead
      | cons g r =>
        have hg : g = f := by
          rw [i1, hL] at hhead
          simp only [List.map_cons, List.head?_cons, Option.some.injEq] at hhead
          have hvg := i4 g (mem_left _ _ _ (by rw [hL]; simp))
          obtain ⟨gc, hgc⟩ := Option.isSome_iff_exists.mp hvg
          rw [name_eq hgc] at hhead
          exact hd g f gc fc hgc hf hhead
        subst hg
        refine ⟨?_, fun g' => ?_, fun g' => ?_, fun g' hg => i4 g' hg⟩
        · have h1 := left_call _ _ _ _ hL
          have h2 : (fun x => calls x (.call g c :: (k ++ .init :: p))) = fun x => calls x (k ++ .init :: p) + (if x = g then 1 else 0) := by
            funext x
            rw [calls_call]
            by_cases e : g = x
            · simp [e]
            · simp [e, Ne.symm e]
          rw [h2, h1, i1, hL]; rfl
        · rw [exps_call]; exact i2 g'
        · rw [exps_call, calls_call]
          have := i3 g'
          by_cases e : g = g'
          · subst e; simp; omega
          · simpa [e] using this
    | load i =>
      have hnl : loaded i (k ++ .init :: p) = false := by
        obtain ⟨_, o, hob⟩ := hl
        simp only [Spec.observe] at hob
        split at hob
        · simp at hob
        · rename_i h; simp only [not_or] at h; simpa using h.1
      have hfr : ∀ f : FnId, f.file = i → exps f (k ++ .init :: p) = [] ∧ calls f (k ++ .init :: p) = 0 := by
        intro f hf; exact fresh_of_unloaded hl.1 f (by rw [hf]; exact hnl)
      have hex : ∀ f, exps f (.load i :: (k ++ .init :: p)) = exps f (k ++ .init :: p) := by
        intro f; rw [exps_load]; split
        · rename_i h; exact (hfr f h.symm).1.symm
        · rfl
      have hcl : ∀ f, calls f (.load i :: (k ++ .init :: p)) = calls f (k ++ .init :: p) := by
        intro f; rw [calls_load]; split
        · rename_i h; exact (hfr f h.symm).2.symm
        · rfl
      simp only [hex, hcl, Spec.fifo, regs]
      exact ⟨i1, i2, i3, i4⟩
    | check => simp only [exps_check, calls_check, Spec.fifo, regs]; exact ⟨i1, i2, i3, i4⟩
    | setPrint b => simp only [exps_setPrint, calls_setPrint, Spec.fifo, regs]; exact ⟨i1, i2, i3, i4⟩
    | getStr => simp only [exps_getStr, calls_getStr, Spec.fifo, regs]; exact ⟨i1, i2, i3, i4⟩
    | getArr => simp only [exps_getArr, calls_getArr, Spec.fifo, regs]; exact ⟨i1, i2, i3, i4⟩
    | poke a b => simp only [exps_poke, calls_poke, Spec.fifo, regs]; exact ⟨i1, i2, i3, i4⟩

/-- After one served call of the demo's three expectations two are left, in order. -/
example : fifo Demo.cfg Demo.hist = ["void g()", "int K::h(int a)"] ∧ errs Demo.cfg Demo.m0 Demo.hist = [] ∧
    (left (fun f => calls f Demo.hist) (regs Demo.hist)) = [Demo.g, Demo.h] ∧ registered Demo.hist = 3 ∧ consumed Demo.hist = 1 := by
  decide +kernel

end

end EasyMock
