import Verif.Framework.Scenario

/-! One operation on a reachable state, stated with the state's own fields. -/

namespace EasyMock
open Spec

section
variable {cfg : Cfg} {m0 : Mem} {past : List Op} {s : State}

/-- The errors of a served call, as log entries. -/
def servedErrs (cfg : Cfg) (s : State) (fc : FnCfg) (k : Nat) (e : Exp) (c : Call) : List Err :=
  ((if fc.isMember = true ∧ e.inst ≠ 0 ∧ e.inst ≠ c.this then [ErrKind.badInstance k fc.name e.inst c.this] else []) ++
   (matchErrs s.mem (zip3 fc.paramNames e.params c.args)).map (ErrKind.mismatch k fc.name) ++
   (if s.order = true ∧ s.fifo.head? ≠ some fc.name then [ErrKind.order fc.name (s.fifo.head?.getD "")] else [])).map
    (fun kind => ⟨kind, if cfg.backtrace = true ∧ s.print = true then some c.bt else none⟩)

theorem outOfOrder_iff (h : Sim cfg m0 past s) (fc : FnCfg) :
    (outOfOrder cfg past fc = true) ↔ (s.order = true ∧ s.fifo.head? ≠ some fc.name) := by
  unfold outOfOrder; rw [h.order, h.fifo]; simp

theorem pcs_iff (h : Sim cfg m0 past s) (bt : String) :
    (if (cfg.backtrace && Spec.print past) = true then some bt else none) =
    (if cfg.backtrace = true ∧ s.print = true then some bt else none) := by
  cases hb : cfg.backtrace with
  | false => simp
  | true => simp [h.print hb]

theorem servedErrs_eq (h : Sim cfg m0 past s) {f : FnId} {fc : FnCfg} {e : Exp} (hs : serving f past = some e) (c : Call) :
    (callErrs cfg m0 past f fc c).map (fun k => (⟨k, if (cfg.backtrace && Spec.print past) = true then some c.bt else none⟩ : Err)) =
    servedErrs cfg s fc (calls f past + 1) e c := by
  unfold servedErrs
  rw [callErrs_served hs, pcs_iff h, ← h.mem]
  congr 2
  by_cases ho : s.order = true ∧ s.fifo.head? ≠ some fc.name
  · rw [if_pos ho, if_pos ((outOfOrder_iff h fc).mpr ho), h.fifo]
  · rw [if_neg ho, if_neg (fun hh => ho ((outOfOrder_iff h fc).mp hh))]

theorem step_call_served (hr : runRev cfg m0 past = .ok s) (hlen : past.length + 1 < 2 ^ 32)
    {f : FnId} {fc : FnCfg} (hf : cfg.fn? f = some fc) (hld : loaded f.file past = true) {e : Exp}
    (hs : serving f past = some e) (c : Call) :
    match (if s.order = true ∧ s.fifo.head? ≠ some fc.name then some s.mem else copyAll s.mem (copies fc.outs e.outs c.outs)) with
    | none => step cfg s (.call f c) = .ub
    | some m' => ∃ s', step cfg s (.call f c) = .ok (s', .ret (fc.ret.map fun _ => e.ret)) ∧
        s'.errs = s.errs ++ servedErrs cfg s fc (calls f past + 1) e c ∧
        s'.mem = m' ∧ s'.fifo = s.fifo.tail ∧ s'.order = s.order ∧ s'.print = s.print ∧ s'.reg = s.reg ∧
        s'.loaded = s.loaded ∧ Sim cfg m0 (.call f c :: past) s' := by
  obtain ⟨h, hl⟩ := run_sim (by omega) hr
  obtain ⟨mocks, heap, hm, e1⟩ := callFn_served h hl hlen hf hs c
  have hlds : s.loaded f.file = true := by rw [h.loaded]; exact hld
  have hmc : memCall cfg past (mem cfg m0 past) f fc c =
      if s.order = true ∧ s.fifo.head? ≠ some fc.name then some s.mem else copyAll s.mem (copies fc.outs e.outs c.outs) := by
    unfold memCall; rw [hs, ← h.mem]
    by_cases ho : s.order = true ∧ s.fifo.head? ≠ some fc.name
    · simp only [if_pos ho, if_pos ((outOfOrder_iff h fc).mpr ho)]
    · simp only [if_neg ho, if_neg (fun hh => ho ((outOfOrder_iff h fc).mp hh))]
  rw [hmc] at e1
  have hst := sim_step h hl hlen (.call f c)
  have hobs : Spec.observe cfg m0 past (.call f c) =
      if (memCall cfg past (mem cfg m0 past) f fc c).isNone then .ub else .ok (.ret (retVal past f fc)) := by
    simp only [Spec.observe, hf, hld, Bool.true_eq_false, if_false]
  rw [hobs, hmc] at hst
  cases hx : (if s.order = true ∧ s.fifo.head? ≠ some fc.name then some s.mem else copyAll s.mem (copies fc.outs e.outs c.outs)) with
  | none => rw [hx] at hst; simpa using hst
  | some m' =>
    rw [hx] at e1 hst
    simp only [Option.isNone_some, Bool.false_eq_true, if_false] at hst
    obtain ⟨s', o', h1, h2, h3⟩ := hst
    have h4 : step cfg s (.call f c) = .ok ({ s with mocks := mocks, heap := heap, fifo := (fifo cfg past).tail, errs := errs cfg m0 (.call f c :: past), mem := m' }, .ret (fc.ret.map fun _ => e.ret)) := by
      simp only [step, hf, hlds, if_true, e1, Res.bind_ok]
    rw [h4] at h1
    cases h1
    refine ⟨_, h4, ?_, rfl, by rw [h.fifo], rfl, rfl, rfl, rfl, h2⟩
    simp only [Spec.errs, hf]
    rw [← h.errs, servedErrs_eq h hs]

theorem step_call_unserved (hr : runRev cfg m0 past = .ok s) (hlen : past.length + 1 < 2 ^ 32)
    {f : FnId} {fc : FnCfg} (hf : cfg.fn? f = some fc) (hld : loaded f.file past = true)
    (hs : serving f past = none) (c : Call) :
    ∃ s', step cfg s (.call f c) = .ok (s', .ret (fc.ret.map fun n => List.replicate n 0)) ∧
      s'.errs = s.errs ++ [⟨.unexpected fc.name (fc.ret.map fun _ => fc.shortName),
        if cfg.backtrace = true ∧ s.print = true then some c.bt else none⟩] ∧
      s'.mem = s.mem ∧ s'.fifo = s.fifo ∧ s'.order = s.order ∧ s'.print = s.print ∧ s'.heap = s.heap ∧
      s'.reg = s.reg ∧ s'.loaded = s.loaded ∧ Sim cfg m0 (.call f c :: past) s' := by
  obtain ⟨h, hl⟩ := run_sim (by omega) hr
  obtain ⟨mocks, hm, e1⟩ := callFn_unserved h hlen hf hs c
  have hlds : s.loaded f.file = true := by rw [h.loaded]; exact hld
  have hst := sim_step h hl hlen (.call f c)
  have hmc : memCall cfg past (mem cfg m0 past) f fc c = some (mem cfg m0 past) := by
    unfold memCall; rw [hs]
  have hobs : Spec.observe cfg m0 past (.call f c) = .ok (.ret (retVal past f fc)) := by
    simp only [Spec.observe, hf, hld, Bool.true_eq_false, Bool.false_eq_true, if_false, hmc, Option.isNone_some]
  rw [hobs] at hst
  obtain ⟨s', o', h1, h2, h3⟩ := hst
  have h4 : step cfg s (.call f c) = .ok ({ s with mocks := mocks, errs := errs cfg m0 (.call f c :: past) },
      .ret (fc.ret.map fun n => List.replicate n 0)) := by
    simp only [step, hf, hlds, if_true, e1, Res.bind_ok]
  rw [h4] at h1
  cases h1
  refine ⟨_, h4, ?_, rfl, rfl, rfl, rfl, rfl, rfl, rfl, h2⟩
  simp only [Spec.errs, hf, callErrs, hs, List.map_cons, List.map_nil]
  rw [← h.errs, pcs_iff h]

theorem runRev_cons {op : Op} {o : Out} {s' : State} (hr : runRev cfg m0 past = .ok s) (h : step cfg s op = .ok (s', o)) :
    runRev cfg m0 (op :: past) = .ok s' := by
  simp [runRev, hr, h]

theorem runRev_prefix {k : List Op} {s' : State} (h : runRev cfg m0 (k ++ past) = .ok s') :
    ∃ s, runRev cfg m0 past = .ok s := by
  induction k generalizing s' with
  | nil => exact ⟨s', h⟩
  | cons op k ih =>
    simp only [List.cons_append, runRev] at h
    cases hs : runRev cfg m0 (k ++ past) with
    | ok t => exact ih hs
    | exit => rw [hs] at h; simp at h
    | ub => rw [hs] at h; simp at h

theorem observe_check (hr : runRev cfg m0 past = .ok s) (hlen : past.length + 1 < 2 ^ 32) :
    observe cfg m0 past .check = .ok (.verdict (verdict cfg m0 past)) := by
  obtain ⟨_, hl⟩ := run_sim (by omega) hr
  rw [observe_eq cfg m0 past .check hl hlen (by simp)]
  rfl

theorem verdict_iff : verdict cfg m0 past = true ↔ errs cfg m0 past = [] ∧
    ∀ f, Valid cfg f → loaded f.file past = true → (exps f past).length = calls f past := by
  unfold verdict
  rw [Bool.and_eq_true, List.isEmpty_iff, List.all_eq_true]
  refine and_congr Iff.rfl ⟨?_, ?_⟩
  · intro h f hv hld
    have : f ∈ liveFns cfg past := by
      unfold liveFns
      simp only [List.mem_flatMap, List.mem_filter, List.mem_range, mem_fnsOf]
      exact ⟨f.file, ⟨valid_file_lt hv, hld⟩, rfl, hv⟩
    simpa using h f this
  · intro h f hf
    unfold liveFns at hf
    simp only [List.mem_flatMap, List.mem_filter, List.mem_range, mem_fnsOf] at hf
    obtain ⟨i, ⟨_, hl⟩, rfl, hv⟩ := hf
    simpa using h f hv hl

end

end EasyMock
