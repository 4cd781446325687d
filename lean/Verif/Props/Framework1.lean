import Verif.Framework.Demo

/-!
# C01 - C05: calls, expectations, verdict, ordered and unordered mode

`past` is any history of operations, newest first; `runRev cfg m0 past = .ok s` says that it ran without ending the
process. The bound on its length keeps the 32-bit counters from wrapping (see `C11_counter_wrap`).
-/

namespace EasyMock
open Spec

section
variable {cfg : Cfg} {m0 : Mem} {past : List Op} {s : State}

/-- C01 (all operations): what any caller observes after any history is the function of the history given by the
specification. -/
theorem C01_observations_follow_history (hr : runRev cfg m0 past = .ok s) (hlen : past.length + 1 < 2 ^ 32) (op : Op)
    (harr : op = .getArr → (errs cfg m0 past).length < 2 ^ 32) :
    observe cfg m0 past op = Spec.observe cfg m0 past op :=
  observe_eq cfg m0 past op (run_sim (by omega) hr).2 hlen harr

/-- C01: the call number `k + 1` of `f` since the last reset is served by the expectation number `k + 1` of `f` since
the last reset: it returns that expectation's value, and the only things compared are that expectation's object and
matchers. The only alternative is an undefined `memcpy` requested by that expectation's output parameters. -/
theorem C01_kth_call_uses_kth_expectation (hr : runRev cfg m0 past = .ok s) (hlen : past.length + 1 < 2 ^ 32)
    {f : FnId} {fc : FnCfg} (hf : cfg.fn? f = some fc) (hld : loaded f.file past = true)
    {k : Nat} (hk : calls f past = k) {e : Exp} (he : (exps f past)[k]? = some e) (c : Call) :
    (∃ s', step cfg s (.call f c) = .ok (s', .ret (fc.ret.map fun _ => e.ret)) ∧
      s'.errs = s.errs ++ servedErrs cfg s fc (k + 1) e c) ∨
    (step cfg s (.call f c) = .ub ∧ copyAll s.mem (copies fc.outs e.outs c.outs) = none) := by
  have hs : serving f past = some e := by unfold serving; rw [hk]; exact he
  have h := step_call_served hr hlen hf hld hs c
  by_cases ho : s.order = true ∧ s.fifo.head? ≠ some fc.name
  · rw [if_pos ho] at h
    obtain ⟨s', h1, h2, _⟩ := h
    exact Or.inl ⟨s', h1, by rw [← hk]; exact h2⟩
  · rw [if_neg ho] at h
    cases hc : copyAll s.mem (copies fc.outs e.outs c.outs) with
    | none => rw [hc] at h; exact Or.inr ⟨h, rfl⟩
    | some m' =>
      rw [hc] at h
      obtain ⟨s', h1, h2, _⟩ := h
      exact Or.inl ⟨s', h1, by rw [← hk]; exact h2⟩

/-- The demo history meets the hypotheses: the first call of `h` is served by its first expectation. -/
example : ∃ s, runRev Demo.cfg Demo.m0 Demo.hist = .ok s ∧ calls Demo.h Demo.hist = 0 ∧
    (exps Demo.h Demo.hist)[0]? = some (Demo.eH 3 30) ∧
    observe Demo.cfg Demo.m0 Demo.hist (.call Demo.h (Demo.cH 3)) = .ok (.ret (some [30, 0, 0, 0])) := by
  obtain ⟨s, hs⟩ := Demo.of_isOk (r := runRev Demo.cfg Demo.m0 Demo.hist) (by decide +kernel)
  exact ⟨s, hs, by decide +kernel, rfl, by decide +kernel⟩

/-- C01 for a whole test: after `init`, any list of expectations and any interleaving of calls, the call at position
`k` returns the value of the expectation of the same function that has as many predecessors of this function in the
list of expectations as the call has in the list of calls. -/
theorem C01_interleaved_calls {p : List Op} {es : List (FnId × Exp)} {cs : List (FnId × Call)}
    (hr : runRev cfg m0 (scen p es cs) = .ok s) (hlen : (scen p es cs).length + 1 < 2 ^ 32)
    {k : Nat} {f : FnId} {c : Call} (hk : cs[k]? = some (f, c)) {fc : FnCfg} (hf : cfg.fn? f = some fc)
    {j : Nat} {e : Exp} (hj : es[j]? = some (f, e))
    (hjk : (es.take j).countP (fun x => x.1 == f) = (cs.take k).countP (fun x => x.1 == f)) :
    observe cfg m0 (scen p es (cs.take k)) (.call f c) = .ok (.ret (fc.ret.map fun _ => e.ret)) := by
  obtain ⟨_, hl⟩ := run_sim (by omega) hr
  obtain ⟨fc', hf', hld, hl2⟩ := legal_call hl hk
  rw [hf] at hf'; cases hf'
  have hlen2 : (scen p es (cs.take k)).length + 1 < 2 ^ 32 := by
    have : (scen p es (cs.take k)).length ≤ (scen p es cs).length := by
      simp only [scen, callOps, List.length_append, List.length_reverse, List.length_map, List.length_take]; omega
    omega
  rw [observe_eq cfg m0 _ _ (legal_take hl k) hlen2 (by simp)]
  have e1 : cs.take (k + 1) = cs.take k ++ [(f, c)] := by rw [List.take_add_one, hk]; rfl
  rw [e1, scen_snoc] at hl2
  obtain ⟨_, o, ho⟩ := hl2
  have hs : serving f (scen p es (cs.take k)) = some e := by
    rw [serving_scen, ← hjk]; exact nthExp_take hj
  have : o = .ret (fc.ret.map fun _ => e.ret) := by
    simp only [Spec.observe, hf, hld, Bool.true_eq_false, if_false, retVal, hs] at ho
    split at ho
    · simp at ho
    · injection ho with ho; exact ho.symm
  rw [← this]; exact ho

/-- Interleaved calls of two functions. -/
example : Demo.isOk (runRev Demo.cfg Demo.m0 (scen [.load 0] [(Demo.f, Demo.eF 1 10), (Demo.g, Demo.eG), (Demo.f, Demo.eF 2 20)]
      [(Demo.g, Demo.cG), (Demo.f, Demo.cF 1), (Demo.f, Demo.cF 2)])) = true ∧
    observe Demo.cfg Demo.m0 (scen [.load 0] [(Demo.f, Demo.eF 1 10), (Demo.g, Demo.eG), (Demo.f, Demo.eF 2 20)]
      [(Demo.g, Demo.cG), (Demo.f, Demo.cF 1)]) (.call Demo.f (Demo.cF 2)) = .ok (.ret (some [20, 0, 0, 0])) := by
  decide +kernel

/-- C02: a call for which no expectation is left returns the all-zero value of the result type (nothing for `void`),
records exactly one error naming the function, writes nothing to the caller's memory, and takes nothing from the
recorded order. -/
theorem C02_unexpected_call (hr : runRev cfg m0 past = .ok s) (hlen : past.length + 1 < 2 ^ 32)
    {f : FnId} {fc : FnCfg} (hf : cfg.fn? f = some fc) (hld : loaded f.file past = true)
    (hk : (exps f past).length ≤ calls f past) (c : Call) :
    ∃ s', step cfg s (.call f c) = .ok (s', .ret (fc.ret.map fun n => List.replicate n 0)) ∧
      s'.errs = s.errs ++ [⟨.unexpected fc.name (fc.ret.map fun _ => fc.shortName),
        if cfg.backtrace = true ∧ s.print = true then some c.bt else none⟩] ∧
      s'.mem = s.mem ∧ s'.fifo = s.fifo ∧ s'.order = s.order ∧ s'.print = s.print ∧
      ∀ g, calls g (.call f c :: past) = calls g past + (if g = f then 1 else 0) := by
  have hs : serving f past = none := by unfold serving; exact List.getElem?_eq_none hk
  obtain ⟨s', h1, h2, h3, h4, h5, h6, _⟩ := step_call_unserved hr hlen hf hld hs c
  refine ⟨s', h1, h2, h3, h4, h5, h6, fun g => ?_⟩
  rw [calls_call]
  by_cases e : f = g
  · simp [e]
  · simp [e, Ne.symm e]

example : (exps Demo.f Demo.hist).length ≤ calls Demo.f Demo.hist ∧
    observe Demo.cfg Demo.m0 Demo.hist (.call Demo.f (Demo.cF 1)) = .ok (.ret (some [0, 0, 0, 0])) := by
  decide +kernel

/-- C03: a check succeeds exactly when no error is recorded and every function of every loaded mock file was called as
often as expected. -/
theorem C03_verdict_exact (hr : runRev cfg m0 past = .ok s) (hlen : past.length + 1 < 2 ^ 32) :
    ∃ s' b, step cfg s .check = .ok (s', .verdict b) ∧
      (b = true ↔ s.errs = [] ∧ ∀ f fc, cfg.fn? f = some fc → loaded f.file past = true → (exps f past).length = calls f past) := by
  obtain ⟨h, hl⟩ := run_sim (by omega) hr
  have hst := sim_step h hl hlen .check
  simp only [Spec.observe] at hst
  obtain ⟨s', o', h1, h2, h3⟩ := hst
  refine ⟨s', verdict cfg m0 past, by rw [h1, h3 (by simp)], ?_⟩
  rw [verdict_iff, h.errs]
  refine and_congr Iff.rfl ⟨?_, ?_⟩
  · intro hh f fc hf; exact hh f (by simp [Valid, hf])
  · intro hh f hv
    obtain ⟨fc, hf⟩ := Option.isSome_iff_exists.mp hv
    exact hh f fc hf

/-- C03: a check records one error per function with a wrong number of calls, carrying both numbers, in the order of
the mock files and of the functions in them, and nothing else. -/
theorem C03_check_reports (hr : runRev cfg m0 past = .ok s) (hlen : past.length + 1 < 2 ^ 32) :
    ∃ s' b, step cfg s .check = .ok (s', .verdict b) ∧
      s'.errs = s.errs ++ ((liveFns cfg past).filter (fun f => (exps f past).length ≠ calls f past)).map
        (fun f => ⟨.count (cfg.name f) (exps f past).length (calls f past), none⟩) ∧
      s'.mem = s.mem ∧ s'.fifo = s.fifo ∧ s'.order = s.order ∧
      (∀ f, f ∈ liveFns cfg past ↔ (cfg.fn? f).isSome ∧ loaded f.file past = true) := by
  obtain ⟨h, hl⟩ := run_sim (by omega) hr
  have hst := sim_step h hl hlen .check
  simp only [Spec.observe] at hst
  obtain ⟨s', o', h1, h2, h3⟩ := hst
  refine ⟨s', verdict cfg m0 past, by rw [h1, h3 (by simp)], ?_, ?_, ?_, ?_, ?_⟩
  · rw [h2.errs, h.errs]
    simp only [Spec.errs, checkErrs]
    congr 1
    generalize liveFns cfg past = l
    induction l with
    | nil => rfl
    | cons f l ih =>
      by_cases e : (exps f past).length = calls f past
      · simpa [e] using ih
      · simpa [e] using ih
  · rw [h2.mem, h.mem]; rfl
  · rw [h2.fifo, h.fifo]; rfl
  · rw [h2.order, h.order]; rfl
  · intro f
    unfold liveFns
    simp only [List.mem_flatMap, List.mem_filter, List.mem_range, mem_fnsOf]
    constructor
    · rintro ⟨i, ⟨_, hl⟩, rfl, hv⟩; exact ⟨hv, hl⟩
    · rintro ⟨hv, hld⟩; exact ⟨f.file, ⟨valid_file_lt hv, hld⟩, rfl, hv⟩

/-- In the demo history two expectations are open, the check fails and reports both. -/
example : observe Demo.cfg Demo.m0 Demo.hist .check = .ok (.verdict false) ∧
    (liveFns Demo.cfg Demo.hist).filter (fun f => (exps f Demo.hist).length ≠ calls f Demo.hist) = [Demo.g, Demo.h] := by
  decide +kernel

end

/-! ## Ordered and unordered mode -/

section
variable {cfg : Cfg} {m0 : Mem} {p : List Op} {es : List (FnId × Exp)} {cs : List (FnId × Call)} {s : State}

/-- The prototypes of the mocked functions are distinct. -/
def DistinctNames (cfg : Cfg) : Prop :=
  ∀ f g fc gc, cfg.fn? f = some fc → cfg.fn? g = some gc → fc.name = gc.name → f = g

theorem name_eq {f : FnId} {fc : FnCfg} (h : cfg.fn? f = some fc) : cfg.name f = fc.name := by
  simp [Cfg.name, h]

/-- C04: with the order option on, a test made of expectations followed by calls passes exactly when the functions
called are the functions expected, in the same order and number, and each call is accepted by the expectation at the
same position. -/
theorem C04_ordered_mode_exact (hd : DistinctNames cfg) (ho : order p = true)
    (hr : runRev cfg m0 (scen p es cs) = .ok s) (hlen : (scen p es cs).length + 1 < 2 ^ 32) :
    observe cfg m0 (scen p es cs) .check = .ok (.verdict true) ↔
      cs.map (·.1) = es.map (·.1) ∧
      ∀ k f fc e c, cs[k]? = some (f, c) → es[k]? = some (f, e) → cfg.fn? f = some fc →
        Accepts fc (mem cfg m0 (scen p es (cs.take k))) e c := by
  obtain ⟨_, hl⟩ := run_sim (by omega) hr
  rw [observe_check hr hlen]
  have hv : (Res.ok (Out.verdict (verdict cfg m0 (scen p es cs))) = Res.ok (Out.verdict true)) ↔
      verdict cfg m0 (scen p es cs) = true := by simp
  rw [hv, verdict_iff, errs_scen_nil hl]
  constructor
  · rintro ⟨h1, h2⟩
    -- every call is served
    have hsv : ∀ (k : Nat) (f : FnId) (c : Call), cs[k]? = some (f, c) → (serving f (scen p es (cs.take k))).isSome := by
      intro k f c hk
      obtain ⟨fc, hf, _⟩ := legal_call hl hk
      obtain ⟨e, he, _⟩ := callErrs_nil_iff.mp (h1 k f c fc hk hf)
      simp [he]
    have hfst : ∀ (k : Nat) (f : FnId) (c : Call), cs[k]? = some (f, c) → (es.map (·.1))[k]? = some f := by
      intro k f c hk
      obtain ⟨fc, hf, _⟩ := legal_call hl hk
      obtain ⟨e, he, _, _, hh⟩ := callErrs_nil_iff.mp (h1 k f c fc hk hf)
      rw [order_scen, ho] at hh
      have hq : fifo cfg (scen p es (cs.take k)) = (es.map (fun x => cfg.name x.1)).drop (cs.take k).length := by
        refine fifo_scen (fun k' f' c' hk' => ?_)
        have hlt := (List.getElem?_eq_some_iff.mp hk').1
        rw [List.length_take] at hlt
        rw [List.take_take, Nat.min_eq_left (by omega)]
        refine hsv k' f' c' ?_
        rw [List.getElem?_take] at hk'
        split at hk'
        · exact hk'
        · simp at hk'
      have hlt := (List.getElem?_eq_some_iff.mp hk).1
      rw [hq, List.length_take, Nat.min_eq_left (by omega), List.head?_drop, List.getElem?_map] at hh
      cases hx : es[k]? with
      | none => rw [hx] at hh; simp at hh
      | some x =>
        rw [hx] at hh
        simp only [Option.map_some, ne_eq, true_and, Decidable.not_not, Option.some.injEq] at hh
        obtain ⟨g, eg⟩ := x
        obtain ⟨hvg, _⟩ := legal_exp hl hx
        obtain ⟨gc, hg⟩ := Option.isSome_iff_exists.mp hvg
        simp only [name_eq hg] at hh
        have := hd g f gc fc hg hf hh
        rw [List.getElem?_map, hx]; simp [this]
    -- the calls are a prefix of the expectations
    have hpre : cs.map (·.1) = (es.map (·.1)).take cs.length := by
      apply List.ext_getElem?
      intro k
      rw [List.getElem?_map, List.getElem?_take]
      by_cases hlt : k < cs.length
      · rw [if_pos hlt, List.getElem?_eq_getElem hlt]
        have := hfst k cs[k].1 cs[k].2 (by rw [List.getElem?_eq_getElem hlt])
        rw [this]; rfl
      · rw [if_neg hlt, List.getElem?_eq_none (by omega)]; rfl
    have hall : cs.map (·.1) = es.map (·.1) := by
      rw [hpre]
      apply List.take_of_length_le
      rw [List.length_map]
      apply Nat.le_of_not_lt
      intro hlt
      obtain ⟨hvg, hldg⟩ := legal_exp hl (k := cs.length) (f := es[cs.length].1) (e := es[cs.length].2)
        (by rw [List.getElem?_eq_getElem hlt])
      have := h2 es[cs.length].1 hvg (by rw [loaded_scen]; exact hldg)
      rw [exps_scen, calls_scen, List.length_map, ← List.countP_eq_length_filter, countP_fst, countP_fst cs, hpre] at this
      have e1 : es.map (·.1) = (es.map (·.1)).take cs.length ++ (es.map (·.1)).drop cs.length := by simp
      conv at this => lhs; rw [e1, List.countP_append]
      have e2 : ((es.map (·.1)).drop cs.length).countP (fun g => g == es[cs.length].1) = 0 := by omega
      rw [List.countP_eq_zero] at e2
      have := e2 es[cs.length].1 (by
        rw [List.drop_eq_getElem_cons (by simpa using hlt)]; simp)
      simp at this
    refine ⟨hall, ?_⟩
    intro k f fc e c hk he hf
    obtain ⟨e', he', hi, hm, _⟩ := callErrs_nil_iff.mp (h1 k f c fc hk hf)
    rw [serving_scen, countP_fst, map_take_fst, hall, ← map_take_fst, ← countP_fst, nthExp_take he] at he'
    cases he'
    exact (accepts_iff _ _ _ _).mpr ⟨hi, hm⟩
  · rintro ⟨hall, hacc⟩
    have hsv : ∀ (k : Nat) (f : FnId) (c : Call), cs[k]? = some (f, c) → ∃ e, es[k]? = some (f, e) ∧ serving f (scen p es (cs.take k)) = some e := by
      intro k f c hk
      have h1 : (es.map (·.1))[k]? = some f := by rw [← hall, List.getElem?_map, hk]; rfl
      rw [List.getElem?_map] at h1
      cases hx : es[k]? with
      | none => rw [hx] at h1; simp at h1
      | some x =>
        rw [hx] at h1
        simp only [Option.map_some, Option.some.injEq] at h1
        obtain ⟨g, e⟩ := x
        simp only at h1; subst h1
        refine ⟨e, rfl, ?_⟩
        rw [serving_scen, countP_fst, map_take_fst, hall, ← map_take_fst, ← countP_fst, nthExp_take hx]
    refine ⟨?_, ?_⟩
    · intro k f c fc hk hf
      obtain ⟨e, he, hs⟩ := hsv k f c hk
      obtain ⟨ha, hm⟩ := (accepts_iff _ _ _ _).mp (hacc k f fc e c hk he hf)
      refine callErrs_nil_iff.mpr ⟨e, hs, ha, hm, ?_⟩
      rintro ⟨_, hh⟩
      apply hh
      have hq : fifo cfg (scen p es (cs.take k)) = (es.map (fun x => cfg.name x.1)).drop (cs.take k).length := by
        refine fifo_scen (fun k' f' c' hk' => ?_)
        have hlt := (List.getElem?_eq_some_iff.mp hk').1
        rw [List.length_take] at hlt
        rw [List.take_take, Nat.min_eq_left (by omega)]
        rw [List.getElem?_take, if_pos (by omega)] at hk'
        obtain ⟨e', _, hs'⟩ := hsv k' f' c' hk'
        simp [hs']
      have hlt := (List.getElem?_eq_some_iff.mp hk).1
      rw [hq, List.length_take, Nat.min_eq_left (by omega), List.head?_drop, List.getElem?_map, he]
      simp [name_eq hf]
    · intro f _ _
      rw [exps_scen, calls_scen, List.length_map, ← List.countP_eq_length_filter, countP_fst, countP_fst cs, hall]

/-- The demo configuration has distinct prototypes. -/
theorem Demo.distinct : DistinctNames Demo.cfg := by
  have key : ∀ f fc, Demo.cfg.fn? f = some fc →
      (f = Demo.f ∧ fc.name = "int f(int a, char * p)") ∨ (f = Demo.g ∧ fc.name = "void g()") ∨
      (f = Demo.h ∧ fc.name = "int K::h(int a)") := by
    rintro ⟨i, j⟩ fc hf
    rcases i with _ | _ | i <;> rcases j with _ | _ | j <;>
      simp [Cfg.fn?, Demo.cfg] at hf <;> simp [Demo.f, Demo.g, Demo.h, ← hf]
  intro f g fc gc hf hg hn
  rcases key f fc hf with ⟨h1, h2⟩ | ⟨h1, h2⟩ | ⟨h1, h2⟩ <;>
    rcases key g gc hg with ⟨h3, h4⟩ | ⟨h3, h4⟩ | ⟨h3, h4⟩ <;>
    rw [h2, h4] at hn <;> first | (exact absurd hn (by decide)) | (rw [h1, h3])

def Demo.threeExps : List (FnId × Exp) := [(Demo.f, Demo.eF 1 10), (Demo.h, Demo.eH 3 30), (Demo.f, Demo.eF 2 20)]

/-- A matching order passes, a swapped order fails; both run. -/
example : order Demo.boot = true ∧
    Demo.isOk (runRev Demo.cfg Demo.m0 (scen Demo.boot Demo.threeExps [(Demo.f, Demo.cF 1), (Demo.h, Demo.cH 3), (Demo.f, Demo.cF 2)])) = true ∧
    observe Demo.cfg Demo.m0 (scen Demo.boot Demo.threeExps [(Demo.f, Demo.cF 1), (Demo.h, Demo.cH 3), (Demo.f, Demo.cF 2)]) .check
      = .ok (.verdict true) ∧
    observe Demo.cfg Demo.m0 (scen Demo.boot Demo.threeExps [(Demo.h, Demo.cH 3), (Demo.f, Demo.cF 1), (Demo.f, Demo.cF 2)]) .check
      = .ok (.verdict false) := by decide +kernel

/-- C05: with the order option off, such a test passes exactly when every function of a loaded file is called as often
as expected and every call is accepted by the expectation of its own rank among the expectations of its function. -/
theorem C05_unordered_mode_exact (ho : order p = false)
    (hr : runRev cfg m0 (scen p es cs) = .ok s) (hlen : (scen p es cs).length + 1 < 2 ^ 32) :
    observe cfg m0 (scen p es cs) .check = .ok (.verdict true) ↔
      (∀ f, es.countP (fun x => x.1 == f) = cs.countP (fun x => x.1 == f)) ∧
      ∀ k f fc j e c, cs[k]? = some (f, c) → es[j]? = some (f, e) →
        (es.take j).countP (fun x => x.1 == f) = (cs.take k).countP (fun x => x.1 == f) → cfg.fn? f = some fc →
        Accepts fc (mem cfg m0 (scen p es (cs.take k))) e c := by
  obtain ⟨_, hl⟩ := run_sim (by omega) hr
  rw [observe_check hr hlen]
  have hv : (Res.ok (Out.verdict (verdict cfg m0 (scen p es cs))) = Res.ok (Out.verdict true)) ↔
      verdict cfg m0 (scen p es cs) = true := by simp
  rw [hv, verdict_iff, errs_scen_nil hl]
  have hcnt : (∀ f, Valid cfg f → loaded f.file (scen p es cs) = true → (exps f (scen p es cs)).length = calls f (scen p es cs)) ↔
      ∀ f, es.countP (fun x => x.1 == f) = cs.countP (fun x => x.1 == f) := by
    constructor
    · intro h f
      by_cases h1 : ∃ e, (f, e) ∈ es
      · obtain ⟨e, he⟩ := h1
        obtain ⟨k, hk⟩ := List.getElem?_of_mem he
        obtain ⟨hvf, hlf⟩ := legal_exp hl hk
        have := h f hvf (by rw [loaded_scen]; exact hlf)
        rwa [exps_scen, calls_scen, List.length_map, ← List.countP_eq_length_filter] at this
      · by_cases h2 : ∃ c, (f, c) ∈ cs
        · obtain ⟨c, hc⟩ := h2
          obtain ⟨k, hk⟩ := List.getElem?_of_mem hc
          obtain ⟨fc, hf, hld, _⟩ := legal_call hl hk
          rw [loaded_scen] at hld
          have := h f (by simp [Valid, hf]) (by rw [loaded_scen]; exact hld)
          rwa [exps_scen, calls_scen, List.length_map, ← List.countP_eq_length_filter] at this
        · rw [List.countP_eq_zero.mpr, List.countP_eq_zero.mpr]
          · intro x hx he; exact h2 ⟨x.2, by simp at he; rw [← he]; exact hx⟩
          · intro x hx he; exact h1 ⟨x.2, by simp at he; rw [← he]; exact hx⟩
    · intro h f _ _
      rw [exps_scen, calls_scen, List.length_map, ← List.countP_eq_length_filter]; exact h f
  rw [hcnt]
  constructor
  · rintro ⟨h1, h2⟩
    refine ⟨h2, ?_⟩
    intro k f fc j e c hk hj hjk hf
    obtain ⟨e', he', hi, hm, _⟩ := callErrs_nil_iff.mp (h1 k f c fc hk hf)
    rw [serving_scen, ← hjk, nthExp_take hj] at he'
    cases he'
    exact (accepts_iff _ _ _ _).mpr ⟨hi, hm⟩
  · rintro ⟨h2, hacc⟩
    refine ⟨?_, h2⟩
    intro k f c fc hk hf
    -- the call has an expectation of its rank
    have hrank : (cs.take k).countP (fun x => x.1 == f) < es.countP (fun x => x.1 == f) := by
      rw [h2 f]
      have e1 : cs = cs.take k ++ cs.drop k := by simp
      conv => rhs; rw [e1, List.countP_append]
      obtain ⟨hlt, hg⟩ := List.getElem?_eq_some_iff.mp hk
      rw [List.drop_eq_getElem_cons hlt, hg, List.countP_cons]
      simp
    obtain ⟨j, e, hj, hjk⟩ := rank_exists es f _ hrank
    obtain ⟨ha, hm⟩ := (accepts_iff _ _ _ _).mp (hacc k f fc j e c hk hj hjk hf)
    refine callErrs_nil_iff.mpr ⟨e, ?_, ha, hm, ?_⟩
    · rw [serving_scen, ← hjk, nthExp_take hj]
    · rw [order_scen, ho]; simp

/-- The swapped order of the previous example passes when the option is off. -/
example : order [.load 1, .load 0] = false ∧
    Demo.isOk (runRev Demo.cfg Demo.m0 (scen [.load 1, .load 0] Demo.threeExps [(Demo.h, Demo.cH 3), (Demo.f, Demo.cF 1), (Demo.f, Demo.cF 2)])) = true ∧
    observe Demo.cfg Demo.m0 (scen [.load 1, .load 0] Demo.threeExps [(Demo.h, Demo.cH 3), (Demo.f, Demo.cF 1), (Demo.f, Demo.cF 2)]) .check
      = .ok (.verdict true) ∧
    observe Demo.cfg Demo.m0 (scen [.load 1, .load 0] Demo.threeExps [(Demo.h, Demo.cH 3), (Demo.f, Demo.cF 2), (Demo.f, Demo.cF 1)]) .check
      = .ok (.verdict false) := by decide +kernel

/-- A matcher looks only at the values, not at memory behind pointers. -/
def MemFree (e : Exp) : Prop := ∀ x ∈ e.params, ∀ mt, x.matcher = some mt → ∀ m m' a b n, mt m a b n = mt m' a b n

theorem Accepts.memFree {fc : FnCfg} {m : Mem} (m' : Mem) {e : Exp} {c : Call} (hm : MemFree e) (h : Accepts fc m e c) :
    Accepts fc m' e c := by
  refine ⟨h.1, fun x hx mt hmt => ?_⟩
  have hx' : x.2.1 ∈ e.params := by
    unfold zip3 at hx
    exact (List.of_mem_zip (List.of_mem_zip hx).2).1
  rw [hm x.2.1 hx' mt hmt m' m]
  exact h.2 x hx mt hmt

/-- C05: with the order option off, interleaving does not matter: two tests with the same calls per function (in the
same order per function) and the same expectations per function get the same verdict, when matchers depend on values
only. -/
theorem C05_interleaving_irrelevant {es' : List (FnId × Exp)} {cs' : List (FnId × Call)} {s' : State} (ho : order p = false)
    (hr : runRev cfg m0 (scen p es cs) = .ok s) (hlen : (scen p es cs).length + 1 < 2 ^ 32)
    (hr' : runRev cfg m0 (scen p es' cs') = .ok s') (hlen' : (scen p es' cs').length + 1 < 2 ^ 32)
    (hes : ∀ f, es.filter (fun x => x.1 == f) = es'.filter (fun x => x.1 == f))
    (hcs : ∀ f, cs.filter (fun x => x.1 == f) = cs'.filter (fun x => x.1 == f))
    (hm : ∀ x ∈ es, MemFree x.2) :
    observe cfg m0 (scen p es cs) .check = observe cfg m0 (scen p es' cs') .check := by
  have hm' : ∀ x ∈ es', MemFree x.2 := by
    intro x hx
    have : x ∈ es.filter (fun y => y.1 == x.1) := by rw [hes]; simp [hx]
    exact hm x (List.mem_filter.mp this).1
  have key : ∀ {es es' : List (FnId × Exp)} {cs cs' : List (FnId × Call)} {s s' : State},
      runRev cfg m0 (scen p es cs) = .ok s → (scen p es cs).length + 1 < 2 ^ 32 →
      runRev cfg m0 (scen p es' cs') = .ok s' → (scen p es' cs').length + 1 < 2 ^ 32 →
      (∀ f, es.filter (fun x => x.1 == f) = es'.filter (fun x => x.1 == f)) →
      (∀ f, cs.filter (fun x => x.1 == f) = cs'.filter (fun x => x.1 == f)) →
      (∀ x ∈ es, MemFree x.2) →
      observe cfg m0 (scen p es cs) .check = .ok (.verdict true) →
      observe cfg m0 (scen p es' cs') .check = .ok (.verdict true) := by
    intro es es' cs cs' s s' hr hlen hr' hlen' hes hcs hm h
    rw [C05_unordered_mode_exact ho hr hlen] at h
    rw [C05_unordered_mode_exact ho hr' hlen']
    obtain ⟨h1, h2⟩ := h
    refine ⟨?_, ?_⟩
    · intro f
      rw [List.countP_eq_length_filter, List.countP_eq_length_filter, ← hes, ← hcs,
        ← List.countP_eq_length_filter, ← List.countP_eq_length_filter]
      exact h1 f
    · intro k f fc j e c hk hj hjk hf
      -- locate the same call and expectation in the other test
      have hc := filter_count (fun x : FnId × Call => x.1 == f) cs' k hk (by simp)
      have he := filter_count (fun x : FnId × Exp => x.1 == f) es' j hj (by simp)
      rw [← hcs] at hc
      rw [← hes] at he
      obtain ⟨k2, hk2, hk3⟩ := rank_of_filter cs f _ hc
      obtain ⟨j2, hj2, hj3⟩ := rank_of_filter es f _ he
      have := h2 k2 f fc j2 e c hk2 hj2 (by rw [hk3, hj3, hjk]) hf
      exact this.memFree _ (hm _ (List.mem_of_getElem? hj2))
  have a1 := key hr hlen hr' hlen' hes hcs hm
  have a2 := key hr' hlen' hr hlen (fun f => (hes f).symm) (fun f => (hcs f).symm) hm'
  rw [observe_check hr hlen] at a1 a2 ⊢
  rw [observe_check hr' hlen'] at a1 a2 ⊢
  simp only [Res.ok.injEq, Out.verdict.injEq] at a1 a2 ⊢
  cases h1 : verdict cfg m0 (scen p es cs) <;> cases h2 : verdict cfg m0 (scen p es' cs') <;> simp_all

example : MemFree (Demo.eF 1 10) := by
  intro x hx mt hmt
  simp [Demo.eF] at hx
  rcases hx with rfl | rfl
  · simp at hmt; subst hmt; intros; rfl
  · simp at hmt

end

end EasyMock
