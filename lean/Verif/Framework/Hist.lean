import Verif.Framework.Sim

/-! Facts about the history functions used by the property theorems. -/

namespace EasyMock
open Spec

/-! ## Equivalent histories -/

/-- Two histories that the specification cannot tell apart. -/
structure SpecEq (cfg : Cfg) (m0 m1 : Mem) (p q : List Op) : Prop where
  order : Spec.order p = Spec.order q
  print : cfg.backtrace = true → Spec.print p = Spec.print q
  loaded : ∀ i, Spec.loaded i p = Spec.loaded i q
  fifo : Spec.fifo cfg p = Spec.fifo cfg q
  errs : Spec.errs cfg m0 p = Spec.errs cfg m1 q
  mem : Spec.mem cfg m0 p = Spec.mem cfg m1 q
  exps : ∀ f, Spec.exps f p = Spec.exps f q
  calls : ∀ f, Spec.calls f p = Spec.calls f q

section
variable {cfg : Cfg} {m0 m1 : Mem} {p q : List Op}

theorem SpecEq.serving (h : SpecEq cfg m0 m1 p q) (f : FnId) : Spec.serving f p = Spec.serving f q := by
  unfold Spec.serving; rw [h.exps, h.calls]

theorem SpecEq.pcs (h : SpecEq cfg m0 m1 p q) : (cfg.backtrace && Spec.print p) = (cfg.backtrace && Spec.print q) := by
  cases hb : cfg.backtrace with
  | false => rfl
  | true => rw [h.print hb]

theorem SpecEq.memCall (h : SpecEq cfg m0 m1 p q) (f : FnId) (fc : FnCfg) (c : Call) (m : Mem) :
    Spec.memCall cfg p m f fc c = Spec.memCall cfg q m f fc c := by
  unfold Spec.memCall outOfOrder
  rw [h.serving, h.order, h.fifo]

theorem SpecEq.callErrs (h : SpecEq cfg m0 m1 p q) (f : FnId) (fc : FnCfg) (c : Call) :
    Spec.callErrs cfg m0 p f fc c = Spec.callErrs cfg m1 q f fc c := by
  unfold Spec.callErrs outOfOrder
  rw [h.serving, h.order, h.fifo, h.mem, h.calls]

theorem SpecEq.liveFns (h : SpecEq cfg m0 m1 p q) : Spec.liveFns cfg p = Spec.liveFns cfg q := by
  unfold Spec.liveFns
  have : (Spec.loaded · p) = (Spec.loaded · q) := funext h.loaded
  rw [this]

theorem SpecEq.checkErrs (h : SpecEq cfg m0 m1 p q) : Spec.checkErrs cfg p = Spec.checkErrs cfg q := by
  unfold Spec.checkErrs
  rw [h.liveFns]
  exact filterMap_congr (fun f _ => by rw [h.exps, h.calls])

theorem SpecEq.observe (h : SpecEq cfg m0 m1 p q) (op : Op) :
    Spec.observe cfg m0 p op = Spec.observe cfg m1 q op := by
  cases op with
  | expect f e a => simp only [Spec.observe, h.loaded, h.exps]
  | call f c => simp only [Spec.observe, h.loaded, h.memCall, h.mem, Spec.retVal, h.serving]
  | check =>
    simp only [Spec.observe, Spec.verdict, h.errs, h.liveFns]
    have : (fun f => (Spec.exps f p).length == Spec.calls f p) = fun f => (Spec.exps f q).length == Spec.calls f q := by
      funext f; rw [h.exps, h.calls]
    rw [this]
  | load i => simp only [Spec.observe, h.loaded]
  | unload i => simp only [Spec.observe, h.loaded]
  | getStr => simp only [Spec.observe, h.errs]
  | getArr => simp only [Spec.observe, h.errs]
  | poke a b => simp only [Spec.observe, h.mem]
  | init => rfl
  | setOrder b => rfl
  | setPrint b => rfl

theorem SpecEq.cons (h : SpecEq cfg m0 m1 p q) (op : Op) : SpecEq cfg m0 m1 (op :: p) (op :: q) := by
  have he : ∀ f, Spec.exps f (op :: p) = Spec.exps f (op :: q) := by
    intro f; rw [exps_cons, exps_cons, h.exps]
  have hc : ∀ f, Spec.calls f (op :: p) = Spec.calls f (op :: q) := by
    intro f; rw [calls_cons, calls_cons, h.calls]
  cases op with
  | expect f e a => exact ⟨h.order, h.print, h.loaded, by simp only [Spec.fifo, h.fifo], h.errs, h.mem, he, hc⟩
  | call f c =>
    refine ⟨h.order, h.print, h.loaded, by simp only [Spec.fifo, h.fifo, h.serving], ?_, ?_, he, hc⟩
    · simp only [Spec.errs]
      split
      · exact h.errs
      · rw [h.errs, h.callErrs, h.pcs]
    · simp only [Spec.mem]
      split
      · exact h.mem
      · rw [h.mem, h.memCall]
  | check => exact ⟨h.order, h.print, h.loaded, h.fifo, by simp only [Spec.errs, h.errs, h.checkErrs], h.mem, he, hc⟩
  | setOrder b => exact ⟨rfl, h.print, h.loaded, h.fifo, h.errs, h.mem, he, hc⟩
  | setPrint b => exact ⟨h.order, fun _ => rfl, h.loaded, h.fifo, h.errs, h.mem, he, hc⟩
  | load i => exact ⟨h.order, h.print, fun j => by simp only [Spec.loaded, h.loaded], h.fifo, h.errs, h.mem, he, hc⟩
  | unload i => exact ⟨h.order, h.print, fun j => by simp only [Spec.loaded, h.loaded], h.fifo, h.errs, h.mem, he, hc⟩
  | getStr => exact ⟨h.order, h.print, h.loaded, h.fifo, h.errs, h.mem, he, hc⟩
  | getArr => exact ⟨h.order, h.print, h.loaded, h.fifo, h.errs, h.mem, he, hc⟩
  | poke a b => exact ⟨h.order, h.print, h.loaded, h.fifo, h.errs, by simp only [Spec.mem, h.mem], he, hc⟩
  | init => exact ⟨h.order, h.print, h.loaded, rfl, rfl, h.mem, he, hc⟩

theorem SpecEq.append (h : SpecEq cfg m0 m1 p q) (k : List Op) : SpecEq cfg m0 m1 (k ++ p) (k ++ q) := by
  induction k with
  | nil => exact h
  | cons op k ih => exact ih.cons op

/-- The outcome of a history. -/
def outcome {α : Type} : Res α → Res Unit
  | .ok _ => .ok ()
  | .exit => .exit
  | .ub => .ub

theorem SpecEq.run (h : SpecEq cfg m0 m1 p q) (hp : Legal cfg m0 p) (hq : Legal cfg m1 q) (k : List Op)
    (hlp : (k ++ p).length < 2 ^ 32) (hlq : (k ++ q).length < 2 ^ 32) :
    outcome (runRev cfg m0 (k ++ p)) = outcome (runRev cfg m1 (k ++ q)) := by
  induction k with
  | nil =>
    obtain ⟨s, e, _⟩ := (run_legal cfg m0 p hlp).1 hp
    obtain ⟨t, e', _⟩ := (run_legal cfg m1 q hlq).1 hq
    simp [e, e', outcome]
  | cons op k ih =>
    simp only [List.cons_append, List.length_cons] at hlp hlq
    have ih := ih (by omega) (by omega)
    simp only [List.cons_append, runRev]
    cases hs : runRev cfg m0 (k ++ p) with
    | exit =>
      rw [hs] at ih
      cases ht : runRev cfg m1 (k ++ q) <;> rw [ht] at ih <;> simp [outcome] at ih ⊢
    | ub =>
      rw [hs] at ih
      cases ht : runRev cfg m1 (k ++ q) <;> rw [ht] at ih <;> simp [outcome] at ih ⊢
    | ok s =>
      rw [hs] at ih
      cases ht : runRev cfg m1 (k ++ q) with
      | exit => rw [ht] at ih; simp [outcome] at ih
      | ub => rw [ht] at ih; simp [outcome] at ih
      | ok t =>
        obtain ⟨hs1, hl1⟩ := run_sim (by omega) hs
        obtain ⟨hs2, hl2⟩ := run_sim (by omega) ht
        have a1 := sim_step hs1 hl1 hlp op
        have a2 := sim_step hs2 hl2 hlq op
        rw [(h.append k).observe] at a1
        cases ho : Spec.observe cfg m1 (k ++ q) op with
        | ok o =>
          rw [ho] at a1 a2
          obtain ⟨_, _, e1, _⟩ := a1
          obtain ⟨_, _, e2, _⟩ := a2
          simp [e1, e2, outcome]
        | exit => rw [ho] at a1 a2; simp only at a1 a2; simp [a1, a2, outcome]
        | ub => rw [ho] at a1 a2; simp only at a1 a2; simp [a1, a2, outcome]

theorem SpecEq.observe_run (h : SpecEq cfg m0 m1 p q) (hp : Legal cfg m0 p) (hq : Legal cfg m1 q) (k : List Op) (op : Op)
    (hlp : (k ++ p).length + 1 < 2 ^ 32) (hlq : (k ++ q).length + 1 < 2 ^ 32) :
    EasyMock.observe cfg m0 (k ++ p) op = EasyMock.observe cfg m1 (k ++ q) op := by
  have hrun := h.run hp hq k (by omega) (by omega)
  unfold EasyMock.observe
  cases hs : runRev cfg m0 (k ++ p) with
  | exit =>
    rw [hs] at hrun
    cases ht : runRev cfg m1 (k ++ q) <;> rw [ht] at hrun <;> simp [outcome] at hrun ⊢
  | ub =>
    rw [hs] at hrun
    cases ht : runRev cfg m1 (k ++ q) <;> rw [ht] at hrun <;> simp [outcome] at hrun ⊢
  | ok s =>
    rw [hs] at hrun
    cases ht : runRev cfg m1 (k ++ q) with
    | exit => rw [ht] at hrun; simp [outcome] at hrun
    | ub => rw [ht] at hrun; simp [outcome] at hrun
    | ok t =>
      obtain ⟨hs1, hl1⟩ := run_sim (by omega) hs
      obtain ⟨hs2, hl2⟩ := run_sim (by omega) ht
      by_cases hg : op = .getArr
      · subst hg
        simp only [Res.bind_ok, step, getErrorArr]
        rw [hs1.errs, hs2.errs, (h.append k).errs]
      · have a1 := sim_step hs1 hl1 hlp op
        have a2 := sim_step hs2 hl2 hlq op
        rw [(h.append k).observe] at a1
        cases ho : Spec.observe cfg m1 (k ++ q) op with
        | ok o =>
          rw [ho] at a1 a2
          obtain ⟨_, o1, e1, _, h1⟩ := a1
          obtain ⟨_, o2, e2, _, h2⟩ := a2
          simp [e1, e2, h1 (fun h => (hg h).elim), h2 (fun h => (hg h).elim)]
        | exit => rw [ho] at a1 a2; simp only at a1 a2; simp [a1, a2]
        | ub => rw [ho] at a1 a2; simp only at a1 a2; simp [a1, a2]

end

/-! ## Histories without a given kind of operation -/

/-- Setting-up operations: load mocks, set options, write memory. -/
def isSetup : Op → Bool
  | .load _ => true
  | .setOrder _ => true
  | .setPrint _ => true
  | .poke _ _ => true
  | _ => false

theorem setup_fresh (cfg : Cfg) (m0 : Mem) (q : List Op) (h : ∀ op ∈ q, isSetup op = true) :
    fifo cfg q = [] ∧ errs cfg m0 q = [] ∧ ∀ f, exps f q = [] ∧ calls f q = 0 := by
  induction q with
  | nil => exact ⟨rfl, rfl, fun f => ⟨rfl, rfl⟩⟩
  | cons op q ih =>
    obtain ⟨h1, h2, h3⟩ := ih (fun o ho => h o (by simp [ho]))
    have := h op (by simp)
    cases op <;> simp [isSetup] at this <;> refine ⟨h1, h2, fun f => ?_⟩ <;> simp [h3 f] <;> split <;> simp

theorem order_append (k p : List Op) (h : ∀ b, Op.setOrder b ∉ k) : order (k ++ p) = order p := by
  induction k with
  | nil => rfl
  | cons op k ih =>
    have ih := ih (fun b hb => h b (by simp [hb]))
    cases op with
    | setOrder b => exact (h b (by simp)).elim
    | _ => simpa [Spec.order] using ih

theorem print_append (k p : List Op) (h : ∀ b, Op.setPrint b ∉ k) : Spec.print (k ++ p) = Spec.print p := by
  induction k with
  | nil => rfl
  | cons op k ih =>
    have ih := ih (fun b hb => h b (by simp [hb]))
    cases op with
    | setPrint b => exact (h b (by simp)).elim
    | _ => simpa [Spec.print] using ih

/-- Errors only grow without init. -/
theorem errs_append (cfg : Cfg) (m0 : Mem) (k p : List Op) (h : Op.init ∉ k) :
    ∃ new, errs cfg m0 (k ++ p) = errs cfg m0 p ++ new := by
  induction k with
  | nil => exact ⟨[], by simp⟩
  | cons op k ih =>
    obtain ⟨new, e⟩ := ih (fun hb => h (by simp [hb]))
    cases op with
    | init => exact (h (by simp)).elim
    | call f c =>
      simp only [List.cons_append, Spec.errs]
      split
      · exact ⟨new, e⟩
      · exact ⟨_, by rw [e, List.append_assoc]⟩
    | check => exact ⟨_, by simp only [List.cons_append, Spec.errs]; rw [e, List.append_assoc]⟩
    | _ => exact ⟨new, e⟩

/-! ## Scenarios: expectations, then calls -/

def expOps (es : List (FnId × Exp)) : List Op := es.map fun x => .expect x.1 x.2 true
def callOps (cs : List (FnId × Call)) : List Op := cs.map fun x => .call x.1 x.2

section scenario
variable (cfg : Cfg) (m0 : Mem) (p : List Op)

theorem exps_expOps (f : FnId) (es : List (FnId × Exp)) :
    exps f ((expOps es).reverse ++ .init :: p) = (es.filter (fun x => x.1 == f)).map (·.2) := by
  have : ∀ es : List (FnId × Exp), exps f (((expOps es.reverse).reverse) ++ .init :: p) =
      (es.reverse.filter (fun x => x.1 == f)).map (·.2) := by
    intro es
    induction es with
    | nil => simp [expOps]
    | cons x es ih =>
      simp only [expOps, List.reverse_cons, List.map_append, List.map_cons, List.map_nil, List.reverse_append,
        List.reverse_nil, List.nil_append, List.cons_append, List.filter_append] at ih ⊢
      rw [exps_expect, ih]
      by_cases e : x.1 = f <;> simp [e]
  simpa using this es.reverse

theorem calls_expOps (f : FnId) (es : List (FnId × Exp)) : calls f ((expOps es).reverse ++ .init :: p) = 0 := by
  have : ∀ es : List (FnId × Exp), calls f (((expOps es.reverse).reverse) ++ .init :: p) = 0 := by
    intro es
    induction es with
    | nil => simp [expOps]
    | cons x es ih => simpa [expOps] using ih
  simpa using this es.reverse

theorem fifo_expOps (es : List (FnId × Exp)) :
    fifo cfg ((expOps es).reverse ++ .init :: p) = es.map (fun x => cfg.name x.1) := by
  have : ∀ es : List (FnId × Exp), fifo cfg (((expOps es.reverse).reverse) ++ .init :: p) =
      es.reverse.map (fun x => cfg.name x.1) := by
    intro es
    induction es with
    | nil => simp [expOps, Spec.fifo]
    | cons x es ih => simp [expOps, Spec.fifo] at ih ⊢; exact ih
  simpa using this es.reverse

theorem errs_expOps (es : List (FnId × Exp)) : errs cfg m0 ((expOps es).reverse ++ .init :: p) = [] := by
  have : ∀ es : List (FnId × Exp), errs cfg m0 (((expOps es.reverse).reverse) ++ .init :: p) = [] := by
    intro es
    induction es with
    | nil => simp [expOps, Spec.errs]
    | cons x es ih => simpa [expOps, Spec.errs] using ih
  simpa using this es.reverse

theorem order_expOps (es : List (FnId × Exp)) : order ((expOps es).reverse ++ .init :: p) = order p := by
  rw [order_append]
  · rfl
  · intro b h; simp [expOps] at h

/-- The history of a scenario: `init`, the expectations, the calls. -/
def scen (es : List (FnId × Exp)) (cs : List (FnId × Call)) : List Op :=
  (callOps cs).reverse ++ ((expOps es).reverse ++ .init :: p)

theorem scen_snoc (es : List (FnId × Exp)) (cs : List (FnId × Call)) (x : FnId × Call) :
    scen p es (cs ++ [x]) = .call x.1 x.2 :: scen p es cs := by
  simp [scen, callOps]

theorem snoc_induction {α : Type} {P : List α → Prop} (nil : P []) (snoc : ∀ l x, P l → P (l ++ [x])) (l : List α) : P l := by
  have : ∀ l : List α, P l.reverse := by
    intro l
    induction l with
    | nil => exact nil
    | cons a l ih => rw [List.reverse_cons]; exact snoc _ _ ih
  simpa using this l.reverse

theorem exps_scen (f : FnId) (es : List (FnId × Exp)) (cs : List (FnId × Call)) :
    exps f (scen p es cs) = (es.filter (fun x => x.1 == f)).map (·.2) := by
  induction cs using snoc_induction with
  | nil => exact exps_expOps p f es
  | snoc cs x ih => rw [scen_snoc, exps_call, ih]

theorem calls_scen (f : FnId) (es : List (FnId × Exp)) (cs : List (FnId × Call)) :
    calls f (scen p es cs) = cs.countP (fun x => x.1 == f) := by
  induction cs using snoc_induction with
  | nil => exact calls_expOps p f es
  | snoc cs x ih =>
    rw [scen_snoc, calls_call, ih, List.countP_append]
    by_cases e : x.1 = f <;> simp [e]

theorem order_scen (es : List (FnId × Exp)) (cs : List (FnId × Call)) : order (scen p es cs) = order p := by
  unfold scen
  rw [order_append, order_expOps]
  intro b h; simp [callOps] at h

/-- The `j`-th expectation of `f` in a scenario. -/
def nthExp (f : FnId) (es : List (FnId × Exp)) (j : Nat) : Option Exp := ((es.filter (fun x => x.1 == f)).map (·.2))[j]?

theorem serving_scen (f : FnId) (es : List (FnId × Exp)) (cs : List (FnId × Call)) :
    serving f (scen p es cs) = nthExp f es (cs.countP (fun x => x.1 == f)) := by
  unfold serving nthExp
  rw [exps_scen, calls_scen]

theorem legal_fn? {cfg : Cfg} {m0 : Mem} {past : List Op} {f : FnId} {c : Call} (h : Legal cfg m0 (.call f c :: past)) :
    ∃ fc, cfg.fn? f = some fc ∧ loaded f.file past = true := by
  obtain ⟨_, o, ho⟩ := h
  cases hf : cfg.fn? f with
  | none => simp [Spec.observe, hf] at ho
  | some fc =>
    refine ⟨fc, rfl, ?_⟩
    cases hl : loaded f.file past with
    | true => rfl
    | false => simp [Spec.observe, hf, hl] at ho

/-- A call that leaves no trace in the error log. -/
theorem callErrs_nil_iff {cfg : Cfg} {m0 : Mem} {past : List Op} {f : FnId} {fc : FnCfg} {c : Call} :
    callErrs cfg m0 past f fc c = [] ↔ ∃ e, serving f past = some e ∧
      ¬ (fc.isMember = true ∧ e.inst ≠ 0 ∧ e.inst ≠ c.this) ∧
      matchErrs (mem cfg m0 past) (zip3 fc.paramNames e.params c.args) = [] ∧
      ¬ (order past = true ∧ (fifo cfg past).head? ≠ some fc.name) := by
  unfold callErrs
  cases hs : serving f past with
  | none => simp
  | some e =>
    simp only [List.append_eq_nil_iff, List.map_eq_nil_iff]
    constructor
    · rintro ⟨⟨h1, h2⟩, h3⟩
      refine ⟨e, rfl, ?_, h2, ?_⟩
      · intro hh; rw [if_pos hh] at h1; simp at h1
      · intro hh
        have : outOfOrder cfg past fc = true := by unfold outOfOrder; simp [hh.1, hh.2]
        rw [if_pos this] at h3; simp at h3
    · rintro ⟨e', he, h1, h2, h3⟩
      cases he
      refine ⟨⟨if_neg h1, h2⟩, ?_⟩
      rw [if_neg]
      intro hh; unfold outOfOrder at hh; apply h3; simpa using hh

end scenario

end EasyMock
