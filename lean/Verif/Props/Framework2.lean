import Verif.Props.Framework1

/-!
# C06 - C08: isolation by `easyMock_init`, options, independence of functions
-/

namespace EasyMock
open Spec

section
variable {cfg : Cfg} {m0 m1 : Mem} {p q k : List Op} {s t : State}

theorem legal_init (h : Legal cfg m0 p) : Legal cfg m0 (.init :: p) := ⟨h, .none, rfl⟩

/-- C06: after `easyMock_init` nothing distinguishes two histories with the same options, the same mock files present
and the same caller memory: every continuation gives the same observations. -/
theorem C06_init_forgets_history (hp : runRev cfg m0 p = .ok s) (hq : runRev cfg m1 q = .ok t)
    (hord : s.order = t.order) (hprint : s.print = t.print) (hld : ∀ i, s.loaded i = t.loaded i) (hmem : s.mem = t.mem)
    (k : List Op) (op : Op) (hlp : (k ++ .init :: p).length + 1 < 2 ^ 32) (hlq : (k ++ .init :: q).length + 1 < 2 ^ 32) :
    observe cfg m0 (k ++ .init :: p) op = observe cfg m1 (k ++ .init :: q) op := by
  simp only [List.length_append, List.length_cons] at hlp hlq
  obtain ⟨h1, l1⟩ := run_sim (by omega) hp
  obtain ⟨h2, l2⟩ := run_sim (by omega) hq
  have he : SpecEq cfg m0 m1 (.init :: p) (.init :: q) := by
    refine ⟨?_, ?_, ?_, rfl, rfl, ?_, ?_, ?_⟩
    · show Spec.order p = Spec.order q; rw [← h1.order, ← h2.order, hord]
    · intro hb; show Spec.print p = Spec.print q; rw [← h1.print hb, ← h2.print hb, hprint]
    · intro i; show Spec.loaded i p = Spec.loaded i q; rw [← h1.loaded, ← h2.loaded, hld]
    · show Spec.mem cfg m0 p = Spec.mem cfg m1 q; rw [← h1.mem, ← h2.mem, hmem]
    · intro f; simp
    · intro f; simp
  exact he.observe_run (legal_init l1) (legal_init l2) k op
    (by simp only [List.length_append, List.length_cons]; omega) (by simp only [List.length_append, List.length_cons]; omega)

/-- The operations that bring a new process to given settings. -/
def freshStart (cfg : Cfg) (order print : Bool) (loaded : Nat → Bool) : List Op :=
  .setOrder order :: .setPrint print :: ((List.range cfg.files.length).filter loaded).map .load

theorem loads_loaded (l : List Nat) (i : Nat) : Spec.loaded i (l.map .load) = l.contains i := by
  induction l with
  | nil => rfl
  | cons j l ih =>
    simp only [List.map_cons, Spec.loaded, ih, List.contains_cons]
    by_cases e : j = i
    · simp [e]
    · have : (i == j) = false := by simp [Ne.symm e]
      simp [e, this]

theorem loads_legal (l : List Nat) (hn : l.Nodup) (hl : ∀ i ∈ l, i < cfg.files.length) : Legal cfg m0 (l.map .load) := by
  induction l with
  | nil => trivial
  | cons j l ih =>
    rw [List.nodup_cons] at hn
    refine ⟨ih hn.2 (fun i hi => hl i (by simp [hi])), .none, ?_⟩
    simp only [Spec.observe, loads_loaded]
    rw [if_neg]
    rintro (h | h)
    · simp at h; exact hn.1 h
    · have := hl j (by simp); omega

theorem loaded_lt (h : Legal cfg m0 p) {i : Nat} (hi : Spec.loaded i p = true) : i < cfg.files.length := by
  induction p with
  | nil => simp [Spec.loaded] at hi
  | cons op p ih =>
    cases op with
    | load j =>
      by_cases e : j = i
      · subst e
        obtain ⟨_, o, ho⟩ := h
        simp only [Spec.observe] at ho
        split at ho
        · simp at ho
        · omega
      · simp [Spec.loaded, e] at hi; exact ih h.1 hi
    | unload j =>
      by_cases e : j = i
      · simp [Spec.loaded, e] at hi
      · simp [Spec.loaded, e] at hi; exact ih h.1 hi
    | _ => exact ih h.1 hi

theorem freshStart_ok (order print : Bool) (ld : Nat → Bool) : Legal cfg m0 (freshStart cfg order print ld) := by
  refine ⟨⟨loads_legal _ ?_ ?_, .none, rfl⟩, .none, rfl⟩
  · exact List.Pairwise.filter _ List.nodup_range
  · intro i hi; simpa using (List.mem_filter.mp hi).1

theorem freshStart_loaded (order print : Bool) (ld : Nat → Bool) (i : Nat) :
    Spec.loaded i (freshStart cfg order print ld) = (decide (i < cfg.files.length) && ld i) := by
  show Spec.loaded i (((List.range cfg.files.length).filter ld).map .load) = _
  rw [loads_loaded, Bool.eq_iff_iff]
  simp

theorem loads_mem (l : List Nat) : Spec.mem cfg m1 (l.map .load) = m1 := by
  induction l with
  | nil => rfl
  | cons i l ih => exact ih

/-- C06: after `easyMock_init` every observation, for every continuation, is the one made in a new process that has
just loaded the same mock files and made the same option settings. -/
theorem C06_init_is_fresh_start (hp : runRev cfg m0 p = .ok s) (k : List Op) (op : Op)
    (hlp : (k ++ .init :: p).length + 1 < 2 ^ 32)
    (hlq : k.length + cfg.files.length + 3 < 2 ^ 32) :
    observe cfg m0 (k ++ .init :: p) op = observe cfg s.mem (k ++ freshStart cfg s.order s.print s.loaded) op := by
  simp only [List.length_append, List.length_cons] at hlp
  obtain ⟨h1, l1⟩ := run_sim (by omega) hp
  have hset : ∀ o ∈ freshStart cfg s.order s.print s.loaded, isSetup o = true := by
    intro o ho
    simp only [freshStart, List.mem_cons, List.mem_map] at ho
    rcases ho with rfl | rfl | ⟨i, _, rfl⟩ <;> rfl
  obtain ⟨f1, f2, f3⟩ := setup_fresh cfg s.mem _ hset
  have he : SpecEq cfg m0 s.mem (.init :: p) (freshStart cfg s.order s.print s.loaded) := by
    refine ⟨?_, ?_, ?_, f1.symm, f2.symm, ?_, ?_, ?_⟩
    · exact h1.order.symm
    · intro hb; exact (h1.print hb).symm
    · intro i
      rw [freshStart_loaded]
      show Spec.loaded i p = _
      rw [h1.loaded]
      cases hi : Spec.loaded i p with
      | false => simp
      | true => simp [loaded_lt l1 hi]
    · show Spec.mem cfg m0 p = Spec.mem cfg s.mem (((List.range cfg.files.length).filter s.loaded).map .load)
      rw [loads_mem, h1.mem]
    · intro f; rw [(f3 f).1]; simp
    · intro f; rw [(f3 f).2]; simp
  refine he.observe_run (legal_init l1) (freshStart_ok _ _ _) k op
    (by simp only [List.length_append, List.length_cons]; omega) ?_
  have : ((List.range cfg.files.length).filter s.loaded).length ≤ cfg.files.length := by
    have := List.length_filter_le s.loaded (List.range cfg.files.length)
    simpa using this
  simp only [List.length_append, freshStart, List.length_cons, List.length_map]
  omega

/-- A history with an unserved expectation and an error, then `init` and a new test that passes. -/
example : ∃ s, runRev Demo.cfg Demo.m0 (.call Demo.f (Demo.cF 8) :: Demo.hist) = .ok s ∧
    observe Demo.cfg Demo.m0 (.call Demo.f (Demo.cF 8) :: Demo.hist) .check = .ok (.verdict false) ∧
    observe Demo.cfg Demo.m0 ([.call Demo.g Demo.cG, .expect Demo.g Demo.eG true] ++ .init :: .call Demo.f (Demo.cF 8) :: Demo.hist) .check
      = .ok (.verdict true) := by
  obtain ⟨s, hs⟩ := Demo.of_isOk (r := runRev Demo.cfg Demo.m0 (.call Demo.f (Demo.cF 8) :: Demo.hist)) (by decide +kernel)
  exact ⟨s, hs, by decide +kernel, by decide +kernel⟩

/-! ## C07 -/

/-- C07: an option keeps its value until it is set again, whatever else happens (including `easyMock_init`). -/
theorem C07_options_persist (hp : runRev cfg m0 p = .ok s) (hk : runRev cfg m0 (k ++ p) = .ok t)
    (hlen : (k ++ p).length < 2 ^ 32) :
    ((∀ b, Op.setOrder b ∉ k) → t.order = s.order) ∧
    (cfg.backtrace = true → (∀ b, Op.setPrint b ∉ k) → t.print = s.print) := by
  obtain ⟨h1, l1⟩ := run_sim (by simp only [List.length_append] at hlen; omega) hp
  obtain ⟨h2, l2⟩ := run_sim hlen hk
  refine ⟨fun h => ?_, fun hb h => ?_⟩
  · rw [h2.order, h1.order, order_append k p h]
  · rw [h2.print hb, h1.print hb, print_append k p h]

/-- C07: setting an option takes effect at once. -/
theorem C07_options_set (hp : runRev cfg m0 p = .ok s) (b : Bool) :
    (∃ t, runRev cfg m0 (.setOrder b :: p) = .ok t ∧ t = { s with order := b }) ∧
    (∃ t, runRev cfg m0 (.setPrint b :: p) = .ok t ∧ t = (if cfg.backtrace then { s with print := b } else s)) := by
  constructor
  · exact ⟨_, by simp only [runRev, hp, step, Res.bind_ok], rfl⟩
  · exact ⟨_, by simp only [runRev, hp, step, Res.bind_ok]; rfl, rfl⟩

/-- C07, partial: as long as an option was never set, order checking is **off** and call stacks are printed. The
documented default (order checking on) does not hold, see `C07_documented_default_refuted`. -/
theorem C07_defaults_partial (hp : runRev cfg m0 p = .ok s) (hlen : p.length < 2 ^ 32) :
    ((∀ b, Op.setOrder b ∉ p) → s.order = false) ∧
    (cfg.backtrace = true → (∀ b, Op.setPrint b ∉ p) → s.print = true) := by
  have := C07_options_persist (p := []) (k := p) (s := State.initial cfg m0) (m0 := m0) rfl (by simpa using hp) (by simpa using hlen)
  exact this

/-- C07: what the options do. The order option decides whether a served call out of order is an error. -/
theorem C07_order_option_effect (hp : runRev cfg m0 p = .ok s) (hlen : p.length + 1 < 2 ^ 32)
    {f : FnId} {fc : FnCfg} (hf : cfg.fn? f = some fc) (hld : loaded f.file p = true) {e : Exp}
    (hs : serving f p = some e) (c : Call) {s' : State} {o : Out} (hst : step cfg s (.call f c) = .ok (s', o)) :
    (∃ x ∈ s'.errs.drop s.errs.length, ∃ n, x.kind = .order fc.name n) ↔ (s.order = true ∧ s.fifo.head? ≠ some fc.name) := by
  have h := step_call_served hp hlen hf hld hs c
  have he : s'.errs = s.errs ++ servedErrs cfg s fc (calls f p + 1) e c := by
    split at h
    · rw [h] at hst; cases hst
    · obtain ⟨s2, h1, h2, _⟩ := h
      rw [h1] at hst; cases hst; exact h2
  rw [he, List.drop_left]
  unfold servedErrs
  constructor
  · rintro ⟨x, hx, n, hn⟩
    simp only [List.mem_map, List.mem_append] at hx
    obtain ⟨kd, hk, rfl⟩ := hx
    simp only at hn; subst hn
    rcases hk with (hk | hk) | hk
    · split at hk
      · simp at hk
      · simp at hk
    · obtain ⟨_, _, hh⟩ := hk; simp at hh
    · split at hk
      · assumption
      · simp at hk
  · intro ho
    refine ⟨⟨.order fc.name (s.fifo.head?.getD ""), if cfg.backtrace = true ∧ s.print = true then some c.bt else none⟩, ?_, _, rfl⟩
    simp only [List.mem_map, List.mem_append]
    exact ⟨_, Or.inr (by rw [if_pos ho]; simp), rfl⟩

/-- C07: the documented default is refuted: with no option set, calls made in the wrong order pass the check. -/
theorem C07_documented_default_refuted :
    ∃ (cfg : Cfg) (m0 : Mem) (p : List Op) (es : List (FnId × Exp)) (cs : List (FnId × Call)) (s : State),
      (∀ b, Op.setOrder b ∉ scen p es cs) ∧ runRev cfg m0 (scen p es cs) = .ok s ∧ cs.map (·.1) ≠ es.map (·.1) ∧
      observe cfg m0 (scen p es cs) .check = .ok (.verdict true) := by
  obtain ⟨s, hs⟩ := Demo.of_isOk (r := runRev Demo.cfg Demo.m0 (scen [.load 1, .load 0] Demo.threeExps
    [(Demo.h, Demo.cH 3), (Demo.f, Demo.cF 1), (Demo.f, Demo.cF 2)])) (by decide +kernel)
  refine ⟨Demo.cfg, Demo.m0, [.load 1, .load 0], Demo.threeExps,
    [(Demo.h, Demo.cH 3), (Demo.f, Demo.cF 1), (Demo.f, Demo.cF 2)], s, ?_, hs, by decide, by decide +kernel⟩
  intro b hb
  simp [scen, callOps, expOps, Demo.threeExps] at hb

/-- The options survive `init` in the demo history. -/
example : order Demo.hist = true ∧ Op.init ∈ Demo.hist ∧ Demo.isOk (runRev Demo.cfg Demo.m0 Demo.hist) = true := by
  refine ⟨rfl, by simp [Demo.hist], by decide +kernel⟩

/-! ## C08 -/

/-- The operations that concern `f`: its own, `init`, options, and its file entering or leaving the process. -/
def concerns (f : FnId) : Op → Bool
  | .expect g _ _ => g == f
  | .call g _ => g == f
  | .init => true
  | .setOrder _ => true
  | .setPrint _ => true
  | .load i => i == f.file
  | .unload i => i == f.file
  | _ => false

theorem concerns_exps (f : FnId) (p : List Op) : exps f (p.filter (concerns f)) = exps f p ∧
    calls f (p.filter (concerns f)) = calls f p ∧ loaded f.file (p.filter (concerns f)) = loaded f.file p ∧
    Spec.order (p.filter (concerns f)) = Spec.order p ∧ Spec.print (p.filter (concerns f)) = Spec.print p := by
  induction p with
  | nil => exact ⟨rfl, rfl, rfl, rfl, rfl⟩
  | cons op p ih =>
    obtain ⟨h1, h2, h3, h4, h5⟩ := ih
    cases hc : concerns f op with
    | true =>
      rw [List.filter_cons_of_pos hc]
      refine ⟨by rw [exps_cons, exps_cons, h1], by rw [calls_cons, calls_cons, h2], ?_, ?_, ?_⟩ <;>
        cases op <;> simp_all [Spec.loaded, Spec.order, Spec.print]
    | false =>
      rw [List.filter_cons_of_neg (by simp [hc])]
      rw [h1, h2, h3, h4, h5]
      cases op <;> simp [concerns] at hc <;> simp_all [Spec.loaded, Spec.order, Spec.print]

/-- Two histories that contain the same operations concerning `f` agree about `f`. -/
theorem same_concerns {f : FnId} (h : p.filter (concerns f) = q.filter (concerns f)) :
    exps f p = exps f q ∧ calls f p = calls f q ∧ loaded f.file p = loaded f.file q ∧
    Spec.order p = Spec.order q ∧ Spec.print p = Spec.print q := by
  obtain ⟨a1, a2, a3, a4, a5⟩ := concerns_exps f p
  obtain ⟨b1, b2, b3, b4, b5⟩ := concerns_exps f q
  exact ⟨by rw [← a1, ← b1, h], by rw [← a2, ← b2, h], by rw [← a3, ← b3, h], by rw [← a4, ← b4, h], by rw [← a5, ← b5, h]⟩

/-- C08: with order checking off, two histories with the same operations concerning `f` and the same caller memory: a
call of `f` has the same result, the same effect on memory and adds the same errors. -/
theorem C08_call_independent (hp : runRev cfg m0 p = .ok s) (hq : runRev cfg m1 q = .ok t)
    (hlp : p.length + 1 < 2 ^ 32) (hlq : q.length + 1 < 2 ^ 32) {f : FnId} (hoff : s.order = false)
    (hsame : p.filter (concerns f) = q.filter (concerns f)) (hmem : s.mem = t.mem) (c : Call) :
    (∃ s' t' o new, step cfg s (.call f c) = .ok (s', o) ∧ step cfg t (.call f c) = .ok (t', o) ∧ s'.mem = t'.mem ∧
      s'.errs = s.errs ++ new ∧ t'.errs = t.errs ++ new) ∨
    (step cfg s (.call f c) = .ub ∧ step cfg t (.call f c) = .ub) := by
  obtain ⟨e1, e2, e3, e4, e5⟩ := same_concerns hsame
  obtain ⟨h1, l1⟩ := run_sim (by omega) hp
  obtain ⟨h2, l2⟩ := run_sim (by omega) hq
  have hoff2 : t.order = false := by rw [h2.order, ← e4, ← h1.order, hoff]
  cases hf : cfg.fn? f with
  | none => exact Or.inr ⟨by simp [step, hf], by simp [step, hf]⟩
  | some fc =>
    cases hld : loaded f.file p with
    | false =>
      refine Or.inr ⟨?_, ?_⟩
      · simp [step, hf, h1.loaded, hld]
      · rw [e3] at hld; simp [step, hf, h2.loaded, hld]
    | true =>
      have hld2 : loaded f.file q = true := by rw [← e3, hld]
      have hserve : serving f q = serving f p := by unfold serving; rw [e1, e2]
      have hpr : (if cfg.backtrace = true ∧ t.print = true then some c.bt else none) =
          (if cfg.backtrace = true ∧ s.print = true then some c.bt else none) := by
        rw [← pcs_iff h1, ← pcs_iff h2, e5]
      cases hs : serving f p with
      | none =>
        obtain ⟨s', a1, a2, a3, _⟩ := step_call_unserved hp hlp hf hld hs c
        obtain ⟨t', b1, b2, b3, _⟩ := step_call_unserved hq hlq hf hld2 (by rw [hserve, hs]) c
        refine Or.inl ⟨s', t', _, _, a1, b1, by rw [a3, b3, hmem], a2, ?_⟩
        rw [b2, hpr]
      | some e =>
        have a := step_call_served hp hlp hf hld hs c
        have b := step_call_served hq hlq hf hld2 (by rw [hserve, hs]) c
        rw [if_neg (by simp [hoff])] at a
        rw [if_neg (by simp [hoff2]), ← hmem] at b
        cases hc : copyAll s.mem (copies fc.outs e.outs c.outs) with
        | none => rw [hc] at a b; exact Or.inr ⟨a, b⟩
        | some m' =>
          rw [hc] at a b
          obtain ⟨s', a1, a2, a3, _⟩ := a
          obtain ⟨t', b1, b2, b3, _⟩ := b
          refine Or.inl ⟨s', t', _, _, a1, b1, by rw [a3, b3], a2, ?_⟩
          rw [b2, ← e2]
          unfold servedErrs
          rw [hpr, hmem]
          simp [hoff, hoff2]

/-- C08, whatever the rest of memory and whatever the order option: the value returned by a call of `f` depends only on
the operations concerning `f`. -/
theorem C08_result_independent (hp : runRev cfg m0 p = .ok s) (hq : runRev cfg m1 q = .ok t)
    (hlp : p.length + 1 < 2 ^ 32) (hlq : q.length + 1 < 2 ^ 32) {f : FnId}
    (hsame : p.filter (concerns f) = q.filter (concerns f)) (c : Call) {v w : Option Val}
    (hv : observe cfg m0 p (.call f c) = .ok (.ret v)) (hw : observe cfg m1 q (.call f c) = .ok (.ret w)) : v = w := by
  obtain ⟨e1, e2, e3, e4, e5⟩ := same_concerns hsame
  rw [observe_eq cfg m0 p _ (run_sim (by omega) hp).2 hlp (by simp)] at hv
  rw [observe_eq cfg m1 q _ (run_sim (by omega) hq).2 hlq (by simp)] at hw
  cases hf : cfg.fn? f with
  | none => simp [Spec.observe, hf] at hv
  | some fc =>
    simp only [Spec.observe, hf] at hv hw
    have : retVal p f fc = retVal q f fc := by unfold retVal serving; rw [e1, e2]
    have aux : ∀ (a b : Prop) [Decidable a] [Decidable b] (x y : Option Val),
        (if a then Res.ub else if b then Res.ub else Res.ok (Out.ret x)) = .ok (.ret y) → x = y := by
      intro a b _ _ x y h
      split at h
      · simp at h
      · split at h
        · simp at h
        · simpa using h
    rw [← aux _ _ _ _ hv, ← aux _ _ _ _ hw, this]

/-- C08: whether a check complains about the number of calls of `f` depends only on the operations concerning `f`. -/
theorem C08_count_independent (hp : runRev cfg m0 p = .ok s) (hq : runRev cfg m1 q = .ok t)
    (hlp : p.length + 1 < 2 ^ 32) (hlq : q.length + 1 < 2 ^ 32) (hd : DistinctNames cfg) {f : FnId} {fc : FnCfg}
    (hf : cfg.fn? f = some fc) (hsame : p.filter (concerns f) = q.filter (concerns f)) (a b : Nat) :
    ∃ s' t' o o', step cfg s .check = .ok (s', o) ∧ step cfg t .check = .ok (t', o') ∧
      ((⟨.count fc.name a b, none⟩ : Err) ∈ s'.errs.drop s.errs.length ↔ ⟨.count fc.name a b, none⟩ ∈ t'.errs.drop t.errs.length) := by
  obtain ⟨e1, e2, e3, _, _⟩ := same_concerns hsame
  obtain ⟨s', b1, h1, h2, _, _, _, h3⟩ := C03_check_reports hp hlp
  obtain ⟨t', b2, g1, g2, _, _, _, g3⟩ := C03_check_reports hq hlq
  refine ⟨s', t', _, _, h1, g1, ?_⟩
  rw [h2, g2, List.drop_left, List.drop_left]
  have key : ∀ past : List Op, (∀ g, g ∈ liveFns cfg past ↔ (cfg.fn? g).isSome ∧ loaded g.file past = true) →
      ((⟨.count fc.name a b, none⟩ : Err) ∈ ((liveFns cfg past).filter (fun f => (exps f past).length ≠ calls f past)).map
        (fun f => ⟨.count (cfg.name f) (exps f past).length (calls f past), none⟩) ↔
      loaded f.file past = true ∧ (exps f past).length ≠ calls f past ∧ a = (exps f past).length ∧ b = calls f past) := by
    intro past hlive
    simp only [List.mem_map, List.mem_filter]
    constructor
    · rintro ⟨g, ⟨hg, hne⟩, hh⟩
      obtain ⟨hv, hl⟩ := (hlive g).mp hg
      obtain ⟨gc, hgc⟩ := Option.isSome_iff_exists.mp hv
      simp only [Err.mk.injEq, ErrKind.count.injEq, and_true] at hh
      rw [name_eq hgc] at hh
      have := hd g f gc fc hgc hf hh.1
      subst this
      exact ⟨hl, by simpa using hne, hh.2.1.symm, hh.2.2.symm⟩
    · rintro ⟨hl, hne, rfl, rfl⟩
      exact ⟨f, ⟨(hlive f).mpr ⟨by simp [hf], hl⟩, by simpa using hne⟩, by rw [name_eq hf]⟩
  rw [key p h3, key q g3, e1, e2, e3]

/-- Two histories with the same operations concerning `h`, different ones for `f`. -/
example : ([.expect Demo.h (Demo.eH 1 5) true, .load 1, .load 0] : List Op).filter (concerns Demo.h) =
      ([.call Demo.f (Demo.cF 2), .expect Demo.h (Demo.eH 1 5) true, .load 1, .expect Demo.f (Demo.eF 1 6) true, .load 0] : List Op).filter
        (concerns Demo.h) ∧
    Demo.isOk (runRev Demo.cfg Demo.m0 [.call Demo.f (Demo.cF 2), .expect Demo.h (Demo.eH 1 5) true, .load 1, .expect Demo.f (Demo.eF 1 6) true, .load 0]) = true := by
  exact ⟨rfl, by decide +kernel⟩

end

end EasyMock
