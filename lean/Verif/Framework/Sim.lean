import Verif.Framework.Lemmas

namespace EasyMock
open Spec

/-- State `s` is what the history `past` says. -/
structure Sim (cfg : Cfg) (m0 : Mem) (past : List Op) (s : State) : Prop where
  order : s.order = Spec.order past
  print : cfg.backtrace = true → s.print = Spec.print past
  reg : ∀ i, s.reg i = Spec.loaded i past
  loaded : ∀ i, s.loaded i = Spec.loaded i past
  fifo : s.fifo = Spec.fifo cfg past
  errs : s.errs = Spec.errs cfg m0 past
  mem : s.mem = Spec.mem cfg m0 past
  minv : MInv cfg s.mocks s.heap (fun f => ⟨exps f past, calls f past⟩)

theorem Sim.pcs {cfg : Cfg} {m0 : Mem} {past : List Op} {s : State} (h : Sim cfg m0 past s) :
    s.printCallStack cfg = (cfg.backtrace && Spec.print past) := by
  unfold State.printCallStack
  cases hb : cfg.backtrace with
  | false => simp
  | true => simp [h.print hb]

theorem sim_nil (cfg : Cfg) (m0 : Mem) : Sim cfg m0 [] (State.initial cfg m0) := by
  refine ⟨rfl, fun _ => rfl, fun _ => rfl, fun _ => rfl, rfl, rfl, rfl, ?_⟩
  constructor
  · intro f _; exact (zeroMock_rep _).1
  · intro f hf; exact (zeroMock_rep ⟨fun _ => none, 0⟩).2.2 hf
  · intro f g q _ _ h _; exact ((zeroMock_rep ⟨fun _ => none, 0⟩).2.1 q h).elim
  · intro q h; simp [State.initial] at h
  · intro q h; simp [State.initial] at h

section
variable {cfg : Cfg} {m0 : Mem} {past : List Op} {s : State}

theorem filterMap_congr {α β : Type} {l : List α} {f g : α → Option β} (h : ∀ a ∈ l, f a = g a) :
    l.filterMap f = l.filterMap g := by
  induction l with
  | nil => rfl
  | cons a l ih =>
    rw [List.filterMap_cons, List.filterMap_cons, h a (by simp), ih (fun b hb => h b (by simp [hb]))]

theorem fold_join (l : List Err) (acc : String) :
    l.foldl (fun acc e => acc ++ e.render ++ "\n\r") acc = acc ++ String.join (l.map fun e => e.render ++ "\n\r") := by
  induction l generalizing acc with
  | nil => simp [String.join]
  | cons e l ih =>
    rw [List.foldl_cons, ih]
    simp [String.append_assoc]

theorem getErrorStr_eq (s : State) : getErrorStr s =
    if s.errs = [] then none else some (String.join (s.errs.map fun e => e.render ++ "\n\r")) := by
  unfold getErrorStr
  simp only [fold_join]
  cases h : s.errs with
  | nil => simp [String.join]
  | cons e l =>
    simp only [List.map_cons, String.join_cons, String.empty_append]
    rw [if_neg, if_neg (by simp)]
    intro he
    have := congrArg String.toList he
    simp at this

theorem getErrorArr_eq (s : State) (h : s.errs.length < 2 ^ 32) : getErrorArr s =
    if s.errs = [] then (none, 0) else (some (s.errs.map (fun e => some e.render) ++ [none]), s.errs.length) := by
  unfold getErrorArr trunc32
  simp only [h, if_true]
  cases he : s.errs with
  | nil => simp
  | cons e l => simp

theorem callErrs_served {f : FnId} {fc : FnCfg} {e : Exp} {c : Call} (hs : serving f past = some e) :
    callErrs cfg m0 past f fc c =
    (if fc.isMember ∧ e.inst ≠ 0 ∧ e.inst ≠ c.this then
      [ErrKind.badInstance (calls f past + 1) fc.name e.inst c.this] else []) ++
    (matchErrs (mem cfg m0 past) (zip3 fc.paramNames e.params c.args)).map (ErrKind.mismatch (calls f past + 1) fc.name) ++
    (if outOfOrder cfg past fc then [ErrKind.order fc.name ((fifo cfg past).head?.getD "")] else []) := by
  unfold callErrs; rw [hs]

/-- Closed form of a served call. -/
theorem callFn_served (h : Sim cfg m0 past s) (hl : Legal cfg m0 past) (hlen : past.length + 1 < 2 ^ 32)
    {f : FnId} {fc : FnCfg} (hf : cfg.fn? f = some fc) {e : Exp} (hs : serving f past = some e) (c : Call) :
    ∃ mocks heap, MInv cfg mocks heap (fun g => ⟨exps g (.call f c :: past), calls g (.call f c :: past)⟩) ∧
    callFn cfg s f fc c =
      match memCall cfg past (mem cfg m0 past) f fc c with
      | none => .ub
      | some m' => .ok ({ s with mocks := mocks, heap := heap, fifo := (fifo cfg past).tail, errs := errs cfg m0 (.call f c :: past), mem := m' }, fc.ret.map fun _ => e.ret) := by
  have hv : Valid cfg f := by simp [Valid, hf]
  have hc : calls f past + 1 < 2 ^ 32 := by have := calls_le_length f past; omega
  have hrep := h.minv.rep f hv
  have hser : (AMock.serving ⟨exps f past, calls f past⟩ : Option Exp) = some e := hs
  obtain ⟨hb, -, -, -, -⟩ := addActualCall_rep hrep hc
  obtain ⟨h', m', g1, g2, g3, g4, g5⟩ := getCurrentCallParam_ok hrep h.minv.bound hc e hser
  have hne := fifo_ne_nil hl hv (by rw [hs]; rfl)
  refine ⟨fun g => if g = f then m' else s.mocks g, h', ?_, ?_⟩
  · refine (h.minv.update hv g3 g2 g4).congr ?_
    intro g _
    by_cases eg : g = f
    · simp [eg, AMock.call]
    · simp [eg, Ne.symm eg]
  · have hb' : (s.mocks f).addActualCall.2 = true := by rw [hb, hser]; rfl
    have hmock : ((s.setMock f (s.mocks f).addActualCall.1).mocks f) = (s.mocks f).addActualCall.1 := by
      simp [State.setMock]
    have hheap : (s.setMock f (s.mocks f).addActualCall.1).heap = s.heap := rfl
    unfold callFn
    simp only [hb', Bool.true_eq_false, if_false, hmock, hheap, g1, Res.bind_ok]
    have hord : (({ (s.setMock f (s.mocks f).addActualCall.1).setMock f m' with heap := h' } : State).mocks f).getNbActualCall
        = calls f past + 1 := by simp [State.setMock, g5]
    have hmem : s.mem = mem cfg m0 past := h.mem
    obtain ⟨n0, rest, hfifo⟩ := List.exists_cons_of_ne_nil hne
    have hsf : s.fifo = n0 :: rest := by rw [h.fifo, hfifo]
    have hso := h.order
    have hse := h.errs
    have hpcs := h.pcs
    rw [hpcs, hord]
    have herrs : errs cfg m0 (.call f c :: past) = errs cfg m0 past ++ (callErrs cfg m0 past f fc c).map
        fun k => ⟨k, if cfg.backtrace && print past then some c.bt else none⟩ := by
      simp only [Spec.errs, hf]
    rw [herrs, callErrs_served hs]
    have hmc : memCall cfg past (mem cfg m0 past) f fc c =
        if outOfOrder cfg past fc then some (mem cfg m0 past) else copyAll (mem cfg m0 past) (copies fc.outs e.outs c.outs) := by
      unfold memCall; rw [hs]
    rw [hmc]
    have hset : ({ (s.setMock f (s.mocks f).addActualCall.1).setMock f m' with heap := h' } : State) =
        { s with mocks := fun g => if g = f then m' else s.mocks g, heap := h' } := by
      simp only [State.setMock]
      congr 1
      funext g
      by_cases eg : g = f <;> simp [eg]
    rw [hset]
    have hout : outOfOrder cfg past fc = (Spec.order past && n0 != fc.name) := by
      unfold outOfOrder; rw [hfifo]; simp [bne]
    have hcp : copies fc.outs e.outs c.outs = (zip3 fc.outs e.outs c.outs).filterMap fun (sz, o, dst) =>
      if o.src = 0 then none else some (dst, o.src, sz.getD o.size) := rfl
    rw [hout, hcp, hfifo]
    generalize (cfg.backtrace && print past) = pcs
    by_cases hi : fc.isMember = true ∧ e.inst ≠ 0 ∧ e.inst ≠ c.this <;>
    by_cases ho : Spec.order past = true ∧ n0 ≠ fc.name
    · have ho' : (Spec.order past && n0 != fc.name) = true := by simp [ho.1, ho.2]
      have ho'' : (s.order = true ∧ n0 ≠ fc.name) := by rw [hso]; exact ho
      rw [if_pos hi, if_pos hi]
      simp only [ho', checkParams_eq, State.popCurrentCall, State.addError, hsf, hmem, hse, if_true]
      rw [if_pos ho'']
      simp
    · have ho' : (Spec.order past && n0 != fc.name) = false := by
        rw [Bool.eq_false_iff]; intro hh; apply ho; simpa using hh
      have ho'' : ¬ (s.order = true ∧ n0 ≠ fc.name) := by rw [hso]; exact ho
      rw [if_pos hi, if_pos hi]
      simp only [ho', checkParams_eq, State.popCurrentCall, State.addError, hsf, hmem, hse,
        writeOuts_eq, Bool.false_eq_true, if_false]
      rw [if_neg ho'']
      cases copyAll (mem cfg m0 past) ((zip3 fc.outs e.outs c.outs).filterMap fun (sz, o, dst) =>
        if o.src = 0 then none else some (dst, o.src, sz.getD o.size)) <;> simp
    · have ho' : (Spec.order past && n0 != fc.name) = true := by simp [ho.1, ho.2]
      have ho'' : (s.order = true ∧ n0 ≠ fc.name) := by rw [hso]; exact ho
      rw [if_neg hi, if_neg hi]
      simp only [ho', checkParams_eq, State.popCurrentCall, State.addError, hsf, hmem, hse, if_true]
      rw [if_pos ho'']
      simp
    · have ho' : (Spec.order past && n0 != fc.name) = false := by
        rw [Bool.eq_false_iff]; intro hh; apply ho; simpa using hh
      have ho'' : ¬ (s.order = true ∧ n0 ≠ fc.name) := by rw [hso]; exact ho
      rw [if_neg hi, if_neg hi]
      simp only [ho', checkParams_eq, State.popCurrentCall, State.addError, hsf, hmem, hse,
        writeOuts_eq, Bool.false_eq_true, if_false]
      rw [if_neg ho'']
      cases copyAll (mem cfg m0 past) ((zip3 fc.outs e.outs c.outs).filterMap fun (sz, o, dst) =>
        if o.src = 0 then none else some (dst, o.src, sz.getD o.size)) <;> simp

/-- Closed form of an unexpected call. -/
theorem callFn_unserved (h : Sim cfg m0 past s) (hlen : past.length + 1 < 2 ^ 32)
    {f : FnId} {fc : FnCfg} (hf : cfg.fn? f = some fc) (hs : serving f past = none) (c : Call) :
    ∃ mocks, MInv cfg mocks s.heap (fun g => ⟨exps g (.call f c :: past), calls g (.call f c :: past)⟩) ∧
    callFn cfg s f fc c = .ok ({ s with mocks := mocks, errs := errs cfg m0 (.call f c :: past) },
      fc.ret.map fun n => List.replicate n 0) := by
  have hv : Valid cfg f := by simp [Valid, hf]
  have hc : calls f past + 1 < 2 ^ 32 := by have := calls_le_length f past; omega
  have hrep := h.minv.rep f hv
  have hser : (AMock.serving ⟨exps f past, calls f past⟩ : Option Exp) = none := hs
  obtain ⟨hb, hr, ho, hk, -⟩ := addActualCall_rep hrep hc
  have hb' : (s.mocks f).addActualCall.2 = false := by rw [hb, hser]; rfl
  have fr : MFrame s.heap (s.mocks f) s.heap (s.mocks f).addActualCall.1 :=
    MFrame.refl_of _ _ _ ho (fun q hq => h.minv.bound q (hrep.live hq))
  refine ⟨fun g => if g = f then (s.mocks f).addActualCall.1 else s.mocks g, ?_, ?_⟩
  · refine (h.minv.update hv fr (hr hb') hk).congr ?_
    intro g _
    by_cases eg : g = f
    · simp [eg, AMock.call]
    · simp [eg, Ne.symm eg]
  · have herrs : errs cfg m0 (.call f c :: past) = errs cfg m0 past ++ (callErrs cfg m0 past f fc c).map
        fun k => ⟨k, if cfg.backtrace && print past then some c.bt else none⟩ := by
      simp only [Spec.errs, hf]
    have hce : callErrs cfg m0 past f fc c = [.unexpected fc.name (fc.ret.map fun _ => fc.shortName)] := by
      unfold callErrs; rw [hs]
    unfold callFn
    simp only [hb', if_true, State.addError, State.setMock, h.pcs, herrs, hce, h.errs]
    simp

/-- One operation follows the specification, whatever its outcome. -/
theorem sim_step (h : Sim cfg m0 past s) (hl : Legal cfg m0 past) (hlen : past.length + 1 < 2 ^ 32) (op : Op) :
    match Spec.observe cfg m0 past op with
    | .ok o => ∃ s' o', step cfg s op = .ok (s', o') ∧ Sim cfg m0 (op :: past) s' ∧
        ((op = .getArr → (errs cfg m0 past).length < 2 ^ 32) → o' = o)
    | .exit => step cfg s op = .exit
    | .ub => step cfg s op = .ub := by
  have hrl : ∀ i, s.reg i = true → s.loaded i = true := fun i hi => by rw [h.loaded, ← h.reg]; exact hi
  cases op with
  | expect f e alloc =>
    cases hf : cfg.fn? f with
    | none => simp [Spec.observe, step, hf]
    | some fc =>
      have hv : Valid cfg f := by simp [Valid, hf]
      have hname : cfg.name f = fc.name := by simp [Cfg.name, hf]
      have hkc : kindC cfg f = fc.isC := by simp [kindC, hf]
      by_cases hld : Spec.loaded f.file past = true
      · have hlds : s.loaded f.file = true := by rw [h.loaded]; exact hld
        have hrep := h.minv.rep f hv
        have hkind := h.minv.kind f hv
        by_cases hx : fc.isC = true ∧ (256 ≤ (exps f past).length ∨ alloc = false)
        · have : Spec.observe cfg m0 past (.expect f e alloc) = .exit := by
            simp only [Spec.observe, hf, hld, Bool.true_eq_false, if_false]
            rw [if_pos hx]
          rw [this]
          simp only [step, hf, hlds, if_true, expectFn]
          cases hm : s.mocks f with
          | cpp m => rw [hm, hkc, hx.1] at hkind; simp [Mock.isC] at hkind
          | c m =>
            rw [hm] at hrep
            rcases hx.2 with h1 | h1
            · rw [addExpectedCall_full hrep alloc e h1]; rfl
            · subst h1; rw [addExpectedCall_noalloc hrep e]; rfl
        · have hobs : Spec.observe cfg m0 past (.expect f e alloc) = .ok .none := by
            simp only [Spec.observe, hf, hld, Bool.true_eq_false, if_false]
            rw [if_neg hx]
          rw [hobs]
          have hlen2 := exps_le_length f past
          have hadd : ∃ h' m', (s.mocks f).addExpectedCall alloc s.heap e = .ok (h', m') ∧
              m'.Rep h' (AMock.expect ⟨exps f past, calls f past⟩ e) ∧ MFrame s.heap (s.mocks f) h' m' ∧
              m'.isC = (s.mocks f).isC := by
            have key := addExpectedCall_ok hrep e h.minv.bound (by
              rw [hkind, hkc]; intro hc
              simp only [not_and, not_or, Nat.not_le] at hx
              exact (hx hc).1) (by simp only; omega)
            cases ha : alloc with
            | true => exact key
            | false =>
              cases hm : s.mocks f with
              | c m =>
                rw [hm, hkc] at hkind
                exact absurd ⟨by rw [← hkind]; rfl, Or.inr ha⟩ hx
              | cpp m => rw [hm] at key; exact key
          obtain ⟨h', m', e1, r, fr, hk⟩ := hadd
          refine ⟨({ s.setMock f m' with heap := h' } : State).addCall fc.name, .none, ?_, ?_, fun _ => rfl⟩
          · simp [step, hf, hlds, expectFn, e1]
          · refine ⟨h.order, h.print, h.reg, h.loaded, ?_, h.errs, h.mem, ?_⟩
            · simp [State.addCall, State.setMock, Spec.fifo, h.fifo, hname]
            · refine (h.minv.update hv fr r hk).congr ?_
              intro g _
              by_cases eg : g = f
              · simp [eg, AMock.expect]
              · simp [eg, Ne.symm eg]
      · have hld' : Spec.loaded f.file past = false := by simpa using hld
        have hlds : s.loaded f.file = false := by rw [h.loaded]; exact hld'
        simp [Spec.observe, step, hf, hld', hlds]
  | call f c =>
    cases hf : cfg.fn? f with
    | none => simp [Spec.observe, step, hf]
    | some fc =>
      by_cases hld : Spec.loaded f.file past = true
      · have hlds : s.loaded f.file = true := by rw [h.loaded]; exact hld
        have hobs : Spec.observe cfg m0 past (.call f c) =
            if (memCall cfg past (mem cfg m0 past) f fc c).isNone then .ub else .ok (.ret (retVal past f fc)) := by
          simp only [Spec.observe, hf, hld, Bool.true_eq_false, if_false]
        rw [hobs]
        have hmem : mem cfg m0 (.call f c :: past) =
            (memCall cfg past (mem cfg m0 past) f fc c).getD (mem cfg m0 past) := by simp only [Spec.mem, hf]
        cases hs : serving f past with
        | none =>
          obtain ⟨mocks, hm, e1⟩ := callFn_unserved h hlen hf hs c
          have hmc : memCall cfg past (mem cfg m0 past) f fc c = some (mem cfg m0 past) := by
            unfold memCall; rw [hs]
          rw [hmc] at hmem ⊢
          refine ⟨_, _, by simp only [step, hf, hlds, if_true, e1, Res.bind_ok]; rfl, ?_, fun _ => ?_⟩
          · refine ⟨h.order, h.print, h.reg, h.loaded, ?_, rfl, ?_, hm⟩
            · simp [Spec.fifo, hs, h.fifo]
            · simp only [hmem, Option.getD_some]; exact h.mem
          · simp [retVal, hs]
        | some e =>
          obtain ⟨mocks, heap, hm, e1⟩ := callFn_served h hl hlen hf hs c
          cases hmc : memCall cfg past (mem cfg m0 past) f fc c with
          | none =>
            rw [hmc] at e1
            simp [step, hf, hlds, e1]
          | some m' =>
            rw [hmc] at e1 hmem
            refine ⟨_, _, by simp only [step, hf, hlds, if_true, e1, Res.bind_ok]; rfl, ?_, fun _ => ?_⟩
            · refine ⟨h.order, h.print, h.reg, h.loaded, ?_, rfl, ?_, hm⟩
              · simp [Spec.fifo, hs]
              · rw [hmem]; rfl
            · simp [retVal, hs]
      · have hld' : Spec.loaded f.file past = false := by simpa using hld
        have hlds : s.loaded f.file = false := by rw [h.loaded]; exact hld'
        simp [Spec.observe, step, hf, hld', hlds]
  | init =>
    obtain ⟨mocks, heap, e1, m1⟩ := resetFiles_ok (List.range cfg.files.length) s _ h.minv hrl
    refine ⟨_, _, by simp only [step, initFramework, e1, Res.bind_ok]; rfl, ?_, fun _ => rfl⟩
    refine ⟨h.order, h.print, h.reg, h.loaded, rfl, rfl, h.mem, m1.congr ?_⟩
    intro f hf
    by_cases hr : s.reg f.file = true
    · simp [hr, valid_file_lt hf, AMock.fresh]
    · have hld : Spec.loaded f.file past = false := by rw [← h.reg]; simpa using hr
      obtain ⟨k1, k2⟩ := fresh_of_unloaded hl f hld
      simp [hr, k1, k2]
  | check =>
    have hreg : s.reg = fun i => Spec.loaded i past := funext h.reg
    have hE : ∀ f ∈ liveFns cfg past, (s.mocks f).getNbExpectedCall = (exps f past).length ∧
        (s.mocks f).getNbActualCall = calls f past := by
      intro f hf
      unfold liveFns at hf
      simp only [List.mem_flatMap, mem_fnsOf] at hf
      obtain ⟨i, _, _, hv⟩ := hf
      exact ⟨(h.minv.rep f hv).nbExpected, (h.minv.rep f hv).nbActual⟩
    have hlive : ((List.range cfg.files.length).filter s.reg).flatMap cfg.fnsOf = liveFns cfg past := by
      rw [hreg]; rfl
    have hf1 : (liveFns cfg past).filterMap (fun f =>
        if (s.mocks f).getNbExpectedCall = (s.mocks f).getNbActualCall then none
        else some (ErrKind.count (cfg.name f) (s.mocks f).getNbExpectedCall (s.mocks f).getNbActualCall)) =
        checkErrs cfg past := by
      unfold checkErrs
      exact filterMap_congr (fun f hf => by rw [(hE f hf).1, (hE f hf).2])
    have hf2 : ((liveFns cfg past).all fun f => (s.mocks f).getNbExpectedCall == (s.mocks f).getNbActualCall) =
        (liveFns cfg past).all fun f => (exps f past).length == calls f past := by
      rw [Bool.eq_iff_iff, List.all_eq_true, List.all_eq_true]
      constructor <;> intro hh f hf <;> have := hh f hf <;> rw [(hE f hf).1, (hE f hf).2] at * <;> exact this
    have hv := verifyFiles_eq cfg (List.range cfg.files.length) s hrl
    rw [hlive, hf1, hf2, h.errs] at hv
    refine ⟨_, _, by simp only [step, verifyEasyMock, hv, Res.bind_ok]; rfl, ?_, fun _ => ?_⟩
    · exact ⟨h.order, h.print, h.reg, h.loaded, h.fifo, rfl, h.mem, by simpa using h.minv⟩
    · have : (checkErrs cfg past = []) ↔ ((liveFns cfg past).all fun f => (exps f past).length == calls f past) = true := by
        unfold checkErrs
        simp [List.filterMap_eq_nil_iff]
      unfold Spec.verdict
      congr 1
      rw [Bool.eq_iff_iff, Bool.and_eq_true, Bool.and_eq_true]
      simp only [List.isEmpty_iff, List.append_eq_nil_iff, List.map_eq_nil_iff, this]
      constructor
      · rintro ⟨a, b, _⟩; exact ⟨b, a⟩
      · rintro ⟨a, b⟩; exact ⟨b, a, b⟩
  | setOrder b =>
    exact ⟨_, _, rfl, ⟨rfl, h.print, h.reg, h.loaded, h.fifo, h.errs, h.mem, by simpa using h.minv⟩, fun _ => rfl⟩
  | setPrint b =>
    refine ⟨_, _, rfl, ?_, fun _ => rfl⟩
    cases hb : cfg.backtrace with
    | true =>
      simp only [State.setPrintCallStack, hb, if_true]
      exact ⟨h.order, fun _ => rfl, h.reg, h.loaded, h.fifo, h.errs, h.mem, by simpa using h.minv⟩
    | false =>
      simp only [State.setPrintCallStack, hb, Bool.false_eq_true, if_false]
      exact ⟨h.order, by simp [hb], h.reg, h.loaded, h.fifo, h.errs, h.mem, by simpa using h.minv⟩
  | load i =>
    by_cases hx : Spec.loaded i past = true ∨ cfg.files.length ≤ i
    · have hx' : s.loaded i = true ∨ cfg.files.length ≤ i := by rw [h.loaded]; exact hx
      simp [Spec.observe, step, hx, hx']
    · have hx' : ¬ (s.loaded i = true ∨ cfg.files.length ≤ i) := by rw [h.loaded]; exact hx
      have hobs : Spec.observe cfg m0 past (.load i) = .ok .none := by simp [Spec.observe, hx]
      rw [hobs]
      have hunl : Spec.loaded i past = false := by
        have := not_or.mp hx; simpa using this.1
      obtain ⟨mocks, e1, m1⟩ := initFns_ok (cfg.fnsOf i)
        { s with loaded := fun j => if j = i then true else s.loaded j } _ h.minv (by
          intro f hf
          obtain ⟨rfl, hv⟩ := mem_fnsOf.mp hf
          obtain ⟨k1, k2⟩ := fresh_of_unloaded hl f hunl
          exact ⟨hv, by simp [k1, k2, AMock.fresh]⟩)
      refine ⟨_, _, by simp only [step, hx', if_false, e1]; rfl, ?_, fun _ => rfl⟩
      refine ⟨h.order, h.print, ?_, ?_, h.fifo, h.errs, h.mem, m1.congr ?_⟩
      · intro j; simp only [State.registerMock, Spec.loaded, h.reg]
        by_cases ej : j = i <;> simp [ej, eq_comm (a := i)]
      · intro j; simp only [State.registerMock, Spec.loaded, h.loaded]
        by_cases ej : j = i <;> simp [ej, eq_comm (a := i)]
      · intro f _
        by_cases ef : i = f.file
        · obtain ⟨k1, k2⟩ := fresh_of_unloaded hl f (ef ▸ hunl)
          simp [ef, k1, k2]
        · simp [ef]
  | unload i =>
    by_cases hx : Spec.loaded i past = true
    · have hx' : s.loaded i = true := by rw [h.loaded]; exact hx
      have hobs : Spec.observe cfg m0 past (.unload i) = .ok .none := by simp [Spec.observe, hx]
      rw [hobs]
      obtain ⟨mocks, heap, e1, m1⟩ := resetFns_ok (cfg.fnsOf i) s _ h.minv (fun f hf => (mem_fnsOf.mp hf).2)
      refine ⟨_, _, by simp only [step, hx', if_true, e1, Res.bind_ok]; rfl, ?_, fun _ => rfl⟩
      refine ⟨h.order, h.print, ?_, ?_, h.fifo, h.errs, h.mem, m1.congr ?_⟩
      · intro j; simp only [State.unregisterMock, Spec.loaded, h.reg]
        by_cases ej : j = i <;> simp [ej, eq_comm (a := i)]
      · intro j; simp only [Spec.loaded, h.loaded]
        by_cases ej : j = i <;> simp [ej, eq_comm (a := i)]
      · intro f hf
        by_cases ef : i = f.file
        · simp [ef, mem_fnsOf, hf, AMock.fresh]
        · simp [ef, mem_fnsOf, Ne.symm ef]
    · have hx' : ¬ s.loaded i = true := by rw [h.loaded]; exact hx
      simp [Spec.observe, step, hx, hx']
  | getStr =>
    refine ⟨_, _, rfl, ⟨h.order, h.print, h.reg, h.loaded, h.fifo, h.errs, h.mem, by simpa using h.minv⟩, fun _ => ?_⟩
    rw [getErrorStr_eq, h.errs]
  | getArr =>
    refine ⟨_, _, rfl, ⟨h.order, h.print, h.reg, h.loaded, h.fifo, h.errs, h.mem, by simpa using h.minv⟩, fun hh => ?_⟩
    rw [getErrorArr_eq s (by rw [h.errs]; exact hh rfl), h.errs]
    split <;> rfl
  | poke a b =>
    cases hm : Spec.mem cfg m0 past a with
    | none =>
      have : s.mem a = none := by rw [h.mem]; exact hm
      simp [Spec.observe, step, hm, this]
    | some x =>
      have hsm : s.mem a = some x := by rw [h.mem]; exact hm
      simp only [Spec.observe, hm, Option.isSome_some, if_true]
      refine ⟨_, _, by simp only [step, hsm]; rfl, ?_, fun _ => rfl⟩
      exact ⟨h.order, h.print, h.reg, h.loaded, h.fifo, h.errs, by simp only [Spec.mem, h.mem], by simpa using h.minv⟩

end

/-- A history reaches a state exactly when the specification says that it is legal. -/
theorem run_legal (cfg : Cfg) (m0 : Mem) (past : List Op) (hlen : past.length < 2 ^ 32) :
    (Legal cfg m0 past → ∃ s, runRev cfg m0 past = .ok s ∧ Sim cfg m0 past s) ∧
    (∀ s, runRev cfg m0 past = .ok s → Legal cfg m0 past) := by
  induction past with
  | nil => exact ⟨fun _ => ⟨_, rfl, sim_nil cfg m0⟩, fun _ _ => trivial⟩
  | cons op past ih =>
    simp only [List.length_cons] at hlen
    obtain ⟨ih1, ih2⟩ := ih (by omega)
    constructor
    · rintro ⟨hl, o, ho⟩
      obtain ⟨s, hs, hsim⟩ := ih1 hl
      have := sim_step hsim hl hlen op
      rw [ho] at this
      obtain ⟨s', o', e, hs', _⟩ := this
      exact ⟨s', by simp [runRev, hs, e], hs'⟩
    · intro s' hs'
      simp only [runRev] at hs'
      cases hr : runRev cfg m0 past with
      | exit => simp [hr] at hs'
      | ub => simp [hr] at hs'
      | ok s =>
        have hl := ih2 s hr
        refine ⟨hl, ?_⟩
        obtain ⟨s2, hs2, hsim⟩ := ih1 hl
        rw [hr] at hs2
        cases hs2
        have := sim_step hsim hl hlen op
        rw [hr] at hs'
        simp only [Res.bind_ok] at hs'
        cases ho : Spec.observe cfg m0 past op with
        | ok o => exact ⟨o, rfl⟩
        | exit => rw [ho] at this; simp only at this; rw [this] at hs'; simp at hs'
        | ub => rw [ho] at this; simp only at this; rw [this] at hs'; simp at hs'

theorem run_sim {cfg : Cfg} {m0 : Mem} {past : List Op} (hlen : past.length < 2 ^ 32) {s : State}
    (hs : runRev cfg m0 past = .ok s) : Sim cfg m0 past s ∧ Legal cfg m0 past := by
  obtain ⟨h1, h2⟩ := run_legal cfg m0 past hlen
  obtain ⟨s', e, hsim⟩ := h1 (h2 s hs)
  rw [hs] at e; cases e
  exact ⟨hsim, h2 s hs⟩

/-- After a legal history every operation is observed as specified. -/
theorem observe_eq (cfg : Cfg) (m0 : Mem) (past : List Op) (op : Op) (hl : Legal cfg m0 past)
    (hlen : past.length + 1 < 2 ^ 32) (harr : op = .getArr → (errs cfg m0 past).length < 2 ^ 32) :
    observe cfg m0 past op = Spec.observe cfg m0 past op := by
  obtain ⟨s, hs, hsim⟩ := (run_legal cfg m0 past (by omega)).1 hl
  have := sim_step hsim hl hlen op
  unfold observe
  rw [hs]
  cases ho : Spec.observe cfg m0 past op with
  | ok o =>
    rw [ho] at this
    obtain ⟨s', o', e, _, hh⟩ := this
    simp [e, hh harr]
  | exit => rw [ho] at this; simp only at this; simp [this]
  | ub => rw [ho] at this; simp only at this; simp [this]

end EasyMock
