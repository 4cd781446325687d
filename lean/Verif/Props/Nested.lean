import Verif.Framework.Nested
import Verif.Framework.Sim
import Verif.Framework.Demo

/-! # C100: matchers that call mocks -/

namespace EasyMock.Nested
open Spec

/-! ### Specification -/

/-- The functions whose calls start, in this order. -/
def starts (tr : List Ev) : List FnId := tr.filterMap fun | .enter f _ => some f | _ => none

/-- The expectation for the k-th of these calls after the history `past`: the next one of its function. -/
def due (past : List Op) (fs : List FnId) (k : Nat) (f : FnId) : Option Exp := (exps f past)[calls f past + (fs.take k).count f]?

/-- The value a call returns. -/
def result (fc : FnCfg) (e : Option Exp) : Option Val :=
  fc.ret.map fun n => match e with | some e => e.ret | none => List.replicate n 0

/-! ### Invariant -/

structure NInv (cfg : Cfg) (past : List Op) (ld : Nat → Bool) (fs : List FnId) (n : NSt) : Prop where
  fns : n.served.map (·.1) = fs
  loaded : n.s.loaded = ld
  minv : MInv cfg n.s.mocks n.s.heap (fun f => ⟨exps f past, calls f past + fs.count f⟩)
  served : ∀ (k : Nat) f e, n.served[k]? = some (f, e) → e = due past fs k f
  frame : ∀ fr ∈ n.stack, n.served[fr.id]? = some (fr.f, some fr.e) ∧ cfg.fn? fr.f = some fr.fc
  returned : ∀ k v, (k, v) ∈ n.returned → ∃ f e fc, n.served[k]? = some (f, e) ∧ cfg.fn? f = some fc ∧ v = result fc e
  once : (n.returned.map (·.1) ++ n.stack.map (·.id)).Perm (List.range n.served.length)

theorem due_append {past : List Op} {fs : List FnId} {k : Nat} {f g : FnId} (h : k < fs.length) : due past (fs ++ [g]) k f = due past fs k f := by
  rw [due, due, List.take_append_of_le_length (Nat.le_of_lt h)]

theorem due_last {past : List Op} {fs : List FnId} {f : FnId} : due past (fs ++ [f]) fs.length f = (exps f past)[calls f past + fs.count f]? := by
  rw [due, List.take_left]

section
variable {cfg : Cfg} {past : List Op} {ld : Nat → Bool} {fs : List FnId} {n : NSt}

/-- The bookkeeping of a call that starts. -/
theorem NInv.start (h : NInv cfg past ld fs n) {f : FnId} {e : Option Exp} (he : e = (exps f past)[calls f past + fs.count f]?) :
    (∀ (k : Nat) g x, (n.served ++ [(f, e)])[k]? = some (g, x) → x = due past (fs ++ [f]) k g) ∧
    (n.served ++ [(f, e)]).map (·.1) = fs ++ [f] ∧
    (∀ (k : Nat) p, n.served[k]? = some p → (n.served ++ [(f, e)])[k]? = some p) := by
  have hl : n.served.length = fs.length := by rw [← h.fns, List.length_map]
  refine ⟨fun k g x hk => ?_, by rw [List.map_append, h.fns]; rfl, fun k p hk => ?_⟩
  · by_cases hlt : k < n.served.length
    · rw [List.getElem?_append_left hlt] at hk
      rw [due_append (by omega)]
      exact h.served k g x hk
    · rw [List.getElem?_append_right (by omega)] at hk
      by_cases h0 : k = n.served.length
      · subst h0
        simp only [Nat.sub_self, List.getElem?_cons_zero, Option.some.injEq, Prod.mk.injEq] at hk
        obtain ⟨rfl, rfl⟩ := hk
        rw [hl, due_last, he]
      · rw [List.getElem?_eq_none (by simp only [List.length_cons, List.length_nil]; omega)] at hk
        cases hk
  · have hlt : k < n.served.length := (List.getElem?_eq_some_iff.mp hk).1
    rw [List.getElem?_append_left hlt]
    exact hk

theorem count_snoc {fs : List FnId} {f g : FnId} : (fs ++ [f]).count g = fs.count g + if g = f then 1 else 0 := by
  rw [List.count_append, List.count_singleton]
  by_cases h : g = f
  · subst h; simp
  · simp [h, Ne.symm h]

theorem setMock_heap {s : State} {f : FnId} {a b : Mock Exp} {h : DHeap Exp} :
    ({ (s.setMock f a).setMock f b with heap := h } : State) = { s with mocks := fun g => if g = f then b else s.mocks g, heap := h } := by
  simp only [State.setMock]
  congr 1
  funext g
  by_cases eg : g = f <;> simp [eg]

theorem enter_ok (h : NInv cfg past ld fs n) {f : FnId} {fc : FnCfg} (hf : cfg.fn? f = some fc) (c : Call)
    (hlen : calls f past + fs.count f + 1 < 2 ^ 32) : ∃ n', enter cfg n f fc c = .ok n' ∧ NInv cfg past ld (fs ++ [f]) n' := by
  have hv : Valid cfg f := by simp [Valid, hf]
  have hrep := h.minv.rep f hv
  obtain ⟨hb, hr, ho, hk, hn⟩ := addActualCall_rep hrep hlen
  have hm : ∀ g, Valid cfg g → (if g = f then AMock.call ⟨exps f past, calls f past + fs.count f⟩ else ⟨exps g past, calls g past + fs.count g⟩ : AMock Exp) =
      ⟨exps g past, calls g past + (fs ++ [f]).count g⟩ := by
    intro g _
    rw [count_snoc]
    by_cases eg : g = f
    · subst eg; simp [AMock.call, Nat.add_assoc]
    · simp [eg]
  cases hs : (exps f past)[calls f past + fs.count f]? with
  | none =>
    have hser : (AMock.serving ⟨exps f past, calls f past + fs.count f⟩ : Option Exp) = none := hs
    have hb' : (n.s.mocks f).addActualCall.2 = false := by rw [hb, hser]; rfl
    obtain ⟨h1, h2, h3⟩ := h.start hs.symm
    have fr : MFrame n.s.heap (n.s.mocks f) n.s.heap (n.s.mocks f).addActualCall.1 :=
      MFrame.refl_of _ _ _ ho (fun q hq => h.minv.bound q (hrep.live hq))
    refine ⟨_, by rw [enter]; simp only [hb', if_true]; rfl, ?_⟩
    refine ⟨h2, h.loaded, (h.minv.update hv fr (hr hb') hk).congr hm, h1, ?_, ?_, ?_⟩
    · intro x hx
      exact ⟨h3 _ _ (h.frame x hx).1, (h.frame x hx).2⟩
    · intro k v hkv
      rcases List.mem_append.mp hkv with hkv | hkv
      · obtain ⟨g, e, gc, a, b⟩ := h.returned k v hkv
        exact ⟨g, e, gc, h3 _ _ a, b⟩
      · simp only [List.mem_singleton, Prod.mk.injEq] at hkv
        obtain ⟨rfl, rfl⟩ := hkv
        exact ⟨f, none, fc, by simp, hf, rfl⟩
    · simp only [List.map_append, List.length_append, List.length_cons, List.length_nil, List.range_succ, List.append_assoc]
      refine List.Perm.trans ?_ (h.once.append_right _)
      rw [List.append_assoc]
      exact List.Perm.append_left _ List.perm_append_comm
  | some e =>
    have hser : (AMock.serving ⟨exps f past, calls f past + fs.count f⟩ : Option Exp) = some e := hs
    have hb' : (n.s.mocks f).addActualCall.2 = true := by rw [hb, hser]; rfl
    obtain ⟨h1, h2, h3⟩ := h.start hs.symm
    obtain ⟨h', m', g1, g2, g3, g4, g5⟩ := getCurrentCallParam_ok hrep h.minv.bound hlen e hser
    have hmock : ((n.s.setMock f (n.s.mocks f).addActualCall.1).mocks f) = (n.s.mocks f).addActualCall.1 := by
      simp [State.setMock]
    have hheap : (n.s.setMock f (n.s.mocks f).addActualCall.1).heap = n.s.heap := rfl
    refine ⟨_, by rw [enter]; simp only [hb', Bool.true_eq_false, if_false, hmock, hheap, g1, Res.bind_ok]; rfl, ?_⟩
    have hst : ∀ (b : Prop) [Decidable b] (s : State) (k : ErrKind) (p : Bool) (t : String),
        (if b then s.addError p t k else s).mocks = s.mocks ∧ (if b then s.addError p t k else s).heap = s.heap ∧
        (if b then s.addError p t k else s).loaded = s.loaded := by
      intro b _ s k p t
      split <;> exact ⟨rfl, rfl, rfl⟩
    refine ⟨h2, ?_, ?_, h1, ?_, ?_, ?_⟩
    · simp only [(hst _ _ _ _ _).2.2]
      exact h.loaded
    · simp only [(hst _ _ _ _ _).1, (hst _ _ _ _ _).2.1, setMock_heap]
      exact (h.minv.update hv g3 g2 g4).congr hm
    · intro x hx
      rcases List.mem_cons.mp hx with rfl | hx
      · exact ⟨by simp, hf⟩
      · exact ⟨h3 _ _ (h.frame x hx).1, (h.frame x hx).2⟩
    · intro k v hkv
      obtain ⟨g, e, gc, a, b⟩ := h.returned k v hkv
      exact ⟨g, e, gc, h3 _ _ a, b⟩
    · simp only [List.map_cons, List.length_append, List.length_cons, List.length_nil, List.range_succ]
      refine List.Perm.trans ?_ (h.once.append_right _)
      rw [List.append_assoc]
      exact List.Perm.append_left _ (List.perm_append_comm (l₁ := [_]))

theorem popCurrentCall_same (s : State) : s.popCurrentCall.1.mocks = s.mocks ∧ s.popCurrentCall.1.heap = s.heap ∧ s.popCurrentCall.1.loaded = s.loaded := by
  rw [State.popCurrentCall]
  split <;> exact ⟨rfl, rfl, rfl⟩

theorem leave_ok (h : NInv cfg past ld fs n) : ∃ n', nstep cfg n .leave = .ok n' ∧ NInv cfg past ld fs n' := by
  cases hst : n.stack with
  | nil => exact ⟨n, by rw [nstep, hst], h⟩
  | cons fr rest =>
    refine ⟨_, by rw [nstep, hst], ?_⟩
    have hp := popCurrentCall_same n.s
    refine ⟨h.fns, ?_, ?_, h.served, ?_, ?_, ?_⟩
    · simp only
      split
      · exact hp.2.2.trans h.loaded
      · exact hp.2.2.trans h.loaded
    · have e1 : ∀ (b : Prop) [Decidable b] (k : ErrKind), (if b then n.s.popCurrentCall.1.addError fr.pcs fr.bt k else n.s.popCurrentCall.1).mocks = n.s.mocks := by
        intro b _ k; split <;> exact hp.1
      have e2 : ∀ (b : Prop) [Decidable b] (k : ErrKind), (if b then n.s.popCurrentCall.1.addError fr.pcs fr.bt k else n.s.popCurrentCall.1).heap = n.s.heap := by
        intro b _ k; split <;> exact hp.2.1
      simp only [e1, e2]
      exact h.minv
    · intro x hx
      exact h.frame x (by rw [hst]; exact List.mem_cons_of_mem _ hx)
    · intro k v hkv
      rcases List.mem_append.mp hkv with hkv | hkv
      · exact h.returned k v hkv
      · simp only [List.mem_singleton, Prod.mk.injEq] at hkv
        obtain ⟨rfl, rfl⟩ := hkv
        obtain ⟨a, b⟩ := h.frame fr (by rw [hst]; exact List.mem_cons_self ..)
        exact ⟨fr.f, some fr.e, fr.fc, a, b, rfl⟩
    · have ho := h.once
      rw [hst] at ho
      simp only [List.map_append, List.map_cons, List.map_nil, List.append_assoc, List.singleton_append]
      exact ho

theorem nstep_ok (h : NInv cfg past ld fs n) (ev : Ev) (hev : ∀ f c, ev = .enter f c → (cfg.fn? f).isSome ∧ ld f.file = true)
    (hlen : past.length + fs.length + 1 < 2 ^ 32) : ∃ n', nstep cfg n ev = .ok n' ∧ NInv cfg past ld (fs ++ starts [ev]) n' := by
  cases ev with
  | enter f c =>
    obtain ⟨hf, hl⟩ := hev f c rfl
    obtain ⟨fc, hf⟩ := Option.isSome_iff_exists.mp hf
    obtain ⟨n', e, hn⟩ := enter_ok h hf c (by
      have := calls_le_length f past
      have : fs.count f ≤ fs.length := List.count_le_length
      omega)
    refine ⟨n', ?_, hn⟩
    rw [nstep, hf]
    simp only
    rw [if_pos (by rw [h.loaded]; exact hl)]
    exact e
  | reject msg =>
    simp only [starts, List.filterMap_cons, List.filterMap_nil, List.append_nil]
    cases hst : n.stack with
    | nil => exact ⟨n, by rw [nstep, hst], h⟩
    | cons fr rest =>
      refine ⟨{ n with s := n.s.addError fr.pcs fr.bt (.mismatch (n.s.mocks fr.f).getNbActualCall fr.fc.name msg) }, ?_,
        h.fns, h.loaded, h.minv, h.served, h.frame, h.returned, h.once⟩
      rw [nstep]
      split
      · next h0 => rw [hst] at h0; cases h0
      · next h0 => rw [hst] at h0; injection h0 with h0; rw [h0]
  | leave =>
    simp only [starts, List.filterMap_cons, List.filterMap_nil, List.append_nil]
    exact leave_ok h

theorem nrun_ok : ∀ (tr : List Ev) {fs : List FnId} {n : NSt}, NInv cfg past ld fs n →
    (∀ f c, Ev.enter f c ∈ tr → (cfg.fn? f).isSome ∧ ld f.file = true) → past.length + fs.length + tr.length < 2 ^ 32 →
    ∃ n', nrun cfg n tr = .ok n' ∧ NInv cfg past ld (fs ++ starts tr) n'
  | [], fs, n, h, _, _ => ⟨n, rfl, by simpa [starts] using h⟩
  | ev :: tr, fs, n, h, hev, hlen => by
    simp only [List.length_cons] at hlen
    obtain ⟨n1, e1, h1⟩ := nstep_ok h ev (fun f c he => hev f c (he ▸ List.mem_cons_self ..)) (by omega)
    have hle : (starts [ev]).length ≤ 1 := by cases ev <;> simp [starts]
    obtain ⟨n2, e2, h2⟩ := nrun_ok tr h1 (fun f c he => hev f c (List.mem_cons_of_mem _ he)) (by rw [List.length_append]; omega)
    refine ⟨n2, by rw [nrun, e1]; exact e2, ?_⟩
    have : starts (ev :: tr) = starts [ev] ++ starts tr := by rw [starts, starts, starts, ← List.filterMap_append]; rfl
    rw [this, ← List.append_assoc]
    exact h2

end

theorem ninv_start {cfg : Cfg} {m0 : Mem} {past : List Op} {s : State} (h : Sim cfg m0 past s) :
    NInv cfg past (fun i => Spec.loaded i past) [] { s := s } := by
  refine ⟨rfl, funext h.loaded, ?_, ?_, ?_, ?_, ?_⟩
  · simpa using h.minv
  · intro k f e hk; simp at hk
  · intro fr hfr; simp at hfr
  · intro k v hk; simp at hk
  · simp

/-! ### Theorems -/

/-- C100 for the data: after any history, whatever mocks the matchers of a call call, the same mock included, nothing is undefined and
    the process goes on; the calls of a function take its expectations in the order in which they start, a call that has ended
    returned what its own expectation says (zeros if there was none), and every call that started has either ended once or is active.

    Missing: the reports and the order of calls, for which the claim is false (below). -/
theorem C100_served_partial {cfg : Cfg} {m0 : Mem} {past : List Op} {s : State} (hr : runRev cfg m0 past = .ok s) (tr : List Ev)
    (hlen : past.length + tr.length < 2 ^ 32) (htr : ∀ f c, Ev.enter f c ∈ tr → (cfg.fn? f).isSome ∧ Spec.loaded f.file past = true) :
    ∃ n, nrun cfg { s := s } tr = .ok n ∧ n.served.map (·.1) = starts tr ∧
      (∀ (k : Nat) f e, n.served[k]? = some (f, e) → e = (exps f past)[calls f past + ((starts tr).take k).count f]?) ∧
      (∀ k v, (k, v) ∈ n.returned → ∃ f e fc, n.served[k]? = some (f, e) ∧ cfg.fn? f = some fc ∧ v = result fc e) ∧
      (n.returned.map (·.1) ++ n.stack.map (·.id)).Perm (List.range (starts tr).length) := by
  obtain ⟨n, e, h⟩ := nrun_ok tr (ninv_start (run_sim (by omega) hr).1) htr (by simpa using hlen)
  rw [List.nil_append] at h
  refine ⟨n, e, h.fns, h.served, h.returned, ?_⟩
  have := h.once
  rwa [show n.served.length = (starts tr).length by rw [← h.fns, List.length_map]] at this

theorem nrun_append {cfg : Cfg} : ∀ (a b : List Ev) {n n' : NSt}, nrun cfg n a = .ok n' → nrun cfg n (a ++ b) = nrun cfg n' b
  | [], _, n, n', e => by rw [nrun] at e; injection e with e; rw [e]; rfl
  | ev :: a, b, n, n', e => by
    rw [nrun] at e
    rw [List.cons_append, nrun]
    cases ht : nstep cfg n ev with
    | ok n1 => rw [ht] at e; exact nrun_append a b e
    | exit => rw [ht] at e; cases e
    | ub => rw [ht] at e; cases e

/-- C100, the number in a report: the innermost call reports its own number exactly if no call of its function started during it. -/
theorem C100_ordinal {cfg : Cfg} {m0 : Mem} {past : List Op} {s : State} (hr : runRev cfg m0 past = .ok s) {tr : List Ev} {n : NSt}
    (hlen : past.length + tr.length < 2 ^ 32) (htr : ∀ f c, Ev.enter f c ∈ tr → (cfg.fn? f).isSome ∧ Spec.loaded f.file past = true)
    (hn : nrun cfg { s := s } tr = .ok n) {fr : Frame} {rest : List Frame} (hst : n.stack = fr :: rest) (msg : String) :
    ∃ n' k bt, nrun cfg { s := s } (tr ++ [.reject msg]) = .ok n' ∧ n'.s.errs = n.s.errs ++ [⟨.mismatch k fr.fc.name msg, bt⟩] ∧
      (starts tr)[fr.id]? = some fr.f ∧
      (k = calls fr.f past + ((starts tr).take fr.id).count fr.f + 1 ↔ fr.f ∉ (starts tr).drop (fr.id + 1)) := by
  obtain ⟨n1, e, h⟩ := nrun_ok tr (ninv_start (run_sim (by omega) hr).1) htr (by simpa using hlen)
  rw [List.nil_append] at h
  rw [hn] at e
  injection e with e
  subst e
  obtain ⟨hfr, hf⟩ := h.frame fr (by rw [hst]; exact List.mem_cons_self ..)
  have hv : Valid cfg fr.f := by simp [Valid, hf]
  have hid : (starts tr)[fr.id]? = some fr.f := by rw [← h.fns, List.getElem?_map, hfr]; rfl
  have hk : (n.s.mocks fr.f).getNbActualCall = calls fr.f past + (starts tr).count fr.f := (h.minv.rep fr.f hv).nbActual
  refine ⟨{ n with s := n.s.addError fr.pcs fr.bt (.mismatch (n.s.mocks fr.f).getNbActualCall fr.fc.name msg) }, _, _, ?_, rfl, hid, ?_⟩
  · rw [nrun_append _ _ hn, nrun, nstep]
    split
    · next h0 => rw [hst] at h0; cases h0
    · next h0 => rw [hst] at h0; injection h0 with h0; rw [h0]; rfl
  · rw [hk]
    obtain ⟨hlt, hg⟩ := List.getElem?_eq_some_iff.mp hid
    have hs : starts tr = (starts tr).take fr.id ++ fr.f :: (starts tr).drop (fr.id + 1) := by
      rw [← hg, ← List.drop_eq_getElem_cons hlt, List.take_append_drop]
    have hc : (starts tr).count fr.f = ((starts tr).take fr.id).count fr.f + (((starts tr).drop (fr.id + 1)).count fr.f + 1) := by
      conv => lhs; rw [hs]
      rw [List.count_append, List.count_cons_self]
    rw [← List.count_eq_zero, hc]
    omega

theorem rejects_eq {cfg : Cfg} {fr : Frame} {rest : List Frame} : ∀ (msgs : List String) (n : NSt), n.stack = fr :: rest →
    nrun cfg n (msgs.map .reject) = .ok { n with s := { n.s with
      errs := n.s.errs ++ (msgs.map (ErrKind.mismatch (n.s.mocks fr.f).getNbActualCall fr.fc.name)).map
        (fun k => (⟨k, if fr.pcs then some fr.bt else none⟩ : Err)) } }
  | [], n, _ => by simp [nrun]
  | msg :: msgs, n, hst => by
    have e : nstep cfg n (.reject msg) = .ok { n with s := n.s.addError fr.pcs fr.bt (.mismatch (n.s.mocks fr.f).getNbActualCall fr.fc.name msg) } := by
      rw [nstep]
      split
      · next h0 => rw [hst] at h0; cases h0
      · next h0 => rw [hst] at h0; injection h0 with h0; rw [h0]
    rw [List.map_cons, nrun, e]
    simp only [Res.bind_ok]
    rw [rejects_eq (fr := fr) (rest := rest) msgs
      { n with s := n.s.addError fr.pcs fr.bt (.mismatch (n.s.mocks fr.f).getNbActualCall fr.fc.name msg) } hst]
    simp [State.addError]

/-- A call whose matchers call no mocks does here what it does in the model of the framework: the two models agree. -/
theorem C100_agrees {cfg : Cfg} {m0 : Mem} {past : List Op} {s : State} (hr : runRev cfg m0 past = .ok s) (hlen : past.length + 1 < 2 ^ 32)
    {f : FnId} {fc : FnCfg} (hf : cfg.fn? f = some fc) (hl : Spec.loaded f.file past = true) (ho : fc.outs = []) (c : Call) :
    ∃ n s' v, step cfg s (.call f c) = .ok (s', .ret v) ∧
      nrun cfg { s := s } (.enter f c :: (match serving f past with
        | some e => matchErrs s.mem (zip3 fc.paramNames e.params c.args)
        | none => []).map .reject ++ [.leave]) = .ok n ∧ n.s = s' ∧ n.returned = [(0, v)] ∧ n.stack = [] := by
  obtain ⟨sim, -⟩ := run_sim (by omega) hr
  have hv : Valid cfg f := by simp [Valid, hf]
  have hc : calls f past + 1 < 2 ^ 32 := by have := calls_le_length f past; omega
  have hrep := sim.minv.rep f hv
  have hld : s.loaded f.file = true := by rw [sim.loaded]; exact hl
  obtain ⟨hb, -, -, -, -⟩ := addActualCall_rep hrep hc
  cases hs : serving f past with
  | none =>
    have hser : (AMock.serving ⟨exps f past, calls f past⟩ : Option Exp) = none := hs
    have hb' : (s.mocks f).addActualCall.2 = false := by rw [hb, hser]; rfl
    let s1 : State := (s.setMock f (s.mocks f).addActualCall.1).addError (s.printCallStack cfg) c.bt
        (.unexpected fc.name (fc.ret.map fun _ => fc.shortName))
    have e1 : step cfg s (.call f c) = .ok (s1, .ret (fc.ret.map fun n => List.replicate n 0)) := by
      simp only [step, hf, hld, if_true, callFn, hb', Res.bind_ok]
      rfl
    have e2 : nstep cfg { s := s } (.enter f c) =
        .ok { s := s1, served := [(f, none)], returned := [(0, fc.ret.map fun n => List.replicate n 0)] } := by
      simp only [nstep, hf, hld, if_true, enter, hb']
      rfl
    refine ⟨{ s := s1, served := [(f, none)], returned := [(0, fc.ret.map fun n => List.replicate n 0)] }, _, _, e1, ?_, rfl, rfl, rfl⟩
    simp only [List.map_nil, List.cons_append, List.nil_append, nrun, e2, Res.bind_ok]
    rfl
  | some e =>
    have hser : (AMock.serving ⟨exps f past, calls f past⟩ : Option Exp) = some e := hs
    have hb' : (s.mocks f).addActualCall.2 = true := by rw [hb, hser]; rfl
    obtain ⟨h', m', g1, -, -, -, -⟩ := getCurrentCallParam_ok hrep sim.minv.bound hc e hser
    have hmock : ((s.setMock f (s.mocks f).addActualCall.1).mocks f) = (s.mocks f).addActualCall.1 := by
      simp [State.setMock]
    have hheap : (s.setMock f (s.mocks f).addActualCall.1).heap = s.heap := rfl
    have hz : ∀ a b, zip3 fc.outs a b = ([] : List (Option Nat × OutExp × Addr)) := by intro a b; rw [ho]; rfl
    let s1 : State := { (s.setMock f (s.mocks f).addActualCall.1).setMock f m' with heap := h' }
    let s2 : State := if fc.isMember = true ∧ e.inst ≠ 0 ∧ e.inst ≠ c.this then
      s1.addError (s.printCallStack cfg) c.bt (.badInstance (s1.mocks f).getNbActualCall fc.name e.inst c.this) else s1
    have e2 : nstep cfg { s := s } (.enter f c) = .ok { s := s2, served := [(f, some e)], stack := [⟨0, f, fc, e, s.order, s.printCallStack cfg, c.bt⟩] } := by
      simp only [nstep, hf, hld, if_true, enter, hb', Bool.true_eq_false, if_false, hmock, hheap, g1, Res.bind_ok]
      rfl
    have hm2 : s2.mocks = s1.mocks ∧ s2.mem = s.mem := by
      simp only [s2]
      split <;> exact ⟨rfl, rfl⟩
    have e3 := rejects_eq (cfg := cfg) (fr := ⟨0, f, fc, e, s.order, s.printCallStack cfg, c.bt⟩) (rest := [])
      (matchErrs s.mem (zip3 fc.paramNames e.params c.args))
      { s := s2, served := [(f, some e)], stack := [⟨0, f, fc, e, s.order, s.printCallStack cfg, c.bt⟩] } rfl
    let new : List Err := ((matchErrs s.mem (zip3 fc.paramNames e.params c.args)).map
      (ErrKind.mismatch (s2.mocks f).getNbActualCall fc.name)).map (fun k => ⟨k, if s.printCallStack cfg then some c.bt else none⟩)
    let s3 : State := { s2 with errs := s2.errs ++ new }
    let s4 : State := if s.order = true ∧ s3.popCurrentCall.2 ≠ fc.name then
      s3.popCurrentCall.1.addError (s.printCallStack cfg) c.bt (.order fc.name s3.popCurrentCall.2) else s3.popCurrentCall.1
    have e1 : step cfg s (.call f c) = .ok (s4, .ret (fc.ret.map fun _ => e.ret)) := by
      simp only [step, hf, hld, if_true, callFn, hb', Bool.true_eq_false, if_false, hmock, hheap, g1, Res.bind_ok, checkParams_eq, hz, writeOuts]
      by_cases hi : fc.isMember = true ∧ e.inst ≠ 0 ∧ e.inst ≠ c.this
      · have h2 : s2 = s1.addError (s.printCallStack cfg) c.bt (.badInstance (s1.mocks f).getNbActualCall fc.name e.inst c.this) := if_pos hi
        simp only [if_pos hi]
        by_cases h0 : s.order = true ∧ s3.popCurrentCall.2 ≠ fc.name
        · rw [show s4 = _ from if_pos h0]
          simp only [s3, new, h2] at h0 ⊢
          rw [if_pos (c := s.order = true ∧ _ ≠ fc.name) ?_]
          · rfl
          · exact h0
        · rw [show s4 = _ from if_neg h0]
          simp only [s3, new, h2] at h0 ⊢
          rw [if_neg (c := s.order = true ∧ _ ≠ fc.name) ?_]
          · rfl
          · exact h0
      · have h2 : s2 = s1 := if_neg hi
        simp only [if_neg hi]
        by_cases h0 : s.order = true ∧ s3.popCurrentCall.2 ≠ fc.name
        · rw [show s4 = _ from if_pos h0]
          simp only [s3, new, h2] at h0 ⊢
          rw [if_pos (c := s.order = true ∧ _ ≠ fc.name) ?_]
          · rfl
          · exact h0
        · rw [show s4 = _ from if_neg h0]
          simp only [s3, new, h2] at h0 ⊢
          rw [if_neg (c := s.order = true ∧ _ ≠ fc.name) ?_]
          · rfl
          · exact h0
    refine ⟨{ s := s4, served := [(f, some e)], returned := [(0, fc.ret.map fun _ => e.ret)] }, _, _, e1, ?_, rfl, rfl, rfl⟩
    rw [List.cons_append, nrun, e2]
    simp only [Res.bind_ok]
    rw [nrun_append _ _ e3]
    rfl

/-! ### The order of calls -/

/-- The names of the served calls that ended, in the order in which they ended. -/
def ended (cfg : Cfg) (n : NSt) : List String :=
  n.returned.filterMap fun p => match n.served[p.1]? with
    | some (f, some _) => some (cfg.name f)
    | _ => none

/-- The error is about the order of calls. -/
def isOrder : ErrKind → Bool
  | .order _ _ | .noCall => true
  | _ => false

theorem prefix_snoc {α : Type} {a F : List α} {x : α} : (a ++ [x]) <+: F ↔ a <+: F ∧ (F.drop a.length).head? = some x := by
  constructor
  · rintro ⟨t, rfl⟩
    exact ⟨⟨x :: t, by simp⟩, by simp⟩
  · rintro ⟨⟨t, rfl⟩, h⟩
    rw [List.drop_left] at h
    cases t with
    | nil => cases h
    | cons y t =>
      injection h with h
      exact ⟨t, by simp [h]⟩

structure OInv (cfg : Cfg) (F : List String) (E : List Err) (n : NSt) : Prop where
  order : n.s.order = true
  frames : ∀ fr ∈ n.stack, fr.order = true
  fifo : n.s.fifo = F.drop (ended cfg n).length
  errs : ∃ new, n.s.errs = E ++ new ∧ ((∃ e ∈ new, isOrder e.kind = true) ↔ ¬ ended cfg n <+: F)

theorem enter_keeps {cfg : Cfg} {n n' : NSt} {f : FnId} {fc : FnCfg} {c : Call} (e : enter cfg n f fc c = .ok n') :
    n'.s.order = n.s.order ∧ n'.s.fifo = n.s.fifo ∧ (∃ new, n'.s.errs = n.s.errs ++ new ∧ ∀ x ∈ new, isOrder x.kind = false) ∧
    (∀ fr ∈ n'.stack, fr ∈ n.stack ∨ fr.order = n.s.order) ∧
    ∃ x, n'.served = n.served ++ [(f, x)] ∧ (n'.returned = n.returned ∨ x = none ∧ ∃ v, n'.returned = n.returned ++ [(n.served.length, v)]) := by
  rw [enter] at e
  simp only at e
  split at e
  · injection e with e
    subst e
    exact ⟨rfl, rfl, ⟨_, rfl, by simp [isOrder]⟩, fun fr h => .inl h, none, rfl, .inr ⟨rfl, _, rfl⟩⟩
  · generalize hg : Mock.getCurrentCallParam _ _ = g at e
    cases g with
    | ok x =>
      obtain ⟨h, m, d⟩ := x
      simp only [Res.bind_ok] at e
      cases d with
      | none =>
        injection e with e
        subst e
        exact ⟨rfl, rfl, ⟨_, rfl, by simp [isOrder]⟩, fun fr h => .inl h, none, rfl, .inr ⟨rfl, _, rfl⟩⟩
      | some d =>
        simp only at e
        injection e with e
        subst e
        refine ⟨?_, ?_, ?_, ?_, some d, rfl, .inl rfl⟩
        · simp only; split <;> rfl
        · simp only; split <;> rfl
        · simp only
          split
          · exact ⟨_, rfl, by simp [isOrder]⟩
          · exact ⟨[], (List.append_nil _).symm, by simp⟩
        · intro fr hfr
          rcases List.mem_cons.mp hfr with rfl | hfr
          · exact .inr rfl
          · exact .inl hfr
    | exit => cases e
    | ub => cases e

section
variable {cfg : Cfg} {past : List Op} {ld : Nat → Bool} {fs : List FnId} {n n' : NSt} {F : List String} {E : List Err}

theorem ended_enter (h : NInv cfg past ld fs n) {f : FnId} {x : Option Exp} (hs : n'.served = n.served ++ [(f, x)])
    (hr : n'.returned = n.returned ∨ x = none ∧ ∃ v, n'.returned = n.returned ++ [(n.served.length, v)]) : ended cfg n' = ended cfg n := by
  have hold : (n.returned.filterMap fun p => match n'.served[p.1]? with
      | some (f, some _) => some (cfg.name f)
      | _ => none) = ended cfg n := by
    refine filterMap_congr fun p hp => ?_
    obtain ⟨g, e, gc, hk, -⟩ := h.returned p.1 p.2 hp
    rw [hs, List.getElem?_append_left (List.getElem?_eq_some_iff.mp hk).1]
  rcases hr with hr | ⟨rfl, v, hr⟩
  · rw [ended, hr]
    exact hold
  · rw [ended, hr, List.filterMap_append, hold]
    simp [hs]

theorem order_step (h : NInv cfg past ld fs n) (o : OInv cfg F E n) {ev : Ev} (e : nstep cfg n ev = .ok n') : OInv cfg F E n' := by
  obtain ⟨new, he, hiff⟩ := o.errs
  cases ev with
  | enter f c =>
    rw [nstep] at e
    cases hf : cfg.fn? f with
    | none => rw [hf] at e; cases e
    | some fc =>
      rw [hf] at e
      simp only at e
      split at e
      · obtain ⟨h1, h2, ⟨new', h3, h4⟩, h5, x, h6, h7⟩ := enter_keeps e
        have hen := ended_enter h h6 h7
        refine ⟨h1.trans o.order, fun fr hfr => ?_, by rw [h2, hen]; exact o.fifo, new ++ new', by rw [h3, he, List.append_assoc], ?_⟩
        · rcases h5 fr hfr with h5 | h5
          · exact o.frames fr h5
          · exact h5.trans o.order
        · rw [hen, ← hiff]
          constructor
          · rintro ⟨x, hx, hy⟩
            rcases List.mem_append.mp hx with hx | hx
            · exact ⟨x, hx, hy⟩
            · rw [h4 x hx] at hy; cases hy
          · rintro ⟨x, hx, hy⟩
            exact ⟨x, List.mem_append_left _ hx, hy⟩
      · cases e
  | reject msg =>
    rw [nstep] at e
    split at e
    · injection e with e; subst e; exact o
    · injection e with e
      subst e
      refine ⟨o.order, o.frames, o.fifo, new ++ [_], by simp only [State.addError]; rw [he, List.append_assoc], ?_⟩
      refine Iff.trans ?_ hiff
      simp [isOrder]
  | leave =>
    rw [nstep] at e
    split at e
    · injection e with e; subst e; exact o
    · next fr rest hst =>
      have hfr := h.frame fr (by rw [hst]; exact List.mem_cons_self ..)
      have hord := o.frames fr (by rw [hst]; exact List.mem_cons_self ..)
      have hname : cfg.name fr.f = fr.fc.name := by rw [Cfg.name, hfr.2]
      injection e with e
      have hen : ended cfg n' = ended cfg n ++ [fr.fc.name] := by
        subst e
        simp only [ended, List.filterMap_append, List.filterMap_cons, hfr.1, List.filterMap_nil, hname]
      have hrest : ∀ x ∈ n'.stack, x.order = true := by
        subst e
        exact fun x hx => o.frames x (by rw [hst]; exact List.mem_cons_of_mem _ hx)
      have hfifo := o.fifo
      cases hF : F.drop (ended cfg n).length with
      | nil =>
        rw [hF] at hfifo
        have hno : ¬ ended cfg n' <+: F := by
          rw [hen, prefix_snoc, hF]
          rintro ⟨-, h⟩
          cases h
        have hd : ([] : List String) = F.drop (ended cfg n').length := by
          rw [hen, List.length_append, ← List.drop_drop, hF]; rfl
        have hs : n'.s.order = true ∧ n'.s.fifo = [] ∧ ∃ x, n'.s.errs = E ++ (new ++ ⟨.noCall, none⟩ :: x) := by
          subst e
          simp only [State.popCurrentCall, hfifo]
          split
          · exact ⟨o.order, hfifo, [_], by simp [State.addError, he]; rfl⟩
          · exact ⟨o.order, hfifo, [], by simp [State.addError, he]⟩
        obtain ⟨a, b, x, hx⟩ := hs
        refine ⟨a, hrest, b.trans hd, _, hx, fun _ => hno, fun _ => ⟨⟨.noCall, none⟩, by simp, rfl⟩⟩
      | cons y ys =>
        rw [hF] at hfifo
        have hd : ys = F.drop (ended cfg n').length := by
          rw [hen, List.length_append, ← List.drop_drop, hF]; rfl
        by_cases hy : y = fr.fc.name
        · have hs : n'.s.order = true ∧ n'.s.fifo = ys ∧ n'.s.errs = E ++ new := by
            subst e
            simp only [State.popCurrentCall, hfifo]
            rw [if_neg (fun hh => hh.2 hy)]
            exact ⟨o.order, rfl, he⟩
          refine ⟨hs.1, hrest, hs.2.1.trans hd, new, hs.2.2, ?_⟩
          rw [hen, prefix_snoc, hF, hiff]
          simp [hy]
        · have hs : n'.s.order = true ∧ n'.s.fifo = ys ∧ ∃ bt, n'.s.errs = E ++ (new ++ [⟨.order fr.fc.name y, bt⟩]) := by
            subst e
            simp only [State.popCurrentCall, hfifo]
            rw [if_pos ⟨hord, hy⟩]
            exact ⟨o.order, rfl, _, by simp only [State.addError, he, List.append_assoc]; rfl⟩
          obtain ⟨a, b, bt, hx⟩ := hs
          refine ⟨a, hrest, b.trans hd, _, hx, fun _ => ?_, fun _ => ⟨⟨.order fr.fc.name y, bt⟩, by simp, rfl⟩⟩
          rw [hen, prefix_snoc, hF]
          rintro ⟨-, h⟩
          injection h with h
          exact hy h

theorem order_run : ∀ (tr : List Ev) {fs : List FnId} {n n' : NSt}, NInv cfg past ld fs n → OInv cfg F E n →
    (∀ f c, Ev.enter f c ∈ tr → (cfg.fn? f).isSome ∧ ld f.file = true) → past.length + fs.length + tr.length < 2 ^ 32 →
    nrun cfg n tr = .ok n' → OInv cfg F E n'
  | [], _, n, n', _, o, _, _, e => by rw [nrun] at e; injection e with e; subst e; exact o
  | ev :: tr, fs, n, n', h, o, hev, hlen, e => by
    simp only [List.length_cons] at hlen
    obtain ⟨n1, e1, h1⟩ := nstep_ok h ev (fun f c he => hev f c (he ▸ List.mem_cons_self ..)) (by omega)
    have hle : (starts [ev]).length ≤ 1 := by cases ev <;> simp [starts]
    rw [nrun, e1] at e
    exact order_run tr h1 (order_step h o e1) (fun f c he => hev f c (List.mem_cons_of_mem _ he)) (by rw [List.length_append]; omega) e

end

/-- C100, the order of calls: when it is checked, an error about it is added exactly if the served calls do not end in the order in
    which the pending expectations were set. -/
theorem C100_order {cfg : Cfg} {m0 : Mem} {past : List Op} {s : State} (hr : runRev cfg m0 past = .ok s) {tr : List Ev} {n : NSt}
    (hlen : past.length + tr.length < 2 ^ 32) (htr : ∀ f c, Ev.enter f c ∈ tr → (cfg.fn? f).isSome ∧ Spec.loaded f.file past = true)
    (hord : Spec.order past = true) (hn : nrun cfg { s := s } tr = .ok n) :
    ∃ new, n.s.errs = errs cfg m0 past ++ new ∧ ((∃ e ∈ new, isOrder e.kind = true) ↔ ¬ ended cfg n <+: fifo cfg past) := by
  have sim := (run_sim (by omega) hr).1
  have o : OInv cfg (fifo cfg past) (errs cfg m0 past) { s := s } :=
    ⟨sim.order.trans hord, by simp, by simpa [ended] using sim.fifo, [], by simpa using sim.errs, by simp [ended]⟩
  exact (order_run tr (ninv_start sim) o htr (by simpa using hlen) hn).errs

/-! ### Internal errors -/

/-- The error says that there is a bug in EasyMock. -/
def isBug : ErrKind → Bool
  | .noCall | .noData => true
  | _ => false

/-- Expectations of `f` that are still there. -/
def leftOver (past : List Op) (fs : List FnId) (f : FnId) : Nat := (exps f past).length - (calls f past + fs.count f)

structure BInv (cfg : Cfg) (past : List Op) (fs : List FnId) (E : List Err) (n : NSt) : Prop where
  queue : total (allFns cfg) (leftOver past fs) + n.stack.length ≤ n.s.fifo.length
  errs : ∃ new, n.s.errs = E ++ new ∧ ∀ e ∈ new, isBug e.kind = false

section
variable {cfg : Cfg} {past : List Op} {ld : Nat → Bool} {fs : List FnId} {n n' : NSt} {E : List Err}

theorem enter_shape (h : NInv cfg past ld fs n) {f : FnId} {fc : FnCfg} (hf : cfg.fn? f = some fc) {c : Call}
    (hlen : calls f past + fs.count f + 1 < 2 ^ 32) (e : enter cfg n f fc c = .ok n') :
    (∃ new, n'.s.errs = n.s.errs ++ new ∧ ∀ x ∈ new, isBug x.kind = false) ∧
    n'.stack.length = n.stack.length + if calls f past + fs.count f < (exps f past).length then 1 else 0 := by
  have hv : Valid cfg f := by simp [Valid, hf]
  have hrep := h.minv.rep f hv
  obtain ⟨hb, -, -, -, -⟩ := addActualCall_rep hrep hlen
  cases hs : (exps f past)[calls f past + fs.count f]? with
  | none =>
    have hser : (AMock.serving ⟨exps f past, calls f past + fs.count f⟩ : Option Exp) = none := hs
    have hb' : (n.s.mocks f).addActualCall.2 = false := by rw [hb, hser]; rfl
    have hge := List.getElem?_eq_none_iff.mp hs
    rw [enter] at e
    simp only [hb', if_true] at e
    injection e with e
    subst e
    refine ⟨⟨_, rfl, by simp [isBug]⟩, ?_⟩
    rw [if_neg (by omega)]
    rfl
  | some d =>
    have hser : (AMock.serving ⟨exps f past, calls f past + fs.count f⟩ : Option Exp) = some d := hs
    have hb' : (n.s.mocks f).addActualCall.2 = true := by rw [hb, hser]; rfl
    have hlt := (List.getElem?_eq_some_iff.mp hs).1
    obtain ⟨h', m', g1, -, -, -, -⟩ := getCurrentCallParam_ok hrep h.minv.bound hlen d hser
    have hmock : ((n.s.setMock f (n.s.mocks f).addActualCall.1).mocks f) = (n.s.mocks f).addActualCall.1 := by
      simp [State.setMock]
    have hheap : (n.s.setMock f (n.s.mocks f).addActualCall.1).heap = n.s.heap := rfl
    rw [enter] at e
    simp only [hb', Bool.true_eq_false, if_false, hmock, hheap, g1, Res.bind_ok] at e
    injection e with e
    subst e
    rw [if_pos hlt]
    refine ⟨?_, rfl⟩
    simp only
    split
    · exact ⟨_, rfl, by simp [isBug]⟩
    · exact ⟨[], (List.append_nil _).symm, by simp⟩

theorem bug_step (h : NInv cfg past ld fs n) (b : BInv cfg past fs E n) {ev : Ev} (hlen : past.length + fs.length + 1 < 2 ^ 32)
    (e : nstep cfg n ev = .ok n') : BInv cfg past (fs ++ starts [ev]) E n' := by
  obtain ⟨new, he, hno⟩ := b.errs
  have hq := b.queue
  cases ev with
  | enter f c =>
    rw [nstep] at e
    cases hf : cfg.fn? f with
    | none => rw [hf] at e; cases e
    | some fc =>
      rw [hf] at e
      simp only at e
      split at e
      · have hv : Valid cfg f := by simp [Valid, hf]
        obtain ⟨-, h2, -⟩ := enter_keeps e
        obtain ⟨⟨new', h3, h4⟩, h5⟩ := enter_shape h hf (by
          have := calls_le_length f past
          have : fs.count f ≤ fs.length := List.count_le_length
          omega) e
        refine ⟨?_, new ++ new', by rw [h3, he, List.append_assoc], fun x hx => ?_⟩
        · have hu := total_update (allFns_nodup cfg) (mem_allFns.mpr hv) (g := leftOver past fs) (g' := leftOver past (fs ++ [f]))
            (by intro x hx; rw [leftOver, leftOver, count_snoc, if_neg hx]; rfl)
          have hl : leftOver past (fs ++ [f]) f = (exps f past).length - (calls f past + (fs.count f + 1)) := by
            rw [leftOver, count_snoc, if_pos rfl]
          have hl' : leftOver past fs f = (exps f past).length - (calls f past + fs.count f) := rfl
          rw [show fs ++ starts [Ev.enter f c] = fs ++ [f] from rfl, h2, h5]
          split <;> omega
        · rcases List.mem_append.mp hx with hx | hx
          · exact hno x hx
          · exact h4 x hx
      · cases e
  | reject msg =>
    rw [show fs ++ starts [Ev.reject msg] = fs from List.append_nil _]
    rw [nstep] at e
    split at e
    · injection e with e; subst e; exact b
    · injection e with e
      subst e
      refine ⟨hq, new ++ [_], by simp only [State.addError]; rw [he, List.append_assoc], fun x hx => ?_⟩
      rcases List.mem_append.mp hx with hx | hx
      · exact hno x hx
      · rw [List.mem_singleton.mp hx]; rfl
  | leave =>
    rw [show fs ++ starts [Ev.leave] = fs from List.append_nil _]
    rw [nstep] at e
    split at e
    · injection e with e; subst e; exact b
    · next fr rest hst =>
      injection e with e
      subst e
      rw [hst, List.length_cons] at hq
      cases hF : n.s.fifo with
      | nil => rw [hF, List.length_nil] at hq; omega
      | cons y ys =>
        rw [hF, List.length_cons] at hq
        simp only [State.popCurrentCall, hF]
        refine ⟨?_, ?_⟩
        · simp only
          split <;> (simp only [State.addError]; omega)
        · simp only
          split
          · refine ⟨new ++ [_], by simp only [State.addError]; rw [he, List.append_assoc], fun x hx => ?_⟩
            rcases List.mem_append.mp hx with hx | hx
            · exact hno x hx
            · rw [List.mem_singleton.mp hx]; rfl
          · exact ⟨new, he, hno⟩

theorem bug_run : ∀ (tr : List Ev) {fs : List FnId} {n n' : NSt}, NInv cfg past ld fs n → BInv cfg past fs E n →
    (∀ f c, Ev.enter f c ∈ tr → (cfg.fn? f).isSome ∧ ld f.file = true) → past.length + fs.length + tr.length < 2 ^ 32 →
    nrun cfg n tr = .ok n' → BInv cfg past (fs ++ starts tr) E n'
  | [], fs, n, n', _, b, _, _, e => by
    rw [nrun] at e; injection e with e; subst e
    rw [show fs ++ starts [] = fs from List.append_nil _]; exact b
  | ev :: tr, fs, n, n', h, b, hev, hlen, e => by
    simp only [List.length_cons] at hlen
    obtain ⟨n1, e1, h1⟩ := nstep_ok h ev (fun f c he => hev f c (he ▸ List.mem_cons_self ..)) (by omega)
    have hle : (starts [ev]).length ≤ 1 := by cases ev <;> simp [starts]
    rw [nrun, e1] at e
    have := bug_run tr h1 (bug_step h b (by omega) e1) (fun f c he => hev f c (List.mem_cons_of_mem _ he)) (by rw [List.length_append]; omega) e
    rw [List.append_assoc] at this
    rwa [show starts (ev :: tr) = starts [ev] ++ starts tr by rw [starts, starts, starts, ← List.filterMap_append]; rfl]

end

/-- C100: nested calls never make the framework report a bug of its own. -/
theorem C100_no_internal_error {cfg : Cfg} {m0 : Mem} {past : List Op} {s : State} (hr : runRev cfg m0 past = .ok s) {tr : List Ev} {n : NSt}
    (hlen : past.length + tr.length < 2 ^ 32) (htr : ∀ f c, Ev.enter f c ∈ tr → (cfg.fn? f).isSome ∧ Spec.loaded f.file past = true)
    (hn : nrun cfg { s := s } tr = .ok n) :
    ∃ new, n.s.errs = errs cfg m0 past ++ new ∧ ∀ e ∈ new, e.kind ≠ .noCall ∧ e.kind ≠ .noData := by
  obtain ⟨sim, legal⟩ := run_sim (by omega) hr
  have b : BInv cfg past [] (errs cfg m0 past) { s := s } := by
    refine ⟨?_, [], by simpa using sim.errs, by simp⟩
    have := pending_le_fifo legal
    rw [← sim.fifo] at this
    have e : leftOver past [] = pending past := by funext f; rw [leftOver, pending]; rfl
    rw [e]
    exact this
  obtain ⟨new, h1, h2⟩ := (bug_run tr (ninv_start sim) b htr (by simpa using hlen) hn).errs
  refine ⟨new, h1, fun e he => ⟨fun h => ?_, fun h => ?_⟩⟩
  · have := h2 e he; rw [h] at this; cases this
  · have := h2 e he; rw [h] at this; cases this

/-! ### Deviations -/

namespace Ex
open Demo

/-- Expected: `g`, then `g`; the order is checked. -/
def two : List Op := [.expect g eG true, .expect g eG true] ++ boot

/-- C100 does not hold for the number in a report: the first call says it is the second one if its matcher has called the function. -/
theorem C100_refuted_ordinal : ∃ s n bt, runRev cfg m0 two = .ok s ∧
    nrun cfg { s := s } [.enter g cG, .enter g cG, .leave, .reject "a", .leave] = .ok n ∧
    n.s.errs = [⟨.mismatch 2 "void g()" "a", bt⟩] ∧ n.returned = [(1, none), (0, none)] :=
  ⟨_, _, _, rfl, rfl, rfl, rfl⟩

/-- Expected: `h`, then `g`, which a matcher of `h` calls. -/
def inner : List Op := [.expect g eG true, .expect h (eH 3 30) true] ++ boot

/-- The same, in the order in which the calls end. -/
def outer : List Op := [.expect h (eH 3 30) true, .expect g eG true] ++ boot

/-- C100 does not hold for the order of calls: it is checked when calls end.  Calls that start in the expected order are reported, and
    calls that start in another order are accepted. -/
theorem C100_refuted_order : ∃ s n s' n', runRev cfg m0 inner = .ok s ∧ runRev cfg m0 outer = .ok s' ∧
    nrun cfg { s := s } [.enter h (cH 3), .enter g cG, .leave, .leave] = .ok n ∧
    nrun cfg { s := s' } [.enter h (cH 3), .enter g cG, .leave, .leave] = .ok n' ∧
    n.s.errs.map (·.kind) = [.order "void g()" "int K::h(int a)", .order "int K::h(int a)" "void g()"] ∧ n'.s.errs = [] :=
  ⟨_, _, _, _, rfl, rfl, rfl, rfl, by decide +kernel, rfl⟩

/-- The hypotheses of C100 hold for a call of `h` whose matcher calls `g` twice, once too often. -/
example : ∃ s n, runRev cfg m0 inner = .ok s ∧
    nrun cfg { s := s } [.enter h (cH 3), .enter g cG, .leave, .enter g cG, .reject "a", .leave] = .ok n ∧
    n.returned = [(1, none), (2, none), (0, some [30, 0, 0, 0])] ∧
    (∀ f c, Ev.enter f c ∈ [Ev.enter h (cH 3), .enter g cG, .leave, .enter g cG, .reject "a", .leave] →
      (cfg.fn? f).isSome ∧ Spec.loaded f.file inner = true) ∧
    n.s.errs.map (·.kind) = [.order "void g()" "int K::h(int a)", .unexpected "void g()" none, .mismatch 1 "int K::h(int a)" "a",
      .order "int K::h(int a)" "void g()"] := by
  refine ⟨_, _, rfl, rfl, rfl, ?_, by decide +kernel⟩
  intro f c hm
  simp only [List.mem_cons, Ev.enter.injEq, List.not_mem_nil, or_false, reduceCtorEq, false_or] at hm
  rcases hm with ⟨rfl, -⟩ | ⟨rfl, -⟩ | ⟨rfl, -⟩ <;> decide

end Ex

end EasyMock.Nested
