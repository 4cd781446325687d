import Verif.MockCode.Reference
import Verif.MockCode.Mock
import Verif.Framework.Step

/-! # MockCode: a process with references is a process whose matchers look behind the references -/

namespace EasyMock.MockCode

open EasyMock EasyMock.Gen

/-! ## The expectation seen by the framework -/

/-- A matcher of references: it sees the objects behind them. -/
def behind (n : Nat) (mt : Matcher) : Matcher := fun mem cur ex lit =>
  match objectAt mem (Matcher.loadU cur) n, objectAt mem (Matcher.loadU ex) n with
  | some u, some v => mt mem u v lit
  | _, _ => none

/-- The parameters of an expectation, from position `i` on, with matchers which look behind the references. -/
def behindParams (ps : Passing) : Nat → List ParamExp → List ParamExp
  | _, [] => []
  | i, p :: l =>
    (match (ps.params[i]?).join with
     | none => p
     | some n => ⟨p.value, p.matcher.map (behind n)⟩) :: behindParams ps (i + 1) l

def behindExp (ps : Passing) (e : Exp) : Exp := { e with params := behindParams ps 0 e.params }

theorem behindParams_length (ps : Passing) : ∀ (i : Nat) (l : List ParamExp), (behindParams ps i l).length = l.length
  | _, [] => rfl
  | i, _ :: l => by simp [behindParams, behindParams_length ps (i + 1) l]

/-! ## Changing the expectations held by the C++ mocks -/

def mapMock (g : Exp → Exp) : Mock Exp → Mock Exp
  | .c m => .c m
  | .cpp m => .cpp { m with data := m.data.map g }

def lift (G : FnId → Exp → Exp) (st : State) : State := { st with mocks := fun f => mapMock (G f) (st.mocks f) }

/-- Only C++ mocks have changed expectations. -/
def CppOnly (G : FnId → Exp → Exp) (st : State) : Prop := ∀ f m, st.mocks f = .c m → ∀ e, G f e = e

variable {G : FnId → Exp → Exp}

theorem mapMock_id (m : Mock Exp) (g : Exp → Exp) (h : ∀ e, g e = e) : mapMock g m = m := by
  cases m with
  | c m => rfl
  | cpp m =>
    have : m.data.map g = m.data := by
      conv => rhs; rw [← List.map_id m.data]
      exact List.map_congr_left (fun e _ => h e)
    simp [mapMock, this]

theorem lift_setMock (st : State) (f : FnId) (m : Mock Exp) :
    lift G (st.setMock f m) = (lift G st).setMock f (mapMock (G f) m) := by
  unfold lift State.setMock
  simp only [State.mk.injEq, true_and, and_true]
  funext g
  by_cases h : g = f
  · subst h; simp
  · simp [h]

theorem mapMock_addActualCall (g : Exp → Exp) (m : Mock Exp) :
    (mapMock g m).addActualCall = (mapMock g m.addActualCall.1, m.addActualCall.2) := by
  cases m <;> rfl

theorem mapMock_nbActual (g : Exp → Exp) (m : Mock Exp) : (mapMock g m).getNbActualCall = m.getNbActualCall := by
  cases m <;> rfl

theorem mapMock_nbExpected (g : Exp → Exp) (m : Mock Exp) : (mapMock g m).getNbExpectedCall = m.getNbExpectedCall := by
  cases m <;> rfl

/-- The state and the record of a call. -/
def mapCurrent (g : Exp → Exp) : Res (DHeap Exp × Mock Exp × Option Exp) → Res (DHeap Exp × Mock Exp × Option Exp)
  | .ok (h, m, d) => .ok (h, mapMock g m, d.map g)
  | .ub => .ub
  | .exit => .exit

theorem mapMock_current (g : Exp → Exp) (h : DHeap Exp) (m : Mock Exp) (hc : ∀ k, m = .c k → ∀ e, g e = e) :
    (mapMock g m).getCurrentCallParam h = mapCurrent g (m.getCurrentCallParam h) := by
  cases m with
  | c m =>
    have hg := hc m rfl
    simp only [mapMock, Mock.getCurrentCallParam]
    cases m.getCurrentCallParam h with
    | ok r =>
      obtain ⟨h', m', d⟩ := r
      simp only [Res.bind_ok, mapCurrent, mapMock]
      cases d with
      | none => rfl
      | some e => simp [hg e]
    | ub => rfl
    | exit => rfl
  | cpp m =>
    simp only [mapMock, Mock.getCurrentCallParam, CppMock.getCurrentCallParam, CppMock.getCurrentIdx]
    have he : (m.data.map g).isEmpty = m.data.isEmpty := by cases m.data <;> rfl
    rw [he]
    by_cases h0 : m.data.isEmpty = true
    · simp [h0, mapCurrent, mapMock]
    · simp only [h0]
      by_cases h1 : m.actual = 0
      · simp [h1, mapCurrent]
      · simp only [h1, if_false, Res.bind_ok]
        by_cases h2 : dec32 m.actual > m.expected
        · simp [h2, mapCurrent]
        · simp only [h2, if_false, List.getElem?_map]
          cases hd : m.data[dec32 m.actual]? with
          | none => simp [mapCurrent]
          | some e => simp [mapCurrent, mapMock]

/-- The mock and the heap. -/
def mapPair (g : Exp → Exp) : Res (DHeap Exp × Mock Exp) → Res (DHeap Exp × Mock Exp)
  | .ok (h, m) => .ok (h, mapMock g m)
  | .ub => .ub
  | .exit => .exit

theorem mapMock_expect (g : Exp → Exp) (alloc : Bool) (h : DHeap Exp) (m : Mock Exp) (e : Exp)
    (hc : ∀ k, m = .c k → ∀ e, g e = e) :
    (mapMock g m).addExpectedCall alloc h (g e) = mapPair g (m.addExpectedCall alloc h e) := by
  cases m with
  | c m =>
    rw [hc m rfl e]
    simp only [mapMock, Mock.addExpectedCall]
    cases m.addExpectedCall alloc h e with
    | ok r => obtain ⟨h', m'⟩ := r; rfl
    | ub => rfl
    | exit => rfl
  | cpp m => simp [mapMock, Mock.addExpectedCall, CppMock.addExpectedCall, mapPair]

theorem mapMock_reset (g : Exp → Exp) (h : DHeap Exp) (m : Mock Exp) :
    (mapMock g m).reset h = mapPair g (m.reset h) := by
  cases m with
  | c m =>
    simp only [mapMock, Mock.reset]
    cases m.reset h with
    | ok r => obtain ⟨h', m'⟩ := r; rfl
    | ub => rfl
    | exit => rfl
  | cpp m => rfl

theorem mapMock_zero (g : Exp → Exp) (cfg : Cfg) (f : FnId) : mapMock g (zeroMock cfg f) = zeroMock cfg f := by
  unfold zeroMock
  split
  · split <;> rfl
  · rfl

/-! ## The framework does not look at the expectations -/

def mapRes {α : Type} (g : State → State) : Res (State × α) → Res (State × α)
  | .ok (st, a) => .ok (g st, a)
  | .ub => .ub
  | .exit => .exit

def mapSt (g : State → State) : Res State → Res State
  | .ok st => .ok (g st)
  | .ub => .ub
  | .exit => .exit

def liftOp (G : FnId → Exp → Exp) : Op → Op
  | .expect f e a => .expect f (G f e) a
  | op => op

theorem resetFns_lift : ∀ (l : List FnId) (st : State), resetFns (lift G st) l = mapSt (lift G) (resetFns st l)
  | [], _ => rfl
  | f :: l, st => by
    simp only [resetFns]
    have h1 : (lift G st).mocks f = mapMock (G f) (st.mocks f) := rfl
    have h2 : (lift G st).heap = st.heap := rfl
    rw [h1, h2, mapMock_reset]
    cases (st.mocks f).reset st.heap with
    | ok r =>
      obtain ⟨h, m⟩ := r
      simp only [mapPair, Res.bind_ok]
      have : { (lift G st).setMock f (mapMock (G f) m) with heap := h } = lift G { st.setMock f m with heap := h } := by
        rw [← lift_setMock]; rfl
      rw [this]
      exact resetFns_lift l _
    | ub => rfl
    | exit => rfl

theorem resetFiles_lift (cfg : Cfg) : ∀ (l : List Nat) (st : State),
    resetFiles cfg (lift G st) l = mapSt (lift G) (resetFiles cfg st l)
  | [], _ => rfl
  | i :: l, st => by
    simp only [resetFiles]
    have h1 : (lift G st).reg = st.reg := rfl
    have h2 : (lift G st).loaded = st.loaded := rfl
    rw [h1, h2]
    by_cases hr : st.reg i = true
    · by_cases hl : st.loaded i = true
      · simp only [hr, hl, if_true]
        rw [resetFns_lift]
        cases resetFns st (cfg.fnsOf i) with
        | ok r => simp only [mapSt, Res.bind_ok]; exact resetFiles_lift cfg l r
        | ub => rfl
        | exit => rfl
      · simp only [hr, hl, if_true]; rfl
    · simp only [hr]; exact resetFiles_lift cfg l st

theorem initFns_lift (cfg : Cfg) : ∀ (l : List FnId) (st : State), initFns cfg (lift G st) l = lift G (initFns cfg st l)
  | [], _ => rfl
  | f :: l, st => by
    simp only [initFns]
    rw [← initFns_lift cfg l, lift_setMock, mapMock_zero]

theorem verifyFns_lift (cfg : Cfg) : ∀ (l : List FnId) (st : State),
    verifyFns cfg (lift G st) l = (lift G (verifyFns cfg st l).1, (verifyFns cfg st l).2)
  | [], _ => rfl
  | f :: l, st => by
    have h1 : verifyFn cfg (lift G st) f = (lift G (verifyFn cfg st f).1, (verifyFn cfg st f).2) := by
      unfold verifyFn
      have h1 : (lift G st).mocks f = mapMock (G f) (st.mocks f) := rfl
      simp only [h1, mapMock_nbActual, mapMock_nbExpected]
      split <;> rfl
    simp only [verifyFns, h1, verifyFns_lift cfg l]

theorem verifyFiles_lift (cfg : Cfg) : ∀ (l : List Nat) (st : State),
    verifyFiles cfg (lift G st) l = mapRes (lift G) (verifyFiles cfg st l)
  | [], _ => rfl
  | i :: l, st => by
    simp only [verifyFiles]
    have h1 : (lift G st).reg = st.reg := rfl
    have h2 : (lift G st).loaded = st.loaded := rfl
    rw [h1, h2]
    by_cases hr : st.reg i = true
    · by_cases hl : st.loaded i = true
      · simp only [hr, hl, if_true, verifyFns_lift]
        rw [verifyFiles_lift cfg l]
        cases verifyFiles cfg (verifyFns cfg st (cfg.fnsOf i)).1 l with
        | ok r => rfl
        | ub => rfl
        | exit => rfl
      · simp only [hr, hl, if_true]; rfl
    · simp only [hr]; exact verifyFiles_lift cfg l st

theorem checks_lift (pcs : Bool) (bt : String) (ord : Nat) (n : String) (l : List (String × ParamExp × Val)) (st : State) :
    l.foldl (checkParam pcs bt ord n) (lift G st) = lift G (l.foldl (checkParam pcs bt ord n) st) := by
  rw [checkParams_eq, checkParams_eq]
  rfl

theorem pop_lift (st : State) : (lift G st).popCurrentCall = (lift G st.popCurrentCall.1, st.popCurrentCall.2) := by
  unfold State.popCurrentCall
  have : (lift G st).fifo = st.fifo := rfl
  rw [this]
  cases st.fifo <;> rfl

/-- The rest of a call, once its record is known. -/
def served (st : State) (f : FnId) (fc : FnCfg) (c : Call) (pcs order : Bool) (e : Exp) : Res (State × Option Val) :=
  let ord := (st.mocks f).getNbActualCall
  let s := if fc.isMember = true ∧ e.inst ≠ 0 ∧ e.inst ≠ c.this then
      st.addError pcs c.bt (.badInstance ord fc.name e.inst c.this) else st
  let s := (zip3 fc.paramNames e.params c.args).foldl (checkParam pcs c.bt ord fc.name) s
  let res := fc.ret.map (fun _ => e.ret)
  let (s, cur) := s.popCurrentCall
  if order = true ∧ cur ≠ fc.name then .ok (s.addError pcs c.bt (.order fc.name cur), res)
  else
    match writeOuts s.mem (zip3 fc.outs e.outs c.outs) with
    | .ok mem => .ok ({ s with mem := mem }, res)
    | .ub => .ub
    | .exit => .exit

theorem served_lift (st : State) (f : FnId) (fc : FnCfg) (c : Call) (pcs order : Bool) (e : Exp) :
    served (lift G st) f fc c pcs order e = mapRes (lift G) (served st f fc c pcs order e) := by
  have h0 : ((lift G st).mocks f).getNbActualCall = (st.mocks f).getNbActualCall := mapMock_nbActual _ _
  have hI : (if fc.isMember = true ∧ e.inst ≠ 0 ∧ e.inst ≠ c.this then
      (lift G st).addError pcs c.bt (.badInstance (st.mocks f).getNbActualCall fc.name e.inst c.this) else lift G st) =
      lift G (if fc.isMember = true ∧ e.inst ≠ 0 ∧ e.inst ≠ c.this then
      st.addError pcs c.bt (.badInstance (st.mocks f).getNbActualCall fc.name e.inst c.this) else st) := by
    split <;> rfl
  unfold served
  simp only [h0, hI, checks_lift, pop_lift]
  generalize State.popCurrentCall _ = r
  obtain ⟨s, cur⟩ := r
  by_cases ho : order = true ∧ cur ≠ fc.name
  · rw [if_pos ho, if_pos ho]; rfl
  · rw [if_neg ho, if_neg ho]
    have : (lift G s).mem = s.mem := rfl
    rw [this]
    cases writeOuts s.mem (zip3 fc.outs e.outs c.outs) <;> rfl

theorem callFn_eq (cfg : Cfg) (st : State) (f : FnId) (fc : FnCfg) (c : Call) :
    callFn cfg st f fc c =
      if (st.mocks f).addActualCall.2 = false then
        .ok ((st.setMock f (st.mocks f).addActualCall.1).addError (st.printCallStack cfg) c.bt
          (.unexpected fc.name (fc.ret.map fun _ => fc.shortName)), fc.ret.map (fun n => List.replicate n (0 : UInt8)))
      else
        match (st.mocks f).addActualCall.1.getCurrentCallParam st.heap with
        | .ok (h, m, none) =>
          .ok (({ st.setMock f m with heap := h }).addError (st.printCallStack cfg) c.bt .noData,
            fc.ret.map (fun n => List.replicate n (0 : UInt8)))
        | .ok (h, m, some e) => served { st.setMock f m with heap := h } f fc c (st.printCallStack cfg) st.order e
        | .ub => .ub
        | .exit => .exit := by
  have hset : ((st.setMock f (st.mocks f).addActualCall.1).mocks f) = (st.mocks f).addActualCall.1 := by
    simp [State.setMock]
  have hheap : (st.setMock f (st.mocks f).addActualCall.1).heap = st.heap := rfl
  have hss : ∀ m, (st.setMock f (st.mocks f).addActualCall.1).setMock f m = st.setMock f m := by
    intro m
    unfold State.setMock
    simp only [State.mk.injEq, true_and, and_true]
    funext g
    split <;> rfl
  unfold callFn
  simp only [hset, hheap, hss]
  by_cases ha : (st.mocks f).addActualCall.2 = false
  · rw [if_pos ha, if_pos ha]
  · rw [if_neg ha, if_neg ha]
    cases (st.mocks f).addActualCall.1.getCurrentCallParam st.heap with
    | ub => rfl
    | exit => rfl
    | ok r =>
      obtain ⟨h, m, d⟩ := r
      cases d with
      | none => rfl
      | some e =>
        simp only [Res.bind_ok]
        unfold served
        have hw : ∀ (s : State) (x : List (Option Nat × OutExp × Addr)) (r : Option Val), (do
            let mem ← writeOuts s.mem x
            Res.ok ({ s with mem := mem }, r)) = match writeOuts s.mem x with
            | .ok mem => .ok ({ s with mem := mem }, r) | .ub => .ub | .exit => .exit := by
          intro s x r
          cases writeOuts s.mem x <;> rfl
        simp only [hw]

theorem callFn_lift (cfg : Cfg) (st : State) (f : FnId) (fc : FnCfg) (c : Call) (hid : ∀ e, G f e = e) :
    callFn cfg (lift G st) f fc c = mapRes (lift G) (callFn cfg st f fc c) := by
  rw [callFn_eq, callFn_eq]
  have h1 : (lift G st).mocks f = st.mocks f := mapMock_id _ _ hid
  have h2 : (lift G st).heap = st.heap := rfl
  have h3 : (lift G st).printCallStack cfg = st.printCallStack cfg := rfl
  have h4 : (lift G st).order = st.order := rfl
  have h5 : ∀ m, (lift G st).setMock f m = lift G (st.setMock f m) := by
    intro m
    rw [lift_setMock, mapMock_id _ _ hid]
  rw [h1, h2, h3, h4]
  simp only [h5]
  by_cases ha : (st.mocks f).addActualCall.2 = false
  · rw [if_pos ha, if_pos ha]; rfl
  · rw [if_neg ha, if_neg ha]
    cases (st.mocks f).addActualCall.1.getCurrentCallParam st.heap with
    | ub => rfl
    | exit => rfl
    | ok r =>
      obtain ⟨h, m, d⟩ := r
      cases d with
      | none => rfl
      | some e => exact served_lift (G := G) { st.setMock f m with heap := h } f fc c _ _ e

/-- Every operation but a call of a function with changed expectations commutes with the change. -/
theorem step_lift (cfg : Cfg) (st : State) (op : Op) (hc : CppOnly G st)
    (hcall : ∀ f c, op = .call f c → ∀ e, G f e = e) :
    step cfg (lift G st) (liftOp G op) = mapRes (lift G) (step cfg st op) := by
  cases op with
  | expect f e alloc =>
    simp only [liftOp, step]
    cases cfg.fn? f with
    | none => rfl
    | some fc =>
      simp only
      have h1 : (lift G st).loaded = st.loaded := rfl
      rw [h1]
      by_cases hl : st.loaded f.file = true
      · simp only [hl, if_true, expectFn]
        have h2 : (lift G st).mocks f = mapMock (G f) (st.mocks f) := rfl
        have h3 : (lift G st).heap = st.heap := rfl
        rw [h2, h3, mapMock_expect (G f) alloc st.heap (st.mocks f) e (fun k hk => hc f k hk)]
        cases (st.mocks f).addExpectedCall alloc st.heap e with
        | ok r =>
          obtain ⟨h, m⟩ := r
          simp only [mapPair, Res.bind_ok, mapRes]
          rw [← lift_setMock]
          rfl
        | ub => rfl
        | exit => rfl
      · simp only [hl]; rfl
  | call f c =>
    simp only [liftOp, step]
    cases cfg.fn? f with
    | none => rfl
    | some fc =>
      simp only
      have h1 : (lift G st).loaded = st.loaded := rfl
      rw [h1]
      by_cases hl : st.loaded f.file = true
      · simp only [hl, if_true]
        rw [callFn_lift cfg st f fc c (hcall f c rfl)]
        cases callFn cfg st f fc c <;> rfl
      · simp only [hl]; rfl
  | init =>
    simp only [liftOp, step, initFramework]
    rw [resetFiles_lift]
    cases resetFiles cfg st (List.range cfg.files.length) <;> rfl
  | check =>
    simp only [liftOp, step, verifyEasyMock]
    rw [verifyFiles_lift]
    cases verifyFiles cfg st (List.range cfg.files.length) <;> rfl
  | setOrder b => rfl
  | setPrint b =>
    simp only [liftOp, step, State.setPrintCallStack]
    split <;> rfl
  | load i =>
    simp only [liftOp, step]
    have h1 : (lift G st).loaded = st.loaded := rfl
    rw [h1]
    by_cases hl : st.loaded i = true ∨ cfg.files.length ≤ i
    · simp only [hl, if_true]; rfl
    · simp only [hl, if_false, mapRes]
      have : { lift G st with loaded := fun j => if j = i then true else st.loaded j } =
        lift G { st with loaded := fun j => if j = i then true else st.loaded j } := rfl
      rw [this, initFns_lift]
      rfl
  | unload i =>
    simp only [liftOp, step]
    have h1 : (lift G st).loaded = st.loaded := rfl
    rw [h1]
    by_cases hl : st.loaded i = true
    · simp only [hl, if_true]
      rw [resetFns_lift]
      cases resetFns st (cfg.fnsOf i) <;> rfl
    · simp only [hl]; rfl
  | getStr => rfl
  | getArr => rfl
  | poke a b =>
    simp only [liftOp, step]
    have h1 : (lift G st).mem = st.mem := rfl
    rw [h1]
    cases st.mem a <;> rfl

/-! ## A call of a mock with references -/

variable {s : FunSection} {e : Exp} {c : Call} {f : FnId} {fc : FnCfg} {pa : Passing}

/-- The objects behind the references which a matcher is asked to compare exist. -/
def Alive (pa : Passing) (mem : Mem) : Nat → List ParamExp → List Val → Prop
  | i, p :: l, a :: as =>
    (p.matcher = none ∨ ∀ n, (pa.params[i]?).join = some n →
      (objectAt mem (Matcher.loadU a) n).isSome = true ∧ (objectAt mem (Matcher.loadU p.value) n).isSome = true) ∧
    Alive pa mem (i + 1) l as
  | _, _, _ => True

instance decAlive (pa : Passing) (mem : Mem) : ∀ (i : Nat) (l : List ParamExp) (as : List Val), Decidable (Alive pa mem i l as)
  | i, p :: l, a :: as =>
    have : Decidable (∀ n, (pa.params[i]?).join = some n → (objectAt mem (Matcher.loadU a) n).isSome = true ∧
        (objectAt mem (Matcher.loadU p.value) n).isSome = true) :=
      match h : (pa.params[i]?).join with
      | none => .isTrue (by simp)
      | some n => decidable_of_iff ((objectAt mem (Matcher.loadU a) n).isSome = true ∧
          (objectAt mem (Matcher.loadU p.value) n).isSome = true) (by simp)
    have := decAlive pa mem (i + 1) l as
    have : Decidable (p.matcher = none) := decidable_of_iff (p.matcher.isNone = true) (by simp)
    inferInstanceAs (Decidable (_ ∧ _))
  | _, [], _ => .isTrue trivial
  | _, _ :: _, [] => .isTrue trivial

/-- What the check of the parameter at a position needs. -/
structure CheckAt (s : FunSection) (e : Exp) (c : Call) (i : Nat) (n : String) (p : ParamExp) (a : Val) : Prop where
  matcher : member s (layout s e) (matchMember s n) = some (.matcher p.matcher)
  value : member s (layout s e) n = some (.val p.value)
  current : resolveCheck s n = .parameter i
  arg : c.args[i]? = some a

theorem checkAt_all (hn : NamesOk s) (hf : Fits s e) (i : Nat) (y : String × String × Gen.Out × XDecl) (p : ParamExp)
    (a : Val) (hy : s.params.entries[i]? = some y) (hp : e.params[i]? = some p) (ha : c.args[i]? = some a) :
    CheckAt s e c i y.2.1 p a := by
  have hm := member_param hf hn.members (mem_zip_of_getElem? hy hp)
  have hname : s.params.names[i]? = some y.2.1 := by simp [PList.names, hy]
  refine ⟨hm.2, hm.1, ?_, ha⟩
  have hmem := List.mem_of_getElem? hname
  unfold resolveCheck
  rw [if_neg (hn.inner _ hmem), if_neg (hn.outer _ hmem), if_pos hmem,
    idxOf_of_getElem? (names_nodup hn.members) hname]

theorem exec_refChecks (rest : List Stmt) : ∀ (es : List (String × String × Gen.Out × XDecl)) (pl : List ParamExp)
    (as : List Val) (k : Nat) (fr : Frame), fr.data = some e → es.length = pl.length → es.length = as.length →
    (∀ (j : Nat) y p a, es[j]? = some y → pl[j]? = some p → as[j]? = some a → CheckAt s e c (k + j) y.2.1 p a) →
    (Alive pa fr.st.mem k pl as →
      exec pa s f fc c (es.map (fun y => Stmt.check (matchMember s y.2.1) y.2.1 y.2.1 y.2.1) ++ rest) fr =
      exec pa s f fc c rest { fr with
        st := (zip3 (es.map (fun y => y.2.1)) (behindParams pa k pl) as).foldl
          (checkParam fr.pcs c.bt (fr.st.mocks f).getNbActualCall fc.name) fr.st }) ∧
    (¬ Alive pa fr.st.mem k pl as →
      exec pa s f fc c (es.map (fun y => Stmt.check (matchMember s y.2.1) y.2.1 y.2.1 y.2.1) ++ rest) fr = some .ub)
  | [], pl, as, k, fr, _, h1, h2, _ => by
    have : pl = [] := List.length_eq_zero_iff.mp h1.symm
    subst this
    exact ⟨fun _ => by simp [zip3], fun h => absurd trivial h⟩
  | _ :: _, [], _, _, _, _, h, _, _ => by simp at h
  | _ :: _, _, [], _, _, _, _, h, _ => by simp at h
  | y :: es, p :: pl, a :: as, k, fr, hd, h1, h2, h => by
    have hy : CheckAt s e c k y.2.1 p a := h 0 y p a rfl rfl rfl
    have ht : ∀ (j : Nat) y p a, es[j]? = some y → pl[j]? = some p → as[j]? = some a → CheckAt s e c (k + 1 + j) y.2.1 p a := by
      intro j y p a a1 a2 a3
      have := h (j + 1) y p a (by simpa using a1) (by simpa using a2) (by simpa using a3)
      rw [show k + 1 + j = k + (j + 1) by omega]
      exact this
    have ih := fun fr hd => exec_refChecks rest es pl as (k + 1) fr hd (by simpa using h1) (by simpa using h2) ht
    obtain ⟨st, pcs, order, res, data⟩ := fr
    simp only at hd
    subst hd
    simp only [List.map_cons, List.cons_append, exec, hy.matcher, Alive]
    have hz : ∀ q, zip3 (y.2.1 :: es.map (fun y => y.2.1)) (q :: behindParams pa (k + 1) pl) (a :: as) =
        (y.2.1, q, a) :: zip3 (es.map (fun y => y.2.1)) (behindParams pa (k + 1) pl) as := fun q => rfl
    cases hm : p.matcher with
    | none =>
      have hc : ∀ q : ParamExp, q.matcher = none → checkParam pcs c.bt (st.mocks f).getNbActualCall fc.name st (y.2.1, q, a) = st := by
        intro q hq; simp [checkParam, hq]
      have hq : checkParam pcs c.bt (st.mocks f).getNbActualCall fc.name st (y.2.1, (match (pa.params[k]?).join with
          | none => p
          | some n => ⟨p.value, Option.map (behind n) p.matcher⟩), a) = st := by
        apply hc
        split
        · exact hm
        · simp [hm]
      rw [hm] at hq
      have ih' := ih ⟨st, pcs, order, res, some e⟩ rfl
      constructor
      · rintro ⟨-, hA⟩
        rw [ih'.1 hA]
        simp only [behindParams, hz, List.foldl_cons, hm, hq]
      · intro hA
        exact ih'.2 (fun h => hA ⟨.inl rfl, h⟩)
    | some mt =>
      simp only [hy.current, hy.value, hy.arg, callMatcher]
      cases hr : (pa.params[k]?).join with
      | none =>
        have hq : ∀ st' : State, st'.mem = st.mem → st'.mocks = st.mocks →
            checkParam pcs c.bt (st.mocks f).getNbActualCall fc.name st (y.2.1, p, a) = st' →
            (Alive pa st'.mem (k + 1) pl as → exec pa s f fc c (es.map (fun y => Stmt.check (matchMember s y.2.1) y.2.1 y.2.1 y.2.1) ++ rest)
              ⟨st', pcs, order, res, some e⟩ = exec pa s f fc c rest
                ⟨(zip3 (y.2.1 :: es.map (fun y => y.2.1)) (behindParams pa k (p :: pl)) (a :: as)).foldl
                  (checkParam pcs c.bt (st.mocks f).getNbActualCall fc.name) st, pcs, order, res, some e⟩) := by
          intro st' e1 e2 e3 hA
          rw [(ih ⟨st', pcs, order, res, some e⟩ rfl).1 hA]
          simp only [behindParams, hr, hz, List.foldl_cons, e3, e2]
        simp only
        cases hx : mt st.mem a p.value y.2.1 with
        | none =>
          simp only
          constructor
          · rintro ⟨-, hA⟩
            exact hq st rfl rfl (by simp [checkParam, hm, hx]) hA
          · intro hA
            exact (ih ⟨st, pcs, order, res, some e⟩ rfl).2 (fun h => hA ⟨.inr (by intro n hn; cases hn), h⟩)
        | some msg =>
          simp only
          constructor
          · rintro ⟨-, hA⟩
            exact hq (st.addError pcs c.bt (.mismatch (st.mocks f).getNbActualCall fc.name msg)) rfl rfl
              (by simp [checkParam, hm, hx]) hA
          · intro hA
            exact (ih ⟨st.addError pcs c.bt (.mismatch (st.mocks f).getNbActualCall fc.name msg), pcs, order, res, some e⟩ rfl).2
              (fun h => hA ⟨.inr (by intro n hn; cases hn), h⟩)
      | some n =>
        simp only
        cases hu : objectAt st.mem (Matcher.loadU a) n with
        | none =>
          simp only
          exact ⟨fun h => by simpa [hu] using h.1, fun _ => trivial⟩
        | some u =>
          cases hv : objectAt st.mem (Matcher.loadU p.value) n with
          | none =>
            simp only
            exact ⟨fun h => by simpa [hu, hv] using h.1, fun _ => trivial⟩
          | some v =>
            have hq : ∀ st' : State, st'.mem = st.mem → st'.mocks = st.mocks →
                checkParam pcs c.bt (st.mocks f).getNbActualCall fc.name st (y.2.1, ⟨p.value, p.matcher.map (behind n)⟩, a) = st' →
                (Alive pa st'.mem (k + 1) pl as → exec pa s f fc c (es.map (fun y => Stmt.check (matchMember s y.2.1) y.2.1 y.2.1 y.2.1) ++ rest)
                  ⟨st', pcs, order, res, some e⟩ = exec pa s f fc c rest
                    ⟨(zip3 (y.2.1 :: es.map (fun y => y.2.1)) (behindParams pa k (p :: pl)) (a :: as)).foldl
                      (checkParam pcs c.bt (st.mocks f).getNbActualCall fc.name) st, pcs, order, res, some e⟩) := by
              intro st' e1 e2 e3 hA
              rw [(ih ⟨st', pcs, order, res, some e⟩ rfl).1 hA]
              simp only [behindParams, hr, hz, List.foldl_cons, e3, e2]
            simp only
            have hok : ∀ m, some n = some m → (objectAt st.mem (Matcher.loadU a) m).isSome = true ∧
                (objectAt st.mem (Matcher.loadU p.value) m).isSome = true := by
              intro m hmn; cases hmn; simp [hu, hv]
            cases hx : mt st.mem u v y.2.1 with
            | none =>
              simp only
              constructor
              · rintro ⟨-, hA⟩
                exact hq st rfl rfl (by simp [checkParam, hm, behind, hu, hv, hx]) hA
              · intro hA
                exact (ih ⟨st, pcs, order, res, some e⟩ rfl).2 (fun h => hA ⟨.inr hok, h⟩)
            | some msg =>
              simp only
              constructor
              · rintro ⟨-, hA⟩
                exact hq (st.addError pcs c.bt (.mismatch (st.mocks f).getNbActualCall fc.name msg)) rfl rfl
                  (by simp [checkParam, hm, behind, hu, hv, hx]) hA
              · intro hA
                exact (ih ⟨st.addError pcs c.bt (.mismatch (st.mocks f).getNbActualCall fc.name msg), pcs, order, res, some e⟩ rfl).2
                  (fun h => hA ⟨.inr hok, h⟩)

/-- What the mock returns without a record. -/
def defaultRes (pa : Passing) (fc : FnCfg) : Option Val := fc.ret.map (fun n => pa.result.getD (List.replicate n (0 : UInt8)))

/-- The generated mock of a function with references. -/
theorem runMock_ref (cfg : Cfg) (hn : NamesOk s) (cf : Config) (n : Nat) (sizes : List Nat) (hs : sizes.length = s.outs.length)
    (st : State) (hc : CallFits s c)
    (hf : (st.mocks f).addActualCall.2 = true → ∀ h m e,
      (st.mocks f).addActualCall.1.getCurrentCallParam st.heap = .ok (h, m, some e) → Fits s e) :
    runMock cfg s f (fnCfg cf s n sizes) st c pa =
      if (st.mocks f).addActualCall.2 = false then
        some (.ok ((st.setMock f (st.mocks f).addActualCall.1).addError (st.printCallStack cfg) c.bt
          (.unexpected (mockSignature s) (if s.hasReturn then some s.name else none)), defaultRes pa (fnCfg cf s n sizes)))
      else
        match (st.mocks f).addActualCall.1.getCurrentCallParam st.heap with
        | .ok (h, m, none) =>
          some (.ok (({ st.setMock f m with heap := h }).addError (st.printCallStack cfg) c.bt .noData,
            defaultRes pa (fnCfg cf s n sizes)))
        | .ok (h, m, some e) =>
          if Alive pa st.mem 0 e.params c.args then
            some (served { st.setMock f m with heap := h } f (fnCfg cf s n sizes) c (st.printCallStack cfg) st.order (behindExp pa e))
          else some .ub
        | .ub => some .ub
        | .exit => some .exit := by
  have hset : ((st.setMock f (st.mocks f).addActualCall.1).mocks f) = (st.mocks f).addActualCall.1 := by
    simp [State.setMock]
  have hheap : (st.setMock f (st.mocks f).addActualCall.1).heap = st.heap := rfl
  have hss : ∀ m, (st.setMock f (st.mocks f).addActualCall.1).setMock f m = st.setMock f m := by
    intro m
    unfold State.setMock
    simp only [State.mk.injEq, true_and, and_true]
    funext g
    split <;> rfl
  unfold runMock mockBody
  simp only [List.cons_append, List.append_assoc, List.nil_append, exec, hset, hheap, hss]
  by_cases ha : (st.mocks f).addActualCall.2 = false
  · have ha' : ¬ (st.mocks f).addActualCall.2 = true := by simp [ha]
    rw [if_pos ha, if_neg ha']
    have : (fnCfg cf s n sizes).ret.map (fun _ => (fnCfg cf s n sizes).shortName) = if s.hasReturn then some s.name else none := by
      unfold fnCfg
      cases s.hasReturn <;> rfl
    rw [this]
    rfl
  · have ha' : (st.mocks f).addActualCall.2 = true := by simpa using ha
    rw [if_neg ha, if_pos ha']
    cases hg : (st.mocks f).addActualCall.1.getCurrentCallParam st.heap with
    | ub => rfl
    | exit => rfl
    | ok r =>
      obtain ⟨h, m, d⟩ := r
      cases d with
      | none => rfl
      | some e =>
        have hfe := hf ha' h m e hg
        simp only
        rw [exec_instance (e := e) _ _ rfl hfe hn.members]
        have hchk := exec_refChecks (s := s) (e := e) (c := c) (f := f) (fc := fnCfg cf s n sizes) (pa := pa)
        have hat : ∀ (j : Nat) y p a, s.params.entries[j]? = some y → e.params[j]? = some p → c.args[j]? = some a →
            CheckAt s e c (0 + j) y.2.1 p a := by
          intro j y p a h1 h2 h3
          rw [Nat.zero_add]
          exact checkAt_all hn hfe j y p a h1 h2 h3
        generalize hrest : (if s.hasReturn = true then [Stmt.setResult (retMember s)] else []) ++ _ = rest
        generalize hfr : Frame.mk _ _ _ _ _ = fr
        have hfm : fr.st.mem = st.mem := by
          rw [← hfr]; simp only; split <;> rfl
        obtain ⟨hA1, hA2⟩ := hchk rest s.params.entries e.params c.args 0 fr (by rw [← hfr]) hfe.params.symm hc.args.symm hat
        rw [hfm] at hA1 hA2
        by_cases hA : Alive pa st.mem 0 e.params c.args
        · rw [if_pos hA, hA1 hA, ← hrest, exec_result (e := e) _ _ (by rw [← hfr]) hfe hn.members n (fun hb => by rw [← hfr]; simp [fnCfg, hb])]
          simp only [exec]
          rw [← hfr]
          simp only
          have hmem : (fnCfg cf s n sizes).isMember = s.cls.isSome := rfl
          have hp : (fnCfg cf s n sizes).paramNames = s.params.entries.map (fun y => y.2.1) := rfl
          unfold served
          simp only [hmem, hp, behindExp]
          have hcp := exec_copies (s := s) (e := e) (c := c) (f := f) (pa := pa) (fc := fnCfg cf s n sizes) s.outs 0 (fnCfg cf s n sizes).outs e.outs c.outs
          by_cases hI : s.cls.isSome = true ∧ e.inst ≠ 0 ∧ e.inst ≠ c.this
          all_goals
            first | simp only [if_pos hI, addError_mocks] | simp only [if_neg hI]
            split
            · rfl
            · rw [show (List.map (fun (e : (String × String × Gen.Out × XDecl) × Nat) => Stmt.copyOut ("out_" ++ e.1.2.1) e.1.2.1
                (if (e.1.2.2.1 == Gen.Out.sized) = true then Sum.inl ("out_" ++ e.1.2.1 ++ "_size") else Sum.inr e.2))
                  s.outs.zipIdx) = (s.outs.zipIdx 0).map copyStmt from rfl]
              rw [hcp _ rfl (by simp [fnCfg, hs]) hfe.outs.symm hc.outs.symm (copyOk_all hn hfe cf n sizes)]
              congr 1
        · rw [if_neg hA, hA2 hA]

/-! ## Histories -/

open EasyMock.Spec

theorem resets_liftOp (f : FnId) (op : Op) : resets f (liftOp G op) = resets f op := by cases op <;> rfl

theorem since_map (f : FnId) : ∀ past : List Op, since f (past.map (liftOp G)) = (since f past).map (liftOp G)
  | [] => rfl
  | op :: past => by
    simp only [List.map_cons, since, resets_liftOp, since_map f past]
    split <;> rfl

theorem exps_map (f : FnId) (past : List Op) : exps f (past.map (liftOp G)) = (exps f past).map (G f) := by
  unfold exps
  rw [since_map, List.filterMap_map, List.map_reverse, List.map_filterMap]
  congr 2
  funext op
  cases op with
  | expect g e a =>
    simp only [Function.comp, liftOp, expOp]
    by_cases h : g = f
    · subst h; simp
    · simp [h]
  | _ => rfl

theorem calls_map (f : FnId) (past : List Op) : calls f (past.map (liftOp G)) = calls f past := by
  unfold calls
  rw [since_map, List.countP_map]
  congr 1
  funext op
  cases op <;> rfl

theorem serving_map (f : FnId) (past : List Op) : serving f (past.map (liftOp G)) = (serving f past).map (G f) := by
  unfold serving
  rw [exps_map, calls_map, List.getElem?_map]

theorem loaded_map (i : Nat) : ∀ past : List Op, loaded i (past.map (liftOp G)) = loaded i past
  | [] => rfl
  | op :: past => by
    cases op <;> simp only [List.map_cons, liftOp, loaded, loaded_map i past]

/-- The existence of the objects does not depend on what the matchers do with them. -/
theorem alive_behind (pa : Passing) (mem : Mem) : ∀ (i : Nat) (l : List ParamExp) (as : List Val),
    Alive pa mem i (behindParams pa i l) as ↔ Alive pa mem i l as
  | _, [], _ => Iff.rfl
  | i, p :: l, [] => by simp [behindParams, Alive]
  | i, p :: l, a :: as => by
    simp only [behindParams, Alive, alive_behind pa mem (i + 1) l as]
    cases hj : (pa.params[i]?).join with
    | none => rfl
    | some n => simp

/-- A call which an expectation serves. -/
theorem ref_call {cfg : Cfg} {m0 : Mem} {past : List Op} {st : State} (hG : G f = behindExp pa)
    (hr : runRev cfg m0 (past.map (liftOp G)) = .ok (lift G st)) (hlen : past.length + 1 < 2 ^ 32) (hn : NamesOk s)
    (cf : Config) (n : Nat) (sizes : List Nat) (hs : sizes.length = s.outs.length) (hcpp : cf.cpp = true)
    (hf : cfg.fn? f = some (fnCfg cf s n sizes)) (hc : CallFits s c) (hser : serving f past = some e) (hfit : Fits s e) :
    ∃ r, callFn cfg (lift G st) f (fnCfg cf s n sizes) c = mapRes (lift G) r ∧
      runMock cfg s f (fnCfg cf s n sizes) st c pa = if Alive pa st.mem 0 e.params c.args then some r else some .ub := by
  obtain ⟨h, _⟩ := run_sim (by simp; omega) hr
  have hv : Valid cfg f := by simp [Valid, hf]
  have hcl : calls f (past.map (liftOp G)) + 1 < 2 ^ 32 := by
    have := calls_le_length f (past.map (liftOp G)); simp at this; omega
  have hrep := h.minv.rep f hv
  have hser' : serving f (past.map (liftOp G)) = some (behindExp pa e) := by rw [serving_map, hser, hG]; rfl
  obtain ⟨hb, -, -, -, -⟩ := addActualCall_rep hrep hcl
  obtain ⟨h2, m2, g1, -⟩ := getCurrentCallParam_ok hrep h.minv.bound hcl _ hser'
  have hb' : (st.mocks f).addActualCall.2 = true := by
    have e1 : (lift G st).mocks f = mapMock (G f) (st.mocks f) := rfl
    rw [e1, mapMock_addActualCall] at hb
    simp only at hb
    rw [hb]
    show (serving f (past.map (liftOp G))).isSome = true
    rw [hser']; rfl
  have hkind : ∀ k, st.mocks f ≠ .c k := by
    intro k hk
    have h1 := h.minv.kind f hv
    simp [lift, hk, mapMock, Mock.isC, kindC, hf, fnCfg, hcpp] at h1
  have hkind' : ∀ k, (st.mocks f).addActualCall.1 ≠ .c k := by
    intro k hk
    cases hm : st.mocks f with
    | c m => exact hkind m hm
    | cpp m => rw [hm] at hk; cases hk
  have g1' : (mapMock (G f) (st.mocks f).addActualCall.1).getCurrentCallParam st.heap = .ok (h2, m2, some (behindExp pa e)) := by
    have e1 : (lift G st).mocks f = mapMock (G f) (st.mocks f) := rfl
    rw [e1, mapMock_addActualCall] at g1
    exact g1
  rw [mapMock_current _ _ _ (fun k hk => absurd hk (hkind' k))] at g1'
  cases hg : (st.mocks f).addActualCall.1.getCurrentCallParam st.heap with
  | ub => rw [hg] at g1'; cases g1'
  | exit => rw [hg] at g1'; cases g1'
  | ok r =>
    obtain ⟨h', m', d⟩ := r
    rw [hg] at g1'
    simp only [mapCurrent, Res.ok.injEq, Prod.mk.injEq] at g1'
    obtain ⟨rfl, rfl, hd⟩ := g1'
    cases d with
    | none => cases hd
    | some e1 =>
      rw [hG] at hd
      have he1 : behindExp pa e1 = behindExp pa e := Option.some.inj hd
      have hp1 : behindParams pa 0 e1.params = behindParams pa 0 e.params := congrArg (fun x : Exp => x.params) he1
      have hfit1 : Fits s e1 := by
        refine ⟨?_, ?_⟩
        · rw [← behindParams_length pa 0, hp1, behindParams_length]; exact hfit.params
        · have : (behindExp pa e1).outs = (behindExp pa e).outs := congrArg (fun x : Exp => x.outs) he1
          have : e1.outs = e.outs := this
          rw [this]; exact hfit.outs
      have hal : Alive pa st.mem 0 e1.params c.args ↔ Alive pa st.mem 0 e.params c.args := by
        rw [← alive_behind, hp1, alive_behind]
      refine ⟨served { st.setMock f m' with heap := h' } f (fnCfg cf s n sizes) c (st.printCallStack cfg) st.order
        (behindExp pa e), ?_, ?_⟩
      · rw [callFn_eq]
        have e1 : (lift G st).mocks f = mapMock (G f) (st.mocks f) := rfl
        have e2 : (lift G st).heap = st.heap := rfl
        rw [e1, e2, mapMock_addActualCall]
        simp only
        rw [if_neg (by simp [hb']), mapMock_current _ _ _ (fun k hk => absurd hk (hkind' k)), hg]
        simp only [mapCurrent, Option.map_some, hG, he1]
        rw [← served_lift]
        have e3 : lift G { st.setMock f m' with heap := h' } = { (lift G st).setMock f (mapMock (G f) m') with heap := h' } := by
          rw [← lift_setMock]; rfl
        rw [e3, hG]
        rfl
      · rw [runMock_ref cfg hn cf n sizes hs st hc (fun _ h m e2 h2 => by rw [hg] at h2; cases h2; exact hfit1)]
        rw [if_neg (by simp [hb']), hg]
        simp only [he1]
        by_cases hA : Alive pa st.mem 0 e.params c.args
        · rw [if_pos hA, if_pos (hal.mpr hA)]
        · rw [if_neg hA, if_neg (fun h => hA (hal.mp h))]

/-- A call which no expectation serves. -/
theorem ref_unexpected {cfg : Cfg} {m0 : Mem} {past : List Op} {st : State}
    (hr : runRev cfg m0 (past.map (liftOp G)) = .ok (lift G st)) (hlen : past.length + 1 < 2 ^ 32) (hn : NamesOk s)
    (cf : Config) (n : Nat) (sizes : List Nat) (hs : sizes.length = s.outs.length)
    (hf : cfg.fn? f = some (fnCfg cf s n sizes)) (hc : CallFits s c) (hser : serving f past = none) :
    ∃ st', callFn cfg (lift G st) f (fnCfg cf s n sizes) c = .ok (lift G st', defaultRes {} (fnCfg cf s n sizes)) ∧
      runMock cfg s f (fnCfg cf s n sizes) st c pa = some (.ok (st', defaultRes pa (fnCfg cf s n sizes))) := by
  obtain ⟨h, _⟩ := run_sim (by simp; omega) hr
  have hv : Valid cfg f := by simp [Valid, hf]
  have hcl : calls f (past.map (liftOp G)) + 1 < 2 ^ 32 := by
    have := calls_le_length f (past.map (liftOp G)); simp at this; omega
  have hrep := h.minv.rep f hv
  have hser' : serving f (past.map (liftOp G)) = none := by rw [serving_map, hser]; rfl
  obtain ⟨hb, -, -, -, -⟩ := addActualCall_rep hrep hcl
  have hb' : (st.mocks f).addActualCall.2 = false := by
    have e1 : (lift G st).mocks f = mapMock (G f) (st.mocks f) := rfl
    rw [e1, mapMock_addActualCall] at hb
    simp only at hb
    rw [hb]
    show (serving f (past.map (liftOp G))).isSome = false
    rw [hser']; rfl
  refine ⟨(st.setMock f (st.mocks f).addActualCall.1).addError (st.printCallStack cfg) c.bt
    (.unexpected (mockSignature s) (if s.hasReturn then some s.name else none)), ?_, ?_⟩
  rotate_left
  · rw [runMock_ref cfg hn cf n sizes hs st hc (fun h => by rw [hb'] at h; cases h), if_pos hb']
  · rw [callFn_eq]
    have e1 : (lift G st).mocks f = mapMock (G f) (st.mocks f) := rfl
    rw [e1, mapMock_addActualCall]
    simp only
    rw [if_pos hb', ← lift_setMock]
    have : (fnCfg cf s n sizes).ret.map (fun _ => (fnCfg cf s n sizes).shortName) = if s.hasReturn then some s.name else none := by
      unfold fnCfg
      cases s.hasReturn <;> rfl
    rw [← this]
    rfl

end EasyMock.MockCode
