import Verif.Framework.Model

/-!
# Specification of the framework on histories

A history is a list of operations, newest first. Everything below is computed from the history alone, without the
framework's state: which expectations were registered and which calls were made since the last reset, which calls were
served, the pending order, the errors, the option settings and the memory.
-/

namespace EasyMock.Spec

/-- Is mock file `i` in the process? -/
def loaded (i : Nat) : List Op → Bool
  | [] => false
  | .load j :: past => if j = i then true else loaded i past
  | .unload j :: past => if j = i then false else loaded i past
  | _ :: past => loaded i past

/-- The order option: the last setting, initially off. -/
def order : List Op → Bool
  | [] => false
  | .setOrder b :: _ => b
  | _ :: past => order past

/-- The call-stack option: the last setting, initially on. -/
def print : List Op → Bool
  | [] => true
  | .setPrint b :: _ => b
  | _ :: past => print past

/-- Does this operation put function `f` back to its fresh state? -/
def resets (f : FnId) : Op → Bool
  | .init => true
  | .load i => i == f.file
  | .unload i => i == f.file
  | _ => false

/-- The operations since the last reset of `f`. -/
def since (f : FnId) : List Op → List Op
  | [] => []
  | op :: past => if resets f op then [] else op :: since f past

/-- The expectation that an operation registers for `f`. -/
def expOp (f : FnId) : Op → Option Exp
  | .expect g e _ => if g = f then some e else none
  | _ => none

def isCallOf (f : FnId) : Op → Bool
  | .call g _ => g == f
  | _ => false

/-- The expectations registered for `f` since its last reset, oldest first. -/
def exps (f : FnId) (past : List Op) : List Exp := ((since f past).filterMap (expOp f)).reverse

/-- The number of calls of `f` since its last reset. -/
def calls (f : FnId) (past : List Op) : Nat := (since f past).countP (isCallOf f)

/-- The expectation that serves a call of `f` made now: call number k (from 0) is served by expectation number k. -/
def serving (f : FnId) (past : List Op) : Option Exp := (exps f past)[calls f past]?

/-- The names in the order queue: every expectation adds one, every served call takes the oldest one. -/
def fifo (cfg : Cfg) : List Op → List String
  | [] => []
  | .expect f _ _ :: past => fifo cfg past ++ [cfg.name f]
  | .call f _ :: past => if (serving f past).isSome then (fifo cfg past).tail else fifo cfg past
  | .init :: _ => []
  | _ :: past => fifo cfg past

/-- The messages of the matchers of a call, in parameter order. -/
def matchErrs (mem : Mem) (ps : List (String × ParamExp × Val)) : List String :=
  ps.filterMap fun p => p.2.1.matcher.bind fun m => m mem p.2.2 p.2.1.value p.1

/-- A copied range; `none` when the copy is undefined. -/
def copied (m : Mem) (dst src n : Nat) : Option Mem :=
  if n = 0 then some m
  else if (∀ k, k < n → (m (src + k)).isSome ∧ (m (dst + k)).isSome) ∧ (src + n ≤ dst ∨ dst + n ≤ src) then
    some (fun a => if dst ≤ a ∧ a < dst + n then m (src + (a - dst)) else m a)
  else none

/-- The copies requested by the configured output parameters: destination, source, size. -/
def copies (sizes : List (Option Nat)) (outs : List OutExp) (dsts : List Addr) : List (Nat × Nat × Nat) :=
  (zip3 sizes outs dsts).filterMap fun (sz, o, dst) =>
    if o.src = 0 then none else some (dst, o.src, sz.getD o.size)

def copyAll (m : Mem) : List (Nat × Nat × Nat) → Option Mem
  | [] => some m
  | (d, s, n) :: r => (copied m d s n).bind (fun m' => copyAll m' r)

/-- Does a served call of `f` violate the recorded order? -/
def outOfOrder (cfg : Cfg) (past : List Op) (fc : FnCfg) : Bool :=
  order past && (fifo cfg past).head? != some fc.name

/-- The memory after a call; `none` when undefined. -/
def memCall (cfg : Cfg) (past : List Op) (m : Mem) (f : FnId) (fc : FnCfg) (c : Call) : Option Mem :=
  match serving f past with
  | none => some m
  | some e => if outOfOrder cfg past fc then some m else copyAll m (copies fc.outs e.outs c.outs)

/-- The caller's memory. -/
def mem (cfg : Cfg) (m0 : Mem) : List Op → Mem
  | [] => m0
  | .poke a b :: past => fun x => if x = a then some b else mem cfg m0 past x
  | .call f c :: past =>
    match cfg.fn? f with
    | none => mem cfg m0 past
    | some fc => (memCall cfg past (mem cfg m0 past) f fc c).getD (mem cfg m0 past)
  | _ :: past => mem cfg m0 past

/-- The errors of one call. -/
def callErrs (cfg : Cfg) (m0 : Mem) (past : List Op) (f : FnId) (fc : FnCfg) (c : Call) : List ErrKind :=
  match serving f past with
  | none => [.unexpected fc.name (fc.ret.map fun _ => fc.shortName)]
  | some e =>
    let k := calls f past + 1
    (if fc.isMember ∧ e.inst ≠ 0 ∧ e.inst ≠ c.this then [ErrKind.badInstance k fc.name e.inst c.this] else []) ++
    (matchErrs (mem cfg m0 past) (zip3 fc.paramNames e.params c.args)).map (ErrKind.mismatch k fc.name) ++
    (if outOfOrder cfg past fc then [ErrKind.order fc.name ((fifo cfg past).head?.getD "")] else [])

/-- The functions of all loaded mock files. -/
def liveFns (cfg : Cfg) (past : List Op) : List FnId :=
  ((List.range cfg.files.length).filter (loaded · past)).flatMap cfg.fnsOf

/-- The errors of one check: one per function whose numbers differ. -/
def checkErrs (cfg : Cfg) (past : List Op) : List ErrKind :=
  (liveFns cfg past).filterMap fun f =>
    if (exps f past).length = calls f past then none
    else some (.count (cfg.name f) (exps f past).length (calls f past))

/-- The recorded errors. Errors of calls carry a back trace when that option is on and supported. -/
def errs (cfg : Cfg) (m0 : Mem) : List Op → List Err
  | [] => []
  | .init :: _ => []
  | .call f c :: past =>
    match cfg.fn? f with
    | none => errs cfg m0 past
    | some fc => errs cfg m0 past ++ (callErrs cfg m0 past f fc c).map
        fun k => ⟨k, if cfg.backtrace && print past then some c.bt else none⟩
  | .check :: past => errs cfg m0 past ++ (checkErrs cfg past).map fun k => ⟨k, none⟩
  | _ :: past => errs cfg m0 past

/-- The value returned by a call. -/
def retVal (past : List Op) (f : FnId) (fc : FnCfg) : Option Val :=
  fc.ret.map fun n => match serving f past with
    | none => List.replicate n 0
    | some e => e.ret

/-- The verdict of a check. -/
def verdict (cfg : Cfg) (m0 : Mem) (past : List Op) : Bool :=
  (errs cfg m0 past).isEmpty && (liveFns cfg past).all fun f => (exps f past).length == calls f past

/-- What the caller of `op` observes after `past`: a value, a termination, or undefined behaviour. -/
def observe (cfg : Cfg) (m0 : Mem) (past : List Op) : Op → Res Out
  | .expect f _ alloc =>
    match cfg.fn? f with
    | none => .ub
    | some fc =>
      if loaded f.file past = false then .ub
      else if fc.isC ∧ (256 ≤ (exps f past).length ∨ alloc = false) then .exit
      else .ok .none
  | .call f c =>
    match cfg.fn? f with
    | none => .ub
    | some fc =>
      if loaded f.file past = false then .ub
      else if (memCall cfg past (mem cfg m0 past) f fc c).isNone then .ub
      else .ok (.ret (retVal past f fc))
  | .check => .ok (.verdict (verdict cfg m0 past))
  | .load i => if loaded i past = true ∨ cfg.files.length ≤ i then .ub else .ok .none
  | .unload i => if loaded i past = true then .ok .none else .ub
  | .getStr =>
    .ok (.str (if errs cfg m0 past = [] then none
      else some (String.join ((errs cfg m0 past).map fun e => e.render ++ "\n\r"))))
  | .getArr =>
    .ok (if errs cfg m0 past = [] then .arr none 0
      else .arr (some ((errs cfg m0 past).map (fun e => some e.render) ++ [none])) (errs cfg m0 past).length)
  | .poke a _ => if (mem cfg m0 past a).isSome then .ok .none else .ub
  | _ => .ok .none

/-- A history none of whose operations ended the process. -/
def Legal (cfg : Cfg) (m0 : Mem) : List Op → Prop
  | [] => True
  | op :: past => Legal cfg m0 past ∧ ∃ o, observe cfg m0 past op = .ok o

end EasyMock.Spec
