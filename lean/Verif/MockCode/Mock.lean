import Verif.MockCode.Lemmas

/-! # MockCode: the mock does what `callFn` says -/

namespace EasyMock.MockCode

open EasyMock EasyMock.Gen

variable {s : FunSection} {e : Exp} {c : Call} {f : FnId} {fc : FnCfg} {pa : Passing}

theorem addError_mocks (st : State) (pcs : Bool) (bt : String) (er : ErrKind) : (st.addError pcs bt er).mocks = st.mocks := rfl

theorem checkParam_mocks (pcs : Bool) (bt : String) (ord : Nat) (n : String) (st : State) (x : String × ParamExp × Val) :
    (checkParam pcs bt ord n st x).mocks = st.mocks := by
  unfold checkParam
  split
  · rfl
  · split <;> rfl

/-- What the check of a parameter needs. -/
structure CheckOk (s : FunSection) (e : Exp) (c : Call) (x : String × ParamExp × Val) : Prop where
  matcher : member s (layout s e) (matchMember s x.1) = some (.matcher x.2.1.matcher)
  value : member s (layout s e) x.1 = some (.val x.2.1.value)
  current : ∃ i, resolveCheck s x.1 = .parameter i ∧ c.args[i]? = some x.2.2

theorem callMatcher_value (i : Nat) (mt : Matcher) (mem : Mem) (cur ex : Val) (lit : String) :
    callMatcher {} i mt mem cur ex lit = .ok (mt mem cur ex lit) := rfl

theorem exec_check (rest : List Stmt) (fr : Frame) (hd : fr.data = some e) {x : String × ParamExp × Val}
    (h : CheckOk s e c x) : exec {} s f fc c (.check (matchMember s x.1) x.1 x.1 x.1 :: rest) fr =
      exec {} s f fc c rest { fr with st := checkParam fr.pcs c.bt (fr.st.mocks f).getNbActualCall fc.name fr.st x } := by
  obtain ⟨i, h1, h2⟩ := h.current
  obtain ⟨st, pcs, order, res, data⟩ := fr
  simp only at hd
  subst hd
  simp only [exec, h.matcher, checkParam]
  cases hm : x.2.1.matcher with
  | none => simp only
  | some mt =>
    simp only [h1, h.value, h2, callMatcher_value]
    cases hr : mt st.mem x.2.2 x.2.1.value x.1 with
    | none => simp only
    | some msg => simp only

theorem exec_checks (rest : List Stmt) : ∀ (es : List (String × String × Gen.Out × XDecl)) (ps : List ParamExp)
    (as : List Val) (fr : Frame), fr.data = some e → es.length = ps.length → es.length = as.length →
    (∀ x ∈ zip3 (es.map (fun y => y.2.1)) ps as, CheckOk s e c x) →
    exec {} s f fc c (es.map (fun y => Stmt.check (matchMember s y.2.1) y.2.1 y.2.1 y.2.1) ++ rest) fr =
      exec {} s f fc c rest { fr with
        st := (zip3 (es.map (fun y => y.2.1)) ps as).foldl
          (checkParam fr.pcs c.bt (fr.st.mocks f).getNbActualCall fc.name) fr.st }
  | [], _, _, fr, _, _, _, _ => by simp [zip3]
  | _ :: _, [], _, _, _, h, _, _ => by simp at h
  | _ :: _, _, [], _, _, _, h, _ => by simp at h
  | y :: es, p :: ps, a :: as, fr, hd, h1, h2, h => by
    have hy := h (y.2.1, p, a) (by simp [zip3])
    simp only [List.map_cons, List.cons_append]
    rw [exec_check _ fr hd hy]
    refine (exec_checks rest es ps as _ ?_ (by simpa using h1) (by simpa using h2) ?_).trans ?_
    · exact hd
    · intro x hx
      exact h x (by simp only [zip3, List.map_cons, List.zip_cons_cons, List.mem_cons]; exact .inr hx)
    · simp only [zip3, List.zip_cons_cons, List.foldl_cons, checkParam_mocks]

/-- What the copy of an output needs. -/
structure CopyOk (s : FunSection) (e : Exp) (c : Call) (fc : FnCfg) (x : String × String × Gen.Out × XDecl) (j : Nat)
    (o : OutExp) (dst : Addr) (sz : Option Nat) : Prop where
  src : member s (layout s e) ("out_" ++ x.2.1) = some (.ptr o.src)
  size : x.2.2.1 = .sized → member s (layout s e) ("out_" ++ x.2.1 ++ "_size") = some (.size o.size)
  static : x.2.2.1 ≠ .sized → ∃ n, sz = some n ∧ fc.outs[j]? = some (some n)
  dynamic : x.2.2.1 = .sized → sz = none
  dest : ∃ i, resolveMock s x.2.1 = .parameter i ∧ pointerArg s c i = some dst

def copyStmt (x : (String × String × Gen.Out × XDecl) × Nat) : Stmt :=
  .copyOut ("out_" ++ x.1.2.1) x.1.2.1
    (if x.1.2.2.1 == .sized then .inl ("out_" ++ x.1.2.1 ++ "_size") else .inr x.2)

/-- The statements after an output, as a function of the memory. -/
theorem exec_copy (rest : List Stmt) (fr : Frame) (hd : fr.data = some e) {x : String × String × Gen.Out × XDecl} {j : Nat}
    {o : OutExp} {dst : Addr} {sz : Option Nat} (h : CopyOk s e c fc x j o dst sz) :
    exec pa s f fc c (copyStmt (x, j) :: rest) fr =
      if o.src = 0 then exec pa s f fc c rest fr
      else match memcpy fr.st.mem dst o.src (sz.getD o.size) with
        | .ok mem => exec pa s f fc c rest { fr with st := { fr.st with mem := mem } }
        | .ub => some .ub
        | .exit => some .exit := by
  obtain ⟨i, h1, h2⟩ := h.dest
  obtain ⟨st, pcs, order, res, data⟩ := fr
  simp only at hd
  subst hd
  simp only [copyStmt, exec, h.src]
  by_cases h0 : o.src = 0
  · simp [h0]
  · simp only [h0, if_false, h1, h2]
    by_cases hz : x.2.2.1 = .sized
    · simp only [hz, beq_self_eq_true, if_true, h.size hz, h.dynamic hz, Option.getD_none]
      rfl
    · obtain ⟨n, hn1, hn2⟩ := h.static hz
      have hb : (x.2.2.1 == Gen.Out.sized) = false := by simpa using hz
      simp only [hb, Bool.false_eq_true, if_false, hn2, hn1, Option.join_some, Option.getD_some]
      rfl

theorem exec_copies : ∀ (xs : List (String × String × Gen.Out × XDecl)) (k : Nat) (szs : List (Option Nat))
    (os : List OutExp) (ds : List Addr) (fr : Frame), fr.data = some e → xs.length = szs.length →
    xs.length = os.length → xs.length = ds.length →
    (∀ (j : Nat) x sz o dst, xs[j]? = some x → szs[j]? = some sz → os[j]? = some o → ds[j]? = some dst →
      CopyOk s e c fc x (k + j) o dst sz) →
    exec pa s f fc c ((xs.zipIdx k).map copyStmt ++ [.ret]) fr =
      some (match writeOuts fr.st.mem (zip3 szs os ds) with
        | .ok mem => .ok ({ fr.st with mem := mem }, fr.res)
        | .ub => .ub
        | .exit => .exit)
  | [], k, szs, os, ds, fr, hd, h1, h2, h3, h => by
    have : szs = [] := List.length_eq_zero_iff.mp h1.symm
    subst this
    simp [zip3, writeOuts, exec]
  | _ :: _, _, [], _, _, _, _, h, _, _, _ => by simp at h
  | _ :: _, _, _, [], _, _, _, _, h, _, _ => by simp at h
  | _ :: _, _, _, _, [], _, _, _, _, h, _ => by simp at h
  | x :: xs, k, sz :: szs, o :: os, dst :: ds, fr, hd, h1, h2, h3, h => by
    have hx : CopyOk s e c fc x k o dst sz := h 0 x sz o dst rfl rfl rfl rfl
    have ht : ∀ (j : Nat) x sz o dst, xs[j]? = some x → szs[j]? = some sz → os[j]? = some o → ds[j]? = some dst →
        CopyOk s e c fc x (k + 1 + j) o dst sz := by
      intro j x sz o dst a1 a2 a3 a4
      have := h (j + 1) x sz o dst (by simpa using a1) (by simpa using a2) (by simpa using a3) (by simpa using a4)
      rw [show k + 1 + j = k + (j + 1) by omega]
      exact this
    simp only [List.length_cons, Nat.add_right_cancel_iff] at h1 h2 h3
    simp only [List.zipIdx_cons, List.map_cons, List.cons_append]
    rw [exec_copy _ fr hd hx]
    simp only [zip3, List.zip_cons_cons, writeOuts]
    by_cases h0 : o.src = 0
    · simp only [h0, if_true]
      rw [exec_copies xs (k + 1) szs os ds fr hd h1 h2 h3 ht]
      rfl
    · simp only [h0, if_false]
      cases hm : memcpy fr.st.mem dst o.src (sz.getD o.size) with
      | ok mem =>
        simp only [Res.bind_ok]
        rw [exec_copies xs (k + 1) szs os ds { fr with st := { fr.st with mem := mem } } hd h1 h2 h3 ht]
        rfl
      | ub => simp [Res.bind_ub]
      | exit => simp [Res.bind_exit]

/-- The names of the parameters mean the parameters: they are distinct and none is a name used inside the mock. -/
structure NamesOk (s : FunSection) : Prop where
  members : (dataMembers s).Nodup
  inner : ∀ n ∈ s.params.names, n ∉ checkLocals
  outer : ∀ n ∈ s.params.names, n ∉ mockLocals s

theorem names_nodup (hd : (dataMembers s).Nodup) : s.params.names.Nodup := by
  rw [dataMembers_eq] at hd
  have h1 := (List.nodup_append.mp (List.nodup_append.mp (List.nodup_append.mp hd).1).1).2.1
  have : ∀ (l : List (String × String × Gen.Out × XDecl)), (l.map (parNames s)).flatten.Nodup →
      (l.map (fun y => y.2.1)).Nodup := by
    intro l
    induction l with
    | nil => simp
    | cons a l ih =>
      intro h
      simp only [List.map_cons, List.flatten_cons, List.nodup_append] at h
      simp only [List.map_cons, List.nodup_cons]
      refine ⟨?_, ih h.2.1⟩
      intro hm
      obtain ⟨b, hb, e⟩ := List.mem_map.mp hm
      refine h.2.2 a.2.1 (by simp [parNames]) a.2.1 ?_ rfl
      exact List.mem_flatten.mpr ⟨_, List.mem_map.mpr ⟨b, hb, rfl⟩, by simp [parNames, e]⟩
  exact this _ h1

/-- The arguments of a call fit the function. -/
structure CallFits (s : FunSection) (c : Call) : Prop where
  args : c.args.length = s.params.entries.length
  outs : c.outs.length = s.outs.length

theorem checkOk_all (hn : NamesOk s) (hf : Fits s e) :
    ∀ x ∈ zip3 (s.params.entries.map (fun y => y.2.1)) e.params c.args, CheckOk s e c x := by
  intro x hx
  obtain ⟨n, p, a⟩ := x
  obtain ⟨i, h1, h2⟩ := getElem?_of_mem_zip hx
  rw [List.getElem?_zip_eq_some] at h2
  rw [List.getElem?_map] at h1
  cases hy : s.params.entries[i]? with
  | none => simp [hy] at h1
  | some y =>
    simp [hy] at h1
    subst h1
    have hm := member_param hf hn.members (mem_zip_of_getElem? hy h2.1)
    have hname : s.params.names[i]? = some y.2.1 := by simp [PList.names, hy]
    refine ⟨hm.2, hm.1, i, ?_, h2.2⟩
    have hmem := List.mem_of_getElem? hname
    unfold resolveCheck
    rw [if_neg (hn.inner _ hmem), if_neg (hn.outer _ hmem), if_pos hmem,
      idxOf_of_getElem? (names_nodup hn.members) hname]

theorem copyOk_all (hn : NamesOk s) (hf : Fits s e) (cf : Config) (n : Nat) (sizes : List Nat) :
    ∀ (j : Nat) x sz o dst, s.outs[j]? = some x → (fnCfg cf s n sizes).outs[j]? = some sz → e.outs[j]? = some o →
      c.outs[j]? = some dst → CopyOk s e c (fnCfg cf s n sizes) x (0 + j) o dst sz := by
  intro j x sz o dst h1 h2 h3 h4
  have hm := member_out hf hn.members (mem_zip_of_getElem? h1 h3)
  have hsz : ∃ w, sz = if x.2.2.1 == .sized then none else some w := by
    simp only [fnCfg, List.getElem?_map] at h2
    cases hz : (s.outs.zip sizes)[j]? with
    | none => simp [hz] at h2
    | some y =>
      have := hz
      rw [List.getElem?_zip_eq_some, h1] at this
      simp only [hz, Option.map_some, Option.some.injEq] at h2
      have e1 : x = y.1 := by simpa using this.1
      exact ⟨y.2, by rw [e1]; exact h2.symm⟩
  obtain ⟨w, hw⟩ := hsz
  obtain ⟨i, hi1, hi2⟩ := filter_place _ _ _ _ h1
  have hname : s.params.names[i]? = some x.2.1 := by simp [PList.names, hi1]
  refine ⟨hm.1, hm.2, ?_, ?_, i, ?_, ?_⟩
  · intro hz
    have hb : (x.2.2.1 == Gen.Out.sized) = false := by simpa using hz
    rw [hb] at hw
    refine ⟨w, hw, ?_⟩
    rw [Nat.zero_add, h2, hw]; rfl
  · intro hz
    rw [hw, hz]; rfl
  · have hmem := List.mem_of_getElem? hname
    unfold resolveMock
    rw [if_neg (hn.outer _ hmem), if_pos hmem, idxOf_of_getElem? (names_nodup hn.members) hname]
  · unfold pointerArg
    rw [hi2, h4]

theorem exec_result (rest : List Stmt) (fr : Frame) (hd : fr.data = some e) (hf : Fits s e) (hm : (dataMembers s).Nodup)
    (n : Nat) (hr : s.hasReturn = false → fr.res = none) :
    exec pa s f fc c ((if s.hasReturn then [Stmt.setResult (retMember s)] else []) ++ rest) fr =
      exec pa s f fc c rest { fr with res := (if s.hasReturn then some n else none).map (fun _ => e.ret) } := by
  cases hb : s.hasReturn with
  | true =>
    simp only [if_true, List.cons_append, List.nil_append, exec, hd, member_ret hf hm hb]
    rfl
  | false =>
    have hr := hr hb
    simp only [Bool.false_eq_true, if_false, List.nil_append, Option.map_none]
    cases fr; simp only at hr; subst hr; rfl

theorem exec_instance (rest : List Stmt) (fr : Frame) (hd : fr.data = some e) (hf : Fits s e)
    (hm : (dataMembers s).Nodup) :
    exec pa s f fc c ((if s.cls.isSome then [Stmt.checkInstance "instance"] else []) ++ rest) fr =
      exec pa s f fc c rest { fr with
        st := (if s.cls.isSome = true ∧ e.inst ≠ 0 ∧ e.inst ≠ c.this then
          fr.st.addError fr.pcs c.bt (.badInstance (fr.st.mocks f).getNbActualCall fc.name e.inst c.this) else fr.st) } := by
  cases hb : s.cls.isSome with
  | true =>
    simp only [if_true, List.cons_append, List.nil_append, exec, hd, member_inst hf hm hb, true_and]
    obtain ⟨st, pcs, order, res, data⟩ := fr
    simp only at hd
    subst hd
    split <;> rfl
  | false => simp only [Bool.false_eq_true, if_false, List.nil_append, false_and]

/-- The generated mock does what `callFn` says. -/
theorem runMock_eq (cfg : Cfg) (hn : NamesOk s) (cf : Config) (n : Nat) (sizes : List Nat) (hs : sizes.length = s.outs.length)
    (st : State) (hc : CallFits s c)
    (hf : (st.mocks f).addActualCall.2 = true → ∀ h m e,
      (st.mocks f).addActualCall.1.getCurrentCallParam st.heap = .ok (h, m, some e) → Fits s e) :
    runMock cfg s f (fnCfg cf s n sizes) st c = some (callFn cfg st f (fnCfg cf s n sizes) c) := by
  unfold runMock mockBody callFn
  simp only [List.cons_append, List.append_assoc, List.nil_append, exec]
  by_cases ha : (st.mocks f).addActualCall.2 = true
  · rw [if_pos ha, if_neg (show ¬ ((st.mocks f).addActualCall.2 = false) by simp [ha])]
    have hset : ((st.setMock f (st.mocks f).addActualCall.1).mocks f) = (st.mocks f).addActualCall.1 := by
      simp [State.setMock]
    have hheap : (st.setMock f (st.mocks f).addActualCall.1).heap = st.heap := rfl
    simp only [hset, hheap]
    cases hg : (st.mocks f).addActualCall.1.getCurrentCallParam st.heap with
    | ub => simp [Res.bind_ub]
    | exit => simp [Res.bind_exit]
    | ok r =>
      obtain ⟨h, m, d⟩ := r
      simp only [Res.bind_ok]
      cases d with
      | none => rfl
      | some e =>
        have hfe := hf ha h m e hg
        simp only
        rw [exec_instance (e := e) _ _ rfl hfe hn.members, exec_checks (e := e) _ s.params.entries e.params c.args _ rfl hfe.params.symm hc.args.symm
          (checkOk_all hn hfe), exec_result (e := e) _ _ rfl hfe hn.members n (fun hb => by simp [fnCfg, hb])]
        simp only [exec]
        have hmem : (fnCfg cf s n sizes).isMember = s.cls.isSome := rfl
        simp only [hmem]
        have hp : (fnCfg cf s n sizes).paramNames = s.params.entries.map (fun y => y.2.1) := rfl
        rw [hp]
        by_cases hI : s.cls.isSome = true ∧ e.inst ≠ 0 ∧ e.inst ≠ c.this
        all_goals
          first | simp only [if_pos hI, addError_mocks] | simp only [if_neg hI]
          split
          · rfl
          · have := exec_copies (s := s) (e := e) (c := c) (f := f) (pa := {}) (fc := fnCfg cf s n sizes) s.outs 0 (fnCfg cf s n sizes).outs e.outs c.outs
            rw [show (List.map (fun (e : (String × String × Gen.Out × XDecl) × Nat) => Stmt.copyOut ("out_" ++ e.1.2.1) e.1.2.1
              (if (e.1.2.2.1 == Gen.Out.sized) = true then Sum.inl ("out_" ++ e.1.2.1 ++ "_size") else Sum.inr e.2))
                s.outs.zipIdx) = (s.outs.zipIdx 0).map copyStmt from rfl]
            rw [this _ rfl (by simp [fnCfg, hs]) hfe.outs.symm hc.outs.symm (copyOk_all hn hfe cf n sizes)]
            congr 1
            generalize writeOuts _ _ = w
            cases w <;> rfl
  · have ha' : (st.mocks f).addActualCall.2 = false := by simpa using ha
    rw [if_neg ha, if_pos ha']
    rfl

end EasyMock.MockCode
