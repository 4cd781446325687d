import Verif.MockCode.File
import Verif.MockCode.Expect
import Verif.Props.MockCode

/-! # MockCode: the process made of generated files follows the framework model -/

namespace EasyMock.MockCode

open EasyMock EasyMock.Gen EasyMock.Spec

theorem resolve_of_getElem? {names : List String} (hn : names.Nodup) {k : Nat} {x : String} (h : names[k]? = some x) :
    resolve names x = some k := by
  unfold resolve
  have hm := List.mem_of_getElem? h
  have hc : names.count x = 1 := by
    have h1 := List.nodup_iff_count.mp hn x
    have h2 := List.count_pos_iff.mpr hm
    omega
  rw [if_pos hc, idxOf_of_getElem? hn h]

/-- What C77 asks from a function of a file. -/
structure PlainFn (g : GenFn) : Prop where
  names : PlainNames g.sec
  lists : ListsOk g.sec
  sizes : g.sizes.length = g.sec.outs.length
  literal : ∀ c ∈ (mockSignature g.sec).toList, c ≠ '"' ∧ c ≠ '\\' ∧ c ≠ '\n'
  object : "mocked_" ++ g.sec.name ∉ g.sec.params.names

/-- What C77 asks from a file: its functions have distinct names, and the names of their data types differ. -/
structure PlainFile (file : GenFile) : Prop where
  fns : ∀ g ∈ file, PlainFn g
  names : (file.map (fun g => g.sec.name)).Nodup
  types : (file.map (fun g => g.sec.cls.getD "" ++ "_" ++ g.sec.name ++ "_data")).Nodup

theorem nodup_map_inj {α β γ : Type} {f : α → β} {h : β → γ} (hi : ∀ a b, h a = h b → a = b) {l : List α}
    (hn : (l.map f).Nodup) : (l.map (fun x => h (f x))).Nodup := by
  induction l with
  | nil => simp
  | cons a l ih =>
    simp only [List.map_cons, List.nodup_cons] at hn ⊢
    refine ⟨?_, ih hn.2⟩
    intro hm
    obtain ⟨b, hb, e⟩ := List.mem_map.mp hm
    exact hn.1 (List.mem_map.mpr ⟨b, hb, hi _ _ e⟩)

theorem append_left_inj' (p a b : String) (h : p ++ a = p ++ b) : a = b := by
  have := congrArg String.toList h
  simp only [String.toList_append, List.append_cancel_left_eq] at this
  exact String.toList_inj.mp this

theorem append_right_inj' (p a b : String) (h : a ++ p = b ++ p) : a = b := by
  have := congrArg String.toList h
  simp only [String.toList_append, List.append_cancel_right_eq] at this
  exact String.toList_inj.mp this

variable {file : GenFile} {P : Program} {i : Nat}

theorem PlainFile.objects (h : PlainFile file) : (objects file).Nodup :=
  nodup_map_inj (fun a b => append_left_inj' "mocked_" a b) h.names

theorem PlainFile.commons (h : PlainFile file) : (commons file).Nodup :=
  nodup_map_inj (fun a b => append_right_inj' "_ExpectReturnAndOutput_common" a b) h.names

theorem PlainFile.dataTypes (h : PlainFile file) : (dataTypes file).Nodup := by
  have := h.types
  simpa only [MockCode.dataTypes, dataType, dataPrefix, String.append_assoc] using this

theorem objects_at {k : Nat} {g : GenFn} (h : PlainFile file) (hk : file[k]? = some g) :
    resolve (objects file) (mockedName g.sec) = some k ∧ resolve (dataTypes file) (dataType g.sec) = some k ∧
    resolve (commons file) (commonName g.sec) = some k := by
  refine ⟨resolve_of_getElem? h.objects ?_, resolve_of_getElem? h.dataTypes ?_, resolve_of_getElem? h.commons ?_⟩
  · simp [objects, hk]
  · simp [dataTypes, hk]
  · simp [commons, hk]

theorem PlainFn.plain {g : GenFn} (h : PlainFn g) : plainLiteral (mockSignature g.sec) = true := by
  unfold plainLiteral
  rw [List.all_eq_true]
  intro c hc
  obtain ⟨h1, h2, h3⟩ := h.literal c hc
  simp [h1, h2, h3]

theorem suffix_at {pre suf : GenFile} {g : GenFn} : (pre ++ g :: suf)[pre.length]? = some g := by simp

/-! ## Reset -/

theorem execFile_reset (h : PlainFile file) : ∀ (suf pre : GenFile), file = pre ++ suf → ∀ (g : GState) (rv : Bool),
    execFile P i file (resetAll suf) (g, rv) =
      match resetFns g.st ((List.range' pre.length suf.length).map (FnId.mk i)) with
      | .ok s => some (.ok ({ g with st := s }, rv))
      | .ub => some .ub
      | .exit => some .exit
  | [], pre, _, g, rv => by simp [resetAll, execFile, resetFns]
  | a :: suf, pre, hf, g, rv => by
    have hk : file[pre.length]? = some a := by rw [hf]; exact suffix_at
    have hr := (objects_at h hk).1
    have ih := execFile_reset h suf (pre ++ [a]) (by rw [hf]; simp)
    simp only [resetAll, List.map_cons, execFile, hr, List.length_cons, List.range'_succ, resetFns]
    cases hm : (g.st.mocks ⟨i, pre.length⟩).reset g.st.heap with
    | ub => simp [Res.bind_ub]
    | exit => simp [Res.bind_exit]
    | ok r =>
      obtain ⟨hp, m⟩ := r
      simp only [Res.bind_ok]
      have := ih { g with st := { g.st.setMock ⟨i, pre.length⟩ m with heap := hp } } rv
      simp only [resetAll, List.length_append, List.length_cons, List.length_nil, Nat.zero_add] at this
      exact this

/-! ## Initialisation -/

theorem execFile_init (h : PlainFile file) : ∀ (suf pre : GenFile), file = pre ++ suf → ∀ (g : GState) (rv : Bool),
    execFile P i file (initAll suf) (g, rv) =
      some (.ok (⟨initFns P.cfg g.st ((List.range' pre.length suf.length).map (FnId.mk i)),
        fun f => if f.file = i ∧ pre.length ≤ f.idx ∧ f.idx < file.length then (file[f.idx]?).map (fun g => mockSignature g.sec)
          else g.names f⟩, rv))
  | [], pre, hf, g, rv => by
    simp only [initAll, List.map_nil, execFile, List.length_nil, List.range'_zero, initFns]
    congr 3
    obtain ⟨st, names⟩ := g
    simp only [GState.mk.injEq, true_and]
    funext f
    have : file.length = pre.length := by rw [hf]; simp
    rw [if_neg (by omega)]
  | a :: suf, pre, hf, g, rv => by
    have hk : file[pre.length]? = some a := by rw [hf]; exact suffix_at
    obtain ⟨hr1, hr2, -⟩ := objects_at h hk
    have hpl := (h.fns a (List.mem_of_getElem? hk)).plain
    have ih := execFile_init h suf (pre ++ [a]) (by rw [hf]; simp)
    have hlen : file.length = pre.length + suf.length + 1 := by rw [hf]; simp; omega
    simp only [initAll, List.map_cons, execFile, hr1, hr2, hpl, true_and, if_true, List.length_cons, List.range'_succ,
      initFns]
    have := ih ⟨g.st.setMock ⟨i, pre.length⟩ (zeroMock P.cfg ⟨i, pre.length⟩),
      fun f => if f = ⟨i, pre.length⟩ then some (mockSignature a.sec) else g.names f⟩ rv
    simp only [initAll, List.length_append, List.length_cons, List.length_nil, Nat.zero_add] at this
    rw [this]
    congr 3
    simp only [GState.mk.injEq, true_and]
    funext f
    by_cases hfi : f = ⟨i, pre.length⟩
    · subst hfi
      rw [if_neg (by simp only; omega), if_pos rfl, if_pos ⟨rfl, by simp only; omega, by simp only; omega⟩, hk]
      rfl
    · rw [if_neg hfi]
      by_cases hc : f.file = i ∧ pre.length ≤ f.idx ∧ f.idx < file.length
      · have hne : f.idx ≠ pre.length := by
          intro he
          apply hfi
          obtain ⟨a, b⟩ := f
          simp only at hc he
          rw [hc.1, he]
        rw [if_pos hc, if_pos ⟨hc.1, by omega, hc.2.2⟩]
      · rw [if_neg hc, if_neg (by omega)]

/-! ## Verification -/

theorem verifyFn_mocks (cfg : Cfg) (s : State) (f : FnId) : (verifyFn cfg s f).1.mocks = s.mocks := by
  unfold verifyFn
  simp only
  split <;> rfl

theorem execFile_verify (h : PlainFile file) (cfg : Cfg) : ∀ (suf pre : GenFile), file = pre ++ suf → ∀ (g : GState) (rv : Bool),
    (∀ k, k < file.length → g.names ⟨i, k⟩ = some (cfg.name ⟨i, k⟩)) →
    execFile P i file (verifyAll suf) (g, rv) =
      some (.ok ({ g with st := (verifyFns cfg g.st ((List.range' pre.length suf.length).map (FnId.mk i))).1 },
        rv && (verifyFns cfg g.st ((List.range' pre.length suf.length).map (FnId.mk i))).2))
  | [], pre, _, g, rv, _ => by simp [verifyAll, execFile, verifyFns]
  | a :: suf, pre, hf, g, rv, hn => by
    have hk : file[pre.length]? = some a := by rw [hf]; exact suffix_at
    have hr := (objects_at h hk).1
    have hlt : pre.length < file.length := by rw [hf]; simp
    have ih := execFile_verify h cfg suf (pre ++ [a]) (by rw [hf]; simp)
    simp only [verifyAll, List.map_cons, execFile, hr, List.length_cons, List.range'_succ, verifyFns, verifyFn]
    simp only [verifyAll, List.length_append, List.length_cons, List.length_nil, Nat.zero_add] at ih
    by_cases hv : (g.st.mocks ⟨i, pre.length⟩).getNbExpectedCall ≠ (g.st.mocks ⟨i, pre.length⟩).getNbActualCall
    · rw [if_pos hv, if_pos hv, hn _ hlt]
      refine Eq.trans (ih _ _ ?h) ?_
      case h => exact hn
      simp
    · rw [if_neg hv, if_neg hv]
      refine Eq.trans (ih _ _ ?h) ?_
      case h => exact hn
      simp

/-! ## The data of an expectation -/

variable {s : FunSection} {e : Exp}

/-- An expectation which says nothing that the function cannot use: no object if the function is no member of a class, no
    result if it has none, no size for an output whose size is known. -/
structure Exact (s : FunSection) (e : Exp) : Prop where
  fits : Fits s e
  inst : s.cls = none → e.inst = 0
  ret : s.hasReturn = false → e.ret = []
  sizes : ∀ (j : Nat) x o, s.outs[j]? = some x → e.outs[j]? = some o → x.2.2.1 ≠ .sized → o.size = 0

theorem dataField_of_member (hd : (dataMembers s).Nodup) {m : String} {v : MVal} (h : member s (layout s e) m = some v) :
    dataField s ((layout s e).map some) m = some v := by
  have hm := mem_of_member h
  unfold dataField
  rw [if_pos (List.of_mem_zip hm).1]
  exact field_of_mem hd hm

theorem mapM_of_zip {α β : Type} (f : α → Option β) : ∀ (l : List α) (r : List β), l.length = r.length →
    (∀ x y, (x, y) ∈ l.zip r → f x = some y) → l.mapM f = some r
  | [], [], _, _ => rfl
  | [], _ :: _, h, _ => by simp at h
  | _ :: _, [], h, _ => by simp at h
  | a :: l, b :: r, h, hz => by
    rw [List.mapM_cons, hz a b (by simp), mapM_of_zip f l r (by simpa using h) (fun x y hxy => hz x y (by simp [hxy]))]
    rfl

theorem decode_layout (hd : (dataMembers s).Nodup) (he : Exact s e) : decode s ((layout s e).map some) = some e := by
  have hf := he.fits
  have h1 : (if s.cls.isSome then dataField s ((layout s e).map some) "instance" else some (.ptr 0)) = some (.ptr e.inst) := by
    cases hc : s.cls with
    | none => simp [he.inst hc]
    | some c => exact dataField_of_member hd (member_inst hf hd (by simp [hc]))
  have h2 : s.params.names.mapM (decodeParam s ((layout s e).map some)) = some e.params := by
    apply mapM_of_zip
    · simp [PList.names, hf.params]
    · intro n p hnp
      obtain ⟨i, hi1, hi2⟩ := getElem?_of_mem_zip hnp
      simp only [PList.names, List.getElem?_map] at hi1
      cases hx : s.params.entries[i]? with
      | none => simp [hx] at hi1
      | some x =>
        simp [hx] at hi1
        subst hi1
        obtain ⟨m1, m2⟩ := member_param hf hd (mem_zip_of_getElem? hx hi2)
        simp only [decodeParam, dataField_of_member hd m1, dataField_of_member hd m2]
  have h3 : (if s.hasReturn then dataField s ((layout s e).map some) (retMember s) else some (.val [])) = some (.val e.ret) := by
    cases hr : s.hasReturn with
    | true => simp only [if_true]; exact dataField_of_member hd (member_ret hf hd hr)
    | false => simp [he.ret hr]
  have h4 : s.outs.mapM (decodeOut s ((layout s e).map some)) = some e.outs := by
    apply mapM_of_zip
    · exact hf.outs.symm
    · intro x o hxo
      obtain ⟨i, hi1, hi2⟩ := getElem?_of_mem_zip hxo
      obtain ⟨m1, m2⟩ := member_out hf hd hxo
      unfold decodeOut
      rw [dataField_of_member hd m1]
      simp only
      by_cases hs : x.2.2.1 = .sized
      · rw [dataField_of_member hd (m2 hs)]
        simp [hs]
      · have hb : (x.2.2.1 == Gen.Out.sized) = false := by simpa using hs
        obtain ⟨src, size⟩ := o
        have := he.sizes i x _ hi1 hi2 hs
        simp only at this
        simp [hb, this]
  unfold decode
  rw [h1, h2, h3, h4]

/-! ## One step -/

theorem cfg_fn (P : Program) (f : FnId) :
    P.cfg.fn? f = (P.fn? f).map (fun x => fnCfg P.conf x.2.sec x.2.ret x.2.sizes) := by
  unfold Cfg.fn? Program.fn? Program.cfg
  simp only [List.getElem?_map]
  cases P.files[f.file]? with
  | none => rfl
  | some file =>
    simp only [Option.map_some, Option.bind_some, List.getElem?_map]
    cases file[f.idx]? <;> rfl

theorem cfg_fnsOf (P : Program) {i : Nat} {file : GenFile} (h : P.files[i]? = some file) :
    P.cfg.fnsOf i = (List.range' 0 file.length).map (FnId.mk i) := by
  unfold Cfg.fnsOf Program.cfg
  simp only [List.getElem?_map, h, Option.map_some, List.length_map, List.range_eq_range']

theorem cfg_name (P : Program) {f : FnId} {file : GenFile} {g : GenFn} (h : P.fn? f = some (file, g)) :
    P.cfg.name f = mockSignature g.sec := by
  unfold Cfg.name
  rw [cfg_fn, h]
  rfl

theorem fn_file {P : Program} {f : FnId} {file : GenFile} {g : GenFn} (h : P.fn? f = some (file, g)) :
    P.files[f.file]? = some file ∧ file[f.idx]? = some g := by
  unfold Program.fn? at h
  split at h
  · cases h
  · rename_i file' hf
    cases hg : file'[f.idx]? with
    | none => simp [hg] at h
    | some g' =>
      simp [hg] at h
      rw [hf, h.1]
      exact ⟨rfl, by rw [← h.1, hg, h.2]⟩

theorem fn_of_file {P : Program} {i k : Nat} {file : GenFile} {g : GenFn} (h : P.files[i]? = some file) (hk : file[k]? = some g) :
    P.fn? ⟨i, k⟩ = some (file, g) := by
  unfold Program.fn?
  simp [h, hk]

/-- The state of the process is that of the framework model, and the objects of the loaded files have their names. -/
structure Rel (P : Program) (g : GState) (s : State) : Prop where
  st : g.st = s
  names : ∀ f file fn, P.fn? f = some (file, fn) → s.loaded f.file = true → g.names f = some (mockSignature fn.sec)

/-- What the process does on an operation, from what the framework model does. -/
def Follows (P : Program) (x : Option (Res (GState × Out))) (y : Res (State × Out)) : Prop :=
  match y with
  | .ok (s', o) => ∃ g', x = some (.ok (g', o)) ∧ Rel P g' s'
  | .ub => x = some .ub
  | .exit => x = some .exit

variable {g : GState} {st : State}

theorem expect_follows (hP : ∀ file ∈ P.files, PlainFile file) (hR : Rel P g st) {f : FnId} {file : GenFile} {fn : GenFn}
    (hf : P.fn? f = some (file, fn)) (he : Exact fn.sec e) (alloc : Bool)
    {run : FunSection → Option (List (Option MVal))} (hrun : run fn.sec = some ((layout fn.sec e).map some)) :
    Follows P (gexpect P f g run alloc) (step P.cfg st (.expect f e alloc)) := by
  obtain ⟨hst, hnm⟩ := hR
  subst hst
  obtain ⟨h1, h2⟩ := fn_file hf
  have hpf := hP file (List.mem_of_getElem? h1)
  have hp := hpf.fns fn (List.mem_of_getElem? h2)
  obtain ⟨r1, r2, r3⟩ := objects_at hpf h2
  have hobj : mockedName fn.sec ∉ expectNames fn.sec ++ ["mockedData"] := by
    intro hm
    have pre : ∀ (p x : String), p ++ x = mockedName fn.sec → p.toList.head? ≠ some 'm' → p = "" := by
      intro p x hpx hne
      have : (p ++ x).toList.head? = some 'm' := by
        rw [hpx, mockedName, String.toList_append]; rfl
      rw [String.toList_append] at this
      cases hp : p.toList with
      | nil => exact String.toList_inj.mp hp
      | cons c cs => simp [hp] at this hne; exact absurd this hne
    have lit : ∀ x : String, x = mockedName fn.sec → x.toList.take 7 = ['m', 'o', 'c', 'k', 'e', 'd', '_'] := by
      intro x hx
      rw [hx, mockedName, String.toList_append]
      show (['m', 'o', 'c', 'k', 'e', 'd', '_'] ++ _).take 7 = _
      simp
    rcases List.mem_append.mp hm with hm | hm
    · rw [expectNames_eq] at hm
      unfold shortNames at hm
      rcases List.mem_append.mp hm with ha | ha
      · rcases List.mem_append.mp ha with ha | ha
        · rcases List.mem_append.mp ha with ha | ha
          rcases List.mem_append.mp ha with ha | ha
          · exact absurd (lit _ (mem_instanceNames ha).1.symm) (by decide +kernel)
          · exact hp.object ha
          · cases hb : fn.sec.hasReturn
            · simp [hb] at ha
            · simp only [hb, if_true, List.mem_singleton] at ha
              exact absurd (lit _ ha.symm) (by decide +kernel)
        · obtain ⟨x, _, hx⟩ := List.mem_map.mp ha
          exact absurd (pre "easyMock_match_" x hx (by decide +kernel)) (by decide +kernel)
      · obtain ⟨l, hl, hal⟩ := List.mem_flatten.mp ha
        obtain ⟨x, _, rfl⟩ := List.mem_map.mp hl
        unfold outNames at hal
        rcases List.mem_cons.mp hal with hal | hal
        · exact absurd (pre "out_" _ hal.symm (by decide +kernel)) (by decide +kernel)
        · by_cases hs : x.2.2.1 = .sized
          · simp only [hs, beq_self_eq_true, if_true, List.mem_cons, List.not_mem_nil, or_false] at hal
            rw [String.append_assoc] at hal
            exact absurd (pre "out_" _ hal.symm (by decide +kernel)) (by decide +kernel)
          · have hb : (x.2.2.1 == Gen.Out.sized) = false := by simpa using hs
            simp [hb] at hal
    · rw [List.mem_singleton] at hm
      exact absurd (lit _ hm.symm) (by decide +kernel)
  unfold gexpect step
  rw [hf]
  simp only [cfg_fn, hf, Option.map_some]
  by_cases hl : g.st.loaded f.file = true
  · have hfe : (⟨f.file, f.idx⟩ : FnId) = f := rfl
    rw [if_pos hl, if_pos hl, if_pos ⟨r3, hobj⟩, r1, hrun]
    simp only [decode_layout hp.names.members he, expectFn, hfe]
    cases hm : (g.st.mocks f).addExpectedCall alloc g.st.heap e with
    | ub => simp [Res.bind_ub, Follows]
    | exit => simp [Res.bind_exit, Follows]
    | ok r =>
      obtain ⟨h, m⟩ := r
      simp only [Res.bind_ok, hnm f file fn hf hl, Follows]
      refine ⟨_, rfl, rfl, ?_⟩
      intro f' file' fn' hf' hl'
      exact hnm f' file' fn' hf' hl'
  · rw [if_neg hl, if_neg hl]
    rfl

theorem call_follows (hP : ∀ file ∈ P.files, PlainFile file) (hR : Rel P g st) {m0 : Mem} {past : List Op}
    (hr : runRev P.cfg m0 past = .ok st) (hlen : past.length + 1 < 2 ^ 32) {f : FnId} {c : Call}
    (hfit : ∀ file fn, P.fn? f = some (file, fn) → CallFits fn.sec c ∧
      ∀ e alloc, Op.expect f e alloc ∈ past → Fits fn.sec e) :
    Follows P (gcall P f g c) (step P.cfg st (.call f c)) := by
  obtain ⟨hst, hnm⟩ := hR
  subst hst
  unfold gcall step
  simp only [cfg_fn]
  cases hf : P.fn? f with
  | none => rfl
  | some x =>
    obtain ⟨file, fn⟩ := x
    simp only [Option.map_some]
    obtain ⟨hc, he⟩ := hfit file fn hf
    obtain ⟨h1, h2⟩ := fn_file hf
    have hpf := hP file (List.mem_of_getElem? h1)
    have hp := hpf.fns fn (List.mem_of_getElem? h2)
    obtain ⟨r1, -, -⟩ := objects_at hpf h2
    by_cases hl : g.st.loaded f.file = true
    · have hfe : (⟨f.file, f.idx⟩ : FnId) = f := rfl
      have hgl : resolveMock fn.sec (mockedName fn.sec) = .global := by
        unfold resolveMock
        rw [if_neg, if_neg (show mockedName fn.sec ∉ _ from hp.object)]
        intro hm
        have lit : ∀ x : String, x = mockedName fn.sec → x.toList.take 7 = ['m', 'o', 'c', 'k', 'e', 'd', '_'] := by
          intro x hx
          rw [hx, mockedName, String.toList_append]
          show (['m', 'o', 'c', 'k', 'e', 'd', '_'] ++ _).take 7 = _
          simp
        unfold mockLocals at hm
        have hb : mockedName fn.sec ∈ ["printCallStack", "checkCallsOrder", "default_res", "currentDataCall", "currentCall"] := by
          cases hb : fn.sec.hasReturn <;> simp [hb] at hm ⊢
          · rcases hm with hm | hm | hm | hm <;> simp [hm]
          · exact hm
        simp only [List.mem_cons, List.not_mem_nil, or_false] at hb
        rcases hb with hb | hb | hb | hb | hb <;> exact absurd (lit _ hb.symm) (by decide +kernel)
      rw [if_pos hl, if_pos hl, r1, hgl]
      simp only [hfe, hnm f file fn hf hl]
      have hmock := C67_mock_partial hr hlen hp.names P.conf fn.ret fn.sizes hp.sizes (by rw [cfg_fn, hf]; rfl) hc he
      have hnc : ({ fnCfg P.conf fn.sec fn.ret fn.sizes with name := mockSignature fn.sec } : FnCfg) =
        fnCfg P.conf fn.sec fn.ret fn.sizes := rfl
      rw [hnc, hmock]
      cases hcf : callFn P.cfg g.st f (fnCfg P.conf fn.sec fn.ret fn.sizes) c with
      | ub => simp [obind, Res.bind_ub, Follows]
      | exit => simp [obind, Res.bind_exit, Follows]
      | ok r =>
        obtain ⟨s', v⟩ := r
        simp only [obind, Res.bind_ok, Follows]
        refine ⟨_, rfl, rfl, ?_⟩
        intro f' file' fn' hf' hl'
        apply hnm f' file' fn' hf'
        have hs : step P.cfg g.st (.call f c) = .ok (s', .ret v) := by
          simp only [step, cfg_fn, hf, Option.map_some, hl, if_true, hcf, Res.bind_ok]
        have hr' : runRev P.cfg m0 (.call f c :: past) = .ok s' := by
          simp only [runRev, hr, Res.bind_ok, hs]
        obtain ⟨a, -⟩ := run_sim (by omega) hr
        obtain ⟨b, -⟩ := run_sim (by simpa using hlen) hr'
        rw [b.loaded] at hl'
        rw [a.loaded]
        simpa [loaded] using hl'
    · rw [if_neg hl, if_neg hl]
      rfl

theorem resetFns_loaded {l : List FnId} : ∀ {s s' : State}, resetFns s l = .ok s' → s'.loaded = s.loaded ∧ s'.reg = s.reg := by
  induction l with
  | nil => intro s s' h; simp [resetFns] at h; subst h; exact ⟨rfl, rfl⟩
  | cons f l ih =>
    intro s s' h
    simp only [resetFns] at h
    cases hm : (s.mocks f).reset s.heap with
    | ub => simp [hm, Res.bind_ub] at h
    | exit => simp [hm, Res.bind_exit] at h
    | ok r =>
      simp only [hm, Res.bind_ok] at h
      have := ih h
      exact this

theorem resetFiles_follows (hP : ∀ file ∈ P.files, PlainFile file) : ∀ (l : List Nat) (g : GState),
    (∀ i ∈ l, i < P.files.length) →
    gresetFiles P l g = match resetFiles P.cfg g.st l with
      | .ok s => some (.ok { g with st := s })
      | .ub => some .ub
      | .exit => some .exit
  | [], g, _ => by simp [gresetFiles, resetFiles]
  | i :: l, g, hl => by
    simp only [gresetFiles, resetFiles]
    by_cases hr : g.st.reg i = true
    · rw [if_pos hr, if_pos hr]
      by_cases hld : g.st.loaded i = true
      · rw [if_pos hld, if_pos hld]
        have hi : i < P.files.length := hl i (by simp)
        have hf : P.files[i]? = some P.files[i] := List.getElem?_eq_getElem hi
        have hpf := hP P.files[i] (List.getElem_mem hi)
        rw [hf]
        simp only [mockedRegister, execFile_reset hpf P.files[i] [] rfl g true, cfg_fnsOf P hf, List.length_nil]
        cases hs : resetFns g.st ((List.range' 0 (P.files[i]).length).map (FnId.mk i)) with
        | ub => simp [obind, Res.bind_ub]
        | exit => simp [obind, Res.bind_exit]
        | ok s =>
          simp only [obind, Res.bind_ok]
          exact resetFiles_follows hP l { g with st := s } (fun j hj => hl j (by simp [hj]))
      · rw [if_neg hld, if_neg hld]
    · rw [if_neg hr, if_neg hr]
      exact resetFiles_follows hP l g (fun j hj => hl j (by simp [hj]))

theorem resetFiles_loaded (cfg : Cfg) : ∀ (l : List Nat) {s s' : State}, resetFiles cfg s l = .ok s' → s'.loaded = s.loaded
  | [], s, s', h => by simp [resetFiles] at h; subst h; rfl
  | i :: l, s, s', h => by
    simp only [resetFiles] at h
    split at h
    · split at h
      · cases hr : resetFns s (cfg.fnsOf i) with
        | ub => simp [hr, Res.bind_ub] at h
        | exit => simp [hr, Res.bind_exit] at h
        | ok s1 =>
          simp only [hr, Res.bind_ok] at h
          rw [resetFiles_loaded cfg l h, (resetFns_loaded hr).1]
      · cases h
    · exact resetFiles_loaded cfg l h

theorem verifyFns_loaded (cfg : Cfg) : ∀ (l : List FnId) (s : State), (verifyFns cfg s l).1.loaded = s.loaded
  | [], s => rfl
  | f :: l, s => by
    simp only [verifyFns]
    rw [verifyFns_loaded cfg l]
    unfold verifyFn
    simp only
    split <;> rfl

theorem verifyFiles_follows (hP : ∀ file ∈ P.files, PlainFile file) : ∀ (l : List Nat) (g : GState) (rv : Bool),
    (∀ i ∈ l, i < P.files.length) →
    (∀ f file fn, P.fn? f = some (file, fn) → g.st.loaded f.file = true → g.names f = some (mockSignature fn.sec)) →
    gverifyFiles P l (g, rv) = match verifyFiles P.cfg g.st l with
      | .ok (s, b) => some (.ok ({ g with st := s }, rv && b))
      | .ub => some .ub
      | .exit => some .exit
  | [], g, rv, _, _ => by simp [gverifyFiles, verifyFiles]
  | i :: l, g, rv, hl, hn => by
    simp only [gverifyFiles, verifyFiles]
    by_cases hr : g.st.reg i = true
    · rw [if_pos hr, if_pos hr]
      by_cases hld : g.st.loaded i = true
      · rw [if_pos hld, if_pos hld]
        have hi : i < P.files.length := hl i (by simp)
        have hf : P.files[i]? = some P.files[i] := List.getElem?_eq_getElem hi
        have hpf := hP P.files[i] (List.getElem_mem hi)
        rw [hf]
        have hnm : ∀ k, k < (P.files[i]).length → g.names ⟨i, k⟩ = some (P.cfg.name ⟨i, k⟩) := by
          intro k hk
          have hfn := fn_of_file hf (List.getElem?_eq_getElem hk)
          rw [hn _ _ _ hfn hld, cfg_name P hfn]
        simp only [mockedRegister, execFile_verify hpf P.cfg P.files[i] [] rfl g true hnm, cfg_fnsOf P hf, List.length_nil, obind,
          Bool.true_and]
        refine (verifyFiles_follows hP l _ _ (fun j hj => hl j (by simp [hj])) ?_).trans ?_
        · intro f file fn h1 h2
          apply hn f file fn h1
          rw [← verifyFns_loaded P.cfg _ g.st]
          exact h2
        · simp only
          generalize verifyFiles P.cfg _ l = y
          cases y with
          | ub => rfl
          | exit => rfl
          | ok r => simp [Res.bind_ok, Bool.and_assoc]
      · rw [if_neg hld, if_neg hld]
    · rw [if_neg hr, if_neg hr]
      exact verifyFiles_follows hP l g rv (fun j hj => hl j (by simp [hj])) hn

theorem verifyFiles_loaded (cfg : Cfg) : ∀ (l : List Nat) {s s' : State} {b : Bool}, verifyFiles cfg s l = .ok (s', b) →
    s'.loaded = s.loaded
  | [], s, s', b, h => by simp [verifyFiles] at h; rw [h.1]
  | i :: l, s, s', b, h => by
    simp only [verifyFiles] at h
    split at h
    · split at h
      · cases hr : verifyFiles cfg (verifyFns cfg s (cfg.fnsOf i)).1 l with
        | ub => simp [hr, Res.bind_ub] at h
        | exit => simp [hr, Res.bind_exit] at h
        | ok r =>
          obtain ⟨s1, b1⟩ := r
          simp only [hr, Res.bind_ok, Res.ok.injEq, Prod.mk.injEq] at h
          rw [← h.1, verifyFiles_loaded cfg l hr, verifyFns_loaded]
      · cases h
    · exact verifyFiles_loaded cfg l h

theorem initFns_loaded (cfg : Cfg) : ∀ (l : List FnId) (s : State), (initFns cfg s l).loaded = s.loaded
  | [], s => rfl
  | f :: l, s => by simp only [initFns]; rw [initFns_loaded cfg l]; rfl

end EasyMock.MockCode
