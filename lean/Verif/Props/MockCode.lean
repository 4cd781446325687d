import Verif.Props.Framework3
import Verif.MockCode.Expect
import Verif.Props.Gen3
import Verif.Props.Framework1

/-! # C66, C67: the code generated for a function does what the framework model says -/

namespace EasyMock.MockCode

open EasyMock EasyMock.Gen EasyMock.Spec

/-- What C66 and C67 ask from the names of the parameters. Each of these is needed for the generated code to compile or to
    mean the parameter (C59, C62). -/
structure PlainNames (s : FunSection) : Prop where
  nodup : s.params.names.Nodup
  size : ∀ a ∈ s.params.names, ∀ b ∈ s.params.names, b ≠ a ++ "_size"
  prefixes : ∀ n ∈ s.params.names, ¬ StartsWith "easyMock_match_" n ∧ ¬ StartsWith "out_" n ∧
    ¬ StartsWith (s.cls.getD "" ++ "_" ++ s.name ++ "_match_") n
  result : s.cls.getD "" ++ "_" ++ s.name ++ "_returnValue" ∉ s.params.names
  inst : s.cls ≠ none → "instance" ∉ s.params.names
  cls : ∀ c, s.cls = some c → ¬ StartsWith "out_" (c ++ "_")
  reserved : ∀ n ∈ s.params.names, n ∉ ["to_return", "mockedData", "errorMessage", "curCallVal", "printCallStack",
    "checkCallsOrder", "default_res", "currentDataCall", "currentCall"]

/-- The functions whose Expect functions have lists of parameters without an empty entry (C49): all which are no member of a
    class, and of the members those with exactly one parameter and those without parameters and without result. -/
def ListsOk (s : FunSection) : Prop :=
  s.cls = none ∨ s.params.names.length = 1 ∨ (s.params.names = [] ∧ s.hasReturn = false)

variable {s : FunSection} {e : Exp}

theorem ListsOk.listsOk (h : ListsOk s) : listsOk s = true := by
  unfold MockCode.listsOk
  rcases h with h | h | ⟨h1, h2⟩
  · simp [h]
  · simp only [PList.names, List.length_map] at h
    simp [h]
  · simp only [PList.names, List.map_eq_nil_iff] at h1
    simp [h1, h2]

theorem PlainNames.members (h : PlainNames s) : (dataMembers s).Nodup :=
  C62_members_partial s h.nodup h.size h.result (fun n hn => ⟨(h.prefixes n hn).2.2, (h.prefixes n hn).2.1⟩)
    h.inst h.cls

theorem PlainNames.namesOk (h : PlainNames s) : NamesOk s := by
  refine ⟨h.members, ?_, ?_⟩
  · intro n hn hc
    apply h.reserved n hn
    simp only [checkLocals, List.mem_cons, List.not_mem_nil, or_false] at hc ⊢
    rcases hc with rfl | rfl <;> simp
  · intro n hn hc
    apply h.reserved n hn
    unfold mockLocals at hc
    cases hb : s.hasReturn <;> simp only [hb, if_true, Bool.false_eq_true, if_false, List.mem_cons, List.cons_append,
      List.nil_append, List.not_mem_nil, or_false] at hc ⊢
    · rcases hc with rfl | rfl | rfl | rfl <;> simp
    · rcases hc with rfl | rfl | rfl | rfl | rfl <;> simp

theorem PlainNames.expectOk (h : PlainNames s) (hl : ListsOk s) : ExpectOk s := by
  refine ⟨?_, h.members, hl.listsOk⟩
  have hn : (expectNames s).Nodup := C62_expect_names_partial s h.nodup h.size
    (fun hc => h.reserved _ hc (by simp)) h.inst (fun n hn => ⟨(h.prefixes n hn).1, (h.prefixes n hn).2.1⟩)
  refine List.nodup_append.mpr ⟨hn, by simp, ?_⟩
  intro a ha b hb
  simp only [List.mem_singleton] at hb
  subst hb
  rintro rfl
  have pre : ∀ (p x : String), p ++ x = "mockedData" → p.toList.head? ≠ some 'm' → p = "" := by
    intro p x hpx hne
    have : (p ++ x).toList.head? = some 'm' := by rw [hpx]; rfl
    rw [String.toList_append] at this
    cases hp : p.toList with
    | nil => exact String.toList_inj.mp hp
    | cons c cs => simp [hp] at this hne; exact absurd this hne
  rw [expectNames_eq] at ha
  unfold shortNames at ha
  rcases List.mem_append.mp ha with ha | ha
  · rcases List.mem_append.mp ha with ha | ha
    · rcases List.mem_append.mp ha with ha | ha
      rcases List.mem_append.mp ha with ha | ha
      · exact absurd (mem_instanceNames ha).1 (by decide)
      · exact h.reserved _ ha (by simp)
      · cases hb : s.hasReturn <;> simp [hb] at ha
    · obtain ⟨x, _, hx⟩ := List.mem_map.mp ha
      have := pre "easyMock_match_" x hx (by decide +kernel)
      exact absurd this (by decide +kernel)
  · obtain ⟨l, hl, hal⟩ := List.mem_flatten.mp ha
    obtain ⟨x, _, rfl⟩ := List.mem_map.mp hl
    unfold outNames at hal
    rcases List.mem_cons.mp hal with hal | hal
    · exact absurd (pre "out_" _ hal.symm (by decide +kernel)) (by decide +kernel)
    · by_cases hs : x.2.2.1 = .sized
      · simp only [hs, beq_self_eq_true, if_true, List.mem_cons, List.not_mem_nil, or_false] at hal
        rw [String.append_assoc] at hal
        exact absurd (pre "out_" _ hal.symm (by decide +kernel)) (by decide +kernel)
      · have hb : (x.2.2.1 == Gen.Out.sized) = false := by simpa using hs
        simp [hb] at hal

/-! ## C66: the Expect functions record their arguments -/

/-- The content of a member; `none` if there is no such member or it is not initialised. -/
def field (s : FunSection) (d : List (Option MVal)) (m : String) : Option MVal :=
  (d[(dataMembers s).idxOf m]?).join

theorem field_of_mem (hd : (dataMembers s).Nodup) {m : String} {v : MVal}
    (h : (m, v) ∈ (dataMembers s).zip (layout s e)) : field s ((layout s e).map some) m = some v := by
  obtain ⟨_, hi⟩ := idx_of_mem_zip hd h
  unfold field
  rw [List.getElem?_map, hi]
  rfl

theorem mem_of_member {m : String} {v : MVal} (h : member s (layout s e) m = some v) :
    (m, v) ∈ (dataMembers s).zip (layout s e) := by
  unfold member at h
  generalize (dataMembers s).zip (layout s e) = l at h
  induction l with
  | nil => simp at h
  | cons a l ih =>
    rw [List.lookup_cons] at h
    split at h
    · rename_i heq
      have : m = a.1 := by simpa using heq
      cases h
      rw [this]
      exact List.mem_cons_self
    · exact List.mem_cons_of_mem _ (ih h)

/-- What the data structure has to contain for an expectation. -/
structure Records (s : FunSection) (d : List (Option MVal)) (e : Exp) : Prop where
  total : d.length = (dataMembers s).length
  inst : s.cls ≠ none → field s d "instance" = some (.ptr e.inst)
  value : ∀ (i : Nat) n p, s.params.names[i]? = some n → e.params[i]? = some p → field s d n = some (.val p.value)
  matcher : ∀ (i : Nat) n p, s.params.names[i]? = some n → e.params[i]? = some p →
    field s d (s.cls.getD "" ++ "_" ++ s.name ++ "_match_" ++ n) = some (.matcher p.matcher)
  result : s.hasReturn = true → field s d (s.cls.getD "" ++ "_" ++ s.name ++ "_returnValue") = some (.val e.ret)
  out : ∀ (j : Nat) x o, s.outs[j]? = some x → e.outs[j]? = some o → field s d ("out_" ++ x.2.1) = some (.ptr o.src)
  size : ∀ (j : Nat) x o, s.outs[j]? = some x → e.outs[j]? = some o → x.2.2.1 = .sized →
    field s d ("out_" ++ x.2.1 ++ "_size") = some (.size o.size)

theorem records_layout (hd : (dataMembers s).Nodup) (hf : Fits s e) : Records s ((layout s e).map some) e := by
  have hp : ∀ (i : Nat) n p, s.params.names[i]? = some n → e.params[i]? = some p →
      ∃ x, x.2.1 = n ∧ (x, p) ∈ s.params.entries.zip e.params := by
    intro i n p h1 h2
    simp only [PList.names, List.getElem?_map] at h1
    cases hx : s.params.entries[i]? with
    | none => simp [hx] at h1
    | some x => exact ⟨x, by simpa [hx] using h1, mem_zip_of_getElem? hx h2⟩
  refine ⟨?_, ?_, ?_, ?_, ?_, ?_, ?_⟩
  · rw [List.length_map, layout_length hf]
  · intro hc
    exact field_of_mem hd (mem_of_member (member_inst hf hd (Option.isSome_iff_ne_none.mpr hc)))
  · intro i n p h1 h2
    obtain ⟨x, rfl, hx⟩ := hp i n p h1 h2
    exact field_of_mem hd (mem_of_member (member_param hf hd hx).1)
  · intro i n p h1 h2
    obtain ⟨x, rfl, hx⟩ := hp i n p h1 h2
    exact field_of_mem hd (mem_of_member (member_param hf hd hx).2)
  · intro hr
    exact field_of_mem hd (mem_of_member (member_ret hf hd hr))
  · intro j x o h1 h2
    exact field_of_mem hd (mem_of_member (member_out hf hd (mem_zip_of_getElem? h1 h2)).1)
  · intro j x o h1 h2 hz
    exact field_of_mem hd (mem_of_member ((member_out hf hd (mem_zip_of_getElem? h1 h2)).2 hz))

/-- C66 (partial: plain names; of the members of a class only those with one parameter or with neither parameters nor
    result).  `ExpectReturnAndOutput`, called with the object for a member of a class, the values of the parameters, the result, the matchers and the outputs of an expectation in the order of its parameters, initialises every member of
    the data structure handed to the framework, each with the argument meant for it. -/
theorem C66_output_partial (hn : PlainNames s) (hl : ListsOk s) (hf : Fits s e) (ho : s.outs ≠ []) :
    ∃ d, runExpectReturnAndOutput s (longVals s e) = some d ∧ Records s d e :=
  ⟨_, runLong_eq hf (hn.expectOk hl) ho, records_layout hn.members hf⟩

/-- C66 (partial, as above).  `ExpectAndReturn`, called with the object for a member of a class, the values of the parameters, the result
    and the matchers, records them and null for every output. -/
theorem C66_no_output_partial (hn : PlainNames s) (hl : ListsOk s) (hf : Fits s e) :
    ∃ d, runExpectAndReturn s (shortVals s e) = some d ∧
      Records s d { e with outs := s.outs.map (fun _ => ⟨0, 0⟩) } :=
  ⟨_, runShort_eq hf (hn.expectOk hl), records_layout hn.members ⟨hf.params, by simp [noOuts]⟩⟩

theorem text_function (c : Config) (s : FunSection) (hc : s.cls = none) :
    expectCall s = ", ".intercalate ((shortArgs s).map Arg.text) ∧
    expectOutputCall s = ", ".intercalate ((longArgs s).map Arg.text) := by
  rw [(C60_no_output_partial c s hc).1, (C60_output_partial c s hc).2]
  have hm : ∀ l : List String, (l.map Arg.var).map Arg.text = l := by
    intro l; rw [List.map_map]; exact List.map_id'' (fun _ => rfl) l
  have hi : instanceNames s = [] := by simp [instanceNames, hc]
  constructor
  · congr 1
    unfold noOutputArgs shortArgs shortNames
    rw [List.map_append, hm, hi, List.nil_append, List.flatMap_def, List.map_flatten, List.map_map]
    congr 2
    apply List.map_congr_left
    intro x _
    by_cases hs : x.2.2.1 = .sized
    · simp [hs, Arg.text]
    · simp [hs, Arg.text]
  · congr 1
    unfold commonParams longArgs expectNames
    rw [hm, hi, List.nil_append]
    simp only [List.map_append, List.map_map, List.flatMap_def, List.map_flatten, PList.names]
    congr 2
    · congr 2
      cases s.hasReturn <;> rfl
    · apply List.map_congr_left
      intro x _
      by_cases hs : x.2.2.1 = .sized
      · simp [hs]
      · simp [hs]

theorem expectCall_split (s : FunSection) :
    expectCall s = instanceText s (fun _ => "instance") ++ expectCall { s with cls := none } ∧
    expectOutputCall s = instanceText s (fun _ => "instance") ++ expectOutputCall { s with cls := none } := by
  have h : instanceText { s with cls := none } (fun _ => "instance") = "" := rfl
  constructor
  · unfold expectCall
    rw [h, String.empty_append, String.append_assoc, String.append_assoc]
    simp only [String.append_assoc]
    rfl
  · unfold expectOutputCall
    rw [h, String.empty_append, String.append_assoc, String.append_assoc]
    simp only [String.append_assoc]
    rfl

/-- The arguments which the interpreted bodies pass are the ones in the generated text. -/
theorem C66_text (c : Config) (s : FunSection) (hl : ListsOk s) :
    expectCall s = ", ".intercalate ((shortArgs s).map Arg.text) ∧
    expectOutputCall s = ", ".intercalate ((longArgs s).map Arg.text) := by
  cases hc : s.cls with
  | none => exact text_function c s hc
  | some k =>
    obtain ⟨t1, t2⟩ := text_function c { s with cls := none } rfl
    obtain ⟨e1, e2⟩ := expectCall_split s
    have a1 : shortArgs s = Arg.var "instance" :: shortArgs { s with cls := none } := by
      simp [shortArgs, shortNames, instanceNames, hc, FunSection.outs]
    have a2 : longArgs s = Arg.var "instance" :: longArgs { s with cls := none } := by
      simp [longArgs, expectNames, instanceNames, hc, FunSection.outs]
    rw [e1, e2, t1, t2, a1, a2]
    rcases hl with h | h | ⟨h1, h2⟩
    · rw [hc] at h; cases h
    · simp only [PList.names, List.length_map] at h
      obtain ⟨x, hx⟩ := List.length_eq_one_iff.mp h
      have hi : instanceText s (fun _ => "instance") = "instance" ++ ", " := by
        simp [instanceText, hc, hx, String.join]
      rw [hi]
      have n1 : ∃ y ys, (shortArgs { s with cls := none }).map Arg.text = y :: ys := by
        simp [shortArgs, shortNames, instanceNames, PList.names, hx]
      have n2 : ∃ y ys, (longArgs { s with cls := none }).map Arg.text = y :: ys := by
        simp [longArgs, expectNames, instanceNames, PList.names, hx]
      obtain ⟨y1, ys1, n1⟩ := n1
      obtain ⟨y2, ys2, n2⟩ := n2
      rw [List.map_cons, List.map_cons, n1, n2]
      exact ⟨(String.intercalate_cons_cons).symm, (String.intercalate_cons_cons).symm⟩
    · simp only [PList.names, List.map_eq_nil_iff] at h1
      have hi : instanceText s (fun _ => "instance") = "instance" := by
        simp [instanceText, hc, h1, String.join]
      rw [hi]
      have n1 : shortArgs { s with cls := none } = [] := by
        simp [shortArgs, shortNames, instanceNames, PList.names, FunSection.outs, h1, h2]
      have n2 : longArgs { s with cls := none } = [] := by
        simp [longArgs, expectNames, instanceNames, PList.names, FunSection.outs, h1, h2]
      rw [n1, n2]
      constructor <;> decide

/-! ## C67: the mock -/

section
variable {cfg : Cfg} {m0 : Mem} {past : List Op} {st : State} {f : FnId} {c : Call}

/-- C67 (partial: functions which return no reference and take none, plain names).  In every reachable
    state the statements of the generated mock, with their names resolved by the rules of the language, do what the framework model
    says about a call. -/
theorem C67_mock_partial (hr : runRev cfg m0 past = .ok st) (hlen : past.length + 1 < 2 ^ 32) (hn : PlainNames s)
    (cf : Config) (n : Nat) (sizes : List Nat) (hs : sizes.length = s.outs.length)
    (hf : cfg.fn? f = some (fnCfg cf s n sizes)) (hc : CallFits s c)
    (he : ∀ e alloc, Op.expect f e alloc ∈ past → Fits s e) :
    runMock cfg s f (fnCfg cf s n sizes) st c = some (callFn cfg st f (fnCfg cf s n sizes) c) := by
  obtain ⟨h, _⟩ := run_sim (by omega) hr
  have hv : Valid cfg f := by simp [Valid, hf]
  have hcl : calls f past + 1 < 2 ^ 32 := by have := calls_le_length f past; omega
  have hrep := h.minv.rep f hv
  apply runMock_eq cfg hn.namesOk cf n sizes hs st hc
  intro ha h' m' e hg
  obtain ⟨hb, -, -, -, -⟩ := addActualCall_rep hrep hcl
  rw [ha] at hb
  obtain ⟨e', he'⟩ := Option.isSome_iff_exists.mp hb.symm
  obtain ⟨h2, m2, g1, -⟩ := getCurrentCallParam_ok hrep h.minv.bound hcl e' he'
  rw [g1] at hg
  cases hg
  have hser : serving f past = some e := he'
  unfold serving exps at hser
  have hmem := List.mem_of_getElem? hser
  rw [List.mem_reverse] at hmem
  obtain ⟨op, hop, hx⟩ := List.mem_filterMap.mp hmem
  have hsub : ∀ (l : List Op), op ∈ since f l → op ∈ l := by
    intro l
    induction l with
    | nil => simp [since]
    | cons o l ih =>
      unfold since
      split
      · simp
      · intro hm
        rcases List.mem_cons.mp hm with hm | hm
        · exact List.mem_cons.mpr (.inl hm)
        · exact List.mem_cons_of_mem _ (ih hm)
  have hop' := hsub _ hop
  cases op with
  | expect g e2 alloc =>
    simp only [expOp] at hx
    split at hx
    · rename_i hg; subst hg; cases hx; exact he _ _ hop'
    · simp at hx
  | _ => simp [expOp] at hx

/-- C67 (partial, as above).  The call number `k + 1` of the generated mock is served by the expectation number `k + 1`:
    the mock returns the value of that expectation; it reports, for a member of a class, a call on another object than the one
    expected, if one is expected; it reports the failures of the matchers of that expectation, each
    applied to the argument and the expected value of its parameter and to the name of that parameter, in the order of the
    parameters; and it copies the outputs of that expectation to the pointers passed for them, by the size given by the user or
    by the size of the object pointed to. -/
theorem C67_kth_call_partial (hr : runRev cfg m0 past = .ok st) (hlen : past.length + 1 < 2 ^ 32) (hn : PlainNames s)
    (cf : Config) (n : Nat) (sizes : List Nat) (hs : sizes.length = s.outs.length)
    (hf : cfg.fn? f = some (fnCfg cf s n sizes)) (hld : loaded f.file past = true) (hc : CallFits s c)
    (he : ∀ e alloc, Op.expect f e alloc ∈ past → Fits s e) (ho : st.order = false)
    {k : Nat} (hk : calls f past = k) (hek : (exps f past)[k]? = some e) :
    match copyAll st.mem (copies (s.outs.zipIdx.map (fun x => if x.1.2.2.1 == .sized then none else sizes[x.2]?))
        e.outs c.outs) with
    | none => runMock cfg s f (fnCfg cf s n sizes) st c = some .ub
    | some m' => ∃ st', runMock cfg s f (fnCfg cf s n sizes) st c =
          some (.ok (st', if s.hasReturn then some e.ret else none)) ∧ st'.mem = m' ∧
        st'.errs = st.errs ++ (if s.cls ≠ none ∧ e.inst ≠ 0 ∧ e.inst ≠ c.this then
            [⟨.badInstance (k + 1) (mockSignature s) e.inst c.this, if cfg.backtrace = true ∧ st.print = true then some c.bt else none⟩]
            else []) ++
          (matchErrs st.mem (zip3 s.params.names e.params c.args)).map (fun msg =>
          ⟨.mismatch (k + 1) (mockSignature s) msg, if cfg.backtrace = true ∧ st.print = true then some c.bt else none⟩) := by
  have hmock := C67_mock_partial hr hlen hn cf n sizes hs hf hc he
  have hser : serving f past = some e := by unfold serving; rw [hk]; exact hek
  have hst := step_call_served hr hlen hf hld hser c
  have hlds : st.loaded f.file = true := by
    obtain ⟨h, _⟩ := run_sim (by omega) hr
    rw [h.loaded]; exact hld
  have houts : (fnCfg cf s n sizes).outs =
      s.outs.zipIdx.map (fun x => if x.1.2.2.1 == .sized then none else sizes[x.2]?) := by
    apply List.ext_getElem?
    intro j
    simp only [fnCfg, List.getElem?_map, List.getElem?_zipIdx]
    cases hx : s.outs[j]? with
    | none =>
      have : (s.outs.zip sizes)[j]? = none := by
        rw [List.getElem?_eq_none_iff] at hx ⊢
        simp; omega
      rw [this]; rfl
    | some x =>
      have hlt : j < sizes.length := by
        rw [hs]; exact (List.getElem?_eq_some_iff.mp hx).1
      have : (s.outs.zip sizes)[j]? = some (x, sizes[j]) := by
        rw [List.getElem?_zip_eq_some]
        exact ⟨hx, by simp [hlt]⟩
      rw [this]
      simp [hlt]
  rw [hmock]
  simp only [ho, Bool.false_eq_true, false_and, if_false] at hst
  rw [houts] at hst
  cases hcp : copyAll st.mem (copies (s.outs.zipIdx.map (fun x => if x.1.2.2.1 == .sized then none else sizes[x.2]?))
      e.outs c.outs) with
  | none =>
    rw [hcp] at hst
    simp only [step, hf, hlds, if_true] at hst ⊢
    cases hcf : callFn cfg st f (fnCfg cf s n sizes) c with
    | ok r => rw [hcf] at hst; simp at hst
    | ub => rfl
    | exit => rw [hcf] at hst; simp at hst
  | some m' =>
    rw [hcp] at hst
    obtain ⟨s', h1, h2, h3, -⟩ := hst
    refine ⟨s', ?_, h3, ?_⟩
    · simp only [step, hf, hlds, if_true] at h1
      cases hcf : callFn cfg st f (fnCfg cf s n sizes) c with
      | ok r =>
        rw [hcf] at h1
        simp only [Res.bind_ok] at h1
        obtain ⟨r1, r2⟩ := r
        cases h1
        congr 2
        simp only [fnCfg]
        cases s.hasReturn <;> rfl
      | ub => rw [hcf] at h1; simp at h1
      | exit => rw [hcf] at h1; simp at h1
    · rw [h2, servedErrs, hk, List.append_assoc st.errs]
      congr 1
      simp only [fnCfg, ho, Bool.false_eq_true, false_and, if_false, List.append_nil, List.map_append, List.map_map,
        Option.isSome_iff_ne_none]
      congr 1
      by_cases hI : s.cls ≠ none ∧ e.inst ≠ 0 ∧ e.inst ≠ c.this
      · rw [if_pos hI, if_pos hI]; rfl
      · rw [if_neg hI, if_neg hI]; rfl

/-- C67 (partial, as above).  A call of the generated mock for which there is no expectation is reported, with the prototype of the
    function; it returns zeros and copies nothing. -/
theorem C67_unexpected_partial (hr : runRev cfg m0 past = .ok st) (hlen : past.length + 1 < 2 ^ 32) (hn : PlainNames s)
    (cf : Config) (n : Nat) (sizes : List Nat) (hs : sizes.length = s.outs.length)
    (hf : cfg.fn? f = some (fnCfg cf s n sizes)) (hld : loaded f.file past = true) (hc : CallFits s c)
    (he : ∀ e alloc, Op.expect f e alloc ∈ past → Fits s e) (hk : (exps f past).length ≤ calls f past) :
    ∃ st', runMock cfg s f (fnCfg cf s n sizes) st c =
        some (.ok (st', if s.hasReturn then some (List.replicate n 0) else none)) ∧ st'.mem = st.mem ∧
      st'.errs = st.errs ++ [⟨.unexpected (mockSignature s) (if s.hasReturn then some s.name else none),
        if cfg.backtrace = true ∧ st.print = true then some c.bt else none⟩] := by
  have hmock := C67_mock_partial hr hlen hn cf n sizes hs hf hc he
  obtain ⟨s', h1, h2, h3, -⟩ := C02_unexpected_call hr hlen hf hld hk c
  have hlds : st.loaded f.file = true := by
    obtain ⟨h, _⟩ := run_sim (by omega) hr
    rw [h.loaded]; exact hld
  refine ⟨s', ?_, h3, ?_⟩
  · rw [hmock]
    simp only [step, hf, hlds, if_true] at h1
    cases hcf : callFn cfg st f (fnCfg cf s n sizes) c with
    | ok r =>
      rw [hcf] at h1
      simp only [Res.bind_ok] at h1
      obtain ⟨r1, r2⟩ := r
      cases h1
      congr 2
      simp only [fnCfg]
      cases s.hasReturn <;> rfl
    | ub => rw [hcf] at h1; simp at h1
    | exit => rw [hcf] at h1; simp at h1
  · rw [h2]
    congr 3
    simp only [fnCfg]
    cases s.hasReturn <;> rfl

end

/-! ## Examples and refutations -/

namespace Ex

/-- `int f(void *a, int *b)`. -/
def sec : FunSection := exOuts "b"

theorem not_startsWith {p x : String} (h : x.toList.take p.toList.length ≠ p.toList) : ¬ StartsWith p x := by
  rintro ⟨r, rfl⟩
  apply h
  rw [String.toList_append]
  simp

theorem plain : PlainNames sec := by
  have hnames : sec.params.names = ["a", "b"] := by decide +kernel
  refine ⟨?_, ?_, ?_, ?_, fun h => absurd rfl h, (fun c h => by cases h), ?_⟩
  · decide +kernel
  · rw [hnames]; decide +kernel
  · rw [hnames]
    intro n hn
    refine ⟨not_startsWith ?_, not_startsWith ?_, not_startsWith ?_⟩
    · revert n; decide +kernel
    · revert n; decide +kernel
    · revert n; decide +kernel
  · decide +kernel
  · rw [hnames]; decide +kernel

/-- Rejects a different value with the name of the parameter. -/
def eqM : Matcher := fun _ cur ex n => if cur = ex then none else some n

def exp : Exp := { params := [⟨[1], some eqM⟩, ⟨[2], none⟩], ret := [7, 0, 0, 0], outs := [⟨10, 2⟩, ⟨0, 0⟩] }

def cfg : Cfg := { files := [[fnCfg {} sec 4 [0, 4]]] }

def m0 : Mem := fun a => if 0 < a ∧ a < 100 then some (UInt8.ofNat a) else none

def past : List Op := [.expect ⟨0, 0⟩ exp true, .load 0]

def call : Call := { args := [[5], [6]], outs := [40, 50], bt := "bt" }

theorem fits : Fits sec exp := ⟨rfl, rfl⟩

/-- The hypotheses of C66 and C67 hold. -/
example : PlainNames sec ∧ ListsOk sec ∧ Fits sec exp ∧ sec.outs ≠ [] ∧ CallFits sec call ∧
    (∃ st, runRev cfg m0 past = .ok st ∧ st.order = false) ∧
    cfg.fn? ⟨0, 0⟩ = some (fnCfg {} sec 4 [0, 4]) ∧ loaded 0 past = true ∧
    (∀ e alloc, Op.expect ⟨0, 0⟩ e alloc ∈ past → Fits sec e) ∧
    (exps ⟨0, 0⟩ past)[calls ⟨0, 0⟩ past]? = some exp := by
  refine ⟨plain, .inl rfl, fits, ?_, ⟨rfl, rfl⟩, ⟨_, rfl, rfl⟩, rfl, rfl, ?_, rfl⟩
  · intro h
    have : sec.outs.length = 0 := by rw [h]; rfl
    exact absurd this (by decide +kernel)
  · intro e alloc h
    simp only [past, List.mem_cons, List.not_mem_nil, or_false] at h
    rcases h with h | h
    · cases h; exact fits
    · cases h

def errsOf (r : Option (Res (State × Option Val))) : Option (List Err × Option Val × List (Option UInt8)) :=
  match r with
  | some (.ok (st, v)) => some (st.errs, v, [st.mem 40, st.mem 41, st.mem 42, st.mem 50])
  | _ => none

def mocked (s : FunSection) (e : Exp) : Option (Res (State × Option Val)) :=
  match runRev { files := [[fnCfg {} s 4 [0, 4]]] } m0 [.expect ⟨0, 0⟩ e true, .load 0] with
  | .ok st => runMock { files := [[fnCfg {} s 4 [0, 4]]] } s ⟨0, 0⟩ (fnCfg {} s 4 [0, 4]) st call
  | _ => none

/-- The mock reports `a` and copies two bytes. -/
example : errsOf (mocked sec exp) = some ([⟨.mismatch 1 "int f(void * a, int * b)" "a", some "bt"⟩],
    some [7, 0, 0, 0], [some 10, some 11, some 42, some 50]) := by decide +kernel

/-- `int f(int x)` of the class `C`. -/
def memSec : FunSection := { exSection with cls := some "C", params := .cons "int" "x" .none .none .nil }

theorem memPlain : PlainNames memSec ∧ ListsOk memSec := by
  have hnames : memSec.params.names = ["x"] := by decide +kernel
  refine ⟨⟨?_, ?_, ?_, ?_, ?_, ?_, ?_⟩, .inr (.inl ?_)⟩
  · decide +kernel
  · rw [hnames]; decide +kernel
  · rw [hnames]
    intro n hn
    refine ⟨not_startsWith ?_, not_startsWith ?_, not_startsWith ?_⟩
    · revert n; decide +kernel
    · revert n; decide +kernel
    · revert n; decide +kernel
  · decide +kernel
  · rw [hnames]; decide +kernel
  · intro c h
    cases h
    exact not_startsWith (by decide +kernel)
  · rw [hnames]; decide +kernel
  · rw [hnames]; rfl

def memExp : Exp := { params := [⟨[1], some eqM⟩], ret := [7, 0, 0, 0], outs := [], inst := 8 }

/-- The data of an expectation of the member function. -/
example : runExpectAndReturn memSec (shortVals memSec memExp) =
    some [some (.ptr 8), some (.val [1]), some (.matcher (some eqM)), some (.val [7, 0, 0, 0])] := rfl

/-- The mock of the member function, called on another object. -/
example : (match runRev { files := [[fnCfg {} memSec 4 []]] } m0 [.expect ⟨0, 0⟩ memExp true, .load 0] with
    | .ok st => errsOf (runMock { files := [[fnCfg {} memSec 4 []]] } memSec ⟨0, 0⟩ (fnCfg {} memSec 4 []) st
        { args := [[5]], this := 9, bt := "bt" })
    | _ => none) = some ([⟨.badInstance 1 (mockSignature memSec) 8 9, some "bt"⟩, ⟨.mismatch 1 (mockSignature memSec) "x", some "bt"⟩],
    some [7, 0, 0, 0], [some 40, some 41, some 42, some 50]) := by decide +kernel

end Ex

/-- C67: registering an expectation of the generated mock terminates the process exactly when the output is C and 256 are
    registered already or no memory is available; the mocks generated for C++ have no limit. -/
theorem C67_limit (hr : runRev cfg m0 past = .ok st) (hlen : past.length + 1 < 2 ^ 32)
    (cf : Config) (n : Nat) (sizes : List Nat) (hf : cfg.fn? f = some (fnCfg cf s n sizes))
    (hld : loaded f.file past = true) (e : Exp) (alloc : Bool) :
    step cfg st (.expect f e alloc) = .exit ↔ cf.cpp = false ∧ (256 ≤ (exps f past).length ∨ alloc = false) := by
  rw [C11_termination_only_by_overflow hr hlen]
  constructor
  · rintro ⟨f', fc, e', a', h1, h2, _, h4, h5⟩
    cases h1
    rw [hf] at h2; cases h2
    exact ⟨by simpa [fnCfg] using h4, h5⟩
  · rintro ⟨h1, h2⟩
    exact ⟨f, _, e, alloc, rfl, hf, hld, by simp [fnCfg, h1], h2⟩

/-- Registering once more without memory terminates the process for C output only. -/
example : ∃ st, runRev Ex.cfg Ex.m0 Ex.past = .ok st ∧ step Ex.cfg st (.expect ⟨0, 0⟩ Ex.exp false) = .exit := by
  refine ⟨_, rfl, ?_⟩
  exact (C67_limit (past := Ex.past) (m0 := Ex.m0) rfl (by decide) {} 4 [0, 4] rfl rfl Ex.exp false).2 ⟨rfl, Or.inr rfl⟩

/-- C67 is false for a parameter called like a variable of the block which checks it: the mock does not hand the argument
    to the matcher. -/
theorem C67_refuted_name : (exNamed "errorMessage").params.names.Nodup ∧
    (Ex.mocked (exNamed "errorMessage") { Ex.exp with params := [⟨[1], none⟩, ⟨[2], some Ex.eqM⟩], outs := [] }).isNone = true ∧
    (Ex.mocked (exNamed "y") { Ex.exp with params := [⟨[1], none⟩, ⟨[2], some Ex.eqM⟩], outs := [] }).isSome = true := by
  decide +kernel

/-- C66 is false for the parameters `void *a` and `int *a_size`: the text has two parameters and two members with the same
    name. -/
theorem C66_refuted_size : (exOuts "a_size").params.names.Nodup ∧
    (runExpectReturnAndOutput (exOuts "a_size") (longVals (exOuts "a_size") Ex.exp)).isNone = true ∧
    (runExpectReturnAndOutput (exOuts "b") (longVals (exOuts "b") Ex.exp)).isSome = true := by decide +kernel

/-- C66 is false for a parameter called `mockedData`. -/
theorem C66_refuted_local : (exNamed "mockedData").params.names.Nodup ∧
    (runExpectAndReturn (exNamed "mockedData") (shortVals (exNamed "mockedData") Ex.exp)).isNone = true ∧
    (runExpectAndReturn (exNamed "y") (shortVals (exNamed "y") Ex.exp)).isSome = true := by decide +kernel

/-- C66 is false for a member function with two parameters and for one without parameters which returns a value: the
    text of the Expect functions is no C++. -/
theorem C66_refuted_member : ∃ s : FunSection, PlainNames s ∧ s.cls ≠ none ∧ s.params.names.length = 2 ∧
    (∀ args, runExpectAndReturn s args = none) ∧ expectCall s = "instance, , a, b, easyMock_match_a, easyMock_match_b" ∧
    (∀ args, runExpectAndReturn { Ex.memSec with params := .nil } args = none) ∧
    expectCall { Ex.memSec with params := .nil } = "instanceto_return" := by
  refine ⟨{ exSection with cls := some "C", hasReturn := false,
                           params := .cons "int" "a" .none .none (.cons "int" "b" .none .none .nil) }, ?_, ?_, ?_, ?_, ?_, ?_, ?_⟩
  · refine ⟨by decide +kernel, by decide +kernel, ?_, by decide +kernel, by decide +kernel, ?_, by decide +kernel⟩
    · intro n hn
      refine ⟨Ex.not_startsWith ?_, Ex.not_startsWith ?_, Ex.not_startsWith ?_⟩ <;> (revert n; decide +kernel)
    · intro c h
      cases h
      exact Ex.not_startsWith (by decide +kernel)
  · simp
  · rfl
  · intro args; rfl
  · decide +kernel
  · intro args; rfl
  · decide +kernel

end EasyMock.MockCode
