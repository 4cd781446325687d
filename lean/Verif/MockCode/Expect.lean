import Verif.MockCode.Mock

/-! # MockCode: the Expect functions fill the data structure -/

namespace EasyMock.MockCode

open EasyMock EasyMock.Gen

variable {s : FunSection} {e : Exp}

/-- The arguments of `ExpectReturnAndOutput` for an expectation. -/
def longVals (s : FunSection) (e : Exp) : List MVal :=
  instVals s e ++ e.params.map (fun p => .val p.value) ++ (if s.hasReturn then [.val e.ret] else []) ++
  e.params.map (fun p => .matcher p.matcher) ++
  ((s.outs.zip e.outs).map (fun x =>
    .ptr x.2.src :: (if x.1.2.2.1 == .sized then [.size x.2.size] else []))).flatten

/-- The arguments of `ExpectAndReturn` for an expectation. -/
def shortVals (s : FunSection) (e : Exp) : List MVal :=
  instVals s e ++ e.params.map (fun p => .val p.value) ++ (if s.hasReturn then [.val e.ret] else []) ++
  e.params.map (fun p => .matcher p.matcher)

theorem longVals_eq (s : FunSection) (e : Exp) :
    longVals s e = shortVals s e ++ ((s.outs.zip e.outs).map outVals).flatten := rfl

theorem expectNames_eq (s : FunSection) : expectNames s = shortNames s ++ (s.outs.map outNames).flatten := rfl

theorem short_length (hf : Fits s e) : (shortNames s).length = (shortVals s e).length := by
  unfold shortNames shortVals
  cases s.hasReturn <;> simp [PList.names, hf.params, inst_length s e]

theorem long_length (hf : Fits s e) : (expectNames s).length = (longVals s e).length := by
  rw [expectNames_eq, longVals_eq, List.length_append, List.length_append, short_length hf,
    length_flatten_eq outNames outVals s.outs (s.outs.zip e.outs) (outs_lengths s e) (by simp [hf.outs])]

theorem layout_length (hf : Fits s e) : (dataMembers s).length = (layout s e).length := by
  rw [dataMembers_eq, layout_eq]
  have hl1 : ∀ p ∈ s.params.entries.zip e.params, (parNames s p.1).length = (parVals p.2).length := by
    intro p _; rfl
  rw [List.length_append, List.length_append, List.length_append, List.length_append, List.length_append, List.length_append,
    inst_length s e, length_flatten_eq (parNames s) parVals s.params.entries e.params hl1 hf.params.symm,
    length_flatten_eq outNames outVals s.outs (s.outs.zip e.outs) (outs_lengths s e) (by simp [hf.outs])]
  cases s.hasReturn <;> rfl

/-- The variables of the common function. -/
theorem zip_vars (hf : Fits s e) : (expectNames s).zip (longVals s e) =
    (instanceNames s).zip (instVals s e) ++ s.params.names.zip (e.params.map (fun p => .val p.value)) ++
    (if s.hasReturn then [("to_return", .val e.ret)] else []) ++
    (s.params.names.map (fun n => "easyMock_match_" ++ n)).zip (e.params.map (fun p => .matcher p.matcher)) ++
    ((s.outs.zip (s.outs.zip e.outs)).map (fun p => (outNames p.1).zip (outVals p.2))).flatten := by
  rw [expectNames_eq, longVals_eq, List.zip_append (short_length hf),
    zip_flatten outNames outVals s.outs (s.outs.zip e.outs) (outs_lengths s e) (by simp [hf.outs])]
  congr 1
  unfold shortNames shortVals
  rw [List.zip_append, List.zip_append, List.zip_append (inst_length s e)]
  · cases s.hasReturn <;> rfl
  · simp [PList.names, hf.params, inst_length s e]
  · cases s.hasReturn <;> simp [PList.names, hf.params, inst_length s e]

theorem idx_of_mem_zip {D : List String} {L : List MVal} (hd : D.Nodup) {m : String} {v : MVal} (h : (m, v) ∈ D.zip L) :
    m ∈ D ∧ L[D.idxOf m]? = some v := by
  obtain ⟨i, h1, h2⟩ := getElem?_of_mem_zip h
  refine ⟨List.mem_of_getElem? h1, ?_⟩
  rw [idxOf_of_getElem? hd h1]
  exact h2

theorem assigned_spec {vars : List (String × MVal)} (hd : (dataMembers s).Nodup) (L : List MVal) :
    ∀ (A : List Assign) (d : List (Option MVal)), d.length = (dataMembers s).length →
      (∀ a ∈ A, ∃ v, vars.lookup a.var = some v ∧ (a.member, v) ∈ (dataMembers s).zip L) →
      ∃ d', assigned s vars A d = some d' ∧ d'.length = (dataMembers s).length ∧
        (∀ (i : Nat) m, (dataMembers s)[i]? = some m → d'[i]? = if m ∈ A.map (fun a => a.member) then some (L[i]?) else d[i]?)
  | [], d, hl, _ => ⟨d, rfl, hl, by intro i m _; simp⟩
  | a :: A, d, hl, h => by
    obtain ⟨v, hv, hz⟩ := h a (by simp)
    obtain ⟨hm, hi⟩ := idx_of_mem_zip hd hz
    obtain ⟨d', h1, h2, h3⟩ := assigned_spec hd L A (d.set ((dataMembers s).idxOf a.member) (some v)) (by simp [hl])
      (fun b hb => h b (by simp [hb]))
    refine ⟨d', ?_, h2, ?_⟩
    · simp only [assigned, hm, if_true, hv, h1]
    · intro i m him
      rw [h3 i m him]
      by_cases hA : m ∈ A.map (fun a => a.member)
      · rw [if_pos hA, if_pos (by simp [hA] : m ∈ (a :: A).map (fun a => a.member))]
      · rw [if_neg hA]
        by_cases hma : m = a.member
        · rw [if_pos (by simp [hma])]
          have : (dataMembers s).idxOf a.member = i := by rw [← hma]; exact idxOf_of_getElem? hd him
          rw [this] at hi ⊢
          have hlt : i < d.length := by
            rw [hl]; exact (List.getElem?_eq_some_iff.mp him).1
          simp [hlt, hi]
        · rw [if_neg (by
            simp only [List.map_cons, List.mem_cons, not_or]
            exact ⟨hma, hA⟩)]
          rw [List.getElem?_set_ne]
          intro hc
          apply hma
          obtain ⟨k, hk⟩ := List.mem_iff_getElem?.mp hm
          rw [← hc, idxOf_of_getElem? hd hk, hk] at him
          exact (Option.some.inj him).symm

/-- The parameters of the Expect functions and the members of the data have distinct names, and no parameter is called
    like the local variable. -/
structure ExpectOk (s : FunSection) : Prop where
  vars : (expectNames s ++ ["mockedData"]).Nodup
  members : (dataMembers s).Nodup
  lists : listsOk s = true

theorem ExpectOk.names (h : ExpectOk s) : (expectNames s).Nodup := (List.nodup_append.mp h.vars).1

theorem commonBody_ok (hf : Fits s e) (ho : ExpectOk s) : ∀ a ∈ commonBody s, ∃ v,
    ((expectNames s).zip (longVals s e)).lookup a.var = some v ∧ (a.member, v) ∈ (dataMembers s).zip (layout s e) := by
  have key : ∀ (a : Assign) (v : MVal), (a.var, v) ∈ (expectNames s).zip (longVals s e) →
      (a.member, v) ∈ (dataMembers s).zip (layout s e) → ∃ v,
      ((expectNames s).zip (longVals s e)).lookup a.var = some v ∧ (a.member, v) ∈ (dataMembers s).zip (layout s e) := by
    intro a v h1 h2
    exact ⟨v, lookup_of_mem (zip_fst_nodup ho.names) h1, h2⟩
  have hex : ∀ {α β : Type} {xs : List α} {ys : List β} (_ : ys.length = xs.length) {x : α}, x ∈ xs →
      ∃ (i : Nat) (y : β), xs[i]? = some x ∧ ys[i]? = some y := by
    intro α β xs ys hl x hx
    obtain ⟨i, hi⟩ := List.mem_iff_getElem?.mp hx
    have hlt := (List.getElem?_eq_some_iff.mp hi).1
    exact ⟨i, ys[i]'(by omega), hi, by simp⟩
  intro a ha
  unfold commonBody at ha
  rcases List.mem_append.mp ha with ha | ha
  · rcases List.mem_append.mp ha with ha | ha
    rcases List.mem_append.mp ha with ha | ha
    · cases hc : s.cls.isSome with
      | false => simp [hc] at ha
      | true =>
        simp only [hc, if_true, List.mem_cons, List.not_mem_nil, or_false] at ha
        subst ha
        apply key _ (.ptr e.inst)
        · rw [zip_vars hf]
          exact List.mem_append_left _ (List.mem_append_left _ (List.mem_append_left _ (List.mem_append_left _
            (by simp [instanceNames, instVals, hc]))))
        · rw [zip_eq hf]
          exact List.mem_append_left _ (List.mem_append_left _ (List.mem_append_left _
            (by simp [instanceNames, instVals, hc])))
    · obtain ⟨l, hl, hal⟩ := List.mem_flatten.mp ha
      obtain ⟨x, hx, rfl⟩ := List.mem_map.mp hl
      obtain ⟨i, p, h1, h2⟩ := hex hf.params hx
      have hz : (x, p) ∈ s.params.entries.zip e.params := mem_zip_of_getElem? h1 h2
      simp only [List.mem_cons, List.not_mem_nil, or_false] at hal
      rcases hal with rfl | rfl
      · apply key _ (.val p.value)
        · rw [zip_vars hf]
          refine List.mem_append_left _ (List.mem_append_left _ (List.mem_append_left _ (List.mem_append_right _ (mem_zip_of_getElem? (i := i) ?_ ?_))))
          · simp [PList.names, h1]
          · simp [h2]
        · rw [zip_eq hf]
          exact List.mem_append_left _ (List.mem_append_left _ (List.mem_append_right _ (List.mem_flatten.mpr
            ⟨_, List.mem_map.mpr ⟨_, hz, rfl⟩, by simp [parNames, parVals]⟩)))
      · apply key _ (.matcher p.matcher)
        · rw [zip_vars hf]
          refine List.mem_append_left _ (List.mem_append_right _ (mem_zip_of_getElem? (i := i) ?_ ?_))
          · simp [PList.names, h1]
          · simp [h2]
        · rw [zip_eq hf]
          exact List.mem_append_left _ (List.mem_append_left _ (List.mem_append_right _ (List.mem_flatten.mpr
            ⟨_, List.mem_map.mpr ⟨_, hz, rfl⟩, by simp [parNames, parVals, matchMember]⟩)))
    · obtain ⟨l, hl, hal⟩ := List.mem_flatten.mp ha
      obtain ⟨x, hx, rfl⟩ := List.mem_map.mp hl
      obtain ⟨i, o, h1, h2⟩ := hex hf.outs hx
      have hz : (x, x, o) ∈ s.outs.zip (s.outs.zip e.outs) := by
        apply mem_zip_of_getElem? h1
        rw [List.getElem?_zip_eq_some]
        exact ⟨h1, h2⟩
      have put : ∀ m v, (m, v) ∈ (outNames x).zip (outVals (x, o)) →
          (m, v) ∈ (expectNames s).zip (longVals s e) ∧ (m, v) ∈ (dataMembers s).zip (layout s e) := by
        intro m v hm
        rw [zip_vars hf, zip_eq hf]
        exact ⟨List.mem_append_right _ (List.mem_flatten.mpr ⟨_, List.mem_map.mpr ⟨_, hz, rfl⟩, hm⟩),
          List.mem_append_right _ (List.mem_flatten.mpr ⟨_, List.mem_map.mpr ⟨_, hz, rfl⟩, hm⟩)⟩
      rcases List.mem_append.mp hal with hal | hal
      · by_cases hs : x.2.2.1 = .sized
        · simp only [hs, beq_self_eq_true, if_true, List.mem_cons, List.not_mem_nil, or_false] at hal
          subst hal
          have := put ("out_" ++ x.2.1 ++ "_size") (.size o.size) (by simp [outNames, outVals, hs])
          exact key _ _ this.1 this.2
        · have hb : (x.2.2.1 == Gen.Out.sized) = false := by simpa using hs
          simp [hb] at hal
      · simp only [List.mem_cons, List.not_mem_nil, or_false] at hal
        subst hal
        have := put ("out_" ++ x.2.1) (.ptr o.src) (by simp [outNames, outVals])
        exact key _ _ this.1 this.2
  · cases hr : s.hasReturn with
    | false => simp [hr] at ha
    | true =>
      simp only [hr, if_true, List.mem_cons, List.not_mem_nil, or_false] at ha
      subst ha
      apply key _ (.val e.ret)
      · rw [zip_vars hf]
        exact List.mem_append_left _ (List.mem_append_left _ (List.mem_append_right _ (by simp [hr])))
      · rw [zip_eq hf]
        exact List.mem_append_left _ (List.mem_append_right _ (by simp [hr, retMember]))

/-- Every member is assigned. -/
theorem commonBody_covers (s : FunSection) : ∀ m ∈ dataMembers s, m ∈ (commonBody s).map (fun a => a.member) := by
  intro m hm
  rw [dataMembers_eq] at hm
  unfold commonBody
  simp only [List.map_append, List.mem_append]
  rcases List.mem_append.mp hm with hm | hm
  · rcases List.mem_append.mp hm with hm | hm
    rcases List.mem_append.mp hm with hm | hm
    · refine .inl (.inl (.inl ?_))
      unfold instanceNames at hm
      cases hc : s.cls.isSome <;> simp [hc] at hm ⊢
      exact hm
    · obtain ⟨l, hl, hml⟩ := List.mem_flatten.mp hm
      obtain ⟨x, hx, rfl⟩ := List.mem_map.mp hl
      refine .inl (.inl (.inr ?_))
      simp only [parNames, List.mem_cons, List.not_mem_nil, or_false] at hml
      rcases hml with rfl | rfl
      · exact List.mem_map.mpr ⟨⟨x.2.1, x.2.1⟩, List.mem_flatten.mpr
          ⟨_, List.mem_map.mpr ⟨x, hx, rfl⟩, by simp⟩, rfl⟩
      · exact List.mem_map.mpr ⟨⟨matchMember s x.2.1, "easyMock_match_" ++ x.2.1⟩, List.mem_flatten.mpr
          ⟨_, List.mem_map.mpr ⟨x, hx, rfl⟩, by simp⟩, rfl⟩
    · refine .inr ?_
      cases hr : s.hasReturn with
      | false => simp [hr] at hm
      | true => simp [hr, retMember] at hm ⊢; exact hm.symm ▸ rfl
  · obtain ⟨l, hl, hml⟩ := List.mem_flatten.mp hm
    obtain ⟨x, hx, rfl⟩ := List.mem_map.mp hl
    refine .inl (.inr ?_)
    unfold outNames at hml
    rcases List.mem_cons.mp hml with rfl | hml
    · exact List.mem_map.mpr ⟨⟨"out_" ++ x.2.1, "out_" ++ x.2.1⟩, List.mem_flatten.mpr
        ⟨_, List.mem_map.mpr ⟨x, hx, rfl⟩, by simp⟩, rfl⟩
    · by_cases hs : x.2.2.1 = .sized
      · simp only [hs, beq_self_eq_true, if_true, List.mem_cons, List.not_mem_nil, or_false] at hml
        subst hml
        exact List.mem_map.mpr ⟨⟨"out_" ++ x.2.1 ++ "_size", "out_" ++ x.2.1 ++ "_size"⟩, List.mem_flatten.mpr
          ⟨_, List.mem_map.mpr ⟨x, hx, rfl⟩, by simp [hs]⟩, rfl⟩
      · have hb : (x.2.2.1 == Gen.Out.sized) = false := by simpa using hs
        simp [hb] at hml

/-- The common function hands over the arguments, each in its member. -/
theorem runCommon_eq (hf : Fits s e) (ho : ExpectOk s) : runCommon s (longVals s e) = some ((layout s e).map some) := by
  unfold runCommon
  rw [if_pos ⟨ho.lists, ho.vars, ho.members, (long_length hf).symm⟩]
  obtain ⟨d', h1, h2, h3⟩ := assigned_spec (vars := (expectNames s).zip (longVals s e)) ho.members (layout s e) (commonBody s)
    (List.replicate (dataMembers s).length none) (by simp) (commonBody_ok hf ho)
  rw [h1]
  congr 1
  apply List.ext_getElem?
  intro i
  by_cases hi : i < (dataMembers s).length
  · have hm : (dataMembers s)[i]? = some ((dataMembers s)[i]) := by simp [hi]
    rw [h3 i _ hm, if_pos (commonBody_covers s _ (List.getElem_mem hi)), List.getElem?_map]
    have hl : i < (layout s e).length := by rw [← layout_length hf]; exact hi
    simp [hl]
  · have hl : (layout s e).length ≤ i := by rw [← layout_length hf]; omega
    rw [List.getElem?_eq_none (by omega), List.getElem?_eq_none (by simpa using hl)]

theorem mapM_lookup {ns : List String} (hn : ns.Nodup) {vs : List MVal} (hl : ns.length = vs.length) :
    ∀ (pre : List (String × MVal)) , ((pre ++ ns.zip vs).map Prod.fst).Nodup →
      (ns.map Arg.var).mapM (Arg.eval (pre ++ ns.zip vs)) = some vs := by
  induction ns generalizing vs with
  | nil =>
    intro pre _
    have : vs = [] := List.length_eq_zero_iff.mp hl.symm
    subst this; rfl
  | cons n ns ih =>
    intro pre hp
    cases vs with
    | nil => simp at hl
    | cons v vs =>
      simp only [List.zip_cons_cons, List.map_cons, List.mapM_cons]
      have h1 : Arg.eval (pre ++ (n, v) :: ns.zip vs) (.var n) = some v := by
        simp only [Arg.eval]
        exact lookup_of_mem (by simpa using hp) (by simp)
      have h2 := ih (List.nodup_cons.mp hn).2 (by simpa using hl) (pre ++ [(n, v)]) (by simpa using hp)
      rw [h1]
      simp only [List.append_assoc, List.cons_append, List.nil_append] at h2
      rw [h2]
      rfl

theorem longArgs_eval (hf : Fits s e) (ho : ExpectOk s) :
    (longArgs s).mapM (Arg.eval ((expectNames s).zip (longVals s e))) = some (longVals s e) := by
  have := mapM_lookup ho.names (long_length hf) [] (by simpa using zip_fst_nodup ho.names)
  simpa [longArgs] using this

theorem runLong_eq (hf : Fits s e) (ho : ExpectOk s) (h : s.outs ≠ []) :
    runExpectReturnAndOutput s (longVals s e) = some ((layout s e).map some) := by
  unfold runExpectReturnAndOutput
  rw [if_pos ⟨h, ho.lists, ho.names, (long_length hf).symm⟩, longArgs_eval hf ho]
  exact runCommon_eq hf ho

theorem mapM_append_some {α β : Type} (f : α → Option β) : ∀ (l1 l2 : List α) (r1 r2 : List β),
    l1.mapM f = some r1 → l2.mapM f = some r2 → (l1 ++ l2).mapM f = some (r1 ++ r2) := by
  intro l1 l2 r1 r2 h1 h2
  rw [List.mapM_append, h1, h2]
  rfl

/-- The expectation without outputs. -/
def noOuts (s : FunSection) (e : Exp) : Exp := { e with outs := s.outs.map (fun _ => ⟨0, 0⟩) }

theorem shortArgs_eval (hf : Fits s e) (ho : ExpectOk s) :
    (shortArgs s).mapM (Arg.eval ((shortNames s).zip (shortVals s e))) = some (longVals s (noOuts s e)) := by
  rw [longVals_eq]
  have hn : (shortNames s).Nodup := by
    have := ho.names
    rw [expectNames_eq] at this
    exact (List.nodup_append.mp this).1
  unfold shortArgs
  apply mapM_append_some
  · have := mapM_lookup hn (short_length hf) [] (by simpa using zip_fst_nodup hn)
    simpa [shortVals, noOuts, instVals] using this
  · have : ∀ (l : List (String × String × Gen.Out × XDecl)),
        ((l.map (fun x => Arg.null :: (if x.2.2.1 == .sized then [Arg.zero] else []))).flatten).mapM
          (Arg.eval ((shortNames s).zip (shortVals s e))) =
          some ((l.zip (l.map (fun _ => (⟨0, 0⟩ : OutExp)))).map outVals).flatten := by
      intro l
      induction l with
      | nil => rfl
      | cons x l ih =>
        simp only [List.map_cons, List.flatten_cons, List.zip_cons_cons]
        apply mapM_append_some _ _ _ _ _ ?_ ih
        by_cases hs : x.2.2.1 = .sized
        · simp only [hs, beq_self_eq_true, if_true, outVals]; rfl
        · have hb : (x.2.2.1 == Gen.Out.sized) = false := by simpa using hs
          simp only [hb, Bool.false_eq_true, if_false, outVals]; rfl
    exact this s.outs

theorem runShort_eq (hf : Fits s e) (ho : ExpectOk s) :
    runExpectAndReturn s (shortVals s e) = some ((layout s (noOuts s e)).map some) := by
  have hn : (shortNames s).Nodup := by
    have := ho.names
    rw [expectNames_eq] at this
    exact (List.nodup_append.mp this).1
  unfold runExpectAndReturn
  rw [if_pos ⟨ho.lists, hn, (short_length hf).symm⟩, shortArgs_eval hf ho]
  exact runCommon_eq ⟨hf.params, by simp [noOuts]⟩ ho

end EasyMock.MockCode
