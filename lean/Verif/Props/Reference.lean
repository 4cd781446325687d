import Verif.MockCode.ReferenceLemmas
import Verif.Props.MockCode
import Verif.Props.Framework1

/-! # C83, C84: functions with reference parameters and reference results -/

namespace EasyMock.MockCode

open EasyMock EasyMock.Gen EasyMock.Spec EasyMock.Types

section
variable {cfg : Cfg} {P : RefFns} {m0 : Mem} {past : List Op} {st : State} {f : FnId} {c : Call} {s : FunSection}
  {pa : Passing} {e : Exp}

/-! ## The names -/

/-- What is asked from the names of the parameters besides `PlainNames`: the object of a reference member is called like the
    member behind `default_`. -/
structure RefNames (s : FunSection) : Prop where
  plain : PlainNames s
  default : ∀ n ∈ s.params.names, ¬ StartsWith "default_" n
  cls : ∀ c, s.cls = some c → ¬ StartsWith "default_" (c ++ "_")

theorem flatten_append_perm {α β : Type} (f g : α → List β) : ∀ l : List α,
    ((l.map (fun x => f x ++ g x)).flatten).Perm ((l.map f).flatten ++ (l.map g).flatten)
  | [] => .nil
  | x :: l => by
    simp only [List.map_cons, List.flatten_cons, List.append_assoc]
    refine List.Perm.append_left _ ?_
    refine ((flatten_append_perm f g l).append_left (g x)).trans ?_
    rw [← List.append_assoc, ← List.append_assoc]
    exact List.Perm.append_right _ List.perm_append_comm

/-- No member named after the function starts with `default_`. -/
theorem not_default {s : FunSection} (h : ∀ c, s.cls = some c → ¬ StartsWith "default_" (c ++ "_")) (y r : String) :
    dataPrefix s ++ y ≠ "default_" ++ r := by
  intro e
  have e1 := congrArg String.toList e
  have hq : "default_".toList = ['d', 'e', 'f', 'a', 'u', 'l', 't'] ++ ['_'] := rfl
  have hu : "_".toList = ['_'] := rfl
  cases hc : s.cls with
  | none =>
    simp only [dataPrefix, hc, Option.getD_none, String.toList_append, hq, hu] at e1
    have := congrArg List.head? e1
    exact absurd this (by show some '_' ≠ some 'd'; decide)
  | some c =>
    apply h c hc
    simp only [dataPrefix, hc, Option.getD_some, String.toList_append, hq, hu] at e1
    rw [List.append_assoc (c.toList ++ ['_'])] at e1
    rcases List.append_eq_append_iff.mp e1 with ⟨a, h1, -⟩ | ⟨a, h1, -⟩
    · cases a with
      | nil =>
        refine ⟨"", String.toList_inj.mp ?_⟩
        rw [String.toList_append, String.toList_append, hq, hu]
        exact (h1.trans (List.append_nil _)).symm.trans (List.append_nil _).symm
      | cons x a =>
        have hm : '_' ∈ ['d', 'e', 'f', 'a', 'u', 'l', 't'] := by
          have hl : (x :: a) = (x :: a).dropLast ++ [(x :: a).getLast (by simp)] := (List.dropLast_concat_getLast (by simp)).symm
          rw [hl, ← List.append_assoc] at h1
          have := (List.append_inj' h1 rfl).1
          rw [this]
          simp
        exact absurd hm (by decide)
    · refine ⟨String.ofList a, String.toList_inj.mp ?_⟩
      rw [String.toList_append, String.toList_append, hq, hu, String.toList_ofList]
      exact h1

/-- The objects of the reference members. -/
def defaults (ps : Passing) (s : FunSection) : List String :=
  (s.params.entries.zipIdx.map (fun e => if ps.isRef e.2 then ["default_" ++ e.1.2.1] else [])).flatten ++
  (if s.hasReturn then (if ps.result.isSome then ["default_" ++ (dataPrefix s ++ "_returnValue")] else []) else [])

theorem refMembers_perm (ps : Passing) (s : FunSection) : (refMembers ps s).Perm (dataMembers s ++ defaults ps s) := by
  have h0 : (s.params.entries.zipIdx.map (fun e => [e.1.2.1, dataPrefix s ++ "_match_" ++ e.1.2.1])) =
      s.params.entries.map (fun e => [e.2.1, dataPrefix s ++ "_match_" ++ e.2.1]) := by
    have : (fun e : (String × String × Gen.Out × XDecl) × Nat => [e.1.2.1, dataPrefix s ++ "_match_" ++ e.1.2.1]) =
      (fun e : String × String × Gen.Out × XDecl => [e.2.1, dataPrefix s ++ "_match_" ++ e.2.1]) ∘ Prod.fst := rfl
    rw [this, ← List.map_map, List.zipIdx_map_fst]
  have h1 := flatten_append_perm (fun e : (String × String × Gen.Out × XDecl) × Nat =>
      if ps.isRef e.2 then ["default_" ++ e.1.2.1] else [])
    (fun e => [e.1.2.1, dataPrefix s ++ "_match_" ++ e.1.2.1]) s.params.entries.zipIdx
  rw [h0] at h1
  unfold refMembers dataMembers defaults
  generalize hA : (s.params.entries.zipIdx.map (fun e => if ps.isRef e.2 then ["default_" ++ e.1.2.1] else [])).flatten = A at h1 ⊢
  generalize hB : (s.params.entries.map (fun e => [e.2.1, dataPrefix s ++ "_match_" ++ e.2.1])).flatten = B at h1 ⊢
  generalize hC : (s.outs.map (fun e => ("out_" ++ e.2.1) ::
    (if e.2.2.1 == .sized then ["out_" ++ e.2.1 ++ "_size"] else []))).flatten = C
  generalize (s.params.entries.zipIdx.map _).flatten = X at h1 ⊢
  generalize dataPrefix s ++ "_returnValue" = r
  generalize (if ps.result.isSome = true then ["default_" ++ r] else []) = D
  have key : ∀ (D R : List String), (instanceNames s ++ X ++ (D ++ R) ++ C).Perm (instanceNames s ++ B ++ R ++ C ++ (A ++ D)) := by
    intro D R
    rw [List.perm_iff_count]
    intro x
    have := (List.perm_iff_count.mp h1) x
    simp only [List.count_append] at this ⊢
    omega
  cases s.hasReturn
  · simpa using key [] []
  · exact key D [r]

/-- C62 for functions with references: the members of the data structure have different names. -/
theorem C62_references (hn : RefNames s) (ps : Passing) : (refMembers ps s).Nodup := by
  rw [(refMembers_perm ps s).nodup_iff]
  have hd : ∀ x ∈ defaults ps s, ∃ y, x = "default_" ++ y ∧ (y ∈ s.params.names ∨ y = dataPrefix s ++ "_returnValue") := by
    intro x hx
    unfold defaults at hx
    rcases List.mem_append.mp hx with hx | hx
    · obtain ⟨l, hl, hx⟩ := List.mem_flatten.mp hx
      obtain ⟨⟨e, i⟩, he, rfl⟩ := List.mem_map.mp hl
      simp only at hx
      split at hx
      · refine ⟨e.2.1, by simpa using hx, .inl ?_⟩
        exact List.mem_map.mpr ⟨e, (List.mem_zipIdx he).2.2 ▸ List.getElem_mem _, rfl⟩
      · simp at hx
    · split at hx
      · split at hx
        · exact ⟨_, by simpa using hx, .inr rfl⟩
        · simp at hx
      · simp at hx
  rw [List.nodup_append]
  refine ⟨hn.plain.members, ?_, ?_⟩
  · unfold defaults
    rw [List.nodup_append]
    have hsub : ∀ (l : List (String × String × Gen.Out × XDecl)) (k : Nat),
        (((l.zipIdx k).map (fun e => if ps.isRef e.2 then ["default_" ++ e.1.2.1] else [])).flatten).Sublist
          (l.map (fun e => "default_" ++ e.2.1)) := by
      intro l
      induction l with
      | nil => intro k; exact .slnil
      | cons x l ih =>
        intro k
        simp only [List.zipIdx_cons, List.map_cons, List.flatten_cons]
        split
        · exact (ih (k + 1)).cons_cons _
        · exact (ih (k + 1)).cons _
    refine ⟨?_, ?_, ?_⟩
    · refine (hsub s.params.entries 0).nodup ?_
      have : s.params.entries.map (fun e => "default_" ++ e.2.1) = s.params.names.map (fun n => "default_" ++ n) := by
        simp [PList.names]
      rw [this]
      exact map_prefix_nodup "default_" hn.plain.nodup
    · split
      · split <;> simp
      · simp
    · intro a ha b hb hab
      subst hab
      obtain ⟨l, hl, hx⟩ := List.mem_flatten.mp ha
      obtain ⟨⟨e, i⟩, he, rfl⟩ := List.mem_map.mp hl
      simp only at hx
      have hb' : a = "default_" ++ (dataPrefix s ++ "_returnValue") := by
        split at hb
        · split at hb <;> simp at hb; exact hb
        · simp at hb
      split at hx
      · have hx' : a = "default_" ++ e.2.1 := by simpa using hx
        rw [hb'] at hx'
        have hh := append_left_inj _ hx'
        apply hn.plain.result
        show dataPrefix s ++ "_returnValue" ∈ _
        rw [hh]
        exact List.mem_map.mpr ⟨e, (List.mem_zipIdx he).2.2 ▸ List.getElem_mem _, rfl⟩
      · simp at hx
  · intro a ha b hb hab
    subst hab
    obtain ⟨y, rfl, -⟩ := hd a hb
    have hfirst : ∀ x : String, x.toList.head? ≠ some 'd' → "default_" ++ y ≠ x := by
      rintro x h rfl
      apply h
      rw [String.toList_append]
      rfl
    have hpre : ∀ z, "default_" ++ y ≠ dataPrefix s ++ z := fun z hz => not_default hn.cls z y hz.symm
    have hd : dataMembers s = instanceNames s ++ (s.params.names.flatMap (fun n => [n, dataPrefix s ++ "_match_" ++ n]) ++
        (if s.hasReturn then [dataPrefix s ++ "_returnValue"] else []) ++ Gen.outNames s) := by
      unfold dataMembers Gen.outNames PList.names
      rw [List.flatMap_def, List.flatMap_def, List.map_map, List.append_assoc, List.append_assoc, List.append_assoc]
      rfl
    rw [hd] at ha
    rcases List.mem_append.mp ha with h | h
    · exact hfirst _ (by decide +kernel) (mem_instanceNames h).1
    rcases List.mem_append.mp h with h | h
    · rcases List.mem_append.mp h with h | h
      · obtain ⟨n, hmem, h⟩ := List.mem_flatMap.mp h
        simp only [List.mem_cons, List.not_mem_nil, or_false] at h
        rcases h with h | h
        · exact hn.default n hmem ⟨y, h.symm⟩
        · rw [String.append_assoc] at h
          exact hpre _ h
      · split at h
        · exact hpre _ (by simpa using h)
        · simp at h
    · obtain ⟨n, -, h | h⟩ := mem_outNames h
      · refine hfirst _ ?_ h
        rw [String.toList_append]
        show some 'o' ≠ some 'd'
        decide
      · refine hfirst _ ?_ h
        rw [String.toList_append, String.toList_append]
        show some 'o' ≠ some 'd'
        decide

/-! ## The process -/

/-- The functions with references are generated for C++ and have names which do not clash. -/
structure RefOk (cfg : Cfg) (P : RefFns) : Prop where
  names : ∀ f s pa, P f = some (s, pa) → RefNames s
  fn : ∀ f s pa, P f = some (s, pa) → ∃ cf n sizes, cf.cpp = true ∧ sizes.length = s.outs.length ∧
    cfg.fn? f = some (fnCfg cf s n sizes)

/-- The operations give these functions as many values as they have parameters. -/
def FitsOp (P : RefFns) : Op → Prop
  | .expect f e _ => ∀ s pa, P f = some (s, pa) → Fits s e
  | .call f c => ∀ s pa, P f = some (s, pa) → CallFits s c
  | _ => True

/-- The expectation as the rest of the framework sees it: the matchers look behind the references. -/
def looks (P : RefFns) (f : FnId) : Exp → Exp :=
  match P f with
  | some (_, pa) => behindExp pa
  | none => fun e => e

theorem looks_ref (h : P f = some (s, pa)) : looks P f = behindExp pa := by unfold looks; rw [h]

theorem looks_none (h : P f = none) (e : Exp) : looks P f e = e := by unfold looks; rw [h]

theorem serving_mem (h : serving f past = some e) : ∃ alloc, Op.expect f e alloc ∈ past := by
  unfold serving exps at h
  have hmem := List.mem_of_getElem? h
  rw [List.mem_reverse] at hmem
  obtain ⟨op, hop, hx⟩ := List.mem_filterMap.mp hmem
  have hsub : ∀ (l : List Op), op ∈ since f l → op ∈ l := by
    intro l
    induction l with
    | nil => simp [since]
    | cons o l ih =>
      unfold since
      split
      · simp
      · intro hm
        rcases List.mem_cons.mp hm with hm | hm
        · exact List.mem_cons.mpr (.inl hm)
        · exact List.mem_cons_of_mem _ (ih hm)
  have hop' := hsub _ hop
  cases op with
  | expect g e2 alloc =>
    simp only [expOp] at hx
    split at hx
    · rename_i hg; subst hg; cases hx; exact ⟨alloc, hop'⟩
    · simp at hx
  | _ => simp [expOp] at hx

theorem cppOnly (hP : RefOk cfg P) (hlen : past.length < 2 ^ 32)
    (hr : runRev cfg m0 (past.map (liftOp (looks P))) = .ok (lift (looks P) st)) : CppOnly (looks P) st := by
  intro f m hm
  cases hp : P f with
  | none => exact looks_none hp
  | some x =>
    obtain ⟨s, pa⟩ := x
    obtain ⟨cf, n, sizes, h1, -, h3⟩ := hP.fn f s pa hp
    obtain ⟨h, _⟩ := run_sim (by simpa using hlen) hr
    have h2 := h.minv.kind f (by simp [Valid, h3])
    simp [lift, hm, mapMock, Mock.isC, kindC, h3, fnCfg, h1] at h2

/-- One operation with references and the same operation in the framework. -/
theorem rstep_lift (hP : RefOk cfg P) (hlen : past.length + 1 < 2 ^ 32)
    (hr : runRev cfg m0 (past.map (liftOp (looks P))) = .ok (lift (looks P) st))
    (hfit : ∀ op ∈ past, FitsOp P op) (op : Op) (hop : FitsOp P op) {st' : State} {o : Out}
    (h : rstep cfg P st op = some (.ok (st', o))) :
    ∃ o', step cfg (lift (looks P) st) (liftOp (looks P) op) = .ok (lift (looks P) st', o') := by
  have hc := cppOnly hP (by omega) hr
  have base : (∀ f c, op = .call f c → P f = none) → rstep cfg P st op = some (step cfg st op) →
      ∃ o', step cfg (lift (looks P) st) (liftOp (looks P) op) = .ok (lift (looks P) st', o') := by
    intro hn hs
    rw [hs] at h
    rw [step_lift cfg st op hc (fun f c hf e => looks_none (hn f c hf) e), Option.some.inj h]
    exact ⟨o, rfl⟩
  cases op with
  | call f c =>
    cases hp : P f with
    | none => exact base (fun f' c' h => by cases h; exact hp) (by simp only [rstep, hp])
    | some x =>
      obtain ⟨s, pa⟩ := x
      obtain ⟨cf, n, sizes, h1, h2, h3⟩ := hP.fn f s pa hp
      simp only [rstep, hp, h3] at h
      by_cases hl : st.loaded f.file = true
      · rw [if_pos hl, if_pos (C62_references (hP.names f s pa hp) pa)] at h
        have hl' : (lift (looks P) st).loaded f.file = true := hl
        have hnm := (hP.names f s pa hp).plain.namesOk
        simp only [liftOp, step, h3, hl', if_true]
        cases hser : serving f past with
        | none =>
          obtain ⟨st2, e1, e2⟩ := ref_unexpected (pa := pa) (G := looks P) hr hlen hnm cf n sizes h2 h3 (hop s pa hp) hser
          rw [e2] at h
          simp only [obind, Option.some.injEq, Res.ok.injEq, Prod.mk.injEq] at h
          rw [e1]
          exact ⟨_, by rw [← h.1]; rfl⟩
        | some e =>
          obtain ⟨alloc, hm⟩ := serving_mem hser
          obtain ⟨r, e1, e2⟩ := ref_call (pa := pa) (looks_ref hp) hr hlen hnm cf n sizes h2 h1 h3 (hop s pa hp) hser
            (hfit _ hm s pa hp)
          rw [e2] at h
          by_cases hA : Alive pa st.mem 0 e.params c.args
          · rw [if_pos hA] at h
            cases r with
            | ok r =>
              obtain ⟨st2, v⟩ := r
              simp only [obind, Option.some.injEq, Res.ok.injEq, Prod.mk.injEq] at h
              rw [e1]
              exact ⟨_, by rw [← h.1]; rfl⟩
            | ub => simp [obind] at h
            | exit => simp [obind] at h
          · rw [if_neg hA] at h
            simp [obind] at h
      · rw [if_neg hl] at h
        cases h
  | _ => exact base (fun f c h => by cases h) rfl

/-- A process with references is the process of the framework in which the matchers look behind the references. -/
theorem rrun_lift (hP : RefOk cfg P) : ∀ {past : List Op} {st : State}, past.length < 2 ^ 32 → (∀ op ∈ past, FitsOp P op) →
    rrun cfg P m0 past = some (.ok st) → runRev cfg m0 (past.map (liftOp (looks P))) = .ok (lift (looks P) st)
  | [], st, _, _, h => by
    simp only [rrun, Option.some.injEq, Res.ok.injEq] at h
    subst h
    simp only [List.map_nil, runRev, Res.ok.injEq]
    unfold lift State.initial
    simp only [State.mk.injEq, and_true, true_and]
    funext f
    exact (mapMock_zero _ _ _).symm
  | op :: past, st, hlen, hfit, h => by
    simp only [List.length_cons] at hlen
    cases hb : rrun cfg P m0 past with
    | none => simp [rrun, hb, obind] at h
    | some r =>
      cases r with
      | ub => simp [rrun, hb, obind] at h
      | exit => simp [rrun, hb, obind] at h
      | ok st0 =>
        have ih := rrun_lift hP (by omega) (fun o ho => hfit o (List.mem_cons_of_mem _ ho)) hb
        simp only [rrun, hb, obind] at h
        cases hs : rstep cfg P st0 op with
        | none => simp [hs] at h
        | some r =>
          cases r with
          | ub => simp [hs] at h
          | exit => simp [hs] at h
          | ok x =>
            obtain ⟨st1, o⟩ := x
            simp only [hs, Option.some.injEq, Res.ok.injEq] at h
            subst h
            obtain ⟨o', e⟩ := rstep_lift hP (by omega) ih (fun o ho => hfit o (List.mem_cons_of_mem _ ho)) op
              (hfit op List.mem_cons_self) hs
            simp only [List.map_cons, runRev, ih, Res.bind_ok, e]

/-! ## C83 -/

/-- The value `v` of a parameter stands for the object `u`: for a parameter passed by value the value itself, for a reference
    to `n` bytes the bytes found at the address. -/
def StandsFor (mem : Mem) (size : Option Nat) (v u : Val) : Prop :=
  match size with
  | none => u = v
  | some n => u.length = n ∧ ∀ k, k < n → mem (Matcher.loadU v + k) = u[k]?

theorem objectAt_iff (mem : Mem) (n : Nat) (a : Nat) (u : Val) :
    objectAt mem a n = some u ↔ u.length = n ∧ ∀ k, k < n → mem (a + k) = u[k]? := by
  have key : ∀ (n j : Nat) (u : Val), (List.range' j n).mapM (fun k => mem (a + k)) = some u ↔
      u.length = n ∧ ∀ k, k < n → mem (a + (j + k)) = u[k]? := by
    intro n
    induction n with
    | zero =>
      intro j u
      simp only [List.range'_zero, List.mapM_nil]
      constructor
      · intro h; cases h; simp
      · rintro ⟨h, -⟩; rw [List.length_eq_zero_iff.mp h]; rfl
    | succ n ih =>
      intro j u
      rw [List.range'_succ, List.mapM_cons]
      cases hm : mem (a + j) with
      | none =>
        constructor
        · intro h; cases h
        · rintro ⟨h1, h2⟩
          have := h2 0 (by omega)
          rw [Nat.add_zero, hm] at this
          have : u.length ≤ 0 := List.getElem?_eq_none_iff.mp this.symm
          omega
      | some b =>
        simp only [Option.bind_eq_bind, Option.bind_some]
        cases hr : (List.range' (j + 1) n).mapM (fun k => mem (a + k)) with
        | none =>
          constructor
          · intro h; cases h
          · rintro ⟨h1, h2⟩
            have : (List.range' (j + 1) n).mapM (fun k => mem (a + k)) = some u.tail := by
              rw [ih]
              refine ⟨by simp [h1], fun k hk => ?_⟩
              rw [List.getElem?_tail, ← h2 (k + 1) (by omega), show j + 1 + k = j + (k + 1) by omega]
            rw [hr] at this; cases this
        | some w =>
          have hw := (ih (j + 1) w).mp hr
          simp only [Option.bind_some]
          constructor
          · intro h
            have hu : b :: w = u := Option.some.inj h
            subst hu
            refine ⟨by simp [hw.1], fun k hk => ?_⟩
            cases k with
            | zero => simp [hm]
            | succ k =>
              rw [List.getElem?_cons_succ, ← hw.2 k (by omega), show j + 1 + k = j + (k + 1) by omega]
          · rintro ⟨h1, h2⟩
            have : (List.range' (j + 1) n).mapM (fun k => mem (a + k)) = some u.tail := by
              rw [ih]
              refine ⟨by simp [h1], fun k hk => ?_⟩
              rw [List.getElem?_tail, ← h2 (k + 1) (by omega), show j + 1 + k = j + (k + 1) by omega]
            rw [hr] at this
            have hw2 : w = u.tail := Option.some.inj this
            cases u with
            | nil => simp at h1
            | cons x u =>
              have := h2 0 (by omega)
              rw [Nat.add_zero, hm] at this
              simp at this
              simp only [List.tail_cons] at hw2
              rw [hw2, this]
              rfl
  have := key n 0 u
  rw [← List.range_eq_range'] at this
  unfold objectAt
  rw [this]
  simp

theorem sees {mem : Mem} {n : Nat} {v u : Val} (h : StandsFor mem (some n) v u) : objectAt mem (Matcher.loadU v) n = some u :=
  (objectAt_iff mem n _ u).mpr h

/-- What the matchers are given: the objects behind the references. -/
theorem matchErrs_behind (mem : Mem) : ∀ (i : Nat) (names : List String) (l : List ParamExp) (as us vs : List Val),
    l.length = as.length → us.length = as.length → vs.length = as.length →
    (∀ (j : Nat) (p : ParamExp) (a u v : Val), l[j]? = some p → as[j]? = some a → us[j]? = some u → vs[j]? = some v →
      p.matcher ≠ none → StandsFor mem (pa.params[i + j]?).join a u ∧ StandsFor mem (pa.params[i + j]?).join p.value v) →
    Alive pa mem i l as ∧ matchErrs mem (zip3 names (behindParams pa i l) as) =
      matchErrs mem (zip3 names (List.zipWith (fun p v => ⟨v, p.matcher⟩) l vs) us)
  | i, names, [], as, us, vs, h1, h2, h3, _ => by
    refine ⟨trivial, ?_⟩
    simp [zip3, behindParams]
  | _, _, _ :: _, [], _, _, h, _, _, _ => by simp at h
  | _, _, _ :: _, _ :: _, [], _, _, h, _, _ => by simp at h
  | _, _, _ :: _, _ :: _, _ :: _, [], _, _, h, _ => by simp at h
  | i, names, p :: l, a :: as, u :: us, v :: vs, h1, h2, h3, h => by
    have ih := fun names => matchErrs_behind mem (i + 1) names l as us vs (by simpa using h1) (by simpa using h2) (by simpa using h3)
      (fun j p' a' u' v' e1 e2 e3 e4 hm => by
        have := h (j + 1) p' a' u' v' (by simpa using e1) (by simpa using e2) (by simpa using e3) (by simpa using e4) hm
        rw [show i + 1 + j = i + (j + 1) by omega]
        exact this)
    have h0 := h 0 p a u v rfl rfl rfl rfl
    rw [Nat.add_zero] at h0
    refine ⟨⟨?_, (ih []).1⟩, ?_⟩
    · cases hm : p.matcher with
      | none => exact .inl rfl
      | some mt =>
        refine .inr (fun n hn => ?_)
        obtain ⟨s1, s2⟩ := h0 (by simp [hm])
        rw [hn] at s1 s2
        rw [sees s1, sees s2]
        exact ⟨rfl, rfl⟩
    · cases names with
      | nil => simp [zip3, matchErrs]
      | cons x names =>
        have iht := (ih names).2
        have e1 : zip3 (x :: names) (behindParams pa i (p :: l)) (a :: as) =
          (x, (match (pa.params[i]?).join with
            | none => p
            | some n => ⟨p.value, p.matcher.map (behind n)⟩), a) :: zip3 names (behindParams pa (i + 1) l) as := rfl
        have e2 : zip3 (x :: names) (List.zipWith (fun (p : ParamExp) v => (⟨v, p.matcher⟩ : ParamExp)) (p :: l) (v :: vs)) (u :: us) =
          (x, ⟨v, p.matcher⟩, u) :: zip3 names (List.zipWith (fun p v => ⟨v, p.matcher⟩) l vs) us := rfl
        rw [e1, e2]
        unfold matchErrs at iht ⊢
        rw [List.filterMap_cons, List.filterMap_cons, iht]
        have hh : (match (pa.params[i]?).join with
            | none => p
            | some n => (⟨p.value, p.matcher.map (behind n)⟩ : ParamExp)).matcher.bind (fun m => m mem a (match (pa.params[i]?).join with
            | none => p
            | some n => (⟨p.value, p.matcher.map (behind n)⟩ : ParamExp)).value x) = p.matcher.bind (fun m => m mem u v x) := by
          cases hm : p.matcher with
          | none =>
            cases (pa.params[i]?).join <;> simp [hm]
          | some mt =>
            obtain ⟨s1, s2⟩ := h0 (by simp [hm])
            cases hj : (pa.params[i]?).join with
            | none =>
              rw [hj] at s1 s2
              cases s1; cases s2
              simp [hm]
            | some n =>
              rw [hj] at s1 s2
              simp [behind, sees s1, sees s2]
        simp only at hh ⊢
        rw [hh]

theorem not_alive (mem : Mem) : ∀ (i j : Nat) (l : List ParamExp) (as : List Val) (p : ParamExp) (a : Val) (n : Nat),
    l[j]? = some p → as[j]? = some a → p.matcher ≠ none → (pa.params[i + j]?).join = some n →
    ((¬ ∃ u, StandsFor mem (some n) a u) ∨ ¬ ∃ v, StandsFor mem (some n) p.value v) → ¬ Alive pa mem i l as
  | i, 0, q :: l, b :: as, p, a, n, h1, h2, h3, h4, h5, hA => by
    cases h1; cases h2
    rcases hA.1 with hA | hA
    · exact h3 hA
    · obtain ⟨g1, g2⟩ := hA n h4
      obtain ⟨u, hu⟩ := Option.isSome_iff_exists.mp g1
      obtain ⟨v, hv⟩ := Option.isSome_iff_exists.mp g2
      rcases h5 with h5 | h5
      · exact h5 ⟨u, (objectAt_iff _ _ _ _).mp hu⟩
      · exact h5 ⟨v, (objectAt_iff _ _ _ _).mp hv⟩
  | i, j + 1, q :: l, b :: as, p, a, n, h1, h2, h3, h4, h5, hA =>
    not_alive mem (i + 1) j l as p a n (by simpa using h1) (by simpa using h2) h3
      (by rw [show i + 1 + j = i + (j + 1) by omega]; exact h4) h5 hA.2
  | _, _, [], _, _, _, _, h, _, _, _, _, _ => by simp at h
  | _, _, _ :: _, [], _, _, _, _, h, _, _, _, _ => by simp at h

theorem fnCfg_outs (cf : Config) (n : Nat) {sizes : List Nat} (hs : sizes.length = s.outs.length) : (fnCfg cf s n sizes).outs =
    s.outs.zipIdx.map (fun x => if x.1.2.2.1 == .sized then none else sizes[x.2]?) := by
  apply List.ext_getElem?
  intro j
  simp only [fnCfg, List.getElem?_map, List.getElem?_zipIdx]
  cases hx : s.outs[j]? with
  | none =>
    have : (s.outs.zip sizes)[j]? = none := by
      rw [List.getElem?_eq_none_iff] at hx ⊢
      simp; omega
    rw [this]; rfl
  | some x =>
    have hlt : j < sizes.length := by
      rw [hs]; exact (List.getElem?_eq_some_iff.mp hx).1
    have : (s.outs.zip sizes)[j]? = some (x, sizes[j]) := by
      rw [List.getElem?_zip_eq_some]
      exact ⟨hx, by simp [hlt]⟩
    rw [this]
    simp [hlt]

theorem rstep_call (hp : P f = some (s, pa)) (hn : RefNames s) {fc : FnCfg} (hf : cfg.fn? f = some fc)
    (hl : st.loaded f.file = true) :
    rstep cfg P st (.call f c) = obind (runMock cfg s f fc st c pa) (fun r => some (.ok (r.1, .ret r.2))) := by
  simp only [rstep, hp, hf]
  rw [if_pos hl, if_pos (C62_references hn pa)]

theorem rrun_loaded (hP : RefOk cfg P) (hr : rrun cfg P m0 past = some (.ok st)) (hlen : past.length < 2 ^ 32)
    (hfit : ∀ op ∈ past, FitsOp P op) (i : Nat) : st.loaded i = loaded i past := by
  obtain ⟨h, _⟩ := run_sim (by simpa using hlen) (rrun_lift hP hlen hfit hr)
  have := h.loaded i
  rw [loaded_map] at this
  exact this

theorem ref_cpp (hP : RefOk cfg P) (hp : P f = some (s, pa)) {cf : Config} {n : Nat} {sizes : List Nat}
    (hf : cfg.fn? f = some (fnCfg cf s n sizes)) : cf.cpp = true := by
  obtain ⟨cf', n', sizes', h1, -, h3⟩ := hP.fn f s pa hp
  rw [hf] at h3
  have : (!cf.cpp) = (!cf'.cpp) := congrArg FnCfg.isC (Option.some.inj h3)
  rw [h1] at this
  simpa using this

/-- C83: the call number `k + 1` of a function with references is served by its expectation number `k + 1`. The matchers of that
    expectation are given, for each reference, the object which the argument of the call refers to and the object which the test
    named when it registered the expectation, both as they are when the call is made. The mock returns the value of the
    expectation, for a function which returns a reference the reference given by the test. Failures of the matchers, a wrong
    object and a call out of order are reported, the outputs are copied. -/
theorem C83_kth_call (hP : RefOk cfg P) (hr : rrun cfg P m0 past = some (.ok st)) (hlen : past.length + 1 < 2 ^ 32)
    (hfit : ∀ op ∈ past, FitsOp P op) (hp : P f = some (s, pa)) (cf : Config) (n : Nat) (sizes : List Nat)
    (hs : sizes.length = s.outs.length) (hf : cfg.fn? f = some (fnCfg cf s n sizes)) (hld : loaded f.file past = true)
    (hc : CallFits s c) {k : Nat} (hk : calls f past = k) (hek : (exps f past)[k]? = some e) (us vs : List Val)
    (hu : us.length = c.args.length) (hv : vs.length = c.args.length)
    (hsee : ∀ (j : Nat) (p : ParamExp) (a u v : Val), e.params[j]? = some p → c.args[j]? = some a → us[j]? = some u →
      vs[j]? = some v → p.matcher ≠ none →
      StandsFor st.mem (pa.params[j]?).join a u ∧ StandsFor st.mem (pa.params[j]?).join p.value v) :
    match (if st.order = true ∧ st.fifo.head? ≠ some (mockSignature s) then some st.mem else
        copyAll st.mem (copies (s.outs.zipIdx.map (fun x => if x.1.2.2.1 == .sized then none else sizes[x.2]?)) e.outs c.outs)) with
    | none => rstep cfg P st (.call f c) = some .ub
    | some m' => ∃ st', rstep cfg P st (.call f c) = some (.ok (st', .ret (if s.hasReturn then some e.ret else none))) ∧
        st'.mem = m' ∧ st'.errs = st.errs ++
          ((if s.cls ≠ none ∧ e.inst ≠ 0 ∧ e.inst ≠ c.this then [ErrKind.badInstance (k + 1) (mockSignature s) e.inst c.this] else []) ++
           (matchErrs st.mem (zip3 s.params.names (List.zipWith (fun p v => ⟨v, p.matcher⟩) e.params vs) us)).map
             (ErrKind.mismatch (k + 1) (mockSignature s)) ++
           (if st.order = true ∧ st.fifo.head? ≠ some (mockSignature s) then
             [ErrKind.order (mockSignature s) (st.fifo.head?.getD "")] else [])).map
            (fun kind => ⟨kind, if cfg.backtrace = true ∧ st.print = true then some c.bt else none⟩) := by
  have hnm := hP.names f s pa hp
  have hlift := rrun_lift hP (by omega) hfit hr
  have hser : serving f past = some e := by unfold serving; rw [hk]; exact hek
  have hser' : serving f (past.map (liftOp (looks P))) = some (behindExp pa e) := by
    rw [serving_map, hser, looks_ref hp]; rfl
  have hlds : st.loaded f.file = true := by rw [rrun_loaded hP hr (by omega) hfit]; exact hld
  obtain ⟨alloc, hm⟩ := serving_mem hser
  have hfe := hfit _ hm s pa hp
  have hst := step_call_served hlift (by simpa using hlen) hf (by rw [loaded_map]; exact hld) hser' c
  obtain ⟨r, e1, e2⟩ := ref_call (pa := pa) (looks_ref hp) hlift hlen hnm.plain.namesOk cf n sizes hs (ref_cpp hP hp hf) hf hc hser hfe
  obtain ⟨hA, hM⟩ := matchErrs_behind (pa := pa) st.mem 0 s.params.names e.params c.args us vs
    (by rw [hfe.params, hc.args]) hu hv (fun j p a u v h1 h2 h3 h4 h5 => by rw [Nat.zero_add]; exact hsee j p a u v h1 h2 h3 h4 h5)
  rw [rstep_call hp hnm hf hlds, e2, if_pos hA]
  have l1 : (lift (looks P) st).order = st.order := rfl
  have l2 : (lift (looks P) st).fifo = st.fifo := rfl
  have l3 : (lift (looks P) st).mem = st.mem := rfl
  have l4 : (lift (looks P) st).errs = st.errs := rfl
  have l5 : (lift (looks P) st).print = st.print := rfl
  have l6 : (behindExp pa e).outs = e.outs := rfl
  have l7 : (fnCfg cf s n sizes).name = mockSignature s := rfl
  rw [l1, l2, l3, l4, l6, l7, fnCfg_outs cf n hs] at hst
  have l8 : (lift (looks P) st).loaded f.file = true := hlds
  cases hcp : (if st.order = true ∧ st.fifo.head? ≠ some (mockSignature s) then some st.mem else
        copyAll st.mem (copies (s.outs.zipIdx.map (fun x => if x.1.2.2.1 == .sized then none else sizes[x.2]?)) e.outs c.outs)) with
  | none =>
    rw [hcp] at hst
    simp only [step, hf, l8, if_true, e1] at hst
    cases r with
    | ok r => simp [mapRes] at hst
    | ub => rfl
    | exit => simp [mapRes] at hst
  | some m' =>
    rw [hcp] at hst
    obtain ⟨s', h1, h2, h3, -⟩ := hst
    simp only [step, hf, l8, if_true, e1] at h1
    cases r with
    | ub => simp [mapRes] at h1
    | exit => simp [mapRes] at h1
    | ok r =>
      obtain ⟨st', v⟩ := r
      simp only [mapRes, Res.bind_ok, Res.ok.injEq, Prod.mk.injEq, Out.ret.injEq] at h1
      obtain ⟨rfl, rfl⟩ := h1
      refine ⟨st', ?_, h3, ?_⟩
      · have hret : (fnCfg cf s n sizes).ret.map (fun _ => (behindExp pa e).ret) = if s.hasReturn then some e.ret else none := by
          unfold fnCfg behindExp
          cases s.hasReturn <;> rfl
        simp only [obind, hret]
      · have : st'.errs = _ := h2
        rw [this]
        unfold servedErrs
        rw [l1, l2, l3, l5, l7, calls_map, hk]
        have lp : (fnCfg cf s n sizes).paramNames = s.params.names := rfl
        have lm : (fnCfg cf s n sizes).isMember = s.cls.isSome := rfl
        have lb : (behindExp pa e).params = behindParams pa 0 e.params := rfl
        have li : (behindExp pa e).inst = e.inst := rfl
        rw [lp, lm, lb, li, hM]
        simp only [Option.isSome_iff_ne_none]

/-- C83: if a matcher is asked to compare references one of which refers to an object that does not exist any more,
    the behaviour of the call is undefined. -/
theorem C83_dead (hP : RefOk cfg P) (hr : rrun cfg P m0 past = some (.ok st)) (hlen : past.length + 1 < 2 ^ 32)
    (hfit : ∀ op ∈ past, FitsOp P op) (hp : P f = some (s, pa)) (hld : loaded f.file past = true)
    (hc : CallFits s c) (hek : (exps f past)[calls f past]? = some e) {j n : Nat} {p : ParamExp} {a : Val}
    (hj : e.params[j]? = some p) (ha : c.args[j]? = some a) (hm : p.matcher ≠ none) (hn : pa.params[j]? = some (some n))
    (hdead : (¬ ∃ u, StandsFor st.mem (some n) a u) ∨ ¬ ∃ v, StandsFor st.mem (some n) p.value v) :
    rstep cfg P st (.call f c) = some .ub := by
  have hnm := hP.names f s pa hp
  have hlift := rrun_lift hP (by omega) hfit hr
  have hser : serving f past = some e := hek
  have hlds : st.loaded f.file = true := by rw [rrun_loaded hP hr (by omega) hfit]; exact hld
  obtain ⟨alloc, hmem⟩ := serving_mem hser
  obtain ⟨cf, k, sizes, h1, h2, h3⟩ := hP.fn f s pa hp
  obtain ⟨r, e1, e2⟩ := ref_call (pa := pa) (looks_ref hp) hlift hlen hnm.plain.namesOk cf k sizes h2 h1 h3 hc hser
    (hfit _ hmem s pa hp)
  have hA := not_alive (pa := pa) st.mem 0 j e.params c.args p a n hj ha hm (by rw [Nat.zero_add, hn]; rfl) hdead
  rw [rstep_call hp hnm h3 hlds, e2, if_neg hA]
  rfl

/-- C83: every other operation of a process with such functions, in particular a check and every use of another function, is
    observed as in a process of the framework with the same history, in which the matchers look behind the references. -/
theorem C83_process (hP : RefOk cfg P) (hr : rrun cfg P m0 past = some (.ok st)) (hlen : past.length < 2 ^ 32)
    (hfit : ∀ op ∈ past, FitsOp P op) (op : Op) (hop : ∀ f c, op = .call f c → P f = none) :
    robserve cfg P m0 past op = some (observe cfg m0 (past.map (liftOp (looks P))) (liftOp (looks P) op)) := by
  have hlift := rrun_lift hP hlen hfit hr
  have hs : rstep cfg P st op = some (step cfg st op) := by
    cases op with
    | call f c => simp only [rstep, hop f c rfl]
    | _ => rfl
  unfold robserve observe
  simp only [hr, obind, hs, hlift, Res.bind_ok]
  rw [step_lift cfg st op (cppOnly hP hlen hlift) (fun f c hf e => looks_none (hop f c hf) e)]
  cases step cfg st op with
  | ok r => obtain ⟨a, b⟩ := r; rfl
  | ub => rfl
  | exit => rfl

/-! ### The check -/

theorem liveFns_map (cfg : Cfg) (past : List Op) {G : FnId → Exp → Exp} : liveFns cfg (past.map (liftOp G)) = liveFns cfg past := by
  unfold liveFns
  congr 2
  funext i
  exact loaded_map i past

/-- C83: a check succeeds exactly if no error is recorded and every function of a loaded file, with or without references, was
    called as often as it was expected. -/
theorem C83_check (hP : RefOk cfg P) (hr : rrun cfg P m0 past = some (.ok st)) (hlen : past.length + 1 < 2 ^ 32)
    (hfit : ∀ op ∈ past, FitsOp P op) : ∃ b, robserve cfg P m0 past .check = some (.ok (.verdict b)) ∧
      (b = true ↔ st.errs = [] ∧ ∀ f ∈ liveFns cfg past, (exps f past).length = calls f past) := by
  have hlift := rrun_lift hP (by omega) hfit hr
  obtain ⟨h, hl⟩ := run_sim (by simp; omega) hlift
  refine ⟨_, (C83_process hP hr (by omega) hfit .check (fun f c h => by cases h)).trans
    (congrArg some (observe_eq cfg m0 _ .check hl (by simpa using hlen) (fun h => by cases h))), ?_⟩
  have he : Spec.errs cfg m0 (past.map (liftOp (looks P))) = st.errs := h.errs.symm
  unfold verdict
  rw [he, liveFns_map]
  simp only [Bool.and_eq_true, List.isEmpty_iff, List.all_eq_true, beq_iff_eq, exps_map, calls_map, List.length_map]

/-! ### Values at the registration -/

/-- An operation which leaves the memory alone: nobody writes a variable, and a call has no output parameters. -/
def NoWrite : Op → Prop
  | .poke _ _ => False
  | .call _ c => c.outs = []
  | _ => True

theorem mem_noWrite (cfg : Cfg) (m0 : Mem) (before : List Op) : ∀ later : List Op, (∀ op ∈ later, NoWrite op) →
    Spec.mem cfg m0 (later ++ before) = Spec.mem cfg m0 before
  | [], _ => rfl
  | op :: later, h => by
    have ih := mem_noWrite cfg m0 before later (fun o ho => h o (List.mem_cons_of_mem _ ho))
    have h0 := h op List.mem_cons_self
    cases op with
    | poke a b => exact h0.elim
    | call f c =>
      simp only [List.cons_append, Spec.mem]
      have hc : c.outs = [] := h0
      cases cfg.fn? f with
      | none => exact ih
      | some fc =>
        simp only
        have : memCall cfg (later ++ before) (Spec.mem cfg m0 (later ++ before)) f fc c = some (Spec.mem cfg m0 (later ++ before)) := by
          unfold memCall
          cases serving f (later ++ before) with
          | none => rfl
          | some e =>
            simp only [hc, copies, zip3, List.zip_nil_right, List.filterMap_nil, copyAll, ite_self]
        rw [this]
        exact ih
    | _ => exact ih

theorem noWrite_lift {G : FnId → Exp → Exp} {op : Op} (h : NoWrite op) : NoWrite (liftOp G op) := by
  cases op <;> exact h

theorem rrun_mem (hP : RefOk cfg P) {later before : List Op} {st0 : State} (hlen : (later ++ before).length < 2 ^ 32)
    (hfit : ∀ op ∈ later ++ before, FitsOp P op) (hr : rrun cfg P m0 (later ++ before) = some (.ok st))
    (h0 : rrun cfg P m0 before = some (.ok st0)) (hnw : ∀ op ∈ later, NoWrite op) : st.mem = st0.mem := by
  simp only [List.length_append] at hlen
  obtain ⟨a, -⟩ := run_sim (by simp; omega) (rrun_lift hP (by simp; omega) hfit hr)
  obtain ⟨b, -⟩ := run_sim (by simp; omega) (rrun_lift hP (past := before) (by omega) (fun o ho => hfit o (List.mem_append_right _ ho)) h0)
  have e1 : st.mem = _ := a.mem
  have e2 : st0.mem = _ := b.mem
  rw [e1, e2, List.map_append]
  apply mem_noWrite
  intro op hop
  obtain ⟨o, ho, rfl⟩ := List.mem_map.mp hop
  exact noWrite_lift (hnw o ho)

/-- C83 (partial: nobody writes a variable between the registration and the call, and the calls in between have no output
    parameters). The arguments of the call are compared with the values which the objects named by the test had when the
    expectation was registered. Here for functions without outputs, no members of a class, with the order not checked. -/
theorem C83_registered_partial (hP : RefOk cfg P) {later before : List Op} {alloc : Bool} {st0 : State}
    (hr : rrun cfg P m0 (later ++ .expect f e alloc :: before) = some (.ok st))
    (h0 : rrun cfg P m0 before = some (.ok st0)) (hnw : ∀ op ∈ later, NoWrite op)
    (hlen : (later ++ .expect f e alloc :: before).length + 1 < 2 ^ 32)
    (hfit : ∀ op ∈ later ++ .expect f e alloc :: before, FitsOp P op) (hp : P f = some (s, pa))
    (hcls : s.cls = none) (houts : s.outs = []) (ho : st.order = false)
    (hld : loaded f.file (later ++ .expect f e alloc :: before) = true)
    (hc : CallFits s c) {k : Nat} (hk : calls f (later ++ .expect f e alloc :: before) = k)
    (hek : (exps f (later ++ .expect f e alloc :: before))[k]? = some e) (us vs : List Val)
    (hu : us.length = c.args.length) (hv : vs.length = c.args.length)
    (hus : ∀ (j : Nat) (a u : Val), c.args[j]? = some a → us[j]? = some u → StandsFor st.mem (pa.params[j]?).join a u)
    (hvs : ∀ (j : Nat) (p : ParamExp) (v : Val), e.params[j]? = some p → vs[j]? = some v →
      StandsFor st0.mem (pa.params[j]?).join p.value v) :
    ∃ st', rstep cfg P st (.call f c) = some (.ok (st', .ret (if s.hasReturn then some e.ret else none))) ∧ st'.mem = st.mem ∧
      st'.errs = st.errs ++
        (matchErrs st.mem (zip3 s.params.names (List.zipWith (fun p v => ⟨v, p.matcher⟩) e.params vs) us)).map
          (fun m => ⟨.mismatch (k + 1) (mockSignature s) m, if cfg.backtrace = true ∧ st.print = true then some c.bt else none⟩) := by
  have hmem : st.mem = st0.mem := by
    have heq : later ++ .expect f e alloc :: before = (later ++ [.expect f e alloc]) ++ before := by simp
    rw [heq] at hr hfit hlen
    refine rrun_mem hP (by omega) hfit hr h0 ?_
    intro op hop
    rcases List.mem_append.mp hop with h | h
    · exact hnw op h
    · rw [List.mem_singleton.mp h]; exact trivial
  obtain ⟨cf, n, sizes, h1, h2, h3⟩ := hP.fn f s pa hp
  have := C83_kth_call hP hr hlen hfit hp cf n sizes h2 h3 hld hc hk hek us vs hu hv
    (fun j p a u v e1 e2 e3 e4 _ => ⟨hus j a u e2 e3, by rw [hmem]; exact hvs j p v e1 e4⟩)
  have hcp : copies (s.outs.zipIdx.map (fun x => if x.1.2.2.1 == .sized then none else sizes[x.2]?)) e.outs c.outs = [] := by
    rw [houts]; rfl
  rw [hcp, ho] at this
  simp only [Bool.false_eq_true, false_and, if_false, copyAll] at this
  obtain ⟨st', g1, g2, g3⟩ := this
  refine ⟨st', g1, g2, ?_⟩
  rw [g3]
  congr 1
  rw [if_neg (show ¬ (s.cls ≠ none ∧ e.inst ≠ 0 ∧ e.inst ≠ c.this) from fun h => h.1 hcls)]
  simp [List.map_map, Function.comp_def]

/-! ### Which parameters are references -/

/-- The type is a reference in the language: `T &`, `T &&`, or a typedef of one. -/
def RefInLanguage : Ty → Prop
  | .ref _ _ => True
  | .const _ t => RefInLanguage t
  | .tdef _ _ t => RefInLanguage t
  | _ => False

/-- The object behind a type which is a reference. -/
inductive Behind : Ty → Ty → Prop
  | ref (i : Bool) (u : Ty) : Behind (.ref i u) u
  | const {i : Bool} {t u : Ty} : Behind t u → Behind (.const i t) u
  | tdef {i : Bool} {n : String} {t u : Ty} : Behind t u → Behind (.tdef i n t) u

/-- The type of a parameter. -/
def paramAt : Params → Nat → Option Ty
  | .nil, _ => none
  | .cons _ t _ _, 0 => some t
  | .cons _ _ _ rest, i + 1 => paramAt rest i

theorem refSizes_at (size : Ty → Nat) : ∀ (ps : Params) (i : Nat), (refSizes size ps)[i]? = (paramAt ps i).map (refSize size)
  | .nil, _ => rfl
  | .cons _ _ _ _, 0 => rfl
  | .cons _ _ _ rest, i + 1 => by
    rw [refSizes, List.getElem?_cons_succ, refSizes_at size rest i]; rfl

theorem refSize_iff (size : Ty → Nat) (t : Ty) (htd : ∀ i x u, t ≠ .tdef i x u) (hcd : ∀ i j x u, t ≠ .const i (.tdef j x u))
    (hcc : ∀ i j u, t ≠ .const i (.const j u)) :
    ((refSize size t).isSome = true ↔ RefInLanguage t) ∧ ∀ u, Behind t u → refSize size t = some (size u) := by
  refine ⟨?_, ?_⟩
  · cases t with
    | tdef i x u => exact absurd rfl (htd i x u)
    | const i u =>
      cases u with
      | tdef j x u => exact absurd rfl (hcd i j x u)
      | const j u => exact absurd rfl (hcc i j u)
      | comp i k n f e w m => cases k <;> simp [refSize, unqualifyFuel, unqualifyLoop, unqualifyStep, attrs, RefInLanguage]
      | _ => simp [refSize, unqualifyFuel, unqualifyLoop, unqualifyStep, attrs, RefInLanguage]
    | comp i k n f e w m => cases k <;> simp [refSize, unqualifyFuel, unqualifyLoop, unqualifyStep, attrs, RefInLanguage]
    | _ => simp [refSize, unqualifyFuel, unqualifyLoop, unqualifyStep, attrs, RefInLanguage]
  · intro u h
    cases h with
    | ref i u => rfl
    | tdef h => exact absurd rfl (htd _ _ _)
    | const h =>
      cases h with
      | ref i u => rfl
      | const h => exact absurd rfl (hcc _ _ _)
      | tdef h => exact absurd rfl (hcd _ _ _ _)

/-- C83 (partial: no typedef of a reference, one `const`). The mock treats a parameter as a reference exactly if its type is
    one, and then compares objects of the size of what it refers to. -/
theorem C83_passing_partial (size : Ty → Nat) (dummy : Val) (ret : Ty) (ps : Params) (i : Nat) (t : Ty) (ht : paramAt ps i = some t)
    (htd : ∀ i x u, t ≠ .tdef i x u) (hcd : ∀ i j x u, t ≠ .const i (.tdef j x u)) (hcc : ∀ i j u, t ≠ .const i (.const j u)) :
    ((passingOf size dummy ret ps).isRef i = true ↔ RefInLanguage t) ∧
    ∀ u, Behind t u → (passingOf size dummy ret ps).params[i]? = some (some (size u)) := by
  have e : (passingOf size dummy ret ps).params[i]? = some (refSize size t) := by
    show (refSizes size ps)[i]? = _
    rw [refSizes_at, ht]; rfl
  obtain ⟨h1, h2⟩ := refSize_iff size t htd hcd hcc
  refine ⟨?_, fun u h => by rw [e, h2 u h]⟩
  unfold Passing.isRef
  rw [e]
  exact h1

/-- `void f(int a, S &b)`. -/
example : (passingOf (fun t => match t with | .comp .. => 8 | _ => 4) [] exInt
    (.cons "" exInt "a" (.cons "" (.ref false (.comp false .struct "S" .nil false false .nil)) "b" .nil))).params = [none, some 8] := rfl

/-- C83 is false for `typedef int &R; void f(R a);`: the parameter is no reference for the generator, and the data structure gets
    a member `R a` without an object to refer to. -/
theorem C83_refuted_typedef : RefInLanguage (.tdef false "R" (.ref false exInt)) ∧
    (passingOf (fun _ => 4) [] exInt (.cons "R" (.tdef false "R" (.ref false exInt)) "a" .nil)).isRef 0 = false ∧
    (passingOf (fun _ => 4) [] exInt (.cons "int &" (.ref false exInt) "a" .nil)).isRef 0 = true := ⟨trivial, rfl, rfl⟩

/-! ## C84 -/

/-- C84 (partial: no typedef of a reference). A mock has an object to refer to without an expectation exactly if it returns a
    reference. -/
theorem C84_passing_partial (size : Ty → Nat) (dummy : Val) (ret : Ty) (ps : Params)
    (htd : ∀ i x u, ret ≠ .tdef i x u) (hc : ∀ i u, ret ≠ .const i u) :
    (RefInLanguage ret → (passingOf size dummy ret ps).result = some dummy) ∧
    (¬ RefInLanguage ret → (passingOf size dummy ret ps).result = none) := by
  cases ret with
  | tdef i x u => exact absurd rfl (htd i x u)
  | const i u => exact absurd rfl (hc i u)
  | comp i k n f e w m => cases k <;> simp [passingOf, isReference, attrs, RefInLanguage]
  | _ => simp [passingOf, isReference, attrs, RefInLanguage]

example : (passingOf (fun _ => 4) [1, 2] (.ref false exInt) .nil).result = some [1, 2] ∧
    (passingOf (fun _ => 4) [1, 2] exInt .nil).result = none := ⟨rfl, rfl⟩

/-- C84: a call without an expectation of a function with references is reported; a function which returns a reference returns
    the reference to `dummyRes_f`. -/
theorem C84_unexpected (hP : RefOk cfg P) (hr : rrun cfg P m0 past = some (.ok st)) (hlen : past.length + 1 < 2 ^ 32)
    (hfit : ∀ op ∈ past, FitsOp P op) (hp : P f = some (s, pa)) (cf : Config) (n : Nat) (sizes : List Nat)
    (hs : sizes.length = s.outs.length) (hf : cfg.fn? f = some (fnCfg cf s n sizes)) (hld : loaded f.file past = true)
    (hc : CallFits s c) (hk : (exps f past).length ≤ calls f past) :
    ∃ st', rstep cfg P st (.call f c) = some (.ok (st', .ret (if s.hasReturn then some (match pa.result with
        | some d => d
        | none => List.replicate n 0) else none))) ∧ st'.mem = st.mem ∧
      st'.errs = st.errs ++ [⟨.unexpected (mockSignature s) (if s.hasReturn then some s.name else none),
        if cfg.backtrace = true ∧ st.print = true then some c.bt else none⟩] := by
  have hnm := hP.names f s pa hp
  have hlift := rrun_lift hP (by omega) hfit hr
  have hlds : st.loaded f.file = true := by rw [rrun_loaded hP hr (by omega) hfit]; exact hld
  have hser : serving f past = none := List.getElem?_eq_none hk
  obtain ⟨st', e1, e2⟩ := ref_unexpected (pa := pa) hlift hlen hnm.plain.namesOk cf n sizes hs hf hc hser
  obtain ⟨s2, h1, h2, h3, -⟩ := C02_unexpected_call hlift (by simpa using hlen) hf (by rw [loaded_map]; exact hld)
    (by rw [exps_map, calls_map]; simpa using hk) c
  have l8 : (lift (looks P) st).loaded f.file = true := hlds
  simp only [step, hf, l8, if_true, e1, Res.bind_ok, Res.ok.injEq, Prod.mk.injEq] at h1
  obtain ⟨rfl, -⟩ := h1
  refine ⟨st', ?_, h3, ?_⟩
  · rw [rstep_call hp hnm hf hlds, e2]
    simp only [obind, defaultRes, fnCfg]
    cases s.hasReturn
    · rfl
    · cases pa.result <;> rfl
  · have : st'.errs = _ := h2
    rw [this]
    have l4 : (lift (looks P) st).errs = st.errs := rfl
    have l5 : (lift (looks P) st).print = st.print := rfl
    rw [l4, l5]
    congr 3
    simp only [fnCfg]
    cases s.hasReturn <;> rfl

/-- C84 (partial: in the whole process nobody writes a variable and no call has output parameters). What a call without an
    expectation returns refers to zeros, if the variable `dummyRes_f` starts with zeros. -/
theorem C84_zero_partial (hP : RefOk cfg P) (hr : rrun cfg P m0 past = some (.ok st)) (hlen : past.length + 1 < 2 ^ 32)
    (hfit : ∀ op ∈ past, FitsOp P op) (hp : P f = some (s, pa)) (cf : Config) (n : Nat) (sizes : List Nat)
    (hs : sizes.length = s.outs.length) (hf : cfg.fn? f = some (fnCfg cf s n sizes)) (hld : loaded f.file past = true)
    (hc : CallFits s c) (hk : (exps f past).length ≤ calls f past) {d : Val} (hd : pa.result = some d) (hret : s.hasReturn = true)
    {w : Nat} (hz : StandsFor m0 (some w) d (List.replicate w 0)) (hnw : ∀ op ∈ past, NoWrite op) :
    ∃ st', rstep cfg P st (.call f c) = some (.ok (st', .ret (some d))) ∧ StandsFor st'.mem (some w) d (List.replicate w 0) := by
  obtain ⟨st', h1, h2, -⟩ := C84_unexpected hP hr hlen hfit hp cf n sizes hs hf hld hc hk
  rw [hret, hd] at h1
  have hmem : st.mem = (State.initial cfg m0).mem :=
    rrun_mem hP (later := past) (before := []) (by simpa using (by omega : past.length < 2 ^ 32)) (by simpa using hfit)
      (by simpa using hr) rfl hnw
  refine ⟨st', h1, ?_⟩
  rw [h2, hmem]
  exact hz

/-! ## C66 for functions with references -/

/-- C66 (partial: plain names, lists of parameters without an empty entry). The Expect functions of a function with references
    record every value given by the test; for a reference parameter and a reference result that is the reference. -/
theorem C66_references_partial (hn : RefNames s) (hl : ListsOk s) (hf : Fits s e) (ps : Passing) :
    (refExpectAndReturn ps s (shortVals s e) = runExpectAndReturn s (shortVals s e)) ∧
    (∃ d, refExpectAndReturn ps s (shortVals s e) = some d ∧ Records s d { e with outs := s.outs.map (fun _ => ⟨0, 0⟩) }) ∧
    (s.outs ≠ [] → ∃ d, refExpectReturnAndOutput ps s (longVals s e) = some d ∧ Records s d e) := by
  unfold refExpectAndReturn refExpectReturnAndOutput
  rw [if_pos (C62_references hn ps), if_pos (C62_references hn ps)]
  refine ⟨rfl, ?_, fun ho => ?_⟩
  · exact C66_no_output_partial hn.plain hl hf
  · exact C66_output_partial hn.plain hl hf ho

end

/-! ## Examples and refutations -/

namespace RefEx

def char : Ty := .ctype .char false false

/-- `void f(char &a);` -/
def params : Params := .cons "char &" (.ref false char) "a" .nil

def sec : FunSection := (funSection { cpp := true } 0
  { info := { name := "f" }, retStr := "void", ret := .ctype .void false false, params := params }).1

/-- `char &g();` -/
def gsec : FunSection := (funSection { cpp := true } 0
  { info := { name := "g" }, retStr := "char &", ret := .ref false char, params := .nil }).1

def cfg : Cfg := { files := [[fnCfg { cpp := true } sec 0 [], fnCfg { cpp := true } gsec 8 []]] }

def pass : Passing := passingOf (fun _ => 1) [] (.ctype .void false false) params

/-- `dummyRes_g` is at address 90. -/
def gpass : Passing := passingOf (fun _ => 1) [90] (.ref false char) .nil

def fns : RefFns := fun f => if f = ⟨0, 0⟩ then some (sec, pass) else if f = ⟨0, 1⟩ then some (gsec, gpass) else none

/-- Every variable contains 7, `dummyRes_g` contains 0. -/
def m0 : Mem := fun a => if a = 90 then some 0 else if 0 < a ∧ a < 90 then some 7 else none

/-- `f_ExpectAndReturn(x, cmp)` for the variable `x` at address 10. -/
def exp : Exp := { params := [⟨[10], some Ex.eqM⟩] }

/-- `f(y)` for the variable `y` at address 20. -/
def call : Call := { args := [[20]], bt := "bt" }

def base : List Op := [.expect ⟨0, 0⟩ exp true, .load 0]

def errsAfter (past : List Op) : Option (List ErrKind) :=
  match rrun cfg fns m0 past with
  | some (.ok st) => some (st.errs.map (·.kind))
  | _ => none

def byteAfter (past : List Op) (a : Addr) : Option UInt8 :=
  match rrun cfg fns m0 past with
  | some (.ok st) => st.mem a
  | _ => none

theorem names : RefNames sec ∧ RefNames gsec := by
  have h1 : sec.params.names = ["a"] := by decide +kernel
  have h2 : gsec.params.names = [] := by decide +kernel
  have c1 : sec.cls = none := by decide +kernel
  have c2 : gsec.cls = none := by decide +kernel
  refine ⟨⟨⟨?_, ?_, ?_, ?_, fun h => absurd c1 h, (fun c h => by rw [c1] at h; cases h), ?_⟩, ?_, (fun c h => by rw [c1] at h; cases h)⟩,
    ⟨⟨?_, ?_, ?_, ?_, fun h => absurd c2 h, (fun c h => by rw [c2] at h; cases h), ?_⟩, ?_, (fun c h => by rw [c2] at h; cases h)⟩⟩
  · decide +kernel
  · rw [h1]; decide +kernel
  · rw [h1]
    intro n hn
    refine ⟨Ex.not_startsWith ?_, Ex.not_startsWith ?_, Ex.not_startsWith ?_⟩ <;> (revert n; decide +kernel)
  · decide +kernel
  · rw [h1]; decide +kernel
  · rw [h1]
    intro n hn
    refine Ex.not_startsWith ?_
    revert n; decide +kernel
  · decide +kernel
  · rw [h2]; simp
  · rw [h2]; simp
  · rw [h2]; simp
  · rw [h2]; simp
  · rw [h2]; simp

theorem ok : RefOk cfg fns := by
  constructor
  · intro f s pa h
    unfold fns at h
    split at h
    · cases h; exact names.1
    · split at h
      · cases h; exact names.2
      · cases h
  · intro f s pa h
    unfold fns at h
    split at h
    · rename_i hf
      cases h
      exact ⟨{ cpp := true }, 0, [], rfl, by decide +kernel, by rw [hf]; rfl⟩
    · split at h
      · rename_i hf
        cases h
        exact ⟨{ cpp := true }, 8, [], rfl, by decide +kernel, by rw [hf]; rfl⟩
      · cases h

theorem fits : ∀ op ∈ base, FitsOp fns op := by
  intro op hop
  simp only [base, List.mem_cons, List.not_mem_nil, or_false] at hop
  rcases hop with rfl | rfl
  · intro s pa h
    cases h
    exact ⟨by decide +kernel, by decide +kernel⟩
  · exact trivial

/-- The hypotheses of C83 hold for the call `f(y)`; it passes. -/
example : ∃ st, rrun cfg fns m0 base = some (.ok st) ∧ fns ⟨0, 0⟩ = some (sec, pass) ∧ loaded 0 base = true ∧ CallFits sec call ∧
    (exps ⟨0, 0⟩ base)[calls ⟨0, 0⟩ base]? = some exp ∧ StandsFor st.mem (pass.params[0]?).join [20] [7] ∧
    StandsFor st.mem (pass.params[0]?).join [10] [7] ∧ errsAfter (.call ⟨0, 0⟩ call :: base) = some [] := by
  have hs : ∀ st, rrun cfg fns m0 base = some (.ok st) → st.mem = m0 := by
    intro st h
    exact rrun_mem ok (later := base) (before := []) (by decide) fits h rfl (by
      intro op hop
      simp only [base, List.mem_cons, List.not_mem_nil, or_false] at hop
      rcases hop with rfl | rfl <;> exact trivial)
  refine ⟨_, rfl, rfl, rfl, ⟨by decide +kernel, by decide +kernel⟩, rfl, ?_, ?_, by decide +kernel⟩
  · rw [hs _ rfl]
    refine ⟨rfl, fun k hk => ?_⟩
    match k, hk with
    | 0, _ => decide +kernel
  · rw [hs _ rfl]
    refine ⟨rfl, fun k hk => ?_⟩
    match k, hk with
    | 0, _ => decide +kernel

/-- The call with another value is reported. -/
example : errsAfter [.call ⟨0, 0⟩ call, .poke 20 8, .expect ⟨0, 0⟩ exp true, .load 0] =
    some [.mismatch 1 "void f(char & a)" "a"] := by decide +kernel

/-- The members of the structure of `f` and of `g`. -/
example : refMembers pass sec = ["default_a", "a", "_f_match_a"] ∧
    refMembers gpass gsec = ["default__g_returnValue", "_g_returnValue"] := by decide +kernel

/-- A call of `g` which is expected gives the reference named by the test. -/
example : robserve cfg fns m0 [.expect ⟨0, 1⟩ { ret := [30] } true, .load 0] (.call ⟨0, 1⟩ {}) = some (.ok (.ret (some [30]))) := by
  rfl

/-- The hypotheses of C84 hold. -/
example : ∃ st, rrun cfg fns m0 [.load 0] = some (.ok st) ∧ (exps ⟨0, 1⟩ [.load 0]).length ≤ calls ⟨0, 1⟩ [.load 0] ∧
    gpass.result = some [90] ∧ gsec.hasReturn = true ∧ StandsFor m0 (some 1) [90] (List.replicate 1 0) ∧
    (∀ op ∈ [Op.load 0], NoWrite op) := by
  refine ⟨_, rfl, by decide, by decide +kernel, by decide +kernel, ⟨rfl, fun k hk => ?_⟩, by
    intro op hop; rw [List.mem_singleton.mp hop]; exact trivial⟩
  match k, hk with
  | 0, _ => decide +kernel

end RefEx

/-- C62 is false for `void f(char &a, char default_a)`: two members of the data structure are called `default_a`. -/
theorem C62_refuted_default : ∃ s : FunSection, PlainNames s ∧ s.params.names = ["a", "default_a"] ∧
    ¬ (refMembers { params := [some 1, none] } s).Nodup ∧ (dataMembers s).Nodup := by
  refine ⟨{ RefEx.sec with params := .cons "char &" "a" .none .none (.cons "char" "default_a" .none .none .nil) }, ?_, by decide +kernel,
    by decide +kernel, by decide +kernel⟩
  refine ⟨by decide +kernel, by decide +kernel, ?_, by decide +kernel, fun h => absurd rfl h, (fun c h => by cases h), by decide +kernel⟩
  intro n hn
  refine ⟨Ex.not_startsWith ?_, Ex.not_startsWith ?_, Ex.not_startsWith ?_⟩ <;> (revert n; decide +kernel)

/-- C83 is false for a test which changes the variable between the registration and the call: `f(y)` is reported although `y` has
    the value which `x` had when the expectation was registered, and passes with the new value of `x`. -/
theorem C83_refuted_capture :
    RefEx.m0 10 = some 7 ∧
    RefEx.byteAfter (.poke 10 8 :: RefEx.base) 20 = some 7 ∧
    RefEx.errsAfter (.call ⟨0, 0⟩ RefEx.call :: .poke 10 8 :: RefEx.base) = some [.mismatch 1 "void f(char & a)" "a"] ∧
    RefEx.errsAfter (.call ⟨0, 0⟩ RefEx.call :: .poke 20 8 :: .poke 10 8 :: RefEx.base) = some [] := by
  decide +kernel

/-- C83 is false for `void f(const char &a)` and `f_ExpectAndReturn('x', cmp)`: the temporary does not exist any more when the
    mock compares it (address 100). -/
theorem C83_refuted_temporary :
    RefEx.m0 100 = none ∧
    robserve RefEx.cfg RefEx.fns RefEx.m0 [.expect ⟨0, 0⟩ { RefEx.exp with params := [⟨[100], some Ex.eqM⟩] } true, .load 0]
      (.call ⟨0, 0⟩ RefEx.call) = some .ub := ⟨rfl, rfl⟩

/-- C84 is false if the code under test writes to what an unexpected call returned: the next unexpected call, even after
    `easyMock_init`, gives a reference to that value and no zero. -/
theorem C84_refuted_written :
    robserve RefEx.cfg RefEx.fns RefEx.m0 [.init, .poke 90 1, .call ⟨0, 1⟩ {}, .load 0] (.call ⟨0, 1⟩ {}) =
      some (.ok (.ret (some [90]))) ∧
    RefEx.byteAfter [.init, .poke 90 1, .call ⟨0, 1⟩ {}, .load 0] 90 = some 1 ∧
    RefEx.byteAfter [.load 0] 90 = some 0 := by
  refine ⟨rfl, ?_, ?_⟩ <;> decide +kernel

end EasyMock.MockCode
