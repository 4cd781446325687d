import Verif.CFile.Bodies
import Verif.Gen.Lemmas2

/-! # CFile: the bodies of the Expect functions and of the comparators -/

namespace EasyMock.CFile

open EasyMock.Gen

variable {c : Config} {f : SrcFun}

/-! ## The Expect functions -/

/-- A text of identifiers, commas and blanks. -/
def Flat (t : String) : Prop := ∀ x ∈ t.toList, identChar x = true ∨ x = ',' ∨ x = ' '

theorem Flat.append {a b : String} (ha : Flat a) (hb : Flat b) : Flat (a ++ b) := by
  intro x hx
  rw [String.toList_append, List.mem_append] at hx
  exact hx.elim (ha x) (hb x)

theorem Flat.ident {t : String} (h : Ident t.toList) : Flat t := fun x hx => Or.inl (h.2 x hx)

theorem flat_empty : Flat "" := by unfold Flat; decide +kernel
theorem flat_comma : Flat ", " := by unfold Flat; decide +kernel

theorem Flat.ite {b : Bool} {t u : String} (ht : Flat t) (hu : Flat u) : Flat (if b then t else u) := by
  cases b
  · exact hu
  · exact ht

theorem Flat.join : ∀ {l : List String}, (∀ t ∈ l, Flat t) → Flat (String.join l)
  | [], _ => flat_empty
  | t :: l, h => by
    rw [join_cons]
    exact (h t (by simp)).append (Flat.join (fun x hx => h x (by simp [hx])))

theorem Flat.expand {α : Type} {g : α → String} : ∀ {l : List α}, (∀ x ∈ l, Flat (g x)) → Flat (expandSep g ", " l)
  | [], _ => flat_empty
  | [x], h => h x (by simp)
  | x :: y :: l, h => by
    unfold expandSep
    exact ((h x (by simp)).append flat_comma).append (Flat.expand (fun z hz => h z (by simp [hz])))

theorem flat_instance (s : FunSection) : Flat (instanceText s (fun _ => "instance")) := by
  unfold instanceText
  cases s.cls with
  | none => exact flat_empty
  | some k =>
    have hi : Flat "instance" := by unfold Flat; decide +kernel
    refine Flat.append hi (Flat.join ?_)
    intro t ht
    obtain ⟨_, _, rfl⟩ := List.mem_map.mp ht
    exact flat_comma

theorem flat_common (h : SrcOk c f) : Flat (commonArgs f.sec) := by
  have h1 : Flat (commaIfParams f.sec) := by
    unfold commaIfParams
    exact Flat.ite flat_empty flat_comma
  unfold commonArgs
  refine (Flat.append (Flat.expand fun e he => Flat.ident (h.names e he)) ?_ |>.append h1).append (Flat.expand fun e he => ?_)
  · exact Flat.ite (h1.append (by unfold Flat; decide +kernel)) flat_empty
  · exact Flat.append (by unfold Flat; decide +kernel) (Flat.ident (h.names e he))

theorem flat_calls (h : SrcOk c f) : Flat (expectCall f.sec) ∧ Flat (expectOutputCall f.sec) := by
  have h1 : Flat (commaIfOuts f.sec) := by
    unfold commaIfOuts
    exact Flat.ite flat_empty flat_comma
  have h2 := ((flat_instance f.sec).append (flat_common h)).append h1
  unfold expectCall expectOutputCall
  constructor
  · refine h2.append (Flat.expand fun e he => Flat.append (by unfold Flat; decide +kernel) (Flat.ite ?_ flat_empty))
    unfold Flat; decide +kernel
  · refine h2.append (Flat.expand fun e he => ?_)
    have hn := Flat.ident (h.names e (outs_mem he))
    have ho : Flat "out_" := by unfold Flat; decide +kernel
    exact (ho.append hn).append (Flat.ite (((flat_comma.append ho).append hn).append (by unfold Flat; decide +kernel)) flat_empty)

theorem flat_char {x : Char} (h : identChar x = true ∨ x = ',' ∨ x = ' ') :
    plainChar x = true ∧ ¬(x = '(' ∨ x = '[') ∧ ¬(x = ')' ∨ x = ']') := by
  rcases h with h | rfl | rfl
  · exact ⟨ident_plain h, ident_bracket h⟩
  · decide
  · decide

theorem flat_nests : ∀ {t : List Char} (_ : ∀ x ∈ t, identChar x = true ∨ x = ',' ∨ x = ' ') (d : Nat), nests d t = (d == 0)
  | [], _, d => rfl
  | x :: t, h, d => by
    have hx := flat_char (h x (by simp))
    simp only [nests, hx.2.1, hx.2.2, if_false]
    exact flat_nests (fun y hy => h y (by simp [hy])) d

/-- A text in brackets behaves like the brackets alone. -/
theorem bracket_sim {t : List Char} (hp : ∀ x ∈ t, plainChar x = true) (hn : nests 0 t = true) :
    Sim (['('] ++ t ++ [')']) ['(', ')'] := by
  refine ⟨fun s => ?_, by simp, ?_, ?_, ?_⟩
  · have key : ∀ s', (Ctl.step s '(' = some s') → t.foldlM Ctl.step s' = some s' := by
      intro s' hs
      obtain ⟨m, D, b⟩ := s
      cases m with
      | str =>
        have e : Ctl.step ⟨.str, D, b⟩ '(' = some ⟨.str, D, b⟩ := rfl
        rw [e] at hs; cases hs
        exact inert_str _ rfl t hp
      | code =>
        have e : Ctl.step ⟨.code, D, b⟩ '(' = some ⟨.code, D + 1, b⟩ := rfl
        rw [e] at hs; cases hs
        exact inert_code (D + 1) b t 0 hp hn
      | slash =>
        have e : Ctl.step ⟨.slash, D, b⟩ '(' = some ⟨.code, D + 1, b⟩ := rfl
        rw [e] at hs; cases hs
        exact inert_code (D + 1) b t 0 hp hn
    rw [List.append_assoc, List.singleton_append, List.foldlM_cons, List.foldlM_cons]
    cases hs : Ctl.step s '(' with
    | none => rfl
    | some s' =>
      rw [bind_some_eq, bind_some_eq, List.foldlM_append, key s' hs, bind_some_eq]
  · intro x hx d hd hg
    simp only [List.cons_append, List.head?_cons, Option.mem_def, Option.some.injEq] at hx hd
    subst hx; subst hd; exact hg
  · intro x hx d hd hg
    rw [last_append (by simp)] at hx
    simp only [List.getLast?_singleton, Option.mem_def, Option.some.injEq] at hx
    subst hx; decide
  · have h1 : '{' ∉ t := fun h => absurd (hp _ h) (by decide)
    simp [h1]

theorem call_ok {name args : String} (hn : Ident name.toList) (ha : Flat args) : BodyOk [line (name ++ "(" ++ args ++ ")")] := by
  have h1 := hn.sim
  have h2 : Sim ("(" ++ args ++ ")").toList ['(', ')'] := by
    have e1 : "(".toList = ['('] := by decide +kernel
    have e2 : ")".toList = [')'] := by decide +kernel
    rw [String.toList_append, String.toList_append, e1, e2]
    exact bracket_sim (fun x hx => (flat_char (ha x hx)).1) (flat_nests ha 0)
  have e : name ++ "(" ++ args ++ ")" = name ++ ("(" ++ args ++ ")") := by simp only [sassoc]
  rw [e]
  refine bodyOk _ (ok_cons (lineOk_stmt (h1.str h2) (by decide +kernel)) ok_nil) rfl

theorem SrcOk.common (h : SrcOk c f) : Ident (commonName f.sec).toList := h.base.name.append (by decide +kernel)

theorem expect_ok (h : SrcOk c f) : BodyOk [line (commonName f.sec ++ "(" ++ expectCall f.sec ++ ")")] :=
  call_ok h.common (flat_calls h).1

theorem expectOutput_ok (h : SrcOk c f) : BodyOk [line (commonName f.sec ++ "(" ++ expectOutputCall f.sec ++ ")")] :=
  call_ok h.common (flat_calls h).2

/-! ## The comparators -/

/-- The texts of the check of a field. -/
structure CheckOk (k : StructCmp.Check) : Prop where
  field : Ident k.field.toList
  neq : ∀ owner format cast, k.action = .neq owner format cast →
    (owner = "" ∨ Inert owner.toList) ∧ (∀ t ∈ format, TypeText t.toList) ∧ (∀ t ∈ cast, TypeText t.toList)
  call : ∀ name, k.action = .call name → Ident name.toList

/-- The texts of a comparator. -/
structure CmpOk (k : SrcCmp) : Prop where
  name : Ident k.cmp.name.toList
  article : Inert k.cmp.article.toList
  type : TypeText k.type.toList
  checks : ∀ x ∈ k.cmp.checks, CheckOk x
  inner : k.inner = "" ∨ InnerText k.inner.toList

theorem getD_sim {t : Option String} (h : ∀ x ∈ t, TypeText x.toList) : ∃ u, Sim (t.getD "").toList u ∧ (u = ['x'] ∨ u = []) := by
  cases t with
  | none => exact ⟨[], Sim.lit [], Or.inr rfl⟩
  | some x => exact ⟨['x'], (h x rfl).sim, Or.inl rfl⟩

theorem cast_sim {t : Option String} (h : ∀ x ∈ t, TypeText x.toList) :
    ∃ u, Sim (castText t).toList u ∧ (u = ['(', 'x', ')'] ∨ u = []) := by
  cases t with
  | none => exact ⟨[], Sim.lit [], Or.inr rfl⟩
  | some x =>
    have e1 : "(".toList = ['('] := by decide +kernel
    have e2 : ")".toList = [')'] := by decide +kernel
    refine ⟨['(', 'x', ')'], ?_, Or.inl rfl⟩
    have h1 := (Sim.lit ['(']).append (h x rfl).sim
    have h2 := h1.append (Sim.lit [')'])
    unfold castText
    simp only [String.toList_append, e1, e2]
    exact h2

theorem owner_sim {t : String} (h : t = "" ∨ Inert t.toList) : ∃ u, Sim t.toList u ∧ (u = [' ', 'x'] ∨ u = []) := by
  rcases h with rfl | h
  · exact ⟨[], Sim.lit [], Or.inr rfl⟩
  · exact ⟨_, h.sim, Or.inl rfl⟩

theorem message_ok {article : String} {k : StructCmp.Check} (ha : Inert article.toList) (h : CheckOk k) : BodyOk (messageLines article k) := by
  unfold messageLines
  cases hk : k.action with
  | call n => exact BodyOk.nil
  | neq owner format cast =>
    obtain ⟨h1, h2, h3⟩ := h.neq _ _ _ hk
    have s0 := ha.sim
    obtain ⟨w, s1, hw⟩ := owner_sim h1
    have s4 := h.field.sim
    obtain ⟨u, s2, hu⟩ := getD_sim h2
    obtain ⟨v, s3, hv⟩ := cast_sim h3
    simp only
    generalize format.getD "" = F at s2 ⊢
    cases k.array with
    | true =>
      simp only [if_true]
      rcases hw with rfl | rfl <;> rcases hu with rfl | rfl <;> refine bodyOk _ ?_ rfl <;> each_line
    | false =>
      simp only [Bool.false_eq_true, if_false]
      generalize castText cast = C at s3 ⊢
      rcases hw with rfl | rfl <;> rcases hu with rfl | rfl <;> rcases hv with rfl | rfl <;> refine bodyOk _ ?_ rfl <;> each_line

theorem preIf_ok {k : StructCmp.Check} (h : CheckOk k) : BodyOk (preIfLines k) := by
  have s1 := h.field.sim
  unfold preIfLines
  cases k.action with
  | neq _ _ _ => exact BodyOk.nil
  | call n => refine bodyOk _ ?_ rfl; each_line

theorem condition_ok {k : StructCmp.Check} (h : CheckOk k) : LineOk (.enter ("if(" ++ conditionText k ++ ")")) := by
  have s1 := h.field.sim
  unfold conditionText fieldText
  cases hk : k.action with
  | neq _ _ _ =>
    simp only
    cases k.array with
    | true => simp only [if_true]; each_line
    | false => simp only [Bool.false_eq_true, if_false]; each_line
  | call n =>
    have s2 := (h.call n hk).sim
    simp only
    cases k.array with
    | true => simp only [if_true]; each_line
    | false => simp only [Bool.false_eq_true, if_false]; each_line

theorem closes_more : ∀ (L : List Line) (n k j : Nat), closes n L = some k → closes (n + j) L = some (k + j)
  | [], n, k, j, h => by simp only [closes, Option.some.injEq] at h ⊢; omega
  | .stmt _ _ :: L, n, k, j, h => closes_more L n k j h
  | .enter _ :: L, n, k, j, h => by
    have := closes_more L (n + 1) k j h
    rw [show n + 1 + j = n + j + 1 by omega] at this
    exact this
  | .leave :: L, 0, k, j, h => by cases h
  | .leave :: L, n + 1, k, j, h => by
    have := closes_more L n k j h
    rw [show n + 1 + j = n + j + 1 by omega]
    exact this
  | .comment _ :: L, n, k, j, h => by simp only [closes] at h ⊢; exact closes_more L n k j h
  | .blanks :: L, n, k, j, h => by simp only [closes] at h ⊢; exact closes_more L n k j h
  | .empty :: L, n, k, j, h => by simp only [closes] at h ⊢; exact closes_more L n k j h
  | .decl _ :: L, n, k, j, h => by simp only [closes] at h ⊢; exact closes_more L n k j h

/-- A block around lines which are in order. -/
theorem BodyOk.block {t : String} {L : List Line} (ht : LineOk (.enter t)) (h : BodyOk L) : BodyOk ([.enter t] ++ L ++ [.leave]) := by
  refine ⟨?_, ?_⟩
  · intro x hx
    rw [List.append_assoc, List.mem_append, List.mem_append, List.mem_singleton, List.mem_singleton] at hx
    rcases hx with rfl | hx | rfl
    · exact ht
    · exact h.lines x hx
    · trivial
  · have h1 := closes_more L 0 0 1 h.closed
    rw [List.append_assoc, closes_append]
    show (closes 1 (L ++ [.leave])) = _
    rw [closes_append, h1]
    rfl

theorem field_ok {article : String} {k : StructCmp.Check} (ha : Inert article.toList) (h : CheckOk k) : BodyOk (fieldLines article k) := by
  have s1 := h.field.sim
  have h1 := BodyOk.block (condition_ok h) ((message_ok ha h).append (bodyOk [line "return -1"] (by each_line) rfl))
  have h2 := (preIf_ok h).append h1
  unfold fieldLines
  cases k.array with
  | false => simpa [List.append_assoc] using h2
  | true =>
    have hh : LineOk (Line.enter ("for(unsigned int idx = 0; idx < (sizeof(currentCall_val->" ++ k.field ++
        ")/sizeof(currentCall_val->" ++ k.field ++ "[0])); idx++)")) := by each_line
    have h3 := BodyOk.block hh h2
    simpa [List.append_assoc] using h3

theorem cmp_ok {k : SrcCmp} (h : CmpOk k) : BodyOk (cmpLines k) := by
  have s1 := h.type.sim
  unfold cmpLines
  refine BodyOk.append (BodyOk.append (BodyOk.append ?_ ?_) ?_) (bodyOk _ (by each_line) rfl)
  · have h0 : BodyOk [line "(void)currentCall_ptr", line "(void)expectedCall_ptr", line "(void)paramName", line "(void)errorMessage",
        .comment "Start COMPOSABLE_TYPE_DECLARE_COMPOSABLE_TYPE_SECTION"] := by
      refine bodyOk _ ?_ rfl
      each_line
      all_goals exact ⟨by decide +kernel, by decide +kernel⟩
    have h2 : BodyOk [.comment "End COMPOSABLE_TYPE_DECLARE_COMPOSABLE_TYPE_SECTION",
        line (k.type ++ " *currentCall_val = (" ++ k.type ++ " *)currentCall_ptr"), line "(void)currentCall_val",
        line (k.type ++ " *expectedCall_val = (" ++ k.type ++ " *)expectedCall_ptr"), line "(void)expectedCall_val"] := by
      refine bodyOk _ ?_ rfl
      each_line
      all_goals exact ⟨by decide +kernel, by decide +kernel⟩
    have h1 : BodyOk [if k.inner = "" then .blanks else .decl k.inner] := by
      by_cases hi : k.inner = ""
      · rw [if_pos hi]; exact ⟨by simp [LineOk], rfl⟩
      · rw [if_neg hi]
        refine ⟨fun x hx => ?_, rfl⟩
        rw [List.mem_singleton] at hx
        subst hx
        exact h.inner.resolve_left hi
    exact (h0.append h1).append h2
  · refine BodyOk.flatten fun L hL => ?_
    obtain ⟨x, hx, rfl⟩ := List.mem_map.mp hL
    exact field_ok h.article (h.checks x (List.mem_filter.mp hx).1)
  · refine BodyOk.flatten fun L hL => ?_
    obtain ⟨x, hx, rfl⟩ := List.mem_map.mp hL
    exact field_ok h.article (h.checks x (List.mem_filter.mp hx).1)

theorem cmpDeref_ok {k : SrcCmp} (h : CmpOk k) : BodyOk (cmpDerefLines k) := by
  have s1 := h.type.sim
  have s2 := h.name.sim
  unfold cmpDerefLines
  refine bodyOk _ ?_ rfl
  each_line

end EasyMock.CFile
