import Verif.CDecl.CppSpec
import Verif.CDecl.Lists

/-! # CDecl: lists of parameters in C++ -/

namespace EasyMock.CDecl

/-! ## The brackets of a declaration -/

/-- The grouping parentheses among operators. -/
def oc (l : List Op) : Nat := l.count .open

/-- The parentheses which are open in a phase. -/
def pd : Phase → Nat
  | .spec _ => 0
  | .pend _ => 1
  | .ops _ l | .suffix _ _ l _ => oc l

/-- The parentheses which are open around it. -/
def sd : List Susp → Nat
  | [] => 0
  | s :: stk => 1 + oc s.l + sd stk

/-- All parentheses which are open. -/
def depth (s : Phase × List Susp) : Nat := pd s.1 + sd s.2

/-- What a token does to the parentheses. -/
def shifts (t : Tok) (a b : Nat) : Prop :=
  match t with
  | .word _ | .star | .amp => b = a
  | .open => b = a + 1
  | .close => a = b + 1
  | .comma => b = a ∧ 0 < a
  | .bad => False

theorem finish_suffix {n : List Char} {ws : List (List Char)} {l : List Op} {ls : List Layer} {r : List Char × Sem}
    (h : finish (.suffix n ws l ls) = some r) : oc l = 0 := by
  simp only [finish] at h
  split at h
  · cases h
  · rename_i hl
    exact List.count_eq_zero.2 hl

theorem endParams_depth {p p' : Phase} {s : Susp} (h : endParams p s = some p') : pd p' = oc s.l := by
  unfold endParams at h
  split at h
  · cases h; rfl
  · cases h; rfl
  · split at h
    · cases h
    · cases h; rfl

theorem inSpec_depth {ws : List (List Char)} {stk : List Susp} {t : Tok} {s' : Phase × List Susp} (h : inSpec ws stk t = some s') :
    shifts t (sd stk) (depth s') := by
  cases t with
  | word w => cases h; simp [shifts, depth, pd]
  | star => cases h; simp [shifts, depth, pd, oc]
  | amp => cases h; simp [shifts, depth, pd, oc]
  | «open» => cases h; simp [shifts, depth, pd]; omega
  | comma =>
    simp only [inSpec] at h
    split at h
    · cases h; simp [shifts, depth, pd, sd]; omega
    · cases h
  | close =>
    simp only [inSpec] at h
    split at h
    · rename_i s stk
      cases he : endParams (.spec ws) s with
      | none => rw [he] at h; cases h
      | some p => rw [he] at h; cases h; simp [shifts, depth, endParams_depth he, sd]; omega
    · cases h
  | bad => cases h

theorem oc_close {l : List Op} (h : .open ∈ l) : oc l = oc ((l.dropWhile (· ≠ .open)).drop 1) + 1 := by
  induction l with
  | nil => cases h
  | cons o l ih =>
    by_cases ho : o = .open
    · subst ho; simp [oc]
    · have : .open ∈ l := by
        rcases List.mem_cons.1 h with h | h
        · exact absurd h.symm ho
        · exact h
      rw [List.dropWhile_cons_of_pos (by simpa using ho), ← ih this]
      unfold oc
      rw [List.count_cons_of_ne (by simpa using ho)]

theorem step_depth {s s' : Phase × List Susp} {t : Tok} (h : step (some s) t = some s') : shifts t (depth s) (depth s') := by
  obtain ⟨p, stk⟩ := s
  cases p with
  | spec ws => simpa [depth, pd] using inSpec_depth h
  | pend ws =>
    have key : ∀ t, (match ws.getLast? with
      | none => none
      | some n =>
        if ws.dropLast.filter (fun w => !isQual w) = [] ∨ isQual n then none
        else inSpec [] ({ name := n, ws := ws.dropLast, l := [], ls := [], params := .nil } :: stk) t) = some s' →
        shifts t (depth (.pend ws, stk)) (depth s') := by
      intro t h
      split at h
      · cases h
      · split at h
        · cases h
        · have := inSpec_depth h
          simpa [depth, pd, sd, oc] using this
    cases t with
    | star => cases h; simp [shifts, depth, pd, oc]
    | amp => cases h; simp [shifts, depth, pd, oc]
    | «open» => cases h
    | word w => exact key _ h
    | close => exact key _ h
    | comma => exact key _ h
    | bad => exact key _ h
  | ops ws l =>
    cases t with
    | star => cases h; simp [shifts, depth, pd, oc]
    | amp => cases h; simp [shifts, depth, pd, oc]
    | «open» => cases h; simp [shifts, depth, pd, oc]; omega
    | word w =>
      simp only [step] at h
      split at h
      · cases h; simp [shifts, depth, pd, oc]
      · cases h; simp [shifts, depth, pd]
    | close => cases h
    | comma => cases h
    | bad => cases h
  | suffix n ws l ls =>
    cases t with
    | star => cases h
    | amp => cases h
    | bad => cases h
    | «open» => cases h; simp [shifts, depth, pd, sd]; omega
    | word w =>
      simp only [step] at h
      split at h
      · cases h; simp [shifts, depth, pd]
      · cases h
    | comma =>
      simp only [step] at h
      split at h
      · rename_i hf
        cases h
        simp [shifts, depth, pd, sd, finish_suffix hf]; omega
      · cases h
    | close =>
      simp only [step] at h
      split at h
      · rename_i hl
        cases h
        simp only [shifts, depth, pd]
        rw [oc_close hl]; omega
      · rename_i hl
        have h0 : oc l = 0 := List.count_eq_zero.2 hl
        split at h
        · rename_i s stk
          cases he : endParams (.suffix n ws l ls) s with
          | none => rw [he] at h; cases h
          | some p => rw [he] at h; cases h; have hp : pd (.suffix n ws l ls) = 0 := h0; simp only [shifts, depth, sd, endParams_depth he, hp]; omega
        · cases h

/-- The brackets which are open behind a text; there is none if a comma is in no bracket. -/
def scan (d : Nat) : List Char → Option Nat
  | [] => some d
  | c :: cs =>
    if c = '(' ∨ c = '<' then scan (d + 1) cs
    else if c = ')' ∨ c = '>' then (if d = 0 then none else scan (d - 1) cs)
    else if c = ',' ∧ d = 0 then none
    else scan d cs

theorem scan_append : ∀ (a b : List Char) (d : Nat), scan d (a ++ b) = (scan d a).bind (fun e => scan e b)
  | [], _, _ => rfl
  | c :: a, b, d => by
    simp only [List.cons_append, scan]
    split
    · exact scan_append a b _
    · split
      · split
        · rfl
        · exact scan_append a b _
      · split
        · rfl
        · exact scan_append a b _

theorem word_scan {c : Char} (h : wordChar c = true) : ¬(c = '(' ∨ c = '<') ∧ ¬(c = ')' ∨ c = '>') ∧ c ≠ ',' ∧ c ≠ ' ' := by
  refine ⟨?_, ?_, ?_, ?_⟩
  · rintro (rfl | rfl) <;> exact absurd h (by decide)
  · rintro (rfl | rfl) <;> exact absurd h (by decide)
  · rintro rfl; exact absurd h (by decide)
  · rintro rfl; exact absurd h (by decide)

theorem scan_flat : ∀ (t : List Char) (d : Nat), (∀ c ∈ t, ¬(c = '(' ∨ c = '<') ∧ ¬(c = ')' ∨ c = '>') ∧ c ≠ ',') → scan d t = some d
  | [], _, _ => rfl
  | c :: t, d, h => by
    have hc := h c (by simp)
    simp only [scan, hc, if_false, false_and]
    exact scan_flat t d (fun x hx => h x (by simp [hx]))

theorem flush_depth {acc : List Char} {s s' : Phase × List Susp} (h : run (some s) (flush acc) = some s') : depth s' = depth s := by
  unfold flush at h
  split at h
  · cases h; rfl
  · exact step_depth h

theorem scan_run : ∀ (t acc : List Char) (s s' : Phase × List Susp), run (some s) (lexFrom acc t) = some s' →
    scan (depth s) t = some (depth s') ∧ '<' ∉ t ∧ '>' ∉ t
  | [], acc, s, s', h => by
    rw [lexFrom] at h
    exact ⟨by rw [flush_depth h]; rfl, by simp, by simp⟩
  | c :: t, acc, s, s', h => by
    rw [lexFrom] at h
    split at h
    · rename_i hc
      obtain ⟨h1, h2, h3, -⟩ := word_scan hc
      obtain ⟨i1, i2, i3⟩ := scan_run t _ s s' h
      refine ⟨?_, ?_, ?_⟩
      · simp only [scan, h1, h2, h3, if_false, false_and]; exact i1
      · simp only [List.mem_cons, not_or]; exact ⟨fun e => h1 (Or.inr e.symm), i2⟩
      · simp only [List.mem_cons, not_or]; exact ⟨fun e => h2 (Or.inr e.symm), i3⟩
    · rw [run_append, run_append] at h
      cases hf : run (some s) (flush acc) with
      | none => rw [hf, run_none, run_none] at h; cases h
      | some s1 =>
        rw [hf] at h
        rw [← flush_depth hf]
        have go : ∀ (tk : List Tok), symbol c = tk → (∀ s2, run (some s1) tk = some s2 →
            (scan (depth s2) t = some (depth s') → scan (depth s1) (c :: t) = some (depth s')) ∧ c ≠ '<' ∧ c ≠ '>') →
            scan (depth s1) (c :: t) = some (depth s') ∧ '<' ∉ c :: t ∧ '>' ∉ c :: t := by
          intro tk e hs
          rw [e] at h
          cases hr : run (some s1) tk with
          | none => rw [hr, run_none] at h; cases h
          | some s2 =>
            rw [hr] at h
            obtain ⟨i1, i2, i3⟩ := scan_run t [] s2 s' h
            obtain ⟨j1, j2, j3⟩ := hs s2 hr
            refine ⟨j1 i1, ?_, ?_⟩
            · simp only [List.mem_cons, not_or]; exact ⟨j2.symm, i2⟩
            · simp only [List.mem_cons, not_or]; exact ⟨j3.symm, i3⟩
        refine go _ rfl ?_
        intro s2 hr
        unfold symbol at hr
        split at hr
        · rename_i hb
          cases hr
          simp only [List.mem_cons, List.not_mem_nil, or_false] at hb
          rcases hb with rfl | rfl | rfl | rfl | rfl | rfl <;> exact ⟨fun h => h, by decide, by decide⟩
        · split at hr
          · rename_i e; subst e
            have := step_depth hr
            simp only [shifts] at this
            exact ⟨fun h => by rw [this] at h; exact h, by decide, by decide⟩
          · split at hr
            · rename_i e; subst e
              have := step_depth hr
              simp only [shifts] at this
              exact ⟨fun h => by rw [this] at h; exact h, by decide, by decide⟩
            · split at hr
              · rename_i e; subst e
                have := step_depth hr
                simp only [shifts] at this
                exact ⟨fun h => by rw [this] at h; exact h, by decide, by decide⟩
              · split at hr
                · rename_i e; subst e
                  have := step_depth hr
                  simp only [shifts] at this
                  refine ⟨fun h => ?_, by decide, by decide⟩
                  rw [this]
                  simp [scan, h]
                · split at hr
                  · rename_i e; subst e
                    have := step_depth hr
                    simp only [shifts] at this
                    refine ⟨fun h => ?_, by decide, by decide⟩
                    rw [this.1] at h
                    have h0 : depth s1 ≠ 0 := by omega
                    simp [scan, h, h0]
                  · split at hr
                    · rename_i e; subst e
                      have := step_depth hr
                      simp only [shifts] at this
                      exact ⟨fun h => by rw [this] at h; exact h, by decide, by decide⟩
                    · have := step_depth hr
                      exact this.elim

theorem finish_depth {p : Phase} {r : List Char × Sem} (h : finish p = some r) : pd p = 0 := by
  cases p with
  | spec ws => rfl
  | pend ws => cases h
  | ops ws l => cases h
  | suffix n ws l ls => exact finish_suffix h

/-- The brackets of a declaration match, and no comma in it is outside of all brackets. -/
theorem scan_read {t : String} {r : List Char × Sem} (h : read t = some r) : scan 0 t.toList = some 0 ∧ '<' ∉ t.toList ∧ '>' ∉ t.toList := by
  unfold read at h
  split at h
  · rename_i p hp
    obtain ⟨h1, h2⟩ := scan_run t.toList [] (.spec [], []) (p, []) hp
    refine ⟨?_, h2⟩
    have : depth (p, []) = 0 := by simp [depth, sd, finish_depth h]
    rw [this] at h1
    exact h1
  · cases h

/-! ## Lists -/

theorem cut_scan : ∀ (t acc : List Char) (d b e : Nat) (r : List Char), scan d t = some e →
    cut (d + b) acc (t ++ r) = cut (e + b) (acc ++ t) r
  | [], acc, d, b, e, r, h => by cases h; simp
  | c :: t, acc, d, b, e, r, h => by
    have hcat : acc ++ c :: t = acc ++ [c] ++ t := by simp
    rw [hcat, List.cons_append, cut]
    simp only [scan] at h
    split at h
    · rename_i h1
      have hne : ¬(c = ',' ∧ d + b = 0) := by
        rintro ⟨rfl, -⟩; exact absurd h1 (by decide)
      rw [if_neg hne, if_pos h1, show d + b + 1 = d + 1 + b by omega]
      exact cut_scan t _ _ b e r h
    · rename_i h1
      split at h
      · rename_i h2
        split at h
        · cases h
        · rename_i h0
          have hne : ¬(c = ',' ∧ d + b = 0) := by
            rintro ⟨rfl, -⟩; exact absurd h2 (by decide)
          rw [if_neg hne, if_neg h1, if_pos h2, show d + b - 1 = d - 1 + b by omega]
          exact cut_scan t _ _ b e r h
      · rename_i h2
        split at h
        · cases h
        · rename_i h3
          have hne : ¬(c = ',' ∧ d + b = 0) := by
            rintro ⟨h4, h5⟩; exact h3 ⟨h4, by omega⟩
          rw [if_neg hne, if_neg h1, if_neg h2]
          exact cut_scan t _ _ b e r h

/-- A text which is one entry of a list, read as a parameter. -/
structure IsArg (text : String) (a : Arg) : Prop where
  flat : scan 0 text.toList = some 0
  read : readArg text.toList = some a
  space : readArg (' ' :: text.toList) = some a
  some : text ≠ ""

theorem read_space (t : List Char) : read (String.ofList (' ' :: t)) = read (String.ofList t) := by
  unfold read lex
  simp only [String.toList_ofList, lexFrom]
  have : wordChar ' ' = false := by decide
  rw [this]
  rfl

theorem declares_arg {text n : String} {S : Sem} (h : Declares text n S) : IsArg text (.plain n.toList S) := by
  have hr := h.read
  obtain ⟨h1, h2, h3⟩ := scan_read hr
  have r1 : readArg text.toList = some (.plain n.toList S) := by
    unfold readArg
    rw [if_neg h2, String.ofList_toList, hr]
    rfl
  refine ⟨h1, r1, ?_, ?_⟩
  · unfold readArg
    rw [if_neg (by simp only [List.mem_cons, not_or]; exact ⟨by decide, h2⟩), read_space, String.ofList_toList, hr]
    rfl
  · rintro rfl
    obtain ⟨w, r, e⟩ := h.head
    simp [toks, lexFrom, flush] at e

theorem name_word {n : String} (h : Word n) : isName n.toList = true := by
  have hne : n.toList ≠ [] := fun h0 => h.1 (String.toList_inj.mp (by rw [h0]; rfl))
  simp only [isName, Bool.and_eq_true, List.all_eq_true, h.2.2, Bool.not_false, and_true]
  exact ⟨by cases hl : n.toList with | nil => exact absurd hl hne | cons _ _ => rfl, h.2.1⟩

theorem skip_name {t : List Char} (h : ∀ c ∈ t, wordChar c = true) : skip t = t := by
  cases t with
  | nil => rfl
  | cons c t =>
    unfold skip
    rw [List.dropWhile_cons_of_neg]
    have := (word_scan (h c (by simp))).2.2.2
    simpa using this

/-- A parameter whose type is a template of a type. -/
theorem template_arg {w T n : String} {S : Sem} (hw : Word w) (hn : Word n) (hT : Declares (T ++ " " ++ "x") "x" S) :
    IsArg (w ++ "<" ++ T ++ "> " ++ n) (.template w.toList S n.toList) := by
  have hr := hT.read
  obtain ⟨s1, s2, s3⟩ := scan_read hr
  have ex : (T ++ " " ++ "x").toList = T.toList ++ [' ', 'x'] := by simp [String.toList_append]
  rw [ex] at s1 s2 s3
  have hT1 : scan 0 T.toList = some 0 := by
    rw [scan_append] at s1
    cases hs : scan 0 T.toList with
    | none => rw [hs] at s1; cases s1
    | some e =>
      rw [hs] at s1
      simpa [scan] using s1
  have hT3 : '>' ∉ T.toList := fun h => s3 (by simp [h])
  have e : (w ++ "<" ++ T ++ "> " ++ n).toList = w.toList ++ '<' :: (T.toList ++ '>' :: ' ' :: n.toList) := by
    simp [String.toList_append]
  have hwl : ∀ c ∈ w.toList, (c != '<') = true := by
    intro c hc
    have := (word_scan (hw.2.1 c hc)).1
    simp only [bne_iff_ne]; exact fun e => this (Or.inr e)
  have hTl : ∀ c ∈ T.toList, (c != '>') = true := by
    intro c hc
    simp only [bne_iff_ne]
    rintro rfl
    exact hT3 hc
  have go : ∀ pre : List Char, (pre = [] ∨ pre = [' ']) → readArg (pre ++ (w.toList ++ '<' :: (T.toList ++ '>' :: ' ' :: n.toList))) =
      some (.template w.toList S n.toList) := by
    intro pre hpre
    have hpl : ∀ c ∈ pre ++ w.toList, (c != '<') = true := by
      intro c hc
      rcases List.mem_append.1 hc with hc | hc
      · rcases hpre with rfl | rfl
        · cases hc
        · simp only [List.mem_singleton] at hc; subst hc; decide
      · exact hwl c hc
    unfold readArg
    rw [if_pos (by simp), ← List.append_assoc]
    have t1 : ((pre ++ w.toList) ++ '<' :: (T.toList ++ '>' :: ' ' :: n.toList)).takeWhile (· != '<') = pre ++ w.toList := by
      rw [List.takeWhile_append_of_pos hpl]; simp
    have t2 : ((pre ++ w.toList) ++ '<' :: (T.toList ++ '>' :: ' ' :: n.toList)).dropWhile (· != '<') =
        '<' :: (T.toList ++ '>' :: ' ' :: n.toList) := by
      rw [List.dropWhile_append_of_pos hpl]; simp
    have t3 : (T.toList ++ '>' :: ' ' :: n.toList).takeWhile (· != '>') = T.toList := by
      rw [List.takeWhile_append_of_pos hTl]; simp
    have t4 : (T.toList ++ '>' :: ' ' :: n.toList).dropWhile (· != '>') = '>' :: ' ' :: n.toList := by
      rw [List.dropWhile_append_of_pos hTl]; simp
    have t5 : skip (pre ++ w.toList) = w.toList := by
      rcases hpre with rfl | rfl
      · exact skip_name hw.2.1
      · show skip (' ' :: w.toList) = _
        unfold skip
        rw [List.dropWhile_cons_of_pos (by decide)]
        exact skip_name hw.2.1
    have t6 : skip (' ' :: n.toList) = n.toList := by
      unfold skip
      rw [List.dropWhile_cons_of_pos (by decide)]
      exact skip_name hn.2.1
    have t7 : String.ofList T.toList ++ " x" = T ++ " " ++ "x" := by
      rw [String.ofList_toList, String.append_assoc]; rfl
    simp only [t1, t2, List.drop_one, List.tail_cons, t3, t4, t5, t6, t7, hr]
    have hx : "x".toList = ['x'] := by decide +kernel
    rw [hx]
    simp only [name_word hw, name_word hn, and_self, if_true]
  refine ⟨?_, ?_, ?_, ?_⟩
  · rw [e, scan_append, scan_flat w.toList 0 (fun c hc => ⟨(word_scan (hw.2.1 c hc)).1, (word_scan (hw.2.1 c hc)).2.1, (word_scan (hw.2.1 c hc)).2.2.1⟩)]
    have h1 : ∀ r, scan 0 ('<' :: r) = scan 1 r := fun r => by simp [scan]
    have h2 : ∀ r, scan 1 ('>' :: r) = scan 0 r := fun r => by simp [scan]
    have h3 : ∀ (t r : List Char) (d e : Nat), scan d t = some e → scan (d + 1) (t ++ r) = scan (e + 1) r := by
      intro t
      induction t with
      | nil => intro r d e h; cases h; rfl
      | cons c t ih =>
        intro r d e h
        simp only [scan] at h
        simp only [List.cons_append, scan]
        split at h
        · rename_i h1; rw [if_pos h1]; exact ih r _ _ h
        · rename_i h1
          rw [if_neg h1]
          split at h
          · rename_i h2
            rw [if_pos h2]
            split at h
            · cases h
            · rename_i h0
              rw [if_neg (by omega), show d + 1 - 1 = d - 1 + 1 by omega]
              exact ih r _ _ h
          · rename_i h2
            rw [if_neg h2]
            split at h
            · cases h
            · rw [if_neg (by omega)]; exact ih r _ _ h
    show scan 0 ('<' :: (T.toList ++ '>' :: ' ' :: n.toList)) = some 0
    rw [h1, h3 _ _ _ _ hT1, h2]
    refine scan_flat _ 0 ?_
    intro c hc
    rcases List.mem_cons.1 hc with rfl | hc
    · decide
    · exact ⟨(word_scan (hn.2.1 c hc)).1, (word_scan (hn.2.1 c hc)).2.1, (word_scan (hn.2.1 c hc)).2.2.1⟩
  · rw [e]; exact go [] (Or.inl rfl)
  · rw [e]; exact go [' '] (Or.inr rfl)
  · intro h
    rw [h] at e
    simp at e

theorem join_cons (x y : String) (l : List String) :
    ", ".intercalate (x :: y :: l) = x ++ ", " ++ ", ".intercalate (y :: l) :=
  Gen.intercalate_append ", " [x] (y :: l) (by simp) (by simp)

theorem cut_list : ∀ (l : List (String × Arg)) (x : String × Arg) (pre : List Char),
    (∀ y ∈ x :: l, IsArg y.1 y.2) → cut 0 pre (", ".intercalate ((x :: l).map (·.1))).toList =
      (pre ++ x.1.toList) :: l.map (fun y => ' ' :: y.1.toList)
  | [], x, pre, h => by
    have := cut_scan x.1.toList pre 0 0 0 [] (h x (by simp)).flat
    simp only [List.append_nil, Nat.add_zero] at this
    simp only [List.map_cons, List.map_nil]
    rw [show ", ".intercalate [x.1] = x.1 from rfl, this, cut]
  | y :: l, x, pre, h => by
    have e : (", ".intercalate ((x :: y :: l).map (·.1))).toList = x.1.toList ++ ',' :: ' ' :: (", ".intercalate ((y :: l).map (·.1))).toList := by
      have := join_cons x.1 y.1 (l.map (·.1))
      simp only [List.map_cons] at this ⊢
      rw [this]
      simp [String.toList_append]
    rw [e]
    have := cut_scan x.1.toList pre 0 0 0 (',' :: ' ' :: (", ".intercalate ((y :: l).map (·.1))).toList) (h x (by simp)).flat
    simp only [Nat.add_zero] at this
    rw [this, cut, if_pos ⟨rfl, rfl⟩, cut, if_neg (by decide), if_neg (by decide), if_neg (by decide)]
    rw [cut_list l y _ (fun z hz => h z (by simp [hz]))]
    simp

theorem read_list : ∀ (l : List (String × Arg)), (∀ y ∈ l, IsArg y.1 y.2) →
    readAll (l.map (fun y => ' ' :: y.1.toList)) = some (l.map (·.2))
  | [], _ => rfl
  | y :: l, h => by
    rw [List.map_cons, readAll, (h y (by simp)).space, read_list l (fun z hz => h z (by simp [hz]))]
    rfl

/-- A function which returns nothing is read with its parameters. -/
theorem readProcedure_list {name : String} (hn : Word name) (l : List (String × Arg)) (h : ∀ y ∈ l, IsArg y.1 y.2) :
    readProcedure ("void " ++ name ++ "(" ++ ", ".intercalate (l.map (·.1)) ++ ")") = some (name.toList, l.map (·.2)) := by
  have e : ("void " ++ name ++ "(" ++ ", ".intercalate (l.map (·.1)) ++ ")").toList =
      ("void" ++ " " ++ name).toList ++ '(' :: ((", ".intercalate (l.map (·.1))).toList ++ [')']) := by
    simp [String.toList_append]
  have hv : Word "void" := by decide +kernel
  have hd := (declares_word hv hn).read
  have hl : ∀ c ∈ ("void" ++ " " ++ name).toList, (c != '(') = true := by
    intro c hc
    simp only [String.toList_append, List.mem_append] at hc
    simp only [bne_iff_ne]
    rintro rfl
    rcases hc with (hc | hc) | hc
    · exact absurd hc (by decide +kernel)
    · exact absurd hc (by decide +kernel)
    · exact absurd (hn.2.1 _ hc) (by decide)
  unfold readProcedure
  rw [e, List.takeWhile_append_of_pos hl, List.dropWhile_append_of_pos hl]
  have hp : ('(' != '(') = false := by decide
  rw [List.takeWhile_cons_of_neg (by decide), List.dropWhile_cons_of_neg (by decide), List.append_nil]
  have hvoid : "void".toList = ['v', 'o', 'i', 'd'] := by decide +kernel
  simp only [List.drop_one, List.tail_cons, List.getLast?_concat, List.dropLast_concat, String.ofList_toList, hd, hvoid]
  cases l with
  | nil => rfl
  | cons x l =>
    have hne : (", ".intercalate ((x :: l).map (·.1))).toList ≠ [] := by
      intro h0
      have hx := (h x (by simp)).some
      have e0 : ", ".intercalate ((x :: l).map (·.1)) = "" := String.toList_inj.mp (by rw [h0]; rfl)
      cases l with
      | nil => exact hx e0
      | cons y l =>
        have := join_cons x.1 y.1 (l.map (·.1))
        simp only [List.map_cons] at this e0
        rw [this] at e0
        have := congrArg String.toList e0
        simp [String.toList_append] at this
    rw [if_neg hne, cut_list l x [] h, List.nil_append, readAll, (h x (by simp)).read, read_list l (fun z hz => h z (by simp [hz]))]
    rfl

/-! ## Members -/

theorem run_bad : ∀ (ts : List Tok) (s s' : Phase × List Susp), run (some s) ts = some s' → Tok.bad ∉ ts
  | [], _, _, _ => by simp
  | t :: ts, s, s', h => by
    change run (step (some s) t) ts = some s' at h
    cases hs : step (some s) t with
    | none => rw [hs, run_none] at h; cases h
    | some s1 =>
      rw [hs] at h
      simp only [List.mem_cons, not_or]
      refine ⟨?_, run_bad ts s1 s' h⟩
      rintro rfl
      exact step_depth hs

theorem brace_bad : ∀ (t acc : List Char), '{' ∈ t → Tok.bad ∈ lexFrom acc t
  | c :: t, acc, h => by
    rw [lexFrom]
    rcases List.mem_cons.1 h with rfl | h
    · rw [if_neg (by decide)]
      exact List.mem_append_left _ (List.mem_append_right _ (by decide))
    · split
      · exact brace_bad t _ h
      · exact List.mem_append_right _ (brace_bad t [] h)

theorem Declares.brace {text n : String} {S : Sem} (h : Declares text n S) : '{' ∉ text.toList := by
  intro hb
  obtain ⟨p, h1, -⟩ := h.run []
  exact run_bad _ _ _ h1 (brace_bad _ [] hb)

theorem word_brace {n : String} (h : Word n) : '{' ∉ n.toList := fun hb => absurd (h.2.1 _ hb) (by decide)

theorem template_brace {w T n : String} {S : Sem} (hw : Word w) (hn : Word n) (hT : Declares (T ++ " " ++ "x") "x" S) :
    '{' ∉ (w ++ "<" ++ T ++ "> " ++ n).toList := by
  have := hT.brace
  simp only [String.toList_append, List.mem_append, not_or] at this ⊢
  exact ⟨⟨⟨⟨word_brace hw, by decide +kernel⟩, this.1.1⟩, by decide +kernel⟩, word_brace hn⟩

theorem member_plain {text : String} {a : Arg} (h : IsArg text a) (hb : '{' ∉ text.toList) : readMember text.toList = some (a, none) := by
  unfold readMember
  rw [if_neg hb, h.read]; rfl

theorem member_init {text i : String} {a : Arg} (h : IsArg text a) (hb : '{' ∉ text.toList) (hi : Word i) :
    readMember (text ++ ("{ " ++ i ++ " }")).toList = some (a, some i.toList) := by
  have e : (text ++ ("{ " ++ i ++ " }")).toList = text.toList ++ '{' :: ((' ' :: i.toList ++ [' ']) ++ ['}']) := by
    simp [String.toList_append]
  have hl : ∀ c ∈ text.toList, (c != '{') = true := by
    intro c hc
    simp only [bne_iff_ne]
    rintro rfl
    exact hb hc
  have ht : lexFrom [] (' ' :: i.toList ++ [' ']) = [.word i.toList] := by
    have := toks_sep ([] ++ ' ' :: i.toList) [] ' ' (by decide)
    rw [toks_sep [] i.toList ' ' (by decide), toks_word hi] at this
    exact this
  unfold readMember
  rw [e, if_pos (by simp), List.takeWhile_append_of_pos hl, List.dropWhile_append_of_pos hl, List.takeWhile_cons_of_neg (by decide),
    List.dropWhile_cons_of_neg (by decide), List.append_nil]
  simp only [List.drop_one, List.tail_cons, List.getLast?_concat, List.dropLast_concat, h.read, ht]

end EasyMock.CDecl
