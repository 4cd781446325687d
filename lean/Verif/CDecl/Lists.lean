import Verif.CDecl.Proto
import Verif.Props.Gen2

/-! # CDecl: lists of declarations -/

namespace EasyMock.CDecl

open EasyMock.Types (Ty Params CT Kw)
open EasyMock.Gen (extraOf paramSection XDecl PList)

/-- A text which declares the name `n` with the type `S`, also among the parameters of a function. -/
structure Declares (text n : String) (S : Sem) : Prop where
  run : ∀ stk, ∃ p, CDecl.run (some (.spec [], stk)) (toks text.toList) = some (p, stk) ∧ Ended p n.toList S
  head : ∃ w r, toks text.toList = .word w :: r

theorem Declares.read {text n : String} {S : Sem} (h : Declares text n S) : read text = some (n.toList, S) := by
  obtain ⟨p, h1, h2⟩ := h.run []
  rw [read_eq, h1]
  exact h2.1

theorem declares_entry {s n : String} {t : Ty} {S : Sem} (h : Entry s t S) (k : Nat) (hn : Word n) :
    Declares (Types.declareString s t ++ " " ++ n ++ (extraOf false k t).1.text) n S := by
  obtain ⟨h1, w, r, h2⟩ := h
  refine ⟨fun stk => h1 k n stk hn, w, ?_⟩
  have e : (Types.declareString s t ++ " " ++ n ++ (extraOf false k t).1.text).toList =
      (Types.declareString s t).toList ++ ' ' :: (n ++ (extraOf false k t).1.text).toList := by simp [String.toList_append]
  rw [e, toks_sep _ _ _ (by decide), h2]
  exact ⟨_, rfl⟩

/-- One word as type. -/
theorem declares_word {w n : String} (hw : Word w) (hn : Word n) : Declares (w ++ " " ++ n) n (.named [w.toList]) := by
  have e : toks (w ++ " " ++ n).toList = [.word w.toList, .word n.toList] := by
    rw [show (w ++ " " ++ n).toList = w.toList ++ ' ' :: n.toList by simp [String.toList_append], toks_sep _ _ _ (by decide),
      toks_word hw, toks_word hn]
    rfl
  refine ⟨fun stk => ⟨.spec ([w.toList] ++ [n.toList]), ?_, ?_⟩, w.toList, _, e⟩
  · rw [e]; rfl
  · have h := ended_spec (ws := [w.toList]) hn.2.2 (word_dot hn) (by simp [hw.2.2])
    rw [spec_plain [w.toList] (by simp [hw.2.2])] at h
    exact h

/-- A pointer to what a word names. -/
theorem declares_pointer {w n : String} (hw : Word w) (hn : Word n) : Declares (w ++ "* " ++ n) n (.ptr (.named [w.toList])) := by
  have e : toks (w ++ "* " ++ n).toList = [.word w.toList, .star, .word n.toList] := by
    rw [show (w ++ "* " ++ n).toList = w.toList ++ '*' :: ([] ++ ' ' :: n.toList) by simp [String.toList_append], toks_sep _ _ _ (by decide),
      toks_sep _ _ _ (by decide), toks_word hw, toks_word hn]
    rfl
  refine ⟨fun stk => ⟨.suffix n.toList [w.toList] [.star] [], ?_, ?_⟩, w.toList, _, e⟩
  · rw [e]
    simp [CDecl.run, step, inSpec, hn.2.2]
  · have h := ended_suffix (n := n.toList) (ws := [w.toList]) (l := [.star]) (ls := []) (by simp)
    rw [spec_plain [w.toList] (by simp [hw.2.2])] at h
    exact h

/-- The types of a list. -/
def Sems.ofList : List Sem → Sems
  | [] => .nil
  | s :: l => .cons s (Sems.ofList l)

theorem run_declared : ∀ (l : List (String × String × Sem)) (s : Susp) (stk : List Susp), (∀ d ∈ l, Declares d.1 d.2.1 d.2.2) →
    (l = [] → s.params = .nil) →
    run (some (.spec [], s :: stk)) (toks (", ".intercalate (l.map (·.1))).toList ++ [.close]) =
      some (.suffix s.name s.ws s.l (s.ls ++ [.fn (s.params.append (Sems.ofList (l.map (·.2.2)))) false]), stk)
  | [], s, stk, _, h0 => by
    show step (some (.spec [], s :: stk)) .close = _
    simp [step, inSpec, endParams, h0 rfl, Sems.append, Sems.ofList]
  | [d], s, stk, h, _ => by
    obtain ⟨p, h1, h2⟩ := (h d (by simp)).run (s :: stk)
    have e : ", ".intercalate ([d].map (·.1)) = d.1 := by simp
    rw [e, run_append, h1]
    show step (some (p, s :: stk)) .close = _
    rw [h2.2.2, snoc_eq]
    rfl
  | d :: d' :: l, s, stk, h, _ => by
    obtain ⟨p, h1, h2⟩ := (h d (by simp)).run (s :: stk)
    have ih := run_declared (d' :: l) { s with params := s.params.snoc d.2.2 } stk (fun x hx => h x (by simp [hx])) (by simp)
    have e : (", ".intercalate ((d :: d' :: l).map (·.1))).toList =
        d.1.toList ++ ',' :: ([] ++ ' ' :: (", ".intercalate ((d' :: l).map (·.1))).toList) := by
      have h := Gen.intercalate_append' ", " [d.1] ((d' :: l).map (·.1))
      rw [List.singleton_append] at h
      rw [List.map_cons, h]
      simp [String.toList_append]
    rw [e, toks_sep _ _ _ (by decide), toks_sep _ _ _ (by decide), List.append_assoc, List.append_assoc, run_append, h1]
    rw [show symbol ',' = [Tok.comma] from rfl, show toks [] ++ symbol ' ' = [] from rfl, List.nil_append, run_append,
      show run (some (p, s :: stk)) [Tok.comma] = step (some (p, s :: stk)) .comma from rfl, h2.2.1, ih, snoc_append]
    rfl

/-- A function without result, declared with a list of declarations. -/
theorem read_procedure {name : String} (hn : Word name) (l : List (String × String × Sem)) (h : ∀ d ∈ l, Declares d.1 d.2.1 d.2.2) :
    read ("void " ++ name ++ "(" ++ ", ".intercalate (l.map (·.1)) ++ ")") =
      some (name.toList, .fn (.named ["void".toList]) (Sems.ofList (l.map (·.2.2))) false) := by
  have e : ("void " ++ name ++ "(" ++ ", ".intercalate (l.map (·.1)) ++ ")").toList =
      "void".toList ++ ' ' :: (name.toList ++ '(' :: ((", ".intercalate (l.map (·.1))).toList ++ ')' :: [])) := by
    simp [String.toList_append]
  have hv : toks "void".toList = [.word "void".toList] := by decide +kernel
  have hh : ∃ t r, toks (", ".intercalate (l.map (·.1))).toList ++ [.close] = t :: r ∧ (t = .close ∨ ∃ w, t = .word w) := by
    cases l with
    | nil => exact ⟨.close, [], rfl, Or.inl rfl⟩
    | cons d l =>
      obtain ⟨w, r, h2⟩ := (h d (by simp)).head
      have : ∃ r', toks (", ".intercalate ((d :: l).map (·.1))).toList = .word w :: r' := by
        cases l with
        | nil => exact ⟨r, by rw [← h2]; simp⟩
        | cons d' l =>
          have h := Gen.intercalate_append' ", " [d.1] ((d' :: l).map (·.1))
          rw [List.singleton_append] at h
          rw [List.map_cons, h]
          have e : (", ".intercalate [d.1] ++ (if [d.1].isEmpty || ((d' :: l).map (·.1)).isEmpty then "" else ", ") ++
            ", ".intercalate ((d' :: l).map (·.1))).toList = d.1.toList ++ ',' :: ([' '] ++ (", ".intercalate ((d' :: l).map (·.1))).toList) := by
            simp [String.toList_append]
          rw [e, toks_sep _ _ _ (by decide), h2]
          exact ⟨_, rfl⟩
      obtain ⟨r', h'⟩ := this
      rw [h']
      exact ⟨_, _, rfl, Or.inr ⟨w, rfl⟩⟩
  rw [read_eq, e, sig_toks _ hn, hv]
  have h1 : run (some (.spec [], [])) ([.word "void".toList] ++ ([.word name.toList] ++ ([.open] ++
      (toks (", ".intercalate (l.map (·.1))).toList ++ [.close] ++ toks [])))) =
      run (some (.pend (["void".toList] ++ [name.toList]), [])) (toks (", ".intercalate (l.map (·.1))).toList ++ [.close]) := by
    rw [show toks [] = [] from rfl, List.append_nil]
    rfl
  rw [h1, run_pend hn.2.2 (by decide +kernel) [] hh, run_declared l _ [] h (fun _ => rfl)]
  simp only [atEnd, finish, List.not_mem_nil, if_false]
  rfl

/-! ## Names do not matter -/

/-- A text which declares one name declares every name, with the same type. -/
theorem read_rename {s n m : String} {R : Sem} (hn : Word n) (hm : Word m) (hr : read (s ++ " " ++ n) = some (n.toList, R)) :
    read (s ++ " " ++ m) = some (m.toList, R) := by
  have e : ∀ x : String, Word x → toks (s ++ " " ++ x).toList = toks s.toList ++ [.word x.toList] := by
    intro x hx
    rw [show (s ++ " " ++ x).toList = s.toList ++ ' ' :: x.toList by simp [String.toList_append], toks_sep _ _ _ (by decide), toks_word hx,
      show symbol ' ' = [] from rfl, List.append_nil]
  rw [read_eq, e n hn, run_append] at hr
  rw [read_eq, e m hm, run_append]
  generalize run (some (.spec [], [])) (toks s.toList) = st at hr ⊢
  match st with
  | none => simp [run, step, atEnd] at hr
  | some (.spec ws, stk) =>
    have h1 : ∀ x : List Char, run (some (.spec ws, stk)) [.word x] = some (.spec (ws ++ [x]), stk) := fun _ => rfl
    rw [h1] at hr ⊢
    cases stk with
    | cons s stk => simp [atEnd] at hr
    | nil =>
      simp only [atEnd, finish, List.getLast?_append, List.getLast?_singleton, Option.some_or, List.dropLast_concat] at hr ⊢
      split at hr
      · cases hr
      · rename_i hq
        simp only [not_or] at hq
        rw [if_neg (by simp [hq.1, hm.2.2])]
        simpa using hr
  | some (.pend ws, stk) =>
    exfalso
    simp only [run, List.foldl_cons, List.foldl_nil, step] at hr
    cases hl : ws.getLast? with
    | none => simp [hl, atEnd] at hr
    | some m =>
      simp only [hl] at hr
      split at hr
      · cases hr
      · simp [inSpec, atEnd] at hr
  | some (.ops ws l, stk) =>
    simp only [run, List.foldl_cons, List.foldl_nil, step, hn.2.2, hm.2.2, Bool.false_eq_true, if_false] at hr ⊢
    cases stk with
    | cons s stk => simp [atEnd] at hr
    | nil =>
      simp only [atEnd, finish, List.nil_append] at hr ⊢
      split at hr
      · cases hr
      · rename_i hl
        rw [if_neg hl]
        simpa using hr
  | some (.suffix m ws l ls, stk) => simp [run, step, atEnd, hn.2.2] at hr

/-- A text which declares every name with the type `S`; nothing follows the name. -/
theorem entry_text' {s : String} {t : Ty} {S : Sem} (ht : ∀ k, (extraOf false k t).1 = .none) (hh : ∃ w r, toks s.toList = .word w :: r)
    (hr : ∀ n, Word n → read (s ++ " " ++ n) = some (n.toList, S)) : Entry s t S := by
  obtain ⟨h1, h2⟩ := entry_text (t := .ctype .int false false) trivial hh hr
  have hd : ∀ u : Ty, Types.declareString s u = s := by
    intro u
    obtain ⟨w, r, hw⟩ := hh
    rw [Types.declareString, not_empty_head hw]
    rfl
  rw [hd] at h2
  refine ⟨fun k n stk hn => ?_, by rw [hd]; exact h2⟩
  have := h1 k n stk hn
  rw [hd] at this ⊢
  rw [ht]
  exact this

end EasyMock.CDecl
