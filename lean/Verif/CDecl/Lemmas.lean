import Verif.CDecl.Types
import Verif.Props.Types2

/-! # CDecl: lemmas about tokens and steps -/

namespace EasyMock.CDecl

open EasyMock.Types (Ty Params CT Kw)

/-- The tokens of a list of characters. -/
abbrev toks (s : List Char) : List Tok := lexFrom [] s

/-- Reads tokens. -/
abbrev run (s : State) (ts : List Tok) : State := ts.foldl step s

theorem lexFrom_sep (b : List Char) (c : Char) (hc : wordChar c = false) : ∀ (a acc : List Char),
    lexFrom acc (a ++ c :: b) = lexFrom acc a ++ symbol c ++ lexFrom [] b
  | [], acc => by simp [lexFrom, hc]
  | x :: a, acc => by
    by_cases hx : wordChar x = true
    · simp only [List.cons_append, lexFrom, hx, if_true]
      exact lexFrom_sep b c hc a _
    · have hx : wordChar x = false := by simpa using hx
      simp only [List.cons_append, lexFrom, hx, Bool.false_eq_true, if_false]
      rw [lexFrom_sep b c hc a []]
      simp [List.append_assoc]

theorem toks_sep (a b : List Char) (c : Char) (hc : wordChar c = false) :
    toks (a ++ c :: b) = toks a ++ symbol c ++ toks b := lexFrom_sep b c hc a []

theorem lexFrom_word : ∀ (w acc : List Char), (∀ c ∈ w, wordChar c = true) → lexFrom acc w = flush (acc ++ w)
  | [], acc, _ => by simp [lexFrom]
  | c :: w, acc, h => by
    rw [lexFrom, if_pos (h c (by simp)), lexFrom_word w _ (fun x hx => h x (by simp [hx]))]
    simp

theorem toks_word {n : String} (h : Word n) : toks n.toList = [.word n.toList] := by
  have hne : n.toList ≠ [] := by
    intro h0; exact h.1 (String.toList_inj.mp (by simpa using h0))
  rw [toks, lexFrom_word n.toList [] h.2.1]
  simp [flush, hne]

theorem run_append (s : State) (a b : List Tok) : run s (a ++ b) = run (run s a) b := List.foldl_append

/-- The phase behind specifiers and operators. -/
def mkPhase (ws : List (List Char)) (l : List Op) : Phase :=
  if l = [] then .spec ws else if l = [.open] then .pend ws else .ops ws l

theorem mk_star (ws : List (List Char)) (l : List Op) (stk : List Susp) :
    step (some (mkPhase ws l, stk)) .star = some (mkPhase ws (.star :: l), stk) := by
  unfold mkPhase
  by_cases h1 : l = []
  · subst h1; simp [step, inSpec]
  · by_cases h2 : l = [.open]
    · subst h2; simp [step]
    · simp [h1, h2, step]

theorem mk_amp (ws : List (List Char)) (l : List Op) (stk : List Susp) :
    step (some (mkPhase ws l, stk)) .amp = some (mkPhase ws (.amp :: l), stk) := by
  unfold mkPhase
  by_cases h1 : l = []
  · subst h1; simp [step, inSpec]
  · by_cases h2 : l = [.open]
    · subst h2; simp [step]
    · simp [h1, h2, step]

theorem mk_open (ws : List (List Char)) (l : List Op) (stk : List Susp) (h : l ≠ [.open]) :
    step (some (mkPhase ws l, stk)) .open = some (mkPhase ws (.open :: l), stk) := by
  unfold mkPhase
  by_cases h1 : l = []
  · subst h1; simp [step, inSpec]
  · simp [h1, h, step]

/-- The specifiers and operators in front of the name of a declaration of the type. -/
def left : Ty → List (List Char) × List Op
  | .ctype c _ _ => ((words c).map String.toList, [])
  | .ptr _ t => ((left t).1, .star :: (left t).2)
  | .ref _ t => ((left t).1, .amp :: (left t).2)
  | .const _ t => if (left t).2 = [] then ((left t).1 ++ ["const".toList], []) else ((left t).1, .qual "const".toList :: (left t).2)
  | .tdef _ n _ => ([n.toList], [])
  | .enum _ n _ => (["enum".toList, n.toList], [])
  | .comp _ kw n _ _ _ _ | .incomplete _ kw n => ([(kwWord kw).toList, n.toList], [])
  | .fn _ _ _ r _ => ((left r).1, .open :: (left r).2)

theorem left_open : ∀ (t : Ty) (b : Bool), Spellable b t → ¬ IsFn t → (left t).2 ≠ [.open]
  | .ctype .., _, _, _ => by simp [left]
  | .ptr .., _, _, _ => by simp [left]
  | .ref .., _, _, _ => by simp [left]
  | .const i t, b, _, _ => by
    unfold left
    split <;> simp
  | .tdef .., _, _, _ => by simp [left]
  | .enum .., _, _, _ => by simp [left]
  | .comp .., _, _, _ => by simp [left]
  | .incomplete .., _, _, _ => by simp [left]
  | .fn .., _, _, h => absurd trivial h

theorem not_isFn_false : ∀ (t : Ty), Spellable false t → ¬ IsFn t
  | .fn .., h => by simp [Spellable] at h
  | .ctype .., _ | .ptr .., _ | .ref .., _ | .const .., _ | .tdef .., _ | .enum .., _ | .comp .., _ | .incomplete .., _ => id

theorem kw_text (kw : Kw) : kw.str = kwWord kw := by cases kw <;> rfl

theorem word_ident {n : String} (h : Word n) : Types.Ident n := by
  refine ⟨fun c hc => ?_, ?_⟩
  · have := h.2.1 c hc
    refine ⟨?_, ?_, ?_⟩ <;> rintro rfl <;> exact absurd this (by decide)
  · rintro rfl
    exact absurd h.2.2 (by decide)

theorem last_word {n : String} (h : Word n) : n.toList.getLast? ≠ some ' ' := Types.ident_last (word_ident h)

theorem kw_toks (k n : String) (hk : Word k) (h : Word n) :
    toks (Types.trimR (k ++ " " ++ n)).toList = [.word k.toList, .word n.toList] ∧
    (Types.trimR (k ++ " " ++ n)).toList.getLast? ≠ some ' ' ∧ Types.trimR (k ++ " " ++ n) ≠ "" := by
  rw [Types.keyword_text k n (last_word hk) hk.1 (word_ident h), if_neg h.1]
  refine ⟨?_, ?_, ?_⟩
  · have : (k ++ " " ++ n).toList = k.toList ++ ' ' :: n.toList := by simp [String.toList_append]
    rw [this, toks_sep _ _ _ (by decide), toks_word hk, toks_word h]
    rfl
  · have hne : n.toList ≠ [] := by intro h0; exact h.1 (String.toList_inj.mp (by simpa using h0))
    rw [String.toList_append, List.getLast?_append]
    have := last_word h
    cases hg : n.toList.getLast? with
    | none => exact absurd (by simpa using hg) hne
    | some c => rw [hg] at this; simpa using this
  · intro h0
    have := congrArg String.toList h0
    simp [String.toList_append] at this

theorem word_kw (kw : Kw) : Word (kwWord kw) := by cases kw <;> (unfold Word; decide +kernel)

theorem word_enum : Word "enum" := by unfold Word; decide +kernel

theorem toks_scalar (c : CT) : toks c.str.toList = (words c).map (fun w => Tok.word w.toList) ∧
    c.str.toList.getLast? ≠ some ' ' ∧ c.str ≠ "" := by cases c <;> decide +kernel

theorem run_words : ∀ (ws : List (List Char)) (us : List (List Char)) (stk : List Susp),
    run (some (.spec us, stk)) (ws.map Tok.word) = some (.spec (us ++ ws), stk)
  | [], us, stk => by simp [run]
  | w :: ws, us, stk => by
    show run (step (some (.spec us, stk)) (.word w)) (ws.map Tok.word) = _
    rw [show step (some (.spec us, stk)) (.word w) = some (.spec (us ++ [w]), stk) from rfl, run_words ws _ stk]
    simp

/-- Reading the text in front of the name. -/
theorem run_prefix : ∀ (t : Ty) (b : Bool) (stk : List Susp), Spellable b t →
    run (some (.spec [], stk)) (toks (Types.declPrefix t).toList) = some (mkPhase (left t).1 (left t).2, stk) ∧
    (Types.declPrefix t).toList.getLast? ≠ some ' ' ∧ Types.declPrefix t ≠ "" ∧ (¬ IsFn t → Types.declPostfix t = "")
  | .ctype c n i, b, stk, _ => by
    refine ⟨?_, (toks_scalar c).2.1, (toks_scalar c).2.2, fun _ => rfl⟩
    rw [show Types.declPrefix (.ctype c n i) = c.str from rfl, (toks_scalar c).1]
    have := run_words ((words c).map String.toList) [] stk
    rw [List.map_map] at this
    exact this
  | .ptr i t, b, stk, h => by
    obtain ⟨h1, h2, h3, h4⟩ := run_prefix t true stk h
    refine ⟨?_, by simp [Types.declPrefix, String.toList_append], ?_, fun _ => rfl⟩
    · have : (Types.declPrefix (.ptr i t)).toList = (Types.declPrefix t).toList ++ '*' :: [] := by
        simp [Types.declPrefix, String.toList_append]
      rw [this, toks_sep _ _ _ (by decide), List.append_assoc, run_append, h1]
      exact mk_star _ _ _
    · intro h0
      have := congrArg String.toList h0
      simp [Types.declPrefix, String.toList_append] at this
  | .ref i t, b, stk, h => by
    obtain ⟨h1, h2, h3, h4⟩ := run_prefix t true stk h.1
    refine ⟨?_, by simp [Types.declPrefix, String.toList_append], ?_, fun _ => rfl⟩
    · have : (Types.declPrefix (.ref i t)).toList = (Types.declPrefix t).toList ++ '&' :: [] := by
        simp [Types.declPrefix, String.toList_append]
      rw [this, toks_sep _ _ _ (by decide), List.append_assoc, run_append, h1]
      exact mk_amp _ _ _
    · intro h0
      have := congrArg String.toList h0
      simp [Types.declPrefix, String.toList_append] at this
  | .const i t, b, stk, h => by
    obtain ⟨h1, h2, h3, h4⟩ := run_prefix t b stk h.1
    have e : (Types.declPrefix (.const i t)).toList = (Types.declPrefix t).toList ++ ' ' :: "const".toList := by
      simp [Types.declPrefix, h4 h.2, Types.trimR_append_blank _ h2 h3, String.toList_append]
    refine ⟨?_, by rw [e, List.getLast?_append]; simp, ?_, fun _ => rfl⟩
    · rw [e, toks_sep _ _ _ (by decide), List.append_assoc, run_append, h1]
      have hl := left_open t b h.1 h.2
      show step (some (mkPhase (left t).1 (left t).2, stk)) (.word "const".toList) = _
      unfold mkPhase
      rw [left]
      by_cases h5 : (left t).2 = []
      · simp only [h5, if_true]; rfl
      · simp only [h5, hl, if_false]
        rw [if_neg (by simp), if_neg (by simp)]
        rfl
    · intro h0
      have := congrArg String.toList h0
      rw [e] at this
      simp at this
  | .tdef i n t, b, stk, h => by
    refine ⟨?_, last_word h.1, h.1.1, fun _ => rfl⟩
    rw [show Types.declPrefix (.tdef i n t) = n from rfl, toks_word h.1]
    rfl
  | .enum i n vs, b, stk, h => by
    obtain ⟨h1, h2, h3⟩ := kw_toks "enum" n word_enum h
    have e : Types.declPrefix (.enum i n vs) = Types.trimR ("enum" ++ " " ++ n) := rfl
    rw [e]
    refine ⟨?_, h2, h3, fun _ => rfl⟩
    rw [h1]
    rfl
  | .comp i kw n fs emb fwd ms, b, stk, h => by
    obtain ⟨h1, h2, h3⟩ := kw_toks (kwWord kw) n (word_kw kw) h
    have e : Types.declPrefix (.comp i kw n fs emb fwd ms) = Types.trimR (kwWord kw ++ " " ++ n) := by
      rw [← kw_text]; rfl
    rw [e]
    refine ⟨?_, h2, h3, fun _ => rfl⟩
    rw [h1]
    rfl
  | .incomplete f kw n, b, stk, h => by
    obtain ⟨h1, h2, h3⟩ := kw_toks (kwWord kw) n (word_kw kw) h
    have e : Types.declPrefix (.incomplete f kw n) = Types.trimR (kwWord kw ++ " " ++ n) := by
      rw [← kw_text]; rfl
    rw [e]
    refine ⟨?_, h2, h3, fun _ => rfl⟩
    rw [h1]
    rfl
  | .fn i info s r ps, b, stk, h => by
    obtain ⟨h1, h2, h3, h4⟩ := run_prefix r false stk h.2.2.1
    refine ⟨?_, by simp [Types.declPrefix, String.toList_append], ?_, fun hn => absurd trivial hn⟩
    · have : (Types.declPrefix (.fn i info s r ps)).toList = (Types.declPrefix r).toList ++ '(' :: [] := by
        simp [Types.declPrefix, String.toList_append]
      rw [this, toks_sep _ _ _ (by decide), List.append_assoc, run_append, h1]
      exact mk_open _ _ _ (left_open r false h.2.2.1 (not_isFn_false r h.2.2.1))
    · intro h0
      have := congrArg String.toList h0
      simp [Types.declPrefix, String.toList_append] at this

end EasyMock.CDecl
