import Verif.CDecl.Lemmas
import Verif.Props.Gen3

/-! # CDecl: the declarations of parameters are read as their types -/

namespace EasyMock.CDecl

open EasyMock.Types (Ty Params CT Kw)
open EasyMock.Gen (extraOf paramSection XDecl PList)

theorem extraOf_noFn : ∀ (t : Ty) (b : Bool) (k : Nat), NoFn t → extraOf b k t = (.none, k)
  | .ctype .., b, k, _ => by cases b <;> rw [extraOf] <;> simp
  | .ptr i t, b, k, h => by rw [extraOf]; exact extraOf_noFn t true k h
  | .ref i t, true, k, h => by rw [extraOf]; exact extraOf_noFn t true k h
  | .ref i t, false, k, h => by rw [extraOf] <;> simp
  | .const i t, b, k, h => by rw [extraOf]; exact extraOf_noFn t b k h
  | .tdef i n t, true, k, h => by rw [extraOf]; exact extraOf_noFn t true k h
  | .tdef i n t, false, k, h => by rw [extraOf] <;> simp
  | .enum .., b, k, _ => by cases b <;> rw [extraOf] <;> simp
  | .comp .., b, k, _ => by cases b <;> rw [extraOf] <;> simp
  | .incomplete .., b, k, _ => by cases b <;> rw [extraOf] <;> simp

theorem spec_const (ws : List (List Char)) : spec (ws ++ ["const".toList]) = .qual "const".toList (spec ws) := by
  have h1 : ["const".toList].filter isQual = ["const".toList] := by decide
  have h2 : ["const".toList].filter (fun w => !isQual w) = [] := by decide
  unfold spec
  rw [List.filter_append, List.filter_append, List.foldl_append, h1, h2, List.append_nil]
  rfl

theorem spec_plain (ws : List (List Char)) (h : ∀ w ∈ ws, isQual w = false) : spec ws = .named ws := by
  have h1 : ws.filter isQual = [] := by
    rw [List.filter_eq_nil_iff]; intro w hw; simp [h w hw]
  have h2 : ws.filter (fun w => !isQual w) = ws := by
    rw [List.filter_eq_self]; intro w hw; simp [h w hw]
  unfold spec
  rw [h1, h2]
  rfl

theorem words_plain (c : CT) : ∀ w ∈ (words c).map String.toList, isQual w = false := by
  cases c <;> decide +kernel

theorem kwWord_plain (kw : Kw) : isQual (kwWord kw).toList = false := (word_kw kw).2.2

/-- Without operators the specifiers are the type. -/
theorem left_nil : ∀ (t : Ty) (b : Bool), Spellable b t → (left t).2 = [] →
    spec (left t).1 = semOf t ∧ ∀ k, extraOf b k t = (.none, k)
  | .ctype c n i, b, _, _ => ⟨spec_plain _ (words_plain c), fun k => extraOf_noFn _ b k trivial⟩
  | .ptr .., _, _, h => by simp [left] at h
  | .ref .., _, _, h => by simp [left] at h
  | .const i t, b, hs, h => by
    have h0 : (left t).2 = [] := by
      unfold left at h
      split at h
      · assumption
      · simp at h
    obtain ⟨h1, h2⟩ := left_nil t b hs.1 h0
    refine ⟨?_, fun k => by rw [extraOf]; exact h2 k⟩
    simp only [left, h0, if_true, semOf, spec_const, h1]
  | .tdef i n t, b, hs, _ => by
    refine ⟨spec_plain _ (by simp [left, hs.1.2.2]), fun k => ?_⟩
    cases b with
    | true => exact extraOf_noFn (.tdef i n t) true k (hs.2 rfl)
    | false => rw [extraOf] <;> simp
  | .enum i n vs, b, hs, _ => by
    refine ⟨spec_plain _ ?_, fun k => extraOf_noFn _ b k trivial⟩
    intro w hw
    simp only [left, List.mem_cons, List.not_mem_nil, or_false] at hw
    rcases hw with rfl | rfl
    · decide
    · exact hs.2.2
  | .comp i kw n fs emb fwd ms, b, hs, _ => by
    refine ⟨spec_plain _ ?_, fun k => extraOf_noFn _ b k trivial⟩
    intro w hw
    simp only [left, List.mem_cons, List.not_mem_nil, or_false] at hw
    rcases hw with rfl | rfl
    · exact kwWord_plain kw
    · exact hs.2.2
  | .incomplete f kw n, b, hs, _ => by
    refine ⟨spec_plain _ ?_, fun k => extraOf_noFn _ b k trivial⟩
    intro w hw
    simp only [left, List.mem_cons, List.not_mem_nil, or_false] at hw
    rcases hw with rfl | rfl
    · exact kwWord_plain kw
    · exact hs.2.2
  | .fn .., _, _, h => by simp [left] at h

/-- There is a word which is no qualifier. -/
theorem left_words : ∀ (t : Ty) (b : Bool), Spellable b t → (left t).1.filter (fun w => !isQual w) ≠ []
  | .ctype c n i, b, _ => by cases c <;> (rw [left]; decide +kernel)
  | .ptr i t, b, h => left_words t true h
  | .ref i t, b, h => left_words t true h.1
  | .const i t, b, h => by
    have := left_words t b h.1
    unfold left
    split
    · simp only [List.filter_append]
      intro h0
      exact this (List.append_eq_nil_iff.1 h0).1
    · exact this
  | .tdef i n t, b, h => by simp [left, h.1.2.2]
  | .enum i n vs, b, h => by
    have h1 : isQual n.toList = false := h.2.2
    simp [left, h1, List.filter_cons]
    split <;> simp
  | .comp i kw n fs emb fwd ms, b, h => by simp [left, kwWord_plain]
  | .incomplete f kw n, b, h => by simp [left, kwWord_plain]
  | .fn i info s r ps, b, h => left_words r false h.2.2.1

theorem wrap_append (a b : List Layer) (s : Sem) : wrap (a ++ b) s = wrap a (wrap b s) := List.foldr_append

/-- The declaration of a parameter of type `t` ends here. -/
def Ended (p : Phase) (n : List Char) (t : Sem) : Prop :=
  finish p = some (n, t) ∧
  (∀ s stk, step (some (p, s :: stk)) .comma = some (.spec [], { s with params := s.params.snoc t } :: stk)) ∧
  (∀ s stk, step (some (p, s :: stk)) .close = some (.suffix s.name s.ws s.l (s.ls ++ [.fn (s.params.snoc t) false]), stk))

theorem ended_suffix {n : List Char} {ws : List (List Char)} {l : List Op} {ls : List Layer} (h : Op.open ∉ l) :
    Ended (.suffix n ws l ls) n (wrap (ls ++ l.map Op.layer) (spec ws)) := by
  have hf : finish (.suffix n ws l ls) = some (n, wrap (ls ++ l.map Op.layer) (spec ws)) := by simp [finish, h]
  refine ⟨hf, fun s stk => ?_, fun s stk => ?_⟩
  · simp [step, hf]
  · simp [step, h, endParams, hf]

theorem ended_spec {n : List Char} {ws : List (List Char)} (hn : isQual n = false) (hd : n ≠ ['.'])
    (hw : ws.filter (fun w => !isQual w) ≠ []) : Ended (.spec (ws ++ [n])) n (spec ws) := by
  have hf : finish (.spec (ws ++ [n])) = some (n, spec ws) := by simp [finish, hn, hw]
  refine ⟨hf, fun s stk => ?_, fun s stk => ?_⟩
  · simp [step, inSpec, hf]
  · have : endParams (.spec (ws ++ [n])) s = some (.suffix s.name s.ws s.l (s.ls ++ [.fn (s.params.snoc (spec ws)) false])) := by
      unfold endParams
      split
      · rename_i heq _
        simp at heq
      · rename_i heq
        simp only [Phase.spec.injEq] at heq
        have := congrArg List.getLast? heq
        simp at this
        exact absurd this hd
      · rw [hf]
    simp [step, inSpec, this]

theorem word_dot {n : String} (h : Word n) : n.toList ≠ ['.'] := by
  intro h0
  have := h.2.1 '.' (by rw [h0]; simp)
  exact absurd this (by decide)

/-- The phase behind the name. -/
theorem run_name {t : Ty} {b : Bool} {n : String} (hs : Spellable b t) (hf : ¬ IsFn t) (hn : Word n) (stk : List Susp) :
    step (some (mkPhase (left t).1 (left t).2, stk)) (.word n.toList) =
      some (if (left t).2 = [] then .spec ((left t).1 ++ [n.toList]) else .suffix n.toList (left t).1 (left t).2 [], stk) := by
  unfold mkPhase
  by_cases h1 : (left t).2 = []
  · simp [h1, step, inSpec]
  · simp [h1, left_open t b hs hf, step, hn.2.2]

theorem takeWhile_open (m l : List Op) (h : Op.open ∉ m) :
    (m ++ .open :: l).takeWhile (· ≠ .open) = m ∧ ((m ++ .open :: l).dropWhile (· ≠ .open)).drop 1 = l := by
  have h' : ∀ x ∈ m, decide (x ≠ Op.open) = true := by
    intro x hx
    simp only [decide_eq_true_eq]
    rintro rfl
    exact h hx
  constructor
  · rw [List.takeWhile_append_of_pos h']
    simp
  · rw [List.dropWhile_append_of_pos h']
    simp

theorem unnamed_word (k : Nat) : Word ("__easymock_param" ++ toString k) := by
  have hd : ∀ c ∈ (toString k).toList, wordChar c = true := by
    intro c hc
    have : c.isDigit = true := by
      have : (toString k).toList = Nat.toDigits 10 k := by simp [toString, Nat.repr]
      rw [this] at hc
      exact Nat.isDigit_of_mem_toDigits (by decide) (by decide) hc
    simp [wordChar, Char.isAlphanum, this]
  refine ⟨?_, ?_, ?_⟩
  · intro h0
    have := congrArg String.toList h0
    simp [String.toList_append] at this
  · intro c hc
    rw [String.toList_append, List.mem_append] at hc
    rcases hc with hc | hc
    · revert c
      decide +kernel
    · exact hd c hc
  · unfold isQual
    simp [String.toList_append]

theorem run_base {t : Ty} {b : Bool} {k : Nat} {n : List Char} {m : List Op} {ls : List Layer} {stk : List Susp}
    (hs : Spellable b t) (h0 : (left t).2 = []) (hm : Op.open ∉ m) : ∃ l' ls',
    run (some (.suffix n (left t).1 (m ++ (left t).2) ls, stk)) (toks (extraOf b k t).1.text.toList) =
      some (.suffix n (left t).1 l' ls', stk) ∧ Op.open ∉ l' ∧
    wrap (ls' ++ l'.map Op.layer) (spec (left t).1) = wrap (ls ++ m.map Op.layer) (semOf t) := by
  obtain ⟨h1, h2⟩ := left_nil t b hs h0
  refine ⟨m, ls, ?_, hm, by rw [h1]⟩
  rw [h2 k, h0]
  simp [XDecl.text, lexFrom, flush]

/-- Appends. -/
def Sems.append : Sems → Sems → Sems
  | .nil, b => b
  | .cons s a, b => .cons s (a.append b)

theorem snoc_append : ∀ (a : Sems) (s : Sem) (b : Sems), (a.snoc s).append b = a.append (.cons s b)
  | .nil, _, _ => rfl
  | .cons x a, s, b => by rw [Sems.snoc, Sems.append, Sems.append, snoc_append a s b]

theorem append_nil : ∀ (a : Sems), a.append .nil = a
  | .nil => rfl
  | .cons x a => by rw [Sems.append, append_nil a]

theorem snoc_eq (a : Sems) (s : Sem) : a.snoc s = a.append (.cons s .nil) := by rw [← snoc_append, append_nil]

theorem toks_extra (n : String) (hn : Word n) : ∀ (x : XDecl), toks (n.toList ++ x.text.toList) = .word n.toList :: toks x.text.toList
  | .none => by
    have : n.toList ++ (XDecl.none.text).toList = n.toList := by simp [XDecl.text]
    rw [this, toks_word hn]
    rfl
  | .decl ps inner => by
    obtain ⟨r, hr⟩ : ∃ r, (XDecl.decl ps inner).text.toList = ')' :: r := by
      refine ⟨'(' :: (ps.text ++ ")" ++ inner.text).toList, ?_⟩
      simp [XDecl.text, String.toList_append]
    rw [hr, toks_sep _ _ _ (by decide), toks_word hn]
    rfl

/-- Reading the declaration of a name. -/
theorem run_param {t : Ty} {b : Bool} {n : String} {x : XDecl} (stk : List Susp) (hs : Spellable b t) (hf : ¬ IsFn t) (hn : Word n)
    (hnil : (left t).2 = [] → x = .none)
    (hx : ∃ l' ls', run (some (.suffix n.toList (left t).1 ([] ++ (left t).2) [], stk)) (toks x.text.toList) =
      some (.suffix n.toList (left t).1 l' ls', stk) ∧ Op.open ∉ l' ∧
      wrap (ls' ++ l'.map Op.layer) (spec (left t).1) = wrap ([] ++ [].map Op.layer) (semOf t)) :
    ∃ p, run (some (.spec [], stk)) (toks (Types.declPrefix t ++ " " ++ n ++ x.text).toList) = some (p, stk) ∧
      Ended p n.toList (semOf t) := by
  have e : (Types.declPrefix t ++ " " ++ n ++ x.text).toList = (Types.declPrefix t).toList ++ ' ' :: (n.toList ++ x.text.toList) := by
    simp [String.toList_append]
  rw [e, toks_sep _ _ _ (by decide), toks_extra n hn, show symbol ' ' = [] from rfl, List.append_nil, run_append,
    (run_prefix t b stk hs).1]
  show ∃ p, run (step (some (mkPhase (left t).1 (left t).2, stk)) (.word n.toList)) (toks x.text.toList) = _ ∧ _
  rw [run_name hs hf hn]
  by_cases h0 : (left t).2 = []
  · rw [if_pos h0, hnil h0]
    refine ⟨.spec ((left t).1 ++ [n.toList]), by simp [XDecl.text, lexFrom, flush], ?_⟩
    rw [← (left_nil t b hs h0).1]
    exact ended_spec hn.2.2 (word_dot hn) (left_words t b hs)
  · rw [if_neg h0]
    obtain ⟨l', ls', h1, h2, h3⟩ := hx
    refine ⟨_, h1, ?_⟩
    have := ended_suffix (n := n.toList) (ws := (left t).1) (ls := ls') h2
    rwa [h3] at this

theorem declare_eq {s : String} {t : Ty} (h : s = "" ∨ s = Types.declPrefix t) : Types.declareString s t = Types.declPrefix t := by
  unfold Types.declareString
  rcases h with rfl | rfl
  · rfl
  · split <;> rfl

mutual
/-- Reading the text behind the name. -/
theorem run_extra : ∀ (t : Ty) (b : Bool) (k : Nat) (n : List Char) (m : List Op) (ls : List Layer) (stk : List Susp),
    Spellable b t → Op.open ∉ m → ∃ l' ls',
    run (some (.suffix n (left t).1 (m ++ (left t).2) ls, stk)) (toks (extraOf b k t).1.text.toList) =
      some (.suffix n (left t).1 l' ls', stk) ∧ Op.open ∉ l' ∧
    wrap (ls' ++ l'.map Op.layer) (spec (left t).1) = wrap (ls ++ m.map Op.layer) (semOf t)
  | .ptr i t, b, k, n, m, ls, stk, hs, hm => by
    obtain ⟨l', ls', h1, h2, h3⟩ := run_extra t true k n (m ++ [.star]) ls stk hs (by simp [hm])
    refine ⟨l', ls', ?_, h2, ?_⟩
    · rw [extraOf]
      simpa [left, List.append_assoc] using h1
    · rw [show (left (.ptr i t)).1 = (left t).1 from rfl, h3, List.map_append, ← List.append_assoc, wrap_append (ls ++ _)]
      rfl
  | .ref i t, b, k, n, m, ls, stk, hs, hm => by
    obtain ⟨l', ls', h1, h2, h3⟩ := run_extra t true k n (m ++ [.amp]) ls stk hs.1 (by simp [hm])
    refine ⟨l', ls', ?_, h2, ?_⟩
    · have : extraOf b k (.ref i t) = extraOf true k t := by
        cases b with
        | true => rw [extraOf]
        | false => rw [extraOf_noFn t true k (hs.2 rfl)]; exact extraOf_noFn (.ref i t) false k (hs.2 rfl)
      rw [this]
      simpa [left, List.append_assoc] using h1
    · rw [show (left (.ref i t)).1 = (left t).1 from rfl, h3, List.map_append, ← List.append_assoc, wrap_append (ls ++ _)]
      rfl
  | .const i t, b, k, n, m, ls, stk, hs, hm => by
    by_cases h0 : (left t).2 = []
    · have hl : left (.const i t) = ((left t).1 ++ ["const".toList], []) := by rw [left, if_pos h0]
      obtain ⟨h1, h2⟩ := left_nil (.const i t) b hs (by rw [hl])
      refine ⟨m, ls, ?_, hm, ?_⟩
      · rw [h2 k, hl]
        simp [XDecl.text, lexFrom, flush]
      · rw [h1]
    · have hl : left (.const i t) = ((left t).1, .qual "const".toList :: (left t).2) := by rw [left, if_neg h0]
      obtain ⟨l', ls', h1, h2, h3⟩ := run_extra t b k n (m ++ [.qual "const".toList]) ls stk hs.1 (by simp [hm])
      refine ⟨l', ls', ?_, h2, ?_⟩
      · rw [extraOf, hl]
        rw [List.append_assoc] at h1
        exact h1
      · rw [hl, h3, List.map_append, ← List.append_assoc, wrap_append (ls ++ _)]
        rfl
  | .ctype c nk i, b, k, n, m, ls, stk, hs, hm => run_base hs rfl hm
  | .tdef i nm t, b, k, n, m, ls, stk, hs, hm => run_base hs rfl hm
  | .enum i nm vs, b, k, n, m, ls, stk, hs, hm => run_base hs rfl hm
  | .comp i kw nm fs emb fwd ms, b, k, n, m, ls, stk, hs, hm => run_base hs rfl hm
  | .incomplete f kw nm, b, k, n, m, ls, stk, hs, hm => run_base hs rfl hm
  | .fn i info s r ps, b, k, n, m, ls, stk, hs, hm => by
    obtain ⟨rfl, hv, hr, hps⟩ := hs
    have hl : left (.fn i info s r ps) = ((left r).1, .open :: (left r).2) := rfl
    have ht : (extraOf true k (.fn i info s r ps)).1.text.toList =
        [] ++ ')' :: ([] ++ '(' :: ((paramSection k ps).1.text.toList ++
          ')' :: (extraOf false (paramSection k ps).2 r).1.text.toList)) := by
      rw [extraOf]
      simp [XDecl.text, String.toList_append]
    obtain ⟨l', ls', h1, h2, h3⟩ := run_extra r false (paramSection k ps).2 n [] (ls ++ m.map Op.layer ++ [.fn (semsOf ps) false]) stk hr (by simp)
    refine ⟨l', ls', ?_, h2, ?_⟩
    · rw [ht, toks_sep _ _ _ (by decide), toks_sep _ _ _ (by decide), toks_sep _ _ _ (by decide), hl]
      have e1 : toks [] ++ symbol ')' ++ (toks [] ++ symbol '(' ++ (toks (paramSection k ps).1.text.toList ++ symbol ')' ++
          toks (extraOf false (paramSection k ps).2 r).1.text.toList)) =
          [.close] ++ ([.open] ++ (toks (paramSection k ps).1.text.toList ++ [.close] ++
          toks (extraOf false (paramSection k ps).2 r).1.text.toList)) := rfl
      rw [e1, run_append]
      have e2 : run (some (.suffix n (left r).1 (m ++ .open :: (left r).2) ls, stk)) [.close] =
          some (.suffix n (left r).1 (left r).2 (ls ++ m.map Op.layer), stk) := by
        have hmem : Op.open ∈ m ++ .open :: (left r).2 := by simp
        show step (some (.suffix n (left r).1 (m ++ .open :: (left r).2) ls, stk)) .close = _
        simp only [step, if_pos hmem, (takeWhile_open m (left r).2 hm).1, (takeWhile_open m (left r).2 hm).2]
      rw [e2, run_append, run_append]
      have e3 : run (some (.suffix n (left r).1 (left r).2 (ls ++ m.map Op.layer), stk)) [.open] =
        some (.spec [], { name := n, ws := (left r).1, l := (left r).2, ls := ls ++ m.map Op.layer, params := .nil } :: stk) := rfl
      rw [e3, (run_params ps k _ stk hps (fun _ => rfl)).1]
      exact h1
    · rw [hl, h3, List.map_nil, List.append_nil, List.append_assoc, ← List.append_assoc, wrap_append (ls ++ _)]
      simp [wrap, Layer.around, semOf, hv]

/-- Reading a list of parameters up to its end, or up to a further comma. -/
theorem run_params : ∀ (ps : Params) (k : Nat) (s : Susp) (stk : List Susp), Spellables ps → (ps = .nil → s.params = .nil) →
    run (some (.spec [], s :: stk)) (toks (paramSection k ps).1.text.toList ++ [.close]) =
      some (.suffix s.name s.ws s.l (s.ls ++ [.fn (s.params.append (semsOf ps)) false]), stk) ∧
    (ps ≠ .nil → run (some (.spec [], s :: stk)) (toks (paramSection k ps).1.text.toList ++ [.comma]) =
      some (.spec [], { s with params := s.params.append (semsOf ps) } :: stk))
  | .nil, k, s, stk, _, h0 => by
    have : toks (paramSection k .nil).1.text.toList = [] := by rw [paramSection]; simp [PList.text, lexFrom, flush]
    rw [this]
    refine ⟨?_, fun h => absurd rfl h⟩
    show step (some (.spec [], s :: stk)) .close = _
    simp [step, inSpec, endParams, h0 rfl, semsOf, Sems.append]
  | .cons str t n rest, k, s, stk, hs, _ => by
    obtain ⟨hstr, ht, hn, hrest⟩ := hs
    obtain ⟨name, hname⟩ : ∃ name, name = (if n.isEmpty then "__easymock_param" ++ toString (extraOf false k t).2 else n) := ⟨_, rfl⟩
    obtain ⟨k', hk'⟩ : ∃ k', k' = (if n.isEmpty then (extraOf false k t).2 + 1 else (extraOf false k t).2) := ⟨_, rfl⟩
    have hw : Word name := by
      rw [hname]
      split
      · exact unnamed_word _
      · rename_i he
        rcases hn with rfl | hn
        · simp at he
        · exact hn
    rw [Gen.paramSection_cons, declare_eq hstr, ← hname, ← hk']
    obtain ⟨p, hp, he⟩ := run_param (s :: stk) ht (not_isFn_false t ht) hw (x := (extraOf false k t).1)
      (fun h0 => by rw [(left_nil t false ht h0).2 k]) (run_extra t false k name.toList [] [] (s :: stk) ht (by simp))
    match rest, hrest with
    | .nil, _ =>
      have e : (PList.cons (Types.declPrefix t) name (Gen.output t) (extraOf false k t).1 (paramSection k' .nil).1).text =
          Types.declPrefix t ++ " " ++ name ++ (extraOf false k t).1.text := by rw [paramSection]; simp [PList.text]
      rw [e, run_append, run_append, hp]
      refine ⟨?_, fun _ => ?_⟩
      · show step (some (p, s :: stk)) .close = _
        rw [he.2.2, snoc_eq]
        rfl
      · show step (some (p, s :: stk)) .comma = _
        rw [he.2.1, snoc_eq]
        rfl
    | .cons str' t' n' rest', hrest =>
      have ih := run_params (.cons str' t' n' rest') k' { s with params := s.params.snoc (semOf t) } stk hrest (by simp)
      rw [Gen.paramSection_cons] at ih ⊢
      have e : ∀ a b c d r, (PList.cons (Types.declPrefix t) name (Gen.output t) (extraOf false k t).1 (.cons a b c d r)).text.toList =
          (Types.declPrefix t ++ " " ++ name ++ (extraOf false k t).1.text).toList ++ ',' :: ([] ++ ' ' :: (PList.cons a b c d r).text.toList) := by
        intro a b c d r
        rw [PList.text]
        simp [String.toList_append]
      rw [e, toks_sep _ _ _ (by decide), toks_sep _ _ _ (by decide)]
      have key : ∀ ts, run (some (.spec [], s :: stk)) (toks (Types.declPrefix t ++ " " ++ name ++ (extraOf false k t).1.text).toList ++ symbol ',' ++ ts) =
          run (some (.spec [], { s with params := s.params.snoc (semOf t) } :: stk)) ts := by
        intro ts
        rw [List.append_assoc, run_append, hp, run_append,
          show run (some (p, s :: stk)) (symbol ',') = step (some (p, s :: stk)) .comma from rfl, he.2.1]
      rw [List.append_assoc _ _ [Tok.close], List.append_assoc _ _ [Tok.comma], key, key]
      rw [snoc_append] at ih
      exact ⟨ih.1, fun _ => ih.2 (by simp)⟩
end

end EasyMock.CDecl
