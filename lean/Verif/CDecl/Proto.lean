import Verif.CDecl.Read

/-! # CDecl: prototypes -/

namespace EasyMock.CDecl

open EasyMock.Types (Ty Params CT Kw)
open EasyMock.Gen (extraOf paramSection XDecl PList)

/-- The result at the end of the text. -/
def atEnd : State → Option (List Char × Sem)
  | some (p, []) => finish p
  | _ => none

theorem read_eq (s : String) : read s = atEnd (run (some (.spec [], [])) (toks s.toList)) := by
  unfold read lex atEnd
  rfl

/-- The declaration of a name with a type. -/
theorem read_param {t : Ty} {n : String} (k : Nat) (hs : Spellable false t) (hn : Word n) :
    read (Types.declPrefix t ++ " " ++ n ++ (extraOf false k t).1.text) = some (n.toList, semOf t) := by
  obtain ⟨p, hp, he⟩ := run_param [] hs (not_isFn_false t hs) hn (x := (extraOf false k t).1)
    (fun h0 => by rw [(left_nil t false hs h0).2 k]) (run_extra t false k n.toList [] [] [] hs (by simp))
  rw [read_eq, hp]
  exact he.1

theorem prefix_head : ∀ (t : Ty) (b : Bool), Spellable b t → ∃ w r, toks (Types.declPrefix t).toList = .word w :: r
  | .ctype c n i, b, _ => by
    rw [show Types.declPrefix (.ctype c n i) = c.str from rfl, (toks_scalar c).1]
    cases c <;> exact ⟨_, _, rfl⟩
  | .ptr i t, b, h => by
    obtain ⟨w, r, hw⟩ := prefix_head t true h
    have : (Types.declPrefix (.ptr i t)).toList = (Types.declPrefix t).toList ++ '*' :: [] := by
      simp [Types.declPrefix, String.toList_append]
    rw [this, toks_sep _ _ _ (by decide), hw]
    exact ⟨w, _, rfl⟩
  | .ref i t, b, h => by
    obtain ⟨w, r, hw⟩ := prefix_head t true h.1
    have : (Types.declPrefix (.ref i t)).toList = (Types.declPrefix t).toList ++ '&' :: [] := by
      simp [Types.declPrefix, String.toList_append]
    rw [this, toks_sep _ _ _ (by decide), hw]
    exact ⟨w, _, rfl⟩
  | .const i t, b, h => by
    obtain ⟨w, r, hw⟩ := prefix_head t b h.1
    obtain ⟨-, h2, h3, h4⟩ := run_prefix t b [] h.1
    have e : (Types.declPrefix (.const i t)).toList = (Types.declPrefix t).toList ++ ' ' :: "const".toList := by
      simp [Types.declPrefix, h4 h.2, Types.trimR_append_blank _ h2 h3, String.toList_append]
    rw [e, toks_sep _ _ _ (by decide), hw]
    exact ⟨w, _, rfl⟩
  | .tdef i n t, b, h => by
    rw [show Types.declPrefix (.tdef i n t) = n from rfl, toks_word h.1]
    exact ⟨_, _, rfl⟩
  | .enum i n vs, b, h => by
    have e : Types.declPrefix (.enum i n vs) = Types.trimR ("enum" ++ " " ++ n) := rfl
    rw [e, (kw_toks "enum" n word_enum h).1]
    exact ⟨_, _, rfl⟩
  | .comp i kw n fs emb fwd ms, b, h => by
    have e : Types.declPrefix (.comp i kw n fs emb fwd ms) = Types.trimR (kwWord kw ++ " " ++ n) := by
      rw [← kw_text]; rfl
    rw [e, (kw_toks (kwWord kw) n (word_kw kw) h).1]
    exact ⟨_, _, rfl⟩
  | .incomplete f kw n, b, h => by
    have e : Types.declPrefix (.incomplete f kw n) = Types.trimR (kwWord kw ++ " " ++ n) := by
      rw [← kw_text]; rfl
    rw [e, (kw_toks (kwWord kw) n (word_kw kw) h).1]
    exact ⟨_, _, rfl⟩
  | .fn i info s r ps, b, h => by
    obtain ⟨w, r', hw⟩ := prefix_head r false h.2.2.1
    have : (Types.declPrefix (.fn i info s r ps)).toList = (Types.declPrefix r).toList ++ '(' :: [] := by
      simp [Types.declPrefix, String.toList_append]
    rw [this, toks_sep _ _ _ (by decide), hw]
    exact ⟨w, _, rfl⟩

theorem plist_text (a b : String) (o : Gen.Out) (x : XDecl) (r : PList) :
    ∃ rest, (PList.cons a b o x r).text.toList = a.toList ++ ' ' :: rest := by
  cases r with
  | nil => exact ⟨(b ++ x.text).toList, by simp [PList.text, String.toList_append]⟩
  | cons a' b' o' x' r' =>
    exact ⟨(b ++ x.text ++ ", " ++ (PList.cons a' b' o' x' r').text).toList, by rw [PList.text]; simp [String.toList_append]⟩

/-! ## Lists of parameters -/

/-- The text of a parameter is read as type `S`, whatever the name is. -/
def Entry (s : String) (t : Ty) (S : Sem) : Prop :=
  (∀ (k : Nat) (n : String) (stk : List Susp), Word n → ∃ p,
    run (some (.spec [], stk)) (toks (Types.declareString s t ++ " " ++ n ++ (extraOf false k t).1.text).toList) = some (p, stk) ∧
      Ended p n.toList S) ∧
  ∃ w r, toks (Types.declareString s t).toList = .word w :: r

/-- The parameters are read as types `Ss`. -/
inductive Listed : Params → Sems → Prop
  | nil : Listed .nil .nil
  | cons {s t n rest S Ss} : (n = "" ∨ Word n) → Entry s t S → Listed rest Ss → Listed (.cons s t n rest) (.cons S Ss)

theorem entry_type {s : String} {t : Ty} (h : s = "" ∨ s = Types.declPrefix t) (ht : Spellable false t) : Entry s t (semOf t) := by
  unfold Entry
  rw [declare_eq h]
  refine ⟨fun k n stk hn => ?_, prefix_head t false ht⟩
  exact run_param stk ht (not_isFn_false t ht) hn (x := (extraOf false k t).1)
    (fun h0 => by rw [(left_nil t false ht h0).2 k]) (run_extra t false k n.toList [] [] stk ht (by simp))

theorem listed_types : ∀ (ps : Params), Spellables ps → Listed ps (semsOf ps)
  | .nil, _ => .nil
  | .cons _ _ _ rest, h => .cons h.2.2.1 (entry_type h.1 h.2.1) (listed_types rest h.2.2.2)

/-- More entries on the stack do not matter. -/
theorem step_frame {p : Phase} {stk : List Susp} {t : Tok} {p' : Phase} {stk' : List Susp} (more : List Susp)
    (h : step (some (p, stk)) t = some (p', stk')) : step (some (p, stk ++ more)) t = some (p', stk' ++ more) := by
  have hin : ∀ (ws : List (List Char)) (stk : List Susp) (t : Tok), inSpec ws stk t = some (p', stk') →
      inSpec ws (stk ++ more) t = some (p', stk' ++ more) := by
    intro ws stk t h
    cases t with
    | comma =>
      cases stk with
      | nil => simp [inSpec] at h
      | cons s stk =>
        simp only [inSpec, List.cons_append] at h ⊢
        split at h
        · rename_i s0 stk0 n0 t0 e1 e2
          cases e1
          rw [e2]
          simp only [Option.some.injEq, Prod.mk.injEq] at h ⊢
          obtain ⟨rfl, rfl⟩ := h
          exact ⟨rfl, rfl⟩
        · cases h
    | close =>
      cases stk with
      | nil => simp [inSpec] at h
      | cons s stk =>
        simp only [inSpec, List.cons_append, Option.map_eq_some_iff, Prod.mk.injEq] at h ⊢
        obtain ⟨a, h1, rfl, rfl⟩ := h
        exact ⟨_, h1, rfl, rfl⟩
    | _ =>
      simp only [inSpec, Option.some.injEq, Prod.mk.injEq, reduceCtorEq] at h ⊢
      try (obtain ⟨rfl, rfl⟩ := h; exact ⟨rfl, rfl⟩)
  cases p with
  | spec ws => exact hin ws stk t h
  | pend ws =>
    cases t with
    | star | amp =>
      simp only [step, Option.some.injEq, Prod.mk.injEq] at h ⊢
      obtain ⟨rfl, rfl⟩ := h; exact ⟨rfl, rfl⟩
    | «open» => simp [step] at h
    | _ =>
      simp only [step] at h ⊢
      split at h
      · cases h
      · split at h
        · cases h
        · rename_i h0 _ h1
          rw [if_neg h1]
          exact hin _ (_ :: stk) _ h
  | ops ws l =>
    cases t with
    | word w =>
      simp only [step] at h ⊢
      split at h
      · rename_i hq
        rw [if_pos hq]
        simp only [Option.some.injEq, Prod.mk.injEq] at h ⊢
        obtain ⟨rfl, rfl⟩ := h; exact ⟨rfl, rfl⟩
      · rename_i hq
        rw [if_neg hq]
        simp only [Option.some.injEq, Prod.mk.injEq] at h ⊢
        obtain ⟨rfl, rfl⟩ := h; exact ⟨rfl, rfl⟩
    | _ =>
      simp only [step, Option.some.injEq, Prod.mk.injEq, reduceCtorEq] at h ⊢
      try (obtain ⟨rfl, rfl⟩ := h; exact ⟨rfl, rfl⟩)
  | suffix n ws l ls =>
    cases t with
    | «open» =>
      simp only [step, Option.some.injEq, Prod.mk.injEq] at h ⊢
      obtain ⟨rfl, rfl⟩ := h; exact ⟨rfl, rfl⟩
    | close =>
      simp only [step] at h ⊢
      split at h
      · rename_i ho
        rw [if_pos ho]
        simp only [Option.some.injEq, Prod.mk.injEq] at h ⊢
        obtain ⟨rfl, rfl⟩ := h; exact ⟨rfl, rfl⟩
      · rename_i ho
        rw [if_neg ho]
        cases stk with
        | nil => simp at h
        | cons s stk =>
          simp only [List.cons_append, Option.map_eq_some_iff, Prod.mk.injEq] at h ⊢
          obtain ⟨a, h1, rfl, rfl⟩ := h
          exact ⟨_, h1, rfl, rfl⟩
    | comma =>
      cases stk with
      | nil => simp [step] at h
      | cons s stk =>
        simp only [step, List.cons_append] at h ⊢
        split at h
        · rename_i s0 stk0 n0 t0 e1 e2
          cases e1
          rw [e2]
          simp only [Option.some.injEq, Prod.mk.injEq] at h ⊢
          obtain ⟨rfl, rfl⟩ := h
          exact ⟨rfl, rfl⟩
        · cases h
    | word w =>
      simp only [step] at h ⊢
      split at h
      · rename_i e1 e2
        simp only [Option.some.injEq, Prod.mk.injEq] at h ⊢
        obtain ⟨rfl, rfl⟩ := h; exact ⟨rfl, rfl⟩
      · cases h
    | _ => simp [step] at h

theorem run_none (ts : List Tok) : run none ts = none := by
  induction ts with
  | nil => rfl
  | cons t ts ih => exact ih

theorem run_frame (more : List Susp) : ∀ (ts : List Tok) (p : Phase) (stk : List Susp) (p' : Phase) (stk' : List Susp),
    run (some (p, stk)) ts = some (p', stk') → run (some (p, stk ++ more)) ts = some (p', stk' ++ more)
  | [], p, stk, p', stk', h => by
    simp only [run, List.foldl_nil, Option.some.injEq, Prod.mk.injEq] at h ⊢
    obtain ⟨rfl, rfl⟩ := h; exact ⟨rfl, rfl⟩
  | t :: ts, p, stk, p', stk', h => by
    have h : run (step (some (p, stk)) t) ts = some (p', stk') := h
    show run (step (some (p, stk ++ more)) t) ts = _
    cases e : step (some (p, stk)) t with
    | none => rw [e, run_none] at h; cases h
    | some q =>
      obtain ⟨q, stk1⟩ := q
      rw [e] at h
      rw [step_frame more e]
      exact run_frame more ts q stk1 p' stk' h

/-- What ends a declaration ends the declaration of a parameter. -/
theorem ended_of_finish {p : Phase} {n : String} {S : Sem} (hn : Word n) (h : finish p = some (n.toList, S)) : Ended p n.toList S := by
  cases p with
  | spec ws =>
    obtain ⟨ws', rfl⟩ : ∃ ws', ws = ws' ++ [n.toList] := by
      simp only [finish] at h
      split at h
      · cases h
      · rename_i m hm
        split at h
        · cases h
        · simp only [Option.some.injEq, Prod.mk.injEq] at h
          rw [← h.1]
          exact List.getLast?_eq_some_iff.1 hm
    simp only [finish, List.getLast?_append, List.getLast?_singleton, Option.some_or, List.dropLast_concat] at h
    split at h
    · cases h
    · rename_i hq
      simp only [not_or] at hq
      simp only [Option.some.injEq, Prod.mk.injEq, true_and] at h
      subst h
      exact ended_spec hn.2.2 (word_dot hn) hq.1
  | suffix m ws l ls =>
    simp only [finish] at h
    split at h
    · cases h
    · rename_i ho
      simp only [Option.some.injEq, Prod.mk.injEq] at h
      obtain ⟨rfl, rfl⟩ := h
      exact ended_suffix ho
  | pend ws => simp [finish] at h
  | ops ws l => simp [finish] at h

theorem not_empty_head {s : String} {w : List Char} {r : List Tok} (h : toks s.toList = .word w :: r) : s.isEmpty = false := by
  cases he : s.isEmpty with
  | false => rfl
  | true =>
    have : s = "" := by simpa using he
    subst this
    simp [lexFrom, flush] at h

/-- A text which declares every name with the type `S`. -/
theorem entry_text {s : String} {t : Ty} {S : Sem} (ht : NoFn t) (hh : ∃ w r, toks s.toList = .word w :: r)
    (hr : ∀ n, Word n → read (s ++ " " ++ n) = some (n.toList, S)) : Entry s t S := by
  obtain ⟨w, r, hw⟩ := hh
  have hd : Types.declareString s t = s := by
    rw [Types.declareString, not_empty_head hw]
    rfl
  refine ⟨fun k n stk hn => ?_, by rw [hd]; exact ⟨w, r, hw⟩⟩
  have h := hr n hn
  rw [hd, extraOf_noFn t false k ht]
  rw [show s ++ " " ++ n ++ (XDecl.none, k).1.text = s ++ " " ++ n by simp [XDecl.text]]
  rw [read_eq] at h
  generalize hst : run (some (.spec [], [])) (toks (s ++ " " ++ n).toList) = st at h
  match st, h with
  | some (p, []), h =>
    refine ⟨p, ?_, ended_of_finish hn h⟩
    simpa using run_frame stk _ _ _ _ _ hst
  | none, h => simp [atEnd] at h
  | some (p, _ :: _), h => simp [atEnd] at h

/-- Reading a list of parameters up to its end, or up to a further comma. -/
theorem run_listed : ∀ (ps : Params) (Ss : Sems) (k : Nat) (s : Susp) (stk : List Susp), Listed ps Ss → (ps = .nil → s.params = .nil) →
    run (some (.spec [], s :: stk)) (toks (paramSection k ps).1.text.toList ++ [.close]) =
      some (.suffix s.name s.ws s.l (s.ls ++ [.fn (s.params.append Ss) false]), stk) ∧
    (ps ≠ .nil → run (some (.spec [], s :: stk)) (toks (paramSection k ps).1.text.toList ++ [.comma]) =
      some (.spec [], { s with params := s.params.append Ss } :: stk))
  | .nil, _, k, s, stk, .nil, h0 => by
    have : toks (paramSection k .nil).1.text.toList = [] := by rw [paramSection]; simp [PList.text, lexFrom, flush]
    rw [this]
    refine ⟨?_, fun h => absurd rfl h⟩
    show step (some (.spec [], s :: stk)) .close = _
    simp [step, inSpec, endParams, h0 rfl, Sems.append]
  | .cons str t n rest, _, k, s, stk, .cons (S := S) (Ss := Ss) hn hent hrest, _ => by
    obtain ⟨name, hname⟩ : ∃ name, name = (if n.isEmpty then "__easymock_param" ++ toString (extraOf false k t).2 else n) := ⟨_, rfl⟩
    obtain ⟨k', hk'⟩ : ∃ k', k' = (if n.isEmpty then (extraOf false k t).2 + 1 else (extraOf false k t).2) := ⟨_, rfl⟩
    have hw : Word name := by
      rw [hname]
      split
      · exact unnamed_word _
      · rename_i he
        rcases hn with rfl | hn
        · simp at he
        · exact hn
    rw [Gen.paramSection_cons, ← hname, ← hk']
    obtain ⟨p, hp, he⟩ := hent.1 k name (s :: stk) hw
    match rest, Ss, hrest with
    | .nil, _, .nil =>
      have e : (PList.cons (Types.declareString str t) name (Gen.output t) (extraOf false k t).1 (paramSection k' .nil).1).text =
          Types.declareString str t ++ " " ++ name ++ (extraOf false k t).1.text := by rw [paramSection]; simp [PList.text]
      rw [e, run_append, run_append, hp]
      refine ⟨?_, fun _ => ?_⟩
      · show step (some (p, s :: stk)) .close = _
        rw [he.2.2, snoc_eq]
      · show step (some (p, s :: stk)) .comma = _
        rw [he.2.1, snoc_eq]
    | .cons str' t' n' rest', Ss, hrest =>
      have ih := run_listed (.cons str' t' n' rest') Ss k' { s with params := s.params.snoc S } stk hrest (by simp)
      rw [Gen.paramSection_cons] at ih ⊢
      have e : ∀ a b c d r, (PList.cons (Types.declareString str t) name (Gen.output t) (extraOf false k t).1 (.cons a b c d r)).text.toList =
          (Types.declareString str t ++ " " ++ name ++ (extraOf false k t).1.text).toList ++ ',' :: ([] ++ ' ' :: (PList.cons a b c d r).text.toList) := by
        intro a b c d r
        rw [PList.text]
        simp [String.toList_append]
      rw [e, toks_sep _ _ _ (by decide), toks_sep _ _ _ (by decide)]
      have key : ∀ ts, run (some (.spec [], s :: stk)) (toks (Types.declareString str t ++ " " ++ name ++ (extraOf false k t).1.text).toList ++ symbol ',' ++ ts) =
          run (some (.spec [], { s with params := s.params.snoc S } :: stk)) ts := by
        intro ts
        rw [List.append_assoc, run_append, hp, run_append,
          show run (some (p, s :: stk)) (symbol ',') = step (some (p, s :: stk)) .comma from rfl, he.2.1]
      rw [List.append_assoc _ _ [Tok.close], List.append_assoc _ _ [Tok.comma], key, key]
      rw [snoc_append] at ih
      exact ⟨ih.1, fun _ => ih.2 (by simp)⟩

/-! ## Prototypes -/

/-- The text between the parentheses of a function. -/
def argsText (k : Nat) (ps : Params) (v : Bool) : String :=
  (paramSection k ps).1.text ++ (if v then (if (paramSection k ps).1.entries.isEmpty then "" else ", ") ++ "..." else "")

theorem dots_close (s : Susp) (stk : List Susp) :
    run (some (.spec [], s :: stk)) ([.word ['.'], .word ['.'], .word ['.']] ++ [.close]) =
      some (.suffix s.name s.ws s.l (s.ls ++ [.fn s.params true]), stk) := by
  simp [run, step, inSpec, endParams]

theorem run_args (ps : Params) {Ss : Sems} (v : Bool) (k : Nat) (s : Susp) (stk : List Susp) (hs : Listed ps Ss) (h0 : s.params = .nil) :
    run (some (.spec [], s :: stk)) (toks (argsText k ps v).toList ++ [.close]) =
      some (.suffix s.name s.ws s.l (s.ls ++ [.fn Ss v]), stk) := by
  have h1 := run_listed ps Ss k s stk hs (fun _ => h0)
  rw [h0, show Sems.append .nil Ss = Ss from rfl] at h1
  cases v with
  | false =>
    rw [argsText]
    simpa using h1.1
  | true =>
    cases ps with
    | nil =>
      have e : toks (argsText k .nil true).toList = [.word ['.'], .word ['.'], .word ['.']] := by
        rw [argsText, paramSection]
        simp [PList.text, PList.entries]
        decide
      rw [e, dots_close, h0]
      cases hs
      rfl
    | cons str t n rest =>
      have e : (argsText k (.cons str t n rest) true).toList = (paramSection k (.cons str t n rest)).1.text.toList ++ ',' :: " ...".toList := by
        rw [argsText]
        rw [if_pos rfl]
        rw [if_neg (by rw [Gen.paramSection_cons]; simp [PList.entries])]
        simp [String.toList_append]
      have e2 : toks " ...".toList = [.word ['.'], .word ['.'], .word ['.']] := by decide
      rw [e, toks_sep _ _ _ (by decide), show symbol ',' = [Tok.comma] from rfl, e2, List.append_assoc, run_append,
        h1.2 (by simp), dots_close]

theorem args_head (ps : Params) {Ss : Sems} (v : Bool) (k : Nat) (hs : Listed ps Ss) :
    ∃ t r, toks (argsText k ps v).toList ++ [.close] = t :: r ∧ (t = .close ∨ ∃ w, t = .word w) := by
  cases hs with
  | nil =>
    rw [argsText, paramSection]
    cases v
    · exact ⟨.close, [], by simp [PList.text, lexFrom, flush], Or.inl rfl⟩
    · refine ⟨.word ['.'], [.word ['.'], .word ['.'], .close], ?_, Or.inr ⟨_, rfl⟩⟩
      simp [PList.text, PList.entries]
      decide
  | @cons s t n rest S Ss hn hent hrest =>
    obtain ⟨w, r, hw⟩ := hent.2
    obtain ⟨r1, h1⟩ := plist_text (Types.declareString s t)
      (if n.isEmpty then "__easymock_param" ++ toString (extraOf false k t).2 else n) (Gen.output t) (extraOf false k t).1
      (paramSection (if n.isEmpty then (extraOf false k t).2 + 1 else (extraOf false k t).2) rest).1
    have e : ∃ r2, (argsText k (.cons s t n rest) v).toList = (Types.declareString s t).toList ++ ' ' :: r2 := by
      rw [argsText, Gen.paramSection_cons, String.toList_append, h1, List.append_assoc]
      exact ⟨_, rfl⟩
    obtain ⟨r2, h2⟩ := e
    rw [h2, toks_sep _ _ _ (by decide), hw]
    exact ⟨.word w, _, rfl, Or.inr ⟨w, rfl⟩⟩

theorem run_pend {ws : List (List Char)} {n : List Char} (hn : isQual n = false) (hw : ws.filter (fun w => !isQual w) ≠ [])
    (stk : List Susp) {ts : List Tok} (h : ∃ t r, ts = t :: r ∧ (t = .close ∨ ∃ w, t = .word w)) :
    run (some (.pend (ws ++ [n]), stk)) ts =
      run (some (.spec [], { name := n, ws := ws, l := [], ls := [], params := .nil } :: stk)) ts := by
  obtain ⟨t, r, rfl, ht⟩ := h
  show run (step _ t) r = run (step _ t) r
  congr 1
  rcases ht with rfl | ⟨w, rfl⟩
  · simp [step, hn, hw]
  · simp [step, hn, hw]

theorem sig_toks (ret : List Char) {name : String} (hn : Word name) (args post : List Char) :
    toks (ret ++ ' ' :: (name.toList ++ '(' :: (args ++ ')' :: post))) =
      toks ret ++ ([.word name.toList] ++ ([.open] ++ (toks args ++ [.close] ++ toks post))) := by
  rw [toks_sep _ _ _ (by decide), toks_sep _ _ _ (by decide), toks_sep _ _ _ (by decide), toks_word hn]
  rw [show symbol ' ' = [] from rfl, show symbol '(' = [Tok.open] from rfl, show symbol ')' = [Tok.close] from rfl,
    List.append_nil, List.append_assoc [Tok.word name.toList]]

/-- A function declared with the text of its result, which declares another name with the type `R`. -/
theorem run_signature {ret n name : String} {R : Sem} (hm : Word n) (hn : Word name)
    (hr : read (ret ++ " " ++ n) = some (n.toList, R)) (ps : Params) {Ss : Sems} (v : Bool) (k : Nat) (hs : Listed ps Ss) :
    ∃ ws l, run (some (.spec [], [])) (toks (ret ++ " " ++ name ++ "(" ++ argsText k ps v ++ ")").toList) =
      some (.suffix name.toList ws l [.fn Ss v], []) ∧ Op.open ∉ l ∧ wrap (l.map Op.layer) (spec ws) = R := by
  have e1 : (ret ++ " " ++ n).toList = ret.toList ++ ' ' :: n.toList := by simp [String.toList_append]
  have e2 : (ret ++ " " ++ name ++ "(" ++ argsText k ps v ++ ")").toList =
      ret.toList ++ ' ' :: (name.toList ++ '(' :: ((argsText k ps v).toList ++ ')' :: [])) := by simp [String.toList_append]
  rw [read_eq] at hr
  rw [e1, toks_sep _ _ _ (by decide), toks_word hm, show symbol ' ' = [] from rfl, List.append_nil, run_append] at hr
  rw [e2, sig_toks _ hn, run_append]
  generalize hst : run (some (.spec [], [])) (toks ret.toList) = st at hr ⊢
  have hargs := fun s => run_args ps v k s [] hs
  match st with
  | none => simp [run, step, atEnd] at hr
  | some (.spec ws, stk) =>
    have h1 : run (some (.spec ws, stk)) [.word n.toList] = some (.spec (ws ++ [n.toList]), stk) := rfl
    rw [h1] at hr
    cases stk with
    | cons s stk => simp [atEnd] at hr
    | nil =>
      simp only [atEnd, finish, List.getLast?_append, List.getLast?_singleton, Option.some_or, List.dropLast_concat] at hr
      split at hr
      · cases hr
      · rename_i hq
        simp only [not_or] at hq
        obtain ⟨hq, -⟩ := hq
        have hR : R = spec ws := by simpa using hr.symm
        have h2 : run (some (.spec ws, [])) ([.word name.toList] ++ ([.open] ++ (toks (argsText k ps v).toList ++ [.close] ++ toks []))) =
            run (some (.pend (ws ++ [name.toList]), [])) (toks (argsText k ps v).toList ++ [.close]) := by
          rw [show toks [] = [] from rfl, List.append_nil]
          rfl
        refine ⟨ws, [], ?_, by simp, ?_⟩
        · rw [h2, run_pend hn.2.2 hq [] (args_head ps v k hs), hargs _ rfl]
          rfl
        · rw [hR]; rfl
  | some (.pend ws, stk) =>
    exfalso
    simp only [run, List.foldl_cons, List.foldl_nil, step] at hr
    cases hl : ws.getLast? with
    | none => simp [hl, atEnd] at hr
    | some m =>
      simp only [hl] at hr
      split at hr
      · cases hr
      · simp [inSpec, atEnd] at hr
  | some (.ops ws l, stk) =>
    simp only [run, List.foldl_cons, List.foldl_nil, step, hm.2.2, Bool.false_eq_true, if_false] at hr
    cases stk with
    | cons s stk => simp [atEnd] at hr
    | nil =>
      simp only [atEnd, finish, List.nil_append] at hr
      split at hr
      · cases hr
      · rename_i hl
        have hR : R = wrap (l.map Op.layer) (spec ws) := by simpa using hr.symm
        have h2 : run (some (.ops ws l, [])) ([.word name.toList] ++ ([.open] ++ (toks (argsText k ps v).toList ++ [.close] ++ toks []))) =
            run (some (.spec [], [{ name := name.toList, ws := ws, l := l, ls := [], params := .nil }])) (toks (argsText k ps v).toList ++ [.close]) := by
          rw [show toks [] = [] from rfl, List.append_nil, run_append, run_append]
          simp only [run, List.foldl_cons, List.foldl_nil, step, hn.2.2, Bool.false_eq_true, if_false]
        refine ⟨ws, l, ?_, hl, hR.symm⟩
        rw [h2, hargs _ rfl]
        rfl
  | some (.suffix m ws l ls, stk) => simp [run, step, atEnd, hm.2.2] at hr

/-- A function declared with the text of its result. -/
theorem read_signature {ret n name : String} {R : Sem} (hm : Word n) (hn : Word name)
    (hr : read (ret ++ " " ++ n) = some (n.toList, R)) (ps : Params) {Ss : Sems} (v : Bool) (k : Nat) (hs : Listed ps Ss) :
    read (ret ++ " " ++ name ++ "(" ++ argsText k ps v ++ ")") = some (name.toList, .fn R Ss v) := by
  obtain ⟨ws, l, h1, h2, h3⟩ := run_signature hm hn hr ps v k hs
  rw [read_eq, h1]
  simp only [atEnd, finish, h2, if_false]
  rw [wrap_append, h3]
  rfl

/-- The same for a function of constant objects. -/
theorem read_signature_const {ret n name : String} {R : Sem} (hm : Word n) (hn : Word name)
    (hr : read (ret ++ " " ++ n) = some (n.toList, R)) (ps : Params) {Ss : Sems} (v : Bool) (k : Nat) (hs : Listed ps Ss) :
    read (ret ++ " " ++ name ++ "(" ++ argsText k ps v ++ ")" ++ " const") =
      some (name.toList, .qual "const".toList (.fn R Ss v)) := by
  obtain ⟨ws, l, h1, h2, h3⟩ := run_signature hm hn hr ps v k hs
  have e : (ret ++ " " ++ name ++ "(" ++ argsText k ps v ++ ")" ++ " const").toList =
      (ret ++ " " ++ name ++ "(" ++ argsText k ps v ++ ")").toList ++ ' ' :: "const".toList := by simp [String.toList_append]
  rw [read_eq, e, toks_sep _ _ _ (by decide), show symbol ' ' = [] from rfl, List.append_nil, run_append, h1]
  rw [show toks "const".toList = [.word "const".toList] by decide]
  have hs : run (some (.suffix name.toList ws l [.fn Ss v], [])) [.word "const".toList] =
      some (.suffix name.toList ws l [.qual "const".toList, .fn Ss v], []) := by
    simp [run, step, isQual]
  rw [hs]
  simp only [atEnd, finish, h2, if_false]
  rw [wrap_append, h3]
  rfl

/-- A function declared with the type of its result. -/
theorem read_signature_type {t : Ty} {name : String} (hn : Word name) (ht : Spellable false t)
    (ps : Params) {Ss : Sems} (v : Bool) (k j : Nat) (hs : Listed ps Ss) :
    read (Types.declPrefix t ++ " " ++ name ++ "(" ++ argsText k ps v ++ ")" ++ (extraOf false j t).1.text) =
      some (name.toList, .fn (semOf t) Ss v) := by
  by_cases h0 : (left t).2 = []
  · have h1 := read_param j ht hn
    rw [(left_nil t false ht h0).2 j] at h1 ⊢
    have := read_signature hn hn (by simpa [XDecl.text] using h1) ps v k hs
    simpa [XDecl.text] using this
  · have e : (Types.declPrefix t ++ " " ++ name ++ "(" ++ argsText k ps v ++ ")" ++ (extraOf false j t).1.text).toList =
      (Types.declPrefix t).toList ++ ' ' :: (name.toList ++ '(' :: ((argsText k ps v).toList ++ ')' :: (extraOf false j t).1.text.toList)) := by
      simp [String.toList_append]
    obtain ⟨l', ls', h1, h2, h3⟩ := run_extra t false j name.toList [] [.fn Ss v] [] ht (by simp)
    have hr := (run_prefix t false [] ht).1
    have hm := run_name (stk := []) ht (not_isFn_false t ht) hn
    rw [if_neg h0] at hm
    rw [read_eq, e, sig_toks _ hn, run_append, hr]
    have h4 : run (some (mkPhase (left t).1 (left t).2, []))
        ([.word name.toList] ++ ([.open] ++ (toks (argsText k ps v).toList ++ [.close] ++ toks (extraOf false j t).1.text.toList))) =
        run (run (some (.spec [], [{ name := name.toList, ws := (left t).1, l := (left t).2, ls := [], params := .nil }]))
          (toks (argsText k ps v).toList ++ [.close])) (toks (extraOf false j t).1.text.toList) := by
      rw [run_append]
      rw [show run (some (mkPhase (left t).1 (left t).2, [])) [.word name.toList] =
        some (.suffix name.toList (left t).1 (left t).2 [], []) from hm, run_append, run_append]
      rfl
    rw [h4, run_args ps v k _ [] hs rfl]
    rw [List.nil_append] at h1
    show atEnd (run (some (.suffix name.toList (left t).1 (left t).2 [.fn Ss v], [])) _) = _
    rw [h1]
    simp only [atEnd, finish, h2, if_false, h3]
    simp [wrap, Layer.around]

end EasyMock.CDecl
