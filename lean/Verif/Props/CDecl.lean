import Verif.CDecl.File
import Verif.Props.Parser
import Verif.Props.ParserTypes

/-! # C76: the mock is declared with the types of the function -/

namespace EasyMock.CDecl

open EasyMock.Types (Ty Params CT Kw FunDecl Access)
open EasyMock.Parser
open EasyMock.Gen (extraOf mockSignature funSection Config XDecl)

/-- The text in front of the name of a function consists of words; those which are no storage class and do not stand for
    nothing are `kept`.  (The conditions of C70.) -/
def ResultWords (ms : MacroInfo) (text : List Char) (kept : List (List Char)) : Prop :=
  ∃ (ws : List (List Char)) (tail : List Char) (keep : List Char → Bool), text = [' '].intercalate ws ++ tail ∧ kept = ws.filter keep ∧
    ws ≠ [] ∧ (∀ w ∈ ws, TypeWord w) ∧ (tail = [' '] ∨ (tail = [] ∧ ∀ l w, ws = l ++ [w] → ∀ c ∈ w, c = '*')) ∧
    (∀ t, Nothing ms t → ∀ c ∈ t, c.isAlphanum = true ∨ c = '_') ∧
    (∀ t, Nothing ms t → ∀ w ∈ ws, t <:+: w → w = t) ∧
    (∀ k ∈ ["inline".toList, "extern".toList, "static".toList], (∀ w ∈ ws, k <:+ w → w = k) ∧ ws.count k ≤ 1 ∧ ∀ l, ws ≠ l ++ [k]) ∧
    (∀ w ∈ ws, keep w = true ↔ ¬ Nothing ms w ∧ w ∉ ["inline".toList, "extern".toList, "static".toList])

/-- `R` is the type of the result of a function: it is what the kept words of the source say; for a pointer to a function which
    is not called by a typedef it is the type of the program. -/
inductive ResultIs (D : Decls) (ms : MacroInfo) (d : FnD) (R : Sem) : Prop
  | words (kept : List (List Char)) : ResultWords ms d.retText kept →
      read (String.ofList ([' '].intercalate kept) ++ " " ++ d.name) = some (d.name.toList, R) →
      (CNoFn d.ret.ty ∨ ∃ n k v t, d.ret = .mk false v (.tdef n (.mk k false t)) ∧ n ≠ "" ∧ ¬ CFn t ∧ ¬ CArr t) → ResultIs D ms d R
  | fnPtr : PlainQ D false d.ret → PointsToFn d.ret.ty → (d.ret.isConst = true ∨ NoTdef d.ret.ty) → R = spellQ D d.ret →
      ResultIs D ms d R

theorem extra_none : ∀ (t : Ty) (b : Bool) (k : Nat), NoFn t → extraOf b k t = (.none, k)
  | .ptr _ t, b, k, h => by rw [extraOf]; exact extra_none t true k h
  | .const _ t, b, k, h => by rw [extraOf]; exact extra_none t b k h
  | .ref _ t, true, k, h => by rw [extraOf]; exact extra_none t true k h
  | .tdef _ _ t, true, k, h => by rw [extraOf]; exact extra_none t true k h
  | .ref _ _, false, k, _ | .tdef _ _ _, false, k, _ => by simp [extraOf]
  | .fn .., _, _, h => h.elim
  | .ctype .., b, k, _ | .enum .., b, k, _ | .comp .., b, k, _ | .incomplete .., b, k, _ => by cases b <;> simp [extraOf]

theorem isFn_noFn : ∀ (c : CTy), CNoFn c → c.isFn = false
  | .ptr (.mk _ _ t), h => isFn_noFn t h
  | .tdef _ (.mk _ _ t), h => isFn_noFn t h
  | .fn .., h => h.elim
  | .builtin _, _ | .ref _, _ | .arr .., _ | .record _, _ | .enum _, _ => rfl

theorem words_nil : Parser.words [] = [] := rfl

theorem words_spaced {ws : List (List Char)} (h : ∀ w ∈ ws, w ≠ [] ∧ ' ' ∉ w) : Parser.words ([' '].intercalate ws) = ws := by
  induction ws with
  | nil => rfl
  | cons w ws ih =>
    have hw := h w (by simp)
    cases ws with
    | nil =>
      rw [show [' '].intercalate [w] = w by simp [List.intercalate], Parser.words, splitBlank_last hw.2]
      simp [hw.1]
    | cons v ws =>
      have ih := ih (fun x hx => h x (by simp [hx]))
      rw [show [' '].intercalate (w :: v :: ws) = w ++ ' ' :: [' '].intercalate (v :: ws) from spaced_cons w v ws, Parser.words,
        splitBlank_word hw.2, List.filter_cons_of_pos (by simp [hw.1]), ← Parser.words, ih]

/-- The text of a result which the mock is declared with. -/
theorem result_read {ms : MacroInfo} {d : FnD} {kept : List (List Char)} {R : Sem} (hw : ResultWords ms d.retText kept)
    (hr : read (String.ofList ([' '].intercalate kept) ++ " " ++ d.name) = some (d.name.toList, R)) (hn : Word d.name) :
    read (String.ofList (returnString ms d.name.toList d.retText) ++ " " ++ d.name) = some (d.name.toList, R) ∧
    returnString ms d.name.toList d.retText ≠ [] := by
  obtain ⟨ws, tail, keep, he, rfl, hne, hty, ht, hid, hp, hs, hk⟩ := hw
  have h70 := C70_partial ms d.name.toList tail ws keep hne hty ht hid hp hs hk
  rw [← he] at h70
  have hb : ∀ w ∈ ws.filter keep, w ≠ [] ∧ ' ' ∉ w := by
    intro w h
    have h := hty w (List.mem_filter.1 h).1
    refine ⟨h.1, fun hc => ?_⟩
    rcases h.2 with h | h
    · exact absurd (h _ hc) (by decide)
    · exact absurd (h _ hc) (by decide)
  have e := read_words d.name (h70.trans (words_spaced hb).symm)
  refine ⟨e.trans hr, fun h0 => ?_⟩
  rw [h0] at e
  rw [hr, read_eq] at e
  have h1 : toks (String.ofList [] ++ " " ++ d.name).toList = [.word d.name.toList] := by
    rw [show (String.ofList [] ++ " " ++ d.name).toList = [] ++ ' ' :: d.name.toList by simp [String.toList_append],
      toks_sep _ _ _ (by decide), toks_word hn]
    simp [lexFrom, flush, symbol]
  rw [h1] at e
  simp [run, step, inSpec, atEnd, finish] at e

theorem den_typedef {D : Decls} {s v : Bool} : ∀ {q : Q} {t : Ty}, Den D s v q t → PointsToFn q.ty →
    (q.isConst = true ∨ NoTdef q.ty) → (Types.attrs t).typedef = false
  | _, _, .const _, _, _ => rfl
  | _, _, .plain hden, hpt, hno => by
    rcases hno with hno | hno
    · cases hno
    · simp only [Q.ty] at hno hpt
      rw [(canon_eq hno).1, (canon_eq hno).2] at hden
      match hden, hpt with
      | .ptr _ w, _ => rw [Wraps.bare w]; rfl
      | .fn _ _, _ => rfl

/-! ## Parameters -/

theorem newline_class (c : Char) : wordChar (if c = '\n' then ' ' else c) = wordChar c ∧
    (wordChar c = true → (if c = '\n' then ' ' else c) = c) ∧ symbol (if c = '\n' then ' ' else c) = symbol c := by
  by_cases h : c = '\n'
  · subst h; decide
  · simp [h]

theorem lex_oneLine : ∀ (s acc : List Char), lexFrom acc (oneLine s) = lexFrom acc s
  | [], acc => rfl
  | c :: s, acc => by
    obtain ⟨h1, h2, h3⟩ := newline_class c
    rw [show oneLine (c :: s) = (if c = '\n' then ' ' else c) :: oneLine s from rfl, lexFrom, lexFrom, h1, h3]
    split
    · rename_i hw
      rw [h2 hw, lex_oneLine s]
    · rw [lex_oneLine s]

theorem blank_class {c : Char} (h : Blank c) : wordChar c = false ∧ symbol c = [] := by
  simp only [Blank, List.mem_cons, List.not_mem_nil, or_false] at h
  rcases h with rfl | rfl | rfl | rfl | rfl | rfl <;> decide

theorem lex_blanks : ∀ (b : List Char) (acc s : List Char), (∀ c ∈ b, Blank c) → lexFrom acc (b ++ s) = if b = [] then lexFrom acc s else flush acc ++ toks s
  | [], acc, s, _ => by simp
  | c :: b, acc, s, h => by
    obtain ⟨h1, h2⟩ := blank_class (h c (by simp))
    rw [List.cons_append, lexFrom, h1, if_neg (by simp), h2, lex_blanks b [] s (fun x hx => h x (by simp [hx]))]
    simp [flush]

theorem toks_blanks {b : List Char} (h : ∀ c ∈ b, Blank c) (a : List Char) : toks (a ++ b) = toks a := by
  cases b with
  | nil => simp
  | cons c b =>
    obtain ⟨h1, h2⟩ := blank_class (h c (by simp))
    rw [toks_sep _ _ _ h1, h2]
    have := lex_blanks b [] [] (fun x hx => h x (by simp [hx]))
    simp [flush, lexFrom] at this
    simp [this]

/-- Blanks at the ends and newlines do not matter. -/
theorem toks_strips {s t : List Char} (h : Strips (oneLine s) t) : toks t = toks s := by
  obtain ⟨a, b, e, ha, hb, -, -⟩ := h
  rw [show toks s = toks (oneLine s) from (lex_oneLine s []).symm, e, toks_blanks hb]
  have h : toks (a ++ t) = if a = [] then toks t else flush [] ++ toks t := lex_blanks a [] t ha
  rw [h]
  simp [flush]

/-- `S` is the type of a parameter: the type of the program (its own `volatile` does not count); if the parameter is written by
    a macro, the type which the source text says. -/
inductive ParamIs (D : Decls) (p : ParamD) (S : Sem) : Prop
  | type : p.macroText = none → PlainQ D false (dropVolatile p.q) → S = spellQ D (dropVolatile p.q) → ParamIs D p S
  | text (ty : List Char) : p.macroText = some ty → CNoFn p.q.ty → (∃ c r, ty = c :: r ∧ wordChar c = true) →
      (∃ r c, ty = r ++ [c] ∧ c ∈ [' ', '\n', '\r', '\t', '*', ')']) → (∀ c ∈ ty, c ≠ '{' ∧ c ≠ '/') →
      (∀ n, Word n → read (String.ofList ty ++ " " ++ n) = some (n.toList, S)) → ParamIs D p S

/-- The same for all the parameters of a function; their names are identifiers, if they have any. -/
inductive ParamsAre (D : Decls) : List ParamD → Sems → Prop
  | nil : ParamsAre D [] .nil
  | cons {p ps S Ss} : (p.name = "" ∨ Word p.name) → ParamIs D p S → ParamsAre D ps Ss → ParamsAre D (p :: ps) (.cons S Ss)

theorem lex_head : ∀ (s acc : List Char), acc ≠ [] → ∃ w r, lexFrom acc s = .word w :: r
  | [], acc, h => ⟨acc, [], by simp [lexFrom, flush, h]⟩
  | c :: s, acc, h => by
    rw [lexFrom]
    split
    · exact lex_head s _ (by simp)
    · exact ⟨acc, _, by simp [flush, h]; rfl⟩

theorem param_entry {D : Decls} {d : ParamD} {s : String} {t : Ty} {S : Sem} (h1 : Den D false true d.q t) (h2 : NoInc t)
    (h3 : d.macroText = none → s = Types.declPrefix t)
    (h4 : ∀ m, d.macroText = some m → s = declaratorString d.q t (declareString false m)) (h : ParamIs D d S) : Entry s t S := by
  match h with
  | .type hm hp hS =>
    obtain ⟨h5, h6⟩ := den_spell (dropVolatile d.q) true false t (den_volatile h1) h2 hp
    rw [hS, ← h6]
    exact entry_type (Or.inr (h3 hm)) h5
  | .text ty hm hf ⟨c, r, hc, hw⟩ hstop hplain hr =>
    have hst := C69_type_partial ty [] hstop (by simp) (by simpa using hplain)
    rw [List.append_nil] at hst
    have htk := toks_strips hst
    have hhead : ∃ w r, toks (declareString false ty) = .word w :: r := by
      rw [htk, hc]
      show ∃ w r', lexFrom [] (c :: r) = _
      rw [lexFrom, if_pos hw]
      exact lex_head r _ (by simp)
    have hs : s = String.ofList (declareString false ty) := by
      rw [h4 ty hm]
      unfold declaratorString
      rw [show d.q.isFn = false by cases hq : d.q with | mk k v c => rw [hq] at hf; exact isFn_noFn c hf]
      obtain ⟨w, r', h0⟩ := hhead
      rw [if_pos (by simp), if_neg]
      intro he
      rw [show declareString false ty = [] by simpa using he] at h0
      simp [lexFrom, flush] at h0
    refine entry_text (den_noFn h1 hf) (by rw [hs]; simpa using hhead) (fun n hn => ?_)
    have e : ∀ x : List Char, toks (String.ofList x ++ " " ++ n).toList = toks x ++ toks n.toList := by
      intro x
      rw [show (String.ofList x ++ " " ++ n).toList = x ++ ' ' :: n.toList by simp [String.toList_append], toks_sep _ _ _ (by decide)]
      simp [symbol]
    rw [← hr n hn, hs, read_eq, read_eq, e, e, htk]

theorem params_listed {D : Decls} : ∀ (ds : List ParamD) (ps : Params) (Ss : Sems), ParamsOf D ds ps → ParamsAre D ds Ss → Listed ps Ss
  | [], _, _, .nil, .nil => .nil
  | _ :: ds, _, _, .cons (ps := ps) h1 h2 h3 h4 h5, .cons (Ss := Ss) hn h h' =>
    .cons hn (param_entry h1 h2 h3 h4 h) (params_listed ds ps Ss h5 h')

/-! ## C76 -/

/-- The name of the class, or nothing. -/
def clsPrefix (p : Option Ty) : String :=
  match p with
  | some t => (Types.attrs t).name ++ "::"
  | none => ""

/-- The declaration of the mock without attributes. -/
theorem signature_text {cfg : Config} {k : Nat} {f : FunDecl} :
    ∃ j, mockSignature { (funSection cfg k f).1 with attrs := [] } =
      Types.declareString f.retStr f.ret ++ " " ++ (clsPrefix f.parent ++ f.info.name) ++ "(" ++ argsText j f.params f.info.variadic ++ ")" ++
        (extraOf false k f.ret).1.text ++ (if f.info.classConst then " const" else "") := by
  refine ⟨(if !Gen.returnsVoid f.ret then extraOf false (extraOf false k f.ret).2 f.ret else (.none, (extraOf false k f.ret).2)).2, ?_⟩
  unfold mockSignature funSection clsPrefix
  cases f.parent <;> simp [Gen.expandSep, Gen.parameters, argsText, String.append_assoc]

/-- The name with which a function is declared outside of its class. -/
def declName (D : Decls) (d : FnD) : String :=
  match d.member with
  | none => d.name
  | some m => (D.records m.record).tag ++ "::" ++ String.join (m.inner.map (· ++ "::")) ++ d.name

/-- The type with which a function is declared. -/
def declType (d : FnD) (R : Sem) (Ss : Sems) : Sem :=
  match d.member with
  | none => .fn R Ss d.variadic
  | some m =>
    let t := Sem.fn R Ss d.variadic
    let t := if m.isVolatile then .qual "volatile".toList t else t
    if m.isConst then .qual "const".toList t else t

/-- **C82** (partial): a member function is mocked as a member of its class: the generator finds the class which the parser has
    recorded, if it is known when the code is generated (`Stays`).
    Missing: structures and unions which are not mentioned in the type of a parameter or of a result, and classes without
    members for which a typedef name is used, for which the claim is false (below), or which are kept by other classes. -/
theorem C82_partial {D : Decls} {ms : MacroInfo} {ds : List FnD} {fs : List FunDecl}
    (hA : Unambiguous D (Used D (ds.flatMap typesOf))) (hC : NamedCycles D (Used D (ds.flatMap typesOf)))
    (hp : ParsedFile D ms ds fs) (i : Nat) (d : FnD) (f : FunDecl) (hd : ds[i]? = some d) (hf : fs[i]? = some f)
    (m : MemberD) (hm : d.member = some m) (hs : Stays D ds m.record) :
    ∃ t, f.parent = some t := by
  obtain ⟨gs, rfl, hl, hg⟩ := parsed_before hp hA hC
  simp only [lockParents, List.getElem?_map, Option.map_eq_some_iff] at hf
  obtain ⟨g, hgi, rfl⟩ := hf
  obtain ⟨t, ht⟩ := Option.isSome_iff_exists.1 ((hg i d g hd hgi).2 (by simp [hm]))
  refine ⟨t, ?_⟩
  show g.parent.filter (alive gs) = some t
  rw [Option.filter_eq_some_iff]
  exact ⟨ht, stays_alive hA hl hg hd hgi hm ht hs⟩

/-- What C76 asks from a member function: it belongs to a class with a name, which is not nested, and is not `volatile`. -/
structure PlainMember (D : Decls) (m : MemberD) : Prop where
  cls : Word (D.records m.record).tag
  inner : m.inner = []
  notVolatile : m.isVolatile = false

theorem word_append {a b : String} (ha : ∀ c ∈ a.toList, wordChar c = true) (hc : ':' ∈ a.toList) (hb : Word b) : Word (a ++ b) := by
  refine ⟨?_, ?_, ?_⟩
  · intro h
    have := congrArg String.toList h
    simp only [String.toList_append, String.toList_empty, List.append_eq_nil_iff] at this
    rw [this.1] at hc
    cases hc
  · intro c h
    rw [String.toList_append, List.mem_append] at h
    rcases h with h | h
    · exact ha c h
    · exact hb.2.1 c h
  · cases h : isQual (a ++ b).toList with
    | false => rfl
    | true =>
      have h : ':' ∉ (a ++ b).toList := by
        simp only [isQual, Bool.or_eq_true, beq_iff_eq] at h
        rcases h with ((h | h) | h) | h <;> rw [h] <;> decide
      exact absurd (by rw [String.toList_append]; exact List.mem_append_left _ hc) h

/-- **C76** (partial): the declaration of the mock, read as C or C++, declares the function with its name (and class), with its
    parameters in their order and of their types, variadic or not as the function is, with its result, and `const` if it is a
    member function which is.  Attributes come first (C75).
    Missing: the types which are not plain (`Plain`), member functions whose class is not known any more (C82), those of nested
    classes, volatile ones, and constant ones which return a pointer to a function, for most of which the claim is false (below). -/
theorem C76_partial {D : Decls} {ms : MacroInfo} {ds : List FnD} {fs : List FunDecl}
    (hA : Unambiguous D (Used D (ds.flatMap typesOf))) (hC : NamedCycles D (Used D (ds.flatMap typesOf)))
    (hp : ParsedFile D ms ds fs) (i : Nat) (d : FnD) (f : FunDecl) (hd : ds[i]? = some d) (hf : fs[i]? = some f)
    (hm : ∀ m ∈ d.member, PlainMember D m ∧ Stays D ds m.record) (hn : Word d.name) {Ss : Sems} (hps : ParamsAre D d.params Ss) {R : Sem}
    (hr : ResultIs D ms d R) (hc : ∀ m ∈ d.member, m.isConst = true → CNoFn d.ret.ty) (cfg : Config) (k : Nat) :
    read (mockSignature { (funSection cfg k f).1 with attrs := [] }) = some ((declName D d).toList, declType d R Ss) := by
  have h := (parsed_ok hp hA hC).2 i d f hd hf
  have hs := params_listed d.params f.params Ss h.params hps
  obtain ⟨j, ej⟩ := signature_text (cfg := cfg) (k := k) (f := f)
  -- the name
  have hname : clsPrefix f.parent ++ f.info.name = declName D d ∧ Word (declName D d) := by
    rw [h.name]
    unfold declName
    cases hmem : d.member with
    | none => rw [(h.free hmem).1]; exact ⟨by simp [clsPrefix], hn⟩
    | some m =>
      obtain ⟨t, ht⟩ := C82_partial hA hC hp i d f hd hf m hmem (hm m hmem).2
      obtain ⟨hden, hni⟩ := (h.member m hmem).1 t ht
      have hpm := (hm m hmem).1
      have htag : (Types.attrs t).name = (D.records m.record).tag := by
        match hden with
        | .plain hden =>
          match hden with
          | .record _ w _ => rw [Wraps.bare w]; cases (D.records m.record).kw <;> rfl
          | .tag _ _ => exact hni.elim
      have e1 : (D.records m.record).tag ++ "::" ++ String.join (m.inner.map (· ++ "::")) ++ d.name = (D.records m.record).tag ++ "::" ++ d.name := by
        rw [hpm.inner]; simp
      simp only [e1]
      refine ⟨by rw [ht, clsPrefix, htag], word_append ?_ (by simp [String.toList_append]) hn⟩
      intro c hc
      rw [String.toList_append, List.mem_append] at hc
      rcases hc with hc | hc
      · exact hpm.cls.2.1 c hc
      · have : c = ':' := by simpa using hc
        subst this; decide
  rw [ej, hname.1]
  -- `const`
  have hconst : (f.info.classConst = false ∧ declType d R Ss = .fn R Ss d.variadic) ∨
      (f.info.classConst = true ∧ declType d R Ss = .qual "const".toList (.fn R Ss d.variadic) ∧ CNoFn d.ret.ty) := by
    unfold declType
    cases hmem : d.member with
    | none => exact Or.inl ⟨(h.free hmem).2.2, rfl⟩
    | some m =>
      obtain ⟨-, -, hcc⟩ := h.member m hmem
      rw [hcc]
      simp only [(hm m hmem).1.notVolatile]
      cases hk : m.isConst with
      | false => exact Or.inl ⟨rfl, rfl⟩
      | true => exact Or.inr ⟨rfl, rfl, hc m hmem hk⟩
  match hr with
  | .words kept hw hrd hty =>
    obtain ⟨h1, h2⟩ := result_read hw hrd hn
    have hstr : f.retStr = String.ofList (returnString ms d.name.toList d.retText) ∧ (extraOf false k f.ret).1 = .none := by
      rw [h.retStr]
      unfold declaratorString
      rcases hty with hty | ⟨n, k1, v1, t1, hq, hne, hcf, hca⟩
      · rw [show d.ret.isFn = false by cases hq : d.ret with | mk k v c => rw [hq] at hty; exact isFn_noFn c hty]
        rw [if_pos (by simp), if_neg (by simpa using h2)]
        exact ⟨rfl, by rw [extra_none _ _ _ (den_noFn h.ret hty)]⟩
      · have hden := h.ret
        rw [hq] at hden
        have ho : (CTy.tdef n (.mk k1 false t1)).outer = n := by simp [CTy.outer, hne]
        obtain ⟨u, hu⟩ : ∃ u, f.ret = .tdef false n u := by
          match hden with
          | .plain hden =>
            rw [ho] at hden
            exact denT_named hden (fun h => hcf ((canon_fn t1).2 h)) (fun h => hca ((canon_arr t1).2 h)) h.retNI hne
        rw [hu]
        refine ⟨?_, by simp [extraOf]⟩
        rw [if_pos (by simp [Types.attrs]), if_neg (by simpa using h2)]
    rw [hstr.2, hstr.1]
    have hne : (String.ofList (returnString ms d.name.toList d.retText)).isEmpty = false := by
      rw [isEmpty_eq]
      simp only [decide_eq_false_iff_not]
      intro h0
      exact h2 (by simpa using congrArg String.toList h0)
    rw [Types.declareString, hne, if_neg (by simp)]
    rcases hconst with ⟨hcc, ht⟩ | ⟨hcc, ht, -⟩
    · have := read_signature hn hname.2 h1 f.params f.info.variadic j hs
      rw [hcc, ht, ← h.variadic]
      simpa [XDecl.text] using this
    · have := read_signature_const hn hname.2 h1 f.params f.info.variadic j hs
      rw [hcc, ht, ← h.variadic]
      simpa [XDecl.text] using this
  | .fnPtr hpl hpt hno hR =>
    rcases hconst with ⟨hcc, ht⟩ | ⟨-, -, hnf⟩
    · obtain ⟨h1, h2⟩ := den_spell d.ret true false f.ret h.ret h.retNI hpl
      have hfn : d.ret.isFn = true := by
        cases hq : d.ret with
        | mk k v c => rw [hq] at hpt; exact (isFn_iff c).2 hpt
      have htd : (Types.attrs f.ret).typedef = false := den_typedef h.ret hpt hno
      have hstr : f.retStr = Types.declPrefix f.ret := by
        rw [h.retStr]
        unfold declaratorString
        rw [hfn, htd, if_neg (by simp)]
      have hdecl : Types.declareString f.retStr f.ret = Types.declPrefix f.ret := by
        rw [Types.declareString, hstr]; split <;> rfl
      have := read_signature_type hname.2 h1 f.params f.info.variadic j k hs
      rw [hdecl, hcc, ht, hR, ← h2, ← h.variadic]
      simpa using this
    · have hfn : d.ret.isFn = true := by
        cases hq : d.ret with
        | mk k v c => rw [hq] at hpt; exact (isFn_iff c).2 hpt
      have : d.ret.isFn = false := by cases hq : d.ret with | mk k v c => rw [hq] at hnf; exact isFn_noFn c hnf
      rw [hfn] at this
      cases this

/-- **C64** (partial): the text with which a parameter is declared in the mock, read as C, declares the name with the type of
    the parameter: any nesting of pointers, `const`, functions, their parameters and their results.  Missing: the types which
    are not `Spellable`; for variadic functions and for typedefs of functions behind pointers the claim is false. -/
theorem C64_read_partial (t : Ty) (n : String) (k : Nat) (hs : Spellable false t) (hn : Word n) :
    read (Types.declPrefix t ++ " " ++ n ++ (extraOf false k t).1.text) = some (n.toList, semOf t) := read_param k hs hn

/-- `char *(*const *p)(struct S *, int (*)(void))`: a pointer to a constant pointer to a function which takes a function. -/
def exampleSpell : Ty :=
  .ptr false (.const false (.ptr false (.fn false { name := "" } "char*" (.ptr false (.ctype .char false false))
    (.cons "struct S*" (.ptr false (.comp false .struct "S" .nil false false .nil)) "s"
    (.cons "" (.ptr false (.fn false { name := "" } "int" (.ctype .int false false) .nil)) "" .nil)))))

example : read (Types.declPrefix exampleSpell ++ " " ++ "p" ++ (extraOf false 3 exampleSpell).1.text) =
    some ("p".toList, .ptr (.qual "const".toList (.ptr (.fn (.ptr (.named ["char".toList]))
      (.cons (.ptr (.named ["struct".toList, "S".toList])) (.cons (.ptr (.fn (.named ["int".toList]) .nil false)) .nil)) false)))) := by
  have h : Spellable false exampleSpell := by
    simp only [exampleSpell, Spellable, Spellables, IsFn]
    decide +kernel
  have := C64_read_partial exampleSpell "p" 3 h (by decide +kernel)
  exact this.trans (by decide +kernel)

/-- **C63** (partial): the declaration of a mock, read as C, declares the function with the types the generator knows.  Missing:
    classes, and the types which are not `Spellable`. -/
theorem C63_read_partial (cfg : Config) (k : Nat) (f : FunDecl) (hp : f.parent = none) (hc : f.info.classConst = false)
    (hn : Word f.info.name) (hr : f.retStr = "" ∨ f.retStr = Types.declPrefix f.ret) (ht : Spellable false f.ret)
    (hs : Spellables f.params) :
    read (mockSignature { (funSection cfg k f).1 with attrs := [] }) =
      some (f.info.name.toList, .fn (semOf f.ret) (semsOf f.params) f.info.variadic) := by
  obtain ⟨j, ej⟩ := signature_text (cfg := cfg) (k := k) (f := f)
  rw [hp, hc] at ej
  have hdecl : Types.declareString f.retStr f.ret = Types.declPrefix f.ret := by
    rw [Types.declareString]
    rcases hr with hr | hr
    · rw [hr, if_pos (by decide)]
    · rw [hr]; split <;> rfl
  rw [ej, hdecl]
  simpa [clsPrefix] using read_signature_type hn ht f.params f.info.variadic j k (listed_types f.params hs)

/-- `char *(*const *sig(int a, ...))(struct S *, int (*)(void))`. -/
def exampleSig : FunDecl where
  info := { name := "sig", variadic := true }
  retStr := ""
  ret := exampleSpell
  params := .cons "" (.ctype .int false false) "a" .nil

example : read (mockSignature { (funSection {} 0 exampleSig).1 with attrs := [] }) =
    some ("sig".toList, .fn (semOf exampleSpell) (.cons (.named ["int".toList]) .nil) true) := by
  refine C63_read_partial {} 0 _ rfl rfl (by decide +kernel) (Or.inl rfl) ?_ ?_
  · show Spellable false exampleSpell
    simp only [exampleSpell, Spellable, Spellables, IsFn]
    decide +kernel
  · show Spellables (.cons "" (.ctype .int false false) "a" .nil)
    simp only [Spellable, Spellables]
    decide +kernel

/-- What the parser keeps of the functions of a file: one function for each declaration, in their order, each with its name, its
    flags, its file, its attributes (C75), its namespace (C74), its result, its parameters and its class. -/
theorem C76_functions_partial {D : Decls} {ms : MacroInfo} {ds : List FnD} {fs : List FunDecl}
    (hA : Unambiguous D (Used D (ds.flatMap typesOf))) (hC : NamedCycles D (Used D (ds.flatMap typesOf)))
    (hp : ParsedFile D ms ds fs) :
    fs.length = ds.length ∧ ∀ (i : Nat) d f, ds[i]? = some d → fs[i]? = some f → FnOf D ms d f := by
  exact parsed_ok hp hA hC

/-! ## Examples -/

/-- `const char *`. -/
def qText : Q := qPtr (.mk true false (.builtin .charS))

/-- `extern API const List **f(unsigned char, int (*cb)(struct N *, const char *), List *const x, volatile int v, LIST_PTR *l, ...);` -/
def exampleF : FnD where
  name := "f"
  ret := qPtr (qPtr (.mk true false (.tdef "List" (qRec 0))))
  retText := "extern API const List **".toList
  params := [⟨.mk false false (.builtin .uchar), "", none⟩,
    ⟨qPtr (.mk false false (.fn qInt (.cons (qPtr (qRec 0)) (.cons qText .nil)) false)), "cb", none⟩,
    ⟨.mk true false (.ptr (qDef "List" 0)), "x", none⟩, ⟨.mk false true (.builtin .int), "v", none⟩,
    ⟨qPtr (qDef "List" 0), "l", some "LIST_PTR *".toList⟩]
  variadic := true

/-- `int *(*g(struct N *n))(long);` -/
def exampleG : FnD where
  name := "g"
  ret := qPtr (.mk false false (.fn (qPtr qInt) (.cons (.mk false false (.builtin .long)) .nil) false))
  retText := "int *(*".toList
  params := [⟨qPtr (qRec 0), "n", none⟩]

/-- `extern API const List **N::get(int a) const;` -/
def exampleM : FnD :=
  { exampleF with name := "get", params := [⟨qInt, "a", none⟩], variadic := false, member := some { record := 0, access := some .pub, isConst := true } }

theorem used_example {i : Nat} {n : String} (h : Used listUnit ([exampleF, exampleG, exampleM].flatMap typesOf) i n) :
    (i = 0 ∧ (n = "List" ∨ n = "")) ∨ (i = 1 ∧ n = "") := by
  rcases h with ⟨q, hq, v, h⟩ | ⟨r, f, hf, v, h⟩
  · simp [typesOf, exampleF, exampleG, exampleM] at hq
    rcases hq with rfl | rfl | rfl | rfl | rfl | rfl | rfl | rfl | rfl | rfl | rfl <;>
      simp [qDef, qPtr, qRec, qInt, qText, Q.uses, Qs.uses, CTy.uses] at h <;> simp [h]
  · exact used_list (Or.inr ⟨r, f, hf, v, h⟩)

theorem example_unambiguous : Unambiguous listUnit (Used listUnit ([exampleF, exampleG, exampleM].flatMap typesOf)) := by
  apply C53_keys
  · intro i n j m hi hj h hne
    rcases used_example hi with ⟨rfl, -⟩ | ⟨rfl, -⟩ <;> rcases used_example hj with ⟨rfl, -⟩ | ⟨rfl, -⟩ <;>
      first | rfl | (revert h hne; decide)
  · intro i n j m hi hj h hne
    rcases used_example hi with ⟨rfl, -⟩ | ⟨rfl, rfl⟩ <;> rcases used_example hj with ⟨rfl, -⟩ | ⟨rfl, rfl⟩ <;>
      first | rfl | exact absurd h hne | exact absurd rfl hne
  · intro i n j m hi hj h hne
    rcases used_example hi with ⟨rfl, rfl | rfl⟩ | ⟨rfl, rfl⟩ <;> rcases used_example hj with ⟨rfl, -⟩ | ⟨rfl, -⟩ <;>
      first | rfl | exact absurd rfl hne | (revert h; decide)
  · intro i n hi
    rcases used_example hi with ⟨rfl, -⟩ | ⟨rfl, -⟩ <;> decide +kernel

theorem example_named : NamedCycles listUnit (Used listUnit ([exampleF, exampleG, exampleM].flatMap typesOf)) := by
  intro i n hi hn ht
  rcases used_example hi with ⟨rfl, -⟩ | ⟨rfl, rfl⟩
  · exact absurd ht (by decide)
  · exact absurd rfl hn

theorem example_words : ResultWords exampleMacros "extern API const List **".toList ["const".toList, "List".toList, "**".toList] := by
  have hN : ∀ t, Nothing exampleMacros t → t = "API".toList ∨ t = "NORETURN".toList := by
    rintro t ⟨d, h, h2⟩
    unfold exampleMacros at h
    split at h
    · exact Or.inl ‹_›
    · split at h
      · exact Or.inr ‹_›
      · split at h
        · simp only [Option.some.injEq, Prod.mk.injEq, and_true] at h
          subst h
          rcases h2 with h2 | ⟨a, b, x, e, h2, -⟩
          · cases h2
          · have := congrArg List.head? h2
            simp at this
        · cases h
  refine ⟨["extern".toList, "API".toList, "const".toList, "List".toList, "**".toList], [],
    (fun w => w != "extern".toList && w != "API".toList), by decide +kernel, by decide +kernel, by simp, ?_, Or.inr ⟨rfl, ?_⟩, ?_, ?_, ?_, ?_⟩
  · intro w hw
    refine ⟨?_, ?_⟩
    · revert w; decide +kernel
    · revert w; decide +kernel
  · intro l w e c hc
    have h2 := congrArg List.getLast? e
    simp only [List.getLast?_append, List.getLast?_singleton, Option.some_or] at h2
    have h3 : w = "**".toList := by simpa using h2.symm
    subst h3
    revert c; decide +kernel
  · intro t ht
    rcases hN t ht with rfl | rfl <;> decide +kernel
  · intro t ht w hw
    rcases hN t ht with rfl | rfl
    · revert w; decide +kernel
    · revert w; decide +kernel
  · intro k hk
    refine ⟨?_, ?_, ?_⟩
    · revert k; decide +kernel
    · revert k; decide +kernel
    · intro l e
      have h2 := congrArg List.getLast? e
      simp only [List.getLast?_append, List.getLast?_singleton, Option.some_or] at h2
      have h3 : k = "**".toList := by simpa using h2.symm
      subst h3
      exact absurd hk (by decide +kernel)
  · intro w hw
    have hAPI : Nothing exampleMacros "API".toList := ⟨[], by decide +kernel, Or.inl rfl⟩
    simp only [List.mem_cons, List.not_mem_nil, or_false] at hw
    rcases hw with rfl | rfl | rfl | rfl | rfl
    · exact iff_of_false (by decide +kernel) (fun h => h.2 (by decide +kernel))
    · exact iff_of_false (by decide +kernel) (fun h => h.1 hAPI)
    · exact iff_of_true (by decide +kernel) ⟨fun h => by rcases hN _ h with h | h <;> exact absurd h (by decide +kernel), by decide +kernel⟩
    · exact iff_of_true (by decide +kernel) ⟨fun h => by rcases hN _ h with h | h <;> exact absurd h (by decide +kernel), by decide +kernel⟩
    · exact iff_of_true (by decide +kernel) ⟨fun h => by rcases hN _ h with h | h <;> exact absurd h (by decide +kernel), by decide +kernel⟩

theorem example_result_of (d : FnD) (hd : d.retText = "extern API const List **".toList) (hr : CNoFn d.ret.ty)
    (hread : read (String.ofList "const List **".toList ++ " " ++ d.name) =
      some (d.name.toList, .ptr (.ptr (.qual "const".toList (.named ["List".toList]))))) :
    ResultIs listUnit exampleMacros d (.ptr (.ptr (.qual "const".toList (.named ["List".toList])))) := by
  refine .words ["const".toList, "List".toList, "**".toList] (hd ▸ example_words)
    (by rw [show [' '].intercalate ["const".toList, "List".toList, "**".toList] = "const List **".toList by decide +kernel]; exact hread) (Or.inl hr)

theorem example_result : ResultIs listUnit exampleMacros exampleF (.ptr (.ptr (.qual "const".toList (.named ["List".toList])))) :=
  example_result_of exampleF rfl trivial (by decide +kernel)

theorem example_result_m : ResultIs listUnit exampleMacros exampleM (.ptr (.ptr (.qual "const".toList (.named ["List".toList])))) :=
  example_result_of exampleM rfl trivial (by decide +kernel)

/-- `LIST_PTR` is a macro; with every name behind it the text declares that name. -/
theorem example_text {n : String} (hn : Word n) : read (String.ofList "LIST_PTR *".toList ++ " " ++ n) =
    some (n.toList, .ptr (.named ["LIST_PTR".toList])) := by
  rw [read_eq, show (String.ofList "LIST_PTR *".toList ++ " " ++ n).toList = "LIST_PTR *".toList ++ ' ' :: n.toList by simp [String.toList_append],
    toks_sep _ _ _ (by decide), toks_word hn, show symbol ' ' = [] from rfl, List.append_nil,
    show toks "LIST_PTR *".toList = [.word "LIST_PTR".toList, .star] by decide +kernel]
  have hq : isQual n.toList = false := hn.2.2
  simp [run, step, inSpec, atEnd, finish, hq, wrap, spec, Layer.around, Op.layer]
  decide

theorem example_params : ParamsAre listUnit exampleF.params
    (.cons (.named ["unsigned".toList, "char".toList])
    (.cons (.ptr (.fn (.named ["int".toList]) (.cons (.ptr (.named ["struct".toList, "N".toList]))
      (.cons (.ptr (.qual "const".toList (.named ["char".toList]))) .nil)) false))
    (.cons (.qual "const".toList (.ptr (.named ["List".toList])))
    (.cons (.named ["int".toList]) (.cons (.ptr (.named ["LIST_PTR".toList])) .nil))))) := by
  refine .cons (Or.inl rfl) (.type rfl ?_ (by decide +kernel)) (.cons (Or.inr (by decide +kernel)) (.type rfl ?_ (by decide +kernel))
    (.cons (Or.inr (by decide +kernel)) (.type rfl ?_ (by decide +kernel)) (.cons (Or.inr (by decide +kernel)) (.type rfl ?_ (by decide +kernel))
    (.cons (Or.inr (by decide +kernel)) (.text _ rfl trivial ⟨'L', _, rfl, by decide⟩ ⟨"LIST_PTR ".toList, '*', by decide +kernel, by decide⟩
      (by decide +kernel) (fun n hn => example_text hn)) .nil))))
  · simp [dropVolatile, PlainQ, Plain, PlainBuiltin, listUnit, unitOf]
  · simp only [dropVolatile, qPtr, qRec, qInt, qText, PlainQ, Plain, PlainQs, PlainBuiltin, CFn, listUnit, unitOf]
    decide +kernel
  · simp only [dropVolatile, qDef, qRec, PlainQ, Plain, CFn, CArr, CNoFn]
    decide +kernel
  · simp [dropVolatile, PlainQ, Plain, PlainBuiltin]

theorem example_stays : Stays listUnit [exampleF, exampleG, exampleM] 0 := by
  refine .mentioned (v := false) (by decide +kernel) ⟨exampleG, by simp, qPtr (qRec 0), by simp [ownTypes, exampleG], ?_⟩
  simp [qPtr, qRec, Q.uses, CTy.uses]

/-- C76 for the example: what the declarations of the mocks say. -/
example : ∃ f g m, ParsedFile listUnit exampleMacros [exampleF, exampleG, exampleM] [f, g, m] ∧ ∀ cfg k,
    read (mockSignature { (funSection cfg k f).1 with attrs := [] }) = some ("f".toList,
      .fn (.ptr (.ptr (.qual "const".toList (.named ["List".toList]))))
        (.cons (.named ["unsigned".toList, "char".toList])
        (.cons (.ptr (.fn (.named ["int".toList]) (.cons (.ptr (.named ["struct".toList, "N".toList]))
          (.cons (.ptr (.qual "const".toList (.named ["char".toList]))) .nil)) false))
        (.cons (.qual "const".toList (.ptr (.named ["List".toList])))
        (.cons (.named ["int".toList]) (.cons (.ptr (.named ["LIST_PTR".toList])) .nil))))) true) ∧
    read (mockSignature { (funSection cfg k g).1 with attrs := [] }) = some ("g".toList,
      .fn (.ptr (.fn (.ptr (.named ["int".toList])) (.cons (.named ["long".toList]) .nil) false))
        (.cons (.ptr (.named ["struct".toList, "N".toList])) .nil) false) ∧
    read (mockSignature { (funSection cfg k m).1 with attrs := [] }) = some ("N::get".toList,
      .qual "const".toList (.fn (.ptr (.ptr (.qual "const".toList (.named ["List".toList])))) (.cons (.named ["int".toList]) .nil) false)) := by
  obtain ⟨fs, hfs⟩ : ∃ fs, ParsedFile listUnit exampleMacros [exampleF, exampleG, exampleM] fs := ⟨_, 3, rfl⟩
  have hlen := (C76_functions_partial example_unambiguous example_named hfs).1
  match fs, hlen with
  | [f, g, m], _ =>
    refine ⟨f, g, m, hfs, fun cfg k => ⟨?_, ?_, ?_⟩⟩
    · exact (C76_partial example_unambiguous example_named hfs 0 exampleF f rfl rfl (by intro m h; cases h) (by decide +kernel) example_params
        example_result (by intro m h; cases h) cfg k).trans (by decide +kernel)
    · refine (C76_partial example_unambiguous example_named hfs 1 exampleG g rfl rfl (by intro m h; cases h) (by decide +kernel)
        (.cons (S := .ptr (.named ["struct".toList, "N".toList])) (Or.inr (by decide +kernel)) (.type rfl ?_ (by decide +kernel)) .nil)
        (.fnPtr ?_ (.ptr .fn) (Or.inr trivial) rfl) (by intro m h; cases h) cfg k).trans (by decide +kernel)
      · simp only [dropVolatile, qPtr, qRec, PlainQ, Plain, CFn, listUnit, unitOf]
        decide +kernel
      · simp [exampleG, qPtr, qInt, PlainQ, Plain, PlainQs, PlainBuiltin, CFn]
    · refine (C76_partial example_unambiguous example_named hfs 2 exampleM m rfl rfl ?_ (by decide +kernel)
        (.cons (S := .named ["int".toList]) (Or.inr (by decide +kernel)) (.type rfl ?_ (by decide +kernel)) .nil)
        example_result_m (by intro m h; cases h; intro _; trivial) cfg k).trans (by decide +kernel)
      · intro x hx
        cases hx
        exact ⟨⟨by decide +kernel, rfl, rfl⟩, example_stays⟩
      · simp [dropVolatile, qInt, PlainQ, Plain, PlainBuiltin]

/-! ## Where C76 is false -/

/-- `void h(q p)` -/
def fnOf (q : Q) : FnD := { name := "h", ret := .mk false false (.builtin .void), retText := "void ".toList, params := [⟨q, "p", none⟩] }

/-- What the declaration of the mock of a function says; for examples. -/
def mockedAs (D : Decls) (d : FnD) : Option (Option (List Char × Sem)) :=
  match parseUnit D (fun _ => none) 5 [d] with
  | .ok [f] => some (read (mockSignature (funSection {} 0 f).1))
  | _ => none

/-- A function `void h(p)` with `p` of one type, mocked with another one. -/
def Mocked (q : Q) (s : Sem) : Prop :=
  mockedAs (unitOf []) (fnOf q) = some (some ("h".toList, .fn (.named ["void".toList]) (.cons s .nil) false))

/-- `volatile` behind a pointer is lost. -/
theorem C76_refuted_volatile : Mocked (qPtr (.mk false true (.builtin .int))) (.ptr (.named ["int".toList])) ∧
    spellQ (unitOf []) (qPtr (.mk false true (.builtin .int))) = .ptr (.qual "volatile".toList (.named ["int".toList])) := by
  unfold Mocked; decide +kernel

/-- A pointer to an array becomes a pointer to the element: `int (*p)[3]`. -/
theorem C76_refuted_array : Mocked (qPtr (.mk false false (.arr (some 3) qInt))) (.ptr (.named ["int".toList])) ∧
    spellQ (unitOf []) (qPtr (.mk false false (.arr (some 3) qInt))) = .ptr (.arr (some 3) (.named ["int".toList])) := by
  unfold Mocked; decide +kernel

/-- A pointer to a variadic function becomes a pointer to a function which is not: `int (*p)(const char *, ...)`. -/
theorem C76_refuted_variadic :
    Mocked (qPtr (.mk false false (.fn qInt (.cons qText .nil) true)))
      (.ptr (.fn (.named ["int".toList]) (.cons (.ptr (.qual "const".toList (.named ["char".toList]))) .nil) false)) ∧
    spellQ (unitOf []) (qPtr (.mk false false (.fn qInt (.cons qText .nil) true))) =
      .ptr (.fn (.named ["int".toList]) (.cons (.ptr (.qual "const".toList (.named ["char".toList]))) .nil) true) := by
  unfold Mocked; decide +kernel

/-- A pointer to `signed char` becomes a pointer to `char`, a pointer to `_Bool` one to `unsigned int`. -/
theorem C76_refuted_builtin : Mocked (qPtr (.mk false false (.builtin .schar))) (.ptr (.named ["char".toList])) ∧
    Mocked (qPtr (.mk false false (.builtin .bool))) (.ptr (.named ["unsigned".toList, "int".toList])) := by
  unfold Mocked; decide +kernel

/-- `typedef int (*cb)(int); void h(cb *p);`: the mock is no declaration. -/
theorem C76_refuted_pointer_to_typedef :
    mockedAs (unitOf []) (fnOf (qPtr (.mk false false (.tdef "cb" (qPtr (.mk false false (.fn qInt (.cons qInt .nil) false))))))) = some none := by
  decide +kernel

/-- `void h(int (*&p)(int));`: the mock is no declaration. -/
theorem C76_refuted_reference :
    mockedAs (unitOf []) (fnOf (.mk false false (.ref (qPtr (.mk false false (.fn qInt (.cons qInt .nil) false)))))) = some none := by
  decide +kernel

/-- `const int &h(int p);`: the mock returns no reference. -/
theorem C76_refuted_result :
    let d : FnD := { fnOf qInt with ret := .mk false false (.ref (.mk true false (.builtin .int))), retText := "const int &".toList }
    mockedAs (unitOf []) d = some (some ("h".toList, .fn (.qual "const".toList (.named ["int".toList])) (.cons (.named ["int".toList]) .nil) false)) := by
  decide +kernel

/-- `class A { class B { int h(int p); }; };`: the mock is declared as a member of `A`. -/
theorem C76_refuted_nested :
    let d : FnD := { fnOf qInt with member := some { record := 0, access := some .pub, inner := ["B"] } }
    let D := unitOf [{ kw := .cls, tag := "A" }]
    mockedAs D d = some (some ("A::h".toList, .fn (.named ["void".toList]) (.cons (.named ["int".toList]) .nil) false)) ∧
    declName D d = "A::B::h" := by
  decide +kernel

/-- `class A { void h(int p) volatile; };`: the mock is not volatile. -/
theorem C76_refuted_volatile_member :
    let d : FnD := { fnOf qInt with member := some { record := 0, access := some .pub, isVolatile := true } }
    mockedAs (unitOf [{ kw := .cls, tag := "A" }]) d =
      some (some ("A::h".toList, .fn (.named ["void".toList]) (.cons (.named ["int".toList]) .nil) false)) ∧
    declType d (.named ["void".toList]) .nil = .qual "volatile".toList (.fn (.named ["void".toList]) .nil false) := by
  decide +kernel

/-- `class A { long (*h(int p) const)(int); };`: the mock is no member function of constant objects, it returns a pointer to one. -/
theorem C76_refuted_const_result :
    let d : FnD := { fnOf qInt with ret := qPtr (.mk false false (.fn (.mk false false (.builtin .long)) (.cons qInt .nil) false)),
                                    retText := "long (*".toList, member := some { record := 0, access := some .pub, isConst := true } }
    mockedAs (unitOf [{ kw := .cls, tag := "A" }]) d =
      some (some ("A::h".toList, .fn (.ptr (.qual "const".toList (.fn (.named ["long".toList]) (.cons (.named ["int".toList]) .nil) false)))
        (.cons (.named ["int".toList]) .nil) false)) := by
  decide +kernel

end EasyMock.CDecl
