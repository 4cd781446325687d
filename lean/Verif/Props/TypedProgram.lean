import Verif.Props.Typed
import Verif.Props.CDecl

/-! # The types in the Expect functions and in the data structures, from the program: C80 and C81 -/

namespace EasyMock.CFile

open EasyMock.Gen
open EasyMock.Types (Ty Params FunDecl)
open EasyMock.Parser
open EasyMock.CDecl

/-! ## No references -/

/-- The type is no reference, and no pointer leads to one: so is every type of C. -/
def CNoRef : CTy → Prop
  | .ptr (.mk _ _ t) | .arr _ (.mk _ _ t) | .tdef _ (.mk _ _ t) => CNoRef t
  | .ref _ => False
  | _ => True

/-- The same for the types of the generator. -/
def NoRef : Ty → Prop
  | .ptr _ t | .const _ t => NoRef t
  | .ref _ _ => False
  | _ => True

theorem canon_noRef : ∀ (c : CTy), CNoRef c → CNoRef c.canon
  | .tdef _ (.mk _ _ t), h => canon_noRef t h
  | .builtin _, h | .ptr _, h | .ref _, h | .arr _ _, h | .record _, h | .enum _, h | .fn .., h => h

theorem Wraps.noRef {name : String} {core t : Ty} (h : Wraps name core t) (hc : NoRef core) : NoRef t := by
  rcases h with ⟨-, rfl⟩ | ⟨-, rfl⟩
  · exact hc
  · trivial

mutual
theorem den_noRef {D : Decls} {s v : Bool} {q : Q} {t : Ty} (h : Den D s v q t) (hn : CNoRef q.ty) : NoRef t := by
  match h with
  | .plain (c := c) h => exact denT_noRef h (canon_noRef c hn)
  | .const (c := c) (t := u) h =>
    have h1 : NoRef u := denT_noRef h (canon_noRef c hn)
    exact h1

theorem denT_noRef {D : Decls} {s v : Bool} {name : String} {c : CTy} {t : Ty} (h : DenT D s v name c t) (hn : CNoRef c) :
    NoRef t := by
  match h with
  | .builtin _ hw => exact Wraps.noRef hw trivial
  | .ptr (q := .mk _ _ c) (u := u) h hw =>
    have hc : CNoRef c := hn
    have h1 : NoRef u := den_noRef h hc
    exact Wraps.noRef hw h1
  | .ref _ _ => exact hn.elim
  | .arr (q := .mk _ _ c) h =>
    have hc : CNoRef c := hn
    exact den_noRef h hc
  | .enum hw => exact Wraps.noRef hw trivial
  | .fn _ _ => trivial
  | .record _ hw _ => exact Wraps.noRef hw trivial
  | .tag _ _ => trivial
end

theorem noRef_reference {t : Ty} (h : NoRef t) : reference t = false := by
  cases t with
  | const i t => cases t <;> first | exact h.elim | rfl
  | _ => first | exact h.elim | rfl

theorem pointed_noFn : ∀ (t : Ty), Spellable true t → NoRef t → Types.isConst (Types.mostPointed t) = false →
    Types.isFunctionType (Types.mostPointed t) = false → NoFn t
  | .ptr _ t, hs, hr, hc, hf => pointed_noFn t hs hr hc hf
  | .tdef .., hs, _, _, _ => hs.2 rfl
  | .const .., _, _, hc, _ => nomatch hc
  | .ref .., _, hr, _, _ => hr.elim
  | .fn .., _, _, _, hf => nomatch hf
  | .ctype .., _, _, _, _ | .enum .., _, _, _, _ | .comp .., _, _, _, _ | .incomplete .., _, _, _, _ => trivial

theorem out_noFn {t : Ty} (hs : Spellable false t) (hr : NoRef t) (ho : output t ≠ .none) : NoFn t := by
  have key : ∀ i p, Spellable true p → NoRef p → output (.ptr i p) ≠ .none → NoFn p := by
    intro i p h1 h2 h3
    have : (!Types.isConst (Types.mostPointed (.ptr i p)) && !Types.isImplicit (Types.mostPointed (.ptr i p)) && !Types.isFunctionType (Types.mostPointed (.ptr i p))) = true := by
      cases hb : (!Types.isConst (Types.mostPointed (.ptr i p)) && !Types.isImplicit (Types.mostPointed (.ptr i p)) && !Types.isFunctionType (Types.mostPointed (.ptr i p))) with
      | true => rfl
      | false =>
        refine absurd ?_ h3
        show (if _ then _ else _) = _
        exact if_neg (by rw [hb]; decide)
    simp only [Bool.and_eq_true, Bool.not_eq_true'] at this
    exact pointed_noFn p h1 h2 this.1.1 this.2
  cases t with
  | ptr i p => exact key i p hs hr ho
  | const i u =>
    cases u with
    | ptr j p => exact key j p hs.1 hr ho
    | _ => exact absurd rfl ho
  | _ => exact absurd rfl ho

/-! ## Parameters and results of the program -/

theorem params_plain {D : Decls} : ∀ (ds : List ParamD) (ps : Params) (Ss : Sems), ParamsOf D ds ps → ParamsAre D ds Ss →
    (∀ d ∈ ds, CNoRef d.q.ty) → OutsPlain ps
  | [], _, _, .nil, .nil, _ => trivial
  | d :: ds, _, _, .cons (ps := ps) (t := t) h1 h2 h3 h4 h5, .cons (Ss := Ss) hn h h', hr => by
    refine ⟨fun ho => ?_, params_plain ds ps Ss h5 h' (fun x hx => hr x (by simp [hx]))⟩
    match h with
    | .type _ hp _ =>
      exact out_noFn (den_spell (dropVolatile d.q) true false t (den_volatile h1) h2 hp).1 (den_noRef h1 (hr d (by simp))) ho
    | .text _ _ hf _ _ _ _ => exact den_noFn h1 hf

theorem params_storable {D : Decls} : ∀ (ds : List ParamD) (ps : Params) (Ss : Sems), ParamsOf D ds ps → ParamsAre D ds Ss →
    (∀ d ∈ ds, CNoRef d.q.ty ∧ d.macroText = none) → Storable ps Ss
  | [], _, _, .nil, .nil, _ => trivial
  | d :: ds, _, _, .cons (ps := ps) (t := t) h1 h2 h3 h4 h5, .cons (Ss := Ss) hn h h', hr => by
    have hd := hr d (by simp)
    match h with
    | .type _ hp hS =>
      obtain ⟨a, b⟩ := den_spell (dropVolatile d.q) true false t (den_volatile h1) h2 hp
      exact ⟨a, noRef_reference (den_noRef h1 hd.1), by rw [hS, b], params_storable ds ps Ss h5 h' (fun x hx => hr x (by simp [hx]))⟩
    | .text _ hm _ _ _ _ _ => rw [hd.2] at hm; cases hm

/-- The type is neither `void` nor an array; a typedef of `void` counts as another type. -/
def ValueT : CTy → Prop
  | .tdef n (.mk _ _ t) => n ≠ "" ∧ ¬ CFn t ∧ ¬ CArr t
  | .builtin b => b ≠ .void
  | .arr .. => False
  | _ => True

/-- The same for a type which may be constant. -/
def Value : Q → Prop
  | .mk k _ c => k = true ∨ ValueT c

/-- What a function returns: nothing, or a value of the type which C76 reads; the text of the type begins with an identifier. -/
inductive ReturnIs (D : Decls) (ms : MacroInfo) (d : FnD) : Option Sem → Prop
  | nothing {v} : d.ret = .mk false v (.builtin .void) → ReturnIs D ms d none
  | words {R} (kept : List (List Char)) : Value d.ret → ResultWords ms d.retText kept →
      read (String.ofList ([' '].intercalate kept) ++ " " ++ d.name) = some (d.name.toList, R) →
      (CNoFn d.ret.ty ∨ ∃ n k v t, d.ret = .mk false v (.tdef n (.mk k false t)) ∧ n ≠ "" ∧ ¬ CFn t ∧ ¬ CArr t) →
      (∃ c w r, kept = (c :: w) :: r ∧ wordChar c = true) → ReturnIs D ms d (some R)
  | fnPtr {R} : Value d.ret → PlainQ D false d.ret → PointsToFn d.ret.ty → (d.ret.isConst = true ∨ NoTdef d.ret.ty) →
      R = spellQ D d.ret → ReturnIs D ms d (some R)

theorem returnsVoid_eq {t : Ty} : returnsVoid t = true ↔ ∃ a b, t = .ctype .void a b := by
  constructor
  · intro h
    unfold returnsVoid at h
    simp only [Bool.and_eq_true] at h
    obtain ⟨⟨-, h⟩, -⟩ := h
    unfold isVoid at h
    split at h
    · exact ⟨_, _, rfl⟩
    · cases h
  · rintro ⟨a, b, rfl⟩
    rfl

theorem value_returns {D : Decls} {s v : Bool} {q : Q} {t : Ty} (h : Den D s v q t) (hni : NoInc t) (hv : Value q) : returnsVoid t = false := by
  cases hb : returnsVoid t with
  | false => rfl
  | true =>
    exfalso
    obtain ⟨a, b, rfl⟩ := returnsVoid_eq.1 hb
    match h with
    | .plain (c := c) h =>
      have hv : ValueT c := hv.resolve_left (by decide)
      cases c with
      | tdef n q =>
        cases q with
        | mk k1 v1 t1 =>
          obtain ⟨hne, hcf, hca⟩ := hv
          have ho : (CTy.tdef n (.mk k1 v1 t1)).outer = n := by simp [CTy.outer, hne]
          rw [ho] at h
          obtain ⟨u, hu⟩ := denT_named h (fun h => hcf ((canon_fn t1).2 h)) (fun h => hca ((canon_arr t1).2 h)) hni hne
          cases hu
      | builtin k =>
        match h with
        | .builtin hs w =>
          have := Wraps.bare w
          cases this
          cases k <;> simp only [Parser.scalar] at hs <;> first | exact hv rfl | (cases hs; done) | (cases hd : D.charSigned <;> simp [hd] at hs)
      | arr n q => exact hv
      | ptr q =>
        match h with
        | .ptr _ w => have := Wraps.bare w; cases this
      | ref q =>
        match h with
        | .ref _ w => have := Wraps.bare w; cases this
      | record id =>
        match h with
        | .record _ w _ => have := Wraps.bare w; cases this
      | enum id =>
        match h with
        | .enum w => have := Wraps.bare w; cases this
      | fn r ps v => cases h

theorem nothing_returns {D : Decls} {s v w : Bool} {t : Ty} (h : Den D s v (.mk false w (.builtin .void)) t) : returnsVoid t = true := by
  match h with
  | .plain h =>
    match h with
    | .builtin hs w =>
      have := Wraps.bare w
      subst this
      have hs : _ = _ := hs
      rw [hs]
      rfl

/-- The text of the result declares every name. -/
theorem result_entry {D : Decls} {ms : MacroInfo} {d : FnD} {f : FunDecl} {R : Sem} (h : FnOf D ms d f) (hn : Word d.name)
    (hr : ReturnIs D ms d (some R)) :
    CDecl.Entry f.retStr f.ret R := by
  match hr with
  | .words kept _ hw hrd hty hh =>
    obtain ⟨h1, h2⟩ := result_read hw hrd hn
    have hstr : f.retStr = String.ofList (returnString ms d.name.toList d.retText) ∧ ∀ k, (extraOf false k f.ret).1 = .none := by
      rw [h.retStr]
      unfold declaratorString
      rcases hty with hty | ⟨n, k1, v1, t1, hq, hne, hcf, hca⟩
      · rw [show d.ret.isFn = false by cases hq : d.ret with | mk k v c => rw [hq] at hty; exact isFn_noFn c hty]
        rw [if_pos (by simp), if_neg (by simpa using h2)]
        exact ⟨rfl, fun k => by rw [extra_none _ _ _ (den_noFn h.ret hty)]⟩
      · have hden := h.ret
        rw [hq] at hden
        have ho : (CTy.tdef n (.mk k1 false t1)).outer = n := by simp [CTy.outer, hne]
        obtain ⟨u, hu⟩ : ∃ u, f.ret = .tdef false n u := by
          match hden with
          | .plain hden =>
            rw [ho] at hden
            exact denT_named hden (fun h => hcf ((canon_fn t1).2 h)) (fun h => hca ((canon_arr t1).2 h)) h.retNI hne
        rw [hu]
        refine ⟨?_, fun k => by simp [extraOf]⟩
        rw [if_pos (by simp [Types.attrs]), if_neg (by simpa using h2)]
    refine entry_text' hstr.2 ?_ (fun n hw => ?_)
    · obtain ⟨ws, tail, keep, he, rfl, hne, hty, ht, hid, hp, hs, hk⟩ := hw
      have h70 := Parser.C70_partial ms d.name.toList tail ws keep hne hty ht hid hp hs hk
      rw [← he] at h70
      have hb : ∀ w ∈ ws.filter keep, w ≠ [] ∧ ' ' ∉ w := by
        intro w h
        have h := hty w (List.mem_filter.1 h).1
        refine ⟨h.1, fun hc => ?_⟩
        rcases h.2 with h | h
        · exact absurd (h _ hc) (by decide)
        · exact absurd (h _ hc) (by decide)
      obtain ⟨c, w, r, hkept, hc⟩ := hh
      have hwr : ∃ w' r', toks ([' '].intercalate (ws.filter keep)) = .word w' :: r' := by
        have : ∃ l, [' '].intercalate (ws.filter keep) = c :: l := by
          rw [hkept]
          cases r with
          | nil => exact ⟨w, by simp [List.intercalate]⟩
          | cons v r => exact ⟨_, spaced_cons (c :: w) v r⟩
        obtain ⟨l, hl⟩ := this
        rw [hl]
        show ∃ w r', lexFrom [] (c :: l) = _
        rw [lexFrom, if_pos hc]
        exact lex_head l _ (by simp)
      rw [hstr.1, String.toList_ofList, toks_words, h70, ← words_spaced hb, ← toks_words]
      exact hwr
    · rw [hstr.1]
      exact read_rename hn hw h1
  | .fnPtr _ hpl hpt hno hR =>
    obtain ⟨h1, h2⟩ := den_spell d.ret true false f.ret h.ret h.retNI hpl
    have hfn : d.ret.isFn = true := by
      cases hq : d.ret with
      | mk k v c => rw [hq] at hpt; exact (isFn_iff c).2 hpt
    have htd : (Types.attrs f.ret).typedef = false := den_typedef h.ret hpt hno
    have hstr : f.retStr = Types.declPrefix f.ret := by
      rw [h.retStr]
      unfold declaratorString
      rw [hfn, htd, if_neg (by simp)]
    rw [hR, ← h2]
    exact entry_type (Or.inr hstr) h1

/-! ## The theorems -/

/-- **C81**, from the program (partial: C, and the types of C76): for the functions of a file, `f_ExpectAndReturn` and
    `f_ExpectReturnAndOutput` are declared with the types which the parameters and the result have in the program. -/
theorem C81_program_partial {D : Decls} {ms : MacroInfo} {ds : List FnD} {fs : List FunDecl}
    (hA : Unambiguous D (Used D (ds.flatMap typesOf))) (hC : NamedCycles D (Used D (ds.flatMap typesOf)))
    (hp : ParsedFile D ms ds fs) (i : Nat) (d : FnD) (f : FunDecl) (hd : ds[i]? = some d) (hf : fs[i]? = some f)
    (hm : d.member = none) (hn : Word d.name) {Ss : Sems} (hps : ParamsAre D d.params Ss) (hnr : ∀ p ∈ d.params, CNoRef p.q.ty)
    {R : Option Sem} (hr : ReturnIs D ms d R) (c : Config) (hc : c.cpp = false) (k : Nat) :
    let s := (funSection c k f).1
    let ps := pars s.params.names f.params Ss
    ps.length = d.params.length ∧
    ∃ texts : List String, headerDecls c s = texts.map (· ++ ";") ∧ texts.map read =
      some ((d.name ++ "_ExpectAndReturn").toList, .fn (word "void") (.ofList (expectTypes ps R)) false) ::
      (if ps.any (fun p => p.out != .none) then
        [some ((d.name ++ "_ExpectReturnAndOutput").toList, .fn (word "void") (.ofList (expectTypes ps R ++ outTypes ps)) false)]
       else []) := by
  intro s ps
  have h := (C76_functions_partial hA hC hp).2 i d f hd hf
  have hl := params_listed d.params f.params Ss h.params hps
  have ho := params_plain d.params f.params Ss h.params hps hnr
  have hlen : ∀ (ds : List ParamD) (ps : Params) (k : Nat), ParamsOf D ds ps → (paramSection k ps).1.entries.length = ds.length := by
    intro ds
    induction ds with
    | nil => intro ps k h; cases h; rw [paramSection]; rfl
    | cons d ds ih =>
      intro ps k h
      cases h with
      | cons _ _ _ _ h => rw [Gen.paramSection_cons, PList.entries, List.length_cons, ih _ _ h, List.length_cons]
  have key : ∀ R' : Sem, (returnsVoid f.ret = false → CDecl.Entry f.retStr f.ret R') → returned f R' = R →
      ps.length = d.params.length ∧
      ∃ texts : List String, headerDecls c s = texts.map (· ++ ";") ∧ texts.map read =
        some ((d.name ++ "_ExpectAndReturn").toList, .fn (word "void") (.ofList (expectTypes ps R)) false) ::
        (if ps.any (fun p => p.out != .none) then
          [some ((d.name ++ "_ExpectReturnAndOutput").toList, .fn (word "void") (.ofList (expectTypes ps R ++ outTypes ps)) false)]
         else []) := by
    intro R' h1 h2
    have := C81_expect_partial c k f hc (h.free hm).1 (by rw [h.name]; exact hn) hl ho h1
    rw [h2, h.name] at this
    exact ⟨this.1.trans (hlen _ _ _ h.params), this.2⟩
  match hr with
  | .nothing hv =>
    have hv' : returnsVoid f.ret = true := nothing_returns (by rw [← hv]; exact h.ret)
    exact key (.named []) (fun h => by rw [hv'] at h; cases h) (by rw [returned, hv']; rfl)
  | .words (R := R) kept h1 h2 h3 h4 h5 =>
    have hv' : returnsVoid f.ret = false := value_returns h.ret h.retNI h1
    exact key R (fun _ => result_entry h hn (.words kept h1 h2 h3 h4 h5)) (by rw [returned, hv']; rfl)
  | .fnPtr (R := R) h1 h2 h3 h4 h5 =>
    have hv' : returnsVoid f.ret = false := value_returns h.ret h.retNI h1
    exact key R (fun _ => result_entry h hn (.fnPtr h1 h2 h3 h4 h5)) (by rw [returned, hv']; rfl)

/-- What a function returns: nothing, or a plain type which is no reference. -/
def ReturnStored (D : Decls) (d : FnD) (R : Option Sem) : Prop :=
  (∃ v, d.ret = .mk false v (.builtin .void) ∧ R = none) ∨
  (Value d.ret ∧ PlainQ D false d.ret ∧ CNoRef d.ret.ty ∧ R = some (spellQ D d.ret))

/-- **C80**, from the program (partial: C, the types of C76, parameters not written by macros): the members of the data structure
    have the types which the parameters and the result have in the program. -/
theorem C80_program_partial {D : Decls} {ms : MacroInfo} {ds : List FnD} {fs : List FunDecl}
    (hA : Unambiguous D (Used D (ds.flatMap typesOf))) (hC : NamedCycles D (Used D (ds.flatMap typesOf)))
    (hp : ParsedFile D ms ds fs) (i : Nat) (d : FnD) (f : FunDecl) (hd : ds[i]? = some d) (hf : fs[i]? = some f)
    (hm : d.member = none) (hn : Word d.name) {Ss : Sems} (hps : ParamsAre D d.params Ss)
    (hnr : ∀ p ∈ d.params, CNoRef p.q.ty ∧ p.macroText = none) {R : Option Sem} (hr : ReturnStored D d R) (c : Config) (hc : c.cpp = false)
    (k : Nat) :
    let s := (funSection c k f).1
    let ps := pars s.params.names f.params Ss
    (dataItems c (srcFun c k f)).map readItem = (memberTypes d.name ps R).map (fun m => some (m.1.toList, m.2)) := by
  intro s ps
  have h := (C76_functions_partial hA hC hp).2 i d f hd hf
  have hl := params_listed d.params f.params Ss h.params hps
  have ho := params_plain d.params f.params Ss h.params hps (fun p hp => (hnr p hp).1)
  have hst := params_storable d.params f.params Ss h.params hps hnr
  have key : (returnsVoid f.ret = false → Spellable false f.ret ∧ reference f.ret = false) → returned f (semOf f.ret) = R →
      (dataItems c (srcFun c k f)).map readItem = (memberTypes d.name ps R).map (fun m => some (m.1.toList, m.2)) := by
    intro h1 h2
    have := C80_members_partial c k f hc (h.free hm).1 (by rw [h.name]; exact hn) hl ho hst h1
    rw [h2, h.name] at this
    exact this
  rcases hr with ⟨v, hv, rfl⟩ | ⟨h1, h2, h3, rfl⟩
  · have hv' : returnsVoid f.ret = true := nothing_returns (by rw [← hv]; exact h.ret)
    exact key (fun h => by rw [hv'] at h; cases h) (by rw [returned, hv']; rfl)
  · have hv' : returnsVoid f.ret = false := value_returns h.ret h.retNI h1
    obtain ⟨h4, h5⟩ := den_spell d.ret true false f.ret h.ret h.retNI h2
    exact key (fun _ => ⟨h4, noRef_reference (den_noRef h.ret h3)⟩) (by rw [returned, hv', h5]; rfl)

/-! ## Examples -/

/-- The functions of the example of C76. -/
def exampleParsed : List FunDecl :=
  match parseUnit listUnit exampleMacros 3 [exampleF, exampleG, exampleM] with
  | .ok fs => fs
  | _ => []

theorem example_parsed : ParsedFile listUnit exampleMacros [exampleF, exampleG, exampleM] exampleParsed := ⟨3, rfl⟩

/-- The types of the parameters of `f`. -/
def exampleSems : Sems :=
  .cons (.named ["unsigned".toList, "char".toList])
  (.cons (.ptr (.fn (.named ["int".toList]) (.cons (.ptr (.named ["struct".toList, "N".toList]))
    (.cons (.ptr (.qual "const".toList (.named ["char".toList]))) .nil)) false))
  (.cons (.qual "const".toList (.ptr (.named ["List".toList])))
  (.cons (.named ["int".toList]) (.cons (.ptr (.named ["LIST_PTR".toList])) .nil))))

/-- C81 for `extern API const List **f(unsigned char, int (*cb)(struct N *, const char *), List *const x, volatile int v, LIST_PTR *l, ...)`;
    `x` and `l` have outputs. -/
example : ∃ f, exampleParsed[0]? = some f ∧ ∃ texts : List String, headerDecls {} (funSection {} 7 f).1 = texts.map (· ++ ";") ∧
    ∃ types outs, texts.map read = [some ("f_ExpectAndReturn".toList, .fn (word "void") (.ofList types) false),
      some ("f_ExpectReturnAndOutput".toList, .fn (word "void") (.ofList (types ++ outs)) false)] ∧
    types = [.named ["unsigned".toList, "char".toList],
      .ptr (.fn (.named ["int".toList]) (.cons (.ptr (.named ["struct".toList, "N".toList]))
        (.cons (.ptr (.qual "const".toList (.named ["char".toList]))) .nil)) false),
      .qual "const".toList (.ptr (.named ["List".toList])), word "int", .ptr (word "LIST_PTR"),
      .ptr (.ptr (.qual "const".toList (word "List"))),
      word "EasyMock_Matcher", word "EasyMock_Matcher", word "EasyMock_Matcher", word "EasyMock_Matcher", word "EasyMock_Matcher"] ∧
    outs = [.qual "const".toList (.ptr (word "List")), .ptr (word "LIST_PTR")] := by
  obtain ⟨f, hf⟩ : ∃ f, exampleParsed[0]? = some f := ⟨_, rfl⟩
  refine ⟨f, hf, ?_⟩
  have h := C81_program_partial example_unambiguous example_named example_parsed 0 exampleF f rfl hf rfl (by decide +kernel)
    (Ss := exampleSems) example_params
    (by intro p hp; simp only [exampleF, List.mem_cons, List.not_mem_nil, or_false] at hp; rcases hp with rfl | rfl | rfl | rfl | rfl <;> exact trivial)
    (.words (R := .ptr (.ptr (.qual "const".toList (.named ["List".toList])))) _ (Or.inr trivial) example_words (by decide +kernel)
      (Or.inl trivial) ⟨'c', _, _, rfl, by decide⟩) {} rfl 7
  obtain ⟨texts, h1, h2⟩ := h.2
  refine ⟨texts, h1, _, _, ?_, rfl, rfl⟩
  rw [h2]
  have e : (exampleParsed[0]?).map (fun f => let ps := pars (funSection {} 7 f).1.params.names f.params exampleSems
      (ps.any (fun p => p.out != .none), expectTypes ps (some (.ptr (.ptr (.qual "const".toList (.named ["List".toList]))))), outTypes ps)) =
      some (true, [.named ["unsigned".toList, "char".toList],
      .ptr (.fn (.named ["int".toList]) (.cons (.ptr (.named ["struct".toList, "N".toList]))
        (.cons (.ptr (.qual "const".toList (.named ["char".toList]))) .nil)) false),
      .qual "const".toList (.ptr (.named ["List".toList])), word "int", .ptr (word "LIST_PTR"),
      .ptr (.ptr (.qual "const".toList (word "List"))),
      word "EasyMock_Matcher", word "EasyMock_Matcher", word "EasyMock_Matcher", word "EasyMock_Matcher", word "EasyMock_Matcher"],
      [.qual "const".toList (.ptr (word "List")), .ptr (word "LIST_PTR")]) := by decide +kernel
  rw [hf, Option.map_some, Option.some.injEq, Prod.mk.injEq, Prod.mk.injEq] at e
  obtain ⟨e1, e2, e3⟩ := e
  rw [e1, e2, e3]
  rfl

/-- C80 for `int *(*g(struct N *n))(long)`: the members of its data structure. -/
example : ∃ g, exampleParsed[1]? = some g ∧ (dataItems {} (srcFun {} 7 g)).map readItem =
    [some ("n".toList, .ptr (.named ["struct".toList, "N".toList])), some ("_g_match_n".toList, word "EasyMock_Matcher"),
     some ("_g_returnValue".toList, .ptr (.fn (.ptr (word "int")) (.cons (word "long") .nil) false)),
     some ("out_n".toList, .ptr (.named ["struct".toList, "N".toList]))] := by
  obtain ⟨g, hg⟩ : ∃ g, exampleParsed[1]? = some g := ⟨_, rfl⟩
  refine ⟨g, hg, ?_⟩
  have h := C80_program_partial example_unambiguous example_named example_parsed 1 exampleG g rfl hg rfl (by decide +kernel)
    (Ss := .cons (.ptr (.named ["struct".toList, "N".toList])) .nil) (.cons (Or.inr (by decide +kernel)) (.type rfl (by
      simp only [dropVolatile, qPtr, qRec, PlainQ, Plain, CFn, listUnit, unitOf]
      decide +kernel) (by decide +kernel)) .nil)
    (by intro p hp; simp only [exampleG, List.mem_cons, List.not_mem_nil, or_false] at hp; subst hp; exact ⟨trivial, rfl⟩)
    (Or.inr ⟨Or.inr trivial, by simp [exampleG, qPtr, qInt, PlainQ, Plain, PlainQs, PlainBuiltin, CFn], trivial, rfl⟩) {} rfl 7
  rw [h]
  have e : (exampleParsed[1]?).map (fun g => (memberTypes "g" (pars (funSection {} 7 g).1.params.names g.params
      (.cons (.ptr (.named ["struct".toList, "N".toList])) .nil)) (some (spellQ listUnit exampleG.ret))).map (fun m => some (m.1.toList, m.2))) =
      some [some ("n".toList, .ptr (.named ["struct".toList, "N".toList])), some ("_g_match_n".toList, word "EasyMock_Matcher"),
     some ("_g_returnValue".toList, .ptr (.fn (.ptr (word "int")) (.cons (word "long") .nil) false)),
     some ("out_n".toList, .ptr (.named ["struct".toList, "N".toList]))] := by decide +kernel
  rw [hg] at e
  exact Option.some.inj e

end EasyMock.CFile
