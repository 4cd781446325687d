import Verif.CFile.MemberSpec
import Verif.CFile.TypesMembers
import Verif.CDecl.Members
import Verif.Props.CDecl

/-! # CFile: the members of the generated types are those of the program -/

namespace EasyMock.CFile.TypeDecl

open EasyMock.Types (Ty Fields Params Kw)
open EasyMock.CDecl (Sem Word Spellable NoFn kwWord toks toks_sep read_rename read_eq spellQ CNoFn CArr CFn NoTdef ByTag PlainQ)
open EasyMock.Gen (extraOf)
open EasyMock.CFile.Txt (CName)
open EasyMock.Emit (written boundOf nameless tagOf Mirror MirrorDecl composite)
open EasyMock.Parser (CTy Q Decls FieldD Den DenT DenFs DenPs Wraps MemberText PointsToFn TypeSource NameSource)

/-! ## Conditions -/

/-- The source text of a member starts with a text which declares a name with the type `S`: in front of the name; or of the first name of
    several, or of the bounds behind it; or of the members of the type. -/
def Wrote (f : FieldD) (S : Sem) : Prop :=
  ∃ ty, TypeSource ty ∧ CDecl.read (String.ofList (ty ++ " x".toList)) = some ("x".toList, S) ∧
    (f.text = ty ∨ (∃ n sp sep rest, NameSource n ∧ (∀ c ∈ sp, Parser.Blank c) ∧ (sep = ',' ∨ sep = '[') ∧ '{' ∉ rest ∧
      f.text = ty ++ n ++ sp ++ sep :: rest) ∨ ∃ rest, f.text = ty ++ '{' :: rest)

/-- Every type behind pointers, references and bounds has a name. -/
def CNamed (D : Decls) : CTy → Prop
  | .ptr (.mk _ _ t) | .ref (.mk _ _ t) | .arr _ (.mk _ _ t) => CNamed D t
  | .record id => (D.records id).tag ≠ ""
  | .enum id => (D.enums id).tag ≠ ""
  | .tdef n (.mk _ _ t) => n ≠ "" ∧ ¬ CArr t
  | _ => True

/-- A typedef which is no function. -/
def CTdef : CTy → Prop
  | .tdef n (.mk _ _ t) => n ≠ "" ∧ ¬ CFn t
  | _ => False

/-- A record without typedef. -/
def CBare : CTy → Prop
  | .record _ => True
  | _ => False

/-- At most one bound, which is written. -/
def OneBound : Q → Prop
  | .mk k v (.arr n q) => k = false ∧ v = false ∧ (∃ m, n = some m) ∧ ¬ CArr q.ty
  | .mk _ _ t => ¬ CArr t

/-- A member which keeps its type: one whose source text says its type; a pointer to a function; an object of a record; a bit-field. -/
inductive MemberOk (D : Decls) (f : FieldD) : Prop
  | source : f.bits = none → CName f.name → OneBound f.q → ((elemQ f.q).isConst = false → ¬ CBare (elemQ f.q).ty) → CNamed D (elemQ f.q).ty →
      (CNoFn (elemQ f.q).ty ∨ (CTdef (elemQ f.q).ty ∧ (elemQ f.q).isConst = false)) → Wrote f (spellQ D (elemQ f.q)) → MemberOk D f
  | callback : f.bits = none → CName f.name → PlainQ D false f.q → PointsToFn f.q.ty → NoTdef f.q.ty → ByTag f.q.ty → MemberOk D f
  | record {id : Nat} : f.bits = none → (f.name = "" ∨ CName f.name) → OneBound f.q → elemQ f.q = .mk false false (.record id) →
      (f.name = "" → (D.records id).tag = "" ∧ boundsQ f.q = "") → ((D.records id).tag = "" ∨ CName (D.records id).tag) →
      ((D.records id).tag ≠ "" → Wrote f (spellQ D (.mk false false (.record id)))) → MemberOk D f
  | bits {w : Nat} : f.bits = some w → (f.name = "" ∨ CName f.name) → PlainQ D false f.q → CNoFn f.q.ty → ByTag f.q.ty → ¬ CBare f.q.ty →
      MemberOk D f

/-! ## Source texts -/

theorem blank_sep {c : Char} (hc : Parser.Blank c) : CDecl.wordChar c = false ∧ CDecl.symbol c = [] := by
  unfold Parser.Blank at hc
  refine ⟨?_, by unfold CDecl.symbol; rw [if_pos hc]⟩
  simp only [List.mem_cons, List.not_mem_nil, or_false] at hc
  rcases hc with rfl | rfl | rfl | rfl | rfl | rfl <;> decide

theorem toks_front : ∀ {a b : List Char}, (∀ c ∈ a, Parser.Blank c) → toks (a ++ b) = toks b
  | [], _, _ => rfl
  | c :: a, b, h => by
    obtain ⟨hw, hs⟩ := blank_sep (h c (by simp))
    have := toks_sep [] (a ++ b) c hw
    rw [List.nil_append] at this
    rw [List.cons_append, this, hs, toks_front (a := a) (b := b) (fun d hd => h d (by simp [hd]))]
    rfl

theorem toks_back {a b : List Char} (h : ∀ c ∈ b, Parser.Blank c) : toks (a ++ b) = toks a := by
  cases b with
  | nil => rw [List.append_nil]
  | cons c b =>
    obtain ⟨hw, hs⟩ := blank_sep (h c (by simp))
    have := toks_front (a := b) (b := []) (fun d hd => h d (by simp [hd]))
    rw [List.append_nil] at this
    rw [toks_sep a b c hw, hs, this, List.append_nil, show toks [] = [] from rfl, List.append_nil]

theorem lex_oneLine : ∀ (s acc : List Char), CDecl.lexFrom acc (Parser.oneLine s) = CDecl.lexFrom acc s
  | [], _ => rfl
  | c :: s, acc => by
    show CDecl.lexFrom acc ((if c = '\n' then ' ' else c) :: Parser.oneLine s) = _
    by_cases h : c = '\n'
    · subst h
      rw [if_pos rfl, CDecl.lexFrom, CDecl.lexFrom, if_neg (by decide), if_neg (by decide), lex_oneLine s []]
      rfl
    · rw [if_neg h, CDecl.lexFrom, CDecl.lexFrom, lex_oneLine s [], lex_oneLine s (acc ++ [c])]

/-- Blanks at the ends and the ends of lines do not matter. -/
theorem toks_strips {s t : List Char} (h : Parser.Strips (Parser.oneLine s) t) : toks t = toks s := by
  obtain ⟨a, b, e, ha, hb, -, -⟩ := h
  have : toks (Parser.oneLine s) = toks s := lex_oneLine s []
  rw [← this, e, toks_back hb, toks_front ha]

/-- What the parser keeps of the source text of a member. -/
theorem wrote_text {f : FieldD} {S : Sem} (h : Wrote f S) : ∃ ty, TypeSource ty ∧ Parser.Strips (Parser.oneLine ty) (Parser.declareString true f.text) ∧
    CDecl.read (String.ofList (ty ++ " x".toList)) = some ("x".toList, S) := by
  obtain ⟨ty, ht, hr, h⟩ := h
  refine ⟨ty, ht, ?_, hr⟩
  rcases h with h | ⟨n, sp, sep, rest, hn, hsp, hsep, hrest, h⟩ | ⟨rest, h⟩
  · rw [h]
    exact (Parser.C69_field_partial ty "x".toList [] [] ',' ht ⟨by decide +kernel, by decide +kernel⟩ (by simp) (Or.inl rfl) (by simp)).1
  · rw [h]
    exact (Parser.C69_field_partial ty n sp rest sep ht hn hsp hsep hrest).2
  · rw [h]
    have := Parser.C69_body true [.code ty] rest (by
        intro x hx
        rw [List.mem_singleton] at hx
        subst hx
        exact fun h => ht.plain _ h (by decide)) (by
        intro a s b h
        rcases a with _ | ⟨x, _ | _⟩ <;> simp at h) (by simp [Parser.Seg.isBlock]) (by
        rw [show Parser.written [.code ty] = ty by simp [Parser.written, Parser.Seg.text]]
        exact fun h => ht.plain _ h (by decide))
    rwa [show Parser.written [.code ty] = ty by simp [Parser.written, Parser.Seg.text],
      show Parser.outside [.code ty] = ty by simp [Parser.outside, Parser.Seg.kept]] at this

/-- A type kept by the parser is not empty, starts with no blank, and says the type. -/
theorem wrote_read {f : FieldD} {S : Sem} (h : Wrote f S) :
    (∃ c r, Parser.declareString true f.text = c :: r ∧ blank c = false) ∧
    ∀ n, Word n → CDecl.read (String.ofList (Parser.declareString true f.text) ++ " " ++ n) = some (n.toList, S) := by
  obtain ⟨ty, ht, hs, hr⟩ := wrote_text h
  have hx : Word "x" := by unfold Word; decide +kernel
  have key : CDecl.read (String.ofList (Parser.declareString true f.text) ++ " " ++ "x") = some ("x".toList, S) := by
    rw [read_eq] at hr ⊢
    rw [String.toList_ofList, show " x".toList = ' ' :: "x".toList by decide +kernel, toks_sep _ _ _ (by decide)] at hr
    rw [show (String.ofList (Parser.declareString true f.text) ++ " " ++ "x").toList = Parser.declareString true f.text ++ ' ' :: "x".toList by
      simp only [String.toList_append, List.append_assoc, String.toList_ofList]; rfl, toks_sep _ _ _ (by decide), toks_strips hs]
    exact hr
  refine ⟨?_, fun n hn => read_rename hx hn key⟩
  obtain ⟨a, b, e, ha, hb, h1, -⟩ := hs
  cases hd : Parser.declareString true f.text with
  | nil =>
    rw [hd] at key
    exfalso
    revert key
    rw [show String.ofList [] ++ " " ++ "x" = " x" by decide +kernel, show CDecl.read " x" = none by decide +kernel]
    exact nofun
  | cons c r =>
    refine ⟨c, r, rfl, ?_⟩
    have hc : ¬ Parser.Blank c := h1 c r (by rw [hd])
    cases hbl : blank c with
    | false => rfl
    | true =>
      exfalso
      apply hc
      unfold Parser.Blank
      simp only [blank, Bool.or_eq_true, beq_iff_eq] at hbl
      rcases hbl with ((((rfl | rfl) | rfl) | rfl) | rfl) | rfl <;> decide

/-! ## Types -/

theorem elem_self : ∀ (q : Q), ¬ CArr q.ty → elemQ q = q ∧ boundsQ q = ""
  | .mk _ _ (.arr _ _), h => absurd trivial h
  | .mk _ _ (.builtin _), _ | .mk _ _ (.ptr _), _ | .mk _ _ (.ref _), _ | .mk _ _ (.record _), _ | .mk _ _ (.enum _), _
  | .mk _ _ (.fn ..), _ | .mk _ _ (.tdef ..), _ => ⟨rfl, rfl⟩

theorem canon_bound : ∀ (c : CTy), ¬ CArr c → (match c.canon with | .arr n _ => ((n.getD 0 : Nat) : Int) | _ => -1) = -1
  | .tdef _ (.mk _ _ t), h => canon_bound t h
  | .arr _ _, h => absurd trivial h
  | .builtin _, _ | .ptr _, _ | .ref _, _ | .record _, _ | .enum _, _ | .fn .., _ => rfl

/-- The element of a member with at most one bound, and the bound. -/
theorem one_bound {D : Decls} {s v : Bool} : ∀ {q : Q} {t : Ty}, OneBound q → Den D s v q t → Den D s v (elemQ q) t ∧ ¬ CArr (elemQ q).ty ∧
    boundOf (match q.ty.canon with | .arr n _ => ((n.getD 0 : Nat) : Int) | _ => -1) = boundsQ q
  | .mk k vol (.arr n q), t, hb, h => by
    obtain ⟨rfl, rfl, ⟨m, rfl⟩, ha⟩ := hb
    obtain ⟨e1, e2⟩ := elem_self q ha
    have e : elemQ (.mk false false (.arr (some m) q)) = q := e1
    rw [e]
    refine ⟨?_, ha, ?_⟩
    · match h with
      | .plain (.arr h) => exact h
    · show boundOf ((m : Nat) : Int) = "[" ++ toString m ++ "]" ++ boundsQ q
      rw [e2, String.append_empty]
      rfl
  | .mk k vol (.builtin b), t, hb, h | .mk k vol (.ptr q), t, hb, h | .mk k vol (.ref q), t, hb, h | .mk k vol (.record id), t, hb, h
  | .mk k vol (.enum id), t, hb, h | .mk k vol (.fn r ps w), t, hb, h => ⟨h, hb, rfl⟩
  | .mk k vol (.tdef n q), t, hb, h => by
    refine ⟨h, hb, ?_⟩
    show boundOf (match (CTy.tdef n q).canon with | .arr n _ => ((n.getD 0 : Nat) : Int) | _ => -1) = ""
    rw [canon_bound _ hb]
    rfl

theorem wraps_nameless {name : String} {core t : Ty} (h : Wraps name core t) (hc : name = "" → nameless core = none) : nameless t = none := by
  rcases h with ⟨hn, rfl⟩ | ⟨-, rfl⟩
  · exact hc hn
  · rfl

theorem canon_named {D : Decls} : ∀ (c : CTy), CNamed D c → (c.outer ≠ "" ∧ ¬ CArr c.canon) ∨ CNamed D c.canon
  | .tdef n (.mk _ _ t), h => by
    have h' : n ≠ "" ∧ ¬ CArr t := h
    refine Or.inl ⟨?_, fun ha => h'.2 ((CDecl.canon_arr t).2 ha)⟩
    rw [CTy.outer, if_neg h'.1]
    exact h'.1
  | .builtin _, h | .ptr _, h | .ref _, h | .arr _ _, h | .record _, h | .enum _, h | .fn .., h => Or.inr h

mutual
/-- A type whose parts have names. -/
theorem den_nameless {D : Decls} {s v : Bool} {q : Q} {t : Ty} (h : Den D s v q t) (hn : CNamed D q.ty) : nameless t = none := by
  match h with
  | .plain (c := c) h => exact denT_nameless h (canon_named c hn)
  | .const (c := c) (t := u) h =>
    have : nameless u = none := denT_nameless h (canon_named c hn)
    exact this

theorem denT_nameless {D : Decls} {s v : Bool} {name : String} {c : CTy} {t : Ty} (h : DenT D s v name c t)
    (hn : (name ≠ "" ∧ ¬ CArr c) ∨ CNamed D c) : nameless t = none := by
  match h with
  | .builtin _ w => exact wraps_nameless w (fun _ => rfl)
  | .ptr (q := .mk _ _ c) (u := u) h w =>
    rcases hn with hn | hn
    · exact wraps_nameless w (fun h0 => absurd h0 hn.1)
    · have h1 : nameless u = none := den_nameless h hn
      exact wraps_nameless w (fun _ => h1)
  | .ref (q := .mk _ _ c) (u := u) h w =>
    rcases hn with hn | hn
    · exact wraps_nameless w (fun h0 => absurd h0 hn.1)
    · have h1 : nameless u = none := den_nameless h hn
      exact wraps_nameless w (fun _ => h1)
  | .arr (q := .mk _ _ c) h =>
    rcases hn with hn | hn
    · exact absurd trivial hn.2
    · exact den_nameless h hn
  | .enum w => exact wraps_nameless w (fun h0 => by rw [nameless, if_neg (hn.resolve_left (fun h => h.1 h0))])
  | .fn _ _ => rfl
  | .record _ w _ => exact wraps_nameless w (fun h0 => by rw [nameless, if_neg (hn.resolve_left (fun h => h.1 h0))])
  | .tag _ _ => rfl
end

/-- Only a record without typedef and qualifier is declared in place. -/
theorem den_plain {D : Decls} {s v : Bool} : ∀ {q : Q} {t : Ty}, Den D s v q t → CNamed D q.ty → ¬ CArr q.ty → (q.isConst = false → ¬ CBare q.ty) →
    composite t = false
  | .mk k vol c, t, h, hn, ha, hb => by
    match h with
    | .const _ => rfl
    | .plain h =>
      have hb : ¬ CBare c := hb rfl
      have hc : c.outer ≠ "" ∨ ¬ CBare c.canon := by
        match c with
        | .tdef n (.mk _ _ t) =>
          have h' : n ≠ "" ∧ ¬ CArr t := hn
          refine Or.inl ?_
          rw [CTy.outer, if_neg h'.1]
          exact h'.1
        | .builtin _ | .ptr _ | .ref _ | .arr _ _ | .record _ | .enum _ | .fn .. => exact Or.inr hb
      have ha : ¬ CArr c.canon := fun h => ha ((CDecl.canon_arr c).2 h)
      have hw : ∀ core, Wraps c.outer core t → (c.outer = "" → composite core = false) → composite t = false := by
        rintro core (⟨h0, rfl⟩ | ⟨-, rfl⟩) h1
        · exact h1 h0
        · rfl
      generalize c.outer = name at *
      generalize c.canon = c' at *
      match h with
      | .builtin _ w => exact hw _ w (fun _ => rfl)
      | .ptr _ w => exact hw _ w (fun _ => rfl)
      | .ref _ w => exact hw _ w (fun _ => rfl)
      | .arr _ => exact absurd trivial ha
      | .enum w => exact hw _ w (fun _ => rfl)
      | .fn _ _ => rfl
      | .record _ w _ =>
        rcases hc with hc | hc
        · exact hw _ w (fun h0 => absurd h0 hc)
        · exact absurd trivial hc
      | .tag _ _ => rfl

theorem extra_noFn : ∀ (t : Ty) (b : Bool) (k : Nat), NoFn t → (extraOf b k t).1 = .none
  | .ptr _ t, b, k, h => by rw [extraOf]; exact extra_noFn t true k h
  | .ref _ t, true, k, h => by rw [extraOf]; exact extra_noFn t true k h
  | .const _ t, b, k, h => by rw [extraOf]; exact extra_noFn t b k h
  | .tdef _ _ t, true, k, h => by rw [extraOf]; exact extra_noFn t true k h
  | .ref _ _, false, _, _ | .tdef _ _ _, false, _, _ => by simp [extraOf]
  | .ctype .., b, _, _ | .enum .., b, _, _ | .comp .., b, _, _ | .incomplete .., b, _, _ => by cases b <;> simp [extraOf]
  | .fn .., _, _, h => h.elim

/-- Nothing is written behind the name of a typedef. -/
theorem extra_tdef {D : Decls} {s v : Bool} : ∀ {q : Q} {t : Ty}, Den D s v q t → CTdef q.ty → ¬ CArr q.ty → ∀ k, (extraOf false k t).1 = .none
  | .mk c vol (.tdef n (.mk k' v' t')), t, h, hn, ha, k => by
    have hn : n ≠ "" ∧ ¬ CFn t' := hn
    have key : ∀ u, DenT D s v (CTy.tdef n (.mk k' v' t')).outer (CTy.tdef n (.mk k' v' t')).canon u → (extraOf false k u).1 = .none := by
      intro u h
      rw [CTy.outer, if_neg hn.1] at h
      have ha : ¬ CArr t'.canon := fun h => ha ((CDecl.canon_arr t').2 h)
      have hf : ¬ CFn t'.canon := fun h => hn.2 ((CDecl.canon_fn t').2 h)
      have h : DenT D s v n t'.canon u := h
      have hw : ∀ core, Wraps n core u → (extraOf false k u).1 = .none := by
        rintro core (⟨h0, -⟩ | ⟨-, rfl⟩)
        · exact absurd h0 hn.1
        · simp [extraOf]
      generalize t'.canon = c' at *
      match h with
      | .builtin _ w => exact hw _ w
      | .ptr _ w => exact hw _ w
      | .ref _ w => exact hw _ w
      | .arr _ => exact absurd trivial ha
      | .enum w => exact hw _ w
      | .fn _ _ => exact absurd trivial hf
      | .record _ w _ => exact hw _ w
      | .tag _ _ => simp [extraOf]
    match h with
    | .plain h => exact key _ h
    | .const h => rw [extraOf]; exact key _ h
  | .mk _ _ (.builtin _), _, _, hn, _, _ | .mk _ _ (.ptr _), _, _, hn, _, _ | .mk _ _ (.ref _), _, _, hn, _, _ | .mk _ _ (.arr _ _), _, _, hn, _, _
  | .mk _ _ (.record _), _, _, hn, _, _ | .mk _ _ (.enum _), _, _, hn, _, _ | .mk _ _ (.fn ..), _, _, hn, _, _ => hn.elim

theorem plain_named {D : Decls} : ∀ (c : CTy) (b : Bool), CDecl.Plain D b c → CNamed D c ∧ ¬ CArr c
  | .builtin _, _, _ => ⟨trivial, id⟩
  | .ptr (.mk _ _ t), b, h => by
    unfold CDecl.Plain PlainQ at h
    exact ⟨(plain_named t true h.2.1).1, id⟩
  | .ref (.mk _ _ t), b, h => by
    unfold CDecl.Plain PlainQ at h
    exact ⟨(plain_named t true h.1.2.1).1, id⟩
  | .arr _ _, _, h => by unfold CDecl.Plain at h; exact h.elim
  | .record _, _, h => by unfold CDecl.Plain at h; exact ⟨h.1, id⟩
  | .enum _, _, h => by unfold CDecl.Plain at h; exact ⟨h.1, id⟩
  | .fn .., _, _ => ⟨trivial, id⟩
  | .tdef n (.mk _ _ t), _, h => by
    unfold CDecl.Plain at h
    exact ⟨⟨h.1.1, h.2.1⟩, h.2.1⟩

/-- The description of a record. -/
theorem den_record {D : Decls} {s v : Bool} {id : Nat} {t : Ty} (h : Den D s v (.mk false false (.record id)) t) :
    (∃ fs emb, t = .comp false (D.records id).kw (D.records id).tag fs emb (!(D.records id).complete) .nil ∧ DenFs D s (writtenMembers D id) fs) ∨
    ((D.records id).tag ≠ "" ∧ ∃ b, t = .incomplete b (D.records id).kw (D.records id).tag) := by
  match h with
  | .plain h =>
    have h : DenT D s v "" (.record id) t := h
    match h with
    | .record h1 w _ =>
      exact Or.inl ⟨_, _, CDecl.Wraps.bare w, h1⟩
    | .tag h1 _ => exact Or.inr ⟨h1, _, rfl⟩

/-! ## Members -/

section
variable {H : Type} (e : Emit.Env H) {D : Decls} {s : Bool}

theorem written_source {w : String} {t : Ty} (h : nameless t = none) (hw : w ≠ "") : written e w t = w := by
  unfold written
  rw [h, if_neg hw]
  simp

/-- The text kept for a member whose source text says its type. -/
theorem member_wrote {f : FieldD} {t : Ty} {w : String} {S : Sem} (h : MemberText f t w) (hf : ¬ (PointsToFn f.q.ty ∧ (Types.attrs t).typedef = false))
    (hw : Wrote f S) : w.toList = Parser.declareString true f.text ∧ w ≠ "" := by
  obtain ⟨⟨c, r, h1, h2⟩, -⟩ := wrote_read hw
  rcases h with ⟨h3, h4, -⟩ | ⟨-, ⟨-, h⟩ | ⟨h, -⟩⟩
  · exact absurd ⟨h3, h4⟩ hf
  · refine ⟨h, ?_⟩
    rintro rfl
    rw [h1] at h
    cases h
  · rw [h] at h1
    cases h1

theorem points_noFn {c : CTy} (h : PointsToFn c) : ¬ CNoFn c := by
  induction h with
  | fn => exact id
  | ptr _ ih => exact ih
  | tdef _ ih => exact ih

theorem points_arr {c : CTy} (h : PointsToFn c) : ¬ CArr c := by
  induction h with
  | fn => exact id
  | ptr _ ih => exact id
  | tdef _ ih => exact ih

theorem points_canon {c : CTy} (h : PointsToFn c) : PointsToFn c.canon := by
  induction h with
  | fn => exact .fn
  | ptr h _ => exact .ptr h
  | tdef _ ih => exact ih

/-- A pointer to a function behind a typedef is known by the typedef. -/
theorem tdef_attr {v : Bool} : ∀ {q : Q} {t : Ty}, Den D s v q t → CTdef q.ty → PointsToFn q.ty → q.isConst = false → (Types.attrs t).typedef = true
  | .mk c vol (.tdef n (.mk k' v' t')), t, h, hn, hp, hc => by
    have hn : n ≠ "" ∧ ¬ CFn t' := hn
    match h with
    | .plain h =>
      rw [CTy.outer, if_neg hn.1] at h
      have h : DenT D s v n t'.canon t := h
      have hp : PointsToFn t'.canon := points_canon (c := .tdef n (.mk k' v' t')) hp
      have hf : ¬ CFn t'.canon := fun h => hn.2 ((CDecl.canon_fn t').2 h)
      have hw : ∀ core, Wraps n core t → (Types.attrs t).typedef = true := by
        rintro core (⟨h0, -⟩ | ⟨-, rfl⟩)
        · exact absurd h0 hn.1
        · rfl
      generalize t'.canon = c' at *
      match h, hp with
      | .ptr _ w, _ => exact hw _ w
      | .fn _ _, _ => exact absurd trivial hf
    | .const h => cases hc
  | .mk _ _ (.builtin _), _, _, hn, _, _ | .mk _ _ (.ptr _), _, _, hn, _, _ | .mk _ _ (.ref _), _, _, hn, _, _ | .mk _ _ (.arr _ _), _, _, hn, _, _
  | .mk _ _ (.record _), _, _, hn, _, _ | .mk _ _ (.enum _), _, _, hn, _, _ | .mk _ _ (.fn ..), _, _, hn, _, _ => hn.elim

theorem bits_ok (k : Nat) : (∀ c ∈ (":" ++ toString k).toList, okChar c = true) ∧ (∀ x ∈ (":" ++ toString k).toList.getLast?, blank x = false) ∧
    (":" ++ toString k).toList ≠ [] := by
  rw [String.toList_append]
  refine ⟨?_, last_or (by decide +kernel) (fun x hx => (nat_ok k x (List.mem_of_getLast? hx)).2.1), ?_⟩
  · intro c hc
    rcases List.mem_append.1 hc with hc | hc
    · have : ∀ c ∈ ":".toList, okChar c = true := by decide +kernel
      exact this c hc
    · exact (nat_ok k c hc).1
  · rw [show ":".toList = [':'] by decide +kernel]; simp

/-- A member whose source text says its type. -/
theorem prog_wrote {f : FieldD} {t : Ty} {w : String} {num : Nat} (hb : f.bits = none) (hm : MemberText f t w) (hn : CName f.name)
    (hp : ¬ (PointsToFn f.q.ty ∧ (Types.attrs t).typedef = false)) (hl : nameless t = none) (hx : (extraOf false num t).1 = .none)
    (d3 : boundOf (match f.q.ty.canon with | .arr n _ => ((n.getD 0 : Nat) : Int) | _ => -1) = boundsQ f.q)
    (h5 : Wrote f (spellQ D (elemQ f.q))) :
    Piece (written e w t ++ " " ++ (f.name ++ boundsQ f.q) ++ (extraOf false num t).1.text).toList ∧
    MemberOf D (written e w t ++ " " ++ (f.name ++ boundsQ f.q) ++ (extraOf false num t).1.text).toList f := by
  obtain ⟨e1, e2⟩ := member_wrote hm hp h5
  obtain ⟨⟨c, r, r1, r2⟩, r3⟩ := wrote_read h5
  have hw := written_source e hl e2
  have hws : w = String.ofList (Parser.declareString true f.text) := by rw [← e1, String.ofList_toList]
  have hb' := bound_ok (match f.q.ty.canon with | .arr n _ => ((n.getD 0 : Nat) : Int) | _ => -1)
  rw [d3] at hb'
  obtain ⟨p, d⟩ := plain_declares (w := written e w t) (x := (extraOf false num t).1) (S := spellQ D (elemQ f.q)) (n := f.name)
    ⟨c, r, by rw [hw, e1, r1], r2⟩ (by rw [hx, Gen.XDecl.text, String.append_empty, hw, hws]; exact r3 _ hn.word) (fun h => absurd hx h) hn hb'
  exact ⟨p, .plain hb hn.word.1 d⟩

/-- A member which is not declared in place. -/
theorem prog_plain {f : FieldD} {t : Ty} {w : String} (num : Nat) (hf : MemberOk D f) (hb : f.bits = none) (hd : Den D s true f.q t)
    (hm : MemberText f t w) (hc : composite t = false) :
    boundOf (match f.q.ty.canon with | .arr n _ => ((n.getD 0 : Nat) : Int) | _ => -1) = boundsQ f.q ∧
    Piece (written e w t ++ " " ++ (f.name ++ boundsQ f.q) ++ (extraOf false num t).1.text).toList ∧
    MemberOf D (written e w t ++ " " ++ (f.name ++ boundsQ f.q) ++ (extraOf false num t).1.text).toList f := by
  cases hf with
  | source _ hn h1 h2 h3 h4 h5 =>
    obtain ⟨d1, d2, d3⟩ := one_bound h1 hd
    have hx : (extraOf false num t).1 = .none := by
      rcases h4 with h4 | h4
      · exact extra_noFn t false num (CDecl.den_noFn d1 h4)
      · exact extra_tdef d1 h4.1 d2 num
    have hp : ¬ (PointsToFn f.q.ty ∧ (Types.attrs t).typedef = false) := by
      rintro ⟨h6, h7⟩
      rw [(elem_self f.q (points_arr h6)).1] at h4 d1
      rcases h4 with h4 | ⟨h4, h8⟩
      · exact points_noFn h6 h4
      · rw [tdef_attr d1 h4 h6 h8] at h7
        cases h7
    exact ⟨d3, prog_wrote e hb hm hn hp (den_nameless d1 h3) hx d3 h5⟩
  | callback _ hn h1 h2 h3 h4 =>
    obtain ⟨q1, q2⟩ := CDecl.den_tag_spell f.q true false t hd (by cases hq : f.q; rw [hq] at h4; exact h4) h1
    have ha := points_arr h2
    obtain ⟨e1, e2⟩ := elem_self f.q ha
    have hty := CDecl.den_typedef hd h2 (Or.inr h3)
    have hw : w = Types.declPrefix t := by
      rcases hm with ⟨-, -, h⟩ | ⟨h, -⟩
      · exact h
      · exact absurd ⟨h2, hty⟩ h
    subst hw
    obtain ⟨s1, s2, s3⟩ := spelled_text e (Spelled.type (e := e) (t := t) q1 (Or.inr rfl))
    have s2 := s2 num f.name hn.word
    rw [(sem_in e t false q1).2, q2] at s2
    have d3 : boundOf (match f.q.ty.canon with | .arr n _ => ((n.getD 0 : Nat) : Int) | _ => -1) = boundsQ f.q := by
      rw [canon_bound _ ha, e2]
      rfl
    have hb' := bound_ok (match f.q.ty.canon with | .arr n _ => ((n.getD 0 : Nat) : Int) | _ => -1)
    rw [d3] at hb'
    obtain ⟨p, d⟩ := plain_declares s1 s2 (fun h => s3 ⟨num, h⟩) hn hb'
    exact ⟨d3, p, .plain hb hn.word.1 (by rw [e1]; exact d)⟩
  | @record id _ hn h1 h2 h3 h4 h5 =>
    obtain ⟨d1, d2, d3⟩ := one_bound h1 hd
    rw [h2] at d1
    rcases den_record d1 with ⟨fs, emb, rfl, -⟩ | ⟨h6, b, rfl⟩
    · cases hc
    · have hn : CName f.name := hn.resolve_left (fun h0 => h6 (h3 h0).1)
      refine ⟨d3, prog_wrote e hb hm hn ?_ rfl ?_ d3 (by rw [h2]; exact h5 h6)⟩
      · rintro ⟨h7, -⟩
        have := (elem_self f.q (points_arr h7)).1
        rw [h2] at this
        rw [← this] at h7
        cases h7
      · simp [extraOf]
  | bits h _ _ _ _ _ => rw [hb] at h; cases h

/-- A bit-field. -/
theorem prog_bit {f : FieldD} {t : Ty} {w : Nat} (num : Nat) (hf : MemberOk D f) (hb : f.bits = some w) (hd : Den D s true f.q t) :
    composite t = false ∧
    Piece (written e (Types.declPrefix t) t ++ " " ++ (f.name ++ ":" ++ toString w) ++ (extraOf false num t).1.text).toList ∧
    MemberOf D (written e (Types.declPrefix t) t ++ " " ++ (f.name ++ ":" ++ toString w) ++ (extraOf false num t).1.text).toList f := by
  cases hf with
  | bits _ hn h1 h2 h3 h4 =>
    obtain ⟨q1, q2⟩ := CDecl.den_tag_spell f.q true false t hd (by cases hq : f.q; rw [hq] at h3; exact h3) h1
    have hpl : CNamed D f.q.ty ∧ ¬ CArr f.q.ty := by
      cases hq : f.q
      rw [hq] at h1
      unfold PlainQ at h1
      exact plain_named _ _ h1.2.1
    have hx : (extraOf false num t).1 = .none := extra_noFn t false num (CDecl.den_noFn hd h2)
    obtain ⟨s1, s2, s3⟩ := spelled_text e (Spelled.type (e := e) (t := t) q1 (Or.inr rfl))
    rw [(sem_in e t false q1).2, q2] at s2
    obtain ⟨b1, b2, b3⟩ := bits_ok w
    refine ⟨den_plain hd hpl.1 hpl.2 (fun _ => h4), ?_⟩
    rw [String.append_assoc (s₁ := f.name)]
    by_cases h0 : f.name = ""
    · have s2 := s2 num "x" (by unfold Word; decide +kernel)
      rw [hx, Gen.XDecl.text, String.append_empty] at s2
      obtain ⟨p, d⟩ := pad_declares s1 s2 ⟨b1, b2⟩ b3
      rw [hx, Gen.XDecl.text, String.append_empty, h0, String.empty_append]
      exact ⟨p, .pad hb h0 d⟩
    · have hn : CName f.name := hn.resolve_left h0
      obtain ⟨p, d⟩ := plain_declares s1 (s2 num f.name hn.word) (fun h => absurd hx h) hn ⟨b1, b2⟩
      exact ⟨p, .bits hb h0 d⟩
  | source h | callback h | record h => rw [h] at hb; cases hb

mutual
/-- The members of a record, from the description of its body. -/
theorem members_prog (num : Ty → String → Nat) (hD : ∀ id, ∀ f ∈ writtenMembers D id, MemberOk D f) :
    ∀ (fs : Fields) (ms : Emit.Members) (l : List FieldD), Mirror e fs ms → DenFs D s l fs → (∀ f ∈ l, MemberOk D f) →
    ∃ ds, Lists (membersText num ms).toList ds ∧ Bal (membersText num ms).toList ∧ (∀ c ∈ (membersText num ms).toList, textChar c = true) ∧
      MembersOf D ds l
  | .nil, .nil, l, _, hd, _ => by
    cases hd
    exact ⟨[], Lists.nil, Bal.nil, (fun c hc => by rw [membersText] at hc; cases hc), .nil⟩
  | .field w t n a rest, .plain d u m ms, l, h, hd, hok => by
    obtain ⟨hc, rfl, rfl, hm0, hr⟩ := h
    match l, hd with
    | f :: l, .field hb hden hrest htext =>
      obtain ⟨ds, h1, h2, h3, h4⟩ := members_prog num hD rest ms l hr hrest (fun g hg => hok g (by simp [hg]))
      obtain ⟨d3, p, hm⟩ := prog_plain e (num u (f.name ++ boundsQ f.q)) (hok f (by simp)) hb hden htext hc
      obtain ⟨l1, l2, l3⟩ := p.line
      have hm0 : m = f.name ++ boundsQ f.q := hm0.trans (congrArg _ d3)
      subst hm0
      rw [membersText, String.toList_append, String.toList_append]
      refine ⟨_ :: ds, l1.append h1, l2.append h2, ?_, .cons hm h4⟩
      intro c hc
      rcases List.mem_append.1 hc with hc | hc
      · exact l3 c hc
      · exact h3 c hc
  | .field w t n a rest, .sub d m ms, l, h, hd, hok => by
    obtain ⟨hdecl, hm, hr⟩ := h
    match l, hd with
    | f :: l, .field hb hden hrest htext =>
      obtain ⟨ds, h1, h2, h3, h4⟩ := members_prog num hD rest ms l hr hrest (fun g hg => hok g (by simp [hg]))
      obtain ⟨T, eT, p, hmem⟩ := record_prog num hD t d f hdecl hb hden (hok f (by simp))
      have eT : (recordText num m d).toList = T ++ [';', '\n'] := by rw [hm]; exact eT
      obtain ⟨l1, l2, l3⟩ := p.line
      rw [membersText, String.toList_append, eT]
      refine ⟨T :: ds, l1.append h1, l2.append h2, ?_, .cons hmem h4⟩
      intro c hc
      rcases List.mem_append.1 hc with hc | hc
      · exact l3 c hc
      · exact h3 c hc
  | .bit w t n k rest, .plain d u m ms, l, h, hd, hok => by
    obtain ⟨hc, rfl, rfl, rfl, hr⟩ := h
    match l, hd with
    | f :: l, .bit hb hden hrest =>
      obtain ⟨ds, h1, h2, h3, h4⟩ := members_prog num hD rest ms l hr hrest (fun g hg => hok g (by simp [hg]))
      obtain ⟨-, p, hm⟩ := prog_bit e (num u (f.name ++ ":" ++ toString k)) (hok f (by simp)) hb hden
      obtain ⟨l1, l2, l3⟩ := p.line
      rw [membersText, String.toList_append, String.toList_append]
      refine ⟨_ :: ds, l1.append h1, l2.append h2, ?_, .cons hm h4⟩
      intro c hc
      rcases List.mem_append.1 hc with hc | hc
      · exact l3 c hc
      · exact h3 c hc
  | .bit w t n k rest, .sub d m ms, l, h, hd, hok => by
    obtain ⟨hdecl, -, -⟩ := h
    match l, hd with
    | f :: l, .bit hb hden hrest =>
      have := (prog_bit e 0 (hok f (by simp)) hb hden).1
      cases t <;> first | exact hdecl.elim | cases this
  | .field .., .nil, _, h, _, _ => h.elim
  | .bit .., .nil, _, h, _, _ => h.elim
  | .nil, .plain .., _, h, _, _ => h.elim
  | .nil, .sub .., _, h, _, _ => h.elim

/-- A member whose type is declared in place, or mentioned by its tag. -/
theorem record_prog (num : Ty → String → Nat) (hD : ∀ id, ∀ f ∈ writtenMembers D id, MemberOk D f) :
    ∀ (t : Ty) (d : Emit.Decl) (f : FieldD), MirrorDecl e t d → f.bits = none → Den D s true f.q t → MemberOk D f →
    ∃ T, (recordText num (if f.name = "" then "" else f.name ++
        boundOf (match f.q.ty.canon with | .arr n _ => ((n.getD 0 : Nat) : Int) | _ => -1)) d).toList = T ++ [';', '\n'] ∧ Piece T ∧ MemberOf D T f
  | .comp i kw m fs emb fwd meth, .mk kw' m' body ms, f, hd, hb, hden, hok => by
    obtain ⟨rfl, rfl, hbody, hmir⟩ := hd
    cases hok with
    | bits h => rw [h] at hb; cases hb
    | source _ hn h1 h2 h3 h4 h5 =>
      obtain ⟨d1, d2, -⟩ := one_bound h1 hden
      cases den_plain d1 h3 d2 h2
    | callback _ hn h1 h2 h3 h4 =>
      obtain ⟨e1, e2⟩ := elem_self f.q (points_arr h2)
      exfalso
      cases hq : f.q with
      | mk k v c =>
        rw [hq] at hden h3 h2
        dsimp only [Q.ty] at h3 h2
        match hden with
        | .plain h =>
          rw [(CDecl.canon_eq h3).1, (CDecl.canon_eq h3).2] at h
          match c, h2, h with
          | _, .ptr _, .ptr _ w => cases CDecl.Wraps.bare w
    | @record id _ hn h1 h2 h3 h4 h5 =>
      obtain ⟨d1, d2, d3⟩ := one_bound h1 hden
      rw [h2] at d1
      rcases den_record d1 with ⟨fs', emb', he, hfs⟩ | ⟨h6, b, he⟩
      · cases he
        rw [d3]
        cases body with
        | false =>
          have hm0 : (D.records id).tag ≠ "" := fun h0 => by cases hbody h0
          have hn0 : f.name ≠ "" := fun h0 => hm0 (h3 h0).1
          have hn' : CName f.name := hn.resolve_left hn0
          have hm' : CName (D.records id).tag := h4.resolve_left hm0
          rw [if_neg hn0, ← d3]
          obtain ⟨T, eT, p, hT⟩ := mention_declares (num := num) (i := false) (kw := (D.records id).kw) (fs := fs) (emb := emb) (fwd := false)
            (meth := .nil) (ms := ms) e (match f.q.ty.canon with | .arr n _ => ((n.getD 0 : Nat) : Int) | _ => -1) hm' hn'
          refine ⟨T, eT, p, .plain hb hn0 ?_⟩
          rw [d3, (sem_in e _ false (show CDecl.Spellable false (.comp false (D.records id).kw (D.records id).tag fs emb false .nil) from hm'.word)).2] at hT
          rw [h2]
          exact hT
        | true =>
          obtain ⟨ds, g1, g2, g3, g4⟩ := members_prog num hD fs ms _ (hmir rfl) hfs (hD id)
          obtain ⟨f1, f2, f3⟩ := field_ok (a := match f.q.ty.canon with | .arr n _ => ((n.getD 0 : Nat) : Int) | _ => -1) hn
          rw [d3] at f1 f2 f3
          obtain ⟨T, head, body, tail, eT, p, hB, hw, ht, hH⟩ := record_piece (kw := (D.records id).kw) h4 f1 f2 f3 g1 g2 g3
          refine ⟨T, eT, p, .record hb h2 hB hw ?_ hH g4⟩
          rw [ht]
          by_cases h0 : f.name = ""
          · rw [if_pos h0, h0, (h3 h0).2]
            rfl
          · rw [if_neg h0, String.toList_append]
      · cases he
  | .ctype .., .mk .., _, h, _, _, _ | .ptr .., .mk .., _, h, _, _, _ | .ref .., .mk .., _, h, _, _, _ | .const .., .mk .., _, h, _, _, _
  | .tdef .., .mk .., _, h, _, _, _ | .enum .., .mk .., _, h, _, _, _ | .incomplete .., .mk .., _, h, _, _, _ | .fn .., .mk .., _, h, _, _, _ => h.elim
end

end

end EasyMock.CFile.TypeDecl
