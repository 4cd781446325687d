import Verif.CFile.ProgramText
import Verif.Props.TypedCpp

/-! # CFile: the functions of a program in C++

The conditions on texts follow from what clang knows of the functions, as in `ProgramText`. -/

namespace EasyMock.CFile.Txt

open EasyMock.Gen
open EasyMock.Types (Ty Params FunDecl)
open EasyMock.Parser
open EasyMock.CDecl

/-! ## References and pointers to functions -/

/-- The type at the end of the pointers and references has a name. -/
def BaseNamed (D : Decls) : CTy → Prop
  | .ptr (.mk _ _ t) | .ref (.mk _ _ t) | .arr _ (.mk _ _ t) | .tdef _ (.mk _ _ t) => BaseNamed D t
  | .builtin _ => True
  | .record id => Word (D.records id).tag
  | .enum id => Word (D.enums id).tag
  | .fn .. => False

theorem canon_base {D : Decls} : ∀ (c : CTy), BaseNamed D c → BaseNamed D c.canon
  | .tdef _ (.mk _ _ t), h => canon_base t h
  | .builtin _, h | .ptr _, h | .ref _, h | .arr _ _, h | .record _, h | .enum _, h | .fn .., h => h

/-- The text of the name of the type behind pointers, references, qualifiers and typedefs. -/
def RawText (t : Ty) : Prop := TypeText (Types.attrs (Types.rawType t)).name.toList

theorem Wraps.rawText {name : String} {core t : Ty} (h : Wraps name core t) (hc : RawText core) : RawText t := by
  rcases h with ⟨-, rfl⟩ | ⟨-, rfl⟩
  · exact hc
  · exact hc

theorem word_type {n : String} (h : Word n) : TypeText n.toList :=
  typeText (word_text h).1 (word_text h).2.1 ((word_text h).2.2 0)

mutual
theorem den_base {D : Decls} {s v : Bool} {q : Q} {t : Ty} (h : Den D s v q t) (hn : BaseNamed D q.ty) : RawText t := by
  match h with
  | .plain (c := c) h => exact denT_base h (canon_base c hn)
  | .const (c := c) (t := u) h =>
    have h1 : RawText u := denT_base h (canon_base c hn)
    exact h1

theorem denT_base {D : Decls} {s v : Bool} {name : String} {c : CTy} {t : Ty} (h : DenT D s v name c t) (hn : BaseNamed D c) :
    RawText t := by
  match h with
  | .builtin (c := c) _ hw =>
    exact Wraps.rawText hw (typeText (scalar_text c).1 (scalar_text c).2.1 (scalar_text c).2.2)
  | .ptr (q := .mk _ _ c) (u := u) h hw =>
    have hc : BaseNamed D c := hn
    have h1 : RawText u := den_base h hc
    exact Wraps.rawText hw h1
  | .ref (q := .mk _ _ c) (u := u) h hw =>
    have hc : BaseNamed D c := hn
    have h1 : RawText u := den_base h hc
    exact Wraps.rawText hw h1
  | .arr (q := .mk _ _ c) h =>
    have hc : BaseNamed D c := hn
    exact den_base h hc
  | .enum hw => exact Wraps.rawText hw (word_type hn)
  | .fn _ _ => exact hn.elim
  | .record (id := id) _ hw _ =>
    refine Wraps.rawText hw ?_
    have : TypeText (D.records id).tag.toList := word_type hn
    unfold RawText
    rw [show Types.rawType (.comp false (D.records id).kw (D.records id).tag _ _ (!(D.records id).complete) .nil) = _ from rfl]
    cases (D.records id).kw <;> exact this
  | .tag _ _ => exact word_type hn
end

/-! ## Functions -/

/-- A parameter of a function in C++: it is no pointer to a function; what a reference refers to has a name. -/
structure CppParam (D : Decls) (p : ParamD) : Prop where
  flat : CNoFn p.q.ty
  named : CNoRef p.q.ty ∨ BaseNamed D p.q.ty
  name : p.name = "" ∨ Ident p.name.toList
  text : ∀ ty, p.macroText = some ty → PlainQ D false (dropVolatile p.q) ∧ TypeText (Parser.declareString false ty)

/-- A member function whose Expect functions have a list of parameters which C++ reads (C49), in a class which is known when
    the files are generated (C82). -/
structure CppMember (D : Decls) (ds : List FnD) (d : FnD) (m : MemberD) : Prop where
  plain : PlainMember D m
  cls : Ident (D.records m.record).tag.toList
  stays : Stays D ds m.record
  params : (∃ p, d.params = [p]) ∨ (d.params = [] ∧ ∃ v, d.ret = .mk false v (.builtin .void))

/-- A function of the program `ds` in C++ which the generated files can declare. -/
structure CppText (D : Decls) (ms : MacroInfo) (ds : List FnD) (d : FnD) (Ss : Sems) (R : Sem) : Prop where
  member : ∀ m ∈ d.member, CppMember D ds d m
  name : Ident d.name.toList ∧ Word d.name
  spaces : ∀ n ∈ getNamespace d.scopes, Ident n.toList
  origin : '\n' ∉ d.originFile.toList ∧ '\\' ∉ d.originFile.toList
  params : ParamsAre D d.params Ss
  plain : ∀ p ∈ d.params, CppParam D p
  result : ResultText D ms d R
  flat : CNoFn d.ret.ty

theorem params_cpp {D : Decls} {c : Config} : ∀ (ds : List ParamD) (ps : Params) (Ss : Sems), ParamsOf D ds ps →
    ParamsAre D ds Ss → (∀ p ∈ ds, CppParam D p) → ParamsText c ps ∧ AllPlain ps
  | [], _, _, .nil, .nil, _ => ⟨.nil, trivial⟩
  | d :: ds, _, _, .cons (s := s) (ps := ps) (t := t) h1 h2 h3 h4 h5, .cons (Ss := Ss) hn h h', hr => by
    have hd := hr d (by simp)
    have ih := params_cpp (c := c) ds ps Ss h5 h' (fun x hx => hr x (by simp [hx]))
    have hnf := den_noFn h1 hd.flat
    refine ⟨.cons ?_ ih.1, hnf, ih.2⟩
    have hraw : reference t = true → RawText t := by
      intro h
      rcases hd.named with hn | hn
      · rw [noRef_reference (den_noRef h1 hn)] at h; cases h
      · exact den_base h1 hn
    have key : Spellable false t → Written s t → ParamText c s t d.name := fun hs hw =>
      ⟨hs, hw, hd.name, fun _ => opens_noFn t hnf, fun _ => opens_noFn t hnf, hraw⟩
    match h with
    | .type hm hp _ =>
      exact key (den_spell (dropVolatile d.q) true false t (den_volatile h1) h2 hp).1 (Or.inr (Or.inl (h3 hm)))
    | .text ty hm hf _ _ _ _ =>
      obtain ⟨hp, ht⟩ := hd.text ty hm
      refine key (den_spell (dropVolatile d.q) true false t (den_volatile h1) h2 hp).1 (Or.inr (Or.inr ⟨?_, opens_noFn t hnf⟩))
      rw [h4 ty hm]
      unfold Parser.declaratorString
      rw [show d.q.isFn = false by cases hq : d.q with | mk k v c => rw [hq] at hf; exact isFn_noFn c hf]
      rw [if_pos (by simp), if_neg, String.toList_ofList]
      · exact ht
      · intro he
        obtain ⟨x, r, hx, -⟩ := ht.first
        rw [hx] at he
        cases he

theorem class_name {D : Decls} {id : Nat} {t : Ty} (h : Den D false true (.mk false false (.record id)) t) :
    (Types.attrs t).name = (D.records id).tag := by
  match h with
  | .plain h =>
    match h with
    | .record _ w _ => rw [Wraps.bare w]; cases (D.records id).kw <;> rfl
    | .tag _ _ => rfl

/-- The functions of a program in C++ can be declared. -/
theorem cpp_text {D : Decls} {ms : MacroInfo} {ds : List FnD} {d : FnD} {f : FunDecl} {Ss : Sems} {R : Sem} {c : Config}
    (ha : c.attrs = []) (h : FnOf D ms d f) (ht : CppText D ms ds d Ss R) : FunText c f := by
  obtain ⟨hs, -⟩ := den_spell d.ret true false f.ret h.ret h.retNI ht.result.plain
  have hres : Written f.retStr f.ret ∧ firstWord (Types.declareString f.retStr f.ret) ≠ "namespace".toList ∧
      firstWord (Types.declareString f.retStr f.ret) ≠ "static".toList := by
    rcases ht.result.text with ⟨kept, h1, h2, h3, h4, h5⟩ | ⟨h1, -⟩
    · obtain ⟨a1, a2, a3, a4⟩ := result_words h ht.name.2 h1 h2 h3 h4
      refine ⟨Or.inr (Or.inr ⟨a1, a2⟩), ?_⟩
      have e : Types.declareString f.retStr f.ret = f.retStr := by
        unfold Types.declareString
        rw [if_neg]
        intro he
        obtain ⟨x, r, hx, -⟩ := a1.first
        have : f.retStr = "" := by simpa using he
        rw [this] at hx
        cases hx
      rw [e]
      constructor
      · intro hw; rw [← a3, hw] at h5; exact h5 rfl
      · intro hw
        rw [hw] at a3
        exact a4 (List.mem_of_mem_head? a3.symm)
    · exfalso
      have hfn : d.ret.isFn = true := by
        cases hq : d.ret with
        | mk k v c => rw [hq] at h1; exact (isFn_iff c).2 h1
      cases hq : d.ret with
      | mk k v c =>
        have hf := ht.flat
        rw [hq] at hf hfn
        have := isFn_noFn c hf
        rw [show (Q.mk k v c).isFn = false from this] at hfn
        cases hfn
  refine ⟨by rw [h.name]; exact ht.name.1, by rw [h.file]; exact ht.origin, fun _ => by rw [h.ns]; exact ht.spaces, ?_,
    (params_cpp _ _ _ h.params ht.params ht.plain).1, hs, hres.1, fun _ => opens_noFn _ (den_noFn h.ret ht.flat), ?_, hres.2⟩
  · intro p hp
    cases hm : d.member with
    | none => rw [(h.free hm).1] at hp; cases hp
    | some m =>
      rw [class_name ((h.member m hm).1 p hp).1]
      exact (ht.member m hm).cls
  · intro a ham
    unfold keptAttrs at ham
    rw [ha] at ham
    have := (List.mem_filter.mp ham).2
    cases this

end EasyMock.CFile.Txt
