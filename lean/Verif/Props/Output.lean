import Verif.Props.CDecl
import Verif.Props.Gen2

/-!
# C46 for the parameters of a program

`Props/Gen2.lean` says which output arguments are offered for the type which the parser has made of a parameter.  Here it is said
for the type which the parameter has in the program.
-/

namespace EasyMock.CDecl

open EasyMock.Types (Ty Params)
open EasyMock.Parser (Decls Q CTy Qs Builtin Den DenT NoInc FnD ParamD MacroInfo Wraps qPtr qInt qRec listUnit unitOf exampleMacros)
open EasyMock.Gen (output isVoid isForward unqualify)

/-! ## What is offered -/

mutual
/-- What is offered for a pointer to data of type `q`. -/
def pointed (D : Decls) : Q → Gen.Out
  | .mk true _ _ => .none
  | .mk false _ t => pointedT D "" t

/-- What is offered for a pointer to data of type `t`, which is called `name`.  Through pointers the innermost type decides, and
    the element of an array stands for the array; a typedef which is not one of a function or of an array is data whose size
    is known. -/
def pointedT (D : Decls) (name : String) : CTy → Gen.Out
  | .tdef n (.mk _ _ t) => pointedT D (if name = "" then n else name) t
  | .fn .. => .none
  | .arr _ q => pointed D q
  | .ptr q => if name = "" then pointed D q else .plain
  | .builtin .void => if name = "" then .sized else .plain
  | .record id => if name = "" ∧ (D.records id).complete = false then .sized else .plain
  | .builtin _ | .ref _ | .enum _ => .plain
end

/-- The output which is offered for a parameter of type `q`: one for a pointer which is written as such. -/
def offered (D : Decls) : Q → Gen.Out
  | .mk _ _ t => if t.outer = "" then (match t.canon with | .ptr q => pointed D q | _ => .none) else .none

/-! ## What C says -/

/-- The type without typedefs, and whether it is constant. -/
def resolve (k : Bool) : CTy → Bool × CTy
  | .tdef _ (.mk k' _ t) => resolve (k || k') t
  | t => (k, t)

/-- An array of constant elements is constant. -/
def constData : Q → Bool
  | .mk k _ t => k || go t
where
  go : CTy → Bool
    | .tdef _ (.mk k _ t) => k || go t
    | .arr _ (.mk k _ t) => k || go t
    | _ => false

/-- The output there should be for a parameter of type `q`: one for a pointer to data which is no function and not constant, with a
    size for `void` and for a record which is declared but not defined. -/
def outputOf (D : Decls) : Q → Gen.Out
  | .mk k _ t =>
    match (resolve k t).2 with
    | .ptr (.mk k' v' u) =>
      if constData (.mk k' v' u) then .none
      else match (resolve k' u).2 with
        | .fn .. => .none
        | .builtin .void => .sized
        | .record id => if (D.records id).complete then .plain else .sized
        | _ => .plain
    | _ => .none

/-! ## The parsed type -/

theorem canon_not : ∀ (t : CTy) (n : String) (q : Q), t.canon ≠ .tdef n q
  | .tdef _ (.mk _ _ t), n, q => by rw [CTy.canon]; exact canon_not t n q
  | .builtin _, _, _ | .ptr _, _, _ | .ref _, _, _ | .arr .., _, _ | .record _, _, _ | .enum _, _, _ | .fn .., _, _ => by
    rw [CTy.canon] <;> simp

theorem pointed_canon {D : Decls} : ∀ (t : CTy) (name : String),
    pointedT D name t = pointedT D (if name = "" then t.outer else name) t.canon
  | .tdef n (.mk _ _ t), name => by
    rw [pointedT, pointed_canon t, CTy.canon, CTy.outer]
    congr 1
    by_cases h : name = ""
    · rw [if_pos h, if_pos h]
    · rw [if_neg h, if_neg h, if_neg h]
  | .builtin _, name | .ptr _, name | .ref _, name | .arr .., name | .record _, name | .enum _, name | .fn .., name => by
    rw [CTy.canon, CTy.outer]
    · split
      · rename_i h; rw [h]
      · rfl
    all_goals simp

/-- What is offered depends on the type at the end of the pointers. -/
def endOut (t : Ty) : Gen.Out :=
  if !Types.isConst t && !Types.isImplicit t && !Types.isFunctionType t then (if isVoid t || isForward t then .sized else .plain) else .none

theorem output_ptr (i : Bool) (t : Ty) : output (.ptr i t) = endOut (Types.mostPointed t) := rfl

theorem end_named {n : String} {t : Ty} : endOut (Types.mostPointed (.tdef false n t)) = .plain := rfl

mutual
theorem den_pointed {D : Decls} {s : Bool} : ∀ {v : Bool} {q : Q} {u : Ty}, Den D s v q u → NoInc u →
    endOut (Types.mostPointed u) = pointed D q
  | _, _, _, .plain h, hi => by rw [pointed, pointed_canon, if_pos rfl]; exact denT_pointed h hi
  | _, _, _, .const h, hi => by rw [pointed]; rfl

theorem denT_pointed {D : Decls} {s : Bool} : ∀ {v : Bool} {name : String} {c : CTy} {u : Ty}, DenT D s v name c u → NoInc u →
    endOut (Types.mostPointed u) = pointedT D name c
  | _, name, _, _, .builtin (b := b) hs hw, hi => by
    rcases hw with ⟨rfl, rfl⟩ | ⟨hn, rfl⟩
    · cases b <;> rw [pointedT] <;> (try rw [if_pos rfl]) <;> simp only [Parser.scalar] at hs <;>
        (try subst hs) <;> first | rfl | (split <;> rfl) | (rcases hs with rfl | ⟨_, rfl⟩ <;> rfl) | skip
      all_goals simp
    · cases b <;> rw [pointedT, end_named] <;> first | (rw [if_neg hn]) | simp
  | _, name, _, _, .ptr h hw, hi => by
    rw [pointedT]
    rcases hw with ⟨rfl, rfl⟩ | ⟨hn, rfl⟩
    · rw [if_pos rfl]
      have := den_pointed h hi
      exact this
    · rw [if_neg hn]; rfl
  | _, name, _, _, .ref h hw, hi => by
    rw [pointedT]
    rcases hw with ⟨rfl, rfl⟩ | ⟨hn, rfl⟩ <;> rfl
  | _, name, _, _, .arr h, hi => by rw [pointedT]; exact den_pointed h hi
  | _, name, _, _, .enum hw, hi => by
    rw [pointedT]
    rcases hw with ⟨rfl, rfl⟩ | ⟨hn, rfl⟩ <;> rfl
  | _, name, _, _, .fn .., hi => by rw [pointedT]; rfl
  | _, name, _, _, .record (id := id) _ hw _, hi => by
    rw [pointedT]
    rcases hw with ⟨rfl, rfl⟩ | ⟨hn, rfl⟩
    · cases hc : (D.records id).complete <;> cases hk : (D.records id).kw <;> simp <;> rfl
    · rw [if_neg (fun h => hn h.1)]; rfl
  | _, name, _, _, .tag .., hi => hi.elim
end

theorem arr_canon : ∀ {t : CTy} {n : Option Nat} {q : Q}, t.canon = .arr n q → CArr t
  | .tdef _ (.mk _ _ t), _, _, h => by rw [CTy.canon] at h; exact arr_canon (t := t) h
  | .arr .., _, _, _ => trivial

theorem core_offered {D : Decls} {s v : Bool} {c : CTy} {u : Ty} (h : DenT D s v c.outer c.canon u) (hi : NoInc u) (ha : ¬ CArr c) :
    output u = (if c.outer = "" then (match c.canon with | .ptr q => pointed D q | _ => .none) else .none) ∧ Types.isConst u = false := by
  generalize hn : c.outer = name at h
  generalize hc : c.canon = cc at h
  cases h with
  | builtin hs hw =>
    rcases hw with ⟨rfl, rfl⟩ | ⟨hn, rfl⟩
    · rw [if_pos rfl]; exact ⟨rfl, rfl⟩
    · rw [if_neg hn]; exact ⟨rfl, rfl⟩
  | ptr h hw =>
    rcases hw with ⟨rfl, rfl⟩ | ⟨hn, rfl⟩
    · rw [if_pos rfl]; have := den_pointed h hi; exact ⟨this, rfl⟩
    · rw [if_neg hn]; exact ⟨rfl, rfl⟩
  | ref h hw =>
    rcases hw with ⟨rfl, rfl⟩ | ⟨hn, rfl⟩
    · rw [if_pos rfl]; exact ⟨rfl, rfl⟩
    · rw [if_neg hn]; exact ⟨rfl, rfl⟩
  | arr h => exact absurd (arr_canon hc) ha
  | enum hw =>
    rcases hw with ⟨rfl, rfl⟩ | ⟨hn, rfl⟩
    · rw [if_pos rfl]; exact ⟨rfl, rfl⟩
    · rw [if_neg hn]; exact ⟨rfl, rfl⟩
  | fn h hp => split <;> exact ⟨rfl, rfl⟩
  | record _ hw _ =>
    rcases hw with ⟨rfl, rfl⟩ | ⟨hn, rfl⟩
    · rw [if_pos rfl]; exact ⟨rfl, rfl⟩
    · rw [if_neg hn]; exact ⟨rfl, rfl⟩
  | tag => exact hi.elim

/-- The output offered for what the parser makes of a type. -/
theorem den_offered {D : Decls} {s v : Bool} {q : Q} {t : Ty} (h : Den D s v q t) (hi : NoInc t) (ha : ¬ CArr q.ty) : output t = offered D q := by
  cases h with
  | plain h => exact (core_offered h hi ha).1
  | const h =>
    rename_i u
    have hu := core_offered h hi ha
    rw [offered, ← hu.1]
    cases u with
    | const i w => cases hu.2
    | _ => rfl

/-! ## C46 -/

/-- A pointer is written as such, and points to no typedef, pointer or array; everything else is no pointer. -/
def Direct : CTy → Prop
  | .ptr (.mk _ _ (.tdef ..)) | .ptr (.mk _ _ (.ptr _)) | .ptr (.mk _ _ (.arr ..)) => False
  | .tdef n (.mk k v t) => ∀ q, (resolve false (.tdef n (.mk k v t))).2 ≠ .ptr q
  | _ => True

theorem resolve_canon : ∀ (k : Bool) (t : CTy), (resolve k t).2 = t.canon
  | _, .tdef _ (.mk _ _ t) => by rw [resolve, CTy.canon]; exact resolve_canon _ t
  | _, .builtin _ | _, .ptr _ | _, .ref _ | _, .arr .. | _, .record _ | _, .enum _ | _, .fn .. => by
    rw [resolve, CTy.canon] <;> simp

theorem direct_offered {D : Decls} : ∀ (q : Q), Direct q.ty → offered D q = outputOf D q
  | .mk k v t, h => by
    rw [offered, outputOf, resolve_canon]
    match t, h with
    | .ptr (.mk k' v' u), h =>
      rw [CTy.outer, if_pos rfl, CTy.canon]
      · show pointed D (.mk k' v' u) = if constData (.mk k' v' u) then _ else _
        rw [resolve_canon]
        cases k' with
        | true => rw [pointed, constData, Bool.true_or, if_pos rfl]
        | false =>
          rw [pointed, constData, Bool.false_or]
          match u, h with
          | .builtin b, _ => cases b <;> rfl
          | .ref q, _ | .enum i, _ | .fn r ps v, _ => rfl
          | .record id, _ =>
            show (if _ then _ else _) = if false = true then _ else if _ then _ else _
            rw [if_neg (by decide : ¬ (false = true))]
            cases (D.records id).complete <;> rfl
      all_goals simp
    | .tdef n (.mk k' v' u), h =>
      have h : ∀ q, (CTy.tdef n (.mk k' v' u)).canon ≠ .ptr q := fun q => resolve_canon false _ ▸ h q
      generalize (CTy.tdef n (.mk k' v' u)).canon = c at h
      cases c with
      | ptr q => exact absurd rfl (h q)
      | _ => split <;> rfl
    | .builtin _, _ | .ref _, _ | .arr .., _ | .record _, _ | .enum _, _ | .fn .., _ => rfl

/-- The outputs which are offered for the parameters of a function, in their order. -/
def outsOf (s : Gen.FunSection) : List Gen.Out := s.params.entries.map (fun e => e.2.2.1)

theorem outs_section {D : Decls} : ∀ (ds : List ParamD) (ps : Params) (k : Nat), ParamsOf D ds ps → (∀ d ∈ ds, ¬ CArr d.q.ty) →
    (Gen.paramSection k ps).1.entries.map (fun e => e.2.2.1) = ds.map (fun d => offered D d.q)
  | _, _, k, .nil, _ => by rw [Gen.paramSection]; rfl
  | d :: ds, _, k, .cons (t := t) (ps := ps) h hi _ _ hr, ha => by
    rw [Gen.paramSection_cons, Gen.PList.entries, List.map_cons, List.map_cons,
      outs_section ds ps _ hr (fun x hx => ha x (List.mem_cons_of_mem d hx)), den_offered h hi (ha d List.mem_cons_self)]

/-- **C46** from the program (partial: no parameter is a pointer behind a typedef or a pointer to a typedef, to a pointer or to an
    array — see the refutations; a parameter written as an array is a pointer to clang).  For each parameter of a function of the
    program, in their order, the Expect functions offer an output exactly if the parameter points to data which is not constant and
    no function, and ask for its size exactly if it is `void` or a record which is not defined. -/
theorem C46_program_partial {D : Decls} {ms : MacroInfo} {ds : List FnD} {fs : List Types.FunDecl}
    (hA : Parser.Unambiguous D (Parser.Used D (ds.flatMap typesOf))) (hC : Parser.NamedCycles D (Parser.Used D (ds.flatMap typesOf)))
    (hp : ParsedFile D ms ds fs) (i : Nat) (d : FnD) (f : Types.FunDecl) (hd : ds[i]? = some d) (hf : fs[i]? = some f)
    (ha : ∀ p ∈ d.params, Direct p.q.ty ∧ ¬ CArr p.q.ty) (c : Gen.Config) (k : Nat) :
    outsOf (Gen.funSection c k f).1 = d.params.map (fun p => outputOf D p.q) := by
  have h := (C76_functions_partial hA hC hp).2 i d f hd hf
  refine (outs_section d.params f.params _ h.params (fun p hp => (ha p hp).2)).trans ?_
  exact List.map_congr_left (fun p hp => direct_offered p.q (ha p hp).1)

/-- **C46**: what is offered without that restriction — the innermost type behind the pointers decides, and typedefs hide what they
    stand for. -/
theorem C46_offered_partial {D : Decls} {ms : MacroInfo} {ds : List FnD} {fs : List Types.FunDecl}
    (hA : Parser.Unambiguous D (Parser.Used D (ds.flatMap typesOf))) (hC : Parser.NamedCycles D (Parser.Used D (ds.flatMap typesOf)))
    (hp : ParsedFile D ms ds fs) (i : Nat) (d : FnD) (f : Types.FunDecl) (hd : ds[i]? = some d) (hf : fs[i]? = some f)
    (ha : ∀ p ∈ d.params, ¬ CArr p.q.ty) (c : Gen.Config) (k : Nat) :
    outsOf (Gen.funSection c k f).1 = d.params.map (fun p => offered D p.q) :=
  outs_section d.params f.params _ ((C76_functions_partial hA hC hp).2 i d f hd hf).params ha

/-! ## Examples -/

/-- `void f(int *p, const char *s, void *b, struct N *n, int (*cb)(void), int k)`; `N` is defined. -/
def outputFn : FnD where
  name := "f"
  ret := .mk false false (.builtin .void)
  retText := "void".toList
  params := [⟨qPtr qInt, "p", none⟩, ⟨qText, "s", none⟩, ⟨qPtr (.mk false false (.builtin .void)), "b", none⟩, ⟨qPtr (qRec 0), "n", none⟩,
    ⟨qPtr (.mk false false (.fn qInt .nil false)), "cb", none⟩, ⟨qInt, "k", none⟩]

theorem output_used {i : Nat} {n : String} (h : Parser.Used listUnit ([outputFn].flatMap typesOf) i n) :
    Parser.Used listUnit ([exampleF, exampleG, exampleM].flatMap typesOf) i n := by
  rcases h with ⟨q, hq, v, h⟩ | h
  · simp [typesOf, outputFn] at hq
    refine Or.inl ⟨qPtr (qRec 0), by simp [typesOf, exampleG], false, ?_⟩
    rcases hq with rfl | rfl | rfl | rfl | rfl | rfl | rfl <;>
      simp [qPtr, qRec, qInt, qText, Parser.Q.uses, Parser.Qs.uses, Parser.CTy.uses] at h <;> simp [h, qPtr, qRec, Parser.Q.uses, Parser.CTy.uses]
  · exact Or.inr h

/-- What C46 says about this function. -/
example : ∃ f, ParsedFile listUnit exampleMacros [outputFn] [f] ∧ ∀ c k,
    outsOf (Gen.funSection c k f).1 = [.plain, .none, .sized, .plain, .none, .none] := by
  obtain ⟨fs, hfs⟩ : ∃ fs, ParsedFile listUnit exampleMacros [outputFn] fs := ⟨_, 3, rfl⟩
  have hA : Parser.Unambiguous listUnit (Parser.Used listUnit ([outputFn].flatMap typesOf)) := by
    have h := example_unambiguous
    exact ⟨fun i n j m a b => h.tags i n j m (output_used a) (output_used b), fun i n j m a b => h.names i n j m (output_used a) (output_used b),
      fun i n j m a b => h.apart i n j m (output_used a) (output_used b), fun i n j m a b => h.keys i n j m (output_used a) (output_used b)⟩
  have hC : Parser.NamedCycles listUnit (Parser.Used listUnit ([outputFn].flatMap typesOf)) := fun i n h => example_named i n (output_used h)
  have hlen := (C76_functions_partial hA hC hfs).1
  match fs, hlen with
  | [f], _ =>
    refine ⟨f, hfs, fun c k => (C46_program_partial hA hC hfs 0 outputFn f rfl rfl ?_ c k).trans (by decide +kernel)⟩
    intro p hp
    simp only [outputFn, List.mem_cons, List.not_mem_nil, or_false] at hp
    rcases hp with rfl | rfl | rfl | rfl | rfl | rfl <;> exact ⟨trivial, id⟩

/-! ## Where C46 is false -/

/-- The output offered for a function with one parameter of this type, and the one there should be. -/
def Offers (q : Q) (is should : Gen.Out) : Prop :=
  (match Parser.parseUnit (unitOf []) exampleMacros 3 [fnOf q] with
  | .ok [f] => some (outsOf (Gen.funSection {} 0 f).1)
  | _ => none) = some [is] ∧ outputOf (unitOf []) q = should

/-- `typedef const int C; void h(C *p)`: an output is offered, and the mock writes to constant data. -/
theorem C46_refuted_program_const : Offers (qPtr (.mk false false (.tdef "C" (.mk true false (.builtin .int))))) .plain .none := by
  unfold Offers; decide +kernel

/-- `typedef int *P; void h(P p)`: none is offered. -/
theorem C46_refuted_program_typedef : Offers (.mk false false (.tdef "P" (qPtr qInt))) .none .plain := by unfold Offers; decide +kernel

/-- `const char **` and `int (**)(void)`: none is offered; `void **`: a size is asked for; `const int *const *`: none, as there should be. -/
theorem C46_refuted_program_levels : Offers (qPtr qText) .none .plain ∧ Offers (qPtr (qPtr (.mk false false (.fn qInt .nil false)))) .none .plain ∧
    Offers (qPtr (qPtr (.mk false false (.builtin .void)))) .sized .plain ∧
    Offers (qPtr (.mk true false (.ptr (.mk true false (.builtin .int))))) .none .none := by unfold Offers; decide +kernel

end EasyMock.CDecl
