import Verif.CDecl.Program
import Verif.Parser.Return
import Verif.Parser.AliveLemmas

/-! # CDecl: the functions of a file -/

namespace EasyMock.CDecl

open EasyMock.Types (Ty Params CT Kw FunDecl Access)
open EasyMock.Parser

/-- The types of a function: its result, its parameters, and its class. -/
def typesOf (d : FnD) : List Q :=
  d.ret :: d.params.map (·.q) ++ (d.member.map (fun m => Q.mk false false (.record m.record))).toList

/-- The parameters `ps` describe the parameters `ds`, with their names; the text is the one of the type unless the parameter
    is written by a macro, then it is the source text (C69). -/
inductive ParamsOf (D : Decls) : List ParamD → Params → Prop
  | nil : ParamsOf D [] .nil
  | cons {d ds s t ps} : Den D false true d.q t → NoInc t → (d.macroText = none → s = Types.declPrefix t) →
      (∀ m, d.macroText = some m → s = declaratorString d.q t (declareString false m)) → ParamsOf D ds ps →
      ParamsOf D (d :: ds) (.cons s t d.name ps)

/-- What is known of the cache. -/
def Inv (D : Decls) (roots : List Q) (c : Cache) : Prop := CacheOk D false (Used D roots) c ∧ CacheNI c

section
variable {D : Decls} {roots : List Q} (hA : Unambiguous D (Used D roots)) (hC : NamedCycles D (Used D roots))
include hA hC

theorem root_ok {fuel : Nat} {q : Q} {c : Cache} {t : Ty} {c' : Cache} (hq : q ∈ roots) (hc : Inv D roots c)
    (e : parseQ D (parseRecord D fuel) [] false q c = .ok (t, c')) : Den D false true q t ∧ NoInc t ∧ Inv D roots c' := by
  obtain ⟨h1, h2⟩ := root_sound hA hC (by simp) fuel hq hc.1 e
  obtain ⟨h3, h4⟩ := parseQ_ni (parseRecord_ni fuel) [] q false c t c' hc.2 e
  exact ⟨h1, h4 rfl, h2, h3⟩

theorem params_ok {fuel : Nat} : ∀ (ds : List ParamD) (c : Cache) (ps : Params) (c' : Cache), (∀ d ∈ ds, d.q ∈ roots) →
    Inv D roots c → parseParams D fuel ds c = .ok (ps, c') → ParamsOf D ds ps ∧ Inv D roots c'
  | [], c, ps, c', _, hc, e => by
    rw [parseParams] at e
    simp only [Except.ok.injEq, Prod.mk.injEq] at e
    obtain ⟨rfl, rfl⟩ := e
    exact ⟨.nil, hc⟩
  | d :: ds, c, ps, c', hr, hc, e => by
    rw [parseParams] at e
    split at e
    · cases e
    · rename_i t c1 ht
      split at e
      · cases e
      · rename_i r c2 hps
        simp only [Except.ok.injEq, Prod.mk.injEq] at e
        obtain ⟨rfl, rfl⟩ := e
        obtain ⟨h1, h2, h3⟩ := root_ok hA hC (hr d (by simp)) hc ht
        obtain ⟨h4, h5⟩ := params_ok ds c1 r c2 (fun x hx => hr x (by simp [hx])) h3 hps
        refine ⟨.cons h1 h2 (fun hm => ?_) (fun m hm => ?_) h4, h5⟩
        · rw [hm]
        · rw [hm]

theorem member_ok {fuel : Nat} {m : Option MemberD} {c : Cache} {p : Option Ty} {a : Access} {k : Bool} {c' : Cache}
    (hr : ∀ x ∈ m, Q.mk false false (.record x.record) ∈ roots) (hc : Inv D roots c)
    (e : parseMember D fuel m c = .ok ((p, a, k), c')) :
    (m = none → p = none ∧ a = .na ∧ k = false) ∧
    (∀ x ∈ m, ∃ t, p = some t ∧ Den D false true (.mk false false (.record x.record)) t ∧ NoInc t ∧ x.access = some a ∧ k = x.isConst) ∧
    Inv D roots c' := by
  cases m with
  | none =>
    simp only [parseMember, Except.ok.injEq, Prod.mk.injEq] at e
    obtain ⟨⟨rfl, rfl, rfl⟩, rfl⟩ := e
    exact ⟨fun _ => ⟨rfl, rfl, rfl⟩, by simp, hc⟩
  | some m =>
    rw [parseMember] at e
    split at e
    · cases e
    · rename_i t c1 ht
      split at e
      · cases e
      · rename_i b hb
        simp only [Except.ok.injEq, Prod.mk.injEq] at e
        obtain ⟨⟨rfl, rfl, rfl⟩, rfl⟩ := e
        obtain ⟨h1, h2, h3⟩ := root_ok hA hC (hr m rfl) hc ht
        refine ⟨fun h => (Option.some_ne_none _ h).elim, ?_, h3⟩
        intro x hx
        simp only [Option.mem_def, Option.some.injEq] at hx
        subst hx
        exact ⟨t, rfl, h1, h2, hb, rfl⟩

end

/-- The function `f` is made of `d`. -/
structure FnOf (D : Decls) (ms : MacroInfo) (d : FnD) (f : FunDecl) : Prop where
  name : f.info.name = d.name
  variadic : f.info.variadic = d.variadic
  inlined : f.info.inlined = d.isInline
  isStatic : f.info.isStatic = d.isStatic
  hasBody : f.hasBody = d.hasBody
  file : f.originFile = d.originFile
  attributes : f.info.attributes = functionAttributes d.attrs d.noReturn
  ns : f.ns = getNamespace d.scopes
  ret : Den D false true d.ret f.ret
  retNI : NoInc f.ret
  retStr : f.retStr = declaratorString d.ret f.ret (returnString ms d.name.toList d.retText)
  params : ParamsOf D d.params f.params
  free : d.member = none → f.parent = none ∧ f.info.access = .na ∧ f.info.classConst = false
  member : ∀ m ∈ d.member, (∀ t, f.parent = some t → Den D false true (.mk false false (.record m.record)) t ∧ NoInc t) ∧
    m.access = some f.info.access ∧ f.info.classConst = m.isConst

theorem function_ok {D : Decls} {ms : MacroInfo} {roots : List Q} (hA : Unambiguous D (Used D roots)) (hC : NamedCycles D (Used D roots))
    {fuel : Nat} {d : FnD} {c : Cache} {f : FunDecl} {c' : Cache} (hr : ∀ q ∈ typesOf d, q ∈ roots) (hc : Inv D roots c)
    (e : parseFunction D ms fuel d c = .ok (f, c')) : FnOf D ms d f ∧ (d.member.isSome → f.parent.isSome) ∧ Inv D roots c' := by
  rw [parseFunction] at e
  split at e
  · cases e
  · rename_i r c1 hret
    split at e
    · cases e
    · rename_i ps c2 hps
      split at e
      · cases e
      · rename_i parent access cc c3 hm
        simp only [Except.ok.injEq, Prod.mk.injEq] at e
        obtain ⟨rfl, rfl⟩ := e
        obtain ⟨h1, h2, h3⟩ := root_ok hA hC (hr d.ret (by simp [typesOf])) hc hret
        obtain ⟨h4, h5⟩ := params_ok hA hC d.params c1 ps c2
          (fun x hx => hr x.q (by simp only [typesOf, List.mem_append, List.mem_cons, List.mem_map]; exact Or.inl (Or.inr ⟨x, hx, rfl⟩))) h3 hps
        obtain ⟨h6, h7, h8⟩ := member_ok hA hC (m := d.member) (c := c2)
          (fun x hx => hr _ (by
            simp only [Option.mem_def] at hx
            simp [typesOf, hx])) h5 hm
        refine ⟨⟨rfl, rfl, rfl, rfl, rfl, rfl, rfl, rfl, h1, h2, rfl, h4, h6, ?_⟩, ?_, h8⟩
        · intro m hm
          obtain ⟨t, ht, h9, h10, h11, h12⟩ := h7 m hm
          refine ⟨fun t' ht' => ?_, h11, h12⟩
          rw [show parent = some t' from ht'] at ht
          rw [Option.some.inj ht]
          exact ⟨h9, h10⟩
        · intro hs
          obtain ⟨m, hm⟩ := Option.isSome_iff_exists.1 hs
          obtain ⟨t, ht, -⟩ := h7 m hm
          exact Option.isSome_iff_exists.2 ⟨t, ht⟩

theorem file_ok {D : Decls} {ms : MacroInfo} {roots : List Q} (hA : Unambiguous D (Used D roots)) (hC : NamedCycles D (Used D roots))
    {fuel : Nat} : ∀ (ds : List FnD) (c : Cache) (fs : List FunDecl) (c' : Cache), (∀ d ∈ ds, ∀ q ∈ typesOf d, q ∈ roots) →
    Inv D roots c → parseFile D ms fuel ds c = .ok (fs, c') →
    fs.length = ds.length ∧ ∀ (i : Nat) d f, ds[i]? = some d → fs[i]? = some f → FnOf D ms d f ∧ (d.member.isSome → f.parent.isSome)
  | [], c, fs, c', _, _, e => by
    rw [parseFile] at e
    simp only [Except.ok.injEq, Prod.mk.injEq] at e
    obtain ⟨rfl, rfl⟩ := e
    exact ⟨rfl, by simp⟩
  | d :: ds, c, fs, c', hr, hc, e => by
    rw [parseFile] at e
    split at e
    · cases e
    · rename_i f c1 hf
      split at e
      · cases e
      · rename_i gs c2 hgs
        simp only [Except.ok.injEq, Prod.mk.injEq] at e
        obtain ⟨rfl, rfl⟩ := e
        obtain ⟨h1, hp, h2⟩ := function_ok hA hC (hr d (by simp)) hc hf
        obtain ⟨h3, h4⟩ := file_ok hA hC ds c1 gs c2 (fun x hx => hr x (by simp [hx])) h2 hgs
        refine ⟨by simp [h3], ?_⟩
        intro i d' f' hd hf'
        cases i with
        | zero =>
          simp at hd hf'
          obtain ⟨rfl, rfl⟩ := And.intro hd hf'
          exact ⟨h1, hp⟩
        | succ i => exact h4 i d' f' (by simpa using hd) (by simpa using hf')

/-- The functions of a file, if the parser ends. -/
def ParsedFile (D : Decls) (ms : MacroInfo) (ds : List FnD) (fs : List FunDecl) : Prop :=
  ∃ fuel, parseUnit D ms fuel ds = .ok fs

/-- The functions of a file before their classes are looked up. -/
theorem parsed_before {D : Decls} {ms : MacroInfo} {ds : List FnD} {fs : List FunDecl} (h : ParsedFile D ms ds fs)
    (hA : Unambiguous D (Used D (ds.flatMap typesOf))) (hC : NamedCycles D (Used D (ds.flatMap typesOf))) :
    ∃ gs, fs = lockParents gs ∧ gs.length = ds.length ∧
      ∀ (i : Nat) d g, ds[i]? = some d → gs[i]? = some g → FnOf D ms d g ∧ (d.member.isSome → g.parent.isSome) := by
  obtain ⟨fuel, e⟩ := h
  rw [parseUnit] at e
  split at e
  · cases e
  · rename_i gs c hg
    exact ⟨gs, (Except.ok.inj e).symm, file_ok hA hC ds [] gs c (fun x hx q hq => List.mem_flatMap.2 ⟨x, hx, hq⟩)
      ⟨(by intro k t h; cases h), (by intro k t h; cases h)⟩ hg⟩

theorem FnOf.lock {D : Decls} {ms : MacroInfo} {d : FnD} {f : FunDecl} (h : FnOf D ms d f) (p : Ty → Bool) :
    FnOf D ms d { f with parent := f.parent.filter p } := by
  refine ⟨h.name, h.variadic, h.inlined, h.isStatic, h.hasBody, h.file, h.attributes, h.ns, h.ret, h.retNI, h.retStr, h.params, ?_, ?_⟩
  · intro hm
    refine ⟨?_, (h.free hm).2⟩
    show f.parent.filter p = none
    rw [(h.free hm).1]; rfl
  · intro m hm
    refine ⟨fun t ht => (h.member m hm).1 t ?_, (h.member m hm).2⟩
    exact (Option.filter_eq_some_iff.1 ht).1

/-- The functions of a file. -/
theorem parsed_ok {D : Decls} {ms : MacroInfo} {ds : List FnD} {fs : List FunDecl} (h : ParsedFile D ms ds fs)
    (hA : Unambiguous D (Used D (ds.flatMap typesOf))) (hC : NamedCycles D (Used D (ds.flatMap typesOf))) :
    fs.length = ds.length ∧ ∀ (i : Nat) d f, ds[i]? = some d → fs[i]? = some f → FnOf D ms d f := by
  obtain ⟨gs, rfl, hl, hg⟩ := parsed_before h hA hC
  refine ⟨by simpa [lockParents] using hl, ?_⟩
  intro i d f hd hf
  simp only [lockParents, List.getElem?_map, Option.map_eq_some_iff] at hf
  obtain ⟨g, hgi, rfl⟩ := hf
  exact (hg i d g hd hgi).1.lock _

/-! ## The classes of the functions -/

/-- The types of the result and of the parameters of a function. -/
def ownTypes (d : FnD) : List Q := d.ret :: d.params.map (·.q)

/-- The record `id`, the class of a function, is known when the code is generated: it is a class with a name, and it has members
    or no typedef name is used for it; or it is mentioned by its tag in the type of a parameter or of a result. -/
inductive Stays (D : Decls) (ds : List FnD) (id : Nat) : Prop
  | cls : (D.records id).kw = .cls → (D.records id).tag ≠ "" →
      ((D.records id).fields ≠ [] ∧ (D.records id).tag ∉ D.ignored ∨ ∀ n, Used D (ds.flatMap typesOf) id n → n = "") → Stays D ds id
  | mentioned {v : Bool} : (D.records id).tag ≠ "" → (∃ d ∈ ds, ∃ q ∈ ownTypes d, (id, "", v) ∈ q.uses true) → Stays D ds id

theorem params_objs {D : Decls} {U : Nat → String → Prop} : ∀ {ds : List ParamD} {ps : Params}, ParamsOf D ds ps →
    (∀ d ∈ ds, ∀ id n w, (id, n, w) ∈ d.q.uses true → U id n) → ∀ o ∈ objsP ps, ObjOf D U o
  | _, _, .nil, _ => by rw [objsP]; simp
  | _, _, .cons h _ _ _ hs, hu => by
    rw [objsP]
    intro o ho
    rcases List.mem_append.1 ho with ho | ho
    · exact den_objs h (hu _ (by simp)) o ho
    · exact params_objs hs (fun d hd => hu d (by simp [hd])) o ho

theorem params_mention {D : Decls} {id : Nat} {n : String} {w : Bool} : ∀ {ds : List ParamD} {ps : Params}, ParamsOf D ds ps →
    (∃ d ∈ ds, (id, n, w) ∈ d.q.uses true) → ∃ o ∈ objsP ps, o.key = ((D.records id).tag, n)
  | _, _, .nil, h => by obtain ⟨d, hd, -⟩ := h; cases hd
  | _, _, .cons h hni _ _ hs, hm => by
    rw [objsP]
    obtain ⟨d, hd, hm⟩ := hm
    rcases List.mem_cons.1 hd with rfl | hd
    · obtain ⟨o, h1, h2⟩ := den_mention h hni hm
      exact ⟨o, List.mem_append.2 (Or.inl h1), h2⟩
    · obtain ⟨o, h1, h2⟩ := params_mention hs ⟨d, hd, hm⟩
      exact ⟨o, List.mem_append.2 (Or.inr h1), h2⟩

theorem held_objs {D : Decls} {ms : MacroInfo} {d : FnD} {f : FunDecl} {U : Nat → String → Prop} (h : FnOf D ms d f)
    (hu : ∀ q ∈ ownTypes d, ∀ id n w, (id, n, w) ∈ q.uses true → U id n) : ∀ o ∈ heldBy f, ObjOf D U o := by
  intro o ho
  rcases List.mem_append.1 ho with ho | ho
  · exact den_objs h.ret (hu _ (by simp [ownTypes])) o ho
  · exact params_objs h.params (fun p hp => hu _ (by simp only [ownTypes, List.mem_cons, List.mem_map]; exact Or.inr ⟨p, hp, rfl⟩)) o ho

theorem created_objs {D : Decls} {ms : MacroInfo} {d : FnD} {f : FunDecl} {U : Nat → String → Prop} (h : FnOf D ms d f)
    (hu : ∀ q ∈ typesOf d, ∀ id n w, (id, n, w) ∈ q.uses true → U id n) : ∀ o ∈ created f, ObjOf D U o := by
  intro o ho
  rcases List.mem_append.1 ho with ho | ho
  · exact held_objs h (fun q hq => hu q (List.mem_append.2 (Or.inl hq))) o ho
  · cases hm : d.member with
    | none => rw [(h.free hm).1] at ho; cases ho
    | some m =>
      cases hp : f.parent with
      | none => rw [hp] at ho; cases ho
      | some t =>
        rw [hp] at ho
        exact den_objs ((h.member m hm).1 t hp).1 (hu _ (by simp [typesOf, hm])) o ho

/-- The object of the class of a function. -/
theorem parent_comp {D : Decls} {id : Nat} {t : Ty} (h : Den D false true (.mk false false (.record id)) t) (hi : NoInc t) :
    ∃ fs emb, t = .comp false (D.records id).kw (D.records id).tag fs emb (!(D.records id).complete) .nil := by
  match h with
  | .plain h =>
    match h with
    | .record _ w _ =>
      rcases w with ⟨-, w⟩ | ⟨w, -⟩
      · exact ⟨_, _, w⟩
      · exact absurd rfl w
    | .tag _ _ => exact hi.elim

section
variable {D : Decls} {ms : MacroInfo} {ds : List FnD} {gs : List FunDecl} (hA : Unambiguous D (Used D (ds.flatMap typesOf)))
  (hl : gs.length = ds.length)
  (hg : ∀ (i : Nat) d g, ds[i]? = some d → gs[i]? = some g → FnOf D ms d g ∧ (d.member.isSome → g.parent.isSome))
include hA hl hg

omit hA in
theorem made (g : FunDecl) (h : g ∈ gs) : ∃ d ∈ ds, FnOf D ms d g := by
  obtain ⟨i, hi, rfl⟩ := List.mem_iff_getElem.1 h
  have hi' : i < ds.length := hl ▸ hi
  exact ⟨ds[i], List.getElem_mem hi', (hg i _ _ (List.getElem?_eq_getElem hi') (List.getElem?_eq_getElem hi)).1⟩

omit hA in
theorem makes (d : FnD) (h : d ∈ ds) : ∃ g ∈ gs, FnOf D ms d g := by
  obtain ⟨i, hi, rfl⟩ := List.mem_iff_getElem.1 h
  have hi' : i < gs.length := hl.symm ▸ hi
  exact ⟨gs[i], List.getElem_mem hi', (hg i _ _ (List.getElem?_eq_getElem hi) (List.getElem?_eq_getElem hi')).1⟩

omit hA in
theorem all_objs : ∀ o ∈ gs.flatMap created, ObjOf D (Used D (ds.flatMap typesOf)) o := by
  intro o ho
  obtain ⟨g, h1, h2⟩ := List.mem_flatMap.1 ho
  obtain ⟨d, hd, hf⟩ := made hl hg g h1
  exact created_objs hf (fun q hq id n w hm => Or.inl ⟨q, List.mem_flatMap.2 ⟨d, hd, hq⟩, w, hm⟩) o h2

omit hA in
theorem all_used : ∀ o ∈ gs.flatMap created, ∃ id, Used D (ds.flatMap typesOf) id o.td ∧ o.tag = (D.records id).tag ∧
    o.kw = (D.records id).kw ∧ o.fwd = (!(D.records id).complete) ∧
    (o.empty = true → (D.records id).tag ∈ D.ignored ∨ (D.records id).fields = []) := by
  intro o ho
  obtain ⟨⟨id, h1, h2⟩, -⟩ := all_objs hl hg o ho
  refine ⟨id, ?_, h2⟩
  rcases h1 with h1 | h1
  · exact h1
  · exact Or.inr h1

theorem stays_alive {i : Nat} {d : FnD} {m : MemberD} {g : FunDecl} {t : Ty} (hd : ds[i]? = some d) (hgi : gs[i]? = some g)
    (hm : d.member = some m) (ht : g.parent = some t) (hs : Stays D ds m.record) : alive gs t = true := by
  have hfn := (hg i d g hd hgi).1
  obtain ⟨hden, hni⟩ := (hfn.member m hm).1 t ht
  obtain ⟨fs, emb, rfl⟩ := parent_comp hden hni
  rw [alive, Bool.or_eq_true]
  match hs with
  | .mentioned hne ⟨d', hd', q, hq, hu⟩ =>
    right
    obtain ⟨g', hg', hf'⟩ := makes hl hg d' hd'
    rw [List.any_eq_true]
    refine ⟨g', hg', ?_⟩
    rw [List.any_eq_true]
    rcases List.mem_cons.1 hq with rfl | hq
    · obtain ⟨o, h1, h2⟩ := den_mention hf'.ret hf'.retNI hu
      exact ⟨o, List.mem_append.2 (Or.inl h1), by rw [h2]; simp⟩
    · obtain ⟨p, hp, rfl⟩ := List.mem_map.1 hq
      obtain ⟨o, h1, h2⟩ := params_mention hf'.params ⟨p, hp, hu⟩
      exact ⟨o, List.mem_append.2 (Or.inr h1), by rw [h2]; simp⟩
  | .cls hkw hne hor =>
    left
    have hused : Used D (ds.flatMap typesOf) m.record "" := Or.inl ⟨.mk false false (.record m.record),
      List.mem_flatMap.2 ⟨d, List.mem_of_getElem? hd, by simp [typesOf, hm]⟩, true, by simp [Q.uses, CTy.uses]⟩
    have hall := all_used hl hg
    have hown : ∃ o ∈ gs.flatMap created, o.key = ((D.records m.record).tag, "") := by
      obtain ⟨o, h1, h2⟩ := den_mention hden hni (id := m.record) (n := "") (w := true) (by simp [Q.uses, CTy.uses])
      refine ⟨o, List.mem_flatMap.2 ⟨g, List.mem_of_getElem? hgi, List.mem_append.2 (Or.inr ?_)⟩, h2⟩
      rw [ht]; exact h1
    obtain ⟨o, h1, h2⟩ := keep_class (i := ((D.records m.record).tag, "")) (by simp [hne]) (gs.flatMap created) [] []
      (by
        intro o ho hk
        obtain ⟨id, hu, htag, hkw', -⟩ := hall o ho
        have e1 : o.tag = (D.records m.record).tag := congrArg Prod.fst hk
        have := hA.tags id o.td m.record "" hu hused (by rw [← htag, e1]) (by rw [← htag, e1]; exact hne)
        rw [hkw', this, hkw])
      (by
        intro o ho o' ho' hk hk'
        rcases ho' with ho' | ho'
        · obtain ⟨id, hu, htag, -, -, hemp⟩ := hall o' ho'
          have e1 : o.tag = (D.records m.record).tag := congrArg Prod.fst hk
          rw [Bool.eq_false_iff]
          intro hsame
          simp only [sameHash, Bool.and_eq_true, beq_iff_eq] at hsame
          obtain ⟨⟨⟨h1, h2⟩, -⟩, -⟩ := hsame
          have e2 : o'.tag = (D.records m.record).tag := h1.trans e1
          have hid := hA.tags id o'.td m.record "" hu hused (by rw [← htag, e2]) (by rw [← htag, e2]; exact hne)
          subst hid
          rcases hor with ⟨hf, hig⟩ | hor
          · rcases hemp h2 with h | h
            · exact hig h
            · exact hf h
          · exact hk' (by rw [Obj.key, e2, hor _ hu])
        · cases ho')
      (by simp) (by simp) hown
    rw [List.any_eq_true]
    exact ⟨o, h1, by rw [h2]; simp⟩

theorem lost_dead {i : Nat} {d : FnD} {m : MemberD} {g : FunDecl} {t : Ty} (hd : ds[i]? = some d) (hgi : gs[i]? = some g)
    (hm : d.member = some m) (ht : g.parent = some t) (hkw : (D.records m.record).kw ≠ .cls) (hne : (D.records m.record).tag ≠ "")
    (hfun : ∀ d' ∈ ds, ∀ q ∈ ownTypes d', ∀ v, (m.record, "", v) ∉ q.uses true) (hfield : ¬ InField D m.record "") :
    alive gs t = false := by
  have hfn := (hg i d g hd hgi).1
  obtain ⟨hden, hni⟩ := (hfn.member m hm).1 t ht
  obtain ⟨fs, emb, rfl⟩ := parent_comp hden hni
  have hused : Used D (ds.flatMap typesOf) m.record "" := Or.inl ⟨.mk false false (.record m.record),
    List.mem_flatMap.2 ⟨d, List.mem_of_getElem? hd, by simp [typesOf, hm]⟩, true, by simp [Q.uses, CTy.uses]⟩
  rw [alive, Bool.or_eq_false_iff]
  constructor
  · rw [List.any_eq_false]
    intro o ho hor
    rcases keep_sub _ _ _ o ho with h | ⟨h, hk⟩
    · cases h
    · rw [Bool.or_eq_true] at hor
      rcases hor with hor | hor
      · obtain ⟨id, hu, htag, hkw', -⟩ := all_used hl hg o h
        have e1 : o.tag = (D.records m.record).tag := congrArg Prod.fst (beq_iff_eq.1 hor)
        have hid := hA.tags id o.td m.record "" hu hused (by rw [← htag, e1]) (by rw [← htag, e1]; exact hne)
        rw [hid] at hkw'
        exact hkw (hkw' ▸ hk)
      · obtain ⟨-, hin⟩ := all_objs hl hg o h
        obtain ⟨id, hf, htag⟩ := hin _ (List.contains_iff_mem.1 hor)
        have hid := hA.tags id "" m.record "" (Or.inr hf) hused htag.symm (by rw [← htag]; exact hne)
        rw [hid] at hf
        exact hfield hf
  · rw [List.any_eq_false]
    intro g' hg' hany
    rw [List.any_eq_true] at hany
    obtain ⟨o, ho, hkey⟩ := hany
    obtain ⟨d', hd', hf'⟩ := made hl hg g' hg'
    obtain ⟨⟨id, hu, htag, -⟩, -⟩ := held_objs hf' (U := fun id n => ∃ q ∈ ownTypes d', ∃ v, (id, n, v) ∈ q.uses true)
      (fun q hq id n w hm => ⟨q, hq, w, hm⟩) o ho
    have e := beq_iff_eq.1 hkey
    have e1 : o.tag = (D.records m.record).tag := congrArg Prod.fst e
    have e2 : o.td = "" := congrArg Prod.snd e
    rw [e2] at hu
    rcases hu with ⟨q, hq, v, hu⟩ | hu
    · have hu' : Used D (ds.flatMap typesOf) id "" := Or.inl ⟨q, List.mem_flatMap.2 ⟨d', hd', List.mem_append.2 (Or.inl hq)⟩, v, hu⟩
      have hid := hA.tags id "" m.record "" hu' hused (by rw [← htag, e1]) (by rw [← htag, e1]; exact hne)
      rw [hid] at hu
      exact hfun d' hd' q hq v hu
    · have hid := hA.tags id "" m.record "" (Or.inr hu) hused (by rw [← htag, e1]) (by rw [← htag, e1]; exact hne)
      rw [hid] at hu
      exact hfield hu

end

/-- The type without `volatile`. -/
def dropVolatile : Q → Q
  | .mk k _ t => .mk k false t

theorem den_volatile {D : Decls} {s v : Bool} {q : Q} {t : Ty} (h : Den D s v q t) : Den D s v (dropVolatile q) t := by
  match h with
  | .plain h => exact .plain h
  | .const h => exact .const h

/-! ## The text of a result -/

theorem lex_split : ∀ (s acc : List Char), ∃ w ws, splitBlank s = w :: ws ∧ lexFrom acc s = lexFrom acc w ++ ws.flatMap toks
  | [], acc => ⟨[], [], rfl, by simp [lexFrom]⟩
  | c :: s, acc => by
    by_cases hc : c = ' '
    · subst hc
      obtain ⟨w, ws, h1, h2⟩ := lex_split s []
      refine ⟨[], w :: ws, by rw [splitBlank, if_pos rfl, h1], ?_⟩
      have e : lexFrom acc (' ' :: s) = flush acc ++ symbol ' ' ++ lexFrom [] s := by
        rw [lexFrom, if_neg (by decide)]
      rw [e, h2]
      simp [symbol, lexFrom]
    · by_cases hw : wordChar c = true
      · obtain ⟨w, ws, h1, h2⟩ := lex_split s (acc ++ [c])
        refine ⟨c :: w, ws, by rw [splitBlank, if_neg hc, h1], ?_⟩
        rw [lexFrom, if_pos hw, h2, lexFrom, if_pos hw]
      · obtain ⟨w, ws, h1, h2⟩ := lex_split s []
        refine ⟨c :: w, ws, by rw [splitBlank, if_neg hc, h1], ?_⟩
        rw [lexFrom, if_neg hw, h2, lexFrom, if_neg hw]
        simp

theorem flatMap_filter : ∀ (ws : List (List Char)), (ws.filter (fun w => !w.isEmpty)).flatMap toks = ws.flatMap toks
  | [] => rfl
  | [] :: ws => by
    rw [List.filter_cons_of_neg (by simp), flatMap_filter ws]
    simp [lexFrom, flush]
  | (c :: w) :: ws => by
    rw [List.filter_cons_of_pos (by simp), List.flatMap_cons, List.flatMap_cons, flatMap_filter ws]

theorem toks_words (s : List Char) : toks s = (Parser.words s).flatMap toks := by
  obtain ⟨w, ws, h1, h2⟩ := lex_split s []
  rw [Parser.words, h1, flatMap_filter, List.flatMap_cons, ← h2]

/-- The blanks between the words do not matter. -/
theorem read_words {a b : List Char} (n : String) (h : Parser.words a = Parser.words b) :
    read (String.ofList a ++ " " ++ n) = read (String.ofList b ++ " " ++ n) := by
  have e : ∀ x : List Char, toks (String.ofList x ++ " " ++ n).toList = toks x ++ toks n.toList := by
    intro x
    rw [show (String.ofList x ++ " " ++ n).toList = x ++ ' ' :: n.toList by simp [String.toList_append], toks_sep _ _ _ (by decide)]
    simp [symbol]
  rw [read_eq, read_eq, e, e, toks_words a, toks_words b, h]

end EasyMock.CDecl
