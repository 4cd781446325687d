import Verif.Props.CDecl

/-!
# C82: a member function is mocked as a member of its class

`C82_partial` is in `Verif.Props.CDecl`, where C76 needs it.  Here: the structures for which it is false, and examples.
-/

namespace EasyMock.CDecl

open EasyMock.Types (Ty Params Kw FunDecl)
open EasyMock.Parser
open EasyMock.Gen (Config funSection mockSignature)

/-- **C82** is false for every member function of a structure or union (with a name) which no parameter, no result and no member of
    a record mentions by its tag: the generator finds no class, and the function is mocked as if it were not a member. -/
theorem C82_refuted_struct {D : Decls} {ms : MacroInfo} {ds : List FnD} {fs : List FunDecl}
    (hA : Unambiguous D (Used D (ds.flatMap typesOf))) (hC : NamedCycles D (Used D (ds.flatMap typesOf)))
    (hp : ParsedFile D ms ds fs) (i : Nat) (d : FnD) (f : FunDecl) (hd : ds[i]? = some d) (hf : fs[i]? = some f)
    (m : MemberD) (hm : d.member = some m) (hkw : (D.records m.record).kw ≠ .cls) (hn : (D.records m.record).tag ≠ "")
    (hfun : ∀ d' ∈ ds, ∀ q ∈ ownTypes d', ∀ v, (m.record, "", v) ∉ q.uses true)
    (hfield : ∀ r, ∀ x ∈ (D.records r).fields, ∀ v, (m.record, "", v) ∉ x.q.uses true) : f.parent = none := by
  obtain ⟨gs, rfl, hl, hg⟩ := parsed_before hp hA hC
  simp only [lockParents, List.getElem?_map, Option.map_eq_some_iff] at hf
  obtain ⟨g, hgi, rfl⟩ := hf
  obtain ⟨t, ht⟩ := Option.isSome_iff_exists.1 ((hg i d g hd hgi).2 (by simp [hm]))
  show g.parent.filter (alive gs) = none
  rw [Option.filter_eq_none_iff]
  intro t' ht'
  rw [ht] at ht'
  rw [← Option.some.inj ht', lost_dead hA hl hg hd hgi hm ht hkw hn hfun (fun ⟨r, x, hx, v, hv⟩ => hfield r x hx v hv)]
  simp

/-! ## Examples -/

/-- What the declarations of the mocks of a file say. -/
def mockedAll (D : Decls) (ds : List FnD) : Option (List (Option (List Char × Sem))) :=
  match parseUnit D (fun _ => none) 5 ds with
  | .ok fs => some (fs.map (fun f => read (mockSignature (funSection {} 0 f).1)))
  | _ => none

/-- `void h(int p)`, a member of the first record. -/
def memberH : FnD := { fnOf qInt with member := some { record := 0, access := some .pub } }

/-- `class A { public: void h(int p); };` -/
def classUnit : Decls := unitOf [{ kw := .cls, tag := "A" }]

/-- `struct A { void h(int p); };` -/
def structUnit : Decls := unitOf [{ kw := .struct, tag := "A" }]

/-- `void f(A *p)` where `A` is called by its tag. -/
def useByTag : FnD := { fnOf (qPtr (qRec 0)) with name := "f" }

/-- `void f(T *p)` where `T` is a typedef name of `A`. -/
def useByTypedef : FnD := { fnOf (qPtr (qDef "T" 0)) with name := "f" }

/-- The mock of `A::h` for the class, and for the structure if it is mentioned. -/
example :
    mockedAll classUnit [memberH] =
      some [some ("A::h".toList, .fn (.named ["void".toList]) (.cons (.named ["int".toList]) .nil) false)] ∧
    mockedAll structUnit [memberH, useByTag] =
      some [some ("A::h".toList, .fn (.named ["void".toList]) (.cons (.named ["int".toList]) .nil) false),
        some ("f".toList, .fn (.named ["void".toList]) (.cons (.ptr (.named ["struct".toList, "A".toList])) .nil) false)] := by
  decide +kernel

/-- The structure alone: the mock defines `h`, not `A::h`. -/
theorem C82_refuted_struct_mock :
    mockedAll structUnit [memberH] =
      some [some ("h".toList, .fn (.named ["void".toList]) (.cons (.named ["int".toList]) .nil) false)] ∧
    declName structUnit memberH = "A::h" := by
  decide +kernel

/-- A class without members for which a typedef name is used before: `globalListOfClasses` holds the object made for the
    typedef, which has the same hash, instead of the one the member function refers to. -/
theorem C82_refuted_typedef :
    mockedAll classUnit [useByTypedef, memberH] =
      some [some ("f".toList, .fn (.named ["void".toList]) (.cons (.ptr (.named ["T".toList])) .nil) false),
        some ("h".toList, .fn (.named ["void".toList]) (.cons (.named ["int".toList]) .nil) false)] ∧
    declName classUnit memberH = "A::h" ∧
    mockedAll classUnit [memberH, useByTypedef] =
      some [some ("A::h".toList, .fn (.named ["void".toList]) (.cons (.named ["int".toList]) .nil) false),
        some ("f".toList, .fn (.named ["void".toList]) (.cons (.ptr (.named ["T".toList])) .nil) false)] := by
  decide +kernel

/-- `struct A { void h(int p); }; class B { A a; public: void k(int p); };` -/
def insideUnit : Decls := unitOf [{ kw := .struct, tag := "A" }, { kw := .cls, tag := "B", fields := [⟨"A a".toList, qRec 0, "a", none⟩] }]

/-- `void k(int p)`, a member of the second record. -/
def memberK : FnD := { fnOf qInt with name := "k", member := some { record := 1, access := some .pub } }

/-- A structure which is a member of a class which is kept is kept with it, whatever comes first. -/
example :
    mockedAll insideUnit [memberH, memberK] =
      some [some ("A::h".toList, .fn (.named ["void".toList]) (.cons (.named ["int".toList]) .nil) false),
        some ("B::k".toList, .fn (.named ["void".toList]) (.cons (.named ["int".toList]) .nil) false)] ∧
    mockedAll insideUnit [memberK, memberH] =
      some [some ("B::k".toList, .fn (.named ["void".toList]) (.cons (.named ["int".toList]) .nil) false),
        some ("A::h".toList, .fn (.named ["void".toList]) (.cons (.named ["int".toList]) .nil) false)] := by
  decide +kernel

/-- `class A { public: void h(int p); } a; typedef A T; class B { class A a; public: void k(int p); };` -/
def embeddedUnit : Decls :=
  unitOf [{ kw := .cls, tag := "A", inDeclarator := true }, { kw := .cls, tag := "B", fields := [⟨"class A a".toList, qRec 0, "a", none⟩] }]

/-- An object made for a member, of a class declared together with a variable, does not have the hash of the one made for a
    typedef; and a class which is only declared does not have the hash of a new one. -/
example :
    mockedAll embeddedUnit [useByTypedef, memberK, memberH] =
      some [some ("f".toList, .fn (.named ["void".toList]) (.cons (.ptr (.named ["T".toList])) .nil) false),
        some ("B::k".toList, .fn (.named ["void".toList]) (.cons (.named ["int".toList]) .nil) false),
        some ("A::h".toList, .fn (.named ["void".toList]) (.cons (.named ["int".toList]) .nil) false)] ∧
    (keepClasses [⟨.cls, "A", "T", true, false, false, []⟩, ⟨.cls, "A", "", true, true, false, []⟩] [] []).length = 2 ∧
    (keepClasses [⟨.cls, "A", "T", true, false, true, []⟩, ⟨.cls, "A", "", true, false, false, []⟩] [] []).length = 2 ∧
    (keepClasses [⟨.cls, "A", "T", true, false, false, []⟩, ⟨.cls, "A", "", true, false, false, []⟩] [] []).length = 1 := by
  decide +kernel

theorem used_one {kw : Kw} {ds : List FnD} (hd : ∀ d ∈ ds, ∀ q ∈ typesOf d, ∀ i n v, (i, n, v) ∈ q.uses true → i = 0 ∧ n = "") {i : Nat} {n : String}
    (h : Used (unitOf [{ kw := kw, tag := "A" }]) (ds.flatMap typesOf) i n) : i = 0 ∧ n = "" := by
  rcases h with ⟨q, hq, v, hu⟩ | ⟨r, x, hx, v, hu⟩
  · obtain ⟨d, hd', hq⟩ := List.mem_flatMap.1 hq
    exact hd d hd' q hq i n v hu
  · match r with
    | 0 => cases hx
    | r + 1 => simp [unitOf] at hx

theorem one_unambiguous {kw : Kw} {ds : List FnD} (hd : ∀ d ∈ ds, ∀ q ∈ typesOf d, ∀ i n v, (i, n, v) ∈ q.uses true → i = 0 ∧ n = "") :
    Unambiguous (unitOf [{ kw := kw, tag := "A" }]) (Used (unitOf [{ kw := kw, tag := "A" }]) (ds.flatMap typesOf)) ∧
    NamedCycles (unitOf [{ kw := kw, tag := "A" }]) (Used (unitOf [{ kw := kw, tag := "A" }]) (ds.flatMap typesOf)) := by
  refine ⟨⟨?_, ?_, ?_, ?_⟩, ?_⟩
  · intro i n j m h1 h2 _ _; rw [(used_one hd h1).1, (used_one hd h2).1]
  · intro i n j m h1 h2 _ _; rw [(used_one hd h1).1, (used_one hd h2).1]
  · intro i n j m h1 h2 _ _; rw [(used_one hd h1).1, (used_one hd h2).1]
  · intro i n j m h1 h2 _ _; exact ⟨by rw [(used_one hd h1).1, (used_one hd h2).1], by rw [(used_one hd h1).2, (used_one hd h2).2]⟩
  · intro i n h hn; exact absurd (used_one hd h).2 hn

theorem member_uses : ∀ d ∈ [memberH], ∀ q ∈ typesOf d, ∀ i n v, (i, n, v) ∈ q.uses true → i = 0 ∧ n = "" := by
  intro d hd q hq i n v hu
  simp only [List.mem_singleton] at hd
  subst hd
  simp [typesOf, memberH, fnOf, qInt] at hq
  rcases hq with rfl | rfl | rfl <;> simp [Q.uses, CTy.uses] at hu
  exact ⟨hu.1, hu.2.1⟩

/-- `C82_partial` for the class, `C82_refuted_struct` for the structure. -/
example :
    (∃ f t, ParsedFile classUnit (fun _ => none) [memberH] [f] ∧ f.parent = some t) ∧
    (∃ f, ParsedFile structUnit (fun _ => none) [memberH] [f] ∧ f.parent = none) := by
  constructor
  · obtain ⟨fs, hfs⟩ : ∃ fs, ParsedFile classUnit (fun _ => none) [memberH] fs := ⟨_, 3, rfl⟩
    obtain ⟨hA, hC⟩ := one_unambiguous (kw := .cls) member_uses
    match fs, (C76_functions_partial hA hC hfs).1 with
    | [f], _ =>
      obtain ⟨t, ht⟩ := C82_partial hA hC hfs 0 memberH f rfl rfl _ rfl
        (.cls rfl (by decide +kernel) (Or.inr (fun n h => (used_one member_uses h).2)))
      exact ⟨f, t, hfs, ht⟩
  · obtain ⟨fs, hfs⟩ : ∃ fs, ParsedFile structUnit (fun _ => none) [memberH] fs := ⟨_, 3, rfl⟩
    obtain ⟨hA, hC⟩ := one_unambiguous (kw := .struct) member_uses
    match fs, (C76_functions_partial hA hC hfs).1 with
    | [f], _ =>
      refine ⟨f, hfs, C82_refuted_struct hA hC hfs 0 memberH f rfl rfl _ rfl (by decide) (by decide +kernel) ?_ ?_⟩
      · intro d hd q hq v hu
        simp only [List.mem_singleton] at hd
        subst hd
        simp [ownTypes, memberH, fnOf, qInt] at hq
        rcases hq with rfl | rfl <;> simp [Q.uses, CTy.uses] at hu
      · intro r x hx v
        match r with
        | 0 => cases hx
        | r + 1 => simp [unitOf] at hx

end EasyMock.CDecl
