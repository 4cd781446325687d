import Verif.Parser.TypesSound
import Verif.Parser.TypesTotal
import Verif.Parser.TypesDepth
import Verif.Parser.Namespace

/-! # Properties of the conversion of types: C53, C71-C74 -/

namespace EasyMock.Parser

open EasyMock.Types (Ty Fields Params Methods Kw CT)

/-! ## Programs for examples -/

/-- A translation unit with the given records and without enumerations. -/
def unitOf (rs : List RecD) : Decls where
  records := fun i => rs.getD i { kw := .struct, tag := "", complete := false }
  enums := fun _ => { tag := "", values := [] }

/-- `int`. -/
def qInt : Q := .mk false false (.builtin .int)

/-- A record by number. -/
def qRec (id : Nat) : Q := .mk false false (.record id)

/-- A pointer. -/
def qPtr (q : Q) : Q := .mk false false (.ptr q)

/-- A record by the name of a typedef. -/
def qDef (n : String) (id : Nat) : Q := .mk false false (.tdef n (qRec id))

/-- `struct N { struct N *next; struct { struct N *prev; int n : 3; } in; int v[3]; };` -/
def listUnit : Decls := unitOf
  [{ kw := .struct, tag := "N",
     fields := [⟨"struct N *".toList, qPtr (qRec 0), "next", none⟩, ⟨"struct { struct N *prev; int n : 3; } ".toList, qRec 1, "in", none⟩,
       ⟨"int v[3".toList, .mk false false (.arr (some 3) qInt), "v", none⟩] },
   { kw := .struct, tag := "", inDeclarator := true,
     fields := [⟨"struct N *".toList, qPtr (qRec 0), "prev", none⟩, ⟨"int n : ".toList, qInt, "n", some 3⟩] }]

/-- `f(List x, struct N *y)` with `typedef struct N List;`. -/
def listRoots : List Q := [qDef "List" 0, qPtr (qRec 0)]

/-! ## C53: every parameter keeps its own type -/

/-- C53: what the parser makes of a type describes it: builtin types, pointers, arrays, functions, enumerations, and records with
    all members, or with keyword and tag inside their own description.  Missing (see the refutations): names which belong to
    two records, and typedef'd records without tag which lead back to themselves. -/
theorem C53_partial {D : Decls} {roots : List Q} {ts : List Ty} (hA : Unambiguous D (Used D roots)) (hC : NamedCycles D (Used D roots))
    (hp : Parsed D roots ts) :
    ts.length = roots.length ∧ ∀ (i : Nat) q t, roots[i]? = some q → ts[i]? = some t → Den D false true q t := by
  obtain ⟨fuel, c, e⟩ := hp
  exact parseAll_sound (strict := false) hA hC (by simp) fuel roots [] ts c (fun _ h => h) (by intro k t h; cases h) e

/-- Mentions in the example. -/
theorem used_list {i : Nat} {n : String} (h : Used listUnit listRoots i n) : (i = 0 ∧ (n = "List" ∨ n = "")) ∨ (i = 1 ∧ n = "") := by
  rcases h with ⟨q, hq, v, h⟩ | ⟨r, f, hf, v, h⟩
  · simp only [listRoots, List.mem_cons, List.not_mem_nil, or_false] at hq
    rcases hq with rfl | rfl <;> simp [qDef, qPtr, qRec, Q.uses, CTy.uses] at h <;> simp [h]
  · match r with
    | 0 =>
      simp only [listUnit, unitOf, List.getD_cons_zero, List.mem_cons, List.not_mem_nil, or_false] at hf
      rcases hf with rfl | rfl | rfl <;> simp [qPtr, qRec, qInt, Q.uses, CTy.uses] at h <;> simp [h]
    | 1 =>
      simp only [listUnit, unitOf, List.getD_cons_zero, List.getD_cons_succ, List.mem_cons, List.not_mem_nil, or_false] at hf
      rcases hf with rfl | rfl <;> simp [qPtr, qRec, qInt, Q.uses, CTy.uses] at h <;> simp [h]
    | r + 2 => simp [listUnit, unitOf] at hf

/-- Names of records do not run into each other if tags contain no `_`. -/
theorem key_inj {a b n m : String} (ha : '_' ∉ a.toList) (hb : '_' ∉ b.toList) (h : a ++ "_" ++ n = b ++ "_" ++ m) : a = b ∧ n = m := by
  have h' : a.toList ++ '_' :: n.toList = b.toList ++ '_' :: m.toList := by
    have := congrArg String.toList h
    simpa using this
  have : a.toList = b.toList ∧ n.toList = m.toList := by
    generalize a.toList = x at *
    generalize b.toList = y at *
    induction x generalizing y with
    | nil =>
      cases y with
      | nil => simpa using h'
      | cons c y => simp at h'; exact absurd (List.mem_cons.2 (Or.inl h'.1)) hb
    | cons c x ih =>
      cases y with
      | nil => simp at h'; exact absurd (List.mem_cons.2 (Or.inl h'.1.symm)) ha
      | cons d y =>
        simp only [List.cons_append, List.cons.injEq] at h'
        obtain ⟨h1, h2⟩ := ih (fun hm => ha (List.mem_cons_of_mem _ hm)) y (fun hm => hb (List.mem_cons_of_mem _ hm)) h'.2
        exact ⟨by rw [h'.1, h1], h2⟩
  exact ⟨String.toList_inj.1 this.1, String.toList_inj.1 this.2⟩

/-- In C tags name one record each, and typedefs as well.  If moreover no tag contains `_` and no record has a tag which is the
    typedef name of another one, then no entry belongs to two records. -/
theorem C53_keys {D : Decls} {U : Nat → String → Prop}
    (tags : ∀ i n j m, U i n → U j m → (D.records i).tag = (D.records j).tag → (D.records i).tag ≠ "" → i = j)
    (names : ∀ i n j m, U i n → U j m → n = m → n ≠ "" → i = j)
    (apart : ∀ i n j m, U i n → U j m → n = (D.records j).tag → n ≠ "" → i = j)
    (plain : ∀ i n, U i n → '_' ∉ (D.records i).tag.toList) : Unambiguous D U where
  tags := tags
  names := names
  apart := apart
  keys := by
    intro i n j m hi hj hk hne
    obtain ⟨h1, h2⟩ := key_inj (plain i n hi) (plain j m hj) hk
    refine ⟨?_, h2⟩
    by_cases ht : (D.records i).tag = ""
    · refine names i n j m hi hj h2 ?_
      rintro rfl
      rw [ht] at hne
      exact hne (by decide)
    · exact tags i n j m hi hj h1 ht

theorem list_unambiguous : Unambiguous listUnit (Used listUnit listRoots) := by
  apply C53_keys
  · intro i n j m hi hj h hne
    rcases used_list hi with ⟨rfl, -⟩ | ⟨rfl, -⟩ <;> rcases used_list hj with ⟨rfl, -⟩ | ⟨rfl, -⟩ <;>
      first | rfl | (revert h hne; decide)
  · intro i n j m hi hj h hne
    rcases used_list hi with ⟨rfl, -⟩ | ⟨rfl, rfl⟩ <;> rcases used_list hj with ⟨rfl, -⟩ | ⟨rfl, rfl⟩ <;>
      first | rfl | exact absurd h hne | exact absurd rfl hne
  · intro i n j m hi hj h hne
    rcases used_list hi with ⟨rfl, rfl | rfl⟩ | ⟨rfl, rfl⟩ <;> rcases used_list hj with ⟨rfl, -⟩ | ⟨rfl, -⟩ <;>
      first | rfl | exact absurd rfl hne | (revert h; decide)
  · intro i n hi
    rcases used_list hi with ⟨rfl, -⟩ | ⟨rfl, -⟩ <;> decide +kernel

theorem list_named : NamedCycles listUnit (Used listUnit listRoots) := by
  intro i n hi hn ht
  rcases used_list hi with ⟨rfl, -⟩ | ⟨rfl, rfl⟩
  · exact absurd ht (by decide)
  · exact absurd rfl hn

/-- The program of the example is parsed. -/
theorem list_parsed : ∃ ts, Parsed listUnit listRoots ts := ⟨_, 3, _, rfl⟩

/-- C53 for the example: both parameters are described although the records refer to each other. -/
example : ∃ ts, Parsed listUnit listRoots ts ∧ ts.length = 2 ∧
    ∀ (i : Nat) q t, listRoots[i]? = some q → ts[i]? = some t → Den listUnit false true q t := by
  obtain ⟨ts, h⟩ := list_parsed
  exact ⟨ts, h, C53_partial list_unambiguous list_named h⟩

/-- Records with different tags are not described by the same type. -/
theorem den_apart {D : Decls} {strict v w : Bool} {n m : String} {a b : Nat} {t u : Ty} (ha : DenT D strict v n (.record a) t)
    (hb : DenT D strict w m (.record b) u) (hne : (D.records a).tag ≠ (D.records b).tag) : t ≠ u := by
  rintro rfl
  cases ha with
  | record h1 h2 _ =>
    cases hb with
    | record h3 h4 _ =>
      rcases h2 with ⟨-, rfl⟩ | ⟨-, rfl⟩ <;> rcases h4 with ⟨-, h4⟩ | ⟨-, h4⟩ <;> simp at h4 <;> exact hne (by simp [h4])
    | tag h3 h4 => rcases h2 with ⟨-, h⟩ | ⟨-, h⟩ <;> cases h
  | tag h1 h2 =>
    generalize hu : (Ty.incomplete _ (D.records a).kw (D.records a).tag) = u at hb
    cases hb with
    | record h3 h4 _ => rcases h4 with ⟨-, h⟩ | ⟨-, h⟩ <;> rw [h] at hu <;> cases hu
    | tag h3 h4 =>
      simp only [Ty.incomplete.injEq] at hu
      exact hne hu.2.2

/-- C53: two parameters whose types are records with different tags get different types. -/
theorem C53_apart_partial {D : Decls} {roots : List Q} {ts : List Ty} (hA : Unambiguous D (Used D roots))
    (hC : NamedCycles D (Used D roots)) (hp : Parsed D roots ts) (i j : Nat) (s u : CTy) (a b : Nat)
    (hi : roots[i]? = some (.mk false false s)) (hj : roots[j]? = some (.mk false false u)) (hs : s.canon = .record a) (hu : u.canon = .record b)
    (hne : (D.records a).tag ≠ (D.records b).tag) : ∃ x y, ts[i]? = some x ∧ ts[j]? = some y ∧ x ≠ y := by
  obtain ⟨hl, hd⟩ := C53_partial hA hC hp
  have get : ∀ (k : Nat) q, roots[k]? = some q → ∃ t, ts[k]? = some t := by
    intro k q hk
    have : k < ts.length := by rw [hl]; exact (List.getElem?_eq_some_iff.1 hk).1
    exact ⟨ts[k], List.getElem?_eq_getElem this⟩
  obtain ⟨x, hx⟩ := get i _ hi
  obtain ⟨y, hy⟩ := get j _ hj
  refine ⟨x, y, hx, hy, ?_⟩
  have h1 := hd i _ x hi hx
  have h2 := hd j _ y hj hy
  cases h1 with
  | plain h1 =>
    cases h2 with
    | plain h2 =>
      rw [hs] at h1
      rw [hu] at h2
      exact den_apart h1 h2 hne

/-- `struct P { int x; }; struct R { int y; };` -/
def pairUnit : Decls := unitOf
  [{ kw := .struct, tag := "P", fields := [⟨"int x".toList, qInt, "x", none⟩] },
   { kw := .struct, tag := "R", fields := [⟨"int y".toList, qInt, "y", none⟩] }]

theorem used_pair {i : Nat} {n : String} (h : Used pairUnit [qRec 0, qDef "D" 1] i n) : (i = 0 ∧ n = "") ∨ (i = 1 ∧ n = "D") := by
  rcases h with ⟨q, hq, v, h⟩ | ⟨r, f, hf, v, h⟩
  · simp only [List.mem_cons, List.not_mem_nil, or_false] at hq
    rcases hq with rfl | rfl <;> simp [qDef, qRec, Q.uses, CTy.uses] at h <;> simp [h]
  · match r with
    | 0 => simp [pairUnit, unitOf] at hf; subst hf; simp [qInt, Q.uses, CTy.uses] at h
    | 1 => simp [pairUnit, unitOf] at hf; subst hf; simp [qInt, Q.uses, CTy.uses] at h
    | r + 2 => simp [pairUnit, unitOf] at hf

/-- `f(struct P, D)` with `typedef struct R D;`. -/
example : ∃ ts, Parsed pairUnit [qRec 0, qDef "D" 1] ts ∧ ∃ x y, ts[0]? = some x ∧ ts[1]? = some y ∧ x ≠ y := by
  refine ⟨_, ⟨3, _, rfl⟩, C53_apart_partial (D := pairUnit) (roots := [qRec 0, qDef "D" 1]) ?_ ?_ ⟨3, _, rfl⟩ 0 1 _ _ 0 1 rfl rfl rfl rfl ?_⟩
  · apply C53_keys
    · intro i n j m hi hj h hne
      rcases used_pair hi with ⟨rfl, -⟩ | ⟨rfl, -⟩ <;> rcases used_pair hj with ⟨rfl, -⟩ | ⟨rfl, -⟩ <;>
        first | rfl | (revert h; decide)
    · intro i n j m hi hj h hne
      rcases used_pair hi with ⟨rfl, rfl⟩ | ⟨rfl, rfl⟩ <;> rcases used_pair hj with ⟨rfl, rfl⟩ | ⟨rfl, rfl⟩ <;>
        first | rfl | exact absurd rfl hne | (revert h; decide)
    · intro i n j m hi hj h hne
      rcases used_pair hi with ⟨rfl, rfl⟩ | ⟨rfl, rfl⟩ <;> rcases used_pair hj with ⟨rfl, -⟩ | ⟨rfl, -⟩ <;>
        first | rfl | exact absurd rfl hne | (revert h; decide)
    · intro i n hi
      rcases used_pair hi with ⟨rfl, -⟩ | ⟨rfl, -⟩ <;> decide +kernel
  · intro i n hi hn ht
    rcases used_pair hi with ⟨rfl, -⟩ | ⟨rfl, -⟩ <;> exact absurd ht (by decide)
  · decide

/-- `typedef struct a { int x; } b_c; typedef struct a_b { int y; } c;` -/
def keyUnit : Decls := unitOf
  [{ kw := .struct, tag := "a", fields := [⟨"int x".toList, qInt, "x", none⟩] },
   { kw := .struct, tag := "a_b", fields := [⟨"int y".toList, qInt, "y", none⟩] }]

/-- C53 is false: for `f(b_c, c)` both parameters get the type `b_c`, because both types have the entry `a_b_c`. -/
theorem C53_refuted_key : ∃ t, Parsed keyUnit [qDef "b_c" 0, qDef "c" 1] [t, t] ∧ Den keyUnit false true (qDef "b_c" 0) t ∧
    ¬ Den keyUnit false true (qDef "c" 1) t := by
  refine ⟨_, ⟨3, _, rfl⟩, ?_, ?_⟩
  · refine .plain (.record (.field rfl (.plain (.builtin rfl (Or.inl ⟨rfl, rfl⟩))) .nil ?_) (Or.inr ⟨by decide, rfl⟩) (by simp))
    exact fieldString_text ⟨"int x".toList, qInt, "x", none⟩ _
  · intro h
    cases h with
    | plain h =>
      cases h with
      | record h1 h2 _ =>
        rcases h2 with ⟨h, -⟩ | ⟨-, h⟩
        · exact absurd h (by decide)
        · exact absurd (by injection h) (by decide : "b_c" ≠ "c")

/-- `namespace m { struct A { int x; }; } namespace n { struct A { int y; }; }` -/
def nsUnit : Decls := unitOf
  [{ kw := .struct, tag := "A", fields := [⟨"int x".toList, qInt, "x", none⟩] },
   { kw := .struct, tag := "A", fields := [⟨"int y".toList, qInt, "y", none⟩] }]

/-- The name of the first member is kept. -/
theorem denFs_name {D : Decls} {strict : Bool} {f : FieldD} {fs : List FieldD} {s n : String} {t : Ty} {k : Int} {r : Fields}
    (h : DenFs D strict (f :: fs) (.field s t n k r)) : n = f.name := by
  cases h
  rfl

/-- C53 is false for C++: for `f(m::A, n::A)` both parameters get the type `m::A`. -/
theorem C53_refuted_namespaces : ∃ t, Parsed nsUnit [qRec 0, qRec 1] [t, t] ∧ Den nsUnit false true (qRec 0) t ∧
    ¬ Den nsUnit false true (qRec 1) t := by
  refine ⟨_, ⟨3, _, rfl⟩, ?_, ?_⟩
  · refine .plain (.record (.field rfl (.plain (.builtin rfl (Or.inl ⟨rfl, rfl⟩))) .nil ?_) (Or.inl ⟨rfl, rfl⟩) (by simp))
    exact fieldString_text ⟨"int x".toList, qInt, "x", none⟩ _
  · intro h
    cases h with
    | plain h =>
      cases h with
      | record h1 h2 _ =>
        rcases h2 with ⟨-, h⟩ | ⟨h, -⟩
        · injection h with _ _ _ h _ _ _
          rw [← h, if_neg (by decide)] at h1
          exact absurd (denFs_name h1) (by decide)
        · exact absurd rfl h

/-- `typedef struct B { int x; } A; struct A { A *b; };` -/
def tagUnit : Decls := unitOf
  [{ kw := .struct, tag := "A", fields := [⟨"A *b".toList, qPtr (qDef "A" 1), "b", none⟩] },
   { kw := .struct, tag := "B", fields := [⟨"int x".toList, qInt, "x", none⟩] }]

/-- C53 is false if a tag is the typedef name of another record: the member `b` of `struct A` is described as a pointer to
    `struct A`, it is a pointer to `struct B`. -/
theorem C53_refuted_tag : ∃ str fl size fs, Parsed tagUnit [qRec 0]
      [.comp false .struct "A" (.field str (.ptr false (.incomplete fl .struct "A")) "b" size fs) false false .nil] ∧
    ¬ Den tagUnit false true (qPtr (qDef "A" 1)) (.ptr false (.incomplete fl .struct "A")) := by
  refine ⟨_, _, _, _, ⟨3, _, rfl⟩, ?_⟩
  intro h
  cases h with
  | plain h =>
    cases h with
    | ptr h1 h2 =>
      rcases h2 with ⟨-, h2⟩ | ⟨h2, -⟩
      · injection h2 with _ h2
        subst h2
        cases h1 with
        | plain h1 =>
          generalize ht : (Ty.incomplete _ Kw.struct "A") = t at h1
          cases h1 with
          | record _ h3 _ => rcases h3 with ⟨-, h3⟩ | ⟨-, h3⟩ <;> rw [h3] at ht <;> cases ht
          | tag _ _ =>
            injection ht with _ _ h3
            exact absurd h3 (by decide)
      · exact absurd rfl h2

/-- `typedef struct { struct S *s; } T; struct S { T t; };` -/
def anonUnit : Decls := unitOf
  [{ kw := .struct, tag := "", fields := [⟨"struct S *s".toList, qPtr (qRec 1), "s", none⟩] },
   { kw := .struct, tag := "S", fields := [⟨"T t".toList, qDef "T" 0, "t", none⟩] }]

/-- C53 is false for a typedef'd record without tag which leads back to itself: for `f(T)` the member `t` of `struct S` is
    described as a record without a name. -/
theorem C53_refuted_anonymous : ∃ s1 s2 fl n1 n2 sv emb u, Parsed anonUnit [qDef "T" 0]
      [.tdef false "T" (.comp false .struct "" (.field s1 (.ptr false (.comp false .struct "S"
        (.field s2 (.incomplete fl .struct "") "t" n2 .nil) emb sv u)) "s" n1 .nil) false false .nil)] ∧
    ¬ Den anonUnit false true (qDef "T" 0) (.incomplete fl .struct "") := by
  refine ⟨_, _, _, _, _, _, _, _, ⟨3, _, rfl⟩, ?_⟩
  intro h
  cases h with
  | plain h =>
    generalize ht : (Ty.incomplete _ Kw.struct "") = t at h
    cases h with
    | record _ h3 _ => rcases h3 with ⟨-, h3⟩ | ⟨-, h3⟩ <;> rw [h3] at ht <;> cases ht
    | tag h3 _ => exact absurd rfl h3

/-! ## C71: every program is parsed -/

/-- C71: the parser comes to an end with a type for every parameter, also for records which refer to themselves.  `pairs`: the
    program is finite.  Missing (see the refutations): types and bit-fields for which it stops. -/
theorem C71_partial {D : Decls} {roots : List Q} {pairs : List (Nat × String)} (hN : Nested D)
    (hu : ∀ q ∈ roots, ∀ id n v, (id, n, v) ∈ q.uses true → (id, n) ∈ pairs)
    (he : ∀ a n, (a, n) ∈ pairs → ∀ f ∈ (D.records a).fields, ∀ b m v, (b, m, v) ∈ f.q.uses true → (b, m) ∈ pairs)
    (hs : ∀ q ∈ roots, q.Supported) (hf : ∀ a n, (a, n) ∈ pairs → ∀ f ∈ (D.records a).fields, f.q.Supported ∧ f.BitsOk) :
    ∃ ts, Parsed D roots ts ∧ ts.length = roots.length ∧ ∀ us, Parsed D roots us → us = ts := by
  obtain ⟨bound, h⟩ := parseAll_total (D := D) (pairs := pairs) ⟨he, hf⟩ hN
  obtain ⟨ts, c, e⟩ := h (bound + 1) (by omega) roots [] (fun q hq => ⟨hs q hq, hu q hq⟩)
  refine ⟨ts, ⟨_, _, e⟩, ?_, fun us h' => Parsed.unique h' ⟨_, _, e⟩⟩
  have len : ∀ (fuel : Nat) (qs : List Q) (c : Cache) ts c', parseAll D fuel qs c = .ok (ts, c') → ts.length = qs.length := by
    intro fuel qs
    induction qs with
    | nil => intro c ts c' e; rw [parseAll] at e; cases e; rfl
    | cons q qs ih =>
      intro c ts c' e
      rw [parseAll] at e
      split at e
      · cases e
      · split at e
        · cases e
        · rename_i e2
          cases e
          simp [ih _ _ _ e2]
  exact len _ _ _ _ _ e

/-- The list of the example, in which both records refer to each other. -/
example : ∃ ts, Parsed listUnit listRoots ts ∧ ts.length = 2 := by
  have hsub : ∀ i n, Used listUnit listRoots i n → (i, n) ∈ [(0, "List"), (0, ""), (1, "")] := by
    intro i n h
    rcases used_list h with ⟨rfl, rfl | rfl⟩ | ⟨rfl, rfl⟩ <;> simp
  suffices h : ∃ ts, Parsed listUnit listRoots ts ∧ ts.length = listRoots.length ∧ ∀ us, Parsed listUnit listRoots us → us = ts by
    obtain ⟨ts, h1, h2, -⟩ := h
    exact ⟨ts, h1, h2⟩
  refine C71_partial (pairs := [(0, "List"), (0, ""), (1, "")]) ?_ ?_ ?_ ?_ ?_
  · refine ⟨fun i => 5 - i, ?_⟩
    rintro a b ⟨f, hf, v, hm⟩ ht
    have hb : b = 0 ∨ b = 1 := by
      rcases used_list (Or.inr ⟨a, f, hf, v, hm⟩) with ⟨rfl, -⟩ | ⟨rfl, -⟩ <;> simp
    rcases hb with rfl | rfl
    · exact absurd ht (by decide)
    · match a with
      | 0 => simp
      | 1 =>
        simp [listUnit, unitOf] at hf
        rcases hf with rfl | rfl <;> simp [qPtr, qRec, qInt, Q.uses, CTy.uses] at hm
      | a + 2 => simp [listUnit, unitOf] at hf
  · intro q hq id n v hm
    exact hsub _ _ (Or.inl ⟨q, hq, v, hm⟩)
  · intro a n _ f hf b m v hm
    exact hsub _ _ (Or.inr ⟨a, f, hf, v, hm⟩)
  · intro q hq
    simp only [listRoots, List.mem_cons, List.not_mem_nil, or_false] at hq
    rcases hq with rfl | rfl <;> simp [qDef, qPtr, qRec, Q.Supported, CTy.Supported]
  · intro a n _ f hf
    match a with
    | 0 =>
      simp [listUnit, unitOf] at hf
      rcases hf with rfl | rfl | rfl <;> simp [qPtr, qRec, qInt, Q.Supported, CTy.Supported, FieldD.BitsOk]
    | 1 =>
      simp [listUnit, unitOf] at hf
      rcases hf with rfl | rfl <;> simp [qPtr, qRec, qInt, Q.Supported, CTy.Supported, FieldD.BitsOk, Q.ty, CTy.canon]
    | a + 2 => simp [listUnit, unitOf] at hf

/-- `typedef enum { e0, e1 } E; struct S { E e : 2; };` -/
def bitUnit : Decls where
  records := fun _ => { kw := .struct, tag := "S", fields := [⟨"E e : 2".toList, .mk false false (.tdef "E" (.mk false false (.enum 0))), "e", some 2⟩] }
  enums := fun _ => { tag := "", values := [("e0", 0), ("e1", 1)] }

/-- C71 is false for a bit-field whose type is the typedef of an enumeration. -/
theorem C71_refuted_bits : Stops bitUnit [qRec 0] ∧ ∀ ts, ¬ Parsed bitUnit [qRec 0] ts :=
  have h : Stops bitUnit [qRec 0] := ⟨3, rfl⟩
  ⟨h, fun _ hp => hp.not_stops h⟩

/-- C71 is false for builtin types the parser does not know, e.g. `wchar_t`. -/
theorem C71_refuted_builtin (D : Decls) : Stops D [qPtr (.mk false false (.builtin .other))] ∧
    ∀ ts, ¬ Parsed D [qPtr (.mk false false (.builtin .other))] ts :=
  have h : Stops D [qPtr (.mk false false (.builtin .other))] := ⟨0, rfl⟩
  ⟨h, fun _ hp => hp.not_stops h⟩

/-! ## C72: what is needed of a record is there -/

/-- C72: where an object of a record is needed, i.e. for parameters, members and elements of arrays which are not pointers, the
    record is described with all its members.  Missing (see the refutation): a record which is a member of a record it refers
    to. -/
theorem C72_partial {D : Decls} {roots : List Q} {ts : List Ty} (hA : Unambiguous D (Used D roots)) (hC : NamedCycles D (Used D roots))
    (hV : ValueOrder D) (hp : Parsed D roots ts) :
    ∀ (i : Nat) q t, roots[i]? = some q → ts[i]? = some t → Den D true true q t := by
  obtain ⟨fuel, c, e⟩ := hp
  exact (parseAll_sound (strict := true) hA hC (fun _ => hV) fuel roots [] ts c (fun _ h => h) (by intro k t h; cases h) e).2

example : ∃ ts, Parsed listUnit listRoots ts ∧
    ∀ (i : Nat) q t, listRoots[i]? = some q → ts[i]? = some t → Den listUnit true true q t := by
  obtain ⟨ts, h⟩ := list_parsed
  refine ⟨ts, h, C72_partial list_unambiguous list_named ?_ h⟩
  rintro a b n ⟨f, hf, hm⟩ hn
  exfalso
  match a with
  | 0 =>
    simp [listUnit, unitOf] at hf
    rcases hf with rfl | rfl | rfl <;> simp [qPtr, qRec, qInt, Q.uses, CTy.uses] at hm
    obtain ⟨rfl, rfl⟩ := hm
    exact absurd hn (by decide)
  | 1 =>
    simp [listUnit, unitOf] at hf
    rcases hf with rfl | rfl <;> simp [qPtr, qRec, qInt, Q.uses, CTy.uses] at hm
  | a + 2 => simp [listUnit, unitOf] at hf

/-- `struct A { struct B *b; }; struct B { struct A a; };` -/
def valueUnit : Decls := unitOf
  [{ kw := .struct, tag := "A", fields := [⟨"struct B *b".toList, qPtr (qRec 1), "b", none⟩] },
   { kw := .struct, tag := "B", fields := [⟨"struct A a".toList, qRec 0, "a", none⟩] }]

/-- C72 is false: for `f(struct A, struct B)` the second parameter has a member `a` of which no member is known. -/
theorem C72_refuted : ∃ t s fl n emb u, Parsed valueUnit [qRec 0, qRec 1]
      [t, .comp false .struct "B" (.field s (.incomplete fl .struct "A") "a" n .nil) emb false u] ∧
    ¬ Den valueUnit true true (qRec 0) (.incomplete fl .struct "A") := by
  refine ⟨_, _, _, _, _, _, ⟨3, _, rfl⟩, ?_⟩
  intro h
  cases h with
  | plain h =>
    generalize ht : (Ty.incomplete _ Kw.struct "A") = t at h
    cases h with
    | record _ h3 _ => rcases h3 with ⟨-, h3⟩ | ⟨-, h3⟩ <;> rw [h3] at ht <;> cases ht
    | tag _ h3 => exact absurd (h3 rfl) (by decide)

/-! ## C73: builtin types keep their spelling -/

/-- How C spells a builtin type. -/
def Builtin.spelling : Builtin → String
  | .void => "void" | .bool => "_Bool" | .charS | .charU => "char" | .schar => "signed char" | .uchar => "unsigned char"
  | .short => "short" | .ushort => "unsigned short" | .int => "int" | .uint => "unsigned int" | .long => "long"
  | .ulong => "unsigned long" | .longLong => "long long" | .ulongLong => "unsigned long long" | .int128 => "__int128"
  | .uint128 => "unsigned __int128" | .float => "float" | .double => "double" | .longDouble => "long double" | .other => ""

/-- C73: a parameter of a builtin type is declared with the spelling of C, with its `const`.  The kind of plain `char` is the
    one the generator is built for.  Missing (see the refutations): `signed char`, `_Bool`, and `const unsigned char` where
    plain `char` is unsigned. -/
theorem C73_partial (D : Decls) (b : Builtin) (const : Bool) (h1 : b ≠ .schar) (h2 : b ≠ .bool) (h3 : b ≠ .other)
    (h4 : b = .uchar → D.charSigned = true ∨ const = false) (h5 : b = .charS → D.charSigned = true)
    (h6 : b = .charU → D.charSigned = false) :
    ∃ c naked, Parsed D [.mk const false (.builtin b)] [if const then .const false (.ctype c naked false) else .ctype c naked false] ∧
      c.str = b.spelling := by
  cases hc : D.charSigned <;> cases const <;> cases b <;> simp [hc] at h1 h2 h3 h4 h5 h6 <;>
    exact ⟨_, _, ⟨0, [], by simp [parseAll, parseQ, parseT, hc]; rfl⟩, rfl⟩

example : ∃ c naked, Parsed listUnit [.mk true false (.builtin .ulong)] [.const false (.ctype c naked false)] ∧ c.str = "unsigned long" :=
  C73_partial listUnit .ulong true (by decide) (by decide) (by decide) (by decide) (by decide) (by decide)

/-- C73 is false for `signed char`, which becomes `char`. -/
theorem C73_refuted_signed_char (D : Decls) : ∃ c naked, Parsed D [.mk false false (.builtin .schar)] [.ctype c naked false] ∧
    c.str = "char" := ⟨.char, true, ⟨0, [], rfl⟩, rfl⟩

/-- C73 is false for `_Bool`, which becomes `unsigned int`. -/
theorem C73_refuted_bool (D : Decls) : ∃ c naked, Parsed D [.mk false false (.builtin .bool)] [.ctype c naked false] ∧
    c.str = "unsigned int" := ⟨.uint, false, ⟨0, [], rfl⟩, rfl⟩

/-- C73 is false for `const unsigned char` where plain `char` is unsigned: it becomes `const char`. -/
theorem C73_refuted_const {D : Decls} (h : D.charSigned = false) : ∃ c naked,
    Parsed D [.mk true false (.builtin .uchar)] [.const false (.ctype c naked false)] ∧ c.str = "char" :=
  ⟨.char, true, ⟨0, [], by simp [parseAll, parseQ, parseT, h]; rfl⟩, rfl⟩

/-! ## C74: the namespace of a function -/

/-- Every scope declares exactly the namespace in which the function is, the innermost one none. -/
def Chain : Option String → List Scope → Prop
  | _, [] => True
  | inner, s :: parents => s.children = inner.toList ∧ Chain s.name parents

/-- The namespaces around a function, outermost first. -/
def enclosing (scopes : List Scope) : List String := (scopes.filterMap Scope.name).reverse

/-- C74: the mock of a function is put in the namespace in which the function is declared.  Missing (see the refutations): programs
    in which a scope around the function declares other namespaces. -/
theorem C74_partial (scopes : List Scope) (hc : Chain none scopes) (hl : ∀ s, scopes.getLast? = some s → s.name = none) :
    getNamespace scopes = enclosing scopes := by
  have aux : ∀ (scopes : List Scope) inner, Chain inner scopes → (∀ s, scopes.getLast? = some s → s.name = none) →
      scopes ≠ [] → getNamespace scopes = enclosing scopes ++ inner.toList := by
    intro scopes
    induction scopes with
    | nil => intro _ _ _ h; exact absurd rfl h
    | cons s parents ih =>
      rintro inner ⟨h1, h2⟩ hl -
      have hrec : getNamespace parents = enclosing (s :: parents) := by
        cases parents with
        | nil =>
          have := hl s rfl
          simp [getNamespace, enclosing, this]
        | cons p ps =>
          have hn : ∀ x, (p :: ps).getLast? = some x → x.name = none := by
            intro x hx
            exact hl x (by rw [List.getLast?_cons_cons]; exact hx)
          rw [ih s.name h2 hn (by simp)]
          unfold enclosing
          cases hs : s.name with
          | none => rw [List.filterMap_cons_none hs]; simp
          | some n => rw [List.filterMap_cons_some hs]; simp
      cases inner with
      | none =>
        rw [getNamespace]
        simp only [Option.toList] at h1
        rw [h1]
        simp [hrec]
      | some n =>
        rw [getNamespace]
        simp only [Option.toList] at h1
        rw [h1]
        simp [hrec]
  cases scopes with
  | nil => rfl
  | cons s ps => simpa using aux (s :: ps) none hc hl (by simp)

/-- `namespace a { namespace b { void f(); } }` -/
example : getNamespace [⟨some "b", []⟩, ⟨some "a", ["b"]⟩, ⟨none, ["a"]⟩] = ["a", "b"] :=
  C74_partial _ (by simp [Chain]) (by simp)

/-- C74 is false for a function outside the only namespace of a file: `namespace a { } void f();` is mocked in `a`. -/
theorem C74_refuted_global (a : String) (more : List String) :
    enclosing [⟨none, a :: more⟩] = [] ∧ getNamespace [⟨none, a :: more⟩] = [a] := ⟨rfl, rfl⟩

/-- C74 is false for a function beside a nested namespace: `namespace a { namespace b { } void f(); }` is mocked in `a::b`. -/
theorem C74_refuted_nested (a b : String) :
    enclosing [⟨some a, [b]⟩, ⟨none, [a]⟩] = [a] ∧ getNamespace [⟨some a, [b]⟩, ⟨none, [a]⟩] = [a, b] := ⟨rfl, rfl⟩

/-- C74 is false if a file declares two namespaces: which of them is used depends on the order in which clang lists them. -/
theorem C74_refuted_order (a b : String) (h : a ≠ b) :
    getNamespace [⟨some a, []⟩, ⟨none, [a, b]⟩] ≠ getNamespace [⟨some a, []⟩, ⟨none, [b, a]⟩] := by
  simp [getNamespace, h]

end EasyMock.Parser
