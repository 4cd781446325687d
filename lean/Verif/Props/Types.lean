import Verif.Types.Cache
import Verif.Types.EnumLemmas

/-! # Properties of the generator's type representation (C38 – C43) -/

namespace EasyMock.Types

/-! ## C38: equality is an equivalence relation -/

/-- C38.  Two types compare equal exactly when they describe the same C type: identical up to the
    data listed in `essence`. -/
theorem C38_equal_iff_same_type (a b : Ty) : isEqual a b = true ↔ essence a = essence b :=
  isEqual_iff a b

/-- C38.  Equality of types is reflexive. -/
theorem C38_reflexive (a : Ty) : isEqual a a = true := (isEqual_iff a a).mpr rfl

/-- C38.  Equality of types is symmetric. -/
theorem C38_symmetric (a b : Ty) : isEqual a b = isEqual b a := by
  rw [Bool.eq_iff_iff, isEqual_iff, isEqual_iff]
  exact eq_comm

/-- C38.  Equality of types is transitive. -/
theorem C38_transitive (a b c : Ty) (hab : isEqual a b = true) (hbc : isEqual b c = true) :
    isEqual a c = true :=
  (isEqual_iff a c).mpr (((isEqual_iff a b).mp hab).trans ((isEqual_iff b c).mp hbc))

/-- The type `struct s { int a[4]; const char *p : as declared; }` used as an example. -/
def exStruct : Ty :=
  .comp false .struct "s"
    (.field "int" (.ctype .int false false) "a" 4
      (.field "const char *" (.ptr false (.const false (.ctype .char true false))) "p" (-1) .nil))
    false false .nil

example : isEqual exStruct exStruct = true ∧
    isEqual exStruct (.comp false .cls "s" .nil false false .nil) = false := by decide +kernel

/-- C38.  Two parameter lists compare equal iff they have the same declared strings and types, in
    order; the names are irrelevant. -/
theorem C38_parameters (ps qs : Params) :
    paramsEq ps qs = true ↔ essenceParams ps = essenceParams qs := paramsEq_iff ps qs

example : paramsEq (.cons "int" (.ctype .int false false) "a" .nil)
    (.cons "int" (.ctype .int false false) "b" .nil) = true := by decide +kernel

/-- What equality of function declarations compares. -/
theorem declEq_iff (f g : FunDecl) : declEq f g = true ↔
    f.info = g.info ∧ f.retStr = g.retStr ∧ essence f.ret = essence g.ret ∧
    essenceParams f.params = essenceParams g.params ∧
    f.parent.map essence = g.parent.map essence ∧ f.hasBody = g.hasBody ∧ f.ns = g.ns := by
  have hp : (match f.parent, g.parent with
      | none, none => true
      | some p, some q => isEqual p q
      | _, _ => false) = true ↔ f.parent.map essence = g.parent.map essence := by
    rcases f.parent with _ | p <;> rcases g.parent with _ | q <;> simp [isEqual_iff]
  have hi : f.info = g.info ↔ (f.info.inlined = g.info.inlined ∧ f.info.variadic = g.info.variadic ∧
      f.info.name = g.info.name ∧ f.info.attributes = g.info.attributes ∧
      f.info.isStatic = g.info.isStatic ∧ f.info.access = g.info.access ∧
      f.info.classConst = g.info.classConst) := by
    cases f.info; cases g.info; simp; constructor <;> (intro h; simp [h])
  simp only [declEq, funEq, Bool.and_eq_true, beq_iff_eq, isEqual_iff, paramsEq_iff, hi]
  constructor
  · rintro ⟨⟨⟨⟨⟨⟨⟨⟨⟨⟨⟨h1, h2⟩, h3⟩, h4⟩, h5, h6⟩, h7⟩, h8⟩, h9⟩, h10⟩, h11⟩, h12⟩, h13⟩
    replace h9 := hp.mp h9
    exact ⟨⟨h1, h2, h3, h7, h8, h10, h11⟩, h6, h5, h4, h9, h12, h13⟩
  · rintro ⟨⟨h1, h2, h3, h7, h8, h10, h11⟩, h6, h5, h4, h9, h12, h13⟩
    replace h9 := hp.mpr h9
    exact ⟨⟨⟨⟨⟨⟨⟨⟨⟨⟨⟨h1, h2⟩, h3⟩, h4⟩, h5, h6⟩, h7⟩, h8⟩, h9⟩, h10⟩, h11⟩, h12⟩, h13⟩

/-- C38.  Two function declarations compare equal iff they agree on every scalar property, on the
    declared strings and types of return value and parameters, on the class they belong to, on
    having a body and on the namespace. -/
theorem C38_functions (f g : FunDecl) : declEq f g = true ↔
    f.info = g.info ∧ f.retStr = g.retStr ∧ essence f.ret = essence g.ret ∧
    essenceParams f.params = essenceParams g.params ∧
    f.parent.map essence = g.parent.map essence ∧ f.hasBody = g.hasBody ∧ f.ns = g.ns :=
  declEq_iff f g

/-- C38.  Equality of function declarations is an equivalence relation. -/
theorem C38_functions_equivalence :
    (∀ f, declEq f f = true) ∧ (∀ f g, declEq f g = declEq g f) ∧
    (∀ f g k, declEq f g = true → declEq g k = true → declEq f k = true) := by
  refine ⟨fun f => (declEq_iff f f).mpr ⟨rfl, rfl, rfl, rfl, rfl, rfl, rfl⟩, ?_, ?_⟩
  · intro f g
    rw [Bool.eq_iff_iff, declEq_iff, declEq_iff]
    constructor
    · rintro ⟨h1, h2, h3, h4, h5, h6, h7⟩
      exact ⟨h1.symm, h2.symm, h3.symm, h4.symm, h5.symm, h6.symm, h7.symm⟩
    · rintro ⟨h1, h2, h3, h4, h5, h6, h7⟩
      exact ⟨h1.symm, h2.symm, h3.symm, h4.symm, h5.symm, h6.symm, h7.symm⟩
  · intro f g k h1 h2
    rw [declEq_iff] at *
    obtain ⟨a1, a2, a3, a4, a5, a6, a7⟩ := h1
    obtain ⟨b1, b2, b3, b4, b5, b6, b7⟩ := h2
    exact ⟨a1.trans b1, a2.trans b2, a3.trans b3, a4.trans b4, a5.trans b5, a6.trans b6,
      a7.trans b7⟩

/-- `int f(int x)` in namespace `ns`. -/
def exFun (ns : List String) : FunDecl :=
  { info := { name := "f" }, retStr := "int", ret := .ctype .int false false,
    params := .cons "int" (.ctype .int false false) "x" .nil, ns }

example : declEq (exFun ["a"]) (exFun ["a"]) = true ∧
    declEq (exFun ["a"]) (exFun ["b"]) = false := by decide +kernel

/-! ## C39: equal elements have equal hashes -/

/-- C39 (partial: types as the parser builds them without conversions, forward references to
    structs and unions, no methods — see the refutations below).  Types which compare equal have
    the same hash, whatever the hash arithmetic. -/
theorem C39_equal_hash_partial {H : Type} (h : Hasher H) (a b : Ty) (pa : Plain a) (pb : Plain b)
    (e : isEqual a b = true) : hash h a = hash h b := by
  rw [← hash_hashed h a, ← hash_hashed h b,
    hashed_of_essence a b pa pb ((isEqual_iff a b).mp e)]

example : Plain exStruct := by simp [exStruct, Plain, PlainFields]

/-- C39 (partial, same restriction).  Function declarations which compare equal have the same
    hash. -/
theorem C39_functions_equal_hash_partial {H : Type} (h : Hasher H) (f g : FunDecl)
    (pf : Plain f.ret ∧ PlainParams f.params) (pg : Plain g.ret ∧ PlainParams g.params)
    (e : declEq f g = true) : declHash h f = declHash h g := by
  obtain ⟨e1, e2, e3, e4, _, e6, e7⟩ := (declEq_iff f g).mp e
  have hr : hash h f.ret = hash h g.ret := by
    rw [← hash_hashed h f.ret, ← hash_hashed h g.ret, hashed_of_essence _ _ pf.1 pg.1 e3]
  have hp : hashParams h f.params = hashParams h g.params := by
    rw [← hashParams_hashed h f.params, ← hashParams_hashed h g.params,
      hashedParams_of_essence _ _ pf.2 pg.2 e4]
  simp [declHash, e1, e2, e6, e7, hr, hp]

example : Plain (exFun []).ret ∧ PlainParams (exFun []).params := by
  simp [exFun, Plain, PlainParams]

/-- C39 is false in general: `char` converted with `setUnsigned(true)` equals `unsigned char` but
    its hash is computed from different data. -/
theorem C39_refuted_converted_char :
    ∃ (o : CTypeObj), ReachableCType true .char o ∧
      isEqual (.ctype o.c o.naked false) (.ctype .uchar false false) = true ∧
      hash freeHasher (.ctype o.c o.naked false) ≠
        hash freeHasher (.ctype .uchar false false) := by
  refine ⟨(setUnsigned true true (CTypeObj.new .char)).2, .set _ _ .new, ?_, ?_⟩
  · decide +kernel
  · intro h
    have := free_hash_inj _ _ h
    simp [hashed, setUnsigned, toUnsigned, CTypeObj.new] at this

/-- C39 is false in general: forward references `struct s` and `class s` compare equal but are
    hashed differently. -/
theorem C39_refuted_forward_reference :
    ∃ a b : Ty, isEqual a b = true ∧ hash freeHasher a ≠ hash freeHasher b := by
  refine ⟨.incomplete { struct := true } .struct "s", .incomplete { struct := true } .cls "s",
    by decide +kernel, ?_⟩
  intro h
  have := free_hash_inj _ _ h
  simp [hashed] at this

/-- C39 is false in general: two classes whose methods differ only by their access specifier
    compare equal but are hashed differently. -/
theorem C39_refuted_methods :
    ∃ a b : Ty, isEqual a b = true ∧ hash freeHasher a ≠ hash freeHasher b := by
  refine ⟨.comp false .cls "c" .nil false false (.cons { name := "m", access := .pub } "void"
      (.ctype .void false false) .nil (some "c") false [] .nil),
    .comp false .cls "c" .nil false false (.cons { name := "m", access := .priv } "void"
      (.ctype .void false false) .nil (some "c") false [] .nil), by decide +kernel, ?_⟩
  intro h
  have := free_hash_inj _ _ h
  simp [hashed, hashedMethods] at this

/-- C39.  Caching a hash does not change it: whatever the caches of an object contain, after
    `cacheHash` the object reports the hash of the type it represents, provided the objects
    which `cacheHash` does not visit (methods, namespaces) have no stale cache. -/
theorem C39_cache_exact {H : Type} [DecidableEq H] (h : Hasher H) (t : Ty) (o : Obj H)
    (ho : uncached h o = tyObj h t) (hs : Settled h o) :
    getHash h (cacheHash h o) = hash h t ∧ uncached h (cacheHash h o) = tyObj h t := by
  rw [getHash_cacheHash h o hs, ho, getHash_tyObj, uncached_cacheHash, ho]
  exact ⟨rfl, rfl⟩

/-- C39.  An object whose hash was never cached reports the hash of its type, and is a legitimate
    starting point of `C39_cache_exact`. -/
theorem C39_uncached_exact {H : Type} [DecidableEq H] (h : Hasher H) (t : Ty) :
    getHash h (tyObj h t) = hash h t ∧ uncached h (tyObj h t) = tyObj h t :=
  ⟨getHash_tyObj h t, uncached_tyObj h t⟩

/-- A pointer to `int` whose caches hold garbage. -/
def exStale : Obj HTerm :=
  .derived (.nat 7) (attrObj freeHasher (attrs (.ptr false (.ctype .int false false))))
    (.object true (.derived (.nat 9) (attrObj freeHasher (attrs (.ctype .int false false)))
      (valueParts [.nat 5, .bool false] .nil)) .nil)

example : uncached freeHasher exStale = tyObj freeHasher (.ptr false (.ctype .int false false)) ∧
    Settled freeHasher exStale := by
  constructor
  · rfl
  · simp [exStale, Settled, SettledParts, attrObj, valueParts]

/-- C39.  Before `cacheHash` is called a stale cache is reported: modifying a type after caching
    needs a new `cacheHash` (as documented in EasyMock_Hashable.h). -/
theorem C39_stale_until_recached :
    getHash freeHasher exStale ≠ getHash freeHasher (cacheHash freeHasher exStale) := by
  decide +kernel

/-- C39 is false for methods: `cacheHash` of a class keeps using the stale cache of a method. -/
theorem C39_refuted_stale_method : ∃ (t : Ty) (o : Obj HTerm),
    uncached freeHasher o = tyObj freeHasher t ∧
    getHash freeHasher (cacheHash freeHasher o) ≠ hash freeHasher t := by
  refine ⟨.comp false .cls "c" .nil false false (.cons { name := "m" } "void"
      (.ctype .void false false) .nil (some "c") false [] .nil),
    .derived .zero (attrObj freeHasher { name := "c", struct := true })
      (.value (.chr 'c') (.range .nil (.value (.bool false) (.value (.bool false)
        (.object false (.derived (.nat 3) (fnObj freeHasher { name := "m" } .nil
          (declObj freeHasher "void" (tyObj freeHasher (.ctype .void false false))))
          (valueParts [.nat 0, .bool false] (.object false (nsObj freeHasher []) .nil)))
          .nil))))), rfl, ?_⟩
  decide +kernel

/-! ## C40: distinct elements have distinct hashes up to collisions -/

/-- C40.  If two types have the same hash under some arithmetic, then either they agree on all
    hashed data (everything but the names of parameters and the class name of methods), or that
    arithmetic maps two different sequences of combined values to the same number. -/
theorem C40_same_hash {H : Type} (h : Hasher H) (a b : Ty) (e : hash h a = hash h b) :
    hashed a = hashed b ∨
    (hash freeHasher a ≠ hash freeHasher b ∧
      HTerm.eval h (hash freeHasher a) = HTerm.eval h (hash freeHasher b)) := by
  by_cases hf : hash freeHasher a = hash freeHasher b
  · exact Or.inl (free_hash_inj a b hf)
  · exact Or.inr ⟨hf, by rw [eval_hash, eval_hash, e]⟩

/-- C40.  Types without methods which have the same hash compare equal, unless the arithmetic
    collides. -/
theorem C40_same_hash_equal {H : Type} (h : Hasher H) (a b : Ty) (ma : NoMethods a)
    (mb : NoMethods b) (e : hash h a = hash h b) :
    isEqual a b = true ∨
    (hash freeHasher a ≠ hash freeHasher b ∧
      HTerm.eval h (hash freeHasher a) = HTerm.eval h (hash freeHasher b)) := by
  rcases C40_same_hash h a b e with e' | e'
  · exact Or.inl ((isEqual_iff a b).mpr (essence_of_hashed a b ma mb e'))
  · exact Or.inr e'

/-- C40.  Under collision-free arithmetic, which exists, the hash separates exactly the hashed
    data. -/
theorem C40_free_hash_iff (a b : Ty) :
    hash freeHasher a = hash freeHasher b ↔ hashed a = hashed b := by
  constructor
  · exact free_hash_inj a b
  · intro e
    rw [← hash_hashed freeHasher a, ← hash_hashed freeHasher b, e]

example : NoMethods exStruct ∧
    hash freeHasher exStruct ≠ hash freeHasher (.comp false .struct "s" .nil false false .nil) := by
  refine ⟨by simp [exStruct, NoMethods, NoMethodsFields], ?_⟩
  rw [Ne, C40_free_hash_iff]
  simp [exStruct, hashed, hashedFields]

/-- C40.  The full hash of a function declaration separates all scalar properties, types, body
    flag and namespace (not the class it belongs to). -/
theorem C40_function_hash_iff (f g : FunDecl) :
    declHash freeHasher f = declHash freeHasher g ↔
    f.info = g.info ∧ f.retStr = g.retStr ∧ hashed f.ret = hashed g.ret ∧
    hashedParams f.params = hashedParams g.params ∧ f.hasBody = g.hasBody ∧ f.ns = g.ns := by
  constructor
  · intro h
    obtain ⟨h1, h2, h3, h4, h5, h6⟩ := hashFnDecl_inj h
    exact ⟨h1, h2, free_hash_inj _ _ h3, free_hashParams_inj _ _ h4, h5, h6⟩
  · rintro ⟨h1, h2, h3, h4, h5, h6⟩
    have hr : hash freeHasher f.ret = hash freeHasher g.ret := by
      rw [← hash_hashed freeHasher f.ret, ← hash_hashed freeHasher g.ret, h3]
    have hp : hashParams freeHasher f.params = hashParams freeHasher g.params := by
      rw [← hashParams_hashed freeHasher f.params, ← hashParams_hashed freeHasher g.params, h4]
    simp [declHash, h1, h2, h5, h6, hr, hp]

/-- The type reached by `getRawHash`: one typedef removed. -/
def untypedefOnce : Ty → Ty
  | .tdef _ _ t => t
  | t => t

/-- The parameter types of a list, one typedef removed. -/
def rawParamTypes : Params → List Ty
  | .nil => []
  | .cons _ t _ rest => untypedefOnce t :: rawParamTypes rest

theorem rawHash_untypedefOnce {H : Type} (h : Hasher H) (t : Ty) :
    rawHash h t = hash h (untypedefOnce t) := by
  cases t <;> rfl

theorem rawHashParams_eq {H : Type} (h : Hasher H) : ∀ ps,
    rawHashParams h ps = (rawParamTypes ps).map (hash h)
  | .nil => rfl
  | .cons _ t _ rest => by
    simp [rawHashParams, rawParamTypes, rawHash_untypedefOnce, rawHashParams_eq h rest]

theorem map_hash_iff : ∀ xs ys : List Ty, xs.map (hash freeHasher) = ys.map (hash freeHasher) ↔
    xs.map hashed = ys.map hashed
  | [], [] => by simp
  | [], _ :: _ => by simp
  | _ :: _, [] => by simp
  | x :: xs, y :: ys => by
    simp only [List.map_cons, List.cons.injEq, C40_free_hash_iff, map_hash_iff xs ys]

/-- C40 (partial: the raw hash, which decides whether a function has already been generated,
    ignores the namespace, the class, `const`, `static` and `inline` — see the refutation).  Up
    to collisions two functions have the same raw hash iff they have the same name, are both
    variadic or both not, and their return types and parameter types agree after removing one
    typedef from each. -/
theorem C40_raw_hash_partial (f g : FunDecl) :
    declRawHash freeHasher f = declRawHash freeHasher g ↔
    f.info.variadic = g.info.variadic ∧ f.info.name = g.info.name ∧
    (rawParamTypes f.params).map hashed = (rawParamTypes g.params).map hashed ∧
    hashed (untypedefOnce f.ret) = hashed (untypedefOnce g.ret) := by
  simp only [declRawHash, rawHashParams_eq, rawHash_untypedefOnce]
  constructor
  · intro h
    have h1 := free_chain h
    simp only [List.cons_append, List.nil_append, List.cons.injEq] at h1
    obtain ⟨hv, hn, hr⟩ := h1
    have hv' : HTerm.bool f.info.variadic = HTerm.bool g.info.variadic := hv
    injection hv' with hv'
    have h2 := List.append_inj' hr rfl
    have h3 : hash freeHasher (untypedefOnce f.ret) = hash freeHasher (untypedefOnce g.ret) := by
      simpa using h2.2
    exact ⟨hv', str_inj _ _ hn, (map_hash_iff _ _).mp h2.1, (C40_free_hash_iff _ _).mp h3⟩
  · rintro ⟨h1, h2, h3, h4⟩
    rw [h1, h2, (map_hash_iff _ _).mpr h3, (C40_free_hash_iff _ _).mpr h4]

/-- C40 is false for raw hashes: functions of different namespaces, which are different functions,
    have the same raw hash under every arithmetic. -/
theorem C40_refuted_namespaces {H : Type} (h : Hasher H) :
    declEq (exFun ["a"]) (exFun ["b"]) = false ∧
    declRawHash h (exFun ["a"]) = declRawHash h (exFun ["b"]) := by
  refine ⟨by decide +kernel, rfl⟩

/-- A method `void m()` of class `c`, `const` or not. -/
def exMethod (c : String) (const : Bool) : FunDecl :=
  { info := { name := "m", access := .pub, classConst := const }, retStr := "void",
    ret := .ctype .void false false, params := .nil,
    parent := some (.comp false .cls c .nil false false .nil) }

/-- C40 is false for raw hashes: methods of different classes and `const` overloads share their
    raw hash; and methods of different classes even share the full hash. -/
theorem C40_refuted_methods {H : Type} (h : Hasher H) :
    declEq (exMethod "a" false) (exMethod "b" false) = false ∧
    declEq (exMethod "a" false) (exMethod "a" true) = false ∧
    declRawHash h (exMethod "a" false) = declRawHash h (exMethod "b" false) ∧
    declRawHash h (exMethod "a" false) = declRawHash h (exMethod "a" true) ∧
    declHash h (exMethod "a" false) = declHash h (exMethod "b" false) :=
  ⟨by decide +kernel, by decide +kernel, rfl, rfl, rfl⟩

/-- C40, the other direction of "already generated": two declarations of the same C function
    which name a parameter type through a typedef of a typedef are not recognised as the same. -/
theorem C40_refuted_nested_typedef :
    ∃ f g : FunDecl, f.info = g.info ∧ f.ret = g.ret ∧
      (rawParamTypes f.params).map untypedef = (rawParamTypes g.params).map untypedef ∧
      declRawHash freeHasher f ≠ declRawHash freeHasher g := by
  refine ⟨{ exFun [] with params := .cons "b" (.tdef false "b" (.tdef false "a"
      (.ctype .int false false))) "x" .nil }, exFun [], rfl, rfl, rfl, ?_⟩
  rw [Ne, C40_raw_hash_partial]
  simp [exFun, rawParamTypes, untypedefOnce, hashed]

/-! ## C41: normalisation -/

/-- C41 (partial: no qualifier directly inside a qualifier — see the refutation).  `unqualify`
    terminates after at most two evaluations of its condition and yields the type without its
    outer qualifier. -/
theorem C41_unqualify_partial (t : Ty)
    (hn : ∀ i j u, t ≠ .const i (.const j u)) (fuel : Nat) (hf : 2 ≤ fuel) :
    ∃ u, unqualifyFuel fuel t = some u ∧ isConst u = false ∧
      (outer t = some (.const, u) ∨ (isConst t = false ∧ u = t)) := by
  obtain ⟨n, rfl⟩ : ∃ n, fuel = n + 2 := ⟨fuel - 2, by omega⟩
  cases t with
  | const i inner =>
    refine ⟨inner, ?_, ?_, Or.inl rfl⟩
    · cases inner with
      | const j u => exact absurd rfl (hn i j u)
      | comp i kw n fs emb fwd ms =>
        cases kw <;> simp [unqualifyFuel, unqualifyLoop, unqualifyStep, attrs]
      | _ => simp [unqualifyFuel, unqualifyLoop, unqualifyStep, attrs]
    · cases inner with
      | const j u => exact absurd rfl (hn i j u)
      | _ => rfl
  | comp i kw n fs emb fwd ms =>
    refine ⟨_, ?_, rfl, Or.inr ⟨rfl, rfl⟩⟩
    cases kw <;> simp [unqualifyFuel, unqualifyLoop, unqualifyStep, attrs]
  | _ =>
    refine ⟨_, ?_, rfl, Or.inr ⟨rfl, rfl⟩⟩
    simp [unqualifyFuel, unqualifyLoop, unqualifyStep, attrs]

example : ∀ i j u, exStruct ≠ .const i (.const j u) := by
  intro i j u; simp [exStruct]

/-- C41 is false for `unqualify`: on a qualified type nested directly in a qualified type it never
    returns, however long it runs. -/
theorem C41_refuted_nested_qualifier (i j : Bool) (t : Ty) (fuel : Nat) :
    unqualifyFuel fuel (.const i (.const j t)) = none := by
  have key : ∀ (n : Nat) (cur : Ty), (cur = .const i (.const j t) ∨ cur = .const j t) →
      unqualifyLoop n (.const i (.const j t)) cur = none := by
    intro n
    induction n with
    | zero => intros; rfl
    | succ n ih =>
      intro cur hc
      have hq : unqualifyStep (.const i (.const j t)) cur = some (.const j t) := by
        rcases hc with rfl | rfl <;> simp [unqualifyStep, attrs]
      simp only [unqualifyLoop, hq]
      exact ih _ (Or.inr rfl)
  exact key fuel _ (Or.inl rfl)

/-- C41.  `getRawType` removes layers of pointer, reference, qualifier and typedef until none is
    left. -/
theorem C41_raw_type (t : Ty) : (∃ ls, Under ls t (rawType t)) ∧ outer (rawType t) = none := by
  have key : ∀ t : Ty, (∃ ls, Under ls t (rawType t)) ∧ outer (rawType t) = none := by
    intro t
    exact go t
  exact key t
where
  go : ∀ t : Ty, (∃ ls, Under ls t (rawType t)) ∧ outer (rawType t) = none
  | .ptr i t => ⟨(go t).1.elim fun ls h => ⟨_, .step _ _ _ .ptr ls rfl h⟩, (go t).2⟩
  | .ref i t => ⟨(go t).1.elim fun ls h => ⟨_, .step _ _ _ .ref ls rfl h⟩, (go t).2⟩
  | .const i t => ⟨(go t).1.elim fun ls h => ⟨_, .step _ _ _ .const ls rfl h⟩, (go t).2⟩
  | .tdef i n t => ⟨(go t).1.elim fun ls h => ⟨_, .step _ _ _ .tdef ls rfl h⟩, (go t).2⟩
  | .ctype .. | .enum .. | .comp .. | .incomplete .. | .fn .. => ⟨⟨[], .here _⟩, rfl⟩

/-- C41.  `getMostPointedType` removes pointers, only pointers and all outer pointers. -/
theorem C41_most_pointed (t : Ty) :
    (∃ ls, Under ls t (mostPointed t) ∧ ∀ l ∈ ls, l = .ptr) ∧ isPointer (mostPointed t) = false :=
  go t
where
  go : ∀ t : Ty, (∃ ls, Under ls t (mostPointed t) ∧ ∀ l ∈ ls, l = .ptr) ∧
      isPointer (mostPointed t) = false
  | .ptr i t => ⟨(go t).1.elim fun ls h => ⟨.ptr :: ls, .step _ _ _ .ptr ls rfl h.1, by
      simpa using h.2⟩, (go t).2⟩
  | .ref .. | .const .. | .tdef .. | .ctype .. | .enum .. | .incomplete .. | .fn .. =>
    ⟨⟨[], .here _, by simp⟩, by simp [mostPointed, isPointer, attrs]⟩
  | .comp i kw n fs emb fwd ms =>
    ⟨⟨[], .here _, by simp⟩, by cases kw <;> simp [mostPointed, isPointer, attrs]⟩

/-- C41.  `getUnqualifiedAndUntypedefType` and `getMostDefinedType` remove qualifiers and
    typedefs, only those and all outer ones. -/
theorem C41_untypedef (t : Ty) :
    (∃ ls, Under ls t (untypedef t) ∧ ∀ l ∈ ls, l = .const ∨ l = .tdef) ∧
    (attrs (untypedef t)).qualified = false ∧ (attrs (untypedef t)).typedef = false :=
  go t
where
  go : ∀ t : Ty, (∃ ls, Under ls t (untypedef t) ∧ ∀ l ∈ ls, l = .const ∨ l = .tdef) ∧
      (attrs (untypedef t)).qualified = false ∧ (attrs (untypedef t)).typedef = false
  | .const i t => ⟨(go t).1.elim fun ls h => ⟨.const :: ls, .step _ _ _ .const ls rfl h.1, by
      simpa using h.2⟩, (go t).2⟩
  | .tdef i n t => ⟨(go t).1.elim fun ls h => ⟨.tdef :: ls, .step _ _ _ .tdef ls rfl h.1, by
      simpa using h.2⟩, (go t).2⟩
  | .ref .. | .ptr .. | .ctype .. | .enum .. | .incomplete .. | .fn .. =>
    ⟨⟨[], .here _, by simp⟩, by simp [untypedef, attrs]⟩
  | .comp i kw n fs emb fwd ms =>
    ⟨⟨[], .here _, by simp⟩, by cases kw <;> simp [untypedef, attrs]⟩

/-- C41.  `getMostDefinedTypee` removes typedefs, only those and all outer ones. -/
theorem C41_most_defined_typee (t : Ty) :
    (∃ ls, Under ls t (mostDefinedTypee t) ∧ ∀ l ∈ ls, l = .tdef) ∧
    (attrs (mostDefinedTypee t)).typedef = false :=
  go t
where
  go : ∀ t : Ty, (∃ ls, Under ls t (mostDefinedTypee t) ∧ ∀ l ∈ ls, l = .tdef) ∧
      (attrs (mostDefinedTypee t)).typedef = false
  | .tdef i n t => ⟨(go t).1.elim fun ls h => ⟨.tdef :: ls, .step _ _ _ .tdef ls rfl h.1, by
      simpa using h.2⟩, (go t).2⟩
  | .const .. | .ref .. | .ptr .. | .ctype .. | .enum .. | .incomplete .. | .fn .. =>
    ⟨⟨[], .here _, by simp⟩, by simp [mostDefinedTypee, attrs]⟩
  | .comp i kw n fs emb fwd ms =>
    ⟨⟨[], .here _, by simp⟩, by cases kw <;> simp [mostDefinedTypee, attrs]⟩

/-- C41.  `getDereferencedType` removes references, only those and all outer ones. -/
theorem C41_dereferenced (t : Ty) :
    (∃ ls, Under ls t (dereferenced t) ∧ ∀ l ∈ ls, l = .ref) ∧
    isReference (dereferenced t) = false :=
  go t
where
  go : ∀ t : Ty, (∃ ls, Under ls t (dereferenced t) ∧ ∀ l ∈ ls, l = .ref) ∧
      isReference (dereferenced t) = false
  | .ref i t => ⟨(go t).1.elim fun ls h => ⟨.ref :: ls, .step _ _ _ .ref ls rfl h.1, by
      simpa using h.2⟩, (go t).2⟩
  | .tdef .. | .const .. | .ptr .. | .ctype .. | .enum .. | .incomplete .. | .fn .. =>
    ⟨⟨[], .here _, by simp⟩, by simp [dereferenced, isReference, attrs]⟩
  | .comp i kw n fs emb fwd ms =>
    ⟨⟨[], .here _, by simp⟩, by cases kw <;> simp [dereferenced, isReference, attrs]⟩

theorem under_append {ls ms : List Layer} {t u v : Ty} (h1 : Under ls t u) (h2 : Under ms u v) :
    Under (ls ++ ms) t v := by
  induction h1 with
  | here => exact h2
  | step t t' u l ls ho _ ih => exact .step t t' v l (ls ++ ms) ho (ih h2)

/-- C41.  `containsTypeDef` answers whether some layer of the type is a typedef. -/
theorem C41_contains_typedef (t : Ty) :
    containsTypeDef t = true ↔ ∃ ls u, Under (ls ++ [.tdef]) t u := by
  constructor
  · intro h
    exact go1 t h
  · rintro ⟨ls, u, h⟩
    exact go2 ls t u h
where
  go1 : ∀ t : Ty, containsTypeDef t = true → ∃ ls u, Under (ls ++ [.tdef]) t u
  | .tdef i n t, _ => ⟨[], t, .step _ _ _ .tdef [] rfl (.here t)⟩
  | .ptr i t, h => (go1 t h).elim fun ls h => h.elim fun u h =>
      ⟨.ptr :: ls, u, .step _ _ _ .ptr _ rfl h⟩
  | .ref i t, h => (go1 t h).elim fun ls h => h.elim fun u h =>
      ⟨.ref :: ls, u, .step _ _ _ .ref _ rfl h⟩
  | .const i t, h => (go1 t h).elim fun ls h => h.elim fun u h =>
      ⟨.const :: ls, u, .step _ _ _ .const _ rfl h⟩
  | .ctype .., h | .enum .., h | .incomplete .., h | .fn .., h | .comp .., h => by
    simp [containsTypeDef] at h
  go2 : ∀ (ls : List Layer) (t u : Ty), Under (ls ++ [.tdef]) t u → containsTypeDef t = true
  | [], t, u, h => by
    cases h with
    | step _ t' _ l ls ho _ =>
      cases t <;> simp [outer] at ho
      rfl
  | l :: ls, t, u, h => by
    cases h with
    | step _ t' _ l ls' ho h' =>
      have ih := go2 ls t' u h'
      cases t <;> simp [outer] at ho <;> (obtain ⟨rfl, rfl⟩ := ho) <;>
        simp [containsTypeDef, ih]

/-- C41.  `getTypeDefType` returns the outermost typedef below pointers and qualifiers. -/
theorem C41_typedef_of (t : Ty) :
    (∀ u, typedefOf t = some u ↔ ∃ ls, Under ls t u ∧ (∀ l ∈ ls, l = .ptr ∨ l = .const) ∧
      (attrs u).typedef = true) :=
  go t
where
  go : ∀ t : Ty, ∀ u, typedefOf t = some u ↔ ∃ ls, Under ls t u ∧
      (∀ l ∈ ls, l = .ptr ∨ l = .const) ∧ (attrs u).typedef = true
  | .tdef i n t, u => by
    constructor
    · intro h
      simp [typedefOf] at h
      subst h
      exact ⟨[], .here _, by simp, rfl⟩
    · rintro ⟨ls, h, hl, ht⟩
      cases h with
      | here => rfl
      | step _ t' _ l ls ho h' =>
        simp [outer] at ho
        have := hl l List.mem_cons_self
        rw [← ho.1] at this
        simp at this
  | .ptr i t, u => by
    have ih := go t u
    simp only [typedefOf, ih]
    constructor
    · rintro ⟨ls, h, hl, ht⟩
      exact ⟨.ptr :: ls, .step _ _ _ .ptr ls rfl h, by simpa using hl, ht⟩
    · rintro ⟨ls, h, hl, ht⟩
      cases h with
      | here => simp [attrs] at ht
      | step _ t' _ l ls ho h' =>
        simp [outer] at ho
        obtain ⟨rfl, rfl⟩ := ho
        exact ⟨ls, h', fun l hm => hl l (List.mem_cons_of_mem _ hm), ht⟩
  | .const i t, u => by
    have ih := go t u
    simp only [typedefOf, ih]
    constructor
    · rintro ⟨ls, h, hl, ht⟩
      exact ⟨.const :: ls, .step _ _ _ .const ls rfl h, by simpa using hl, ht⟩
    · rintro ⟨ls, h, hl, ht⟩
      cases h with
      | here => simp [attrs] at ht
      | step _ t' _ l ls ho h' =>
        simp [outer] at ho
        obtain ⟨rfl, rfl⟩ := ho
        exact ⟨ls, h', fun l hm => hl l (List.mem_cons_of_mem _ hm), ht⟩
  | .ref i t, u => by
    simp only [typedefOf]
    constructor
    · intro h; simp at h
    · rintro ⟨ls, h, hl, ht⟩
      cases h with
      | here => simp [attrs] at ht
      | step _ t' _ l ls ho h' =>
        simp [outer] at ho
        have := hl l List.mem_cons_self
        rw [← ho.1] at this
        simp at this
  | .ctype .., u | .enum .., u | .incomplete .., u | .fn .., u => by
    simp only [typedefOf]
    constructor
    · intro h; simp at h
    · rintro ⟨ls, h, hl, ht⟩
      cases h with
      | here => simp [attrs] at ht
      | step _ t' _ l ls ho h' => simp [outer] at ho
  | .comp i kw n fs emb fwd ms, u => by
    simp only [typedefOf]
    constructor
    · intro h; simp at h
    · rintro ⟨ls, h, hl, ht⟩
      cases h with
      | here => cases kw <;> simp [attrs] at ht
      | step _ t' _ l ls ho h' => simp [outer] at ho

/-- `const t_p *` with `typedef int *t_p`. -/
def exLayers : Ty := .ptr false (.const false (.tdef false "t_p" (.ptr false (.ctype .int false false))))

example : outer (rawType exLayers) = none ∧ containsTypeDef exLayers = true ∧
    isPointer (mostPointed exLayers) = false := by decide +kernel

/-! ## C42: signedness -/

/-- C42.  `setUnsigned(val)` succeeds exactly on the integer types of the opposite signedness. -/
theorem C42_success_iff (charSigned val : Bool) (c₀ : CT) (o : CTypeObj)
    (h : ReachableCType charSigned c₀ o) :
    (setUnsigned charSigned val o).1 = true ↔ isUnsignedInt charSigned o.c = some (!val) := by
  obtain ⟨h1, h2, h3, h4⟩ := reachable_inv h
  obtain ⟨c, naked, name⟩ := o
  cases charSigned <;> cases val <;> cases naked <;> cases c <;>
    simp_all [setUnsigned, toUnsigned, toSigned, isUnsignedInt]

/-- C42.  On success the type has the requested signedness and the same width; on failure the
    object is unchanged. -/
theorem C42_result (charSigned val : Bool) (c₀ : CT) (o : CTypeObj)
    (h : ReachableCType charSigned c₀ o) :
    ((setUnsigned charSigned val o).1 = true →
      isUnsignedInt charSigned (setUnsigned charSigned val o).2.c = some val ∧
      intWidth (setUnsigned charSigned val o).2.c = intWidth o.c ∧
      intWidth o.c ≠ none) ∧
    ((setUnsigned charSigned val o).1 = false → (setUnsigned charSigned val o).2 = o) := by
  obtain ⟨h1, h2, h3, h4⟩ := reachable_inv h
  obtain ⟨c, naked, name⟩ := o
  cases charSigned <;> cases val <;> cases naked <;> cases c <;>
    simp_all [setUnsigned, toUnsigned, toSigned, isUnsignedInt, intWidth]

/-- C42.  A successful conversion can be undone: converting back succeeds and restores the
    object. -/
theorem C42_round_trip (charSigned val : Bool) (c₀ : CT) (o : CTypeObj)
    (h : ReachableCType charSigned c₀ o) (hs : (setUnsigned charSigned val o).1 = true) :
    setUnsigned charSigned (!val) (setUnsigned charSigned val o).2 = (true, o) := by
  obtain ⟨h1, h2, h3, h4⟩ := reachable_inv h
  obtain ⟨c, naked, name⟩ := o
  simp only at h1
  subst h1
  cases charSigned <;> cases val <;> cases naked <;> cases c <;>
    simp_all [setUnsigned, toUnsigned, toSigned]

/-- C42.  The name used in declarations is always the one of the current type; it announces
    `unsigned` exactly for the unsigned integer types other than plain `char`. -/
theorem C42_name (charSigned : Bool) (c₀ : CT) (o : CTypeObj)
    (h : ReachableCType charSigned c₀ o) :
    o.name = declPrefix (.ctype o.c o.naked false) ∧
    (o.c ≠ .char → (startsWithUnsigned o.name = true ↔
      isUnsignedInt charSigned o.c = some true)) := by
  obtain ⟨h1, h2, h3, h4⟩ := reachable_inv h
  refine ⟨by simp [h1, declPrefix], ?_⟩
  rw [h1]
  intro hc
  cases charSigned <;> (generalize o.c = c at *; revert hc; cases c <;> decide +kernel)

/-- C42.  Outside the `char` family, conversion adds or removes the word `unsigned` in the
    declaration and changes nothing else. -/
theorem C42_text (charSigned val : Bool) (c₀ : CT) (o : CTypeObj)
    (h : ReachableCType charSigned c₀ o) (hc : intWidth o.c ≠ some 8)
    (hs : (setUnsigned charSigned val o).1 = true) :
    (if val then (setUnsigned charSigned val o).2.name = "unsigned " ++ o.name
     else o.name = "unsigned " ++ (setUnsigned charSigned val o).2.name) := by
  obtain ⟨h1, h2, h3, h4⟩ := reachable_inv h
  obtain ⟨c, naked, name⟩ := o
  simp only at h1
  subst h1
  simp only at hc
  clear h h2 h3 h4
  revert hc hs
  cases charSigned <;> cases val <;> cases naked <;> cases c <;> decide +kernel

example : ReachableCType true .char (setUnsigned true true (CTypeObj.new .char)).2 ∧
    (setUnsigned true true (CTypeObj.new .char)).1 = true ∧
    intWidth (CTypeObj.new .longLong).c ≠ some 8 ∧
    (setUnsigned true true (CTypeObj.new .longLong)).1 = true :=
  ⟨.set _ _ .new, by decide, by decide, by decide⟩

/-! ## C43: enumerations -/

/-- C43.  The generated enumerators are, for every 32-bit value that occurs, the first parsed
    enumerator having that value, and they appear in increasing order of value. -/
theorem C43_first_of_value (name : String) (es : List (String × Int)) (hne : es ≠ []) :
    (∀ n k, (n, k) ∈ generatedEnum name (parseEnum es) ↔
      ∃ pre v post, es = pre ++ (n, v) :: post ∧ k = (v % 4294967296).toNat ∧
        ∀ e ∈ pre, (e.2 % 4294967296).toNat ≠ k) ∧
    ((generatedEnum name (parseEnum es)).map Prod.snd).Pairwise (· < ·) := by
  have hn := parseEnum_ne_nil hne
  have hg : generatedEnum name (parseEnum es) = (parseEnum es).map (fun p => (p.2, p.1)) := by
    simp [generatedEnum, hn]
  rw [hg]
  constructor
  · intro n k
    have : (n, k) ∈ (parseEnum es).map (fun p => (p.2, p.1)) ↔ (k, n) ∈ parseEnum es := by
      simp only [List.mem_map, Prod.mk.injEq, Prod.exists]
      constructor
      · rintro ⟨a, b, h, rfl, rfl⟩
        exact h
      · intro h
        exact ⟨k, n, h, rfl, rfl⟩
    rw [this, mem_parseEnum]
    constructor
    · rintro ⟨pre, ⟨n', v⟩, post, rfl, heq, hpre⟩
      simp at heq
      obtain ⟨rfl, rfl⟩ := heq
      exact ⟨pre, v, post, rfl, rfl, hpre⟩
    · rintro ⟨pre, v, post, rfl, rfl, hpre⟩
      exact ⟨pre, (n, v), post, rfl, rfl, hpre⟩
  · have := ordered_parseEnum es
    simpa [Ordered, List.map_map, Function.comp_def] using this

theorem split_of_mem {α : Type} {x : α} : ∀ {l : List α}, x ∈ l → ∃ p q, l = p ++ x :: q
  | a :: l, h => by
    rcases List.mem_cons.mp h with rfl | h
    · exact ⟨[], l, rfl⟩
    · obtain ⟨p, q, rfl⟩ := split_of_mem h
      exact ⟨a :: p, q, rfl⟩

/-- C43 (partial: values must be distinct and fit in `unsigned int` — see the refutations).  Every
    enumerator reappears with its value and nothing else appears. -/
theorem C43_preserved_partial (name : String) (es : List (String × Int)) (hne : es ≠ [])
    (hr : ∀ e ∈ es, 0 ≤ e.2 ∧ e.2 < 4294967296) (hd : (es.map Prod.snd).Nodup) :
    ∀ n k, (n, k) ∈ generatedEnum name (parseEnum es) ↔ (n, (k : Int)) ∈ es := by
  intro n k
  rw [(C43_first_of_value name es hne).1 n k]
  constructor
  · rintro ⟨pre, v, post, rfl, rfl, _⟩
    have hv := hr (n, v) (by simp)
    simp only at hv
    have : (((v % 4294967296).toNat : Nat) : Int) = v := by omega
    rw [this]; simp
  · intro hm
    obtain ⟨pre, post, rfl⟩ := split_of_mem hm
    have hk := hr (n, (k : Int)) (by simp)
    simp only at hk
    refine ⟨pre, k, post, rfl, by omega, ?_⟩
    intro e he heq
    have he' := hr e (by simp [he])
    have : e.2 = (k : Int) := by omega
    simp only [List.map_append, List.map_cons] at hd
    have hdis := (List.nodup_append.mp hd).2.2
    exact hdis e.2 (List.mem_map_of_mem he) (k : Int) List.mem_cons_self this

example : (∀ e ∈ [("A", (3 : Int)), ("B", 1)], 0 ≤ e.2 ∧ e.2 < 4294967296) ∧
    (([("A", (3 : Int)), ("B", 1)]).map Prod.snd).Nodup ∧
    generatedEnum "e" (parseEnum [("A", 3), ("B", 1)]) = [("B", 1), ("A", 3)] := by decide

/-- C43 is false in general: the second of two enumerators with the same value is lost. -/
theorem C43_refuted_duplicate :
    ∀ k, ("B", k) ∉ generatedEnum "e" (parseEnum [("A", 1), ("B", 1)]) := by
  have : generatedEnum "e" (parseEnum [("A", 1), ("B", 1)]) = [("A", 1)] := by decide
  rw [this]; simp

/-- C43 is false in general: a negative value is replaced by its 32-bit unsigned counterpart, and a
    value above 32 bits is truncated. -/
theorem C43_refuted_value :
    generatedEnum "e" (parseEnum [("A", -1), ("B", 4294967298)]) =
      [("B", 2), ("A", 4294967295)] := by decide

/-- C43.  An enumeration without enumerators gets exactly one, `<name>_dummy = 0`. -/
theorem C43_dummy (name : String) : generatedEnum name (parseEnum []) = [(name ++ "_dummy", 0)] := by
  have : name ++ "_" ++ "dummy" = name ++ "_dummy" := by
    rw [String.append_assoc]; rfl
  simp [generatedEnum, parseEnum, this]

/-- C43.  The generated text is the declaration of the enumeration with one line
    `  <name> = <value>,` per generated enumerator, in order. -/
theorem C43_text (name : String) (es : List (Nat × String)) :
    enumText name es = "enum " ++ name ++ "\n{\n" ++ String.join ((generatedEnum name es).map
      fun e => "  " ++ e.1 ++ " = " ++ Nat.repr e.2 ++ ",\n") ++ "};\n" := rfl

example : enumText "e" (parseEnum [("A", 3), ("B", 1)]) =
    "enum e\n{\n  B = 1,\n  A = 3,\n};\n" := by decide +kernel

end EasyMock.Types
