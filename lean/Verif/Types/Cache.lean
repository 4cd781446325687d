import Verif.Types.HashLemmas

/-!
# Types: cached hashes

Model of `getHash`/`cacheHash` with the `m_cachedHash` members (0 = not cached) of every class in
the hierarchy.  An object is the list of its class levels: each level has its own cache and the
values it combines; a value is a basic hash, a vector/pair/variant (hashed without a cache), or
another object, which `cacheHash` of the owner caches too or not.
-/

namespace EasyMock.Types

mutual
/-- An object with its caches. -/
inductive Obj (H : Type) where
  /-- A class without base class: the cache and the combined values. -/
  | root (cache : H) (parts : Parts H)
  /-- A derived class: its base class part, its own cache and the values combined on top of the
      hash of the base. -/
  | derived (cache : H) (base : Obj H) (parts : Parts H)
  /-- `TypedefType::getRawHash` with `m_cachedRawHash` (TypedefType.cpp:50-57). -/
  | raw (cache : H) (typee : Obj H)

/-- The values combined by one level, in order. -/
inductive Parts (H : Type) where
  | nil
  | value (v : H) (rest : Parts H)
  | range (ps : Parts H) (rest : Parts H)
  /-- `recached`: `cacheHash` of the owner calls `cacheHash` of this object. -/
  | object (recached : Bool) (o : Obj H) (rest : Parts H)
end

variable {H : Type} [DecidableEq H]

mutual
/-- `getHash` of a level: `if(m_cachedHash != 0) return m_cachedHash;` then the combination
    (e.g. TypeItf.cpp:438-459, Pointer.cpp:41-51, TypedefType.cpp:25-57). -/
def getHash (h : Hasher H) : Obj H → H
  | .root c ps => if c ≠ h.zero then c else chain h h.zero (getParts h ps)
  | .derived c b ps => if c ≠ h.zero then c else chain h (getHash h b) (getParts h ps)
  | .raw c t => if c ≠ h.zero then c else getHash h t

def getParts (h : Hasher H) : Parts H → List H
  | .nil => []
  | .value v rest => v :: getParts h rest
  | .range ps rest => chain h h.zero (getParts h ps) :: getParts h rest
  | .object _ o rest => getHash h o :: getParts h rest
end

mutual
/-- `cacheHash` of a level: reset the own cache, cache the base and the contained objects, store
    the hash (TypeItf.cpp:461-465, Pointer.cpp:53-59, QualifiedType.cpp:64-70,
    ConstQualifiedType.cpp:38-43, TypedefType.cpp:37-48, Enum.cpp:58-63, ComposableType.cpp:55-68,
    IncompleteType.cpp:56-61, Declarator.cpp:84-89, ComposableFieldItf.cpp:74-79,
    ComposableField.cpp:49-54, ComposableBitfield.cpp:49-54, Parameter.cpp:69-74,
    Function.cpp:159-174, FunctionType.cpp:68-74, FunctionDeclaration.cpp:45-51,
    FunctionAttribute.cpp:46-50). -/
def cacheHash (h : Hasher H) : Obj H → Obj H
  | .root _ ps =>
    let ps' := cacheParts h ps
    .root (chain h h.zero (getParts h ps')) ps'
  | .derived _ b ps =>
    let b' := cacheHash h b
    let ps' := cacheParts h ps
    .derived (chain h (getHash h b') (getParts h ps')) b' ps'
  | .raw _ t =>
    let t' := cacheHash h t
    .raw (getHash h t') t'

def cacheParts (h : Hasher H) : Parts H → Parts H
  | .nil => .nil
  | .value v rest => .value v (cacheParts h rest)
  | .range ps rest => .range (cacheParts h ps) (cacheParts h rest)
  | .object true o rest => .object true (cacheHash h o) (cacheParts h rest)
  | .object false o rest => .object false o (cacheParts h rest)
end

/-! ## Specification -/

mutual
/-- The object with all caches empty. -/
def uncached (h : Hasher H) : Obj H → Obj H
  | .root _ ps => .root h.zero (uncachedParts h ps)
  | .derived _ b ps => .derived h.zero (uncached h b) (uncachedParts h ps)
  | .raw _ t => .raw h.zero (uncached h t)
def uncachedParts (h : Hasher H) : Parts H → Parts H
  | .nil => .nil
  | .value v rest => .value v (uncachedParts h rest)
  | .range ps rest => .range (uncachedParts h ps) (uncachedParts h rest)
  | .object r o rest => .object r (uncached h o) (uncachedParts h rest)
end

mutual
/-- No object which `cacheHash` leaves alone has a stale cache. -/
def Settled (h : Hasher H) : Obj H → Prop
  | .root _ ps => SettledParts h ps
  | .derived _ b ps => Settled h b ∧ SettledParts h ps
  | .raw _ t => Settled h t
def SettledParts (h : Hasher H) : Parts H → Prop
  | .nil => True
  | .value _ rest => SettledParts h rest
  | .range ps rest => SettledParts h ps ∧ SettledParts h rest
  | .object true o rest => Settled h o ∧ SettledParts h rest
  | .object false o rest => getHash h o = getHash h (uncached h o) ∧ SettledParts h rest
end

/-! ## Lemmas -/

mutual
theorem getHash_cacheHash (h : Hasher H) : ∀ o, Settled h o →
    getHash h (cacheHash h o) = getHash h (uncached h o)
  | .root c ps, hs => by
    simp only [Settled] at hs
    have e := getParts_cacheParts h ps hs
    simp only [cacheHash, getHash, uncached, e, ne_eq, not_true_eq_false, ite_false]
    split <;> rfl
  | .derived c b ps, hs => by
    simp only [Settled] at hs
    have e := getParts_cacheParts h ps hs.2
    have eb := getHash_cacheHash h b hs.1
    simp only [cacheHash, getHash, uncached, e, eb, ne_eq, not_true_eq_false, ite_false]
    split <;> rfl
  | .raw c t, hs => by
    simp only [Settled] at hs
    have et := getHash_cacheHash h t hs
    simp only [cacheHash, getHash, uncached, et, ne_eq, not_true_eq_false, ite_false]
    split <;> rfl
theorem getParts_cacheParts (h : Hasher H) : ∀ ps, SettledParts h ps →
    getParts h (cacheParts h ps) = getParts h (uncachedParts h ps)
  | .nil, _ => by simp [cacheParts, uncachedParts]
  | .value v rest, hs => by
    simp only [SettledParts] at hs
    simp [cacheParts, uncachedParts, getParts, getParts_cacheParts h rest hs]
  | .range ps rest, hs => by
    simp only [SettledParts] at hs
    simp [cacheParts, uncachedParts, getParts, getParts_cacheParts h rest hs.2,
      getParts_cacheParts h ps hs.1]
  | .object true o rest, hs => by
    simp only [SettledParts] at hs
    simp [cacheParts, uncachedParts, getParts, getParts_cacheParts h rest hs.2,
      getHash_cacheHash h o hs.1]
  | .object false o rest, hs => by
    simp only [SettledParts] at hs
    simp [cacheParts, uncachedParts, getParts, getParts_cacheParts h rest hs.2, hs.1]
end

mutual
theorem uncached_cacheHash (h : Hasher H) : ∀ o, uncached h (cacheHash h o) = uncached h o
  | .root _ ps => by simp [cacheHash, uncached, uncachedParts_cacheParts h ps]
  | .derived _ b ps => by
    simp [cacheHash, uncached, uncachedParts_cacheParts h ps, uncached_cacheHash h b]
  | .raw _ t => by simp [cacheHash, uncached, uncached_cacheHash h t]
theorem uncachedParts_cacheParts (h : Hasher H) :
    ∀ ps, uncachedParts h (cacheParts h ps) = uncachedParts h ps
  | .nil => by simp [cacheParts]
  | .value _ rest => by simp [cacheParts, uncachedParts, uncachedParts_cacheParts h rest]
  | .range ps rest => by
    simp [cacheParts, uncachedParts, uncachedParts_cacheParts h rest,
      uncachedParts_cacheParts h ps]
  | .object true o rest => by
    simp [cacheParts, uncachedParts, uncachedParts_cacheParts h rest, uncached_cacheHash h o]
  | .object false o rest => by
    simp [cacheParts, uncachedParts, uncachedParts_cacheParts h rest]
end

/-! ## The objects of the type model -/

/-- A list of basic values. -/
def valueParts : List H → Parts H → Parts H
  | [], rest => rest
  | v :: vs, rest => .value v (valueParts vs rest)

theorem getParts_valueParts (h : Hasher H) : ∀ vs rest,
    getParts h (valueParts vs rest) = vs ++ getParts h rest
  | [], _ => rfl
  | v :: vs, rest => by simp [valueParts, getParts, getParts_valueParts h vs rest]

/-- The `TypeItf` level. -/
def attrObj (h : Hasher H) (a : Attrs) : Obj H :=
  .root h.zero (valueParts [h.str a.name, h.bool a.cType, h.bool a.struct, h.bool a.union,
    h.bool a.pointer, h.bool a.reference, h.bool a.function, h.bool a.enum, h.bool a.implicit,
    h.bool a.incomplete, h.bool a.typedef, h.bool a.qualified] .nil)

/-- A `FunctionAttribute`. -/
def attributeObj (h : Hasher H) (a : String × List String) : Obj H :=
  .root h.zero (.value (h.str a.1) (.range (valueParts (a.2.map h.str) .nil) .nil))

/-- A vector of attributes. -/
def attributeParts (h : Hasher H) : List (String × List String) → Parts H
  | [] => .nil
  | a :: as => .object true (attributeObj h a) (attributeParts h as)

/-- A `Declarator`. -/
def declObj (h : Hasher H) (s : String) (t : Obj H) : Obj H :=
  .root h.zero (.value (h.str s) (.object true t .nil))

/-- A `Function`: the parameters, the return value and the attributes are cached with it. -/
def fnObj (h : Hasher H) (info : FnInfo) (params : Parts H) (ret : Obj H) : Obj H :=
  .root h.zero (valueParts [h.bool info.inlined, h.bool info.variadic, h.str info.name]
    (.range params (.object true ret (.range (attributeParts h info.attributes)
      (valueParts [h.bool info.isStatic, h.nat info.access.idx, h.bool info.classConst] .nil)))))

/-- A `Namespace`: the seed of a nested one is the hash of its parent. -/
def nsObj (h : Hasher H) (ns : List String) : Obj H :=
  ns.foldl (fun o n => .derived h.zero o (.value (h.str n) .nil))
    (.root h.zero (.value (h.str "::") .nil))

/-- A `FunctionDeclaration`; its namespace is `const` and not cached with it. -/
def fnDeclObj (h : Hasher H) (f : Obj H) (body : Bool) (ns : List String) : Obj H :=
  .derived h.zero f (valueParts [h.nat 0, h.bool body] (.object false (nsObj h ns) .nil))

mutual
/-- The object representing a type, nothing cached. -/
def tyObj (h : Hasher H) : Ty → Obj H
  | .ctype c n i => .derived h.zero (attrObj h (attrs (.ctype c n i)))
      (valueParts [h.nat c.idx, h.bool n] .nil)
  | .ptr i t => .derived h.zero (attrObj h (attrs (.ptr i t))) (.object true (tyObj h t) .nil)
  | .ref i t => .derived h.zero (attrObj h (attrs (.ref i t))) (.object true (tyObj h t) .nil)
  | .const i t => .derived h.zero
      (.derived h.zero (attrObj h (attrs (.const i t))) (.object true (tyObj h t) .nil))
      (valueParts [h.str "const"] .nil)
  | .tdef i n t => .derived h.zero (attrObj h (attrs (.tdef i n t)))
      (.object true (.raw h.zero (tyObj h t)) .nil)
  | .enum i n vs => .derived h.zero (attrObj h (attrs (.enum i n vs)))
      (.range (valueParts (vs.map (hashPair h)) .nil) .nil)
  | .comp i kw n fs emb fwd ms => .derived h.zero (attrObj h (attrs (.comp i kw n fs emb fwd ms)))
      (.value (h.chr kw.firstChar) (.range (fieldParts h fs)
        (.value (h.bool emb) (.value (h.bool fwd) (methodParts h ms)))))
  | .incomplete f k n => .derived h.zero (attrObj h (attrs (.incomplete f k n)))
      (valueParts [h.nat k.idx] .nil)
  | .fn i info s r ps => .derived h.zero (fnObj h info (paramParts h ps) (declObj h s (tyObj h r)))
      (.object true (attrObj h (attrs (.fn i info s r ps))) .nil)

/-- Fields: `Declarator`, `ComposableFieldItf`, `ComposableField`/`ComposableBitfield` levels. -/
def fieldParts (h : Hasher H) : Fields → Parts H
  | .nil => .nil
  | .field s t n a rest => .range (.value (h.nat 0) (.object true
      (.derived h.zero (.derived h.zero (declObj h s (tyObj h t)) (valueParts [h.str n] .nil))
        (valueParts [h.int a] .nil)) .nil)) (fieldParts h rest)
  | .bit s t n k rest => .range (.value (h.nat 1) (.object true
      (.derived h.zero (.derived h.zero (declObj h s (tyObj h t)) (valueParts [h.str n] .nil))
        (valueParts [h.nat k] .nil)) .nil)) (fieldParts h rest)

/-- Parameters: `Declarator` and `Parameter` levels. -/
def paramParts (h : Hasher H) : Params → Parts H
  | .nil => .nil
  | .cons s t _ rest =>
    .object true (.derived h.zero (declObj h s (tyObj h t)) .nil) (paramParts h rest)

/-- Methods: `ComposableType::cacheHash` does not cache them (ComposableType.cpp:55-68). -/
def methodParts (h : Hasher H) : Methods → Parts H
  | .nil => .nil
  | .cons info s r ps _ body ns rest => .object false
      (fnDeclObj h (fnObj h info (paramParts h ps) (declObj h s (tyObj h r))) body ns)
      (methodParts h rest)
end

theorem getHash_attrObj (h : Hasher H) (a : Attrs) : getHash h (attrObj h a) = hashAttrs h a := by
  simp [attrObj, getHash, hashAttrs, getParts_valueParts, getParts]

theorem getHash_attributeObj (h : Hasher H) (a : String × List String) :
    getHash h (attributeObj h a) = hashAttribute h a := by
  simp [attributeObj, getHash, hashAttribute, getParts_valueParts, getParts]

theorem getParts_attributeParts (h : Hasher H) : ∀ as,
    getParts h (attributeParts h as) = as.map (hashAttribute h)
  | [] => by simp [attributeParts, getParts]
  | a :: as => by
    simp [attributeParts, getParts, getHash_attributeObj, getParts_attributeParts h as]

theorem getHash_declObj (h : Hasher H) (s : String) (t : Obj H) :
    getHash h (declObj h s t) = hashDecl h s (getHash h t) := by
  simp [declObj, getHash, hashDecl, getParts]

theorem getHash_fnObj (h : Hasher H) (info : FnInfo) (ps : Parts H) (r : Obj H) :
    getHash h (fnObj h info ps r) = hashFn h info (getParts h ps) (getHash h r) := by
  simp [fnObj, getHash, hashFn, getParts_valueParts, getParts, getParts_attributeParts]

theorem getHash_nsFold (h : Hasher H) : ∀ (ns : List String) (o : Obj H),
    getHash h (ns.foldl (fun o n => .derived h.zero o (.value (h.str n) .nil)) o) =
      chain h (getHash h o) (ns.map h.str)
  | [], o => by simp [chain]
  | n :: ns, o => by
    rw [List.foldl_cons, getHash_nsFold h ns]
    simp [getHash, getParts, chain]

theorem getHash_nsObj (h : Hasher H) (ns : List String) :
    getHash h (nsObj h ns) = hashNamespace h ns := by
  rw [nsObj, getHash_nsFold]
  simp [getHash, getParts, chain, hashNamespace]

theorem getHash_fnDeclObj (h : Hasher H) (f : Obj H) (body : Bool) (ns : List String) :
    getHash h (fnDeclObj h f body ns) = hashFnDecl h (getHash h f) body ns := by
  simp [fnDeclObj, getHash, hashFnDecl, getParts_valueParts, getParts, getHash_nsObj]

mutual
theorem getHash_tyObj (h : Hasher H) : ∀ t, getHash h (tyObj h t) = hash h t
  | .ctype c n i => by
    simp [tyObj, getHash, hash, getHash_attrObj, getParts_valueParts, getParts]
  | .ptr i t | .ref i t | .tdef i _ t => by
    simp [tyObj, getHash, hash, getHash_attrObj, getParts, getHash_tyObj h t]
  | .const i t => by
    simp [tyObj, getHash, hash, getHash_attrObj, getParts_valueParts, getParts, getHash_tyObj h t,
      chain]
  | .enum i n vs => by
    simp [tyObj, getHash, hash, getHash_attrObj, getParts_valueParts, getParts]
  | .comp i kw n fs emb fwd ms => by
    simp [tyObj, getHash, hash, getHash_attrObj, getParts, getParts_fieldParts h fs,
      getParts_methodParts h ms]
  | .incomplete f k n => by
    simp [tyObj, getHash, hash, getHash_attrObj, getParts_valueParts, getParts]
  | .fn i info s r ps => by
    simp [tyObj, getHash, hash, getHash_attrObj, getParts, getHash_fnObj, getHash_declObj,
      getHash_tyObj h r, getParts_paramParts h ps]
theorem getParts_fieldParts (h : Hasher H) : ∀ fs, getParts h (fieldParts h fs) = hashFields h fs
  | .nil => by simp [fieldParts, getParts, hashFields]
  | .field s t n k rest | .bit s t n k rest => by
    simp [fieldParts, getParts, hashFields, getHash, getHash_declObj, getHash_tyObj h t,
      getParts_valueParts, getParts_fieldParts h rest, chain]
theorem getParts_paramParts (h : Hasher H) : ∀ ps, getParts h (paramParts h ps) = hashParams h ps
  | .nil => by simp [paramParts, getParts, hashParams]
  | .cons s t n rest => by
    simp [paramParts, getParts, hashParams, getHash, getHash_declObj, getHash_tyObj h t,
      getParts_paramParts h rest, chain]
theorem getParts_methodParts (h : Hasher H) :
    ∀ ms, getParts h (methodParts h ms) = hashMethods h ms
  | .nil => by simp [methodParts, getParts, hashMethods]
  | .cons info s r ps p body ns rest => by
    simp [methodParts, getParts, hashMethods, getHash_fnDeclObj, getHash_fnObj, getHash_declObj,
      getHash_tyObj h r, getParts_paramParts h ps, getParts_methodParts h rest]
end

mutual
theorem uncached_tyObj (h : Hasher H) : ∀ t, uncached h (tyObj h t) = tyObj h t
  | .ctype c n i => by simp [tyObj, uncached, attrObj, uncachedParts, valueParts]
  | .ptr i t | .ref i t | .tdef i _ t | .const i t => by
    simp [tyObj, uncached, attrObj, uncachedParts, valueParts, uncached_tyObj h t]
  | .enum i n vs => by
    simp [tyObj, uncached, attrObj, uncachedParts, valueParts, uncachedParts_valueParts]
  | .comp i kw n fs emb fwd ms => by
    simp [tyObj, uncached, attrObj, uncachedParts, valueParts, uncachedParts_fieldParts h fs,
      uncachedParts_methodParts h ms]
  | .incomplete f k n => by simp [tyObj, uncached, attrObj, uncachedParts, valueParts]
  | .fn i info s r ps => by
    simp [tyObj, uncached, attrObj, uncachedParts, valueParts, fnObj, declObj,
      uncachedParts_attributeParts h info.attributes,
      uncached_tyObj h r, uncachedParts_paramParts h ps]
theorem uncachedParts_fieldParts (h : Hasher H) :
    ∀ fs, uncachedParts h (fieldParts h fs) = fieldParts h fs
  | .nil => by simp [fieldParts, uncachedParts]
  | .field s t n k rest | .bit s t n k rest => by
    simp [fieldParts, uncachedParts, uncached, declObj, valueParts, uncached_tyObj h t,
      uncachedParts_fieldParts h rest]
theorem uncachedParts_paramParts (h : Hasher H) :
    ∀ ps, uncachedParts h (paramParts h ps) = paramParts h ps
  | .nil => by simp [paramParts, uncachedParts]
  | .cons s t n rest => by
    simp [paramParts, uncachedParts, uncached, declObj, uncached_tyObj h t,
      uncachedParts_paramParts h rest]
theorem uncachedParts_methodParts (h : Hasher H) :
    ∀ ms, uncachedParts h (methodParts h ms) = methodParts h ms
  | .nil => by simp [methodParts, uncachedParts]
  | .cons info s r ps p body ns rest => by
    simp [methodParts, uncachedParts, uncached, fnDeclObj, fnObj, declObj, valueParts,
      uncached_tyObj h r, uncachedParts_paramParts h ps, uncachedParts_methodParts h rest,
      uncachedParts_attributeParts h info.attributes, uncached_nsObj h ns]
theorem uncachedParts_valueParts (h : Hasher H) (vs : List H) :
    uncachedParts h (valueParts vs .nil) = valueParts vs .nil := by
  induction vs with
  | nil => simp [valueParts, uncachedParts]
  | cons v vs ih => simp [valueParts, uncachedParts, ih]
theorem uncachedParts_attributeParts (h : Hasher H) (as : List (String × List String)) :
    uncachedParts h (attributeParts h as) = attributeParts h as := by
  induction as with
  | nil => simp [attributeParts, uncachedParts]
  | cons a as ih =>
    simp [attributeParts, attributeObj, uncached, uncachedParts, ih, uncachedParts_valueParts]
theorem uncached_nsObj (h : Hasher H) (ns : List String) :
    uncached h (nsObj h ns) = nsObj h ns := by
  have key : ∀ (ns : List String) (o : Obj H), uncached h o = o →
      uncached h (ns.foldl (fun o n => .derived h.zero o (.value (h.str n) .nil)) o) =
        ns.foldl (fun o n => .derived h.zero o (.value (h.str n) .nil)) o := by
    intro ns
    induction ns with
    | nil => intro o ho; exact ho
    | cons n ns ih => intro o ho; exact ih _ (by simp [uncached, uncachedParts, ho])
  exact key ns _ (by simp [uncached, uncachedParts])
end

end EasyMock.Types
