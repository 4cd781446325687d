import Verif.Types.Lemmas

/-! # Types: lemmas about hashes -/

namespace EasyMock.Types

/-! ## The hash reads only `hashed` -/

theorem attrs_hashed : ∀ t, attrs (hashed t) = attrs t
  | .ctype .. | .ptr .. | .ref .. | .const .. | .tdef .. | .enum .. | .incomplete .. | .fn .. => by
    simp [hashed, attrs]
  | .comp i kw n fs emb fwd ms => by cases kw <;> simp [hashed, attrs]

mutual
theorem hash_hashed {H : Type} (h : Hasher H) : ∀ t, hash h (hashed t) = hash h t
  | .ctype .. => by simp [hashed]
  | .ptr i t => by
    have e := attrs_hashed (.ptr i t); simp only [hashed] at e ⊢
    simp only [hash, hash_hashed h t, e]
  | .ref i t => by
    have e := attrs_hashed (.ref i t); simp only [hashed] at e ⊢
    simp only [hash, hash_hashed h t, e]
  | .const i t => by
    have e := attrs_hashed (.const i t); simp only [hashed] at e ⊢
    simp only [hash, hash_hashed h t, e]
  | .tdef i n t => by
    have e := attrs_hashed (.tdef i n t); simp only [hashed] at e ⊢
    simp only [hash, hash_hashed h t, e]
  | .enum .. => by simp [hashed]
  | .comp i kw n fs emb fwd ms => by
    have e := attrs_hashed (.comp i kw n fs emb fwd ms); simp only [hashed] at e ⊢
    simp only [hash, hashFields_hashed h fs, hashMethods_hashed h ms, e]
  | .incomplete .. => by simp [hashed]
  | .fn i info s r ps => by
    have e := attrs_hashed (.fn i info s r ps); simp only [hashed] at e ⊢
    simp only [hash, hash_hashed h r, hashParams_hashed h ps, e]
theorem hashFields_hashed {H : Type} (h : Hasher H) : ∀ fs, hashFields h (hashedFields fs) = hashFields h fs
  | .nil => by simp [hashedFields]
  | .field _ t _ _ rest | .bit _ t _ _ rest => by
    simp [hashedFields, hashFields, hash_hashed h t, hashFields_hashed h rest]
theorem hashParams_hashed {H : Type} (h : Hasher H) : ∀ ps, hashParams h (hashedParams ps) = hashParams h ps
  | .nil => by simp [hashedParams]
  | .cons _ t _ rest => by
    simp [hashedParams, hashParams, hash_hashed h t, hashParams_hashed h rest]
theorem hashMethods_hashed {H : Type} (h : Hasher H) :
    ∀ ms, hashMethods h (hashedMethods ms) = hashMethods h ms
  | .nil => by simp [hashedMethods]
  | .cons info s r ps _ body ns rest => by
    simp [hashedMethods, hashMethods, hash_hashed h r, hashParams_hashed h ps,
      hashMethods_hashed h rest]
end

/-! ## On plain types the same essence means the same hashed data -/

mutual
theorem hashed_of_essence : ∀ a b, Plain a → Plain b → essence a = essence b →
    hashed a = hashed b
  | .ctype c n i, b, pa, pb, e => by
    cases b <;> simp [essence] at e
    simp only [Plain] at pa pb
    obtain ⟨rfl, rfl⟩ := e
    simp [hashed, pa, pb]
  | .ptr i t, b, pa, pb, e => by
    cases b <;> simp [essence] at e
    simp only [Plain] at pa pb
    simp [hashed, e.1, hashed_of_essence t _ pa pb e.2]
  | .ref i t, b, pa, pb, e => by
    cases b <;> simp [essence] at e
    simp only [Plain] at pa pb
    simp [hashed, e.1, hashed_of_essence t _ pa pb e.2]
  | .const i t, b, pa, pb, e => by
    cases b <;> simp [essence] at e
    simp only [Plain] at pa pb
    simp [hashed, e.1, hashed_of_essence t _ pa pb e.2]
  | .tdef i n t, b, pa, pb, e => by
    cases b <;> simp [essence] at e
    simp only [Plain] at pa pb
    simp [hashed, e.1, e.2.1, hashed_of_essence t _ pa pb e.2.2]
  | .enum i n vs, b, pa, pb, e => by
    cases b <;> simp [essence] at e
    simp [hashed, e]
  | .comp i kw n fs emb fwd ms, b, pa, pb, e => by
    cases b <;> simp [essence] at e
    simp only [Plain] at pa pb
    obtain ⟨e1, e2, e3, e4, e5, e6, e7⟩ := e
    simp [hashed, e1, e2, e3, e5, e6, pa.2, pb.2, hashedFields_of_essence fs _ pa.1 pb.1 e4]
  | .incomplete f k n, b, pa, pb, e => by
    cases b <;> simp [essence] at e
    simp only [Plain] at pa pb
    obtain ⟨rfl, rfl⟩ := e
    rcases pa with ⟨_, p2, p3⟩ | ⟨_, p2, p3⟩ <;> rcases pb with ⟨_, q2, q3⟩ | ⟨_, q2, q3⟩ <;>
      simp_all
  | .fn i info s r ps, b, pa, pb, e => by
    cases b <;> simp [essence] at e
    simp only [Plain] at pa pb
    obtain ⟨e1, e2, e3, e4, e5⟩ := e
    simp [hashed, e1, e2, e3, hashed_of_essence r _ pa.1 pb.1 e4,
      hashedParams_of_essence ps _ pa.2 pb.2 e5]
theorem hashedFields_of_essence : ∀ a b, PlainFields a → PlainFields b →
    essenceFields a = essenceFields b → hashedFields a = hashedFields b
  | .nil, b, _, _, e => by cases b <;> simp [essenceFields] at e; rfl
  | .field s t n k rest, b, pa, pb, e => by
    cases b <;> simp [essenceFields] at e
    simp only [PlainFields] at pa pb
    obtain ⟨e1, e2, e3, e4, e5⟩ := e
    simp [hashedFields, e1, e3, e4, hashed_of_essence t _ pa.1 pb.1 e2,
      hashedFields_of_essence rest _ pa.2 pb.2 e5]
  | .bit s t n k rest, b, pa, pb, e => by
    cases b <;> simp [essenceFields] at e
    simp only [PlainFields] at pa pb
    obtain ⟨e1, e2, e3, e4, e5⟩ := e
    simp [hashedFields, e1, e3, e4, hashed_of_essence t _ pa.1 pb.1 e2,
      hashedFields_of_essence rest _ pa.2 pb.2 e5]
theorem hashedParams_of_essence : ∀ a b, PlainParams a → PlainParams b →
    essenceParams a = essenceParams b → hashedParams a = hashedParams b
  | .nil, b, _, _, e => by cases b <;> simp [essenceParams] at e; rfl
  | .cons s t n rest, b, pa, pb, e => by
    cases b <;> simp [essenceParams] at e
    simp only [PlainParams] at pa pb
    obtain ⟨e1, e2, e3⟩ := e
    simp [hashedParams, e1, hashed_of_essence t _ pa.1 pb.1 e2,
      hashedParams_of_essence rest _ pa.2 pb.2 e3]
end

/-! ## The free hash determines the hashed data -/

theorem chain_append {H : Type} (h : Hasher H) (seed : H) (xs ys : List H) :
    chain h (chain h seed xs) ys = chain h seed (xs ++ ys) := by
  simp [chain, List.foldl_append]

theorem chain_snoc {H : Type} (h : Hasher H) (seed : H) (xs : List H) (y : H) :
    chain h seed (xs ++ [y]) = h.mix (chain h seed xs) y := by
  simp [chain, List.foldl_append]

theorem list_snoc_or_nil {α : Type} (xs : List α) : xs = [] ∨ ∃ ys y, xs = ys ++ [y] := by
  cases xs with
  | nil => exact Or.inl rfl
  | cons x xs => exact Or.inr ⟨(x :: xs).dropLast, (x :: xs).getLast (by simp),
      (List.dropLast_concat_getLast (by simp)).symm⟩

theorem free_chain_inj : ∀ (n : Nat) (xs ys : List HTerm), xs.length = n →
    chain freeHasher freeHasher.zero xs = chain freeHasher freeHasher.zero ys → xs = ys := by
  intro n
  induction n with
  | zero =>
    intro xs ys hl h
    have : xs = [] := List.length_eq_zero_iff.mp hl
    subst this
    rcases list_snoc_or_nil ys with rfl | ⟨zs, z, rfl⟩
    · rfl
    · rw [chain_snoc] at h; exact absurd h (by simp [chain, freeHasher])
  | succ n ih =>
    intro xs ys hl h
    rcases list_snoc_or_nil xs with rfl | ⟨zs, z, rfl⟩
    · simp at hl
    · rcases list_snoc_or_nil ys with rfl | ⟨ws, w, rfl⟩
      · rw [chain_snoc] at h; exact absurd h (by simp [chain, freeHasher])
      · rw [chain_snoc, chain_snoc] at h
        have h' : HTerm.mix (chain freeHasher freeHasher.zero zs) z =
            HTerm.mix (chain freeHasher freeHasher.zero ws) w := h
        injection h' with h1 h2
        have := ih zs ws (by simp at hl; omega) h1
        rw [this, h2]

theorem free_chain {xs ys : List HTerm}
    (h : chain freeHasher freeHasher.zero xs = chain freeHasher freeHasher.zero ys) : xs = ys :=
  free_chain_inj _ xs ys rfl h

/-- The values combined by `TypeItf::getHash`. -/
def attrParts (a : Attrs) : List HTerm :=
  [.str a.name, .bool a.cType, .bool a.struct, .bool a.union,
    .bool a.pointer, .bool a.reference, .bool a.function, .bool a.enum, .bool a.implicit,
    .bool a.incomplete, .bool a.typedef, .bool a.qualified]

theorem hashAttrs_free (a : Attrs) :
    hashAttrs freeHasher a = chain freeHasher freeHasher.zero (attrParts a) := rfl

theorem attrParts_inj {a b : Attrs} (h : attrParts a = attrParts b) : a = b := by
  simp [attrParts] at h
  cases a; cases b; simp_all

/-- The values combined after those of `TypeItf`; for a function type there is no such list. -/
def extraParts : Ty → List HTerm
  | .ctype c n _ => [.nat c.idx, .bool n]
  | .ptr _ t => [hash freeHasher t]
  | .ref _ t => [hash freeHasher t]
  | .const _ t => [hash freeHasher t, .str "const"]
  | .tdef _ _ t => [hash freeHasher t]
  | .enum _ _ vs => [chain freeHasher freeHasher.zero (vs.map (hashPair freeHasher))]
  | .comp _ kw _ fs emb fwd ms =>
    [.chr kw.firstChar, chain freeHasher freeHasher.zero (hashFields freeHasher fs), .bool emb,
      .bool fwd] ++ hashMethods freeHasher ms
  | .incomplete _ k _ => [.nat k.idx]
  | .fn .. => []

def notFn : Ty → Prop
  | .fn .. => False
  | _ => True

theorem hash_free_parts (t : Ty) (h : notFn t) : hash freeHasher t =
    chain freeHasher freeHasher.zero (attrParts (attrs t) ++ extraParts t) := by
  rw [← chain_append, ← hashAttrs_free]
  cases t <;> simp [notFn] at h <;> simp only [hash, extraParts] <;> rfl

def fnParts (info : FnInfo) (s : String) (r : Ty) (ps : Params) : List HTerm :=
  [.bool info.inlined, .bool info.variadic, .str info.name,
    chain freeHasher freeHasher.zero (hashParams freeHasher ps),
    hashDecl freeHasher s (hash freeHasher r),
    chain freeHasher freeHasher.zero (info.attributes.map (hashAttribute freeHasher)),
    .bool info.isStatic, .nat info.access.idx, .bool info.classConst]

theorem hashFn_free (info : FnInfo) (s : String) (r : Ty) (ps : Params) :
    hashFn freeHasher info (hashParams freeHasher ps) (hashDecl freeHasher s (hash freeHasher r)) =
    chain freeHasher freeHasher.zero (fnParts info s r ps) := rfl

theorem hash_free_fn (i : Bool) (info : FnInfo) (s : String) (r : Ty) (ps : Params) :
    hash freeHasher (.fn i info s r ps) = chain freeHasher freeHasher.zero
      (fnParts info s r ps ++ [hashAttrs freeHasher (attrs (.fn i info s r ps))]) := by
  rw [← chain_append, ← hashFn_free]
  simp only [hash]

theorem notFn_inj {a b : Ty} (ha : notFn a) (hb : notFn b)
    (h : hash freeHasher a = hash freeHasher b) :
    attrs a = attrs b ∧ extraParts a = extraParts b := by
  rw [hash_free_parts a ha, hash_free_parts b hb] at h
  have := free_chain h
  have h2 := List.append_inj this (by simp [attrParts])
  exact ⟨attrParts_inj h2.1, h2.2⟩

theorem fn_ne_notFn {a : Ty} (ha : notFn a) (i : Bool) (info : FnInfo) (s : String) (r : Ty)
    (ps : Params) : hash freeHasher a ≠ hash freeHasher (.fn i info s r ps) := by
  intro h
  rw [hash_free_parts a ha, hash_free_fn] at h
  have := free_chain h
  simp [attrParts, fnParts] at this

theorem attrs_comp (i : Bool) (kw : Kw) (n : String) (fs : Fields) (emb fwd : Bool)
    (ms : Methods) : attrs (.comp i kw n fs emb fwd ms) =
      { name := n, struct := !(kw == .union), union := kw == .union, implicit := i } := by
  cases kw <;> rfl

theorem CT.idx_inj {a b : CT} (h : a.idx = b.idx) : a = b := by
  cases a <;> cases b <;> first | rfl | (exact absurd h (by decide))

theorem Kw.idx_inj {a b : Kw} (h : a.idx = b.idx) : a = b := by
  cases a <;> cases b <;> first | rfl | (exact absurd h (by decide))

theorem Kw.firstChar_inj {a b : Kw} (h : a.firstChar = b.firstChar) : a = b := by
  cases a <;> cases b <;> first | rfl | (exact absurd h (by decide))

theorem Access.idx_inj {a b : Access} (h : a.idx = b.idx) : a = b := by
  cases a <;> cases b <;> first | rfl | (exact absurd h (by decide))

theorem map_inj {α β : Type} (f : α → β) (hf : ∀ a b, f a = f b → a = b) :
    ∀ xs ys : List α, xs.map f = ys.map f → xs = ys
  | [], [], _ => rfl
  | [], _ :: _, h => by simp at h
  | _ :: _, [], h => by simp at h
  | x :: xs, y :: ys, h => by
    simp at h
    rw [hf x y h.1, map_inj f hf xs ys (by simpa using h.2)]

theorem hashPair_inj (p q : Nat × String) (h : hashPair freeHasher p = hashPair freeHasher q) :
    p = q := by
  have := free_chain (xs := [_, _]) (ys := [_, _]) h
  simp at this
  have h1 : HTerm.nat p.1 = HTerm.nat q.1 := this.1
  have h2 : HTerm.str p.2 = HTerm.str q.2 := this.2
  injection h1 with h1; injection h2 with h2
  exact Prod.ext h1 h2

theorem str_inj (a b : String) (h : freeHasher.str a = freeHasher.str b) : a = b := by
  have : HTerm.str a = HTerm.str b := h
  injection this

theorem hashAttribute_inj (p q : String × List String)
    (h : hashAttribute freeHasher p = hashAttribute freeHasher q) : p = q := by
  have := free_chain (xs := [_, _]) (ys := [_, _]) h
  simp at this
  exact Prod.ext (str_inj _ _ this.1) (map_inj _ str_inj _ _ (free_chain this.2))

theorem hashDecl_inj {s s' : String} {x y : HTerm}
    (h : hashDecl freeHasher s x = hashDecl freeHasher s' y) : s = s' ∧ x = y := by
  have := free_chain (xs := [_, _]) (ys := [_, _]) h
  simp at this
  exact ⟨str_inj _ _ this.1, this.2⟩

theorem hashNamespace_inj {a b : List String}
    (h : hashNamespace freeHasher a = hashNamespace freeHasher b) : a = b := by
  have := map_inj _ str_inj _ _ (free_chain h)
  simpa using this

/-- What a function hash determines, given what the hashes of its types determine. -/
theorem fnParts_inj {info info' : FnInfo} {s s' : String} {r r' : Ty} {ps ps' : Params}
    (h : fnParts info s r ps = fnParts info' s' r' ps') :
    info = info' ∧ s = s' ∧ hash freeHasher r = hash freeHasher r' ∧
      hashParams freeHasher ps = hashParams freeHasher ps' := by
  simp [fnParts] at h
  obtain ⟨h1, h2, h3, h4, h5, h6, h7, h8, h9⟩ := h
  have h5' := hashDecl_inj h5
  have h6' := map_inj _ hashAttribute_inj _ _ (free_chain h6)
  have h8' := Access.idx_inj h8
  refine ⟨?_, h5'.1, h5'.2, free_chain h4⟩
  obtain ⟨a1, a2, a3, a4, a5, a6, a7⟩ := info
  obtain ⟨b1, b2, b3, b4, b5, b6, b7⟩ := info'
  simp_all

theorem hashFnDecl_inj {info info' : FnInfo} {s s' : String} {r r' : Ty} {ps ps' : Params}
    {body body' : Bool} {ns ns' : List String}
    (h : hashFnDecl freeHasher (hashFn freeHasher info (hashParams freeHasher ps)
        (hashDecl freeHasher s (hash freeHasher r))) body ns =
      hashFnDecl freeHasher (hashFn freeHasher info' (hashParams freeHasher ps')
        (hashDecl freeHasher s' (hash freeHasher r'))) body' ns') :
    info = info' ∧ s = s' ∧ hash freeHasher r = hash freeHasher r' ∧
      hashParams freeHasher ps = hashParams freeHasher ps' ∧ body = body' ∧ ns = ns' := by
  simp only [hashFnDecl, hashFn_free, chain_append] at h
  have := List.append_inj (free_chain h) (by simp [fnParts])
  obtain ⟨h1, h2⟩ := this
  have h3 := fnParts_inj h1
  simp at h2
  have hb : HTerm.bool body = HTerm.bool body' := h2.1
  injection hb with hb
  exact ⟨h3.1, h3.2.1, h3.2.2.1, h3.2.2.2, hb, hashNamespace_inj h2.2⟩

mutual
theorem free_hash_inj : ∀ a b, hash freeHasher a = hash freeHasher b → hashed a = hashed b
  | .ctype c n i, b, h => by
    cases b with
    | fn => exact (fn_ne_notFn (by trivial) _ _ _ _ _ h).elim
    | comp => have h := (notFn_inj (by trivial) (by trivial) h).1; simp [attrs_comp] at h; simp [attrs] at h
    | ptr | ref | const | tdef | enum | incomplete =>
      have h := (notFn_inj (by trivial) (by trivial) h).1; simp [attrs] at h
    | ctype c' n' i' =>
      have h := notFn_inj (by trivial) (by trivial) h
      simp [attrs, extraParts] at h
      simp [hashed, CT.idx_inj h.2.1, h.2.2, h.1.2]
  | .ptr i t, b, h => by
    cases b with
    | fn => exact (fn_ne_notFn (by trivial) _ _ _ _ _ h).elim
    | comp => have h := (notFn_inj (by trivial) (by trivial) h).1; simp [attrs_comp] at h; simp [attrs] at h
    | ctype | ref | const | tdef | enum | incomplete =>
      have h := (notFn_inj (by trivial) (by trivial) h).1; simp [attrs] at h
    | ptr i' u =>
      have h := notFn_inj (by trivial) (by trivial) h
      simp [attrs, extraParts] at h
      simp [hashed, h.1, free_hash_inj t u h.2]
  | .ref i t, b, h => by
    cases b with
    | fn => exact (fn_ne_notFn (by trivial) _ _ _ _ _ h).elim
    | comp => have h := (notFn_inj (by trivial) (by trivial) h).1; simp [attrs_comp] at h; simp [attrs] at h
    | ctype | ptr | const | tdef | enum | incomplete =>
      have h := (notFn_inj (by trivial) (by trivial) h).1; simp [attrs] at h
    | ref i' u =>
      have h := notFn_inj (by trivial) (by trivial) h
      simp [attrs, extraParts] at h
      simp [hashed, h.1, free_hash_inj t u h.2]
  | .const i t, b, h => by
    cases b with
    | fn => exact (fn_ne_notFn (by trivial) _ _ _ _ _ h).elim
    | comp => have h := (notFn_inj (by trivial) (by trivial) h).1; simp [attrs_comp] at h; simp [attrs] at h
    | ctype | ptr | ref | tdef | enum | incomplete =>
      have h := (notFn_inj (by trivial) (by trivial) h).1; simp [attrs] at h
    | const i' u =>
      have h := notFn_inj (by trivial) (by trivial) h
      simp [attrs, extraParts] at h
      simp [hashed, h.1, free_hash_inj t u h.2]
  | .tdef i n t, b, h => by
    cases b with
    | fn => exact (fn_ne_notFn (by trivial) _ _ _ _ _ h).elim
    | comp => have h := (notFn_inj (by trivial) (by trivial) h).1; simp [attrs_comp] at h; simp [attrs] at h
    | ctype | ptr | ref | const | enum | incomplete =>
      have h := (notFn_inj (by trivial) (by trivial) h).1; simp [attrs] at h
    | tdef i' n' u =>
      have h := notFn_inj (by trivial) (by trivial) h
      simp [attrs, extraParts] at h
      simp [hashed, h.1, free_hash_inj t u h.2]
  | .enum i n vs, b, h => by
    cases b with
    | fn => exact (fn_ne_notFn (by trivial) _ _ _ _ _ h).elim
    | comp => have h := (notFn_inj (by trivial) (by trivial) h).1; simp [attrs_comp] at h; simp [attrs] at h
    | ctype | ptr | ref | const | tdef | incomplete =>
      have h := (notFn_inj (by trivial) (by trivial) h).1; simp [attrs] at h
    | enum i' n' ws =>
      have h := notFn_inj (by trivial) (by trivial) h
      simp [attrs, extraParts] at h
      simp [hashed, h.1, map_inj _ hashPair_inj _ _ (free_chain h.2)]
  | .comp i kw n fs emb fwd ms, b, h => by
    cases b with
    | fn => exact (fn_ne_notFn (by trivial) _ _ _ _ _ h).elim
    | ctype | ptr | ref | const | tdef | enum | incomplete =>
      have h := (notFn_inj (by trivial) (by trivial) h).1; simp [attrs_comp] at h; simp [attrs] at h
    | comp i' kw' n' fs' emb' fwd' ms' =>
      have h := notFn_inj (by trivial) (by trivial) h
      simp [attrs_comp, extraParts] at h
      obtain ⟨⟨a1, a2, a3⟩, b1, b2, b3, b4, b5⟩ := h
      simp [hashed, a1, a3, Kw.firstChar_inj b1, b3, b4,
        free_hashFields_inj fs fs' (free_chain b2), free_hashMethods_inj ms ms' b5]
  | .incomplete f k n, b, h => by
    cases b with
    | fn => exact (fn_ne_notFn (by trivial) _ _ _ _ _ h).elim
    | comp => have h := (notFn_inj (by trivial) (by trivial) h).1; simp [attrs_comp] at h; simp [attrs] at h
    | ctype | ptr | ref | const | tdef | enum =>
      have h := (notFn_inj (by trivial) (by trivial) h).1; simp [attrs] at h
    | incomplete f' k' n' =>
      have h := notFn_inj (by trivial) (by trivial) h
      simp [attrs, extraParts] at h
      obtain ⟨fa, fb, fc, fd, fe, ff, fg⟩ := f
      obtain ⟨ga, gb, gc, gd, ge, gf, gg⟩ := f'
      have := Kw.idx_inj h.2
      simp_all [hashed]
  | .fn i info s r ps, b, h => by
    cases b with
    | ctype | ptr | ref | const | tdef | enum | incomplete | comp =>
      exact (fn_ne_notFn (by trivial) _ _ _ _ _ h.symm).elim
    | fn i' info' s' r' ps' =>
      rw [hash_free_fn, hash_free_fn] at h
      obtain ⟨h1, h2⟩ := List.append_inj (free_chain h) (by simp [fnParts])
      have h3 := fnParts_inj h1
      simp [hashAttrs_free] at h2
      have h4 := attrParts_inj (free_chain h2)
      simp [attrs] at h4
      simp [hashed, h4, h3.1, h3.2.1, free_hash_inj r r' h3.2.2.1,
        free_hashParams_inj ps ps' h3.2.2.2]
theorem free_hashFields_inj : ∀ a b, hashFields freeHasher a = hashFields freeHasher b →
    hashedFields a = hashedFields b
  | .nil, b, h => by cases b <;> simp [hashFields] at h; rfl
  | .field s t n k rest, b, h => by
    cases b with
    | nil => simp [hashFields] at h
    | bit s' t' n' k' rest' =>
      simp [hashFields] at h
      have h1 := free_chain (xs := [_, _]) (ys := [_, _]) h.1
      simp [freeHasher] at h1
    | field s' t' n' k' rest' =>
      simp [hashFields] at h
      have h1 := free_chain (xs := [_, _]) (ys := [_, _]) h.1
      simp [hashDecl, chain_append] at h1
      have h2 := free_chain (xs := [_, _, _, _]) (ys := [_, _, _, _]) h1
      simp at h2
      obtain ⟨e1, e2, e3, e4⟩ := h2
      have e4' : HTerm.int k = HTerm.int k' := e4
      injection e4' with e4'
      simp [hashedFields, str_inj _ _ e1, str_inj _ _ e3, e4', free_hash_inj t t' e2,
        free_hashFields_inj rest rest' h.2]
  | .bit s t n k rest, b, h => by
    cases b with
    | nil => simp [hashFields] at h
    | field s' t' n' k' rest' =>
      simp [hashFields] at h
      have h1 := free_chain (xs := [_, _]) (ys := [_, _]) h.1
      simp [freeHasher] at h1
    | bit s' t' n' k' rest' =>
      simp [hashFields] at h
      have h1 := free_chain (xs := [_, _]) (ys := [_, _]) h.1
      simp [hashDecl, chain_append] at h1
      have h2 := free_chain (xs := [_, _, _, _]) (ys := [_, _, _, _]) h1
      simp at h2
      obtain ⟨e1, e2, e3, e4⟩ := h2
      have e4' : HTerm.nat k = HTerm.nat k' := e4
      injection e4' with e4'
      simp [hashedFields, str_inj _ _ e1, str_inj _ _ e3, e4', free_hash_inj t t' e2,
        free_hashFields_inj rest rest' h.2]
theorem free_hashParams_inj : ∀ a b, hashParams freeHasher a = hashParams freeHasher b →
    hashedParams a = hashedParams b
  | .nil, b, h => by cases b <;> simp [hashParams] at h; rfl
  | .cons s t n rest, b, h => by
    cases b with
    | nil => simp [hashParams] at h
    | cons s' t' n' rest' =>
      simp [hashParams] at h
      have h1 := hashDecl_inj h.1
      simp [hashedParams, h1.1, free_hash_inj t t' h1.2, free_hashParams_inj rest rest' h.2]
theorem free_hashMethods_inj : ∀ a b, hashMethods freeHasher a = hashMethods freeHasher b →
    hashedMethods a = hashedMethods b
  | .nil, b, h => by cases b <;> simp [hashMethods] at h; rfl
  | .cons info s r ps p body ns rest, b, h => by
    cases b with
    | nil => simp [hashMethods] at h
    | cons info' s' r' ps' p' body' ns' rest' =>
      simp [hashMethods] at h
      obtain ⟨h1, h2, h3, h4, h5, h6⟩ := hashFnDecl_inj h.1
      simp [hashedMethods, h1, h2, h5, h6, free_hash_inj r r' h3, free_hashParams_inj ps ps' h4,
        free_hashMethods_inj rest rest' h.2]
end

/-! ## Every hash is the value of the free hash -/

theorem eval_chain {H : Type} (h : Hasher H) (seed : HTerm) (xs : List HTerm) :
    HTerm.eval h (chain freeHasher seed xs) =
      chain h (HTerm.eval h seed) (xs.map (HTerm.eval h)) := by
  induction xs generalizing seed with
  | nil => rfl
  | cons x xs ih => exact ih (freeHasher.mix seed x)

theorem eval_hashAttrs {H : Type} (h : Hasher H) (a : Attrs) :
    HTerm.eval h (hashAttrs freeHasher a) = hashAttrs h a := by
  rw [hashAttrs_free, eval_chain]; rfl

theorem eval_hashPair {H : Type} (h : Hasher H) (p : Nat × String) :
    HTerm.eval h (hashPair freeHasher p) = hashPair h p := by
  simp only [hashPair, eval_chain]; rfl

theorem eval_hashAttribute {H : Type} (h : Hasher H) (p : String × List String) :
    HTerm.eval h (hashAttribute freeHasher p) = hashAttribute h p := by
  simp only [hashAttribute, eval_chain, List.map_cons, List.map_nil, List.map_map]; rfl

theorem eval_hashDecl {H : Type} (h : Hasher H) (s : String) (t : HTerm) :
    HTerm.eval h (hashDecl freeHasher s t) = hashDecl h s (HTerm.eval h t) := by
  simp only [hashDecl, eval_chain]; rfl

theorem eval_hashFn {H : Type} (h : Hasher H) (info : FnInfo) (ps : List HTerm) (r : HTerm) :
    HTerm.eval h (hashFn freeHasher info ps r) =
      hashFn h info (ps.map (HTerm.eval h)) (HTerm.eval h r) := by
  simp only [hashFn, eval_chain, List.map_cons, List.map_nil, List.map_map]
  have : (HTerm.eval h ∘ hashAttribute freeHasher) = hashAttribute h := by
    funext p; exact eval_hashAttribute h p
  rw [this]; rfl

theorem eval_hashFnDecl {H : Type} (h : Hasher H) (f : HTerm) (body : Bool) (ns : List String) :
    HTerm.eval h (hashFnDecl freeHasher f body ns) =
      hashFnDecl h (HTerm.eval h f) body ns := by
  simp only [hashFnDecl, hashNamespace, eval_chain, List.map_cons, List.map_nil, List.map_map]
  rfl

mutual
theorem eval_hash {H : Type} (h : Hasher H) : ∀ t, HTerm.eval h (hash freeHasher t) = hash h t
  | .ctype c n i => by simp only [hash, eval_chain, eval_hashAttrs]; rfl
  | .ptr i t | .ref i t | .tdef i _ t => by
    simp only [hash, eval_chain, eval_hashAttrs, List.map_cons, List.map_nil, eval_hash h t]
  | .const i t => by
    simp only [hash, eval_chain, eval_hashAttrs, List.map_cons, List.map_nil, eval_hash h t]; rfl
  | .enum i n vs => by
    simp only [hash, eval_chain, eval_hashAttrs, List.map_cons, List.map_nil, List.map_map]
    have : (HTerm.eval h ∘ hashPair freeHasher) = hashPair h := by
      funext p; exact eval_hashPair h p
    rw [this]; rfl
  | .comp i kw n fs emb fwd ms => by
    simp only [hash, eval_chain, eval_hashAttrs, List.map_cons, List.map_nil, List.map_append,
      eval_hashFields h fs, eval_hashMethods h ms]; rfl
  | .incomplete f k n => by simp only [hash, eval_chain, eval_hashAttrs]; rfl
  | .fn i info s r ps => by
    simp only [hash, eval_chain, eval_hashAttrs, List.map_cons, List.map_nil, eval_hashFn,
      eval_hashDecl, eval_hash h r, eval_hashParams h ps]
theorem eval_hashFields {H : Type} (h : Hasher H) :
    ∀ fs, (hashFields freeHasher fs).map (HTerm.eval h) = hashFields h fs
  | .nil => by simp [hashFields]
  | .field s t n k rest => by
    simp only [hashFields, List.map_cons, eval_chain, eval_hashDecl, eval_hash h t,
      eval_hashFields h rest, List.map_nil]; rfl
  | .bit s t n k rest => by
    simp only [hashFields, List.map_cons, eval_chain, eval_hashDecl, eval_hash h t,
      eval_hashFields h rest, List.map_nil]; rfl
theorem eval_hashParams {H : Type} (h : Hasher H) :
    ∀ ps, (hashParams freeHasher ps).map (HTerm.eval h) = hashParams h ps
  | .nil => by simp [hashParams]
  | .cons s t n rest => by
    simp only [hashParams, List.map_cons, eval_hashDecl, eval_hash h t, eval_hashParams h rest]
theorem eval_hashMethods {H : Type} (h : Hasher H) :
    ∀ ms, (hashMethods freeHasher ms).map (HTerm.eval h) = hashMethods h ms
  | .nil => by simp [hashMethods]
  | .cons info s r ps p body ns rest => by
    simp only [hashMethods, List.map_cons, eval_hashFnDecl, eval_hashFn, eval_hashDecl,
      eval_hash h r, eval_hashParams h ps, eval_hashMethods h rest]
end

/-! ## Without methods the hashed data determines the type -/

mutual
theorem essence_of_hashed : ∀ a b, NoMethods a → NoMethods b → hashed a = hashed b →
    essence a = essence b
  | .ctype c n i, b, pa, pb, e => by
    cases b <;> simp [hashed] at e
    simp [essence, e]
  | .ptr i t, b, pa, pb, e => by
    cases b <;> simp [hashed] at e
    simp only [NoMethods] at pa pb
    simp [essence, e.1, essence_of_hashed t _ pa pb e.2]
  | .ref i t, b, pa, pb, e => by
    cases b <;> simp [hashed] at e
    simp only [NoMethods] at pa pb
    simp [essence, e.1, essence_of_hashed t _ pa pb e.2]
  | .const i t, b, pa, pb, e => by
    cases b <;> simp [hashed] at e
    simp only [NoMethods] at pa pb
    simp [essence, e.1, essence_of_hashed t _ pa pb e.2]
  | .tdef i n t, b, pa, pb, e => by
    cases b <;> simp [hashed] at e
    simp only [NoMethods] at pa pb
    simp [essence, e.1, e.2.1, essence_of_hashed t _ pa pb e.2.2]
  | .enum i n vs, b, pa, pb, e => by
    cases b <;> simp [hashed] at e
    simp [essence, e]
  | .comp i kw n fs emb fwd ms, b, pa, pb, e => by
    cases b <;> simp [hashed] at e
    simp only [NoMethods] at pa pb
    obtain ⟨e1, e2, e3, e4, e5, e6, e7⟩ := e
    simp [essence, e1, e2, e3, e5, e6, pa.2, pb.2, essenceFields_of_hashed fs _ pa.1 pb.1 e4]
  | .incomplete f k n, b, pa, pb, e => by
    cases b <;> simp [hashed] at e
    simp [essence, e]
  | .fn i info s r ps, b, pa, pb, e => by
    cases b <;> simp [hashed] at e
    simp only [NoMethods] at pa pb
    obtain ⟨e1, e2, e3, e4, e5⟩ := e
    simp [essence, e1, e2, e3, essence_of_hashed r _ pa.1 pb.1 e4,
      essenceParams_of_hashed ps _ pa.2 pb.2 e5]
theorem essenceFields_of_hashed : ∀ a b, NoMethodsFields a → NoMethodsFields b →
    hashedFields a = hashedFields b → essenceFields a = essenceFields b
  | .nil, b, _, _, e => by cases b <;> simp [hashedFields] at e; rfl
  | .field s t n k rest, b, pa, pb, e => by
    cases b <;> simp [hashedFields] at e
    simp only [NoMethodsFields] at pa pb
    obtain ⟨e1, e2, e3, e4, e5⟩ := e
    simp [essenceFields, e1, e3, e4, essence_of_hashed t _ pa.1 pb.1 e2,
      essenceFields_of_hashed rest _ pa.2 pb.2 e5]
  | .bit s t n k rest, b, pa, pb, e => by
    cases b <;> simp [hashedFields] at e
    simp only [NoMethodsFields] at pa pb
    obtain ⟨e1, e2, e3, e4, e5⟩ := e
    simp [essenceFields, e1, e3, e4, essence_of_hashed t _ pa.1 pb.1 e2,
      essenceFields_of_hashed rest _ pa.2 pb.2 e5]
theorem essenceParams_of_hashed : ∀ a b, NoMethodsParams a → NoMethodsParams b →
    hashedParams a = hashedParams b → essenceParams a = essenceParams b
  | .nil, b, _, _, e => by cases b <;> simp [hashedParams] at e; rfl
  | .cons s t n rest, b, pa, pb, e => by
    cases b <;> simp [hashedParams] at e
    simp only [NoMethodsParams] at pa pb
    obtain ⟨e1, e2, e3⟩ := e
    simp [essenceParams, e1, essence_of_hashed t _ pa.1 pb.1 e2,
      essenceParams_of_hashed rest _ pa.2 pb.2 e3]
end

end EasyMock.Types
