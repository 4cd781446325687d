import Verif.Emit.Spec

/-!
# No composite type is emitted twice

Auxiliary: what one call adds to `m_generateTypes` and to the sections of composite types.
-/

namespace EasyMock.Emit

open EasyMock.Types

section
variable {H : Type} [DecidableEq H] (e : Env H)

omit [DecidableEq H] in
theorem nameless_eq : ∀ t : Ty, (if isAnonymous (rawType t) && !containsTypeDef t then some (rawType t) else none) = nameless t
  | .ptr _ t => nameless_eq t
  | .ref _ t => nameless_eq t
  | .const _ t => nameless_eq t
  | .tdef _ n t => by simp [containsTypeDef, nameless]
  | .ctype c k i => by simp [rawType, isAnonymous, isComposable, isEnum, attrs, nameless]
  | .enum i n vs => by
    by_cases h : n = "" <;> simp [rawType, isAnonymous, isComposable, isEnum, attrs, nameless, containsTypeDef, h]
  | .comp i kw n fs emb fwd ms => by
    cases kw <;> by_cases h : n = "" <;>
      simp [rawType, isAnonymous, isComposable, isEnum, attrs, nameless, containsTypeDef, h]
  | .incomplete f k n => by simp [rawType, isAnonymous, isComposable, isEnum, attrs, nameless]
  | .fn .. => by simp [rawType, isAnonymous, isComposable, isEnum, attrs, nameless]

omit [DecidableEq H] in
theorem declarator_written (s : String) (t : Ty) : declarator e s t = written e s t := by
  unfold declarator written declareString
  rw [← nameless_eq]
  have h : s.isEmpty = decide (s = "") := by
    by_cases h : s = ""
    · subst h; rfl
    · rw [decide_eq_false h]; simpa using h
  rw [h]
  by_cases h2 : (isAnonymous (rawType t) && !containsTypeDef t) = true
  · rw [if_pos h2, if_pos h2]; simp only [decide_eq_true_eq]
  · rw [if_neg h2, if_neg h2]; simp only [decide_eq_true_eq]

mutual
theorem mirror_members : ∀ (fs : Fields) (s : St H), Mirror e fs (members e fs s).1
  | .nil, s => by unfold members; exact trivial
  | .field _ (.comp i kw m fs emb fwd ms) n a rest, s => by
    unfold members
    dsimp only
    refine ⟨?_, ?_, mirror_members rest _⟩
    · exact mirror_sub i kw m fs emb fwd ms s
    · by_cases h : n = ""
      · subst h; rfl
      · rw [if_neg h, if_neg (by simpa using h)]; rfl
  | .field _ (.ctype c k i) n a rest, s => by
    unfold members; exact ⟨rfl, declarator_written e _ _, rfl, rfl, mirror_members rest _⟩
  | .field _ (.ptr i t) n a rest, s => by
    unfold members; exact ⟨rfl, declarator_written e _ _, rfl, rfl, mirror_members rest _⟩
  | .field _ (.ref i t) n a rest, s => by
    unfold members; exact ⟨rfl, declarator_written e _ _, rfl, rfl, mirror_members rest _⟩
  | .field _ (.const i t) n a rest, s => by
    unfold members; exact ⟨rfl, declarator_written e _ _, rfl, rfl, mirror_members rest _⟩
  | .field _ (.tdef i m t) n a rest, s => by
    unfold members; exact ⟨rfl, declarator_written e _ _, rfl, rfl, mirror_members rest _⟩
  | .field _ (.enum i m vs) n a rest, s => by
    unfold members; exact ⟨rfl, declarator_written e _ _, rfl, rfl, mirror_members rest _⟩
  | .field _ (.incomplete f k m) n a rest, s => by
    unfold members; exact ⟨rfl, declarator_written e _ _, rfl, rfl, mirror_members rest _⟩
  | .field _ (.fn i inf rs r ps) n a rest, s => by
    unfold members; exact ⟨rfl, declarator_written e _ _, rfl, rfl, mirror_members rest _⟩
  | .bit _ (.comp i kw m fs emb fwd ms) n k rest, s => by
    unfold members
    dsimp only
    exact ⟨mirror_sub i kw m fs emb fwd ms s, rfl, mirror_members rest _⟩
  | .bit _ (.ctype c k i) n a rest, s => by
    unfold members; exact ⟨rfl, declarator_written e _ _, rfl, rfl, mirror_members rest _⟩
  | .bit _ (.ptr i t) n a rest, s => by
    unfold members; exact ⟨rfl, declarator_written e _ _, rfl, rfl, mirror_members rest _⟩
  | .bit _ (.ref i t) n a rest, s => by
    unfold members; exact ⟨rfl, declarator_written e _ _, rfl, rfl, mirror_members rest _⟩
  | .bit _ (.const i t) n a rest, s => by
    unfold members; exact ⟨rfl, declarator_written e _ _, rfl, rfl, mirror_members rest _⟩
  | .bit _ (.tdef i m t) n a rest, s => by
    unfold members; exact ⟨rfl, declarator_written e _ _, rfl, rfl, mirror_members rest _⟩
  | .bit _ (.enum i m vs) n a rest, s => by
    unfold members; exact ⟨rfl, declarator_written e _ _, rfl, rfl, mirror_members rest _⟩
  | .bit _ (.incomplete f k m) n a rest, s => by
    unfold members; exact ⟨rfl, declarator_written e _ _, rfl, rfl, mirror_members rest _⟩
  | .bit _ (.fn i inf rs r ps) n a rest, s => by
    unfold members; exact ⟨rfl, declarator_written e _ _, rfl, rfl, mirror_members rest _⟩

theorem mirror_sub : ∀ (i : Bool) (kw : Kw) (m : String) (fs : Fields) (emb fwd : Bool) (ms : Methods) (s : St H),
    MirrorDecl e (.comp i kw m fs emb fwd ms) (subDecl e kw (.comp i kw m fs emb fwd ms)
      (if !m.isEmpty && s.gen.contains (e.hash (.comp i kw m fs emb fwd ms)) then (.nil, s) else members e fs s).1 s)
  | i, kw, m, fs, emb, fwd, ms, s => by
    have hm := mirror_members fs s
    have hn : (attrs (.comp i kw m fs emb fwd ms)).name = m := by cases kw <;> rfl
    unfold subDecl
    rw [hn]
    by_cases h : m = ""
    · subst h
      exact ⟨rfl, rfl, fun _ => rfl, fun _ => hm⟩
    · have h' : m.isEmpty = false := by simpa using h
      simp only [h', Bool.false_eq_true, if_false, Bool.not_false, Bool.true_and]
      by_cases hc : s.gen.contains (e.hash (.comp i kw m fs emb fwd ms)) = true
      · rw [if_pos hc]
        exact ⟨rfl, rfl, fun hh => absurd hh h, fun hh => by cases hh⟩
      · rw [if_neg hc, if_neg hc]
        exact ⟨rfl, rfl, fun hh => absurd hh h, fun _ => hm⟩
end

/-- The composite types which a call has added have different hashes, which were not generated before and are
    generated afterwards. -/
def Grow (s s' : St H) : Prop :=
  (∀ h, h ∈ s.gen → h ∈ s'.gen) ∧
  ∃ l : List Comp, s'.comps = s.comps ++ l ∧ (l.map (fun c => e.hash c.ty)).Nodup ∧
    ∀ c ∈ l, e.hash c.ty ∉ s.gen ∧ e.hash c.ty ∈ s'.gen ∧ Faithful e c

omit [DecidableEq H] in
theorem Grow.of_eq {s s' : St H} (hg : s'.gen = s.gen) (hc : s'.comps = s.comps) : Grow e s s' :=
  ⟨fun h hh => hg ▸ hh, [], by simp [hc], by simp, by simp⟩

omit [DecidableEq H] in
theorem Grow.refl (s : St H) : Grow e s s := .of_eq e rfl rfl

omit [DecidableEq H] in
theorem Grow.of_insert {s s' : St H} (h : H) (hg : s'.gen = h :: s.gen) (hc : s'.comps = s.comps) : Grow e s s' :=
  ⟨fun x hx => by rw [hg]; exact List.mem_cons_of_mem _ hx, [], by simp [hc], by simp, by simp⟩

omit [DecidableEq H] in
theorem Grow.trans {s t u : St H} (a : Grow e s t) (b : Grow e t u) : Grow e s u := by
  obtain ⟨ha, l, hl, nl, ml⟩ := a
  obtain ⟨hb, m, hm, nm, mm⟩ := b
  refine ⟨fun h hh => hb h (ha h hh), l ++ m, by rw [hm, hl, List.append_assoc], ?_, ?_⟩
  · rw [List.map_append, List.nodup_append]
    refine ⟨nl, nm, ?_⟩
    intro x hx y hy hxy
    obtain ⟨c, hc, rfl⟩ := List.mem_map.1 hx
    obtain ⟨d, hd, rfl⟩ := List.mem_map.1 hy
    exact (mm d hd).1 (hxy ▸ (ml c hc).2.1)
  · intro c hc
    rcases List.mem_append.1 hc with h | h
    · exact ⟨(ml c h).1, hb _ (ml c h).2.1, (ml c h).2.2⟩
    · exact ⟨fun hh => (mm c h).1 (ha _ hh), (mm c h).2⟩

theorem register_gen (n : String) (t : Ty) (s : St H) :
    (register e n t s).gen = s.gen ∧ (register e n t s).comps = s.comps := by
  unfold register; split <;> exact ⟨rfl, rfl⟩

theorem grow_register (n : String) (t : Ty) (s : St H) : Grow e s (register e n t s) :=
  .of_eq e (register_gen e n t s).1 (register_gen e n t s).2

theorem grow_registerRaw : ∀ (t : Ty) (s : St H), Grow e s (registerRaw e t s)
  | .ptr _ t, s => grow_registerRaw t s
  | .ref _ t, s => grow_registerRaw t s
  | .const _ t, s => grow_registerRaw t s
  | .tdef _ n t, s => (grow_register e n t s).trans e (grow_registerRaw t _)
  | .ctype .., s => .refl e s
  | .enum .., s => .refl e s
  | .comp .., s => .refl e s
  | .incomplete .., s => .refl e s
  | .fn .., s => .refl e s

theorem forward_gen (t : Ty) (s : St H) :
    (forward e t s).gen = s.gen ∧ (forward e t s).comps = s.comps := by
  unfold forward
  split
  · exact ⟨rfl, rfl⟩
  · split
    · exact ⟨rfl, rfl⟩
    · split <;> exact ⟨rfl, rfl⟩

theorem enumOut_gen (t : Ty) (s : St H) : (enumOut e t s).gen = s.gen ∧ (enumOut e t s).comps = s.comps := by
  unfold enumOut
  split
  · dsimp only
    split <;> (split <;> exact ⟨rfl, rfl⟩)
  · exact ⟨rfl, rfl⟩

theorem grow_enumOut (t : Ty) (s : St H) : Grow e s (enumOut e t s) :=
  .of_eq e (enumOut_gen e t s).1 (enumOut_gen e t s).2

theorem grow_addTypedef (i : Bool) (n : String) (t : Ty) (s : St H) : Grow e s (addTypedef e i n t s) :=
  Grow.trans e
    (Grow.of_eq e (s' := { s with tdSet := e.hash (.tdef i n t) :: s.tdSet, tds := s.tds ++ [(n, t)] }) rfl rfl)
    (grow_registerRaw e t _)

omit [DecidableEq H] in
/-- The section of a composite type: its fields add, then the type itself, then its body. -/
theorem grow_comp {s s1 s2 s3 : St H} (c : Comp) (h1 : s1.gen = e.hash c.ty :: s.gen) (h2 : s1.comps = s.comps)
    (hn : e.hash c.ty ∉ s.gen) (hf : Faithful e c) (a : Grow e s1 s2) (b : Grow e s2 s3) :
    Grow e s { s3 with comps := s2.comps ++ [c] ++ s3.comps.drop s2.comps.length } := by
  obtain ⟨ha, l, hl, nl, ml⟩ := a
  obtain ⟨hb, m, hm, nm, mm⟩ := b
  have hdrop : s3.comps.drop s2.comps.length = m := by rw [hm]; simp
  have hc1 : e.hash c.ty ∈ s1.gen := by rw [h1]; exact List.mem_cons_self
  have hsub : ∀ h, h ∈ s.gen → h ∈ s1.gen := fun h hh => by rw [h1]; exact List.mem_cons_of_mem _ hh
  refine ⟨fun h hh => hb h (ha h (hsub h hh)), l ++ [c] ++ m, ?_, ?_, ?_⟩
  · rw [hdrop, hl, h2]; simp
  · simp only [List.map_append, List.nodup_append, List.map_cons, List.map_nil]
    refine ⟨⟨nl, by simp, ?_⟩, nm, ?_⟩
    · intro x hx y hy hxy
      obtain ⟨d, hd, rfl⟩ := List.mem_map.1 hx
      rw [List.mem_singleton.1 hy] at hxy
      exact (ml d hd).1 (hxy ▸ hc1)
    · intro x hx y hy hxy
      obtain ⟨d, hd, rfl⟩ := List.mem_map.1 hy
      rcases List.mem_append.1 hx with h | h
      · obtain ⟨d', hd', rfl⟩ := List.mem_map.1 h
        exact (mm d hd).1 (hxy ▸ (ml d' hd').2.1)
      · rw [List.mem_singleton.1 h] at hxy
        exact (mm d hd).1 (hxy ▸ ha _ hc1)
  · intro d hd
    rcases List.mem_append.1 hd with h | h
    · rcases List.mem_append.1 h with h | h
      · exact ⟨fun hh => (ml d h).1 (hsub _ hh), hb _ (ml d h).2.1, (ml d h).2.2⟩
      · rw [List.mem_singleton.1 h]
        exact ⟨hn, hb _ (ha _ hc1), hf⟩
    · exact ⟨fun hh => (mm d h).1 (ha _ (hsub _ hh)), (mm d h).2⟩

mutual
theorem grow_used : ∀ (inc : Bool) (t : Ty) (s : St H), Grow e s (used e inc t s)
  | _, .incomplete f k n, s => by
    unfold used
    exact .of_eq e (forward_gen e _ s).1 (forward_gen e _ s).2
  | inc, .comp i kw n fs emb fwd ms, s => by
    unfold used
    dsimp only
    split
    · exact .refl e s
    · rename_i hn
      have hf : ∀ s : St H, (forward e (.comp i kw n fs emb fwd ms)
          { s with gen := e.hash (.comp i kw n fs emb fwd ms) :: s.gen }).gen =
            e.hash (.comp i kw n fs emb fwd ms) :: s.gen ∧ (forward e (.comp i kw n fs emb fwd ms)
          { s with gen := e.hash (.comp i kw n fs emb fwd ms) :: s.gen }).comps = s.comps :=
        fun s => forward_gen e _ _
      have hn' : e.hash (.comp i kw n fs emb fwd ms) ∉ s.gen := by simpa using hn
      split
      · split
        · exact .of_insert e _ (hf s).1 (hf s).2
        · rename_i hfwd
          refine grow_comp e _ (hf s).1 (hf s).2 hn' ⟨by simpa using hfwd, rfl, rfl, rfl, mirror_members e fs _⟩ (grow_usedFields fs _) (grow_members fs _)
      · exact .of_eq e rfl rfl
  | _, .tdef i n t, s => by
    unfold used
    dsimp only
    split
    · exact .refl e s
    · refine Grow.trans e ?_ (grow_used false t _)
      split
      · exact .of_insert e _ rfl rfl
      · refine Grow.trans e ?_ (grow_rawFn t _)
        refine Grow.trans e ?_ (grow_addTypedef e i n t _)
        exact .of_insert e _ rfl rfl
  | _, .enum i n vs, s => by
    unfold used
    split
    · exact .refl e s
    · refine Grow.trans e ?_ (grow_enumOut e _ _)
      exact .of_insert e _ rfl rfl
  | _, .const _ t, s => by unfold used; exact grow_used false t s
  | _, .ptr _ t, s => by unfold used; exact grow_used false t s
  | _, .fn _ _ _ r ps, s => by
    unfold used
    exact (grow_used false r s).trans e (grow_usedParams ps _)
  | _, .ref i t, s => by
    unfold used
    split
    · exact .refl e s
    · exact .of_insert e _ rfl rfl
  | _, .ctype c k i, s => by
    unfold used
    split
    · exact .refl e s
    · exact .of_insert e _ rfl rfl

theorem grow_usedFields : ∀ (fs : Fields) (s : St H), Grow e s (usedFields e fs s)
  | .nil, s => by unfold usedFields; exact .refl e s
  | .field _ t _ _ rest, s => by
    unfold usedFields; exact (grow_used false t s).trans e (grow_usedFields rest _)
  | .bit _ _ _ _ rest, s => by unfold usedFields; exact grow_usedFields rest s

theorem grow_usedParams : ∀ (ps : Params) (s : St H), Grow e s (usedParams e ps s)
  | .nil, s => by unfold usedParams; exact .refl e s
  | .cons _ t _ rest, s => by
    unfold usedParams; exact (grow_used false t s).trans e (grow_usedParams rest _)

theorem grow_members : ∀ (fs : Fields) (s : St H), Grow e s (members e fs s).2
  | .nil, s => by unfold members; exact .refl e s
  | .field _ (.comp i kw m fs emb fwd ms) n a rest, s => by
    unfold members
    dsimp only
    refine Grow.trans e ?_ (grow_members rest _)
    split
    · exact .refl e s
    · exact grow_members fs s
  | .field _ (.ctype c k i) n a rest, s => by
    unfold members
    exact ((((grow_registerRaw e _ s).trans e (grow_tdPtr _ _)).trans e (grow_fieldFn true false _ _)).trans e
      (grow_enumOut e _ _)).trans e (grow_members rest _)
  | .field _ (.ptr i t) n a rest, s => by
    unfold members
    exact ((((grow_registerRaw e _ s).trans e (grow_tdPtr _ _)).trans e (grow_fieldFn true false _ _)).trans e
      (grow_enumOut e _ _)).trans e (grow_members rest _)
  | .field _ (.ref i t) n a rest, s => by
    unfold members
    exact ((((grow_registerRaw e _ s).trans e (grow_tdPtr _ _)).trans e (grow_fieldFn true false _ _)).trans e
      (grow_enumOut e _ _)).trans e (grow_members rest _)
  | .field _ (.const i t) n a rest, s => by
    unfold members
    exact ((((grow_registerRaw e _ s).trans e (grow_tdPtr _ _)).trans e (grow_fieldFn true false _ _)).trans e
      (grow_enumOut e _ _)).trans e (grow_members rest _)
  | .field _ (.tdef i m t) n a rest, s => by
    unfold members
    exact ((((grow_registerRaw e _ s).trans e (grow_tdPtr _ _)).trans e (grow_fieldFn true false _ _)).trans e
      (grow_enumOut e _ _)).trans e (grow_members rest _)
  | .field _ (.enum i m vs) n a rest, s => by
    unfold members
    exact ((((grow_registerRaw e _ s).trans e (grow_tdPtr _ _)).trans e (grow_fieldFn true false _ _)).trans e
      (grow_enumOut e _ _)).trans e (grow_members rest _)
  | .field _ (.incomplete f k m) n a rest, s => by
    unfold members
    exact ((((grow_registerRaw e _ s).trans e (grow_tdPtr _ _)).trans e (grow_fieldFn true false _ _)).trans e
      (grow_enumOut e _ _)).trans e (grow_members rest _)
  | .field _ (.fn i inf rs r ps) n a rest, s => by
    unfold members
    exact ((((grow_registerRaw e _ s).trans e (grow_tdPtr _ _)).trans e (grow_fieldFn true false _ _)).trans e
      (grow_enumOut e _ _)).trans e (grow_members rest _)
  | .bit _ (.comp i kw m fs emb fwd ms) n k rest, s => by
    unfold members
    dsimp only
    refine Grow.trans e ?_ (grow_members rest _)
    split
    · exact .refl e s
    · exact grow_members fs s
  | .bit _ (.ctype c k i) n a rest, s => by
    unfold members
    exact ((((grow_registerRaw e _ s).trans e (grow_tdPtr _ _)).trans e (grow_fieldFn true false _ _)).trans e
      (grow_enumOut e _ _)).trans e (grow_members rest _)
  | .bit _ (.ptr i t) n a rest, s => by
    unfold members
    exact ((((grow_registerRaw e _ s).trans e (grow_tdPtr _ _)).trans e (grow_fieldFn true false _ _)).trans e
      (grow_enumOut e _ _)).trans e (grow_members rest _)
  | .bit _ (.ref i t) n a rest, s => by
    unfold members
    exact ((((grow_registerRaw e _ s).trans e (grow_tdPtr _ _)).trans e (grow_fieldFn true false _ _)).trans e
      (grow_enumOut e _ _)).trans e (grow_members rest _)
  | .bit _ (.const i t) n a rest, s => by
    unfold members
    exact ((((grow_registerRaw e _ s).trans e (grow_tdPtr _ _)).trans e (grow_fieldFn true false _ _)).trans e
      (grow_enumOut e _ _)).trans e (grow_members rest _)
  | .bit _ (.tdef i m t) n a rest, s => by
    unfold members
    exact ((((grow_registerRaw e _ s).trans e (grow_tdPtr _ _)).trans e (grow_fieldFn true false _ _)).trans e
      (grow_enumOut e _ _)).trans e (grow_members rest _)
  | .bit _ (.enum i m vs) n a rest, s => by
    unfold members
    exact ((((grow_registerRaw e _ s).trans e (grow_tdPtr _ _)).trans e (grow_fieldFn true false _ _)).trans e
      (grow_enumOut e _ _)).trans e (grow_members rest _)
  | .bit _ (.incomplete f k m) n a rest, s => by
    unfold members
    exact ((((grow_registerRaw e _ s).trans e (grow_tdPtr _ _)).trans e (grow_fieldFn true false _ _)).trans e
      (grow_enumOut e _ _)).trans e (grow_members rest _)
  | .bit _ (.fn i inf rs r ps) n a rest, s => by
    unfold members
    exact ((((grow_registerRaw e _ s).trans e (grow_tdPtr _ _)).trans e (grow_fieldFn true false _ _)).trans e
      (grow_enumOut e _ _)).trans e (grow_members rest _)

theorem grow_tdPtr : ∀ (t : Ty) (s : St H), Grow e s (tdPtr e t s)
  | .ptr _ t, s => by unfold tdPtr; exact grow_tdPtr t s
  | .tdef i n t, s => by
    unfold tdPtr
    split
    · exact .refl e s
    · exact (grow_addTypedef e i n t s).trans e (grow_rawFn t _)
  | .ctype .., s => by unfold tdPtr; exact .refl e s
  | .ref .., s => by unfold tdPtr; exact .refl e s
  | .const .., s => by unfold tdPtr; exact .refl e s
  | .enum .., s => by unfold tdPtr; exact .refl e s
  | .comp .., s => by unfold tdPtr; exact .refl e s
  | .incomplete .., s => by unfold tdPtr; exact .refl e s
  | .fn .., s => by unfold tdPtr; exact .refl e s

theorem grow_rawFn : ∀ (t : Ty) (s : St H), Grow e s (rawFn e t s)
  | .ptr _ t, s => by unfold rawFn; exact grow_rawFn t s
  | .ref _ t, s => by unfold rawFn; exact grow_rawFn t s
  | .const _ t, s => by unfold rawFn; exact grow_rawFn t s
  | .tdef _ _ t, s => by unfold rawFn; exact grow_rawFn t s
  | .fn _ _ _ r ps, s => by
    unfold rawFn
    exact (grow_used false r s).trans e (grow_usedParams ps _)
  | .ctype .., s => by unfold rawFn; exact .refl e s
  | .enum .., s => by unfold rawFn; exact .refl e s
  | .comp .., s => by unfold rawFn; exact .refl e s
  | .incomplete .., s => by unfold rawFn; exact .refl e s

theorem grow_fieldFn : ∀ (pre below : Bool) (t : Ty) (s : St H), Grow e s (fieldFn e pre below t s)
  | pre, _, .ptr _ t, s => by unfold fieldFn; exact grow_fieldFn pre true t s
  | pre, below, .const _ t, s => by unfold fieldFn; exact grow_fieldFn pre below t s
  | pre, true, .ref _ t, s => by unfold fieldFn; exact grow_fieldFn pre true t s
  | _, false, .ref _ t, s => by unfold fieldFn; exact .refl e s
  | pre, true, .tdef _ n t, s => by
    unfold fieldFn; exact (grow_register e n t s).trans e (grow_fieldFn pre true t _)
  | _, false, .tdef _ n t, s => by unfold fieldFn; exact .refl e s
  | pre, true, .fn _ _ _ r ps, s => by
    unfold fieldFn
    dsimp only
    refine Grow.trans e ?_ (grow_fieldFn false false r _)
    refine Grow.trans e ?_ (grow_extraParams ps _)
    refine Grow.trans e ?_ (grow_usedParams ps _)
    refine Grow.trans e ?_ (grow_used false r _)
    split
    · exact (grow_used false r s).trans e (grow_usedParams ps _)
    · exact .refl e s
  | _, false, .fn .., s => by unfold fieldFn; exact .refl e s
  | _, _, .ctype .., s => by unfold fieldFn; exact .refl e s
  | _, _, .enum .., s => by unfold fieldFn; exact .refl e s
  | _, _, .comp .., s => by unfold fieldFn; exact .refl e s
  | _, _, .incomplete .., s => by unfold fieldFn; exact .refl e s

theorem grow_extraParams : ∀ (ps : Params) (s : St H), Grow e s (extraParams e ps s)
  | .nil, s => by unfold extraParams; exact .refl e s
  | .cons _ t _ rest, s => by
    unfold extraParams
    exact (((grow_used false t s).trans e (grow_registerRaw e t _)).trans e (grow_fieldFn true false t _)).trans e
      (grow_extraParams rest _)
end

theorem grow_usedFun (f : FunDecl) (s : St H) : Grow e s (usedFun e f s) :=
  ((((grow_registerRaw e f.ret s).trans e (grow_used e false f.ret _)).trans e (grow_fieldFn e true false f.ret _)).trans
    e (grow_fieldFn e true false f.ret _)).trans e (grow_extraParams e f.params _)

theorem grow_lateLoop : ∀ (l : List Ty) (s : St H), Grow e s (lateLoop e l s)
  | [], s => .refl e s
  | t :: ts, s => by
    unfold lateLoop
    dsimp only
    refine Grow.trans e ?_ (grow_lateLoop ts _)
    exact (grow_used e true t s).trans e (.of_eq e rfl rfl)

theorem grow_foldl : ∀ (fs : List FunDecl) (s : St H), Grow e s (fs.foldl (fun s f => usedFun e f s) s)
  | [], s => .refl e s
  | f :: fs, s => (grow_usedFun e f s).trans e (grow_foldl fs _)

theorem grow_emit (fs : List FunDecl) : Grow e {} (emit e fs) :=
  (grow_foldl e fs {}).trans e (grow_lateLoop e _ _)

end

end EasyMock.Emit
