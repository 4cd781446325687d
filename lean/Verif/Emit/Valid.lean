import Verif.Emit.Inv

/-!
# The invariant is preserved

Auxiliary lemmas for `Verif.Props.Emit`.
-/

namespace EasyMock.Emit

open EasyMock.Types

set_option linter.unusedSectionVars false

/-- A set of types which is closed under components, except those of a type which is declared late. -/
structure Closed (Q R : Ty → Prop) : Prop where
  sub : ∀ t, R t → Q t
  child : ∀ t, R t → isLate t = false → ∀ u ∈ children t, R u
  fine : ∀ t, R t → fine t
  typee : ∀ i n t, Q (.tdef i n t) → Q t

section
variable {H : Type} [DecidableEq H] (e : Env H)

/-! ## Registration of typedefs -/

theorem register_quiet {R : Ty → Prop} {i : Bool} {n : String} {t : Ty} (h : R (.tdef i n t)) (s : St H) :
    Quiet e R s (register e n t s) := by
  unfold register
  split
  · exact .refl e R s
  · refine ⟨rfl, rfl, rfl, rfl, rfl, rfl, rfl, rfl, ⟨[], by simp, by simp⟩, ?_, rfl, rfl⟩
    intro x hx
    rcases List.mem_append.1 hx with hx | hx
    · exact Or.inl hx
    · rw [List.mem_singleton.1 hx]
      exact Or.inr ⟨i, t, h, rfl⟩

theorem registerRaw_quiet {Q R : Ty → Prop} (hc : Closed Q R) : ∀ (t : Ty) (_ : R t) (s : St H),
    Quiet e R s (registerRaw e t s)
  | .ptr i t, h, s => registerRaw_quiet hc t (hc.child _ h rfl t (by simp [children])) s
  | .ref i t, h, s => registerRaw_quiet hc t (hc.child _ h rfl t (by simp [children])) s
  | .const i t, h, s => registerRaw_quiet hc t (hc.child _ h rfl t (by simp [children])) s
  | .tdef i n t, h, s =>
    (register_quiet e h s).trans e (registerRaw_quiet hc t (hc.child _ h rfl t (by simp [children])) _)
  | .ctype .., _, s => .refl e R s
  | .enum .., _, s => .refl e R s
  | .comp .., _, s => .refl e R s
  | .incomplete .., _, s => .refl e R s
  | .fn .., _, s => .refl e R s

/-! ## Types which have been handled -/

mutual
theorem used_quiet {Q R : Ty → Prop} (hc : Closed Q R) : ∀ (t : Ty) (_ : R t) (s : St H), Known e s t →
    Quiet e R s (used e false t s)
  | .ctype c k i, _, s, h => by
    unfold Known at h; unfold used
    rw [if_pos (by simpa using h)]; exact .refl e R s
  | .ref i t, _, s, h => by
    unfold Known at h; unfold used
    rw [if_pos (by simpa using h)]; exact .refl e R s
  | .tdef i n t, _, s, h => by
    unfold Known at h; unfold used
    rw [if_pos (by simpa using h)]; exact .refl e R s
  | .enum i n vs, _, s, h => by
    unfold Known at h; unfold used
    rw [if_pos (by simpa using h)]; exact .refl e R s
  | .ptr i t, hr, s, h => by
    unfold Known at h; unfold used
    exact used_quiet hc t (hc.child _ hr rfl t (by simp [children])) s h
  | .const i t, hr, s, h => by
    unfold Known at h; unfold used
    exact used_quiet hc t (hc.child _ hr rfl t (by simp [children])) s h
  | .incomplete f k n, _, s, h => by
    unfold Known at h; unfold used forward
    split
    · exact .refl e R s
    · rw [if_pos (by simpa using h)]; exact .refl e R s
  | .comp i kw n fs emb fwd ms, hr, s, h => by
    unfold Known at h; unfold used
    dsimp only; rw [isComplete_eq]
    split
    · exact .refl e R s
    · rename_i hn
      rcases h with h | h
      · exact absurd h (by simpa using hn)
      · rw [h.1]
        simp only [Bool.false_or, Bool.false_eq_true, if_false]
        exact ⟨rfl, rfl, rfl, rfl, rfl, rfl, rfl, rfl, ⟨_, rfl, by simp [hr, isLate, h.1]⟩, fun _ h => Or.inl h, rfl,
          rfl⟩
  | .fn i inf rs r ps, hr, s, h => by
    unfold Known at h; unfold used
    have q := used_quiet hc r (hc.child _ hr rfl r (by simp [children])) s h.1
    exact q.trans e (usedParams_quiet hc ps (fun u hu => hc.child _ hr rfl u (by simp [children, hu])) _
      (KnownParams.mono e (q.le e) ps h.2))

theorem usedParams_quiet {Q R : Ty → Prop} (hc : Closed Q R) : ∀ (ps : Params) (_ : ∀ u ∈ paramTypes ps, R u)
    (s : St H), KnownParams e s ps → Quiet e R s (usedParams e ps s)
  | .nil, _, s, _ => by unfold usedParams; exact .refl e R s
  | .cons d t n rest, hr, s, h => by
    unfold KnownParams at h; unfold usedParams
    have q := used_quiet hc t (hr t (by simp [paramTypes])) s h.1
    exact q.trans e (usedParams_quiet hc rest (fun u hu => hr u (by simp [paramTypes, hu])) _
      (KnownParams.mono e (q.le e) rest h.2))
end

/-- The typee of a typedef which has been handled and is not being handled. -/
theorem Inv.typee {Q : Ty → Prop} {A : List Ty} {s : St H} (hi : Inv e Q A s) {i : Bool} {n : String} {t : Ty}
    (hq : Q (.tdef i n t)) (hk : Known e s (.tdef i n t))
    (hA : ∀ a ∈ A, sizeOf (Ty.tdef i n t) < sizeOf a) : Known e s t := by
  unfold Known at hk
  have h := hi.gen _ hq hk
  unfold GenOk at h
  rcases h.2.2 with h | h
  · exact absurd (hA _ h) (Nat.lt_irrefl _)
  · exact h

mutual
theorem fieldFn_quiet {Q R : Ty → Prop} (hc : Closed Q R) {A : List Ty} : ∀ (pre below : Bool) (t : Ty) (_ : R t)
    (_ : ∀ a ∈ A, sizeOf t < sizeOf a) (s : St H), Inv e Q A s → Known e s t →
    Quiet e R s (fieldFn e pre below t s)
  | pre, below, .ptr i t, hr, hA, s, hi, h => by
    unfold Known at h; unfold fieldFn
    exact fieldFn_quiet hc pre true t (hc.child _ hr rfl t (by simp [children]))
      (fun a ha => by have := hA a ha; simp at this; omega) s hi h
  | pre, below, .const i t, hr, hA, s, hi, h => by
    unfold Known at h; unfold fieldFn
    exact fieldFn_quiet hc pre below t (hc.child _ hr rfl t (by simp [children]))
      (fun a ha => by have := hA a ha; simp at this; omega) s hi h
  | _, _, .ref i t, hr, _, _, _, _ => (hc.fine _ hr).elim
  | pre, true, .tdef i n t, hr, hA, s, hi, h => by
    have hk := hi.typee e (hc.sub _ hr) h hA
    unfold fieldFn
    have q := register_quiet e hr s
    exact q.trans e (fieldFn_quiet hc pre true t (hc.child _ hr rfl t (by simp [children]))
      (fun a ha => by have := hA a ha; simp at this; omega) _ (hi.quiet e hc.sub q) (Known.mono e (q.le e) t hk))
  | _, false, .tdef i n t, _, _, s, _, _ => by unfold fieldFn; exact .refl e R s
  | pre, true, .fn i inf rs r ps, hr, hA, s, hi, h => by
    unfold Known at h
    have hrr : R r := hc.child _ hr rfl r (by simp [children])
    have hrp : ∀ u ∈ paramTypes ps, R u := fun u hu => hc.child _ hr rfl u (by simp [children, hu])
    have once : ∀ s : St H, Known e s r → KnownParams e s ps → Quiet e R s (usedParams e ps (used e false r s)) := by
      intro s h1 h2
      have q := used_quiet e hc r hrr s h1
      exact q.trans e (usedParams_quiet e hc ps hrp _ (KnownParams.mono e (q.le e) ps h2))
    have q1 : Quiet e R s (if pre = true then usedParams e ps (used e false r s) else s) := by
      split
      · exact once s h.1 h.2
      · exact .refl e R s
    have q2 := q1.trans e (once _ (Known.mono e (q1.le e) r h.1) (KnownParams.mono e (q1.le e) ps h.2))
    have q3 := q2.trans e (extraParams_quiet hc ps hrp (fun a ha => by have := hA a ha; simp at this; omega) _
      (hi.quiet e hc.sub q2) (KnownParams.mono e (q2.le e) ps h.2))
    unfold fieldFn
    exact q3.trans e (fieldFn_quiet hc false false r hrr (fun a ha => by have := hA a ha; simp at this; omega) _
      (hi.quiet e hc.sub q3) (Known.mono e (q3.le e) r h.1))
  | _, false, .fn .., _, _, s, _, _ => by unfold fieldFn; exact .refl e R s
  | _, _, .ctype .., _, _, s, _, _ => by unfold fieldFn; exact .refl e R s
  | _, _, .enum .., _, _, s, _, _ => by unfold fieldFn; exact .refl e R s
  | _, _, .comp .., _, _, s, _, _ => by unfold fieldFn; exact .refl e R s
  | _, _, .incomplete .., _, _, s, _, _ => by unfold fieldFn; exact .refl e R s

theorem extraParams_quiet {Q R : Ty → Prop} (hc : Closed Q R) {A : List Ty} : ∀ (ps : Params)
    (_ : ∀ u ∈ paramTypes ps, R u) (_ : ∀ a ∈ A, sizeOf ps < sizeOf a) (s : St H), Inv e Q A s →
    KnownParams e s ps → Quiet e R s (extraParams e ps s)
  | .nil, _, _, s, _, _ => by unfold extraParams; exact .refl e R s
  | .cons d t n rest, hr, hA, s, hi, h => by
    unfold KnownParams at h; unfold extraParams
    have ht : R t := hr t (by simp [paramTypes])
    have q1 := used_quiet e hc t ht s h.1
    have q2 := q1.trans e (registerRaw_quiet e hc t ht _)
    have q3 := q2.trans e (fieldFn_quiet hc true false t ht (fun a ha => by have := hA a ha; simp at this; omega) _
      (hi.quiet e hc.sub q2) (Known.mono e (q2.le e) t h.1))
    exact q3.trans e (extraParams_quiet hc rest (fun u hu => hr u (by simp [paramTypes, hu]))
      (fun a ha => by have := hA a ha; simp at this; omega) _ (hi.quiet e hc.sub q3)
      (KnownParams.mono e (q3.le e) rest h.2))
end

/-! ## Names -/

theorem mem_lateTags {l : List Ty} {t : Ty} {kw : Kw} {n : String} (h : t ∈ l) (ht : tagged t = some (kw, n))
    (hn : n ≠ "") : (kw, n) ∈ lateTags l :=
  List.mem_filterMap.2 ⟨t, h, by simp [ht, hn]⟩

mutual
theorem known_nameable {Q R : Ty → Prop} (hc : Closed Q R) {A : List Ty} {s : St H} (hi : Inv e Q A s) :
    ∀ (ip : Bool) (t : Ty) (_ : R t) (_ : ip = true → named t = true), Known e s t →
    nameable e (envOf e s) ip t = true
  | _, .ctype .., _, _, _ => by unfold nameable; rfl
  | ip, .ptr i t, hr, hn, h => by
    unfold Known at h; unfold nameable
    exact known_nameable hc hi ip t (hc.child _ hr rfl t (by simp [children])) hn h
  | ip, .const i t, hr, hn, h => by
    unfold Known at h; unfold nameable
    exact known_nameable hc hi ip t (hc.child _ hr rfl t (by simp [children])) hn h
  | _, .ref i t, hr, _, _ => (hc.fine _ hr).elim
  | _, .tdef i n t, hr, _, h => by
    unfold Known at h; unfold nameable
    have g := hi.gen _ (hc.sub _ hr) h
    unfold GenOk at g
    simpa using g.1
  | _, .enum i n vs, hr, _, h => by
    unfold Known at h; unfold nameable
    have g := hi.gen _ (hc.sub _ hr) h
    unfold GenOk at g
    simpa using g.1
  | ip, .comp i kw n fs emb fwd ms, hr, hn, h => by
    unfold Known at h; unfold nameable
    cases ip with
    | false => rfl
    | true =>
      have hne : n ≠ "" := by
        have := hn rfl
        simpa [named] using this
      have ht : tagOf e (.comp i kw n fs emb fwd ms) = n := by
        have : (attrs (.comp i kw n fs emb fwd ms)).name = n := by cases kw <;> rfl
        simp [tagOf, this, hne]
      simp only [Bool.not_true, Bool.false_or, List.contains_iff_mem, ht, envOf, List.mem_append]
      rcases h with h | h
      · have g := hi.gen _ (hc.sub _ hr) h
        unfold GenOk at g
        exact Or.inl (g.1 hne)
      · exact Or.inr (mem_lateTags h.2 rfl hne)
  | ip, .incomplete f k n, hr, _, h => by
    unfold Known at h; unfold nameable
    simp only [List.contains_iff_mem, envOf, List.mem_append, Bool.or_eq_true]
    exact Or.inr (Or.inl (hi.fwdSet _ k n (hc.sub _ hr) rfl h))
  | ip, .fn i inf rs r ps, hr, hn, h => by
    unfold Known at h; unfold nameable
    simp only [Bool.and_eq_true]
    refine ⟨known_nameable hc hi ip r (hc.child _ hr rfl r (by simp [children])) hn h.1, ?_⟩
    exact known_paramsNameable hc hi ps (fun u hu => hc.child _ hr rfl u (by simp [children, hu]))
      (hc.fine _ hr) h.2

theorem known_paramsNameable {Q R : Ty → Prop} (hc : Closed Q R) {A : List Ty} {s : St H} (hi : Inv e Q A s) :
    ∀ (ps : Params) (_ : ∀ u ∈ paramTypes ps, R u) (_ : ∀ u ∈ paramTypes ps, named u = true), KnownParams e s ps →
    paramsNameable e (envOf e s) ps = true
  | .nil, _, _, _ => by unfold paramsNameable; rfl
  | .cons d t n rest, hr, hn, h => by
    unfold KnownParams at h; unfold paramsNameable
    simp only [Bool.and_eq_true]
    exact ⟨known_nameable hc hi true t (hr t (by simp [paramTypes])) (fun _ => hn t (by simp [paramTypes])) h.1,
      known_paramsNameable hc hi rest (fun u hu => hr u (by simp [paramTypes, hu]))
        (fun u hu => hn u (by simp [paramTypes, hu])) h.2⟩
end

/-- A composite type which has been handled and is not being handled is complete, and its members have been
    handled. -/
theorem Inv.defined {Q : Ty → Prop} {A : List Ty} {s : St H} (hi : Inv e Q A s) {i : Bool} {kw : Kw} {n : String}
    {fs : Fields} {emb : Bool} {ms : Methods} (hq : Q (.comp i kw n fs emb false ms)) (hf : whole fs = true)
    (hk : Known e s (.comp i kw n fs emb false ms))
    (hA : ∀ a ∈ A, sizeOf (Ty.comp i kw n fs emb false ms) < sizeOf a) :
    (kw, tagOf e (.comp i kw n fs emb false ms)) ∈ (envOf e s).complete ∧ ∀ u ∈ fieldTypes fs, Known e s u := by
  unfold Known at hk
  rcases hk with hk | hk
  · have h := hi.gen _ hq hk
    unfold GenOk at h
    rcases h.2 with h | h | h
    · cases h
    · exact absurd (hA _ h) (Nat.lt_irrefl _)
    · exact h
  · rw [hf] at hk
    cases hk.1

theorem known_complete {Q R : Ty → Prop} (hc : Closed Q R) {A : List Ty} {s : St H} (hi : Inv e Q A s)
    {B : Kw × String → Prop} (hB : ∀ x, B x → x ∈ (envOf e s).complete) :
    ∀ (t : Ty) (_ : R t) (_ : ∀ a ∈ A, sizeOf t < sizeOf a), Known e s t → byValue B t →
    completeIn e (envOf e s) t = true
  | .ctype .., _, _, _, _ => by unfold completeIn; rfl
  | .ptr .., _, _, _, _ => by unfold completeIn; rfl
  | .ref .., _, _, _, hb => by unfold byValue at hb; exact hb.elim
  | .fn .., _, _, _, hb => by unfold byValue at hb; exact hb.elim
  | .const i t, hr, hA, h, hb => by
    unfold Known at h; unfold completeIn; unfold byValue at hb
    exact known_complete hc hi hB t (hc.child _ hr rfl t (by simp [children]))
      (fun a ha => by have := hA a ha; simp at this; omega) h hb
  | .tdef i n t, hr, hA, h, hb => by
    have hk := hi.typee e (hc.sub _ hr) h hA
    unfold completeIn; unfold byValue at hb
    exact known_complete hc hi hB t (hc.child _ hr rfl t (by simp [children]))
      (fun a ha => by have := hA a ha; simp at this; omega) hk hb
  | .enum i n vs, hr, _, h, _ => by
    unfold Known at h; unfold completeIn
    have g := hi.gen _ (hc.sub _ hr) h
    unfold GenOk at g
    simpa using g.1
  | .comp i kw n fs emb fwd ms, hr, hA, h, hb => by
    unfold byValue at hb
    obtain ⟨rfl, hf⟩ := hb
    unfold completeIn
    simpa using (hi.defined e (hc.sub _ hr) hf h hA).1
  | .incomplete f k n, _, _, _, hb => by
    unfold byValue at hb; unfold completeIn
    simpa using hB _ hb

theorem byValue_mono {B B' : Kw × String → Prop} (h : ∀ x, B x → B' x) : ∀ t : Ty, byValue B t → byValue B' t
  | .ctype .., _ => by unfold byValue; trivial
  | .ptr .., _ => by unfold byValue; trivial
  | .ref .., hb => by unfold byValue at hb; exact hb.elim
  | .fn .., hb => by unfold byValue at hb; exact hb.elim
  | .const i t, hb => by unfold byValue at hb ⊢; exact byValue_mono h t hb
  | .tdef i n t, hb => by unfold byValue at hb ⊢; exact byValue_mono h t hb
  | .enum .., _ => by unfold byValue; trivial
  | .comp .., hb => by unfold byValue at hb ⊢; exact hb
  | .incomplete .., hb => by unfold byValue at hb ⊢; exact h _ hb

end

end EasyMock.Emit
