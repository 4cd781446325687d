import Verif.Parser.TypesSpec

/-! # Parser: the converted types describe the types of the program -/

namespace EasyMock.Parser

open EasyMock.Types (Ty Fields Params Methods Kw CT)

/-! ## Maps -/

theorem find_insert_self {k : String} {t : Ty} {m : List (String × Ty)} (h : find k m = none) : find k (insert k t m) = some t := by
  unfold insert
  rw [h]
  simp [find]

theorem find_insert {k k' : String} {t t' : Ty} {m : List (String × Ty)} (h : find k' (insert k t m) = some t') :
    find k' m = some t' ∨ (k' = k ∧ t' = t) := by
  unfold insert at h
  cases hf : find k m with
  | some u => rw [hf] at h; exact Or.inl h
  | none =>
    rw [hf] at h
    simp only [find] at h
    split at h
    · rename_i e
      exact Or.inr ⟨e.symm, (Option.some.inj h).symm⟩
    · exact Or.inl h

theorem find_insert_mono {k k' : String} {t t' : Ty} {m : List (String × Ty)} (h : find k' m = some t') :
    find k' (insert k t m) = some t' := by
  unfold insert
  cases hf : find k m with
  | some u => exact h
  | none =>
    simp only [find]
    split
    · rename_i e
      rw [e, h] at hf
      cases hf
    · exact h

theorem isEmpty_eq {s : String} : s.isEmpty = decide (s = "") := by
  rw [Bool.eq_iff_iff, String.isEmpty_iff]
  simp

/-! ## Names -/

theorem wraps_named (name : String) (t : Ty) : Wraps name t (named name t) := by
  unfold Wraps named
  rw [isEmpty_eq]
  by_cases h : name = ""
  · simp [h]
  · simp [h]

/-- The name of the outermost typedef if `name` has been seen before. -/
def outerName (name : String) (c : CTy) : String := if name = "" then c.outer else name

theorem outerName_tdef (name n : String) (k vol : Bool) (t : CTy) :
    outerName name (.tdef n (.mk k vol t)) = outerName (if name.isEmpty then n else name) t := by
  unfold outerName
  rw [isEmpty_eq]
  by_cases h : name = ""
  · by_cases hn : n = ""
    · simp [h, hn, CTy.outer]
    · simp [h, hn, CTy.outer]
  · simp [h]

theorem outerName_id (name : String) (c : CTy) (h : c.outer = "") : outerName name c = name := by
  unfold outerName
  rw [h]
  split
  · rename_i e; exact e.symm
  · rfl

/-! ## Builtin types -/

theorem builtin_scalar {s k : Bool} {b : Builtin} {t : Ty} (h : builtinTy s k b = some t) :
    ∃ c naked, t = .ctype c naked false ∧ scalar s b c := by
  cases b <;> cases s <;> cases k <;>
    simp only [builtinTy, Builtin.base, Builtin.isUnsigned, Types.CTypeObj.new, Types.setUnsigned, Types.toUnsigned, Bool.not_true,
      Bool.not_false, Bool.and_true, Bool.and_false, Bool.false_eq_true, if_false, if_true, Option.some.injEq, reduceCtorEq] at h <;>
    (subst h; refine ⟨_, _, rfl, ?_⟩; simp [scalar])

/-! ## Soundness -/

section
variable (D : Decls) (strict : Bool) (U : Nat → String → Prop)

/-- Every entry of `structKnownType` is the incomplete type of a record of `S`. -/
def KnownOk (S : Nat → Prop) (known : Known) : Prop :=
  ∀ k t, find k known = some t → ∃ i n, S i ∧ U i n ∧ k ≠ "" ∧ (k = (D.records i).tag ∨ k = n) ∧ t = incompleteOf (D.records i)

/-- Every entry of the cache describes the records whose key it has. -/
def CacheOk (c : Cache) : Prop :=
  ∀ k t, find k c = some t → ∀ id n v, U id n → k = (D.records id).tag ++ "_" ++ n → DenT D strict v n (.record id) t

/-- What is required of the mentions of a type below the records `S`. -/
def Mentions (S : Nat → Prop) (l : List (Nat × String × Bool)) : Prop :=
  ∀ id n w, (id, n, w) ∈ l → U id n ∧ (∀ i, S i → Path D i id) ∧
    (strict = true → w = true → ((D.records id).tag ≠ "" ∨ n ≠ "") → ¬ S id)

/-- The conversion of records describes them. -/
def HSound (h : Handler) : Prop :=
  ∀ (S : Nat → Prop) known emb td id v c t c', KnownOk D U S known → CacheOk D strict U c →
    Mentions D strict U S [(id, td, v)] → h known emb td id c = .ok (t, c') →
    DenT D strict v td (.record id) t ∧ CacheOk D strict U c'

variable {D strict U}

theorem Mentions.left {S : Nat → Prop} {l m : List (Nat × String × Bool)} (h : Mentions D strict U S (l ++ m)) :
    Mentions D strict U S l := fun id n w hm => h id n w (by simp [hm])

theorem Mentions.right {S : Nat → Prop} {l m : List (Nat × String × Bool)} (h : Mentions D strict U S (l ++ m)) :
    Mentions D strict U S m := fun id n w hm => h id n w (by simp [hm])

mutual
theorem parseT_sound {h : Handler} (hh : HSound D strict U h) (S : Nat → Prop) (known : Known) (hk : KnownOk D U S known) :
    ∀ (ty : CTy) (emb const : Bool) (name : String) (v : Bool) (c : Cache) (t : Ty) (c' : Cache), CacheOk D strict U c →
      Mentions D strict U S (ty.uses v name) → parseT D h known emb const name ty c = .ok (t, c') →
      DenT D strict v (outerName name ty) ty.canon t ∧ CacheOk D strict U c'
  | .builtin b, emb, const, name, v, c, t, c', hc, hm, e => by
    rw [parseT] at e
    split at e
    · cases e
    · rename_i t' hb
      obtain ⟨ct, naked, rfl, hs⟩ := builtin_scalar hb
      simp only [Except.ok.injEq, Prod.mk.injEq] at e
      obtain ⟨rfl, rfl⟩ := e
      rw [outerName_id _ _ rfl]
      exact ⟨.builtin hs (wraps_named _ _), hc⟩
  | .ptr q, emb, const, name, v, c, t, c', hc, hm, e => by
    rw [parseT] at e
    split at e
    · cases e
    · rename_i t' c1 hq
      simp only [Except.ok.injEq, Prod.mk.injEq] at e
      obtain ⟨rfl, rfl⟩ := e
      rw [CTy.uses] at hm
      obtain ⟨h1, h2⟩ := parseQ_sound hh S known hk q emb false c t' c1 hc hm hq
      rw [outerName_id _ _ rfl]
      exact ⟨.ptr h1 (wraps_named _ _), h2⟩
  | .ref q, emb, const, name, v, c, t, c', hc, hm, e => by
    rw [parseT] at e
    split at e
    · cases e
    · rename_i t' c1 hq
      simp only [Except.ok.injEq, Prod.mk.injEq] at e
      obtain ⟨rfl, rfl⟩ := e
      rw [CTy.uses] at hm
      obtain ⟨h1, h2⟩ := parseQ_sound hh S known hk q emb false c t' c1 hc hm hq
      rw [outerName_id _ _ rfl]
      exact ⟨.ref h1 (wraps_named _ _), h2⟩
  | .arr n q, emb, const, name, v, c, t, c', hc, hm, e => by
    rw [parseT] at e
    rw [CTy.uses] at hm
    obtain ⟨h1, h2⟩ := parseQ_sound hh S known hk q emb v c t c' hc hm e
    exact ⟨.arr h1, h2⟩
  | .record id, emb, const, name, v, c, t, c', hc, hm, e => by
    rw [parseT] at e
    rw [CTy.uses] at hm
    rw [outerName_id _ _ rfl]
    exact hh S known emb name id v c t c' hk hc hm e
  | .enum id, emb, const, name, v, c, t, c', hc, hm, e => by
    rw [parseT] at e
    simp only [Except.ok.injEq, Prod.mk.injEq] at e
    obtain ⟨rfl, rfl⟩ := e
    rw [outerName_id _ _ rfl]
    exact ⟨.enum (wraps_named _ _), hc⟩
  | .fn ret ps b, emb, const, name, v, c, t, c', hc, hm, e => by
    rw [parseT] at e
    rw [CTy.uses] at hm
    split at e
    · cases e
    · rename_i r c1 hr
      split at e
      · cases e
      · rename_i ts c2 hp
        simp only [Except.ok.injEq, Prod.mk.injEq] at e
        obtain ⟨rfl, rfl⟩ := e
        obtain ⟨h1, h2⟩ := parseQ_sound hh S known hk ret false false c r c1 hc hm.left hr
        obtain ⟨h3, h4⟩ := parseQs_sound hh S known hk ps c1 ts c2 h2 hm.right hp
        exact ⟨.fn h1 h3, h4⟩
  | .tdef n (.mk k vol ty), emb, const, name, v, c, t, c', hc, hm, e => by
    rw [parseT] at e
    rw [CTy.uses] at hm
    rw [outerName_tdef, CTy.canon]
    refine parseT_sound hh S known hk ty emb (const || k) _ v c t c' hc ?_ e
    rw [isEmpty_eq]
    simpa using hm

theorem parseQ_sound {h : Handler} (hh : HSound D strict U h) (S : Nat → Prop) (known : Known) (hk : KnownOk D U S known) :
    ∀ (q : Q) (emb v : Bool) (c : Cache) (t : Ty) (c' : Cache), CacheOk D strict U c →
      Mentions D strict U S (q.uses v) → parseQ D h known emb q c = .ok (t, c') →
      Den D strict v q t ∧ CacheOk D strict U c'
  | .mk k vol ty, emb, v, c, t, c', hc, hm, e => by
    rw [parseQ] at e
    rw [Q.uses] at hm
    split at e
    · cases e
    · rename_i t' c1 ht
      simp only [Except.ok.injEq, Prod.mk.injEq] at e
      obtain ⟨rfl, rfl⟩ := e
      obtain ⟨h1, h2⟩ := parseT_sound hh S known hk ty emb k "" v c t' c1 hc hm ht
      refine ⟨?_, h2⟩
      cases k with
      | false => exact .plain h1
      | true => exact .const h1

theorem parseQs_sound {h : Handler} (hh : HSound D strict U h) (S : Nat → Prop) (known : Known) (hk : KnownOk D U S known) :
    ∀ (qs : Qs) (c : Cache) (ts : Params) (c' : Cache), CacheOk D strict U c →
      Mentions D strict U S qs.uses → parseQs D h known qs c = .ok (ts, c') →
      DenPs D strict qs ts ∧ CacheOk D strict U c'
  | .nil, c, ts, c', hc, hm, e => by
    rw [parseQs] at e
    simp only [Except.ok.injEq, Prod.mk.injEq] at e
    obtain ⟨rfl, rfl⟩ := e
    exact ⟨.nil, hc⟩
  | .cons q qs, c, ts, c', hc, hm, e => by
    rw [parseQs] at e
    rw [Qs.uses] at hm
    split at e
    · cases e
    · rename_i r c1 hr
      split at e
      · cases e
      · rename_i ts' c2 hp
        simp only [Except.ok.injEq, Prod.mk.injEq] at e
        obtain ⟨rfl, rfl⟩ := e
        obtain ⟨h1, h2⟩ := parseQ_sound hh S known hk q false false c r c1 hc hm.left hr
        obtain ⟨h3, h4⟩ := parseQs_sound hh S known hk qs c1 ts' c2 h2 hm.right hp
        exact ⟨.cons h1 h3, h4⟩
end

mutual
theorem isFn_iff : ∀ (t : CTy), t.isFn = true ↔ PointsToFn t
  | .ptr (.mk k vol t) => by
    rw [CTy.isFn, Q.isFn, isFn_iff t]
    exact ⟨.ptr, fun h => by cases h; assumption⟩
  | .fn _ _ _ => by simp only [CTy.isFn, true_iff]; exact .fn
  | .tdef _ (.mk k vol t) => by
    rw [CTy.isFn, Q.isFn, isFn_iff t]
    exact ⟨.tdef, fun h => by cases h; assumption⟩
  | .builtin _ | .ref _ | .arr _ _ | .record _ | .enum _ => by
    simp only [CTy.isFn, Bool.false_eq_true, false_iff]
    intro h
    cases h
end

theorem fieldString_text (f : FieldD) (t : Ty) : MemberText f t (fieldString f.q f.text t) := by
  obtain ⟨text, ⟨k, vol, ty⟩, name, bits⟩ := f
  unfold MemberText fieldString declaratorString
  simp only [Q.isFn, Q.ty, ← isFn_iff]
  cases h1 : ty.isFn <;> cases h2 : (Types.attrs t).typedef <;> cases h3 : declareString true text <;> simp

theorem parseFields_sound {h : Handler} (hh : HSound D strict U h) (S : Nat → Prop) (known : Known) (hk : KnownOk D U S known) :
    ∀ (fs : List FieldD) (c : Cache) (ts : Fields) (c' : Cache), CacheOk D strict U c →
      (∀ f ∈ fs, Mentions D strict U S (f.q.uses true)) → parseFields D h known fs c = .ok (ts, c') →
      DenFs D strict fs ts ∧ CacheOk D strict U c' := by
  intro fs
  induction fs with
  | nil =>
    intro c ts c' hc _ e
    rw [parseFields] at e
    simp only [Except.ok.injEq, Prod.mk.injEq] at e
    obtain ⟨rfl, rfl⟩ := e
    exact ⟨.nil, hc⟩
  | cons f fs ih =>
    intro c ts c' hc hm e
    rw [parseFields] at e
    split at e
    · cases e
    · rename_i t c1 ht
      obtain ⟨h1, h2⟩ := parseQ_sound hh S known hk f.q true true c t c1 hc (hm f (by simp)) ht
      split at e
      · rename_i w hw
        split at e
        · split at e
          · cases e
          · rename_i r c2 hr
            simp only [Except.ok.injEq, Prod.mk.injEq] at e
            obtain ⟨rfl, rfl⟩ := e
            obtain ⟨h3, h4⟩ := ih c1 r c2 h2 (fun g hg => hm g (by simp [hg])) hr
            exact ⟨.bit hw h1 h3, h4⟩
        · cases e
      · rename_i hw
        split at e
        · cases e
        · rename_i r c2 hr
          simp only [Except.ok.injEq, Prod.mk.injEq] at e
          obtain ⟨rfl, rfl⟩ := e
          obtain ⟨h3, h4⟩ := ih c1 r c2 h2 (fun g hg => hm g (by simp [hg])) hr
          exact ⟨.field hw h1 h3 (fieldString_text f t), h4⟩

theorem knownInside_ok {S : Nat → Prop} {known : Known} (hk : KnownOk D U S known) {id : Nat} {td : String} (hu : U id td) :
    KnownOk D U (fun i => S i ∨ i = id) (knownInside (D.records id) td known) := by
  have step : ∀ {m : Known} {k : String}, KnownOk D U (fun i => S i ∨ i = id) m → (k = (D.records id).tag ∨ k = td) →
      KnownOk D U (fun i => S i ∨ i = id) (if k.isEmpty then m else insert k (incompleteOf (D.records id)) m) := by
    intro m k hm hkk
    rw [isEmpty_eq]
    by_cases he : k = ""
    · simp [he]; exact hm
    · simp only [he, decide_false, Bool.false_eq_true, if_false]
      intro k' t hf
      rcases find_insert hf with hf | ⟨rfl, rfl⟩
      · exact hm k' t hf
      · exact ⟨id, td, Or.inr rfl, hu, he, hkk, rfl⟩
  have base : KnownOk D U (fun i => S i ∨ i = id) known := by
    intro k t hf
    obtain ⟨i, n, h1, h2⟩ := hk k t hf
    exact ⟨i, n, Or.inl h1, h2⟩
  exact step (step base (Or.inr rfl)) (Or.inl rfl)

theorem parseRecord_sound (hU : ∀ r, ∀ f ∈ (D.records r).fields, ∀ id n v, (id, n, v) ∈ f.q.uses true → U id n)
    (hA : Unambiguous D U) (hC : NamedCycles D U) (hV : strict = true → ValueOrder D) :
    ∀ fuel, HSound D strict U (parseRecord D fuel) := by
  intro fuel
  induction fuel with
  | zero =>
    intro S known emb td id v c t c' hk hc hm e
    rw [parseRecord] at e
    cases e
  | succ fuel ih =>
    intro S known emb td id v c t c' hk hc hm e
    obtain ⟨hu, hp, hs⟩ := hm id td v (by simp)
    -- a hit in the known types
    have hit : ∀ k, (k = td ∨ k = (D.records id).tag) → ∀ t, find k known = some t → DenT D strict v td (.record id) t := by
      intro k hkk t hf
      obtain ⟨i, n, h1, h2, h3, h4, rfl⟩ := hk k t hf
      have hi : i = id := by
        rcases hkk with rfl | rfl
        · rcases h4 with h4 | h4
          · exact (hA.apart id k i n hu h2 h4 h3).symm
          · exact (hA.names id k i n hu h2 h4 h3).symm
        · rcases h4 with h4 | h4
          · exact hA.tags i n id td h2 hu h4.symm (fun e => h3 (h4.trans e))
          · exact hA.apart i n id td h2 hu h4.symm (fun e => h3 (h4.trans e))
      subst hi
      have hfl : incompleteOf (D.records i) = .incomplete
          { struct := decide ((D.records i).kw ≠ .union), union := decide ((D.records i).kw = .union) }
          (D.records i).kw (D.records i).tag := by
        unfold incompleteOf
        cases (D.records i).kw <;> rfl
      rw [hfl]
      refine .tag (fun e => ?_) (fun hst => ?_)
      · have htd : td ≠ "" := by
          rcases hkk with rfl | rfl
          · exact h3
          · exact absurd e h3
        exact hC i td hu htd e (hp i h1)
      · cases v with
        | false => rfl
        | true =>
          refine absurd h1 (hs hst rfl ?_)
          rcases hkk with rfl | rfl
          · exact Or.inr h3
          · exact Or.inl h3
    rw [parseRecord] at e
    simp only at e
    split at e
    · rename_i t' hf
      simp only [Except.ok.injEq, Prod.mk.injEq] at e
      obtain ⟨rfl, rfl⟩ := e
      exact ⟨hit td (Or.inl rfl) _ hf, hc⟩
    split at e
    · rename_i t' hf
      simp only [Except.ok.injEq, Prod.mk.injEq] at e
      obtain ⟨rfl, rfl⟩ := e
      exact ⟨hit _ (Or.inr rfl) _ hf, hc⟩
    split at e
    · rename_i t' hf
      simp only [Except.ok.injEq, Prod.mk.injEq] at e
      obtain ⟨rfl, rfl⟩ := e
      split at hf
      · cases hf
      · exact ⟨hc _ _ hf id td v hu rfl, hc⟩
    split at e
    · cases e
    · rename_i fs c1 hfs
      simp only [Except.ok.injEq, Prod.mk.injEq] at e
      obtain ⟨ht, hc'⟩ := e
      have hfields : DenFs D strict (if (D.records id).tag ∈ D.ignored then [] else (D.records id).fields) fs ∧
          CacheOk D strict U c1 := by
        by_cases hi : (D.records id).tag ∈ D.ignored
        · rw [if_pos (by simpa using hi)] at hfs
          simp only [Except.ok.injEq, Prod.mk.injEq] at hfs
          obtain ⟨rfl, rfl⟩ := hfs
          rw [if_pos hi]
          exact ⟨.nil, hc⟩
        · rw [if_neg (by simpa using hi)] at hfs
          rw [if_neg hi]
          refine parseFields_sound ih _ _ (knownInside_ok hk hu) _ c fs c1 hc ?_ hfs
          intro f hf j n w hmem
          have hedge : Edge D id j := ⟨f, hf, n, w, hmem⟩
          refine ⟨hU id f hf j n w hmem, ?_, ?_⟩
          · rintro i (hi | rfl)
            · exact .more (hp i hi) hedge
            · exact .one hedge
          · rintro hst rfl hname (hj | rfl)
            · exact (hV hst id j n ⟨f, hf, hmem⟩ hname).1 (hp j hj)
            · exact (hV hst j j n ⟨f, hf, hmem⟩ hname).2 rfl
      have hden : ∀ w, DenT D strict w td (.record id) t := by
        intro w
        rw [← ht]
        refine .record hfields.1 (wraps_named _ _) ?_
        intro hemb
        simp only [Bool.and_eq_true, isEmpty_eq, decide_eq_true_eq] at hemb
        exact ⟨hemb.1.2, hemb.2⟩
      refine ⟨hden v, ?_⟩
      rw [← hc']
      split
      · exact hfields.2
      · rename_i hkey
        intro k u hf j m w hj hkk
        rcases find_insert hf with hf | ⟨rfl, rfl⟩
        · exact hfields.2 k u hf j m w hj hkk
        · obtain ⟨rfl, rfl⟩ := hA.keys id td j m hu hj hkk hkey
          rw [ht]
          exact hden w

theorem root_sound {roots : List Q} (hA : Unambiguous D (Used D roots)) (hC : NamedCycles D (Used D roots))
    (hV : strict = true → ValueOrder D) (fuel : Nat) {q : Q} {c : Cache} {t : Ty} {c' : Cache} (hq : q ∈ roots)
    (hc : CacheOk D strict (Used D roots) c) (e : parseQ D (parseRecord D fuel) [] false q c = .ok (t, c')) :
    Den D strict true q t ∧ CacheOk D strict (Used D roots) c' := by
  have hh := parseRecord_sound (D := D) (strict := strict) (U := Used D roots)
    (fun r f hf id n v hm => Or.inr ⟨r, f, hf, v, hm⟩) hA hC hV fuel
  exact parseQ_sound hh (fun _ => False) [] (by intro k t hf; cases hf) q false true c t c' hc
    (fun id n w hm => ⟨Or.inl ⟨q, hq, w, hm⟩, by simp, by simp⟩) e

theorem parseAll_sound {roots : List Q} (hA : Unambiguous D (Used D roots)) (hC : NamedCycles D (Used D roots))
    (hV : strict = true → ValueOrder D) (fuel : Nat) : ∀ (qs : List Q) (c : Cache) (ts : List Ty) (c' : Cache),
    (∀ q ∈ qs, q ∈ roots) → CacheOk D strict (Used D roots) c → parseAll D fuel qs c = .ok (ts, c') →
    ts.length = qs.length ∧ ∀ (i : Nat) q t, qs[i]? = some q → ts[i]? = some t → Den D strict true q t := by
  intro qs
  induction qs with
  | nil =>
    intro c ts c' _ _ e
    rw [parseAll] at e
    simp only [Except.ok.injEq, Prod.mk.injEq] at e
    obtain ⟨rfl, rfl⟩ := e
    exact ⟨rfl, by simp⟩
  | cons q qs ih =>
    intro c ts c' hr hc e
    rw [parseAll] at e
    split at e
    · cases e
    · rename_i t c1 ht
      split at e
      · cases e
      · rename_i us c2 hus
        simp only [Except.ok.injEq, Prod.mk.injEq] at e
        obtain ⟨rfl, rfl⟩ := e
        obtain ⟨h1, h2⟩ := root_sound hA hC hV fuel (hr q (by simp)) hc ht
        obtain ⟨h3, h4⟩ := ih c1 us c2 (fun x hx => hr x (by simp [hx])) h2 hus
        refine ⟨by simp [h3], ?_⟩
        intro i q' t' hq ht'
        cases i with
        | zero =>
          simp at hq ht'
          obtain ⟨rfl, rfl⟩ := And.intro hq ht'
          exact h1
        | succ i => exact h4 i q' t' (by simpa using hq) (by simpa using ht')

end

end EasyMock.Parser
