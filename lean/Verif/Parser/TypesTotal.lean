import Verif.Parser.TypesSound

/-! # Parser: the conversion of a type ends -/

namespace EasyMock.Parser

open EasyMock.Types (Ty Fields Params Methods Kw CT)

theorem nodup_length_le : ∀ {P ids : List (Nat × String)}, P.Nodup → (∀ x ∈ P, x ∈ ids) → P.length ≤ ids.length
  | [], ids, _, _ => by simp
  | x :: P, ids, hn, hs => by
    rw [List.nodup_cons] at hn
    have h1 := nodup_length_le (P := P) (ids := ids.erase x) hn.2 (fun y hy => by
      have hne : y ≠ x := fun e => hn.1 (e ▸ hy)
      exact (List.mem_erase_of_ne hne).2 (hs y (by simp [hy])))
    have h2 := List.length_erase_of_mem (hs x (by simp))
    have h3 : 0 < ids.length := List.length_pos_of_mem (hs x (by simp))
    simp only [List.length_cons]
    omega

mutual
/-- Every builtin type in it is one the parser knows. -/
def CTy.Supported : CTy → Prop
  | .builtin b => b ≠ .other
  | .ptr q | .ref q | .arr _ q => q.Supported
  | .record _ | .enum _ => True
  | .fn ret ps _ => ret.Supported ∧ ps.Supported
  | .tdef _ q => q.Supported

/-- The same for a qualified type. -/
def Q.Supported : Q → Prop
  | .mk _ _ t => t.Supported

/-- The same for parameters. -/
def Qs.Supported : Qs → Prop
  | .nil => True
  | .cons q qs => q.Supported ∧ qs.Supported
end

/-- A bit-field of an arithmetic type, or of an enumeration without typedef name. -/
def FieldD.BitsOk (f : FieldD) : Prop :=
  ∀ w, f.bits = some w → w < 256 ∧ ((∃ b, f.q.ty.canon = .builtin b) ∨ ((∃ id, f.q.ty.canon = .enum id) ∧ f.q.ty.outer = ""))

theorem builtin_total {s k : Bool} {b : Builtin} (h : b ≠ .other) : ∃ t, builtinTy s k b = some t := by
  cases b <;> first | exact absurd rfl h | exact ⟨_, rfl⟩ | (cases s <;> cases k <;> exact ⟨_, rfl⟩)

section
variable (D : Decls) (pairs : List (Nat × String)) (rank : Nat → Nat)

/-- The record can be found by a name. -/
def HasName (id : Nat) (n : String) : Prop := (D.records id).tag ≠ "" ∨ n ≠ ""

/-- The names of the records which are being converted are known. -/
def KnownHas (P : List (Nat × String)) (known : Known) : Prop :=
  ∀ i n, (i, n) ∈ P → ((D.records i).tag ≠ "" → ∃ t, find (D.records i).tag known = some t) ∧ (n ≠ "" → ∃ t, find n known = some t)

/-- What is required of the mentions of a type. -/
def Below (r : Nat) (l : List (Nat × String × Bool)) : Prop :=
  ∀ id n w, (id, n, w) ∈ l → (id, n) ∈ pairs ∧ (HasName D id n ∨ rank id < r)

/-- Records are converted. -/
def HTotal (P : List (Nat × String)) (r : Nat) (h : Handler) : Prop :=
  ∀ known emb td id c, KnownHas D P known → (id, td) ∈ pairs → (HasName D id td ∨ rank id < r) →
    ∃ t c', h known emb td id c = .ok (t, c')

variable {D pairs rank} {r : Nat}

mutual
theorem parseT_total {h : Handler} {P : List (Nat × String)} (hh : HTotal D pairs rank P r h) (known : Known) (hk : KnownHas D P known) :
    ∀ (ty : CTy) (emb const : Bool) (name : String) (v : Bool) (c : Cache), Below D pairs rank r (ty.uses v name) → ty.Supported →
      ∃ t c', parseT D h known emb const name ty c = .ok (t, c')
  | .builtin b, emb, const, name, v, c, hm, hs => by
    obtain ⟨t, ht⟩ := builtin_total (s := D.charSigned) (k := const) hs
    rw [parseT, ht]
    exact ⟨_, _, rfl⟩
  | .ptr q, emb, const, name, v, c, hm, hs => by
    rw [CTy.uses] at hm
    rw [CTy.Supported] at hs
    obtain ⟨t, c', e⟩ := parseQ_total hh known hk q emb false c hm hs
    rw [parseT, e]
    exact ⟨_, _, rfl⟩
  | .ref q, emb, const, name, v, c, hm, hs => by
    rw [CTy.uses] at hm
    rw [CTy.Supported] at hs
    obtain ⟨t, c', e⟩ := parseQ_total hh known hk q emb false c hm hs
    rw [parseT, e]
    exact ⟨_, _, rfl⟩
  | .arr n q, emb, const, name, v, c, hm, hs => by
    rw [CTy.uses] at hm
    rw [CTy.Supported] at hs
    rw [parseT]
    exact parseQ_total hh known hk q emb v c hm hs
  | .record id, emb, const, name, v, c, hm, _ => by
    rw [CTy.uses] at hm
    obtain ⟨h1, h2⟩ := hm id name v (by simp)
    rw [parseT]
    exact hh known emb name id c hk h1 h2
  | .enum id, emb, const, name, v, c, _, _ => by
    rw [parseT]
    exact ⟨_, _, rfl⟩
  | .fn ret ps b, emb, const, name, v, c, hm, hs => by
    rw [CTy.uses] at hm
    rw [CTy.Supported] at hs
    obtain ⟨r, c1, e1⟩ := parseQ_total hh known hk ret false false c (fun i n w h => hm i n w (by simp [h])) hs.1
    obtain ⟨ts, c2, e2⟩ := parseQs_total hh known hk ps c1 (fun i n w h => hm i n w (by simp [h])) hs.2
    rw [parseT, e1]
    simp only
    rw [e2]
    exact ⟨_, _, rfl⟩
  | .tdef n (.mk k vol ty), emb, const, name, v, c, hm, hs => by
    rw [CTy.uses] at hm
    rw [CTy.Supported, Q.Supported] at hs
    rw [parseT]
    refine parseT_total hh known hk ty emb _ _ v c ?_ hs
    rw [isEmpty_eq]
    simpa using hm

theorem parseQ_total {h : Handler} {P : List (Nat × String)} (hh : HTotal D pairs rank P r h) (known : Known) (hk : KnownHas D P known) :
    ∀ (q : Q) (emb v : Bool) (c : Cache), Below D pairs rank r (q.uses v) → q.Supported →
      ∃ t c', parseQ D h known emb q c = .ok (t, c')
  | .mk k vol ty, emb, v, c, hm, hs => by
    rw [Q.uses] at hm
    rw [Q.Supported] at hs
    obtain ⟨t, c', e⟩ := parseT_total hh known hk ty emb k "" v c hm hs
    rw [parseQ, e]
    exact ⟨_, _, rfl⟩

theorem parseQs_total {h : Handler} {P : List (Nat × String)} (hh : HTotal D pairs rank P r h) (known : Known) (hk : KnownHas D P known) :
    ∀ (qs : Qs) (c : Cache), Below D pairs rank r qs.uses → qs.Supported → ∃ ts c', parseQs D h known qs c = .ok (ts, c')
  | .nil, c, _, _ => by
    rw [parseQs]
    exact ⟨_, _, rfl⟩
  | .cons q qs, c, hm, hs => by
    rw [Qs.uses] at hm
    rw [Qs.Supported] at hs
    obtain ⟨r, c1, e1⟩ := parseQ_total hh known hk q false false c (fun i n w h => hm i n w (by simp [h])) hs.1
    obtain ⟨ts, c2, e2⟩ := parseQs_total hh known hk qs c1 (fun i n w h => hm i n w (by simp [h])) hs.2
    rw [parseQs, e1]
    simp only
    rw [e2]
    exact ⟨_, _, rfl⟩
end

/-! ## Bit-fields -/

theorem parseT_arithmetic {h : Handler} {known : Known} {b : Builtin} : ∀ (ty : CTy) (emb const : Bool) (name : String)
    (c : Cache) (t : Ty) (c' : Cache), ty.canon = .builtin b → parseT D h known emb const name ty c = .ok (t, c') →
    ∃ n ct naked, t = named n (.ctype ct naked false)
  | .builtin b', emb, const, name, c, t, c', _, e => by
    rw [parseT] at e
    split at e
    · cases e
    · rename_i t' hb
      obtain ⟨ct, naked, rfl, -⟩ := builtin_scalar hb
      simp only [Except.ok.injEq, Prod.mk.injEq] at e
      exact ⟨name, ct, naked, e.1.symm⟩
  | .tdef n (.mk k vol ty), emb, const, name, c, t, c', hb, e => by
    rw [CTy.canon] at hb
    rw [parseT] at e
    exact parseT_arithmetic ty emb _ _ c t c' hb e
  | .ptr _, _, _, _, _, _, _, hb, _ | .ref _, _, _, _, _, _, _, hb, _ | .arr _ _, _, _, _, _, _, _, hb, _
  | .record _, _, _, _, _, _, _, hb, _ | .enum _, _, _, _, _, _, _, hb, _ | .fn _ _ _, _, _, _, _, _, _, hb, _ => by
    simp [CTy.canon] at hb

theorem parseT_enum {h : Handler} {known : Known} {id : Nat} : ∀ (ty : CTy) (emb const : Bool) (name : String)
    (c : Cache) (t : Ty) (c' : Cache), ty.canon = .enum id → outerName name ty = "" →
    parseT D h known emb const name ty c = .ok (t, c') → ∃ tag vs, t = .enum false tag vs
  | .enum id', emb, const, name, c, t, c', _, ho, e => by
    rw [parseT] at e
    simp only [Except.ok.injEq, Prod.mk.injEq] at e
    rw [outerName_id _ _ rfl] at ho
    subst ho
    exact ⟨_, _, e.1.symm⟩
  | .tdef n (.mk k vol ty), emb, const, name, c, t, c', hb, ho, e => by
    rw [CTy.canon] at hb
    rw [parseT] at e
    rw [outerName_tdef] at ho
    exact parseT_enum ty emb _ _ c t c' hb ho e
  | .ptr _, _, _, _, _, _, _, hb, _, _ | .ref _, _, _, _, _, _, _, hb, _, _ | .arr _ _, _, _, _, _, _, _, hb, _, _
  | .record _, _, _, _, _, _, _, hb, _, _ | .builtin _, _, _, _, _, _, _, hb, _, _ | .fn _ _ _, _, _, _, _, _, _, hb, _, _ => by
    simp [CTy.canon] at hb

theorem bitOk_of {h : Handler} {known : Known} {f : FieldD} {w : Nat} {c c' : Cache} {t : Ty} (hb : f.BitsOk) (hw : f.bits = some w)
    (e : parseQ D h known true f.q c = .ok (t, c')) : bitOk t w = true := by
  obtain ⟨hlt, hty⟩ := hb w hw
  obtain ⟨k, vol, ty, hq⟩ : ∃ k vol ty, f.q = .mk k vol ty := by cases f.q with | mk k vol ty => exact ⟨k, vol, ty, rfl⟩
  rw [hq, parseQ] at e
  rw [hq, Q.ty] at hty
  split at e
  · cases e
  · rename_i t' c1 ht
    simp only [Except.ok.injEq, Prod.mk.injEq] at e
    obtain ⟨rfl, rfl⟩ := e
    unfold bitOk
    rcases hty with ⟨b, hty⟩ | ⟨⟨id, hty⟩, ho⟩
    · obtain ⟨n, ct, naked, rfl⟩ := parseT_arithmetic ty true k "" c t' c1 hty ht
      unfold named
      cases k <;> cases n.isEmpty <;> simp [Types.attrs, Types.mostDefinedTypee, hlt]
    · obtain ⟨tag, vs, rfl⟩ := parseT_enum ty true k "" c t' c1 hty (by simpa [outerName] using ho) ht
      cases k <;> simp [Types.attrs, hlt]

theorem parseFields_total {h : Handler} {P : List (Nat × String)} (hh : HTotal D pairs rank P r h) (known : Known) (hk : KnownHas D P known) :
    ∀ (fs : List FieldD) (c : Cache), (∀ f ∈ fs, Below D pairs rank r (f.q.uses true) ∧ f.q.Supported ∧ f.BitsOk) →
      ∃ ts c', parseFields D h known fs c = .ok (ts, c') := by
  intro fs
  induction fs with
  | nil => intro c _; rw [parseFields]; exact ⟨_, _, rfl⟩
  | cons f fs ih =>
    intro c hf
    obtain ⟨h1, h2, h3⟩ := hf f (by simp)
    obtain ⟨t, c1, e1⟩ := parseQ_total hh known hk f.q true true c h1 h2
    obtain ⟨ts, c2, e2⟩ := ih c1 (fun g hg => hf g (by simp [hg]))
    rw [parseFields, e1]
    simp only
    cases hw : f.bits with
    | none => simp only; rw [e2]; exact ⟨_, _, rfl⟩
    | some w =>
      simp only
      rw [if_pos (bitOk_of h3 hw e1), e2]
      exact ⟨_, _, rfl⟩

theorem knownInside_has {P : List (Nat × String)} {known : Known} (hk : KnownHas D P known) (id : Nat) (td : String) :
    KnownHas D ((id, td) :: P) (knownInside (D.records id) td known) := by
  have hstep : ∀ (m : Known) (k k' : String) (t : Ty), find k' m = some t →
      find k' (if k.isEmpty then m else insert k (incompleteOf (D.records id)) m) = some t := by
    intro m k k' t hf
    split
    · exact hf
    · exact find_insert_mono hf
  have hself : ∀ (m : Known) (k : String), k ≠ "" →
      ∃ t, find k (if k.isEmpty then m else insert k (incompleteOf (D.records id)) m) = some t := by
    intro m k hne
    rw [if_neg (by rw [String.isEmpty_iff]; exact hne)]
    cases hf : find k m with
    | none => exact ⟨_, find_insert_self hf⟩
    | some t => exact ⟨t, find_insert_mono hf⟩
  intro i n hi
  rcases List.mem_cons.1 hi with hi | hi
  · simp only [Prod.mk.injEq] at hi
    obtain ⟨rfl, rfl⟩ := hi
    refine ⟨fun h => hself _ _ h, fun h => ?_⟩
    obtain ⟨t, ht⟩ := hself known n h
    exact ⟨t, hstep _ _ _ t ht⟩
  · obtain ⟨h1, h2⟩ := hk i n hi
    refine ⟨fun h => ?_, fun h => ?_⟩
    · obtain ⟨t, hf⟩ := h1 h
      exact ⟨t, hstep _ _ _ t (hstep _ _ _ t hf)⟩
    · obtain ⟨t, hf⟩ := h2 h
      exact ⟨t, hstep _ _ _ t (hstep _ _ _ t hf)⟩

/-- The list of mentions is complete and the parser knows the types of all members. -/
structure Closed (D : Decls) (pairs : List (Nat × String)) : Prop where
  edges : ∀ a n, (a, n) ∈ pairs → ∀ f ∈ (D.records a).fields, ∀ b m v, (b, m, v) ∈ f.q.uses true → (b, m) ∈ pairs
  fields : ∀ a n, (a, n) ∈ pairs → ∀ f ∈ (D.records a).fields, f.q.Supported ∧ f.BitsOk

theorem parseRecord_total {R : Nat} (hcl : Closed D pairs)
    (hN : ∀ a b, (∃ f ∈ (D.records a).fields, ∃ v, (b, "", v) ∈ f.q.uses true) → (D.records b).tag = "" → rank b < rank a)
    (hR : ∀ i n, (i, n) ∈ pairs → rank i ≤ R) : ∀ (fuel : Nat) (P : List (Nat × String)) (r : Nat), P.Nodup →
    (∀ x ∈ P, x ∈ pairs) → (pairs.length - P.length) * (R + 2) + r < fuel →
    HTotal D pairs rank P r (parseRecord D fuel) := by
  intro fuel
  induction fuel with
  | zero => intro P r _ _ hl; omega
  | succ fuel ih =>
    intro P r hn hs hl known emb td id c hk hid hname
    rw [parseRecord]
    simp only
    cases hf1 : find td known with
    | some t => exact ⟨t, c, rfl⟩
    | none =>
    simp only
    cases hf2 : find (D.records id).tag known with
    | some t => exact ⟨t, c, rfl⟩
    | none =>
    simp only
    cases hf3 : (if (D.records id).tag ++ "_" ++ td = "_" then none else find ((D.records id).tag ++ "_" ++ td) c) with
    | some t => exact ⟨t, c, rfl⟩
    | none =>
    simp only
    -- the members are converted with a smaller bound
    have hin : ∃ P', P'.Nodup ∧ (∀ x ∈ P', x ∈ pairs) ∧ (pairs.length - P'.length) * (R + 2) + rank id < fuel ∧
        KnownHas D P' (knownInside (D.records id) td known) := by
      by_cases hnm : HasName D id td
      · have hnew : (id, td) ∉ P := by
          intro hmem
          obtain ⟨h1, h2⟩ := hk id td hmem
          rcases hnm with h | h
          · obtain ⟨t, ht⟩ := h1 h
            rw [ht] at hf2; cases hf2
          · obtain ⟨t, ht⟩ := h2 h
            rw [ht] at hf1; cases hf1
        have hnd : ((id, td) :: P).Nodup := List.nodup_cons.2 ⟨hnew, hn⟩
        have hsub : ∀ x ∈ (id, td) :: P, x ∈ pairs := by
          intro x hx
          rcases List.mem_cons.1 hx with rfl | hx
          · exact hid
          · exact hs x hx
        have hle := nodup_length_le hnd hsub
        refine ⟨_, hnd, hsub, ?_, knownInside_has hk id td⟩
        have hr := hR id td hid
        simp only [List.length_cons] at hle ⊢
        obtain ⟨m, hm⟩ : ∃ m, pairs.length - P.length = m + 1 := ⟨pairs.length - P.length - 1, by omega⟩
        have hm' : pairs.length - (P.length + 1) = m := by omega
        rw [hm, Nat.succ_mul] at hl
        rw [hm']
        omega
      · have hr : rank id < r := hname.resolve_left hnm
        refine ⟨P, hn, hs, by omega, ?_⟩
        intro i n hi
        exact knownInside_has hk id td i n (List.mem_cons_of_mem _ hi)
    obtain ⟨P', hn', hs', hl', hk'⟩ := hin
    have hfs : ∃ fs c', (if D.ignored.contains (D.records id).tag then .ok (.nil, c)
        else parseFields D (parseRecord D fuel) (knownInside (D.records id) td known) (D.records id).fields c : Res Fields) = .ok (fs, c') := by
      split
      · exact ⟨_, _, rfl⟩
      · refine parseFields_total (ih P' (rank id) hn' hs' hl') _ hk' _ c ?_
        intro f hf
        obtain ⟨h1, h2⟩ := hcl.fields id td hid f hf
        refine ⟨?_, h1, h2⟩
        intro j n w hj
        refine ⟨hcl.edges id td hid f hf j n w hj, ?_⟩
        by_cases hnm : HasName D j n
        · exact Or.inl hnm
        · right
          have ht : (D.records j).tag = "" := Classical.byContradiction fun h => hnm (Or.inl h)
          have hnn : n = "" := Classical.byContradiction fun h => hnm (Or.inr h)
          subst hnn
          exact hN id j ⟨f, hf, w, hj⟩ ht
    obtain ⟨fs, c', e⟩ := hfs
    rw [e]
    exact ⟨_, _, rfl⟩

/-- All types are converted if the bound on the depth is large enough. -/
theorem parseAll_total (hcl : Closed D pairs) (hN : Nested D) : ∃ bound, ∀ fuel, bound < fuel → ∀ (qs : List Q) (c : Cache),
    (∀ q ∈ qs, q.Supported ∧ ∀ id n v, (id, n, v) ∈ q.uses true → (id, n) ∈ pairs) → ∃ ts c', parseAll D fuel qs c = .ok (ts, c') := by
  obtain ⟨rank, hrank⟩ := hN
  obtain ⟨R, hR⟩ : ∃ R, ∀ i n, (i, n) ∈ pairs → rank i ≤ R := by
    clear hcl
    induction pairs with
    | nil => exact ⟨0, by simp⟩
    | cons p ps ih =>
      obtain ⟨R, hR⟩ := ih
      refine ⟨max (rank p.1) R, ?_⟩
      intro i n hi
      rcases List.mem_cons.1 hi with rfl | hi
      · exact Nat.le_max_left _ _
      · exact Nat.le_trans (hR i n hi) (Nat.le_max_right _ _)
  refine ⟨pairs.length * (R + 2) + (R + 1), fun fuel hf => ?_⟩
  have hh : HTotal D pairs rank [] (R + 1) (parseRecord D fuel) :=
    parseRecord_total hcl hrank hR fuel [] (R + 1) List.nodup_nil (by simp) (by simpa using hf)
  intro qs
  induction qs with
  | nil => intro c _; exact ⟨_, _, rfl⟩
  | cons q qs ih =>
    intro c hq
    obtain ⟨h1, h2⟩ := hq q (by simp)
    have hk : KnownHas D [] [] := by intro i n hi; cases hi
    have hb : Below D pairs rank (R + 1) (q.uses true) := by
      intro id n w hm
      have := h2 id n w hm
      exact ⟨this, Or.inr (by have := hR id n this; omega)⟩
    obtain ⟨t, c1, e1⟩ := parseQ_total hh [] hk q false true c hb h1
    obtain ⟨ts, c2, e2⟩ := ih c1 (fun q' h' => hq q' (by simp [h']))
    rw [parseAll, e1]
    simp only
    rw [e2]
    exact ⟨_, _, rfl⟩

end

end EasyMock.Parser
