import Verif.StructCmp.ProgSpec
import Verif.StructCmp.GenLemmas

/-! # StructCmp: equality by the types of the generator is equality by the types of the program -/

namespace EasyMock.StructCmp

open EasyMock.Types (Ty Fields Kw)
open EasyMock.Parser (CTy Q Decls FieldD Den DenT DenFs Wraps)

/-- The element of an array, the type itself if it is none. -/
def elemC : CTy → CTy
  | .arr _ q => q.ty.canon
  | c => c

/-- Not an array. -/
def NotArr : CTy → Prop
  | .arr .. => False
  | _ => True

theorem elemC_of {c : CTy} (h : NotArr c) : elemC c = c := by
  cases c <;> first | rfl | exact h.elim

/-- The type of the generator and the type of the program have the same objects and agree on equality. -/
def AgreeT (D : Decls) (t : Ty) (c : CTy) : Prop :=
  ∀ (S : Type) (neq : S → S → Bool) (v w : Val S), FitsC D c v → FitsC D c w →
    Fits t v ∧ Fits t w ∧ (Same neq t v w ↔ SameC D neq c v w)

/-- The same for members. -/
def AgreeFs (D : Decls) (fs : Fields) (l : List FieldD) : Prop :=
  ∀ (S : Type) (neq : S → S → Bool) (g h : String → Option (Val S)), FitsMs D l g → FitsMs D l h →
    FitsFields fs g ∧ FitsFields fs h ∧ (SameFields neq fs g h ↔ SameMs D neq l g h)

theorem agree_wraps {D : Decls} {n : String} {core t : Ty} {c : CTy} (w : Wraps n core t) (h : AgreeT D core c) : AgreeT D t c := by
  rcases w with ⟨-, rfl⟩ | ⟨-, rfl⟩
  · exact h
  · intro S neq v w hv hw
    have := h S neq v w hv hw
    simpa only [Fits, Same] using this

/-- Objects without parts. -/
theorem agree_scalar {D : Decls} {t : Ty} {c : CTy} (hc : IsScalar c)
    (hf : ∀ (S : Type) (v : Val S), Fits t v ↔ ∃ a, v = .scalar a)
    (hs : ∀ (S : Type) (neq : S → S → Bool) (v w : Val S), Same neq t v w ↔ ∃ a b, v = .scalar a ∧ w = .scalar b ∧ neq a b = false) :
    AgreeT D t c := by
  intro S neq v w hv hw
  have only : ∀ u : Val S, FitsC D c u → ∃ a, u = .scalar a := by
    intro u hu
    cases hu with
    | scalar => exact ⟨_, rfl⟩
    | record => exact hc.elim
    | array => exact hc.elim
  obtain ⟨a, rfl⟩ := only v hv
  obtain ⟨b, rfl⟩ := only w hw
  refine ⟨(hf S _).2 ⟨a, rfl⟩, (hf S _).2 ⟨b, rfl⟩, ?_⟩
  rw [hs]
  constructor
  · rintro ⟨a', b', ha, hb, h⟩
    injection ha with ha; injection hb with hb
    subst ha; subst hb
    exact .scalar hc h
  · intro h
    cases h with
    | scalar _ h => exact ⟨a, b, rfl, rfl, h⟩

theorem agree_record {D : Decls} {i : Bool} {kw : Kw} {n : String} {fs : Fields} {emb fwd : Bool} {ms : Types.Methods} {id : Nat}
    (h : AgreeFs D fs (compared D id)) : AgreeT D (.comp i kw n fs emb fwd ms) (.record id) := by
  intro S neq v w hv hw
  cases hv with
  | scalar hs => exact hs.elim
  | record hv =>
    cases hw with
    | scalar hs => exact hs.elim
    | record hw =>
      obtain ⟨h1, h2, h3⟩ := h S neq _ _ hv hw
      refine ⟨by rw [Fits]; exact ⟨_, rfl, h1⟩, by rw [Fits]; exact ⟨_, rfl, h2⟩, ?_⟩
      rw [Same]
      refine Iff.trans h3 ⟨.record, ?_⟩
      intro h
      cases h with
      | record h => exact h

/-- A record described with its members is an object with members. -/
theorem den_holds {D : Decls} {q : Q} {t : Ty} {id : Nat} (h : Den D true true q t) (hq : q.ty.canon = .record id) :
    holdsMembers t = true := by
  have core : ∀ {n t}, DenT D true true n (.record id) t → holdsMembers t = true := by
    intro n t h
    cases h with
    | record _ w _ =>
      rcases w with ⟨-, rfl⟩ | ⟨-, rfl⟩ <;> exact isComposable_comp ..
    | tag _ hv => exact absurd (hv rfl) (by decide)
  cases h with
  | plain h => exact core (hq ▸ h)
  | const h =>
    have : holdsMembers _ = true := core (hq ▸ h)
    rw [holdsMembers, object]
    exact this

/-- A member which is not an array. -/
theorem size_other {c : CTy} (h : NotArr c) : (match c with | .arr n _ => ((n.getD 0 : Nat) : Int) | _ => -1) = -1 := by
  cases c <;> first | rfl | exact h.elim

/-- One member. -/
theorem agree_field {D : Decls} {f : FieldD} {l : List FieldD} {s : String} {t : Ty} {fs : Fields} (hb : f.bits = none)
    (hd : ∀ id, f.q.ty.canon = .record id → holdsMembers t = true) (ht : AgreeT D t (elemC f.q.ty.canon)) (hr : AgreeFs D fs l) :
    AgreeFs D (.field s t f.name (match f.q.ty.canon with | .arr n _ => ((n.getD 0 : Nat) : Int) | _ => -1) fs) (f :: l) := by
  intro S neq g h hg hh
  by_cases he : NoElements f.q.ty.canon
  · have tail : ∀ k : String → Option (Val S), FitsMs D (f :: l) k → FitsMs D l k := by
      intro k hk
      cases hk with
      | empty _ _ hk => exact hk
      | named _ hn => exact absurd he hn
      | anonymous _ _ hid => rw [hid] at he; exact he.elim
      | bit hw => rw [hb] at hw; cases hw
      | pad hw => rw [hb] at hw; cases hw
    have hz : (match f.q.ty.canon with | .arr n _ => ((n.getD 0 : Nat) : Int) | _ => -1) = 0 := by
      revert he
      generalize f.q.ty.canon = c
      intro he
      match c, he with
      | .arr none _, _ => rfl
      | .arr (some 0) _, _ => rfl
    obtain ⟨h1, h2, h3⟩ := hr S neq g h (tail g hg) (tail h hh)
    rw [hz]
    refine ⟨by rw [FitsFields]; exact ⟨by simp, h1⟩, by rw [FitsFields]; exact ⟨by simp, h2⟩, ?_⟩
    rw [SameFields, if_pos rfl]
    refine Iff.trans ⟨fun x => x.2, fun x => ⟨trivial, x⟩⟩ (Iff.trans h3 ⟨.empty hb he, ?_⟩)
    intro x
    cases x with
    | empty _ _ x => exact x
    | named _ hn => exact absurd he hn
    | anonymous _ _ hid => rw [hid] at he; exact he.elim
    | bit hw => rw [hb] at hw; cases hw
    | pad hw => rw [hb] at hw; cases hw
  · by_cases hn : f.name = ""
    · -- an unnamed record
      have only : ∀ k : String → Option (Val S), FitsMs D (f :: l) k →
          ∃ id, f.q.ty.canon = .record id ∧ FitsC D (.record id) (.comp k) ∧ FitsMs D l k := by
        intro k hk
        cases hk with
        | empty _ h => exact absurd h he
        | named _ _ h => exact absurd hn h
        | anonymous _ _ hid hk hl => exact ⟨_, hid, hk, hl⟩
        | bit hw => rw [hb] at hw; cases hw
        | pad hw => rw [hb] at hw; cases hw
      obtain ⟨id, hid, hg1, hg2⟩ := only g hg
      obtain ⟨id', hid', hh1, hh2⟩ := only h hh
      rw [hid] at hid'
      injection hid' with hid'
      subst hid'
      obtain ⟨h1, h2, h3⟩ := hr S neq g h hg2 hh2
      have ht' : AgreeT D t (.record id) := by rw [hid] at ht; exact ht
      obtain ⟨i1, i2, i3⟩ := ht' S neq _ _ hg1 hh1
      have hz : (match f.q.ty.canon with | .arr n _ => ((n.getD 0 : Nat) : Int) | _ => -1) = -1 := by rw [hid]
      have hm := hd id hid
      rw [hz]
      refine ⟨?_, ?_, ?_⟩
      · rw [FitsFields, if_neg (by decide), if_pos hn]; exact ⟨⟨hm, by decide, i1⟩, h1⟩
      · rw [FitsFields, if_neg (by decide), if_pos hn]; exact ⟨⟨hm, by decide, i2⟩, h2⟩
      · rw [SameFields, if_neg (by decide), if_pos hn, i3, h3]
        constructor
        · rintro ⟨x, y⟩
          exact .anonymous hb hn hid x y
        · intro x
          cases x with
          | empty _ h => exact absurd h he
          | named _ _ h => exact absurd hn h
          | anonymous _ _ hid'' hk hl =>
            rw [hid] at hid''
            injection hid'' with hid''
            subst hid''
            exact ⟨hk, hl⟩
          | bit hw => rw [hb] at hw; cases hw
          | pad hw => rw [hb] at hw; cases hw
    · -- a member with a name
      have only : ∀ k : String → Option (Val S), FitsMs D (f :: l) k →
          ∃ v, k f.name = some v ∧ FitsC D f.q.ty.canon v ∧ FitsMs D l k := by
        intro k hk
        cases hk with
        | empty _ h => exact absurd h he
        | named _ _ _ h1 h2 h3 => exact ⟨_, h1, h2, h3⟩
        | anonymous _ h => exact absurd h hn
        | bit hw => rw [hb] at hw; cases hw
        | pad hw => rw [hb] at hw; cases hw
      obtain ⟨v, hgv, hv, hg2⟩ := only g hg
      obtain ⟨w, hhw, hw, hh2⟩ := only h hh
      obtain ⟨h1, h2, h3⟩ := hr S neq g h hg2 hh2
      have samems : SameMs D neq (f :: l) g h ↔ SameC D neq f.q.ty.canon v w ∧ SameMs D neq l g h := by
        constructor
        · intro x
          cases x with
          | empty _ h => exact absurd h he
          | named _ _ _ x1 x2 x3 x4 =>
            rw [hgv] at x1; rw [hhw] at x2
            injection x1 with x1; injection x2 with x2
            subst x1; subst x2
            exact ⟨x3, x4⟩
          | anonymous _ h => exact absurd h hn
          | bit hw => rw [hb] at hw; cases hw
          | pad hw => rw [hb] at hw; cases hw
        · rintro ⟨x, y⟩
          exact .named hb he hn hgv hhw x y
      by_cases ha : NotArr f.q.ty.canon
      · have hz := size_other ha
        rw [elemC_of ha] at ht
        obtain ⟨i1, i2, i3⟩ := ht S neq _ _ hv hw
        rw [hz]
        refine ⟨?_, ?_, ?_⟩
        · rw [FitsFields, if_neg (by decide), if_neg hn]; simp only [if_neg (show ¬ (-1 : Int) > 0 by decide)]; exact ⟨⟨v, hgv, i1⟩, h1⟩
        · rw [FitsFields, if_neg (by decide), if_neg hn]; simp only [if_neg (show ¬ (-1 : Int) > 0 by decide)]; exact ⟨⟨w, hhw, i2⟩, h2⟩
        · rw [SameFields, if_neg (by decide), if_neg hn, samems, ← i3, h3]
          simp only [if_neg (show ¬ (-1 : Int) > 0 by decide)]
          constructor
          · rintro ⟨⟨v', w', e1, e2, x⟩, y⟩
            rw [hgv] at e1; rw [hhw] at e2
            injection e1 with e1; injection e2 with e2
            subst e1; subst e2
            exact ⟨x, y⟩
          · rintro ⟨x, y⟩
            exact ⟨⟨v, w, hgv, hhw, x⟩, y⟩
      · obtain ⟨n, q, hq⟩ : ∃ n q, f.q.ty.canon = .arr n q := by
          revert ha
          generalize f.q.ty.canon = c
          intro ha
          cases c <;> first | exact ⟨_, _, rfl⟩ | exact absurd trivial ha
        have hz : (match f.q.ty.canon with | .arr n _ => ((n.getD 0 : Nat) : Int) | _ => -1) = ((n.getD 0 : Nat) : Int) := by rw [hq]
        rw [hq] at hv hw he samems
        have ht' : AgreeT D t q.ty.canon := by rw [hq] at ht; exact ht
        cases hv with
        | scalar h => exact h.elim
        | @array n _ a hv =>
          cases hw with
          | scalar h => exact h.elim
          | @array _ _ b hw =>
            have hpos : 0 < n := by
              rcases Nat.eq_zero_or_pos n with rfl | h
              · exact absurd trivial he
              · exact h
            have k0 : ¬ (((some n : Option Nat).getD 0 : Nat) : Int) = 0 := by simp only [Option.getD_some]; omega
            have kp : (((some n : Option Nat).getD 0 : Nat) : Int) > 0 := by simp only [Option.getD_some]; omega
            have kn : (((some n : Option Nat).getD 0 : Nat) : Int).toNat = n := by simp only [Option.getD_some]; omega
            rw [hz]
            refine ⟨?_, ?_, ?_⟩
            · rw [FitsFields, if_neg k0, if_neg hn]; simp only [if_pos kp, kn]
              exact ⟨⟨_, hgv, a, rfl, fun i hi => (ht' S neq _ _ (hv i hi) (hv i hi)).1⟩, h1⟩
            · rw [FitsFields, if_neg k0, if_neg hn]; simp only [if_pos kp, kn]
              exact ⟨⟨_, hhw, b, rfl, fun i hi => (ht' S neq _ _ (hw i hi) (hw i hi)).1⟩, h2⟩
            · rw [SameFields, if_neg k0, if_neg hn, samems, h3]; simp only [if_pos kp, kn]
              constructor
              · rintro ⟨⟨v', w', e1, e2, gc, ge, e3, e4, x⟩, y⟩
                rw [hgv] at e1; rw [hhw] at e2
                injection e1 with e1; injection e2 with e2
                subst e1; subst e2
                injection e3 with _ e3; injection e4 with _ e4
                subst e3; subst e4
                exact ⟨.array fun i hi => (ht' S neq _ _ (hv i hi) (hw i hi)).2.2.1 (x i hi), y⟩
              · rintro ⟨x, y⟩
                refine ⟨⟨_, _, hgv, hhw, a, b, rfl, rfl, ?_⟩, y⟩
                cases x with
                | array x => exact fun i hi => (ht' S neq _ _ (hv i hi) (hw i hi)).2.2.2 (x i hi)

/-- One bit-field. -/
theorem agree_bit {D : Decls} {f : FieldD} {l : List FieldD} {s : String} {t : Ty} {fs : Fields} {n : Nat} (hb : f.bits = some n)
    (hr : AgreeFs D fs l) : AgreeFs D (.bit s t f.name n fs) (f :: l) := by
  intro S neq g h hg hh
  by_cases hn : f.name = ""
  · have tail : ∀ k : String → Option (Val S), FitsMs D (f :: l) k → FitsMs D l k := by
      intro k hk
      cases hk with
      | empty hw | named hw | anonymous hw => rw [hb] at hw; cases hw
      | bit _ h => exact absurd hn h
      | pad _ _ h => exact h
    obtain ⟨h1, h2, h3⟩ := hr S neq g h (tail g hg) (tail h hh)
    refine ⟨by rw [FitsFields]; exact ⟨Or.inl hn, h1⟩, by rw [FitsFields]; exact ⟨Or.inl hn, h2⟩, ?_⟩
    rw [SameFields, h3]
    refine ⟨fun x => .pad hb hn x.2, ?_⟩
    intro x
    cases x with
    | empty hw | named hw | anonymous hw => rw [hb] at hw; cases hw
    | bit _ h => exact absurd hn h
    | pad _ _ h => exact ⟨Or.inl hn, h⟩
  · have only : ∀ k : String → Option (Val S), FitsMs D (f :: l) k → (∃ a, k f.name = some (.scalar a)) ∧ FitsMs D l k := by
      intro k hk
      cases hk with
      | empty hw | named hw | anonymous hw => rw [hb] at hw; cases hw
      | bit _ _ h1 h2 => exact ⟨⟨_, h1⟩, h2⟩
      | pad _ h => exact absurd h hn
    obtain ⟨a1, a2⟩ := only g hg
    obtain ⟨b1, b2⟩ := only h hh
    obtain ⟨h1, h2, h3⟩ := hr S neq g h a2 b2
    refine ⟨by rw [FitsFields]; exact ⟨Or.inr a1, h1⟩, by rw [FitsFields]; exact ⟨Or.inr b1, h2⟩, ?_⟩
    rw [SameFields, h3]
    constructor
    · rintro ⟨x | ⟨a, b, x1, x2, x3⟩, y⟩
      · exact absurd x hn
      · exact .bit hb hn x1 x2 x3 y
    · intro x
      cases x with
      | empty hw | named hw | anonymous hw => rw [hb] at hw; cases hw
      | bit _ _ x1 x2 x3 x4 => exact ⟨Or.inr ⟨_, _, x1, x2, x3⟩, x4⟩
      | pad _ h => exact absurd h hn

/-- A function is no object. -/
theorem agree_fn {D : Decls} {t : Ty} {ret : Q} {ps : Parser.Qs} {b : Bool} : AgreeT D t (.fn ret ps b) := by
  intro S neq v w hv
  cases hv with
  | scalar h => exact h.elim

/-- A reference is no object: it has no objects here. -/
theorem agree_ref {D : Decls} {t : Ty} {q : Q} : AgreeT D t (.ref q) := by
  intro S neq v w hv
  cases hv with
  | scalar h => exact h.elim

theorem matrix_compared {D : Decls} (hM : NoMatrix D) {id : Nat} :
    ∀ f ∈ compared D id, ∀ n q m q', f.q.ty.canon = .arr n q → q.ty.canon ≠ .arr m q' := by
  intro f hf
  rw [compared] at hf
  split at hf
  · simp at hf
  · exact hM id f hf

mutual
theorem den_agree {D : Decls} (hM : NoMatrix D) :
    ∀ {v : Bool} {q : Q} {t : Ty}, Den D true v q t → v = true → NotArr (elemC q.ty.canon) → AgreeT D t (elemC q.ty.canon)
  | _, _, _, .plain h, hv, hn => denT_agree hM h hv hn
  | _, _, _, .const h, hv, hn => by
    have := denT_agree hM h hv hn
    intro S neq v w hv hw
    have := this S neq v w hv hw
    rw [Fits, Fits, Same]
    exact this

theorem denT_agree {D : Decls} (hM : NoMatrix D) :
    ∀ {v : Bool} {n : String} {c : CTy} {t : Ty}, DenT D true v n c t → v = true → NotArr (elemC c) → AgreeT D t (elemC c)
  | _, _, _, _, .builtin _ w, _, _ => agree_wraps w (agree_scalar trivial (fun _ _ => by simp only [Fits]) (fun _ _ _ _ => by simp only [Same]))
  | _, _, _, _, .ptr _ w, _, _ => agree_wraps w (agree_scalar trivial (fun _ _ => by simp only [Fits]) (fun _ _ _ _ => by simp only [Same]))
  | _, _, _, _, .ref _ _, _, _ => agree_ref
  | _, _, _, _, .arr h, hv, hn => by
    have hn' : NotArr (Q.ty _).canon := hn
    have e := elemC_of hn'
    have := den_agree hM h hv (by rw [e]; exact hn')
    rw [e] at this
    exact this
  | _, _, _, _, .enum w, _, _ => agree_wraps w (agree_scalar trivial (fun _ _ => by simp only [Fits]) (fun _ _ _ _ => by simp only [Same]))
  | _, _, _, _, .fn _ _, _, _ => agree_fn
  | _, _, _, _, @DenT.record _ _ _ _ id _ _ _ h w _, _, _ =>
    agree_wraps w (agree_record (denFs_agree hM h (matrix_compared hM)))
  | _, _, _, _, .tag _ hv, h, _ => by subst h; exact absurd (hv rfl) (by decide)

theorem denFs_agree {D : Decls} (hM : NoMatrix D) : ∀ {l : List FieldD} {fs : Fields}, DenFs D true l fs →
    (∀ f ∈ l, ∀ n q m q', f.q.ty.canon = .arr n q → q.ty.canon ≠ .arr m q') → AgreeFs D fs l
  | _, _, .nil, _ => by
    intro S neq g h _ _
    refine ⟨by rw [FitsFields]; trivial, by rw [FitsFields]; trivial, ?_⟩
    rw [SameFields]
    exact ⟨fun _ => .nil, fun _ => trivial⟩
  | _, _, @DenFs.field _ _ f l _ t _ hb hd hr _, hl =>
    agree_field hb (fun _ hid => den_holds hd hid)
      (den_agree hM hd rfl (by
        have := hl f List.mem_cons_self
        revert this
        generalize f.q.ty.canon = c
        intro this
        cases c with
        | arr n q =>
          show NotArr q.ty.canon
          revert this
          generalize hc : q.ty.canon = c'
          intro this
          cases c' with
          | arr m q' => exact absurd hc (this n q m q' rfl)
          | _ => trivial
        | _ => trivial))
      (denFs_agree hM hr (fun f hf => hl f (List.mem_cons_of_mem _ hf)))
  | _, _, .bit hb _ hr, hl => agree_bit hb (denFs_agree hM hr (fun f hf => hl f (List.mem_cons_of_mem _ hf)))
end

/-- What a parameter leads to, if it is described with its members. -/
theorem den_behind {D : Decls} {s : Bool} : ∀ {c : CTy} {id : Nat}, Behind c id → ∀ {v : Bool} {n : String} {t : Ty},
    DenT D s v n c t → Types.isComposable (Types.rawType t) = true →
    ∃ fs emb fwd, Types.rawType t = .comp false (D.records id).kw (D.records id).tag fs emb fwd .nil ∧ DenFs D s (compared D id) fs := by
  have raw : ∀ {n core t}, Wraps n core t → Types.rawType t = Types.rawType core := by
    intro n core t w
    rcases w with ⟨-, rfl⟩ | ⟨-, rfl⟩
    · rfl
    · rw [Types.rawType]
  intro c id hb
  induction hb with
  | @record id =>
    intro v n t h hc
    cases h with
    | record h w _ =>
      exact ⟨_, _, _, raw w, h⟩
    | tag => cases hc
  | ptr _ ih =>
    intro v n t h hc
    cases h with
    | ptr h w =>
      rw [raw w, Types.rawType] at hc ⊢
      cases h with
      | plain h => exact ih h hc
      | const h => rw [Types.rawType] at hc ⊢; exact ih h hc
  | ref _ ih =>
    intro v n t h hc
    cases h with
    | ref h w =>
      rw [raw w, Types.rawType] at hc ⊢
      cases h with
      | plain h => exact ih h hc
      | const h => rw [Types.rawType] at hc ⊢; exact ih h hc

theorem q_behind {D : Decls} {s v : Bool} {q : Q} {id : Nat} (hb : Behind q.ty.canon id) {t : Ty} (h : Den D s v q t)
    (hc : Types.isComposable (Types.rawType t) = true) :
    ∃ fs emb fwd, Types.rawType t = .comp false (D.records id).kw (D.records id).tag fs emb fwd .nil ∧ DenFs D s (compared D id) fs := by
  cases h with
  | plain h => exact den_behind hb h hc
  | const h => rw [Types.rawType] at hc ⊢; exact den_behind hb h hc

end EasyMock.StructCmp
