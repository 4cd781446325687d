import Verif.StructCmp.FormatModel
import Verif.StructCmp.ProgLemmas
import Verif.Props.CmpType

/-! # StructCmp: which member a check is for -/

namespace EasyMock.StructCmp

open EasyMock.Types
open EasyMock.Parser (CTy Q Decls FieldD Den DenT DenFs Wraps)

mutual
/-- The check is for a member of the type behind pointers, references, qualifiers and typedefs. -/
def CheckIn (k : Check) : Ty → Prop
  | .ptr _ t => CheckIn k t
  | .ref _ t => CheckIn k t
  | .const _ t => CheckIn k t
  | .tdef _ _ t => CheckIn k t
  | .comp _ _ _ fs _ _ _ => CheckInFields k fs
  | _ => False
/-- The check is for one of the members. -/
def CheckInFields (k : Check) : Fields → Prop
  | .nil => False
  | .field _ t n a rest =>
    (a ≠ 0 ∧ if comparedAsComposite t = true then (if n = "" then CheckIn k t else ∃ x, k.action = .call x)
      else k.field = n ∧ k.array = decide (a > 0) ∧ ∃ o, k.action = .neq o (formatOf t) none) ∨ CheckInFields k rest
  | .bit _ t n _ rest =>
    (n ≠ "" ∧ k.field = n ∧ k.array = false ∧ ∃ o, k.action = .neq o (formatOf t) (some (fullName t))) ∨ CheckInFields k rest
end

/-- A comparator is for a record of the type, and its checks are for members of the record. -/
def Covers (R : List Ty) (c : Comparator) : Prop := c.ty ∈ R ∧ (∃ i kw n fs emb fwd ms, c.ty = .comp i kw n fs emb fwd ms) ∧
  (∃ kw, c.article = article kw) ∧ ∀ k ∈ c.checks, CheckIn k c.ty

mutual
theorem section_checks (env : Env) (prep decl : String) : ∀ (t : Ty) (σ : St), ∀ c ∈ (genSection env prep decl σ t).2, Covers (recordsIn t) c
  | .ptr _ t, σ => section_checks env prep decl t σ
  | .ref _ t, σ => section_checks env prep decl t σ
  | .const _ t, σ => section_checks env prep decl t σ
  | .tdef _ _ t, σ => section_checks env prep decl t σ
  | .comp i kw n fs emb fwd ms, σ => by
    intro c hc
    unfold genSection at hc
    simp only at hc
    split at hc
    · simp at hc
    · have ih := fields_checks env (.comp i kw n fs emb fwd ms) prep
        (decl ++ mostDefinedName env σ.reg (.comp i kw n fs emb fwd ms)) fs
        { σ with done := σ.done ++ [comparatorName env σ.reg (.comp i kw n fs emb fwd ms)] }
      rcases List.mem_cons.1 hc with rfl | hc
      · exact ⟨by simp [recordsIn], ⟨i, kw, n, fs, emb, fwd, ms, rfl⟩, ⟨kw, rfl⟩, ih.1⟩
      · obtain ⟨h1, h2⟩ := ih.2 c hc
        exact ⟨by rw [recordsIn]; exact List.mem_cons_of_mem _ h1, h2⟩
  | .ctype .., _ | .enum .., _ | .incomplete .., _ | .fn .., _ => by intro c hc; simp [genSection] at hc

theorem anonymous_checks (env : Env) (prep decl : String) : ∀ (t : Ty) (σ : St),
    (∀ k ∈ (genAnonymous env prep decl σ t).2.1, CheckIn k t) ∧ ∀ c ∈ (genAnonymous env prep decl σ t).2.2, Covers (recordsIn t) c
  | .ptr _ t, σ => anonymous_checks env prep decl t σ
  | .ref _ t, σ => anonymous_checks env prep decl t σ
  | .const _ t, σ => anonymous_checks env prep decl t σ
  | .tdef _ _ t, σ => anonymous_checks env prep decl t σ
  | .comp i kw n fs emb fwd ms, σ => by
    have ih := fields_checks env (.comp i kw n fs emb fwd ms) prep decl fs σ
    refine ⟨ih.1, fun c hc => ?_⟩
    obtain ⟨h1, h2⟩ := ih.2 c hc
    exact ⟨by rw [recordsIn]; exact List.mem_cons_of_mem _ h1, h2⟩
  | .ctype .., _ | .enum .., _ | .incomplete .., _ | .fn .., _ => by simp [genAnonymous]

theorem fields_checks (env : Env) (owner : Ty) (prep decl : String) : ∀ (fs : Fields) (σ : St),
    (∀ k ∈ (genFields env owner prep decl σ fs).2.1, CheckInFields k fs) ∧
    ∀ c ∈ (genFields env owner prep decl σ fs).2.2, Covers (recordsInFields fs) c
  | .nil, σ => by simp [genFields]
  | .field s t n a rest, σ => by
    unfold genFields
    simp only
    have key : ∀ r : St × List Check × List Comparator,
        (∀ k ∈ r.2.1, CheckInFields k (.field s t n a .nil)) → (∀ c ∈ r.2.2, Covers (recordsIn t) c) →
        (∀ k ∈ r.2.1 ++ (genFields env owner prep decl r.1 rest).2.1, CheckInFields k (.field s t n a rest)) ∧
        ∀ c ∈ r.2.2 ++ (genFields env owner prep decl r.1 rest).2.2, Covers (recordsInFields (.field s t n a rest)) c := by
      intro r h1 h2
      have ih := fields_checks env owner prep decl rest r.1
      refine ⟨fun k hk => ?_, fun c hc => ?_⟩
      · rcases List.mem_append.1 hk with hk | hk
        · have := h1 k hk
          rw [CheckInFields] at this ⊢
          rcases this with h | h
          · exact Or.inl h
          · exact absurd h (by simp [CheckInFields])
        · rw [CheckInFields]; exact Or.inr (ih.1 k hk)
      · rw [recordsInFields]
        rcases List.mem_append.1 hc with hc | hc
        · obtain ⟨a, b⟩ := h2 c hc; exact ⟨List.mem_append_left _ a, b⟩
        · obtain ⟨a, b⟩ := ih.2 c hc; exact ⟨List.mem_append_right _ a, b⟩
    apply key
    · intro k hk
      rw [CheckInFields]
      left
      split at hk
      · simp at hk
      · rename_i ha
        have ha0 : a ≠ 0 := by intro e; subst e; simp at ha
        refine ⟨ha0, ?_⟩
        split at hk
        · rename_i hcmp
          rw [if_pos hcmp]
          split at hk
          · rename_i hn
            rw [if_pos (String.isEmpty_iff.mp hn)]
            exact (anonymous_checks env _ _ t _).1 k hk
          · rename_i hn
            rw [if_neg (fun e => hn (String.isEmpty_iff.mpr e))]
            rw [List.mem_singleton] at hk
            subst hk
            exact ⟨_, rfl⟩
        · rename_i hcmp
          rw [if_neg hcmp]
          rw [List.mem_singleton] at hk
          subst hk
          exact ⟨rfl, rfl, _, rfl⟩
    · intro c hc
      split at hc
      · simp at hc
      · split at hc
        · split at hc
          · exact (anonymous_checks env _ _ t _).2 c hc
          · exact section_checks env _ _ t _ c hc
        · simp at hc
  | .bit s t n b rest, σ => by
    unfold genFields
    simp only
    have ih := fields_checks env owner prep decl rest
    refine ⟨fun k hk => ?_, fun c hc => ?_⟩
    · rw [CheckInFields]
      rcases List.mem_append.1 hk with hk | hk
      · left
        split at hk
        · simp at hk
        · rename_i hn
          rw [List.mem_singleton] at hk
          subst hk
          exact ⟨fun e => hn (String.isEmpty_iff.mpr e), rfl, rfl, _, rfl⟩
      · exact Or.inr ((ih _).1 k hk)
    · obtain ⟨a, b⟩ := (ih _).2 c hc
      rw [recordsInFields]
      exact ⟨List.mem_append_right _ a, b⟩
end

theorem steps_checks (env : Env) : ∀ (steps : List Step) (σ : St), ∀ c ∈ (genSteps env σ steps).2, ∃ t, Step.param t ∈ steps ∧ Covers (recordsIn t) c
  | [], σ => by simp [genSteps]
  | s :: rest, σ => by
    intro c hc
    unfold genSteps at hc
    simp only at hc
    rcases List.mem_append.1 hc with hc | hc
    · cases s with
      | typedef n u => simp [genStep] at hc
      | param t =>
        unfold genStep at hc
        simp only at hc
        split at hc
        · exact ⟨t, List.mem_cons_self, section_checks env _ _ t _ c hc⟩
        · simp at hc
    · obtain ⟨t, ht, h⟩ := steps_checks env rest _ c hc
      exact ⟨t, List.mem_cons_of_mem _ ht, h⟩

/-! ## From the types of the generator to those of the mocked header -/

/-- The members of a record of the mocked header, those of its unnamed records included. -/
inductive MemberOf (D : Decls) : Nat → FieldD → Prop
  | here {id f} : f ∈ (D.records id).fields → f.name ≠ "" → MemberOf D id f
  | anonymous {id f g id'} : f ∈ (D.records id).fields → f.bits = none → f.name = "" → f.q.ty.canon = .record id' → MemberOf D id' g → MemberOf D id g

/-- A record of the mocked header is described by `fs`. -/
def DescribedBy (D : Decls) (s : Bool) (id : Nat) (fs : Fields) : Prop :=
  DenFs D s (if (D.records id).tag ∈ D.ignored then [] else (D.records id).fields) fs

/-- Records inside of a described type. -/
def RecordsOk (D : Decls) (s : Bool) (R : List Ty) : Prop :=
  ∀ u ∈ R, ∃ id fs emb fwd, u = .comp false (D.records id).kw (D.records id).tag fs emb fwd .nil ∧ DescribedBy D s id fs

theorem recordsOk_wraps {D : Decls} {s : Bool} {n : String} {core t : Ty} (w : Wraps n core t) (h : RecordsOk D s (recordsIn core)) :
    RecordsOk D s (recordsIn t) := by
  rcases w with ⟨-, rfl⟩ | ⟨-, rfl⟩
  · exact h
  · simpa only [recordsIn] using h

mutual
theorem den_records {D : Decls} {s v : Bool} {q : Q} {t : Ty} : Den D s v q t → RecordsOk D s (recordsIn t)
  | .plain h => denT_records h
  | .const h => by rw [recordsIn]; exact denT_records h
theorem denT_records {D : Decls} {s v : Bool} {n : String} {c : CTy} {t : Ty} : DenT D s v n c t → RecordsOk D s (recordsIn t)
  | .builtin _ w => recordsOk_wraps w (by intro u hu; simp [recordsIn] at hu)
  | .ptr h w => recordsOk_wraps w (by rw [recordsIn]; exact den_records h)
  | .ref h w => recordsOk_wraps w (by rw [recordsIn]; exact den_records h)
  | .arr h => den_records h
  | .enum w => recordsOk_wraps w (by intro u hu; simp [recordsIn] at hu)
  | .fn _ _ => by intro u hu; simp [recordsIn] at hu
  | .record h w _ => recordsOk_wraps w (by
      intro u hu
      rw [recordsIn] at hu
      rcases List.mem_cons.1 hu with rfl | hu
      · exact ⟨_, _, _, _, rfl, h⟩
      · exact denFs_records h u hu)
  | .tag _ _ => by intro u hu; simp [recordsIn] at hu
theorem denFs_records {D : Decls} {s : Bool} {l : List FieldD} {fs : Fields} : DenFs D s l fs → RecordsOk D s (recordsInFields fs)
  | .nil => by intro u hu; simp [recordsInFields] at hu
  | .field _ h hr _ => by
    intro u hu
    rw [recordsInFields] at hu
    rcases List.mem_append.1 hu with hu | hu
    · exact den_records h u hu
    · exact denFs_records hr u hu
  | .bit _ h hr => by
    intro u hu
    rw [recordsInFields] at hu
    rcases List.mem_append.1 hu with hu | hu
    · exact den_records h u hu
    · exact denFs_records hr u hu
end

/-- Only records are unnamed members (C11 6.7.2.1p2), bit-fields apart. -/
def UnnamedRecords (D : Decls) : Prop :=
  ∀ id, ∀ f ∈ (D.records id).fields, f.bits = none → f.name = "" → ∃ j, f.q.ty.canon = .record j

/-- A member of the mocked header for which there is a check. -/
def Checked (D : Decls) (s : Bool) (id : Nat) (k : Check) (fmt cast : Option String) : Prop :=
  ∃ f t, MemberOf D id f ∧ f.name = k.field ∧ Den D s true f.q t ∧ fmt = formatOf t ∧
    ((f.bits = none ∧ cast = none ∧ comparedAsComposite t = false ∧
        k.array = decide ((match f.q.ty.canon with | .arr n _ => ((n.getD 0 : Nat) : Int) | _ => -1) > 0) ∧
        (match f.q.ty.canon with | .arr n _ => ((n.getD 0 : Nat) : Int) | _ => -1) ≠ 0) ∨
      (f.bits.isSome = true ∧ cast = some (fullName t) ∧ k.array = false))

theorem checkIn_wraps {n : String} {core t : Ty} {k : Check} (w : Wraps n core t) (h : CheckIn k t) : CheckIn k core := by
  rcases w with ⟨-, rfl⟩ | ⟨-, rfl⟩
  · exact h
  · simpa only [CheckIn] using h

/-- A record is compared member by member. -/
theorem den_composite {D : Decls} {s v : Bool} {q : Q} {t : Ty} {j : Nat} (h : Den D s v q t) (hq : q.ty.canon = .record j) :
    comparedAsComposite t = true := by
  have core : ∀ {n t}, DenT D s v n (.record j) t → comparedAsComposite t = true ∧ comparedAsComposite (.const false t) = true := by
    intro n t h
    cases h with
    | record _ w _ =>
      rcases w with ⟨-, rfl⟩ | ⟨-, rfl⟩ <;> (generalize (D.records j).kw = kw; cases kw <;> exact ⟨rfl, rfl⟩)
    | tag => exact ⟨rfl, rfl⟩
  cases h with
  | plain h => exact (core (hq ▸ h)).1
  | const h => exact (core (hq ▸ h)).2

mutual
theorem den_checked {D : Decls} {s v : Bool} {q : Q} {t : Ty} {k : Check} {j : Nat} {o : String} {fmt cast : Option String} (hU : UnnamedRecords D)
    (ha : k.action = .neq o fmt cast) : Den D s v q t → q.ty.canon = .record j → CheckIn k t → Checked D s j k fmt cast
  | .plain h, e, hk => denT_checked hU ha h e hk
  | .const h, e, hk => denT_checked hU ha h e (by simpa only [CheckIn] using hk)
theorem denT_checked {D : Decls} {s v : Bool} {n : String} {c : CTy} {t : Ty} {k : Check} {j : Nat} {o : String} {fmt cast : Option String} (hU : UnnamedRecords D)
    (ha : k.action = .neq o fmt cast) : DenT D s v n c t → c = .record j → CheckIn k t → Checked D s j k fmt cast
  | .builtin _ _, e, _ => by cases e
  | .ptr _ _, e, _ => by cases e
  | .ref _ _, e, _ => by cases e
  | .arr _, e, _ => by cases e
  | .enum _, e, _ => by cases e
  | .fn _ _, e, _ => by cases e
  | .record (id := id) h w _, e, hk => by
    injection e with e
    have hk := checkIn_wraps w hk
    rw [CheckIn] at hk
    rw [← e]
    refine denFs_checked hU ha (id := id) h ?_ hk
    intro f hf
    split at hf
    · simp at hf
    · exact hf
  | .tag _ _, _, hk => by simp [CheckIn] at hk
theorem denFs_checked {D : Decls} {s : Bool} {l : List FieldD} {fs : Fields} {k : Check} {id : Nat} {o : String} {fmt cast : Option String} (hU : UnnamedRecords D)
    (ha : k.action = .neq o fmt cast) : DenFs D s l fs → (∀ f ∈ l, f ∈ (D.records id).fields) → CheckInFields k fs → Checked D s id k fmt cast
  | .nil, _, hk => by simp [CheckInFields] at hk
  | .field (f := f) (t := t) hb h hr _, hl, hk => by
    rw [CheckInFields] at hk
    rcases hk with ⟨h0, hk⟩ | hk
    · have hf := hl f List.mem_cons_self
      by_cases hn : f.name = ""
      · obtain ⟨j, hj⟩ := hU id f hf hb hn
        rw [if_pos (den_composite h hj), if_pos hn] at hk
        obtain ⟨g, t', hg, rest⟩ := den_checked hU ha h hj hk
        exact ⟨g, t', .anonymous hf hb hn hj hg, rest⟩
      · by_cases hc : comparedAsComposite t = true
        · rw [if_pos hc, if_neg hn] at hk
          obtain ⟨x, hx⟩ := hk
          rw [ha] at hx
          cases hx
        · rw [if_neg hc] at hk
          obtain ⟨h1, h2, o', h3⟩ := hk
          rw [ha] at h3
          injection h3 with e1 e2 e3
          exact ⟨f, t, .here hf hn, h1.symm, h, e2, Or.inl ⟨hb, e3, by simpa using hc, h2, h0⟩⟩
    · exact denFs_checked hU ha hr (fun g hg => hl g (List.mem_cons_of_mem _ hg)) hk
  | .bit (f := f) (t := t) hb h hr, hl, hk => by
    rw [CheckInFields] at hk
    rcases hk with ⟨hn, h1, h2, o', h3⟩ | hk
    · rw [ha] at h3
      injection h3 with e1 e2 e3
      exact ⟨f, t, .here (hl f List.mem_cons_self) hn, h1.symm, h, e2, Or.inr ⟨by rw [hb]; rfl, e3, h2⟩⟩
    · exact denFs_checked hU ha hr (fun g hg => hl g (List.mem_cons_of_mem _ hg)) hk
end

/-! ## Formats -/

open EasyMock.Printf (Conv Rank)

/-- The format of a canonical type of the mocked header. -/
def FormatFor (cs : Bool) : CTy → Option String → Prop
  | .builtin b, f => ∃ c, Parser.scalar cs b c ∧ f = some (printfFormat c)
  | .ptr _, f => f = some "p"
  | .enum _, f => f = some "d"
  | _, _ => True

theorem formatOf_const (i : Bool) (t : Ty) : formatOf (.const i t) = formatOf t := rfl

theorem formatOf_wraps {n : String} {core t : Ty} (w : Wraps n core t) : formatOf t = formatOf core := by
  rcases w with ⟨-, rfl⟩ | ⟨-, rfl⟩ <;> rfl

theorem denT_format {D : Decls} {s v : Bool} {n : String} {c : CTy} {t : Ty} (h : DenT D s v n c t) (ha : ∀ m q', c ≠ .arr m q') :
    FormatFor D.charSigned c (formatOf t) := by
  cases h with
  | builtin hs w => exact ⟨_, hs, by rw [formatOf_wraps w]; rfl⟩
  | ptr _ w => exact formatOf_wraps w
  | enum w => exact formatOf_wraps w
  | arr => exact absurd rfl (ha _ _)
  | ref | fn | record | tag => trivial

theorem den_format' {D : Decls} {s v : Bool} {q : Q} {t : Ty} (h : Den D s v q t) (ha : ∀ m q', q.ty.canon ≠ .arr m q') :
    FormatFor D.charSigned q.ty.canon (formatOf t) := by
  cases h with
  | plain h => exact denT_format h ha
  | const h => rw [formatOf_const]; exact denT_format h ha

/-- The format for a member, or for the elements of an array. -/
theorem den_format {D : Decls} {s v : Bool} {q : Q} {t : Ty} (h : Den D s v q t)
    (hm : ∀ n q' m q'', q.ty.canon = .arr n q' → q'.ty.canon ≠ .arr m q'') :
    FormatFor D.charSigned (elemC q.ty.canon) (formatOf t) := by
  have core : ∀ {n c t}, DenT D s v n c t → (∀ n q' m q'', c = .arr n q' → q'.ty.canon ≠ .arr m q'') →
      FormatFor D.charSigned (elemC c) (formatOf t) := by
    intro n c t h hm
    cases c with
    | arr n q' =>
      cases h with
      | arr h => exact den_format' h (fun m q'' => hm n q' m q'' rfl)
    | _ => exact denT_format h (fun _ _ => nofun)
  cases h with
  | plain h => exact core h hm
  | const h => rw [formatOf_const]; exact core h hm

/-! ## Printing -/

open EasyMock.Printf (Prints Shows Passes textOf Arg Scalar decimal)

theorem prints_lit {R : Type} {real : Bool → R → List Char} {r : List Char} {as : List (Arg R)} {o : List Char} (h : Prints real r as o) :
    ∀ (l : List Char), '%' ∉ l → Prints real (l ++ r) as (l ++ o)
  | [], _ => h
  | c :: l, hl => .char (fun e => hl (by simp [e])) (prints_lit h l (fun hm => hl (List.mem_cons_of_mem _ hm)))

/-- What a conversion does with the argument for a value: it is the value's text. -/
theorem shows_value {R : Type} {real : Bool → R → List Char} {under : Nat → Bool × Rank} {cs : Bool} {c : CTy} {v : Scalar R} {a : Arg R} {f : String}
    (hf : FormatFor cs c (some f)) (hp : Passes under c v a) (hw : ∀ i, a ≠ .wide i)
    (he : ∀ id, c = .enum id → (under id).2 = .int ∧ ∀ n, v = .num n → n < 2 ^ 31) :
    ∃ k, (∀ r, Printf.conversion (f.toList ++ r) = some (k, r)) ∧ Shows real k a (textOf real c v) := by
  cases hp with
  | wide => exact absurd rfl (hw _)
  | address =>
    cases hf
    exact ⟨.address, fun r => rfl, .address⟩
  | @enum id s k n hu h1 h2 =>
    cases hf
    obtain ⟨e, hn⟩ := he id rfl
    rw [hu] at e
    subst e
    refine ⟨.num true .int, fun r => rfl, .num ⟨rfl, ?_⟩⟩
    cases s with
    | true => exact Or.inl rfl
    | false => exact Or.inr ⟨(h2 rfl).1, hn n rfl⟩
  | float =>
    obtain ⟨c, hs, e⟩ := hf
    injection e with e
    subst e
    cases hs
    exact ⟨.real false, fun r => rfl, .real⟩
  | double =>
    obtain ⟨c, hs, e⟩ := hf
    injection e with e
    subst e
    cases hs
    exact ⟨.real false, fun r => rfl, .real⟩
  | longDouble =>
    obtain ⟨c, hs, e⟩ := hf
    injection e with e
    subst e
    cases hs
    exact ⟨.real true, fun r => rfl, .real⟩
  | @num b lo hi s k n hr h1 h2 hpr =>
    obtain ⟨c, hs, e⟩ := hf
    injection e with e
    subst e
    have ch : ∀ m : Int, Shows real .char (.num true .int m) [Char.ofNat (m % 256).toNat] := fun m => .char ⟨rfl, Or.inl rfl⟩
    cases b with
    | charS | schar =>
      cases hs
      cases hpr
      exact ⟨.char, fun r => rfl, ch n⟩
    | charU =>
      cases hpr
      refine ⟨.char, fun r => ?_, ch n⟩
      cases hs
      cases cs <;> rfl
    | uchar =>
      cases hpr
      refine ⟨.char, fun r => ?_, ch n⟩
      rcases hs with rfl | ⟨-, rfl⟩ <;> rfl
    | bool =>
      cases hs
      cases hpr
      cases hr
      exact ⟨.num false .int, fun r => rfl, .num ⟨rfl, Or.inr ⟨h1, by simp only [Rank.bits]; omega⟩⟩⟩
    | short =>
      cases hs
      cases hpr
      cases hr
      exact ⟨.short true, fun r => rfl, .short h1 h2⟩
    | ushort =>
      cases hs
      cases hpr
      cases hr
      exact ⟨.short false, fun r => rfl, .ushort h1 h2⟩
    | int | uint | long | ulong | longLong | ulongLong =>
      cases hs
      cases hpr
      exact ⟨.num _ _, fun r => rfl, .num ⟨rfl, Or.inl rfl⟩⟩
    | _ => cases hpr

end EasyMock.StructCmp
