import Verif.StructCmp.FormatLemmas

/-! # StructCmp: the names in the messages have no `%` in them -/

namespace EasyMock.StructCmp

open EasyMock.Types
open EasyMock.Parser (CTy Q Qs Decls FieldD Den DenT DenFs Wraps)

/-- A text without conversions of `printf`. -/
def Free (s : String) : Prop := '%' ∉ s.toList

theorem Free.append {a b : String} (ha : Free a) (hb : Free b) : Free (a ++ b) := by
  unfold Free
  rw [String.toList_append, List.mem_append]
  exact fun h => h.elim ha hb

mutual
/-- The names in a type are free. -/
def TyFree : Ty → Prop
  | .ptr _ t => TyFree t
  | .ref _ t => TyFree t
  | .const _ t => TyFree t
  | .tdef _ n t => Free n ∧ TyFree t
  | .comp _ _ n fs _ _ _ => Free n ∧ FieldsFree fs
  | _ => True
/-- The names in the types of members are free. -/
def FieldsFree : Fields → Prop
  | .nil => True
  | .field _ t _ _ rest => TyFree t ∧ FieldsFree rest
  | .bit _ t _ _ rest => TyFree t ∧ FieldsFree rest
end

/-- The registered names are free. -/
def RegFree (reg : List (Nat × String)) : Prop := ∀ e ∈ reg, Free e.2

variable {env : Env}

theorem register_free {reg : List (Nat × String)} {n : String} {t : Ty} (h : RegFree reg) (hn : Free n) : RegFree (register env reg n t) := by
  unfold register
  split
  · exact h
  · intro e he
    rcases List.mem_append.mp he with he | he
    · exact h e he
    · rw [List.mem_singleton] at he; subst he; exact hn

theorem registerRaw_free : ∀ (t : Ty) {reg : List (Nat × String)}, RegFree reg → TyFree t → RegFree (registerRaw env reg t)
  | .ptr _ t, _, h, ht | .ref _ t, _, h, ht | .const _ t, _, h, ht => registerRaw_free t h ht
  | .tdef _ _ t, _, h, ht => registerRaw_free t (register_free h ht.1) ht.2
  | .ctype .., _, h, _ | .enum .., _, h, _ | .comp .., _, h, _ | .incomplete .., _, h, _ | .fn .., _, h, _ => h

theorem registerDefined_free : ∀ (t : Ty) {reg : List (Nat × String)}, RegFree reg → TyFree t → RegFree (registerDefined env reg t)
  | .ptr .., _, h, _ | .ref .., _, h, _ => h
  | .const _ t, _, h, ht => registerDefined_free t h ht
  | .tdef _ _ t, _, h, ht => registerDefined_free t (register_free h ht.1) ht.2
  | .ctype .., _, h, _ | .enum .., _, h, _ | .comp .., _, h, _ | .incomplete .., _, h, _ | .fn .., _, h, _ => h

theorem free_empty : Free "" := by unfold Free; decide +kernel
theorem free_colons : Free "::" := by unfold Free; decide +kernel
theorem free_anonymous : Free "<anonymous>" := by unfold Free; decide +kernel

/-- The type is a record, whose tag is free. -/
def RecordFree : Ty → Prop
  | .comp _ _ n _ _ _ _ => Free n
  | _ => False

theorem defined_free {reg : List (Nat × String)} (h : RegFree reg) {t : Ty} (ht : RecordFree t) : Free (mostDefinedName env reg t) := by
  unfold mostDefinedName
  split
  · match t, ht with
    | .comp i kw n fs emb fwd ms, ht =>
      have e : (Types.attrs (.comp i kw n fs emb fwd ms)).name = n := by cases kw <;> rfl
      rw [e]
      exact ht
  · unfold typedefName
    cases hf : reg.find? (fun e => e.1 == env.key t) with
    | none => exact free_empty
    | some e => exact h e (List.mem_of_find?_eq_some hf)

theorem owner_free {reg : List (Nat × String)} (h : RegFree reg) {t : Ty} (ht : RecordFree t) {d : String} (hd : Free d) :
    Free (ownerText env reg t d) := by
  unfold ownerText
  split
  · exact defined_free h ht
  · refine hd.append ?_
    split
    · exact free_anonymous
    · exact free_empty

theorem anonymousDecl_free {d : String} (hd : Free d) : Free (anonymousDecl d) := by
  unfold anonymousDecl
  refine Free.append ?_ free_colons
  split
  · exact hd.append free_anonymous
  · exact hd

/-- The name which a check shows for the record is free. -/
def CheckFree (k : Check) : Prop := ∀ o f c, k.action = .neq o f c → Free o

/-- What a piece of generation yields. -/
structure OwnersFree (σ : St) (cs : List Check) (ks : List Comparator) : Prop where
  reg : RegFree σ.reg
  checks : ∀ x ∈ cs, CheckFree x
  cmps : ∀ k ∈ ks, ∀ x ∈ k.checks, CheckFree x

theorem OwnersFree.nil {σ : St} (h : RegFree σ.reg) : OwnersFree σ [] [] := ⟨h, by simp, by simp⟩

mutual
theorem section_free (p d : String) (hd : Free d) : ∀ (t : Ty) (σ : St), RegFree σ.reg → TyFree t →
    OwnersFree (genSection env p d σ t).1 [] (genSection env p d σ t).2
  | .ptr _ t, σ, h, ht => section_free p d hd t σ h ht
  | .ref _ t, σ, h, ht => section_free p d hd t σ h ht
  | .const _ t, σ, h, ht => section_free p d hd t σ h ht
  | .tdef _ _ t, σ, h, ht => section_free p d hd t σ h ht.2
  | .comp i kw n fs emb fwd ms, σ, h, ht => by
    unfold genSection
    simp only
    split
    · exact OwnersFree.nil h
    · have ih := fields_free (.comp i kw n fs emb fwd ms) p (d ++ mostDefinedName env σ.reg (.comp i kw n fs emb fwd ms)) ht.1
        (hd.append (defined_free (t := .comp i kw n fs emb fwd ms) h ht.1)) fs
        { σ with done := σ.done ++ [comparatorName env σ.reg (.comp i kw n fs emb fwd ms)] } h ht.2
      refine ⟨ih.reg, by simp, ?_⟩
      intro k hk
      rcases List.mem_cons.1 hk with rfl | hk
      · exact ih.checks
      · exact ih.cmps k hk
  | .ctype .., _, h, _ | .enum .., _, h, _ | .incomplete .., _, h, _ | .fn .., _, h, _ => OwnersFree.nil h

theorem anonymous_free (p d : String) (hd : Free d) : ∀ (t : Ty) (σ : St), RegFree σ.reg → TyFree t →
    OwnersFree (genAnonymous env p d σ t).1 (genAnonymous env p d σ t).2.1 (genAnonymous env p d σ t).2.2
  | .ptr _ t, σ, h, ht => anonymous_free p d hd t σ h ht
  | .ref _ t, σ, h, ht => anonymous_free p d hd t σ h ht
  | .const _ t, σ, h, ht => anonymous_free p d hd t σ h ht
  | .tdef _ _ t, σ, h, ht => anonymous_free p d hd t σ h ht.2
  | .comp i kw n fs emb fwd ms, σ, h, ht => fields_free (.comp i kw n fs emb fwd ms) p d ht.1 hd fs σ h ht.2
  | .ctype .., _, h, _ | .enum .., _, h, _ | .incomplete .., _, h, _ | .fn .., _, h, _ => OwnersFree.nil h

theorem fields_free (owner : Ty) (p d : String) (ho : RecordFree owner) (hd : Free d) : ∀ (fs : Fields) (σ : St), RegFree σ.reg → FieldsFree fs →
    OwnersFree (genFields env owner p d σ fs).1 (genFields env owner p d σ fs).2.1 (genFields env owner p d σ fs).2.2
  | .nil, σ, h, _ => OwnersFree.nil h
  | .field s t n a rest, σ, h, ht => by
    have h₁ : RegFree (if a > 0 then { σ with reg := registerDefined env σ.reg t } else σ).reg := by
      split
      · exact registerDefined_free t h ht.1
      · exact h
    unfold genFields
    simp only
    generalize (if a > 0 then { σ with reg := registerDefined env σ.reg t } else σ) = σ₁ at h₁ ⊢
    have key : ∀ r : St × List Check × List Comparator, OwnersFree r.1 r.2.1 r.2.2 →
        OwnersFree (genFields env owner p d r.1 rest).1 (r.2.1 ++ (genFields env owner p d r.1 rest).2.1)
          (r.2.2 ++ (genFields env owner p d r.1 rest).2.2) := by
      intro r hr
      have ih := fields_free owner p d ho hd rest r.1 hr.reg ht.2
      refine ⟨ih.reg, fun x hx => ?_, fun x hx => ?_⟩
      · exact (List.mem_append.mp hx).elim (hr.checks x) (ih.checks x)
      · exact (List.mem_append.mp hx).elim (hr.cmps x) (ih.cmps x)
    apply key
    have h₂ : RegFree (registerRaw env σ₁.reg t) := registerRaw_free t h₁ ht.1
    split
    · exact OwnersFree.nil h₁
    · split
      · split
        · exact anonymous_free (p ++ "_") (anonymousDecl d) (anonymousDecl_free hd) t _ h₂ ht.1
        · have ih := section_free (p ++ "_") (d ++ "::") (hd.append free_colons) t { σ₁ with reg := registerRaw env σ₁.reg t } h₂ ht.1
          refine ⟨ih.reg, ?_, ih.cmps⟩
          intro x hx
          rw [List.mem_singleton] at hx
          subst hx
          intro _ _ _ e
          cases e
      · refine ⟨h₂, ?_, by simp⟩
        intro x hx
        rw [List.mem_singleton] at hx
        subst hx
        intro o f k e
        cases e
        exact owner_free h₂ ho hd
  | .bit s t n k rest, σ, h, ht => by
    unfold genFields
    simp only
    have key : ∀ r : St × List Check, OwnersFree r.1 r.2 [] →
        OwnersFree (genFields env owner p d r.1 rest).1 (r.2 ++ (genFields env owner p d r.1 rest).2.1)
          (genFields env owner p d r.1 rest).2.2 := by
      intro r hr
      have ih := fields_free owner p d ho hd rest r.1 hr.reg ht.2
      exact ⟨ih.reg, fun x hx => (List.mem_append.mp hx).elim (hr.checks x) (ih.checks x), ih.cmps⟩
    apply key
    split
    · exact OwnersFree.nil h
    · have h₂ : RegFree (registerRaw env σ.reg t) := registerRaw_free t h ht.1
      refine ⟨h₂, ?_, by simp⟩
      intro x hx
      rw [List.mem_singleton] at hx
      subst hx
      intro o f k e
      cases e
      exact owner_free h₂ ho hd
end

theorem steps_free : ∀ (ts : List Ty) (σ : St), RegFree σ.reg → (∀ t ∈ ts, TyFree t) →
    OwnersFree (genSteps env σ (ts.map .param)).1 [] (genSteps env σ (ts.map .param)).2
  | [], σ, h, _ => OwnersFree.nil h
  | t :: rest, σ, h, hs => by
    have ht := hs t List.mem_cons_self
    have h1 : OwnersFree (genStep env σ (.param t)).1 [] (genStep env σ (.param t)).2 := by
      unfold genStep
      simp only
      have h₂ : RegFree (registerRaw env σ.reg t) := registerRaw_free t h ht
      split
      · exact section_free "" "" free_empty t { σ with reg := registerRaw env σ.reg t } h₂ ht
      · exact OwnersFree.nil h₂
    have h2 := steps_free rest (genStep env σ (.param t)).1 h1.reg (fun x hx => hs x (List.mem_cons_of_mem _ hx))
    rw [List.map_cons]
    unfold genSteps
    exact ⟨h2.reg, by simp, fun k hk => (List.mem_append.mp hk).elim (h1.cmps k) (h2.cmps k)⟩

/-! ## The names of the mocked header -/

mutual
/-- The typedef names in a type, but not in function types. -/
def CFree : CTy → Prop
  | .ptr q | .ref q | .arr _ q => QFree q
  | .tdef n q => Free n ∧ QFree q
  | _ => True
/-- The same with qualifiers. -/
def QFree : Q → Prop
  | .mk _ _ t => CFree t
end

/-- The names of the mocked header are free of `%`, as every identifier is. -/
structure NoPercent (D : Decls) (roots : List Q) : Prop where
  tags : ∀ id, Free (D.records id).tag
  members : ∀ id, ∀ f ∈ (D.records id).fields, Free f.name ∧ QFree f.q
  roots : ∀ q ∈ roots, QFree q

theorem canon_free : ∀ {c : CTy}, CFree c → Free c.outer ∧ CFree c.canon
  | .tdef n (.mk _ _ t), h => by
    have := canon_free (c := t) (by simpa [CFree, QFree] using h.2)
    rw [CTy.outer, CTy.canon]
    refine ⟨?_, this.2⟩
    split
    · exact this.1
    · exact h.1
  | .builtin _, h | .enum _, h | .ptr _, h | .ref _, h | .arr .., h | .record _, h | .fn .., h => ⟨free_empty, h⟩

theorem wraps_free {n : String} {core t : Ty} (w : Wraps n core t) (hn : Free n) (h : TyFree core) : TyFree t := by
  rcases w with ⟨-, rfl⟩ | ⟨-, rfl⟩
  · exact h
  · exact ⟨hn, h⟩

mutual
theorem den_free {D : Decls} {R : List Q} {s v : Bool} {q : Q} {t : Ty} (hD : NoPercent D R) : Den D s v q t → QFree q → TyFree t
  | .plain h, hq => denT_free hD h (canon_free hq).1 (canon_free hq).2
  | .const h, hq => by rw [TyFree]; exact denT_free hD h (canon_free hq).1 (canon_free hq).2
theorem denT_free {D : Decls} {R : List Q} {s v : Bool} {n : String} {c : CTy} {t : Ty} (hD : NoPercent D R) : DenT D s v n c t → Free n → CFree c → TyFree t
  | .builtin _ w, hn, _ => wraps_free w hn trivial
  | .ptr h w, hn, hc => wraps_free w hn (by rw [TyFree]; exact den_free hD h hc)
  | .ref h w, hn, hc => wraps_free w hn (by rw [TyFree]; exact den_free hD h hc)
  | .arr h, _, hc => den_free hD h hc
  | .enum w, hn, _ => wraps_free w hn trivial
  | .fn _ _, _, _ => trivial
  | .record (id := id) h w _, hn, _ => wraps_free w hn ⟨hD.tags id, denFs_free hD h (by
      intro f hf
      split at hf
      · simp at hf
      · exact (hD.members id f hf).2)⟩
  | .tag _ _, _, _ => trivial
theorem denFs_free {D : Decls} {R : List Q} {s : Bool} {l : List FieldD} {fs : Fields} (hD : NoPercent D R) : DenFs D s l fs → (∀ f ∈ l, QFree f.q) → FieldsFree fs
  | .nil, _ => trivial
  | .field _ h hr _, hl => ⟨den_free hD h (hl _ List.mem_cons_self), denFs_free hD hr (fun g hg => hl g (List.mem_cons_of_mem _ hg))⟩
  | .bit _ h hr, hl => ⟨den_free hD h (hl _ List.mem_cons_self), denFs_free hD hr (fun g hg => hl g (List.mem_cons_of_mem _ hg))⟩
end

end EasyMock.StructCmp
