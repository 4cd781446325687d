import Verif.Props.StructCmp
import Verif.Props.Types2

/-! # C86: as what a comparator looks at the objects

A comparator gets two addresses and converts them to the addresses of objects of a type, whose text is `COMPOSED_TYPED_DECL_STRING`
(GEN:503-519, 2306-2323).  If this is not the type whose members it compares, it does not compile, or reads other memory. -/

namespace EasyMock.StructCmp

open EasyMock.Types

/-! ## What is to be said of a program -/

mutual
/-- The typedefs written in a type. -/
def typedefsIn : Ty → List (String × Ty)
  | .ptr _ t => typedefsIn t
  | .ref _ t => typedefsIn t
  | .const _ t => typedefsIn t
  | .tdef _ n t => (n, t) :: typedefsIn t
  | .comp _ _ _ fs _ _ _ => typedefsInFields fs
  | _ => []
/-- The typedefs written in the types of members. -/
def typedefsInFields : Fields → List (String × Ty)
  | .nil => []
  | .field _ t _ _ rest => typedefsIn t ++ typedefsInFields rest
  | .bit _ t _ _ rest => typedefsIn t ++ typedefsInFields rest
end

mutual
/-- The structs, unions and classes in a type. -/
def recordsIn : Ty → List Ty
  | .ptr _ t => recordsIn t
  | .ref _ t => recordsIn t
  | .const _ t => recordsIn t
  | .tdef _ _ t => recordsIn t
  | .comp i kw n fs emb fwd ms => .comp i kw n fs emb fwd ms :: recordsInFields fs
  | _ => []
/-- The structs, unions and classes in the types of members. -/
def recordsInFields : Fields → List Ty
  | .nil => []
  | .field _ t _ _ rest => recordsIn t ++ recordsInFields rest
  | .bit _ t _ _ rest => recordsIn t ++ recordsInFields rest
end

/-- The typedefs of a generation. -/
def typedefsOf : List Step → List (String × Ty)
  | [] => []
  | .typedef n u :: rest => (n, u) :: typedefsOf rest
  | .param t :: rest => typedefsIn t ++ typedefsOf rest

/-- The structs, unions and classes of the parameters. -/
def recordsOf : List Step → List Ty
  | [] => []
  | .typedef _ _ :: rest => recordsOf rest
  | .param t :: rest => recordsIn t ++ recordsOf rest

mutual
/-- Only members which have members can be unnamed (C11 6.7.2.1); bit-fields apart. -/
def Formed : Ty → Prop
  | .ptr _ t => Formed t
  | .ref _ t => Formed t
  | .const _ t => Formed t
  | .tdef _ _ t => Formed t
  | .comp _ _ _ fs _ _ _ => FormedFields fs
  | _ => True
/-- The same for members. -/
def FormedFields : Fields → Prop
  | .nil => True
  | .field _ t n _ rest => (n = "" → holdsMembers t = true) ∧ Formed t ∧ FormedFields rest
  | .bit _ _ _ _ rest => FormedFields rest
end

/-- The same for the parameters. -/
def FormedSteps (steps : List Step) : Prop := ∀ t, Step.param t ∈ steps → Formed t

/-- The type has no members. -/
def memberless : Ty → Bool
  | .const _ t => memberless t
  | .tdef _ _ t => memberless t
  | .comp _ _ _ .nil _ _ _ => true
  | _ => false

mutual
/-- The members of an object, those of anonymous members included, and whether they are arrays; unnamed bit-fields, arrays of unknown
    size and arrays of objects without members apart. -/
def membersOf : Ty → List (String × Bool)
  | .ref _ t => membersOf t
  | .const _ t => membersOf t
  | .tdef _ _ t => membersOf t
  | .comp _ _ _ fs _ _ _ => fieldsOf fs
  | _ => []
/-- The same for a list of members. -/
def fieldsOf : Fields → List (String × Bool)
  | .nil => []
  | .field _ t n a rest =>
    (if a = 0 ∨ a > 0 ∧ memberless t then [] else if n = "" then membersOf t else [(n, decide (a > 0))]) ++ fieldsOf rest
  | .bit _ _ n _ rest => (if n = "" then [] else [(n, false)]) ++ fieldsOf rest
end

/-- The text names the type, and the name of a comparator is made of it: the tag, the text made of the hash for a type without tag, or
    a typedef. -/
def Names (env : Env) (W : List (String × Ty)) (decl core : String) (kw : Kw) (n : String) (t : Ty) : Prop :=
  (n ≠ "" ∧ (Types.Ident n → decl = kw.str ++ " " ++ n) ∧ core = kwPrefix kw ++ n) ∨
  (n = "" ∧ decl = kw.str ++ " easymock_generated_anonymous_type_hash_" ++ toString (env.key t) ∧
    core = kwPrefix kw ++ "easymock_generated_anonymous_type_hash_" ++ toString (env.key t)) ∨
  (decl ≠ "" ∧ core = decl ∧ ∃ u, (decl, u) ∈ W ∧ env.key u = env.key t)

/-- What is to be said of a comparator. -/
def Views (env : Env) (W : List (String × Ty)) (R : List Ty) (c : Comparator) : Prop :=
  ∃ i kw n fs emb ms p core, Ty.comp i kw n fs emb false ms ∈ R ∧ c.ty = .comp i kw n fs emb false ms ∧ c.article = articleText kw ∧
    c.checks.map (fun k => (k.field, k.array)) = fieldsOf fs ∧
    c.name = p ++ core ∧ (∀ x ∈ p.toList, x = '_') ∧ (emb = false → p = "") ∧
    Names env W c.decl core kw n (.comp i kw n fs emb false ms)

/-! ## Proof -/

variable {env : Env} {W : List (String × Ty)} {R : List Ty}

/-- The registry holds typedefs of the program. -/
def RegOf (env : Env) (W : List (String × Ty)) (reg : List (Nat × String)) : Prop := ∀ e ∈ reg, ∃ u, (e.2, u) ∈ W ∧ env.key u = e.1

theorem regOf_register {reg : List (Nat × String)} {n : String} {t : Ty} (h : RegOf env W reg) (hn : (n, t) ∈ W) :
    RegOf env W (register env reg n t) := by
  unfold register
  split
  · exact h
  · intro e he
    rcases List.mem_append.mp he with he | he
    · exact h e he
    · rw [List.mem_singleton] at he; subst he; exact ⟨t, hn, rfl⟩

theorem regOf_raw : ∀ (t : Ty) {reg : List (Nat × String)}, RegOf env W reg → (∀ x ∈ typedefsIn t, x ∈ W) →
    RegOf env W (registerRaw env reg t)
  | .ptr _ t, _, h, ht | .ref _ t, _, h, ht | .const _ t, _, h, ht => regOf_raw t h ht
  | .tdef _ n t, _, h, ht => regOf_raw t (regOf_register h (ht (n, t) (List.mem_cons_self))) (fun x hx => ht x (List.mem_cons_of_mem _ hx))
  | .ctype .., _, h, _ | .enum .., _, h, _ | .comp .., _, h, _ | .incomplete .., _, h, _ | .fn .., _, h, _ => h

theorem regOf_defined : ∀ (t : Ty) {reg : List (Nat × String)}, RegOf env W reg → (∀ x ∈ typedefsIn t, x ∈ W) →
    RegOf env W (registerDefined env reg t)
  | .ptr .., _, h, _ | .ref .., _, h, _ => h
  | .const _ t, _, h, ht => regOf_defined t h ht
  | .tdef _ n t, _, h, ht => regOf_defined t (regOf_register h (ht (n, t) (List.mem_cons_self))) (fun x hx => ht x (List.mem_cons_of_mem _ hx))
  | .ctype .., _, h, _ | .enum .., _, h, _ | .comp .., _, h, _ | .incomplete .., _, h, _ | .fn .., _, h, _ => h

theorem kw_prefix (kw : Kw) : kw.str ++ "_" = kwPrefix kw := by cases kw <;> decide +kernel

theorem names_of {reg : List (Nat × String)} (h : RegOf env W reg) (i : Bool) (kw : Kw) (n : String) (fs : Fields) (emb fwd : Bool)
    (ms : Methods) : Names env W (declText env reg (.comp i kw n fs emb fwd ms)) (comparatorName env reg (.comp i kw n fs emb fwd ms))
      kw n (.comp i kw n fs emb fwd ms) := by
  have hn : (attrs (.comp i kw n fs emb fwd ms)).name = n := by cases kw <;> rfl
  have hc := isComposable_comp i kw n fs emb fwd ms
  have ha : isAnonymous (.comp i kw n fs emb fwd ms) = n.isEmpty := by
    unfold isAnonymous
    rw [hn]
    show ((isComposable (.comp i kw n fs emb fwd ms) || _) && _) = _
    rw [hc]; rfl
  unfold declText comparatorName
  by_cases h0 : typedefName env reg (.comp i kw n fs emb fwd ms) = ""
  · simp only [h0, show "".isEmpty = true from rfl, if_true, ha, hn]
    show Names env W _ (kw.str ++ "_" ++ _) _ _ _
    rw [kw_prefix]
    by_cases he : n = ""
    · subst he
      rw [if_pos (by rfl), if_pos (by rfl)]
      refine Or.inr (Or.inl ⟨rfl, ?_, ?_⟩)
      · show kw.str ++ " " ++ ("easymock_generated_anonymous_type_hash_" ++ _) = _
        have : " " ++ "easymock_generated_anonymous_type_hash_" = " easymock_generated_anonymous_type_hash_" := by decide +kernel
        rw [← this]
        simp only [String.append_assoc]
      · unfold anonymousName
        simp only [String.append_assoc]
    · rw [if_neg (by simpa using he), if_neg (by simpa using he)]
      refine Or.inl ⟨he, fun hi => ?_, rfl⟩
      have hk : kw.str.toList.getLast? ≠ some ' ' ∧ kw.str ≠ "" := by cases kw <;> decide +kernel
      have hp : declPrefix (.comp i kw n fs emb fwd ms) = kw.str ++ " " ++ n := by
        show trimR (kw.str ++ " " ++ n) = _
        rw [keyword_text kw.str n hk.1 hk.2 hi, if_neg he]
      unfold fullName
      rw [hp]
      show trimR (kw.str ++ " " ++ n ++ " " ++ "") = _
      have hlast : (kw.str ++ " " ++ n).toList.getLast? ≠ some ' ' := by
        have hne : n.toList ≠ [] := fun h0 => he (String.toList_inj.mp (by simpa using h0))
        rw [String.toList_append, List.getLast?_append]
        cases hl : n.toList.getLast? with
        | none => exact absurd (List.getLast?_eq_none_iff.mp hl) hne
        | some x =>
          have := ident_last hi
          rw [hl] at this
          exact this
      rw [String.append_empty, trimR_append_blank _ hlast]
      intro e
      have := congrArg (fun s => s.toList.length) e
      simp [String.toList_append] at this
  · have hne : (typedefName env reg (.comp i kw n fs emb fwd ms)).isEmpty = false := isEmpty_false h0
    rw [hne, if_neg (by decide), if_neg (by decide)]
    refine Or.inr (Or.inr ⟨h0, rfl, ?_⟩)
    unfold typedefName at h0 ⊢
    cases hf : reg.find? (fun e => e.1 == env.key (.comp i kw n fs emb fwd ms)) with
    | none => rw [hf] at h0; exact absurd rfl h0
    | some e =>
      obtain ⟨u, hu, hk⟩ := h e (List.mem_of_find?_eq_some hf)
      have he := List.find?_some hf
      simp only [beq_iff_eq] at he
      exact ⟨u, hu, hk.trans he⟩

theorem nonZero_memberless : ∀ t : Ty, nonZeroSize t = !memberless t := by
  have key : ∀ t : Ty, nonZeroSize t = !memberless t := by
    intro t
    induction t using memberless.induct with
    | case1 _ t ih => exact ih
    | case2 _ _ t ih => exact ih
    | case3 => rfl
    | case4 t h1 h2 h3 =>
      cases t with
      | const i u => exact absurd rfl (h1 i u)
      | tdef i n u => exact absurd rfl (h2 i n u)
      | comp i kw n fs emb fwd ms =>
        cases fs with
        | nil => exact absurd rfl (h3 i kw n emb fwd ms)
        | _ => rfl
      | _ => rfl
  exact key

theorem holds_comparedAs {t : Ty} (h : holdsMembers t = true) : comparedAsComposite t = true := by
  have h1 : isComposable (rawType t) = true := by rw [rawType_object t h]; exact h
  have h2 : isPointer (unqualified t) = false := by
    cases t with
    | const i u => cases u <;> first | rfl | (rename_i kw _ _ _ _ _; cases kw <;> rfl) | (exact absurd h (by simp [holdsMembers, object, isComposable, attrs]))
    | ptr => exact absurd h (by simp [holdsMembers, object, isComposable, attrs])
    | comp i kw => cases kw <;> rfl
    | incomplete => exact absurd h (by simp [holdsMembers, object, isComposable, attrs])
    | _ => rfl
  simp [comparedAsComposite, h1, h2]

theorem article_of (kw : Kw) : article kw = articleText kw := by cases kw <;> decide +kernel

/-- What a piece of generation yields. -/
structure GenViews (env : Env) (W : List (String × Ty)) (R : List Ty) (σ : St) (ks : List Comparator) : Prop where
  reg : RegOf env W σ.reg
  cmps : ∀ k ∈ ks, Views env W R k

theorem under_next {p : String} (h : ∀ x ∈ p.toList, x = '_') : ∀ x ∈ (p ++ "_").toList, x = '_' := by
  intro c hc
  rw [String.toList_append, List.mem_append] at hc
  rcases hc with hc | hc
  · exact h c hc
  · revert hc; revert c; decide +kernel

mutual
theorem section_views (p d : String) (hp : ∀ x ∈ p.toList, x = '_') : ∀ (t : Ty) (σ : St), RegOf env W σ.reg → (∀ x ∈ typedefsIn t, x ∈ W) →
    (∀ x ∈ recordsIn t, x ∈ R) → Formed t → GenViews env W R (genSection env p d σ t).1 (genSection env p d σ t).2
  | .ptr _ t, σ, h, hw, hr, hf => section_views p d hp t σ h hw hr hf
  | .ref _ t, σ, h, hw, hr, hf => section_views p d hp t σ h hw hr hf
  | .const _ t, σ, h, hw, hr, hf => section_views p d hp t σ h hw hr hf
  | .tdef _ n t, σ, h, hw, hr, hf => section_views p d hp t σ h (fun x hx => hw x (List.mem_cons_of_mem _ hx)) hr hf
  | .comp i kw n fs emb fwd ms, σ, h, hw, hr, hf => by
    unfold genSection
    simp only
    split
    · exact ⟨h, by simp⟩
    · rename_i hcond
      have hfwd : fwd = false := by
        cases fwd with
        | false => rfl
        | true => simp at hcond
      subst hfwd
      have ih := fields_views (.comp i kw n fs emb false ms) p (d ++ mostDefinedName env σ.reg (.comp i kw n fs emb false ms)) hp fs
        { σ with done := σ.done ++ [comparatorName env σ.reg (.comp i kw n fs emb false ms)] } h hw
        (fun x hx => hr x (List.mem_cons_of_mem _ hx)) hf
      refine ⟨ih.1.reg, ?_⟩
      intro k hk
      rcases List.mem_cons.mp hk with rfl | hk
      · refine ⟨i, kw, n, fs, emb, ms, if emb && p != "_" then p else "", comparatorName env σ.reg (.comp i kw n fs emb false ms),
          hr _ List.mem_cons_self, rfl, article_of kw, ih.2, ?_, ?_, ?_, names_of h i kw n fs emb false ms⟩
        · show generatedName _ _ _ = _
          unfold generatedName
          split
          · rfl
          · rw [String.empty_append]
        · split
          · exact hp
          · intro x hx; cases hx
        · intro he; rw [he]; rfl
      · exact ih.1.cmps k hk
  | .ctype .., _, h, _, _, _ | .enum .., _, h, _, _, _ | .incomplete .., _, h, _, _, _ | .fn .., _, h, _, _, _ => ⟨h, by simp [genSection]⟩

theorem anonymous_views (p d : String) (hp : ∀ x ∈ p.toList, x = '_') : ∀ (t : Ty) (σ : St), RegOf env W σ.reg → (∀ x ∈ typedefsIn t, x ∈ W) →
    (∀ x ∈ recordsIn t, x ∈ R) → Formed t → holdsMembers t = true →
    GenViews env W R (genAnonymous env p d σ t).1 (genAnonymous env p d σ t).2.2 ∧
    (genAnonymous env p d σ t).2.1.map (fun k => (k.field, k.array)) = membersOf t
  | .ref _ t, σ, h, hw, hr, hf, hm => anonymous_views p d hp t σ h hw hr hf hm
  | .const _ t, σ, h, hw, hr, hf, hm => anonymous_views p d hp t σ h hw hr hf hm
  | .tdef _ n t, σ, h, hw, hr, hf, hm => anonymous_views p d hp t σ h (fun x hx => hw x (List.mem_cons_of_mem _ hx)) hr hf hm
  | .comp i kw n fs emb fwd ms, σ, h, hw, hr, hf, _ =>
    fields_views (.comp i kw n fs emb fwd ms) p d hp fs σ h hw (fun x hx => hr x (List.mem_cons_of_mem _ hx)) hf
  | .ptr .., _, _, _, _, _, hm | .ctype .., _, _, _, _, _, hm | .enum .., _, _, _, _, _, hm | .incomplete .., _, _, _, _, _, hm
  | .fn .., _, _, _, _, _, hm => by simp [holdsMembers, object, isComposable, attrs] at hm

theorem fields_views (owner : Ty) (p d : String) (hp : ∀ x ∈ p.toList, x = '_') : ∀ (fs : Fields) (σ : St), RegOf env W σ.reg →
    (∀ x ∈ typedefsInFields fs, x ∈ W) → (∀ x ∈ recordsInFields fs, x ∈ R) → FormedFields fs →
    GenViews env W R (genFields env owner p d σ fs).1 (genFields env owner p d σ fs).2.2 ∧
    (genFields env owner p d σ fs).2.1.map (fun k => (k.field, k.array)) = fieldsOf fs
  | .nil, σ, h, _, _, _ => ⟨⟨h, by simp [genFields]⟩, rfl⟩
  | .field s t n a rest, σ, h, hw, hr, hf => by
    have hw1 : ∀ x ∈ typedefsIn t, x ∈ W := fun x hx => hw x (List.mem_append_left _ hx)
    have hr1 : ∀ x ∈ recordsIn t, x ∈ R := fun x hx => hr x (List.mem_append_left _ hx)
    have h₁ : RegOf env W (if a > 0 then { σ with reg := registerDefined env σ.reg t } else σ).reg := by
      split
      · exact regOf_defined t h hw1
      · exact h
    unfold genFields fieldsOf
    simp only
    generalize (if a > 0 then { σ with reg := registerDefined env σ.reg t } else σ) = σ₁ at h₁ ⊢
    have key : ∀ (r : St × List Check × List Comparator) (l : List (String × Bool)), GenViews env W R r.1 r.2.2 →
        r.2.1.map (fun k => (k.field, k.array)) = l →
        GenViews env W R (genFields env owner p d r.1 rest).1 (r.2.2 ++ (genFields env owner p d r.1 rest).2.2) ∧
        (r.2.1 ++ (genFields env owner p d r.1 rest).2.1).map (fun k => (k.field, k.array)) = l ++ fieldsOf rest := by
      intro r l hr' hl
      have ih := fields_views owner p d hp rest r.1 hr'.reg (fun x hx => hw x (List.mem_append_right _ hx))
        (fun x hx => hr x (List.mem_append_right _ hx)) hf.2.2
      refine ⟨⟨ih.1.reg, fun x hx => ?_⟩, by rw [List.map_append, hl, ih.2]⟩
      exact (List.mem_append.mp hx).elim (hr'.cmps x) (ih.1.cmps x)
    have h₂ : RegOf env W (registerRaw env σ₁.reg t) := regOf_raw t h₁ hw1
    have hskip : (a == 0 || (decide (a > 0) && !nonZeroSize t)) = decide (a = 0 ∨ a > 0 ∧ memberless t = true) := by
      rw [nonZero_memberless, Bool.not_not]
      cases memberless t <;> simp <;> rfl
    rw [hskip]
    by_cases hs : a = 0 ∨ a > 0 ∧ memberless t = true
    · have hs' : decide (a = 0 ∨ a > 0 ∧ memberless t = true) = true := decide_eq_true hs
      rw [if_pos hs', if_pos hs]
      exact key (σ₁, [], []) [] ⟨h₁, by simp⟩ rfl
    · have hs' : ¬ decide (a = 0 ∨ a > 0 ∧ memberless t = true) = true := by simpa using hs
      rw [if_neg hs', if_neg hs]
      by_cases hn : n = ""
      · subst hn
        have hm := hf.1 rfl
        rw [holds_comparedAs hm, if_pos rfl, if_pos (by rfl), if_pos rfl]
        have ih := anonymous_views (p ++ "_") (anonymousDecl d) (under_next hp) t { σ₁ with reg := registerRaw env σ₁.reg t } h₂ hw1 hr1
          hf.2.1 hm
        exact key _ _ ih.1 ih.2
      · rw [if_neg hn]
        by_cases hcmp : comparedAsComposite t = true
        · rw [if_pos hcmp, if_neg (by simpa using hn)]
          have ih := section_views (p ++ "_") (d ++ "::") (under_next hp) t { σ₁ with reg := registerRaw env σ₁.reg t } h₂ hw1 hr1 hf.2.1
          exact key (_, _, _) _ ih rfl
        · rw [if_neg hcmp]
          exact key (_, _, _) _ ⟨h₂, by simp⟩ rfl
  | .bit s t n k rest, σ, h, hw, hr, hf => by
    have hw1 : ∀ x ∈ typedefsIn t, x ∈ W := fun x hx => hw x (List.mem_append_left _ hx)
    unfold genFields fieldsOf
    simp only
    have key : ∀ (r : St × List Check) (l : List (String × Bool)), RegOf env W r.1.reg → r.2.map (fun k => (k.field, k.array)) = l →
        GenViews env W R (genFields env owner p d r.1 rest).1 (genFields env owner p d r.1 rest).2.2 ∧
        (r.2 ++ (genFields env owner p d r.1 rest).2.1).map (fun k => (k.field, k.array)) = l ++ fieldsOf rest := by
      intro r l hr' hl
      have ih := fields_views owner p d hp rest r.1 hr' (fun x hx => hw x (List.mem_append_right _ hx))
        (fun x hx => hr x (List.mem_append_right _ hx)) hf
      exact ⟨ih.1, by rw [List.map_append, hl, ih.2]⟩
    by_cases hn : n = ""
    · rw [if_pos hn, if_pos (by rw [hn]; rfl)]
      exact key (_, _) _ h rfl
    · rw [if_neg hn, if_neg (by simpa using hn)]
      exact key (_, _) _ (regOf_raw t h hw1) rfl
end

theorem steps_views : ∀ (steps : List Step) (σ : St), RegOf env W σ.reg → (∀ x ∈ typedefsOf steps, x ∈ W) → (∀ x ∈ recordsOf steps, x ∈ R) →
    FormedSteps steps → GenViews env W R (genSteps env σ steps).1 (genSteps env σ steps).2
  | [], σ, h, _, _, _ => ⟨h, by simp [genSteps]⟩
  | s :: rest, σ, h, hw, hr, hf => by
    have h1 : GenViews env W R (genStep env σ s).1 (genStep env σ s).2 ∧ (∀ x ∈ typedefsOf rest, x ∈ W) ∧ (∀ x ∈ recordsOf rest, x ∈ R) := by
      cases s with
      | typedef n u =>
        exact ⟨⟨regOf_register h (hw _ List.mem_cons_self), by simp [genStep]⟩, fun x hx => hw x (List.mem_cons_of_mem _ hx), hr⟩
      | param t =>
        have hw1 : ∀ x ∈ typedefsIn t, x ∈ W := fun x hx => hw x (List.mem_append_left _ hx)
        have hr1 : ∀ x ∈ recordsIn t, x ∈ R := fun x hx => hr x (List.mem_append_left _ hx)
        refine ⟨?_, fun x hx => hw x (List.mem_append_right _ hx), fun x hx => hr x (List.mem_append_right _ hx)⟩
        unfold genStep
        simp only
        have h₂ : RegOf env W (registerRaw env σ.reg t) := regOf_raw t h hw1
        split
        · exact section_views "" "" (by intro x hx; cases hx) t { σ with reg := registerRaw env σ.reg t } h₂ hw1 hr1 (hf t List.mem_cons_self)
        · exact ⟨h₂, by simp⟩
    have h2 := steps_views rest (genStep env σ s).1 h1.1.reg h1.2.1 h1.2.2 (fun t ht => hf t (List.mem_cons_of_mem _ ht))
    unfold genSteps
    refine ⟨h2.reg, fun k hk => ?_⟩
    exact (List.mem_append.mp hk).elim (h1.1.cmps k) (h2.cmps k)

/-! ## C86 -/

/-- C86 (partial: no two of the types have the same hash).  Every generated comparator belongs to a struct, union or class of the parameters: it
    compares the members of this type, all of them and in order, its messages say what kind of type it is, and it converts its
    arguments to pointers to this type, which it names by its tag, by the text made of the hash if there is no tag, or by a typedef
    for it. -/
theorem C86_view_partial (env : Env) (steps : List Step) (hf : FormedSteps steps)
    (hkey : ∀ x ∈ typedefsOf steps, ∀ t ∈ recordsOf steps, env.key x.2 = env.key t → x.2 = t)
    (c : Comparator) (hc : c ∈ program env steps) :
    ∃ i kw n fs emb ms p core, Ty.comp i kw n fs emb false ms ∈ recordsOf steps ∧ c.ty = .comp i kw n fs emb false ms ∧ c.article = articleText kw ∧
      c.checks.map (fun k => (k.field, k.array)) = fieldsOf fs ∧
      c.name = p ++ core ∧ (∀ x ∈ p.toList, x = '_') ∧ (emb = false → p = "") ∧
      ((n ≠ "" ∧ (Types.Ident n → c.decl = kw.str ++ " " ++ n) ∧ core = kwPrefix kw ++ n) ∨
       (n = "" ∧ c.decl = kw.str ++ " easymock_generated_anonymous_type_hash_" ++ toString (env.key (.comp i kw n fs emb false ms)) ∧
          core = kwPrefix kw ++ "easymock_generated_anonymous_type_hash_" ++ toString (env.key (.comp i kw n fs emb false ms))) ∨
       (c.decl ≠ "" ∧ core = c.decl ∧ (c.decl, .comp i kw n fs emb false ms) ∈ typedefsOf steps)) := by
  obtain ⟨i, kw, n, fs, emb, ms, p, core, h1, h0, h2, h3, h4, h5, h6, h7⟩ :=
    (steps_views (env := env) steps {} (by intro e he; cases he) (fun x h => h) (fun x h => h) hf).cmps c hc
  refine ⟨i, kw, n, fs, emb, ms, p, core, h1, h0, h2, h3, h4, h5, h6, ?_⟩
  rcases h7 with h | h | ⟨ha, hb, u, hu, hk⟩
  · exact Or.inl h
  · exact Or.inr (Or.inl h)
  · have e : u = _ := hkey _ hu _ h1 hk
    rw [e] at hu
    exact Or.inr (Or.inr ⟨ha, hb, hu⟩)

/-- The type names the comparator converts to are those which the typedefs give to types with this hash, for every hash. -/
theorem C86_hash_partial (env : Env) (steps : List Step) (hf : FormedSteps steps) (c : Comparator) (hc : c ∈ program env steps) :
    Views env (typedefsOf steps) (recordsOf steps) c :=
  (steps_views (env := env) steps {} (by intro e he; cases he) (fun x h => h) (fun x h => h) hf).cmps c hc

/-- C86 does not hold if two types have the same hash: with `typedef struct A TA;` before it, the comparator for `struct B` looks at
    its arguments as objects of type `TA`, and compares a member `b` which these do not have. -/
theorem C86_refuted_hash :
    let A : Ty := .comp false .struct "A" (.field "" (.ctype .int false false) "a" (-1) .nil) false false .nil
    let B : Ty := .comp false .struct "B" (.field "" (.ctype .int false false) "b" (-1) .nil) false false .nil
    program ⟨fun _ => 0, ["EasyMock_all_comparators"]⟩ [.typedef "TA" A, .param B] =
      [⟨"TA", " struct", [⟨"b", false, .neq "TA" (some "d") none⟩], "TA", B⟩] := by
  decide +kernel

/-- The comparators for `struct Out *`: all of its nested types, `in_t` by its typedef. -/
example : ∀ c ∈ program wEnv [.param (.ptr false wOut)], c.decl = "in_t" ∨ c.decl = "struct Out" ∨ c.decl = "struct Inner" ∨
    c.decl = "struct Deep" ∨ ∃ k : Nat, c.decl = "struct easymock_generated_anonymous_type_hash_" ++ toString k := by
  intro c hc
  have hkey : ∀ x ∈ typedefsOf [.param (.ptr false wOut)], ∀ t ∈ recordsOf [.param (.ptr false wOut)],
      wEnv.key x.2 = wEnv.key t → x.2 = t := by
    intro x hx t ht hk
    have e : typedefsOf [.param (.ptr false wOut)] = [("in_t", wIn)] := rfl
    rw [e, List.mem_singleton] at hx
    subst hx
    rw [wKey_in] at hk
    by_cases h : t = wIn
    · exact h.symm
    · have : wEnv.key t ≠ 1 := by
        show wKey t ≠ 1
        unfold wKey
        rw [if_neg h]
        split <;> decide
      exact absurd hk.symm this
  obtain ⟨i, kw, n, fs, emb, ms, p, core, h1, -, -, -, -, -, -, h⟩ := C86_view_partial wEnv [.param (.ptr false wOut)]
    (by
      intro t ht
      rw [List.mem_singleton] at ht
      cases ht
      refine ⟨fun h => absurd h (by decide), ⟨fun h => absurd h (by decide), trivial, trivial⟩, fun h => absurd h (by decide), ?_, fun _ => rfl, ?_,
        fun h => absurd h (by decide), trivial, trivial⟩
      · exact ⟨fun h => absurd h (by decide), ⟨fun h => absurd h (by decide), trivial, trivial⟩, trivial⟩
      · exact ⟨fun h => absurd h (by decide), trivial, trivial⟩) hkey c hc
  have hr : recordsOf [.param (.ptr false wOut)] = [wOut, wIn, wInner, wDeep,
      .comp false .struct "" (.field "" (.ctype .int false false) "z" (-1) .nil) true false .nil] := rfl
  rw [hr] at h1
  rcases h with ⟨h0, hd, -⟩ | ⟨h0, hd, -⟩ | ⟨-, -, hd⟩
  · simp only [List.mem_cons, List.not_mem_nil, or_false, wOut, wIn, wInner, wDeep, Ty.comp.injEq] at h1
    rcases h1 with ⟨-, rfl, rfl, -⟩ | ⟨-, rfl, rfl, -⟩ | ⟨-, rfl, rfl, -⟩ | ⟨-, rfl, rfl, -⟩ | ⟨-, rfl, rfl, -⟩
    · exact Or.inr (Or.inl (hd ⟨by decide +kernel, by decide +kernel⟩))
    · exact absurd rfl h0
    · exact Or.inr (Or.inr (Or.inl (hd ⟨by decide +kernel, by decide +kernel⟩)))
    · exact Or.inr (Or.inr (Or.inr (Or.inl (hd ⟨by decide +kernel, by decide +kernel⟩))))
    · exact absurd rfl h0
  · have hk : kw = .struct := by
      simp only [List.mem_cons, List.not_mem_nil, or_false, wOut, wIn, wInner, wDeep, Ty.comp.injEq] at h1
      rcases h1 with ⟨-, rfl, -⟩ | ⟨-, rfl, -⟩ | ⟨-, rfl, -⟩ | ⟨-, rfl, -⟩ | ⟨-, rfl, -⟩ <;> rfl
    subst hk
    exact Or.inr (Or.inr (Or.inr (Or.inr ⟨_, hd⟩)))
  · have e : typedefsOf [.param (.ptr false wOut)] = [("in_t", wIn)] := rfl
    rw [e, List.mem_singleton, Prod.mk.injEq] at hd
    exact Or.inl hd.1

end EasyMock.StructCmp
