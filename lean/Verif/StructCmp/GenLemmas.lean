import Verif.StructCmp.Spec

/-! # StructCmp: the generated program matches the types -/

namespace EasyMock.StructCmp

open EasyMock.Types

variable (env : Env) (PN : String → Ty → Prop) (full : String → String)

/-- Every registered typedef name belongs to its type. -/
def RegOK (reg : List (Nat × String)) : Prop :=
  ∀ e ∈ reg, e.2 ≠ "" → ∀ u, isComposable u = true → PN (tagName env u) u → env.key u = e.1 → PN e.2 u

mutual
/-- The checks of an anonymous member. -/
def MatchAnonymous (D : String → Prop) : Ty → List Check → Prop
  | .ref _ t, cs => MatchAnonymous D t cs
  | .const _ t, cs => MatchAnonymous D t cs
  | .tdef _ _ t, cs => MatchAnonymous D t cs
  | .comp _ _ _ fs _ _ _, cs => Match D fs cs
  | _, _ => True
/-- The checks are those of the fields; called comparators satisfy `D`. -/
def Match (D : String → Prop) : Fields → List Check → Prop
  | .nil, cs => cs = []
  | .field _ t n a rest, cs => ∃ c₁ c₂, cs = c₁ ++ c₂ ∧
      (if a = 0 ∨ (a > 0 ∧ nonZeroSize t = false) then c₁ = []
       else if holdsMembers t then
         if n = "" then MatchAnonymous D t c₁
         else ∃ M, PN M (object t) ∧ D M ∧
           c₁ = [{ field := n, array := decide (a > 0), action := .call (full M) }]
       else ∃ o f k, c₁ = [{ field := n, array := decide (a > 0), action := .neq o f k }]) ∧
      Match D rest c₂
  | .bit _ _ n _ rest, cs => ∃ c₁ c₂, cs = c₁ ++ c₂ ∧
      (if n = "" then c₁ = []
       else ∃ o f k, c₁ = [{ field := n, array := false, action := .neq o f k }]) ∧
      Match D rest c₂
end

/-- The checks of a comparator are those of the type. -/
def MatchType (D : String → Prop) : Ty → List Check → Prop
  | .comp _ _ _ fs _ _ _, cs => Match PN full D fs cs
  | _, _ => False

variable {env PN full}

mutual
theorem matchAnonymous_mono {D E : String → Prop} (h : ∀ N, D N → E N) : ∀ t cs,
    MatchAnonymous PN full D t cs → MatchAnonymous PN full E t cs
  | .ref _ t, cs, m => matchAnonymous_mono h t cs m
  | .const _ t, cs, m => matchAnonymous_mono h t cs m
  | .tdef _ _ t, cs, m => matchAnonymous_mono h t cs m
  | .comp _ _ _ fs _ _ _, cs, m => match_mono h fs cs m
  | .ptr .., _, _ | .ctype .., _, _ | .enum .., _, _ | .incomplete .., _, _ | .fn .., _, _ => trivial
theorem match_mono {D E : String → Prop} (h : ∀ N, D N → E N) : ∀ fs cs,
    Match PN full D fs cs → Match PN full E fs cs
  | .nil, cs, m => m
  | .field s t n a rest, cs, m => by
    obtain ⟨c₁, c₂, rfl, m₁, m₂⟩ := m
    refine ⟨c₁, c₂, rfl, ?_, match_mono h rest c₂ m₂⟩
    split at m₁
    · rename_i hc; rw [if_pos hc]; exact m₁
    · rename_i hc; rw [if_neg hc]
      split at m₁
      · rename_i hm; rw [if_pos hm]
        split at m₁
        · rename_i hn; rw [if_pos hn]; exact matchAnonymous_mono h t c₁ m₁
        · rename_i hn; rw [if_neg hn]
          obtain ⟨M, p, d, e⟩ := m₁
          exact ⟨M, p, h M d, e⟩
      · rename_i hm; rw [if_neg hm]; exact m₁
  | .bit s t n k rest, cs, m => by
    obtain ⟨c₁, c₂, rfl, m₁, m₂⟩ := m
    exact ⟨c₁, c₂, rfl, m₁, match_mono h rest c₂ m₂⟩
end

theorem matchType_mono {D E : String → Prop} (h : ∀ N, D N → E N) (t : Ty) (cs : List Check)
    (m : MatchType PN full D t cs) : MatchType PN full E t cs := by
  cases t <;> simp only [MatchType] at m ⊢
  exact match_mono h _ _ m

/-! ## Registries -/

theorem regOK_register {reg : List (Nat × String)} {n : String} {t : Ty}
    (h : RegOK env PN reg)
    (hn : n ≠ "" → ∀ u, isComposable u = true → PN (tagName env u) u → env.key u = env.key t → PN n u) :
    RegOK env PN (register env reg n t) := by
  unfold register
  split
  · exact h
  · intro e he
    rcases List.mem_append.mp he with he | he
    · exact h e he
    · simp at he; subst he; exact hn

theorem regOK_registerRaw : ∀ (t : Ty) {reg : List (Nat × String)}, RegOK env PN reg →
    TypedefsNamed env PN t → RegOK env PN (registerRaw env reg t)
  | .ptr _ t, _, h, ht => regOK_registerRaw t h ht
  | .ref _ t, _, h, ht => regOK_registerRaw t h ht
  | .const _ t, _, h, ht => regOK_registerRaw t h ht
  | .tdef _ _ t, _, h, ht => regOK_registerRaw t (regOK_register h ht.1) ht.2
  | .ctype .., _, h, _ | .enum .., _, h, _ | .incomplete .., _, h, _ | .fn .., _, h, _
  | .comp .., _, h, _ => h

theorem regOK_registerDefined : ∀ (t : Ty) {reg : List (Nat × String)}, RegOK env PN reg →
    TypedefsNamed env PN t → RegOK env PN (registerDefined env reg t)
  | .ptr .., _, h, _ => h
  | .ref .., _, h, _ => h
  | .const _ t, _, h, ht => regOK_registerDefined t h ht
  | .tdef _ _ t, _, h, ht => regOK_registerDefined t (regOK_register h ht.1) ht.2
  | .ctype .., _, h, _ | .enum .., _, h, _ | .incomplete .., _, h, _ | .fn .., _, h, _
  | .comp .., _, h, _ => h

theorem empty_isEmpty : "".isEmpty = true := rfl

theorem isEmpty_false {s : String} (h : s ≠ "") : s.isEmpty = false := by
  cases hs : s.isEmpty with
  | false => rfl
  | true => exact absurd (String.isEmpty_iff.mp hs) h

/-- The name of a comparator is one of the names of its type. -/
theorem comparatorName_named {reg : List (Nat × String)} {t : Ty} (h : RegOK env PN reg)
    (hc : isComposable t = true) (ht : PN (tagName env t) t) : PN (comparatorName env reg t) t := by
  unfold comparatorName
  by_cases h0 : typedefName env reg t = ""
  · rw [h0]
    simp only [empty_isEmpty, if_true]
    by_cases hn : (attrs t).name = ""
    · simpa [tagName, hn] using ht
    · simpa [tagName, hn, isEmpty_false hn] using ht
  · rw [isEmpty_false h0]
    simp only [Bool.false_eq_true, if_false]
    unfold typedefName at h0 ⊢
    cases hf : reg.find? (fun e => e.1 == env.key t) with
    | none => rw [hf] at h0; exact absurd rfl h0
    | some e =>
      rw [hf] at h0
      simp only at h0 ⊢
      have hm := List.mem_of_find?_eq_some hf
      have hk := List.find?_some hf
      simp at hk
      exact h e hm h0 t hc ht hk.symm

theorem called_eq (reg : List (Nat × String)) (prep : String) (raw : Ty) :
    calledName env reg prep raw =
      generatedName (embedded raw) (prep ++ "_") (comparatorName env reg raw) := by
  unfold calledName generatedName
  cases he : embedded raw with
  | false => simp
  | true =>
    by_cases hp : prep = ""
    · subst hp; simp
    · have h1 : prep.isEmpty = false := isEmpty_false hp
      have h2 : prep ++ "_" ≠ "_" := by
        intro h
        apply hp
        have := congrArg String.toList h
        simp [String.toList_append] at this
        exact String.toList_inj.mp (by simpa using this)
      simp [h1, h2]

theorem generated_eq {N prep : String} {emb : Bool} :
    generatedName emb prep N = if emb = true ∧ prep ≠ "_" then prep ++ N else N := by
  unfold generatedName
  cases emb <;> simp

/-! ## Objects -/

theorem rawType_object : ∀ t, holdsMembers t = true → rawType t = object t
  | .ref _ t, h => rawType_object t h
  | .const _ t, h => rawType_object t h
  | .tdef _ _ t, h => rawType_object t h
  | .comp .., _ => rfl
  | .ptr .., h | .ctype .., h | .enum .., h | .incomplete .., h | .fn .., h => by
    simp [holdsMembers, object, isComposable, attrs] at h

theorem composable_comp {t : Ty} (h : isComposable t = true) :
    ∃ i kw n fs emb fwd ms, t = .comp i kw n fs emb fwd ms := by
  cases t <;> simp [isComposable, attrs] at h
  exact ⟨_, _, _, _, _, _, _, rfl⟩

theorem isComposable_comp (i kw n fs emb fwd ms) :
    isComposable (.comp i kw n fs emb fwd ms) = true := by
  cases kw <;> rfl

/-! ## Generation -/

/-- What a piece of generation guarantees. -/
structure GenOK (σ σ' : St) (cs : List Comparator) : Prop where
  reg : RegOK env PN σ'.reg
  names : ∃ new, σ'.done = σ.done ++ new ∧ cs.map (fun c => c.name) = new.map full ∧
    ∀ N ∈ new, ∃ t, PN N t
  nodup : σ'.done.Nodup
  comps : ∀ c ∈ cs, ∃ N t, N ∈ σ'.done ∧ c.name = full N ∧ PN N t ∧
    MatchType PN full (fun M => M ∈ σ'.done) t c.checks

theorem GenOK.trans {σ₁ σ₂ σ₃ : St} {cs₁ cs₂ : List Comparator}
    (h₁ : GenOK (env := env) (PN := PN) (full := full) σ₁ σ₂ cs₁)
    (h₂ : GenOK (env := env) (PN := PN) (full := full) σ₂ σ₃ cs₂) :
    GenOK (env := env) (PN := PN) (full := full) σ₁ σ₃ (cs₁ ++ cs₂) := by
  obtain ⟨new₁, d₁, n₁, p₁⟩ := h₁.names
  obtain ⟨new₂, d₂, n₂, p₂⟩ := h₂.names
  have sub : ∀ N, N ∈ σ₂.done → N ∈ σ₃.done := by
    intro N h; rw [d₂]; exact List.mem_append_left _ h
  refine ⟨h₂.reg, ⟨new₁ ++ new₂, by rw [d₂, d₁, List.append_assoc], by simp [n₁, n₂], ?_⟩,
    h₂.nodup, ?_⟩
  · intro N h
    rcases List.mem_append.mp h with h | h
    · exact p₁ N h
    · exact p₂ N h
  · intro c hc
    rcases List.mem_append.mp hc with hc | hc
    · obtain ⟨N, t, hN, hn, hp, hm⟩ := h₁.comps c hc
      exact ⟨N, t, sub N hN, hn, hp, matchType_mono sub t _ hm⟩
    · exact h₂.comps c hc

theorem GenOK.refl {σ : St} (h : RegOK env PN σ.reg) (hd : σ.done.Nodup) :
    GenOK (env := env) (PN := PN) (full := full) σ σ [] :=
  ⟨h, ⟨[], by simp, rfl, by simp⟩, hd, by simp⟩

theorem GenOK.mem {σ σ' : St} {cs : List Comparator}
    (h : GenOK (env := env) (PN := PN) (full := full) σ σ' cs) (N : String) (hN : N ∈ σ.done) :
    N ∈ σ'.done := by
  obtain ⟨new, d, _, _⟩ := h.names
  rw [d]; exact List.mem_append_left _ hN

mutual
theorem genSection_ok (hreq : ∀ N, requested env N = true) (prep decl : String) : ∀ (t : Ty) (σ : St),
    RegOK env PN σ.reg → σ.done.Nodup → holdsMembers t = true → Regular env PN full prep t →
    GenOK (env := env) (PN := PN) (full := full) σ (genSection env prep decl σ t).1
      (genSection env prep decl σ t).2 ∧
    comparatorName env σ.reg (object t) ∈ (genSection env prep decl σ t).1.done ∧
    PN (comparatorName env σ.reg (object t)) (object t) ∧
    generatedName (embedded (object t)) prep (comparatorName env σ.reg (object t)) =
      full (comparatorName env σ.reg (object t))
  | .ref _ t, σ, h, hd, hm, hr => genSection_ok hreq prep decl t σ h hd hm hr
  | .const _ t, σ, h, hd, hm, hr => genSection_ok hreq prep decl t σ h hd hm hr
  | .tdef _ _ t, σ, h, hd, hm, hr => genSection_ok hreq prep decl t σ h hd hm hr
  | .comp i kw n fs emb fwd ms, σ, h, hd, hm, hr => by
    simp only [Regular] at hr
    obtain ⟨hf, ht, hp, hr⟩ := hr
    subst hf
    have hcomp := isComposable_comp i kw n fs emb false ms
    have hN := comparatorName_named (t := .comp i kw n fs emb false ms) h hcomp ht
    have hfull : generatedName emb prep (comparatorName env σ.reg (.comp i kw n fs emb false ms)) =
        full (comparatorName env σ.reg (.comp i kw n fs emb false ms)) := by
      rw [generated_eq]; exact hp _ hN
    simp only [object, embedded]
    unfold genSection
    simp only [hreq, Bool.not_true, Bool.or_false, Bool.false_or]
    by_cases hdone : comparatorName env σ.reg (.comp i kw n fs emb false ms) ∈ σ.done
    · have : σ.done.contains (comparatorName env σ.reg (.comp i kw n fs emb false ms)) = true := by
        simpa using hdone
      rw [if_pos this]
      exact ⟨GenOK.refl h hd, hdone, hN, hfull⟩
    · have : ¬ σ.done.contains (comparatorName env σ.reg (.comp i kw n fs emb false ms)) = true := by
        simpa using hdone
      rw [if_neg this]
      have hd' : (σ.done ++ [comparatorName env σ.reg (.comp i kw n fs emb false ms)]).Nodup := by
        rw [List.nodup_append]
        refine ⟨hd, by simp, ?_⟩
        intro a ha b hb hab
        simp at hb
        subst hb; subst hab
        exact hdone ha
      have ih := genFields_ok hreq (.comp i kw n fs emb false ms) prep
        (decl ++ mostDefinedName env σ.reg (.comp i kw n fs emb false ms)) fs
        { σ with done := σ.done ++ [comparatorName env σ.reg (.comp i kw n fs emb false ms)] }
        h hd' hr
      obtain ⟨ih, imatch⟩ := ih
      have hmem := ih.mem (comparatorName env σ.reg (.comp i kw n fs emb false ms)) (by simp)
      refine ⟨⟨ih.reg, ?_, ih.nodup, ?_⟩, hmem, hN, hfull⟩
      · obtain ⟨new, d, nn, pp⟩ := ih.names
        refine ⟨comparatorName env σ.reg (.comp i kw n fs emb false ms) :: new, ?_, ?_, ?_⟩
        · rw [d]; simp
        · simp only [List.map_cons, nn, hfull]
        · intro N hN'
          rcases List.mem_cons.mp hN' with rfl | hN'
          · exact ⟨_, hN⟩
          · exact pp N hN'
      · intro c hc
        rcases List.mem_cons.mp hc with rfl | hc
        · exact ⟨_, _, hmem, hfull, hN, imatch⟩
        · exact ih.comps c hc
  | .ptr .., σ, _, _, hm, _ | .ctype .., σ, _, _, hm, _ | .enum .., σ, _, _, hm, _
  | .incomplete .., σ, _, _, hm, _ | .fn .., σ, _, _, hm, _ => by
    simp [holdsMembers, object, isComposable, attrs] at hm

theorem genAnonymous_ok (hreq : ∀ N, requested env N = true) (prep decl : String) :
    ∀ (t : Ty) (σ : St), RegOK env PN σ.reg → σ.done.Nodup → holdsMembers t = true →
    RegularAnonymous env PN full prep t →
    GenOK (env := env) (PN := PN) (full := full) σ (genAnonymous env prep decl σ t).1
      (genAnonymous env prep decl σ t).2.2 ∧
    MatchAnonymous PN full (fun M => M ∈ (genAnonymous env prep decl σ t).1.done) t
      (genAnonymous env prep decl σ t).2.1
  | .ref _ t, σ, h, hd, hm, hr => genAnonymous_ok hreq prep decl t σ h hd hm hr
  | .const _ t, σ, h, hd, hm, hr => genAnonymous_ok hreq prep decl t σ h hd hm hr
  | .tdef _ _ t, σ, h, hd, hm, hr => genAnonymous_ok hreq prep decl t σ h hd hm hr
  | .comp i kw n fs emb fwd ms, σ, h, hd, hm, hr =>
    genFields_ok hreq (.comp i kw n fs emb fwd ms) prep decl fs σ h hd hr
  | .ptr .., σ, _, _, hm, _ | .ctype .., σ, _, _, hm, _ | .enum .., σ, _, _, hm, _
  | .incomplete .., σ, _, _, hm, _ | .fn .., σ, _, _, hm, _ => by
    simp [holdsMembers, object, isComposable, attrs] at hm

theorem genFields_ok (hreq : ∀ N, requested env N = true) (owner : Ty) (prep decl : String) :
    ∀ (fs : Fields) (σ : St), RegOK env PN σ.reg → σ.done.Nodup →
    RegularFields env PN full prep fs →
    GenOK (env := env) (PN := PN) (full := full) σ (genFields env owner prep decl σ fs).1
      (genFields env owner prep decl σ fs).2.2 ∧
    Match PN full (fun M => M ∈ (genFields env owner prep decl σ fs).1.done) fs
      (genFields env owner prep decl σ fs).2.1
  | .nil, σ, h, hd, _ => ⟨GenOK.refl h hd, rfl⟩
  | .field s t n a rest, σ, h, hd, hr => by
    simp only [RegularFields] at hr
    obtain ⟨⟨htd, hcmp, hreg⟩, hrest⟩ := hr
    -- the state after the registrations
    have h₁ : RegOK env PN (if a > 0 then { σ with reg := registerDefined env σ.reg t } else σ).reg ∧
        (if a > 0 then { σ with reg := registerDefined env σ.reg t } else σ).done = σ.done := by
      split
      · exact ⟨regOK_registerDefined t h htd, rfl⟩
      · exact ⟨h, rfl⟩
    generalize hσ₁ : (if a > 0 then { σ with reg := registerDefined env σ.reg t } else σ) = σ₁ at h₁
    have h₂ : RegOK env PN (registerRaw env σ₁.reg t) := regOK_registerRaw t h₁.1 htd
    have hd₁ : σ₁.done.Nodup := by rw [h₁.2]; exact hd
    -- the part for this field
    have key : ∀ r : St × List Check × List Comparator,
        (GenOK (env := env) (PN := PN) (full := full) σ₁ r.1 r.2.2 ∧
        (if a = 0 ∨ (a > 0 ∧ nonZeroSize t = false) then r.2.1 = []
         else if holdsMembers t then
           if n = "" then MatchAnonymous PN full (fun M => M ∈ r.1.done) t r.2.1
           else ∃ M, PN M (object t) ∧ M ∈ r.1.done ∧
             r.2.1 = [{ field := n, array := decide (a > 0), action := .call (full M) }]
         else ∃ o f k,
           r.2.1 = [{ field := n, array := decide (a > 0), action := .neq o f k }])) →
        GenOK (env := env) (PN := PN) (full := full) σ
          (genFields env owner prep decl r.1 rest).1
          (r.2.2 ++ (genFields env owner prep decl r.1 rest).2.2) ∧
        Match PN full (fun M => M ∈ (genFields env owner prep decl r.1 rest).1.done)
          (.field s t n a rest) (r.2.1 ++ (genFields env owner prep decl r.1 rest).2.1) := by
      intro r hr
      have ih := genFields_ok hreq owner prep decl rest r.1 hr.1.reg hr.1.nodup hrest
      have h0 : GenOK (env := env) (PN := PN) (full := full) σ σ₁ [] :=
        ⟨h₁.1, ⟨[], by simp [h₁.2], rfl, by simp⟩, hd₁, by simp⟩
      refine ⟨?_, ?_⟩
      · have := (h0.trans hr.1).trans ih.1
        simpa using this
      · refine ⟨_, _, rfl, ?_, ih.2⟩
        have hr2 := hr.2
        split at hr2
        · rename_i hc; rw [if_pos hc]; exact hr2
        · rename_i hc; rw [if_neg hc]
          split at hr2
          · rename_i hm; rw [if_pos hm]
            split at hr2
            · rename_i hn; rw [if_pos hn]
              exact matchAnonymous_mono (fun N hN => ih.1.mem N hN) t _ hr2
            · rename_i hn; rw [if_neg hn]
              obtain ⟨M, p, d, e⟩ := hr2
              exact ⟨M, p, ih.1.mem M d, e⟩
          · rename_i hm; rw [if_neg hm]; exact hr2
    unfold genFields
    simp only [hσ₁]
    apply key
    by_cases hskip : a = 0 ∨ (a > 0 ∧ nonZeroSize t = false)
    · have : (a == 0 || (decide (a > 0) && !nonZeroSize t)) = true := by
        rcases hskip with h0 | ⟨h1, h2⟩
        · simp [h0]
        · simp [h1, h2]
      rw [if_pos this, if_pos hskip]
      exact ⟨GenOK.refl h₁.1 hd₁, rfl⟩
    · have : ¬ (a == 0 || (decide (a > 0) && !nonZeroSize t)) = true := by
        intro hh
        apply hskip
        simpa using hh
      rw [if_neg this, if_neg hskip]
      rw [hcmp]
      by_cases hm : holdsMembers t = true
      · rw [if_pos hm, if_pos hm]
        by_cases hn : n = ""
        · subst hn
          simp only [empty_isEmpty, if_true] at hreg ⊢
          have ih := genAnonymous_ok hreq (prep ++ "_") (anonymousDecl decl) t
            { σ₁ with reg := registerRaw env σ₁.reg t } h₂ hd₁ hm hreg
          refine ⟨⟨ih.1.reg, ih.1.names, ih.1.nodup, ih.1.comps⟩, ih.2⟩
        · rw [if_neg hn] at hreg
          simp only [isEmpty_false hn, Bool.false_eq_true, if_false, if_neg hn]
          have ih := genSection_ok hreq (prep ++ "_") (decl ++ "::") t
            { σ₁ with reg := registerRaw env σ₁.reg t } h₂ hd₁ hm hreg
          refine ⟨⟨ih.1.reg, ih.1.names, ih.1.nodup, ih.1.comps⟩, ?_⟩
          refine ⟨_, ih.2.2.1, ih.2.1, ?_⟩
          rw [called_eq, rawType_object t hm]
          simp only [ih.2.2.2]
      · rw [if_neg hm, if_neg hm]
        exact ⟨⟨h₂, ⟨[], by simp, rfl, by simp⟩, hd₁, by simp⟩, _, _, _, rfl⟩
  | .bit s t n k rest, σ, h, hd, hr => by
    simp only [RegularFields] at hr
    obtain ⟨htd, hrest⟩ := hr
    unfold genFields
    by_cases hn : n = ""
    · subst hn
      simp only [empty_isEmpty, if_true, List.nil_append]
      have ih := genFields_ok hreq owner prep decl rest σ h hd hrest
      exact ⟨ih.1, [], _, rfl, by simp, ih.2⟩
    · simp only [isEmpty_false hn, Bool.false_eq_true, if_false]
      have h₂ : RegOK env PN (registerRaw env σ.reg t) := regOK_registerRaw t h htd
      have ih := genFields_ok hreq owner prep decl rest
        { σ with reg := registerRaw env σ.reg t } h₂ hd hrest
      refine ⟨⟨ih.1.reg, ih.1.names, ih.1.nodup, ih.1.comps⟩, ?_⟩
      refine ⟨_, _, rfl, ?_, ih.2⟩
      rw [if_neg hn]
      exact ⟨_, _, _, rfl⟩
end

/-! ## Whole generations -/

theorem genSection_raw (prep decl : String) (σ : St) : ∀ t,
    genSection env prep decl σ t = genSection env prep decl σ (rawType t)
  | .ptr _ t => genSection_raw prep decl σ t
  | .ref _ t => genSection_raw prep decl σ t
  | .const _ t => genSection_raw prep decl σ t
  | .tdef _ _ t => genSection_raw prep decl σ t
  | .comp .. | .ctype .. | .enum .. | .incomplete .. | .fn .. => rfl

theorem holdsMembers_of_composable {t : Ty} (h : isComposable t = true) :
    holdsMembers t = true ∧ object t = t := by
  obtain ⟨i, kw, n, fs, emb, fwd, ms, rfl⟩ := composable_comp h
  exact ⟨h, rfl⟩

/-- A whole generation: everything the steps add is consistent, and each parameter type has its
    comparator. -/
theorem genSteps_ok (hreq : ∀ N, requested env N = true) : ∀ (steps : List Step) (σ : St),
    RegOK env PN σ.reg → σ.done.Nodup → RegularSteps env PN full steps →
    GenOK (env := env) (PN := PN) (full := full) σ (genSteps env σ steps).1
      (genSteps env σ steps).2 ∧
    ∀ t, Step.param t ∈ steps → isComposable (rawType t) = true → isImplicit (rawType t) = false →
      ∃ N ∈ (genSteps env σ steps).1.done, PN N (rawType t) ∧ full N = N
  | [], σ, h, hd, _ => ⟨GenOK.refl h hd, by simp⟩
  | .typedef n u :: rest, σ, h, hd, hr => by
    simp only [RegularSteps] at hr
    have ih := genSteps_ok hreq rest { σ with reg := register env σ.reg n u }
      (regOK_register h hr.1) hd hr.2
    simp only [genSteps, genStep, List.nil_append]
    refine ⟨⟨ih.1.reg, ih.1.names, ih.1.nodup, ih.1.comps⟩, ?_⟩
    intro t ht hc hi
    rcases List.mem_cons.mp ht with ht | ht
    · cases ht
    · exact ih.2 t ht hc hi
  | .param t :: rest, σ, h, hd, hr => by
    simp only [RegularSteps] at hr
    obtain ⟨htd, hreg, hrest⟩ := hr
    have h₂ : RegOK env PN (registerRaw env σ.reg t) := regOK_registerRaw t h htd
    simp only [genSteps, genStep]
    by_cases hcond : (isComposable (rawType t) && !isImplicit (rawType t)) = true
    · rw [if_pos hcond]
      have hc : isComposable (rawType t) = true := by
        revert hcond; cases isComposable (rawType t) <;> simp
      have ⟨hm, ho⟩ := holdsMembers_of_composable hc
      have hs := genSection_ok hreq "" "" (rawType t)
        { σ with reg := registerRaw env σ.reg t } h₂ hd hm (hreg hc)
      rw [← genSection_raw] at hs
      have hs1 : GenOK (env := env) (PN := PN) (full := full) σ
          (genSection env "" "" { σ with reg := registerRaw env σ.reg t } t).1
          (genSection env "" "" { σ with reg := registerRaw env σ.reg t } t).2 :=
        ⟨hs.1.reg, hs.1.names, hs.1.nodup, hs.1.comps⟩
      have ih := genSteps_ok hreq rest _ hs.1.reg hs.1.nodup hrest
      refine ⟨hs1.trans ih.1, ?_⟩
      intro t' ht' hc' hi'
      rcases List.mem_cons.mp ht' with ht' | ht'
      · cases ht'
        rw [ho] at hs
        refine ⟨_, ih.1.mem _ hs.2.1, hs.2.2.1, ?_⟩
        rw [← hs.2.2.2]
        unfold generatedName
        split <;> simp
      · exact ih.2 t' ht' hc' hi'
    · rw [if_neg hcond]
      have ih := genSteps_ok hreq rest { σ with reg := registerRaw env σ.reg t } h₂ hd hrest
      simp only [List.nil_append]
      refine ⟨⟨ih.1.reg, ih.1.names, ih.1.nodup, ih.1.comps⟩, ?_⟩
      intro t' ht' hc' hi'
      rcases List.mem_cons.mp ht' with ht' | ht'
      · cases ht'
        simp [hc', hi'] at hcond
      · exact ih.2 t' ht' hc' hi'

end EasyMock.StructCmp
