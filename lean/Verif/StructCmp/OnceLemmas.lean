import Verif.StructCmp.GenLemmas

/-! # StructCmp: facts about every generation, and plain types -/

namespace EasyMock.StructCmp

open EasyMock.Types

variable {env : Env}

/-- A text of `k` underscores. -/
def underscores (k : Nat) : String := String.ofList (List.replicate k '_')

theorem underscores_succ (k : Nat) : underscores k ++ "_" = underscores (k + 1) := by
  apply String.toList_inj.mp
  unfold underscores
  rw [String.toList_append, String.toList_ofList, String.toList_ofList, List.replicate_succ']
  simp

/-- What every piece of generation does. -/
structure Once (env : Env) (σ σ' : St) (cs : List Comparator) : Prop where
  names : ∃ l : List (Nat × String), σ'.done = σ.done ++ l.map (fun x => x.2) ∧
    cs.map (fun c => c.name) = l.map (fun x => underscores x.1 ++ x.2) ∧
    ∀ x ∈ l, requested env x.2 = true
  nodup : σ'.done.Nodup

theorem Once.refl {σ : St} (h : σ.done.Nodup) : Once env σ σ [] :=
  ⟨⟨[], by simp, rfl, by simp⟩, h⟩

theorem Once.trans {σ₁ σ₂ σ₃ : St} {a b : List Comparator} (h₁ : Once env σ₁ σ₂ a)
    (h₂ : Once env σ₂ σ₃ b) : Once env σ₁ σ₃ (a ++ b) := by
  obtain ⟨l₁, d₁, n₁, r₁⟩ := h₁.names
  obtain ⟨l₂, d₂, n₂, r₂⟩ := h₂.names
  refine ⟨⟨l₁ ++ l₂, by rw [d₂, d₁]; simp, by simp [n₁, n₂], ?_⟩, h₂.nodup⟩
  intro x hx
  rcases List.mem_append.mp hx with hx | hx
  · exact r₁ x hx
  · exact r₂ x hx

theorem generated_underscores (emb : Bool) (k : Nat) (N : String) :
    ∃ j, generatedName emb (underscores k) N = underscores j ++ N := by
  rw [generated_eq]
  split
  · exact ⟨k, rfl⟩
  · refine ⟨0, ?_⟩
    show N = "" ++ N
    simp

mutual
theorem genSection_once (decl : String) : ∀ (t : Ty) (k : Nat) (σ : St), σ.done.Nodup →
    Once env σ (genSection env (underscores k) decl σ t).1 (genSection env (underscores k) decl σ t).2
  | .ptr _ t, k, σ, h => genSection_once decl t k σ h
  | .ref _ t, k, σ, h => genSection_once decl t k σ h
  | .const _ t, k, σ, h => genSection_once decl t k σ h
  | .tdef _ _ t, k, σ, h => genSection_once decl t k σ h
  | .comp i kw n fs emb fwd ms, k, σ, h => by
    unfold genSection
    simp only
    split
    · exact Once.refl h
    · rename_i hc
      simp only [Bool.or_eq_true, not_or] at hc
      obtain ⟨⟨_, hreq⟩, hnot⟩ := hc
      have hd' : (σ.done ++ [comparatorName env σ.reg (.comp i kw n fs emb fwd ms)]).Nodup := by
        rw [List.nodup_append]
        refine ⟨h, by simp, ?_⟩
        intro a ha b hb hab
        simp at hb
        subst hb; subst hab
        exact hnot (by simpa using ha)
      have ih := genFields_once (.comp i kw n fs emb fwd ms)
        (decl ++ mostDefinedName env σ.reg (.comp i kw n fs emb fwd ms)) fs k
        { σ with done := σ.done ++ [comparatorName env σ.reg (.comp i kw n fs emb fwd ms)] } hd'
      obtain ⟨l, d, nn, rr⟩ := ih.names
      obtain ⟨j, hj⟩ := generated_underscores emb k
        (comparatorName env σ.reg (.comp i kw n fs emb fwd ms))
      refine ⟨⟨(j, comparatorName env σ.reg (.comp i kw n fs emb fwd ms)) :: l, ?_, ?_, ?_⟩,
        ih.nodup⟩
      · rw [d]; simp
      · simp [nn, hj]
      · intro x hx
        rcases List.mem_cons.mp hx with rfl | hx
        · simpa using hreq
        · exact rr x hx
  | .ctype .., _, _, h | .enum .., _, _, h | .incomplete .., _, _, h | .fn .., _, _, h =>
    Once.refl h

theorem genAnonymous_once (decl : String) : ∀ (t : Ty) (k : Nat) (σ : St), σ.done.Nodup →
    Once env σ (genAnonymous env (underscores k) decl σ t).1
      (genAnonymous env (underscores k) decl σ t).2.2
  | .ptr _ t, k, σ, h => genAnonymous_once decl t k σ h
  | .ref _ t, k, σ, h => genAnonymous_once decl t k σ h
  | .const _ t, k, σ, h => genAnonymous_once decl t k σ h
  | .tdef _ _ t, k, σ, h => genAnonymous_once decl t k σ h
  | .comp i kw n fs emb fwd ms, k, σ, h =>
    genFields_once (.comp i kw n fs emb fwd ms) decl fs k σ h
  | .ctype .., _, _, h | .enum .., _, _, h | .incomplete .., _, _, h | .fn .., _, _, h =>
    Once.refl h

theorem genFields_once (owner : Ty) (decl : String) : ∀ (fs : Fields) (k : Nat) (σ : St),
    σ.done.Nodup → Once env σ (genFields env owner (underscores k) decl σ fs).1
      (genFields env owner (underscores k) decl σ fs).2.2
  | .nil, k, σ, h => Once.refl h
  | .field s t n a rest, k, σ, h => by
    unfold genFields
    simp only
    have hd₁ : (if a > 0 then { σ with reg := registerDefined env σ.reg t } else σ).done = σ.done := by
      split <;> rfl
    generalize (if a > 0 then { σ with reg := registerDefined env σ.reg t } else σ) = σ₁ at hd₁
    have lift : ∀ (σ₂ σ₃ : St) (cs : List Comparator), σ₂.done = σ.done → Once env σ₂ σ₃ cs →
        Once env σ σ₃ cs := by
      intro σ₂ σ₃ cs e o
      obtain ⟨l, d, nn, rr⟩ := o.names
      exact ⟨⟨l, by rw [d, e], nn, rr⟩, o.nodup⟩
    have key : ∀ r : St × List Check × List Comparator, Once env σ r.1 r.2.2 →
        Once env σ (genFields env owner (underscores k) decl r.1 rest).1
          (r.2.2 ++ (genFields env owner (underscores k) decl r.1 rest).2.2) := by
      intro r hr
      exact hr.trans (genFields_once owner decl rest k r.1 hr.nodup)
    apply key
    rw [underscores_succ]
    split
    · exact lift σ₁ _ _ hd₁ (Once.refl (by rw [hd₁]; exact h))
    · split
      · split
        · exact lift { σ₁ with reg := registerRaw env σ₁.reg t } _ _ hd₁
            (genAnonymous_once _ t (k+1) _ (by show σ₁.done.Nodup; rw [hd₁]; exact h))
        · exact lift { σ₁ with reg := registerRaw env σ₁.reg t } _ _ hd₁
            (genSection_once _ t (k+1) _ (by show σ₁.done.Nodup; rw [hd₁]; exact h))
      · exact lift { σ₁ with reg := registerRaw env σ₁.reg t } _ _ hd₁
          (Once.refl (by show σ₁.done.Nodup; rw [hd₁]; exact h))
  | .bit s t n b rest, k, σ, h => by
    unfold genFields
    simp only
    split
    · exact genFields_once owner decl rest k σ h
    · have ih := genFields_once owner decl rest k
        { σ with reg := registerRaw env σ.reg t } h
      exact ⟨ih.names, ih.nodup⟩
end

theorem genSteps_once : ∀ (steps : List Step) (σ : St), σ.done.Nodup →
    Once env σ (genSteps env σ steps).1 (genSteps env σ steps).2
  | [], σ, h => Once.refl h
  | .typedef n u :: rest, σ, h => by
    have ih := genSteps_once rest { σ with reg := register env σ.reg n u } h
    exact ⟨ih.names, ih.nodup⟩
  | .param t :: rest, σ, h => by
    simp only [genSteps, genStep]
    have h0 : Once env σ
        (if (isComposable (rawType t) && !isImplicit (rawType t)) = true then
          genSection env "" "" { σ with reg := registerRaw env σ.reg t } t
         else ({ σ with reg := registerRaw env σ.reg t }, [])).1
        (if (isComposable (rawType t) && !isImplicit (rawType t)) = true then
          genSection env "" "" { σ with reg := registerRaw env σ.reg t } t
         else ({ σ with reg := registerRaw env σ.reg t }, [])).2 := by
      split
      · have := genSection_once (env := env) "" t 0 { σ with reg := registerRaw env σ.reg t } h
        exact ⟨this.names, this.nodup⟩
      · exact ⟨⟨[], by simp, rfl, by simp⟩, h⟩
    exact h0.trans (genSteps_once rest _ h0.nodup)

/-- The comparator of a parameter type is generated if it is requested. -/
theorem genSection_requested (prep decl : String) (σ : St) (t : Ty)
    (hc : ∃ i kw n fs emb ms, t = .comp i kw n fs emb false ms) (hr : requested env (comparatorName env σ.reg t) = true)
    (hp : ∃ k, prep = underscores k) (hd : σ.done.Nodup) :
    comparatorName env σ.reg t ∈ (genSection env prep decl σ t).1.done := by
  obtain ⟨k, rfl⟩ := hp
  obtain ⟨i, kw, n, fs, emb, ms, rfl⟩ := hc
  unfold genSection
  simp only [hr, Bool.not_true, Bool.or_false, Bool.false_or]
  split
  · rename_i h; simpa using h
  · rename_i hnot
    have hd' : (σ.done ++ [comparatorName env σ.reg (.comp i kw n fs emb false ms)]).Nodup := by
      rw [List.nodup_append]
      refine ⟨hd, by simp, ?_⟩
      intro a ha b hb hab
      simp at hb
      subst hb; subst hab
      exact hnot (by simpa using ha)
    have ih := genFields_once (env := env) (.comp i kw n fs emb false ms)
      (decl ++ mostDefinedName env σ.reg (.comp i kw n fs emb false ms)) fs k
      { σ with done := σ.done ++ [comparatorName env σ.reg (.comp i kw n fs emb false ms)] } hd'
    obtain ⟨l, d, _, _⟩ := ih.names
    rw [d]
    simp

/-! ## Plain types are regular -/

theorem object_composable_raw : ∀ t, isComposable (object t) = true → isComposable (rawType t) = true
  | .ref _ t, h => object_composable_raw t h
  | .const _ t, h => object_composable_raw t h
  | .tdef _ _ t, h => object_composable_raw t h
  | .comp .., h => h
  | .ptr .., h | .ctype .., h | .enum .., h | .incomplete .., h | .fn .., h => by
    simp [object, isComposable, attrs] at h

theorem plain_compared : ∀ t, Plain t → comparedAsComposite t = holdsMembers t := by
  have tdefCase : ∀ i n u, (isComposable (rawType u) = false ∧ (attrs (rawType u)).incomplete = false ∧
      NoCompositeTypedef u) → comparedAsComposite (.tdef i n u) = false ∧
      comparedAsComposite (.const i (.tdef i n u)) = false ∧ isComposable (object u) = false := by
    intro i n u h
    refine ⟨?_, ?_, ?_⟩
    · simp [comparedAsComposite, rawType, h.1, h.2.1]
    · simp [comparedAsComposite, rawType, h.1, h.2.1]
    · cases hc : isComposable (object u) with
      | false => rfl
      | true => rw [object_composable_raw u hc] at h; simp at h
  intro t h
  cases t with
  | comp i kw n fs emb fwd ms =>
    simp [comparedAsComposite, unqualified, rawType, holdsMembers, object, isPointer, attrs,
      isComposable]
    cases kw <;> rfl
  | tdef i n u =>
    rw [(tdefCase i n u h).1]
    exact (tdefCase i n u h).2.2.symm
  | ptr i u => simp [comparedAsComposite, unqualified, holdsMembers, object, isPointer, attrs,
      isComposable]
  | ctype => simp [comparedAsComposite, rawType, holdsMembers, object, attrs, isComposable]
  | enum => simp [comparedAsComposite, rawType, holdsMembers, object, attrs, isComposable]
  | fn => simp [comparedAsComposite, rawType, holdsMembers, object, attrs, isComposable]
  | ref => exact absurd h (by simp [Plain])
  | incomplete => exact absurd h (by simp [Plain])
  | const i u =>
    obtain ⟨h1, h2⟩ := h
    cases u with
    | comp i kw n fs emb fwd ms =>
      cases kw <;>
      simp [comparedAsComposite, unqualified, rawType, holdsMembers, object, isPointer, attrs,
        isComposable]
    | tdef j n u =>
      have := tdefCase j n u h2
      show comparedAsComposite (.const i (.tdef j n u)) = isComposable (object u)
      rw [this.2.2]
      exact this.2.1
    | ptr i u => simp [comparedAsComposite, unqualified, holdsMembers, object, isPointer, attrs,
        isComposable]
    | ctype => simp [comparedAsComposite, rawType, holdsMembers, object, attrs, isComposable]
    | enum => simp [comparedAsComposite, rawType, holdsMembers, object, attrs, isComposable]
    | fn => simp [comparedAsComposite, rawType, holdsMembers, object, attrs, isComposable]
    | ref => exact absurd h2 (by simp [Plain])
    | incomplete => exact absurd h2 (by simp [Plain])
    | const => simp [isConst] at h1

theorem typedefsNamed_of_plain {PN : String → Ty → Prop}
    (hkey : ∀ u t, isComposable u = true → env.key u = env.key t → isComposable t = true) :
    ∀ t, NoCompositeTypedef t → TypedefsNamed env PN t
  | .ptr _ t, h => typedefsNamed_of_plain hkey t h
  | .ref _ t, h => typedefsNamed_of_plain hkey t h
  | .const _ t, h => typedefsNamed_of_plain hkey t h
  | .tdef _ n t, h => by
    refine ⟨?_, typedefsNamed_of_plain hkey t h.2.2⟩
    intro _ u hu _ hk
    have ht := hkey u t hu hk
    obtain ⟨i, kw, n, fs, emb, fwd, ms, rfl⟩ := composable_comp ht
    have : isComposable (rawType (.comp i kw n fs emb fwd ms)) = false := h.1
    rw [show rawType (.comp i kw n fs emb fwd ms) = .comp i kw n fs emb fwd ms from rfl, ht] at this
    simp at this
  | .comp .., _ | .ctype .., _ | .enum .., _ | .incomplete .., _ | .fn .., _ => trivial

theorem plain_noTypedef : ∀ t, Plain t → NoCompositeTypedef t
  | .ptr _ _, h => h
  | .ref _ _, h => absurd h (by simp [Plain])
  | .const _ t, h => plain_noTypedef t h.2
  | .tdef _ _ _, h => h
  | .comp .., _ | .ctype .., _ | .enum .., _ | .fn .., _ => trivial
  | .incomplete .., h => absurd h (by simp [Plain])

mutual
theorem plain_regular {P : List Ty}
    (hkey : ∀ u t, isComposable u = true → env.key u = env.key t → isComposable t = true) :
    ∀ (t : Ty) (prep : String), Plain t → (∀ u ∈ parts t, u ∈ P) →
    Regular env (fun N u => u ∈ P ∧ N = tagName env u) id prep t
  | .const _ t, prep, h, hp => plain_regular hkey t prep h.2 hp
  | .ref .., _, h, _ => absurd h (by simp [Plain])
  | .tdef _ _ t, prep, h, hp => noTypedef_regular t prep h.1
  | .comp i kw n fs emb fwd ms, prep, h, hp => by
    obtain ⟨h1, h2, h3⟩ := h
    refine ⟨h2, ⟨hp _ (by simp [parts]), rfl⟩, ?_, ?_⟩
    · intro N _
      simp [h1]
    · exact plainFields_regular hkey fs prep h3 (fun u hu => hp u (by simp [parts, hu]))
  | .ptr .., _, _, _ | .ctype .., _, _, _ | .enum .., _, _, _ | .fn .., _, _, _
  | .incomplete .., _, _, _ => trivial

/-- A type whose raw type has no members. -/
theorem noTypedef_regular {P : List Ty} : ∀ (t : Ty) (prep : String),
    isComposable (rawType t) = false →
    Regular env (fun N u => u ∈ P ∧ N = tagName env u) id prep t
  | .ref _ t, prep, h => noTypedef_regular t prep h
  | .const _ t, prep, h => noTypedef_regular t prep h
  | .tdef _ _ t, prep, h => noTypedef_regular t prep h
  | .comp i kw n fs emb fwd ms, _, h => by
    rw [show rawType (.comp i kw n fs emb fwd ms) = .comp i kw n fs emb fwd ms from rfl,
      isComposable_comp] at h
    simp at h
  | .ptr .., _, _ | .ctype .., _, _ | .enum .., _, _ | .fn .., _, _ | .incomplete .., _, _ => trivial

theorem noTypedef_regularAnonymous {P : List Ty} : ∀ (t : Ty) (prep : String),
    isComposable (rawType t) = false →
    RegularAnonymous env (fun N u => u ∈ P ∧ N = tagName env u) id prep t
  | .ref _ t, prep, h => noTypedef_regularAnonymous t prep h
  | .const _ t, prep, h => noTypedef_regularAnonymous t prep h
  | .tdef _ _ t, prep, h => noTypedef_regularAnonymous t prep h
  | .comp i kw n fs emb fwd ms, _, h => by
    rw [show rawType (.comp i kw n fs emb fwd ms) = .comp i kw n fs emb fwd ms from rfl,
      isComposable_comp] at h
    simp at h
  | .ptr .., _, _ | .ctype .., _, _ | .enum .., _, _ | .fn .., _, _ | .incomplete .., _, _ => trivial

theorem plain_regularAnonymous {P : List Ty}
    (hkey : ∀ u t, isComposable u = true → env.key u = env.key t → isComposable t = true) :
    ∀ (t : Ty) (prep : String), Plain t → (∀ u ∈ parts t, u ∈ P) →
    RegularAnonymous env (fun N u => u ∈ P ∧ N = tagName env u) id prep t
  | .const _ t, prep, h, hp => plain_regularAnonymous hkey t prep h.2 hp
  | .ref .., _, h, _ => absurd h (by simp [Plain])
  | .tdef _ _ t, prep, h, hp => noTypedef_regularAnonymous t prep h.1
  | .comp i kw n fs emb fwd ms, prep, h, hp =>
    plainFields_regular hkey fs prep h.2.2 (fun u hu => hp u (by simp [parts, hu]))
  | .ptr .., _, _, _ | .ctype .., _, _, _ | .enum .., _, _, _ | .fn .., _, _, _
  | .incomplete .., _, _, _ => trivial

theorem plainFields_regular {P : List Ty}
    (hkey : ∀ u t, isComposable u = true → env.key u = env.key t → isComposable t = true) :
    ∀ (fs : Fields) (prep : String), PlainFields fs → (∀ u ∈ partsFields fs, u ∈ P) →
    RegularFields env (fun N u => u ∈ P ∧ N = tagName env u) id prep fs
  | .nil, _, _, _ => trivial
  | .field s t n a rest, prep, h, hp => by
    refine ⟨⟨typedefsNamed_of_plain hkey t (plain_noTypedef t h.1), plain_compared t h.1, ?_⟩,
      plainFields_regular hkey rest prep h.2 (fun u hu => hp u (by simp [partsFields, hu]))⟩
    split
    · exact plain_regularAnonymous hkey t _ h.1 (fun u hu => hp u (by simp [partsFields, hu]))
    · exact plain_regular hkey t _ h.1 (fun u hu => hp u (by simp [partsFields, hu]))
  | .bit s t n b rest, prep, h, hp =>
    ⟨typedefsNamed_of_plain hkey t h.1,
      plainFields_regular hkey rest prep h.2 (fun u hu => hp u (by simp [partsFields, hu]))⟩
end

end EasyMock.StructCmp
