import Verif.StructCmp.TypedefSpec
import Verif.Props.StructCmp

/-! # StructCmp: programs with typedefs are regular -/

namespace EasyMock.StructCmp

open EasyMock.Types

variable {env : Env} {PN : String → Ty → Prop}

theorem typedefs_named : ∀ t, (∀ N u, (N, u) ∈ typedefsBehind t → isComposable u = true → PN N u) →
    (∀ N t', (N, t') ∈ typedefsBehind t → ∀ u, PN (tagName env u) u → env.key u = env.key t' → u = t') → TypedefsNamed env PN t
  | .ptr _ t, h, hk => typedefs_named t h hk
  | .ref _ t, h, hk => typedefs_named t h hk
  | .const _ t, h, hk => typedefs_named t h hk
  | .tdef _ n t, h, hk => by
    refine ⟨?_, typedefs_named t (fun N u hu => h N u (List.mem_cons_of_mem _ hu)) (fun N u hu => hk N u (List.mem_cons_of_mem _ hu))⟩
    intro _ u hu hn he
    exact h n u (by rw [hk n t List.mem_cons_self u hn he]; exact List.mem_cons_self) hu
  | .comp .., _, _ | .ctype .., _, _ | .enum .., _, _ | .incomplete .., _, _ | .fn .., _, _ => trivial

mutual
theorem scope_regular : ∀ (t : Ty) (prep : String), AtFileScope true t →
    (∀ N u, (N, u) ∈ namesIn env t → isComposable u = true → PN N u) →
    (∀ N t', (N, t') ∈ namesIn env t → ∀ u, PN (tagName env u) u → env.key u = env.key t' → u = t') → Regular env PN id prep t
  | .ref _ t, prep, h, hn, hk => scope_regular t prep h hn hk
  | .const _ t, prep, h, hn, hk => scope_regular t prep h hn hk
  | .tdef _ _ t, prep, h, hn, hk => scope_regular t prep h hn hk
  | .comp i kw n fs emb fwd ms, prep, h, hn, hk => by
    obtain ⟨h1, h2⟩ := h
    obtain ⟨rfl, rfl⟩ := h1 rfl
    refine ⟨rfl, hn _ _ (by rw [namesIn]; exact List.mem_cons_self) (isComposable_comp ..), ?_, ?_⟩
    · intro N _
      simp
    · exact scopeFields_regular fs prep h2 (fun N u hu => hn N u (by rw [namesIn]; exact List.mem_cons_of_mem _ hu))
        (fun N u hu => hk N u (by rw [namesIn]; exact List.mem_cons_of_mem _ hu))
  | .ptr .., _, _, _, _ | .ctype .., _, _, _, _ | .enum .., _, _, _, _ | .fn .., _, _, _, _ | .incomplete .., _, _, _, _ => trivial

theorem scope_regularAnonymous : ∀ (t : Ty) (prep : String) (b : Bool), AtFileScope b t →
    (∀ N u, (N, u) ∈ namesIn env t → isComposable u = true → PN N u) →
    (∀ N t', (N, t') ∈ namesIn env t → ∀ u, PN (tagName env u) u → env.key u = env.key t' → u = t') → RegularAnonymous env PN id prep t
  | .ref _ t, prep, b, h, hn, hk => scope_regularAnonymous t prep b h hn hk
  | .const _ t, prep, b, h, hn, hk => scope_regularAnonymous t prep b h hn hk
  | .tdef _ _ t, prep, b, h, hn, hk => scope_regularAnonymous t prep b h hn hk
  | .comp i kw n fs emb fwd ms, prep, b, h, hn, hk =>
    scopeFields_regular fs prep h.2 (fun N u hu => hn N u (by rw [namesIn]; exact List.mem_cons_of_mem _ hu))
      (fun N u hu => hk N u (by rw [namesIn]; exact List.mem_cons_of_mem _ hu))
  | .ptr .., _, _, _, _, _ | .ctype .., _, _, _, _, _ | .enum .., _, _, _, _, _ | .fn .., _, _, _, _, _ | .incomplete .., _, _, _, _, _ => trivial

theorem scopeFields_regular : ∀ (fs : Fields) (prep : String), MembersAtFileScope fs →
    (∀ N u, (N, u) ∈ namesInFields env fs → isComposable u = true → PN N u) →
    (∀ N t', (N, t') ∈ namesInFields env fs → ∀ u, PN (tagName env u) u → env.key u = env.key t' → u = t') → RegularFields env PN id prep fs
  | .nil, _, _, _, _ => trivial
  | .field s t n a rest, prep, h, hn, hk => by
    rw [namesInFields] at hn hk
    refine ⟨⟨typedefs_named t (fun N u hu => hn N u (List.mem_append_left _ (List.mem_append_left _ hu))) (fun N u hu => hk N u (List.mem_append_left _ (List.mem_append_left _ hu))), h.1, ?_⟩,
      scopeFields_regular rest prep h.2.2 (fun N u hu => hn N u (List.mem_append_right _ hu)) (fun N u hu => hk N u (List.mem_append_right _ hu))⟩
    have hn' : ∀ N u, (N, u) ∈ namesIn env t → isComposable u = true → PN N u :=
      fun N u hu => hn N u (List.mem_append_left _ (List.mem_append_right _ hu))
    have hk' : ∀ N t', (N, t') ∈ namesIn env t → ∀ u, PN (tagName env u) u → env.key u = env.key t' → u = t' :=
      fun N u hu => hk N u (List.mem_append_left _ (List.mem_append_right _ hu))
    have h2 := h.2.1
    split
    · exact scope_regularAnonymous t _ _ h2 hn' hk'
    · rename_i hne
      rw [show (n != "") = true by simpa using hne] at h2
      exact scope_regular t _ h2 hn' hk'
  | .bit s t n b rest, prep, h, hn, hk => by
    rw [namesInFields] at hn hk
    exact ⟨typedefs_named t (fun N u hu => hn N u (List.mem_append_left _ hu)) (fun N u hu => hk N u (List.mem_append_left _ hu)),
      scopeFields_regular rest prep h (fun N u hu => hn N u (List.mem_append_right _ hu)) (fun N u hu => hk N u (List.mem_append_right _ hu))⟩
end

/-- One name, one type. -/
theorem names_naming {ts : List Ty} (h : ∀ N u u', NamesType env ts N u → NamesType env ts N u' → u = u') : Naming (NamesType env ts) id :=
  ⟨fun N t u => h N t u, fun _ _ _ _ _ _ e => e⟩

theorem names_steps {ts : List Ty} (hs : ∀ t ∈ ts, AtFileScope true (rawType t))
    (hkey : ∀ t ∈ ts, ∀ N t', (N, t') ∈ typedefsBehind t ++ namesIn env (rawType t) → ∀ u, NamesType env ts (tagName env u) u → env.key u = env.key t' → u = t') :
    RegularSteps env (NamesType env ts) id (ts.map .param) := by
  have hr : ∀ l : List Ty, (∀ t ∈ l, t ∈ ts) → RegularSteps env (NamesType env ts) id (l.map .param) := by
    intro l
    induction l with
    | nil => intro _; trivial
    | cons x xs ih =>
      intro hl
      have hx := hl x List.mem_cons_self
      refine ⟨typedefs_named x (fun N u hu hc => ⟨hc, x, hx, Or.inl hu⟩)
        (fun N u hu => hkey x hx N u (List.mem_append_left _ hu)), ?_, ih (fun t h => hl t (List.mem_cons_of_mem _ h))⟩
      intro _
      exact scope_regular (rawType x) "" (hs x hx) (fun N u hu hc => ⟨hc, x, hx, Or.inr hu⟩)
        (fun N u hu => hkey x hx N u (List.mem_append_right _ hu))
  exact hr ts (fun _ h => h)

end EasyMock.StructCmp
