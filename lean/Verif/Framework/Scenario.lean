import Verif.Framework.Hist

namespace EasyMock
open Spec

/-- The expectation accepts the call: right object and no matcher rejects (specification of a matching call). -/
def Accepts (fc : FnCfg) (m : Mem) (e : Exp) (c : Call) : Prop :=
  (fc.isMember = true → e.inst = 0 ∨ e.inst = c.this) ∧
  ∀ x ∈ zip3 fc.paramNames e.params c.args, ∀ mt, x.2.1.matcher = some mt → mt m x.2.2 x.2.1.value x.1 = none

theorem matchErrs_nil_iff (m : Mem) (ps : List (String × ParamExp × Val)) :
    matchErrs m ps = [] ↔ ∀ x ∈ ps, ∀ mt, x.2.1.matcher = some mt → mt m x.2.2 x.2.1.value x.1 = none := by
  unfold matchErrs
  rw [List.filterMap_eq_nil_iff]
  constructor
  · intro h x hx mt hm
    have := h x hx
    simpa [hm] using this
  · intro h x hx
    cases hm : x.2.1.matcher with
    | none => rfl
    | some mt => simpa using h x hx mt hm

theorem accepts_iff (fc : FnCfg) (m : Mem) (e : Exp) (c : Call) :
    Accepts fc m e c ↔ ¬ (fc.isMember = true ∧ e.inst ≠ 0 ∧ e.inst ≠ c.this) ∧
      matchErrs m (zip3 fc.paramNames e.params c.args) = [] := by
  unfold Accepts
  rw [matchErrs_nil_iff]
  constructor
  · rintro ⟨h1, h2⟩
    refine ⟨?_, h2⟩
    rintro ⟨a, b, d⟩
    rcases h1 a with h | h
    · exact b h
    · exact d h
  · rintro ⟨h1, h2⟩
    refine ⟨?_, h2⟩
    intro a
    by_cases b : e.inst = 0
    · exact Or.inl b
    · by_cases d : e.inst = c.this
      · exact Or.inr d
      · exact (h1 ⟨a, b, d⟩).elim

section
variable {cfg : Cfg} {m0 : Mem} {p : List Op} {es : List (FnId × Exp)}

theorem take_snoc_le {α : Type} (l : List α) (x : α) {k : Nat} (h : k ≤ l.length) : (l ++ [x]).take k = l.take k := by
  rw [List.take_append, Nat.sub_eq_zero_of_le h]; simp

/-- A scenario leaves no error exactly when every call leaves none. -/
theorem errs_scen_nil {cs : List (FnId × Call)} (hl : Legal cfg m0 (scen p es cs)) :
    errs cfg m0 (scen p es cs) = [] ↔
    ∀ k f c fc, cs[k]? = some (f, c) → cfg.fn? f = some fc → callErrs cfg m0 (scen p es (cs.take k)) f fc c = [] := by
  induction cs using snoc_induction with
  | nil =>
    have : errs cfg m0 (scen p es []) = [] := by
      simp only [scen, callOps, List.map_nil, List.reverse_nil, List.nil_append]
      exact errs_expOps cfg m0 p es
    simp [this]
  | snoc cs x ih =>
    rw [scen_snoc] at hl
    obtain ⟨fc, hfc, _⟩ := legal_fn? hl
    have ih := ih hl.1
    rw [scen_snoc]
    simp only [Spec.errs, hfc, List.append_eq_nil_iff, List.map_eq_nil_iff, ih]
    constructor
    · rintro ⟨h1, h2⟩ k f c fc' hk hf
      by_cases hlt : k < cs.length
      · rw [take_snoc_le _ _ (by omega)]
        rw [List.getElem?_append_left hlt] at hk
        exact h1 k f c fc' hk hf
      · have hkl := (List.getElem?_eq_some_iff.mp hk).1
        simp only [List.length_append, List.length_cons, List.length_nil] at hkl
        have : k = cs.length := by omega
        subst this
        simp at hk
        subst hk
        rw [hfc] at hf; cases hf
        simpa using h2
    · intro h
      refine ⟨?_, ?_⟩
      · intro k f c fc' hk hf
        have hlt := (List.getElem?_eq_some_iff.mp hk).1
        have := h k f c fc' (by rw [List.getElem?_append_left hlt]; exact hk) hf
        rwa [take_snoc_le _ _ (by omega)] at this
      · have := h cs.length x.1 x.2 fc (by simp) hfc
        simpa using this

theorem legal_prefix {k q : List Op} (h : Legal cfg m0 (k ++ q)) : Legal cfg m0 q := by
  induction k with
  | nil => exact h
  | cons op k ih => exact ih h.1

theorem legal_take {cs : List (FnId × Call)} (hl : Legal cfg m0 (scen p es cs)) (k : Nat) :
    Legal cfg m0 (scen p es (cs.take k)) := by
  have : scen p es cs = (callOps (cs.drop k)).reverse ++ scen p es (cs.take k) := by
    have e : callOps cs = callOps (cs.take k) ++ callOps (cs.drop k) := by
      unfold callOps; rw [← List.map_append, List.take_append_drop]
    unfold scen
    rw [e]
    simp
  rw [this] at hl
  exact legal_prefix hl

theorem legal_call {cs : List (FnId × Call)} (hl : Legal cfg m0 (scen p es cs)) {k : Nat} {f : FnId} {c : Call}
    (hk : cs[k]? = some (f, c)) : ∃ fc, cfg.fn? f = some fc ∧ loaded f.file (scen p es (cs.take k)) = true ∧
      Legal cfg m0 (scen p es (cs.take (k + 1))) := by
  have h := legal_take hl (k + 1)
  obtain ⟨hlt, hg⟩ := List.getElem?_eq_some_iff.mp hk
  have e : cs.take (k + 1) = cs.take k ++ [(f, c)] := by
    rw [List.take_add_one, hk]; rfl
  rw [e] at h ⊢
  have h' := h
  rw [scen_snoc] at h
  obtain ⟨fc, h1, h2⟩ := legal_fn? h
  exact ⟨fc, h1, h2, h'⟩

theorem legal_exp {k : Nat} {f : FnId} {e : Exp} {cs : List (FnId × Call)} (hl : Legal cfg m0 (scen p es cs))
    (hk : es[k]? = some (f, e)) : Valid cfg f ∧ loaded f.file p = true := by
  have h1 : Legal cfg m0 ((expOps es).reverse ++ .init :: p) := legal_prefix (k := (callOps cs).reverse) hl
  have e1 : (expOps es).reverse = (expOps (es.drop (k + 1))).reverse ++ .expect f e true :: (expOps (es.take k)).reverse := by
    have : es = es.take k ++ (f, e) :: es.drop (k + 1) := by
      obtain ⟨hlt, hg⟩ := List.getElem?_eq_some_iff.mp hk
      rw [← hg, List.getElem_cons_drop, List.take_append_drop]
    conv => lhs; rw [this]
    simp [expOps]
  rw [e1, List.append_assoc] at h1
  have h2 := legal_prefix h1
  obtain ⟨h3, o, ho⟩ := h2
  have hld : ∀ es : List (FnId × Exp), loaded f.file ((expOps es).reverse ++ .init :: p) = loaded f.file p := by
    intro es
    have : ∀ es : List (FnId × Exp), loaded f.file ((expOps es.reverse).reverse ++ .init :: p) = loaded f.file p := by
      intro es
      induction es with
      | nil => simp [expOps, Spec.loaded]
      | cons x es ih => simpa [expOps, Spec.loaded] using ih
    simpa using this es.reverse
  cases hf : cfg.fn? f with
  | none => simp [Spec.observe, hf] at ho
  | some fc =>
    refine ⟨by simp [Valid, hf], ?_⟩
    rw [← hld (es.take k)]
    cases hx : loaded f.file ((expOps (es.take k)).reverse ++ .init :: p) with
    | true => rfl
    | false => simp [Spec.observe, hf, hx] at ho

theorem loaded_scen (i : Nat) (cs : List (FnId × Call)) : loaded i (scen p es cs) = loaded i p := by
  have h1 : ∀ es : List (FnId × Exp), loaded i ((expOps es).reverse ++ .init :: p) = loaded i p := by
    intro es
    induction es using snoc_induction with
    | nil => simp [expOps, Spec.loaded]
    | snoc es x ih => simpa [expOps, Spec.loaded] using ih
  induction cs using snoc_induction with
  | nil => exact h1 es
  | snoc cs x ih => rw [scen_snoc]; exact ih

/-- When every call is served, the order queue is what is left of the registered names. -/
theorem fifo_scen {cs : List (FnId × Call)} (h : ∀ k f c, cs[k]? = some (f, c) → (serving f (scen p es (cs.take k))).isSome) :
    fifo cfg (scen p es cs) = (es.map (fun x => cfg.name x.1)).drop cs.length := by
  induction cs using snoc_induction with
  | nil =>
    simp only [scen, callOps, List.map_nil, List.reverse_nil, List.nil_append, List.length_nil, List.drop_zero]
    exact fifo_expOps cfg p es
  | snoc cs x ih =>
    have hx := h cs.length x.1 x.2 (by simp)
    rw [List.take_left'] at hx
    · have ih := ih (fun k f c hk => by
        have hlt := (List.getElem?_eq_some_iff.mp hk).1
        have := h k f c (by rw [List.getElem?_append_left hlt]; exact hk)
        rwa [take_snoc_le _ _ (by omega)] at this)
      rw [scen_snoc]
      simp only [Spec.fifo, hx, if_true, ih, List.length_append, List.length_cons, List.length_nil]
      rw [List.tail_drop]
    · rfl

/-- The element at position `k` of a list is, among the elements with the same key, number "how many before". -/
theorem filter_count {α : Type} (P : α → Bool) (l : List α) (k : Nat) {x : α} (hk : l[k]? = some x) (hx : P x = true) :
    (l.filter P)[(l.take k).countP P]? = some x := by
  induction l generalizing k with
  | nil => simp at hk
  | cons a l ih =>
    cases k with
    | zero => simp at hk; subst hk; simp [hx]
    | succ k =>
      have := ih k (by simpa using hk)
      by_cases ha : P a = true
      · simp [ha, this]
      · simp [ha, this]

theorem nthExp_take {k : Nat} {f : FnId} {e : Exp} (hk : es[k]? = some (f, e)) :
    nthExp f es ((es.take k).countP (fun x => x.1 == f)) = some e := by
  unfold nthExp
  rw [List.getElem?_map, filter_count (fun x => x.1 == f) es k hk (by simp)]
  rfl

theorem countP_fst {β : Type} (l : List (FnId × β)) (f : FnId) :
    l.countP (fun x => x.1 == f) = (l.map (·.1)).countP (fun g => g == f) := by
  rw [List.countP_map]; rfl

theorem map_take_fst {β : Type} (l : List (FnId × β)) (k : Nat) : (l.take k).map (·.1) = (l.map (·.1)).take k := by
  rw [List.map_take]

/-- The element of given rank among those with key `f`. -/
theorem rank_of_filter {β : Type} (l : List (FnId × β)) (f : FnId) (r : Nat) {b : β}
    (h : (l.filter (fun x => x.1 == f))[r]? = some (f, b)) :
    ∃ j, l[j]? = some (f, b) ∧ (l.take j).countP (fun x => x.1 == f) = r := by
  induction l generalizing r with
  | nil => simp at h
  | cons a l ih =>
    by_cases ha : a.1 = f
    · rw [List.filter_cons_of_pos (by simp [ha])] at h
      cases r with
      | zero => exact ⟨0, by simpa using h, by simp⟩
      | succ r =>
        obtain ⟨j, h1, h2⟩ := ih r (by simpa using h)
        exact ⟨j + 1, by simpa using h1, by simp [ha, h2]⟩
    · rw [List.filter_cons_of_neg (by simp [ha])] at h
      obtain ⟨j, h1, h2⟩ := ih r h
      exact ⟨j + 1, by simpa using h1, by simp [ha, h2]⟩

theorem rank_exists {β : Type} (l : List (FnId × β)) (f : FnId) (r : Nat) (h : r < l.countP (fun x => x.1 == f)) :
    ∃ j b, l[j]? = some (f, b) ∧ (l.take j).countP (fun x => x.1 == f) = r := by
  rw [List.countP_eq_length_filter] at h
  have h1 := List.getElem?_eq_getElem h
  have h2 := (List.mem_filter.mp (List.getElem_mem h)).2
  have h3 : (l.filter (fun x => x.1 == f))[r].1 = f := by simpa using h2
  obtain ⟨j, ha, hb⟩ := rank_of_filter l f r (b := (l.filter (fun x => x.1 == f))[r].2) (by rw [h1]; exact congrArg some (Prod.ext h3 rfl))
  exact ⟨j, _, ha, hb⟩

end

end EasyMock
