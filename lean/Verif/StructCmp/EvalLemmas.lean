import Verif.StructCmp.GenLemmas

/-! # StructCmp: running the generated comparators -/

namespace EasyMock.StructCmp

open EasyMock.Types

variable {env : Env} {PN : String → Ty → Prop} {full : String → String} {S : Type}

/-- A result agrees with a list of differences: 0 when there are none, and otherwise -1 with a message about
    the first. -/
def Agrees : Out S → List (Report S) → Prop
  | .equal, l => l = []
  | .diff _ _ _ r, l => l.head? = some r
  | _, _ => False

theorem agrees_append {o : Out S} {l₁ l₂ : List (Report S)} (h : Agrees o l₁) (hne : o ≠ .equal) :
    Agrees o (l₁ ++ l₂) := by
  cases o with
  | equal => exact absurd rfl hne
  | diff a b c r =>
    cases l₁ with
    | nil => simp [Agrees] at h
    | cons x xs => simpa [Agrees] using h
  | unlinked => exact h
  | confused => exact h
  | unfinished => exact h

theorem evalChecks_append {neq : S → S → Bool} {callee : String → Val S → Val S → String → Out S}
    {art p : String} {c e : Val S} {l₂ : List (Report S)} {k₂ : List Check}
    (h₂ : Agrees (evalChecks neq callee art p c e k₂) l₂) : ∀ {k₁ : List Check}
    {l₁ : List (Report S)}, Agrees (evalChecks neq callee art p c e k₁) l₁ →
    Agrees (evalChecks neq callee art p c e (k₁ ++ k₂)) (l₁ ++ l₂)
  | [], l₁, h₁ => by
    have : l₁ = [] := h₁
    subst this
    exact h₂
  | k :: ks, l₁, h₁ => by
    rw [List.cons_append]
    unfold evalChecks at h₁ ⊢
    cases hk : evalCheck neq callee art p c e k with
    | equal =>
      rw [hk] at h₁
      exact evalChecks_append h₂ h₁
    | diff => rw [hk] at h₁; exact agrees_append h₁ (by simp)
    | unlinked => rw [hk] at h₁; exact h₁
    | confused => rw [hk] at h₁; exact h₁
    | unfinished => rw [hk] at h₁; exact h₁

theorem evalChecks_one {neq : S → S → Bool} {callee : String → Val S → Val S → String → Out S}
    {art p : String} {c e : Val S} {k : Check} :
    evalChecks neq callee art p c e [k] = evalCheck neq callee art p c e k := by
  unfold evalChecks
  cases hk : evalCheck neq callee art p c e k <;> simp [evalChecks]

theorem diffsLoop_shift (body : Nat → List (Report S)) : ∀ (n i : Nat),
    (List.range' i (n+1)).flatMap body = body i ++ (List.range' (i+1) n).flatMap body := by
  intro n i
  rw [List.range'_succ]
  rfl

theorem evalLoop_agrees {body : Nat → Out S} {db : Nat → List (Report S)} : ∀ (n i : Nat),
    (∀ j, i ≤ j → j < i + n → Agrees (body j) (db j)) →
    Agrees (evalLoop body i n) ((List.range' i n).flatMap db)
  | 0, i, _ => by simp [evalLoop, Agrees]
  | n + 1, i, h => by
    rw [diffsLoop_shift]
    unfold evalLoop
    have h0 := h i (Nat.le_refl _) (by omega)
    cases hb : body i with
    | equal =>
      rw [hb] at h0
      have h0' : db i = [] := h0
      rw [h0', List.nil_append]
      exact evalLoop_agrees n (i+1) (fun j h1 h2 => h j (by omega) (by omega))
    | diff => rw [hb] at h0; exact agrees_append h0 (by simp)
    | unlinked => rw [hb] at h0; exact h0
    | confused => rw [hb] at h0; exact h0
    | unfinished => rw [hb] at h0; exact h0

theorem evalLoop_agrees_range {body : Nat → Out S} {db : Nat → List (Report S)} (n : Nat)
    (h : ∀ j, j < n → Agrees (body j) (db j)) :
    Agrees (evalLoop body 0 n) (diffsLoop db n) := by
  unfold diffsLoop
  rw [List.range_eq_range']
  exact evalLoop_agrees n 0 (fun j _ h2 => h j (by omega))

theorem evalNeq_agrees {neq : S → S → Bool} {art o p f : String} {fmt : Option String}
    {idx : Option Nat} {v w : Val S} (hv : ∃ a, v = .scalar a) (hw : ∃ a, w = .scalar a) :
    Agrees (evalNeq neq art o fmt p f idx v w) (diffsScalar neq p f idx v w) := by
  obtain ⟨a, rfl⟩ := hv
  obtain ⟨b, rfl⟩ := hw
  unfold evalNeq diffsScalar
  simp only
  split <;> simp [Agrees]

/-- The program has a comparator for every name of `D`. -/
def Closed (PN : String → Ty → Prop) (full : String → String) (D : String → Prop)
    (prog : List Comparator) : Prop :=
  ∀ N t, D N → PN N t → ∃ c, prog.find? (fun k => k.name == full N) = some c ∧
    MatchType PN full D t c.checks

theorem fits_scalar : ∀ (t : Ty) (v : Val S), holdsMembers t = false → Fits t v → ∃ a, v = .scalar a
  | .ref _ t, v, h, hf => fits_scalar t v h hf
  | .const _ t, v, h, hf => fits_scalar t v h hf
  | .tdef _ _ t, v, h, hf => fits_scalar t v h hf
  | .comp i kw n fs emb fwd ms, v, h, hf => by
    have : isComposable (.comp i kw n fs emb fwd ms) = false := h
    rw [isComposable_comp] at this; simp at this
  | .ptr .., _, _, hf | .ctype .., _, _, hf | .enum .., _, _, hf | .incomplete .., _, _, hf
  | .fn .., _, _, hf => hf

/-- Without bytes there is nothing to compare. -/
theorem diffs_of_zeroSize (neq : S → S → Bool) : ∀ (t : Ty) (v w : Val S) (p : String),
    nonZeroSize t = false → holdsMembers t = true ∧ diffs neq t v w p = []
  | .ref .., _, _, _, h => by simp [nonZeroSize, untypedef] at h
  | .const _ t, v, w, p, h => diffs_of_zeroSize neq t v w p h
  | .tdef _ _ t, v, w, p, h => diffs_of_zeroSize neq t v w p h
  | .comp i kw n .nil emb fwd ms, v, w, p, _ =>
    ⟨isComposable_comp _ _ _ _ _ _ _, by simp [diffs, diffsFields]⟩
  | .comp _ _ _ (.field ..) _ _ _, _, _, _, h => by simp [nonZeroSize, untypedef] at h
  | .comp _ _ _ (.bit ..) _ _ _, _, _, _, h => by simp [nonZeroSize, untypedef] at h
  | .ptr .., _, _, _, h | .ctype .., _, _, _, h | .enum .., _, _, _, h
  | .incomplete .., _, _, _, h | .fn .., _, _, _, h => by simp [nonZeroSize, untypedef] at h

theorem diffsLoop_nil {body : Nat → List (Report S)} {n : Nat} (h : ∀ i, i < n → body i = []) :
    diffsLoop body n = [] := by
  unfold diffsLoop
  rw [List.flatMap_eq_nil_iff]
  intro i hi
  exact h i (by simpa using hi)

mutual
theorem run_agrees {D : String → Prop} {prog : List Comparator} (neq : S → S → Bool)
    (hP : Closed PN full D prog) : ∀ (t : Ty), holdsMembers t = true →
    ∃ k, ∀ depth, k ≤ depth → ∀ N, PN N (object t) → D N → ∀ (v w : Val S) (p : String),
      Fits t v → Fits t w → Agrees (run prog neq depth (full N) v w p) (diffs neq t v w p)
  | .ref _ t, h => run_agrees neq hP t h
  | .const _ t, h => run_agrees neq hP t h
  | .tdef _ _ t, h => run_agrees neq hP t h
  | .comp i kw n fs emb fwd ms, _ => by
    obtain ⟨k, hk⟩ := runFields_agrees neq hP fs
    refine ⟨k + 1, ?_⟩
    intro depth hd N hN hD v w p hv hw
    obtain ⟨d, rfl⟩ : ∃ d, depth = d + 1 := ⟨depth - 1, by omega⟩
    obtain ⟨c, hc, hm⟩ := hP N _ hD hN
    obtain ⟨g, rfl, hg⟩ := hv
    obtain ⟨g', rfl, hg'⟩ := hw
    unfold run
    rw [hc]
    simp only [diffs]
    have h1 := hk d (by omega) c.checks hm c.article p g g' hg hg' false
    have h2 := hk d (by omega) c.checks hm c.article p g g' hg hg' true
    have e1 : (fun x : Check => x.array == false) = (fun x => !x.array) := by
      funext x; cases x.array <;> rfl
    have e2 : (fun x : Check => x.array == true) = (fun x => x.array) := by
      funext x; cases x.array <;> rfl
    rw [e1] at h1
    rw [e2] at h2
    exact evalChecks_append h2 h1
  | .ptr .., h | .ctype .., h | .enum .., h | .incomplete .., h | .fn .., h => by
    simp [holdsMembers, object, isComposable, attrs] at h

theorem runAnonymous_agrees {D : String → Prop} {prog : List Comparator} (neq : S → S → Bool)
    (hP : Closed PN full D prog) : ∀ (t : Ty), holdsMembers t = true →
    ∃ k, ∀ depth, k ≤ depth → ∀ cs, MatchAnonymous PN full D t cs →
      ∀ (art p : String) (g g' : String → Option (Val S)), Fits t (.comp g) → Fits t (.comp g') →
      ∀ arrays, Agrees (evalChecks neq (run prog neq depth) art p (.comp g) (.comp g')
        (cs.filter (fun x => x.array == arrays))) (diffsAnonymous neq arrays t g g' p)
  | .ref _ t, h => runAnonymous_agrees neq hP t h
  | .const _ t, h => runAnonymous_agrees neq hP t h
  | .tdef _ _ t, h => runAnonymous_agrees neq hP t h
  | .comp i kw n fs emb fwd ms, _ => by
    obtain ⟨k, hk⟩ := runFields_agrees neq hP fs
    refine ⟨k, ?_⟩
    intro depth hd cs hm art p g g' hv hw arrays
    obtain ⟨u, hu, hg⟩ := hv
    obtain ⟨u', hu', hg'⟩ := hw
    cases hu; cases hu'
    exact hk depth hd cs hm art p g g' hg hg' arrays
  | .ptr .., h | .ctype .., h | .enum .., h | .incomplete .., h | .fn .., h => by
    simp [holdsMembers, object, isComposable, attrs] at h

theorem runFields_agrees {D : String → Prop} {prog : List Comparator} (neq : S → S → Bool)
    (hP : Closed PN full D prog) : ∀ (fs : Fields),
    ∃ k, ∀ depth, k ≤ depth → ∀ cs, Match PN full D fs cs →
      ∀ (art p : String) (g g' : String → Option (Val S)), FitsFields fs g → FitsFields fs g' →
      ∀ arrays, Agrees (evalChecks neq (run prog neq depth) art p (.comp g) (.comp g')
        (cs.filter (fun x => x.array == arrays))) (diffsFields neq arrays fs g g' p)
  | .nil => by
    refine ⟨0, ?_⟩
    intro depth _ cs hm art p g g' _ _ arrays
    have : cs = [] := hm
    subst this
    simp [evalChecks, diffsFields, Agrees]
  | .field s t n a rest => by
    obtain ⟨k₂, hrest⟩ := runFields_agrees neq hP rest
    have hsub : ∃ k, holdsMembers t = true →
        (∀ depth, k ≤ depth → ∀ N, PN N (object t) → D N → ∀ (v w : Val S) (p : String),
          Fits t v → Fits t w → Agrees (run prog neq depth (full N) v w p) (diffs neq t v w p)) ∧
        (∀ depth, k ≤ depth → ∀ cs, MatchAnonymous PN full D t cs →
          ∀ (art p : String) (g g' : String → Option (Val S)), Fits t (.comp g) →
          Fits t (.comp g') → ∀ arrays,
          Agrees (evalChecks neq (run prog neq depth) art p (.comp g) (.comp g')
            (cs.filter (fun x => x.array == arrays))) (diffsAnonymous neq arrays t g g' p)) := by
      by_cases hm : holdsMembers t = true
      · obtain ⟨x, hx⟩ := run_agrees neq hP t hm
        obtain ⟨y, hy⟩ := runAnonymous_agrees neq hP t hm
        exact ⟨x + y, fun _ => ⟨fun d hd => hx d (by omega), fun d hd => hy d (by omega)⟩⟩
      · exact ⟨0, fun h => absurd h hm⟩
    obtain ⟨k₁, hk₁⟩ := hsub
    refine ⟨k₁ + k₂, ?_⟩
    intro depth hd cs hm art p g g' hg hg' arrays
    obtain ⟨c₁, c₂, rfl, m₁, m₂⟩ := hm
    obtain ⟨f₁, f₂⟩ := hg
    obtain ⟨f₁', f₂'⟩ := hg'
    rw [List.filter_append]
    unfold diffsFields
    apply evalChecks_append (hrest depth (by omega) c₂ m₂ art p g g' f₂ f₂' arrays)
    by_cases ha : a = 0
    · rw [if_pos (Or.inl ha)] at m₁
      rw [if_pos ha, m₁]
      simp [evalChecks, Agrees]
    · rw [if_neg ha] at f₁ f₁' ⊢
      by_cases hn : n = ""
      · rw [if_pos hn] at f₁ f₁' ⊢
        have hneg : ¬ (a = 0 ∨ (a > 0 ∧ nonZeroSize t = false)) := by omega
        rw [if_neg hneg, if_pos f₁.1, if_pos hn] at m₁
        exact (hk₁ f₁.1).2 depth (by omega) c₁ m₁ art p g g' f₁.2.2 f₁'.2.2 arrays
      · rw [if_neg hn] at f₁ f₁' ⊢
        obtain ⟨v, hv, fv⟩ := f₁
        obtain ⟨w, hw, fw⟩ := f₁'
        rw [hv, hw]
        simp only
        by_cases hpos : a > 0
        · rw [if_pos hpos] at fv fw ⊢
          obtain ⟨ge, rfl, fge⟩ := fv
          obtain ⟨ge', rfl, fge'⟩ := fw
          by_cases hz : nonZeroSize t = false
          · rw [if_pos (Or.inr ⟨hpos, hz⟩)] at m₁
            rw [m₁]
            cases arrays with
            | false => simp [evalChecks, Agrees]
            | true =>
              simp only [if_true, List.filter_nil, evalChecks, Agrees]
              apply diffsLoop_nil
              intro i _
              have := diffs_of_zeroSize neq t (ge i) (ge' i) (p ++ ("." ++ n)) hz
              rw [if_pos this.1]
              exact this.2
          · have hneg : ¬ (a = 0 ∨ (a > 0 ∧ nonZeroSize t = false)) := by
              intro h; rcases h with h | h
              · exact ha h
              · exact hz h.2
            rw [if_neg hneg] at m₁
            by_cases hmem : holdsMembers t = true
            · rw [if_pos hmem, if_neg hn] at m₁
              obtain ⟨M, hM, dM, rfl⟩ := m₁
              cases arrays with
              | false => simp [hpos, evalChecks, Agrees]
              | true =>
                simp only [hpos, decide_true, if_true, List.filter_cons, beq_self_eq_true,
                  List.filter_nil, evalChecks_one]
                simp only [evalCheck, Val.member, hv, hw, if_true, hmem, evalAction]
                exact evalLoop_agrees_range _ (fun j hj =>
                  (hk₁ hmem).1 depth (by omega) M hM dM _ _ _ (fge j hj) (fge' j hj))
            · rw [if_neg hmem] at m₁
              obtain ⟨o, f, k, rfl⟩ := m₁
              cases arrays with
              | false => simp [hpos, evalChecks, Agrees]
              | true =>
                simp only [hpos, decide_true, if_true, List.filter_cons, beq_self_eq_true,
                  List.filter_nil, evalChecks_one]
                simp only [evalCheck, Val.member, hv, hw, if_true, hmem, evalAction]
                have hmem' : holdsMembers t = false := by simpa using hmem
                exact evalLoop_agrees_range _ (fun j hj =>
                  evalNeq_agrees (fits_scalar t _ hmem' (fge j hj))
                    (fits_scalar t _ hmem' (fge' j hj)))
        · rw [if_neg hpos] at fv fw ⊢
          have hneg : ¬ (a = 0 ∨ (a > 0 ∧ nonZeroSize t = false)) := by omega
          rw [if_neg hneg] at m₁
          by_cases hmem : holdsMembers t = true
          · rw [if_pos hmem, if_neg hn] at m₁
            obtain ⟨M, hM, dM, rfl⟩ := m₁
            cases arrays with
            | true => simp [hpos, evalChecks, Agrees]
            | false =>
              simp only [hpos, decide_false, List.filter_cons, beq_self_eq_true, if_true,
                List.filter_nil, evalChecks_one]
              simp only [evalCheck, Val.member, hv, hw, hmem, evalAction, if_true,
                Bool.false_eq_true, if_false]
              exact (hk₁ hmem).1 depth (by omega) M hM dM _ _ _ fv fw
          · rw [if_neg hmem] at m₁
            obtain ⟨o, f, k, rfl⟩ := m₁
            cases arrays with
            | true => simp [hpos, evalChecks, Agrees]
            | false =>
              simp only [hpos, decide_false, List.filter_cons, beq_self_eq_true, if_true,
                List.filter_nil, evalChecks_one]
              simp only [evalCheck, Val.member, hv, hw, hmem, evalAction,
                Bool.false_eq_true, if_false]
              have hmem' : holdsMembers t = false := by simpa using hmem
              exact evalNeq_agrees (fits_scalar t _ hmem' fv) (fits_scalar t _ hmem' fw)
  | .bit s t n b rest => by
    obtain ⟨k, hrest⟩ := runFields_agrees neq hP rest
    refine ⟨k, ?_⟩
    intro depth hd cs hm art p g g' hg hg' arrays
    obtain ⟨c₁, c₂, rfl, m₁, m₂⟩ := hm
    obtain ⟨f₁, f₂⟩ := hg
    obtain ⟨f₁', f₂'⟩ := hg'
    rw [List.filter_append]
    unfold diffsFields
    apply evalChecks_append (hrest depth (by omega) c₂ m₂ art p g g' f₂ f₂' arrays)
    by_cases hn : n = ""
    · rw [if_pos hn] at m₁
      rw [m₁, if_pos (Or.inl hn)]
      simp [evalChecks, Agrees]
    · rw [if_neg hn] at m₁
      obtain ⟨o, f, k', rfl⟩ := m₁
      cases arrays with
      | true => simp [evalChecks, Agrees]
      | false =>
        obtain ⟨x, hx⟩ := f₁.resolve_left hn
        obtain ⟨y, hy⟩ := f₁'.resolve_left hn
        have : ¬ (n = "" ∨ false = true) := by simp [hn]
        rw [if_neg this, hx, hy]
        simp only [List.filter_cons, beq_self_eq_true, if_true, List.filter_nil, evalChecks_one]
        simp only [evalCheck, Val.member, hx, hy, evalAction, Bool.false_eq_true, if_false]
        exact evalNeq_agrees ⟨x, rfl⟩ ⟨y, rfl⟩
end

end EasyMock.StructCmp
