import Verif.Mocked.Spec

namespace EasyMock
variable {δ : Type}

theorem inc32_of_lt {n : Nat} (h : n + 1 < 2 ^ 32) : inc32 n = n + 1 := by
  unfold inc32; split <;> omega

theorem dec32_succ {n : Nat} (_ : n + 1 < 2 ^ 32) : dec32 (n + 1) = n := by
  unfold dec32; simp

attribute [local irreducible] inc32 dec32

/-- Block `q` is referenced by the mock. -/
def Mock.Owns : Mock δ → Nat → Prop
  | .c m, q => ∃ i : Nat, m.slots[i]? = some (some q)
  | .cpp _, _ => False

/-- Concrete mock `m` (with heap `h`) represents the abstract mock `a`. -/
def Mock.Rep (h : DHeap δ) : Mock δ → AMock δ → Prop
  | .c m, a =>
    m.expected = a.exps.length ∧ m.actual = a.calls ∧ m.slots.length = 256 ∧ a.exps.length ≤ 256 ∧
    (∀ i j q : Nat, m.slots[i]? = some (some q) → m.slots[j]? = some (some q) → i = j) ∧
    (∀ i q : Nat, m.slots[i]? = some (some q) → ∃ d, a.exps[i]? = some d ∧ h.blocks q = some d) ∧
    (∀ i : Nat, a.calls ≤ i → i < a.exps.length → ∃ q, m.slots[i]? = some (some q))
  | .cpp m, a => m.expected = a.exps.length ∧ m.actual = a.calls ∧ m.data = a.exps

/-- What the other mocks rely on when one mock changes. -/
structure MFrame (h : DHeap δ) (m : Mock δ) (h' : DHeap δ) (m' : Mock δ) : Prop where
  next : h.next ≤ h'.next
  other : ∀ q, q < h.next → ¬ m.Owns q → h'.blocks q = h.blocks q
  live : ∀ q, (h'.blocks q).isSome → m'.Owns q ∨ ((h.blocks q).isSome ∧ ¬ m.Owns q)
  own : ∀ q, m'.Owns q → m.Owns q ∨ h.next ≤ q
  bound : ∀ q, m'.Owns q → q < h'.next

theorem MFrame.refl_of (h : DHeap δ) (m m' : Mock δ) (e : ∀ q, m'.Owns q ↔ m.Owns q)
    (hb : ∀ q, m.Owns q → q < h.next) : MFrame h m h m' where
  next := Nat.le_refl _
  other := fun _ _ _ => rfl
  live := fun q hq => by
    by_cases ho : m.Owns q
    · exact Or.inl ((e q).mpr ho)
    · exact Or.inr ⟨hq, ho⟩
  own := fun q hq => Or.inl ((e q).mp hq)
  bound := fun q hq => hb q ((e q).mp hq)

theorem Mock.Rep.frame {h h' : DHeap δ} {m : Mock δ} {a : AMock δ} (r : m.Rep h a)
    (e : ∀ q, m.Owns q → h'.blocks q = h.blocks q) : m.Rep h' a := by
  cases m with
  | cpp m => exact r
  | c m =>
    obtain ⟨h1, h2, h3, h4, h5, h6, h7⟩ := r
    refine ⟨h1, h2, h3, h4, h5, ?_, h7⟩
    intro i q hq
    obtain ⟨d, k1, k2⟩ := h6 i q hq
    exact ⟨d, k1, by rw [e q ⟨i, hq⟩]; exact k2⟩

/-- Every block referenced by a represented mock is live. -/
theorem Mock.Rep.live {h : DHeap δ} {m : Mock δ} {a : AMock δ} (r : m.Rep h a) {q : Nat}
    (ho : m.Owns q) : (h.blocks q).isSome := by
  cases m with
  | cpp m => exact ho.elim
  | c m =>
    obtain ⟨h1, h2, h3, h4, h5, h6, h7⟩ := r
    obtain ⟨i, hi⟩ := ho
    obtain ⟨d, _, k⟩ := h6 i q hi
    simp [k]

/-- Kind of an implementation: does it have the 256 limit? -/
def Mock.isC : Mock δ → Bool
  | .c _ => true
  | .cpp _ => false

theorem addExpectedCall_ok {h : DHeap δ} {m : Mock δ} {a : AMock δ} (r : m.Rep h a) (d : δ)
    (hlive : ∀ q, (h.blocks q).isSome → q < h.next)
    (hlim : m.isC = true → a.exps.length < 256) (hlim' : a.exps.length + 1 < 2 ^ 32) :
    ∃ h' m', m.addExpectedCall true h d = .ok (h', m') ∧ m'.Rep h' (a.expect d) ∧
      MFrame h m h' m' ∧ m'.isC = m.isC := by
  cases m with
  | cpp m =>
    obtain ⟨h1, h2, h3⟩ := r
    refine ⟨h, _, rfl, ⟨?_, h2, by simp [CppMock.addExpectedCall, AMock.expect, h3]⟩, ?_, rfl⟩
    · simp [CppMock.addExpectedCall, AMock.expect, h1, inc32_of_lt hlim']
    · exact MFrame.refl_of h _ _ (fun q => Iff.rfl) (fun q hq => hq.elim)
  | c m =>
    have hb := fun q (hq : (Mock.c m : Mock δ).Owns q) => hlive q (r.live hq)
    obtain ⟨h1, h2, h3, h4, h5, h6, h7⟩ := r
    have hlt : a.exps.length < 256 := hlim rfl
    have hslot : m.slots[a.exps.length]? = some none := by
      have hi : a.exps.length < m.slots.length := by omega
      cases hs : m.slots[a.exps.length] with
      | none => simp [hi, hs]
      | some q =>
        obtain ⟨d, k1, _⟩ := h6 a.exps.length q (by simp [hi, hs])
        have := (List.getElem?_eq_some_iff.mp k1).1
        omega
    have hne : ¬ (m.expected = maxMockedCall) := by unfold maxMockedCall; omega
    have hfresh : ∀ i : Nat, m.slots[i]? ≠ some (some h.next) := by
      intro i hi
      have := hb h.next ⟨i, hi⟩
      omega
    refine ⟨(h.alloc d).1, .c ⟨inc32 m.expected, m.actual, m.slots.set m.expected (some h.next)⟩, ?_, ?_, ?_, rfl⟩
    · simp only [Mock.addExpectedCall, CMock.addExpectedCall]
      rw [if_neg hne, h1, hslot]
      rfl
    · rw [h1]
      have hset : ∀ i : Nat, (m.slots.set a.exps.length (some h.next))[i]? =
          if i = a.exps.length then some (some h.next) else m.slots[i]? := by
        intro i
        by_cases e : i = a.exps.length
        · subst e; simp [List.getElem?_set_self (show a.exps.length < m.slots.length by omega)]
        · simp only [e, if_false]
          exact List.getElem?_set_ne (fun x => e x.symm)
      refine ⟨?_, h2, by simp [h3], by simp [AMock.expect]; omega, ?_, ?_, ?_⟩
      · simp only [AMock.expect, List.length_append, List.length_cons, List.length_nil]
        exact inc32_of_lt hlim'
      · intro i j q hi hj
        simp only [hset] at hi hj
        by_cases e1 : i = a.exps.length <;> by_cases e2 : j = a.exps.length
        · omega
        · simp only [e1, if_true, Option.some.injEq] at hi
          simp only [e2, if_false] at hj
          subst hi
          exact (hfresh j hj).elim
        · simp only [e2, if_true, Option.some.injEq] at hj
          simp only [e1, if_false] at hi
          subst hj
          exact (hfresh i hi).elim
        · simp only [e1, e2, if_false] at hi hj
          exact h5 i j q hi hj
      · intro i q hi
        simp only [hset] at hi
        by_cases e1 : i = a.exps.length
        · simp only [e1, if_true, Option.some.injEq] at hi
          subst hi
          exact ⟨d, by simp [AMock.expect, e1], by simp [DHeap.alloc]⟩
        · simp only [e1, if_false] at hi
          obtain ⟨d', k1, k2⟩ := h6 i q hi
          refine ⟨d', ?_, ?_⟩
          · have := (List.getElem?_eq_some_iff.mp k1).1
            simp only [AMock.expect]
            rw [List.getElem?_append_left this]; exact k1
          · have : q ≠ h.next := fun e => hfresh i (e ▸ hi)
            simp [DHeap.alloc, this, k2]
      · intro i hi1 hi2
        simp only [AMock.expect, List.length_append, List.length_cons, List.length_nil] at hi2
        simp only [hset]
        by_cases e1 : i = a.exps.length
        · exact ⟨h.next, by simp [e1]⟩
        · simp only [e1, if_false]
          exact h7 i hi1 (by omega)
    · have howns : ∀ q, (Mock.c ⟨inc32 m.expected, m.actual, m.slots.set m.expected (some h.next)⟩ : Mock δ).Owns q →
          (Mock.c m : Mock δ).Owns q ∨ q = h.next := by
        rintro q ⟨i, hi⟩
        simp only at hi
        by_cases e : m.expected = i
        · subst e
          rw [List.getElem?_set_self (by omega)] at hi
          simp at hi; exact Or.inr hi.symm
        · rw [List.getElem?_set_ne e] at hi
          exact Or.inl ⟨i, hi⟩
      constructor
      · simp [DHeap.alloc]
      · intro q hq _
        simp [DHeap.alloc, Nat.ne_of_lt hq]
      · intro q hq
        by_cases e : q = h.next
        · left
          refine ⟨m.expected, ?_⟩
          simp only
          rw [List.getElem?_set_self (by omega), e]
        · simp only [DHeap.alloc, e, if_false] at hq
          by_cases ho : (Mock.c m : Mock δ).Owns q
          · left
            obtain ⟨i, hi⟩ := ho
            refine ⟨i, ?_⟩
            have : m.expected ≠ i := by
              intro e'
              rw [← e', h1, hslot] at hi
              simp at hi
            simp only
            rw [List.getElem?_set_ne this]; exact hi
          · exact Or.inr ⟨hq, ho⟩
      · intro q hq
        rcases howns q hq with h | h
        · exact Or.inl h
        · right; omega
      · intro q hq
        rcases howns q hq with hh | hh
        · have := hb q hh; simp [DHeap.alloc]; omega
        · simp [DHeap.alloc]; omega

theorem addExpectedCall_full {h : DHeap δ} {m : CMock} {a : AMock δ} (r : (Mock.c m).Rep h a)
    (al : Bool) (d : δ) (hfull : 256 ≤ a.exps.length) :
    (Mock.c m).addExpectedCall al h d = .exit := by
  obtain ⟨h1, h2, h3, h4, -⟩ := r
  have : m.expected = maxMockedCall := by unfold maxMockedCall; omega
  simp [Mock.addExpectedCall, CMock.addExpectedCall, this]

theorem addExpectedCall_noalloc {h : DHeap δ} {m : CMock} {a : AMock δ} (r : (Mock.c m).Rep h a) (d : δ) :
    (Mock.c m).addExpectedCall false h d = .exit := by
  obtain ⟨h1, h2, h3, h4, h5, h6, h7⟩ := r
  simp only [Mock.addExpectedCall, CMock.addExpectedCall]
  by_cases hne : m.expected = maxMockedCall
  · simp [hne]
  · have : m.expected < m.slots.length := by unfold maxMockedCall at hne; omega
    rw [if_neg hne]
    cases hs : m.slots[m.expected] with
    | none => simp [this, hs]
    | some q => simp [this, hs]

theorem addActualCall_rep {h : DHeap δ} {m : Mock δ} {a : AMock δ} (r : m.Rep h a)
    (hlt : a.calls + 1 < 2 ^ 32) :
    m.addActualCall.2 = a.serving.isSome ∧ (m.addActualCall.2 = false → m.addActualCall.1.Rep h a.call) ∧
    (∀ q, m.addActualCall.1.Owns q ↔ m.Owns q) ∧ m.addActualCall.1.isC = m.isC ∧
    m.addActualCall.1.getNbActualCall = a.calls + 1 := by
  have key : ∀ e : Nat, (if dec32 (inc32 a.calls) ≥ e then false else true) = decide (a.calls < e) := by
    intro e
    rw [inc32_of_lt hlt, dec32_succ hlt]
    by_cases h : a.calls ≥ e
    · simp [h]
    · simp only [h, if_false]; simp; omega
  have hs : a.serving.isSome = decide (a.calls < a.exps.length) := by
    unfold AMock.serving
    by_cases h : a.calls < a.exps.length
    · simp [h]
    · simp [h]
  cases m with
  | cpp m =>
    obtain ⟨h1, h2, h3⟩ := r
    simp only [Mock.addActualCall, CppMock.addActualCall]
    refine ⟨?_, fun _ => ⟨h1, ?_, h3⟩, fun q => Iff.rfl, rfl, ?_⟩
    · rw [h1, h2, key, hs]
    · simp [h2, AMock.call, inc32_of_lt hlt]
    · simp [Mock.getNbActualCall, h2, inc32_of_lt hlt]
  | c m =>
    obtain ⟨h1, h2, h3, h4, h5, h6, h7⟩ := r
    simp only [Mock.addActualCall, CMock.addActualCall]
    refine ⟨?_, ?_, fun q => Iff.rfl, rfl, ?_⟩
    · rw [h1, h2, key, hs]
    · intro _
      refine ⟨h1, ?_, h3, h4, h5, h6, ?_⟩
      · simp [h2, AMock.call, inc32_of_lt hlt]
      · intro i hi1 hi2
        simp only [AMock.call] at hi1 hi2
        exact h7 i (by omega) hi2
    · simp [Mock.getNbActualCall, h2, inc32_of_lt hlt]

/-- An expected call: `addActualCall` then `getCurrentCallParam`. -/
theorem getCurrentCallParam_ok {h : DHeap δ} {m : Mock δ} {a : AMock δ} (r : m.Rep h a)
    (hlive : ∀ q, (h.blocks q).isSome → q < h.next)
    (hlt : a.calls + 1 < 2 ^ 32) (d : δ) (hd : a.serving = some d) :
    ∃ h' m', m.addActualCall.1.getCurrentCallParam h = .ok (h', m', some d) ∧ m'.Rep h' a.call ∧
      MFrame h m h' m' ∧ m'.isC = m.isC ∧ m'.getNbActualCall = a.calls + 1 := by
  have hlt' : a.calls < a.exps.length := (List.getElem?_eq_some_iff.mp hd).1
  have hi1 := inc32_of_lt hlt
  have hd1 := dec32_succ hlt
  have hnz : ¬ (a.calls + 1 = 0) := by omega
  cases m with
  | cpp m =>
    obtain ⟨h1, h2, h3⟩ := r
    refine ⟨h, .cpp { m with actual := a.calls + 1 }, ?_, ⟨h1, ?_, h3⟩, ?_, rfl, ?_⟩
    · simp only [Mock.addActualCall, CppMock.addActualCall, Mock.getCurrentCallParam,
        CppMock.getCurrentCallParam, CppMock.getCurrentIdx, h3, h2, hi1]
      have : a.exps.isEmpty = false := by
        cases he : a.exps with
        | nil => simp [he] at hlt'
        | cons _ _ => rfl
      rw [this]
      simp only [Bool.false_eq_true, if_false, hnz, Res.bind_ok, h1]
      rw [hd1]
      have hd' : a.exps[a.calls]? = some d := hd
      rw [if_neg (by omega), hd']
      rfl
    · rfl
    · exact MFrame.refl_of h _ _ (fun q => Iff.rfl) (fun q hq => hq.elim)
    · rfl
  | c m =>
    have hb := fun q (hq : (Mock.c m : Mock δ).Owns q) => hlive q (r.live hq)
    obtain ⟨h1, h2, h3, h4, h5, h6, h7⟩ := r
    obtain ⟨q, hq⟩ := h7 a.calls (Nat.le_refl _) hlt'
    obtain ⟨d', k1, k2⟩ := h6 a.calls q hq
    have : d' = d := by
      have hd' : a.exps[a.calls]? = some d := hd
      rw [hd'] at k1; simpa using k1.symm
    subst this
    have hset : ∀ i : Nat, (m.slots.set a.calls none)[i]? =
        if i = a.calls then some none else m.slots[i]? := by
      intro i
      by_cases e : i = a.calls
      · subst e; simp [List.getElem?_set_self (show a.calls < m.slots.length by omega)]
      · simp only [e, if_false]
        exact List.getElem?_set_ne (fun x => e x.symm)
    refine ⟨⟨fun r => if r = q then none else h.blocks r, h.next⟩,
      .c ⟨m.expected, a.calls + 1, m.slots.set a.calls none⟩, ?_, ?_, ?_, rfl, ?_⟩
    · simp only [Mock.addActualCall, CMock.addActualCall, Mock.getCurrentCallParam,
        CMock.getCurrentCallParam, CMock.getCurrentIdx, h2, hi1]
      have hne : CMock.isEmpty ⟨m.expected, a.calls + 1, m.slots⟩ = false := by
        unfold CMock.isEmpty
        simp only [List.all_eq_false]
        exact ⟨some q, List.mem_of_getElem? hq, by simp⟩
      rw [hne]
      simp only [Bool.false_eq_true, if_false, hnz, Res.bind_ok]
      rw [hd1, hq]
      simp only [k2, DHeap.free, Res.bind_ok]
    · refine ⟨h1, ?_, by simp [h3], h4, ?_, ?_, ?_⟩
      · rfl
      · intro i j r hi hj
        simp only [hset] at hi hj
        by_cases e1 : i = a.calls
        · simp [e1] at hi
        · by_cases e2 : j = a.calls
          · simp [e2] at hj
          · simp only [e1, e2, if_false] at hi hj
            exact h5 i j r hi hj
      · intro i r hi
        simp only [hset] at hi
        by_cases e1 : i = a.calls
        · simp [e1] at hi
        · simp only [e1, if_false] at hi
          obtain ⟨d2, l1, l2⟩ := h6 i r hi
          refine ⟨d2, l1, ?_⟩
          have : r ≠ q := by
            intro e; subst e; exact e1 (h5 i a.calls r hi hq)
          simp [this, l2]
      · intro i hi1 hi2
        simp only [AMock.call] at hi1 hi2
        obtain ⟨r, hr⟩ := h7 i (by omega) hi2
        exact ⟨r, by simp only [hset]; rw [if_neg (by omega)]; exact hr⟩
    · have howns : ∀ r, (Mock.c ⟨m.expected, a.calls + 1, m.slots.set a.calls none⟩ : Mock δ).Owns r ↔
          (Mock.c m : Mock δ).Owns r ∧ r ≠ q := by
        intro r
        constructor
        · rintro ⟨i, hi⟩
          simp only [hset] at hi
          by_cases e1 : i = a.calls
          · simp [e1] at hi
          · simp only [e1, if_false] at hi
            refine ⟨⟨i, hi⟩, ?_⟩
            intro e; subst e; exact e1 (h5 i a.calls r hi hq)
        · rintro ⟨⟨i, hi⟩, hne⟩
          refine ⟨i, ?_⟩
          simp only [hset]
          by_cases e1 : i = a.calls
          · subst e1; rw [hq] at hi; simp at hi; exact (hne hi.symm).elim
          · simp only [e1, if_false]; exact hi
      constructor
      · exact Nat.le_refl _
      · intro r _ hno
        have : r ≠ q := fun e => hno (e ▸ ⟨a.calls, hq⟩)
        simp [this]
      · intro r hr
        by_cases e : r = q
        · simp [e] at hr
        · simp only [e, if_false] at hr
          by_cases ho : (Mock.c m : Mock δ).Owns r
          · exact Or.inl ((howns r).mpr ⟨ho, e⟩)
          · exact Or.inr ⟨hr, ho⟩
      · intro r hr; exact Or.inl ((howns r).mp hr).1
      · intro r hr; exact hb r ((howns r).mp hr).1
    · rfl

theorem emptySlots_ok (sl : List (Option Nat)) (h : DHeap δ)
    (hinj : ∀ i j q : Nat, sl[i]? = some (some q) → sl[j]? = some (some q) → i = j)
    (hlive : ∀ i q : Nat, sl[i]? = some (some q) → (h.blocks q).isSome) :
    ∃ h', CMock.emptySlots h sl = .ok (h', List.replicate sl.length none) ∧ h'.next = h.next ∧
      (∀ q, (∃ i : Nat, sl[i]? = some (some q)) → h'.blocks q = none) ∧
      (∀ q, (¬ ∃ i : Nat, sl[i]? = some (some q)) → h'.blocks q = h.blocks q) := by
  induction sl generalizing h with
  | nil => exact ⟨h, rfl, rfl, by simp, by simp⟩
  | cons x r ih =>
    have hinj' : ∀ i j q : Nat, r[i]? = some (some q) → r[j]? = some (some q) → i = j := by
      intro i j q hi hj
      have := hinj (i + 1) (j + 1) q (by simpa using hi) (by simpa using hj)
      omega
    cases x with
    | none =>
      obtain ⟨h', e, hn, k1, k2⟩ := ih h hinj' (fun i q hi => hlive (i + 1) q (by simpa using hi))
      refine ⟨h', by simp [CMock.emptySlots, e, List.replicate_succ], hn, ?_, ?_⟩
      · rintro q ⟨i, hi⟩
        cases i with
        | zero => simp at hi
        | succ i => exact k1 q ⟨i, by simpa using hi⟩
      · intro q hq
        exact k2 q (fun ⟨i, hi⟩ => hq ⟨i + 1, by simpa using hi⟩)
    | some p =>
      have hp := hlive 0 p (by simp)
      obtain ⟨d, hd⟩ := Option.isSome_iff_exists.mp hp
      have hnp : ∀ i : Nat, r[i]? ≠ some (some p) := by
        intro i hi
        have := hinj 0 (i + 1) p (by simp) (by simpa using hi)
        omega
      obtain ⟨h', e, hn, k1, k2⟩ := ih ⟨fun q => if q = p then none else h.blocks q, h.next⟩ hinj' (by
        intro i q hi
        have : q ≠ p := fun e => hnp i (e ▸ hi)
        simp only [this, if_false]
        exact hlive (i + 1) q (by simpa using hi))
      refine ⟨h', by simp [CMock.emptySlots, DHeap.free, hd, e, List.replicate_succ], hn, ?_, ?_⟩
      · rintro q ⟨i, hi⟩
        cases i with
        | zero =>
          simp at hi; subst hi
          rw [k2 p (fun ⟨i, hi⟩ => hnp i hi)]; simp
        | succ i => exact k1 q ⟨i, by simpa using hi⟩
      · intro q hq
        rw [k2 q (fun ⟨i, hi⟩ => hq ⟨i + 1, by simpa using hi⟩)]
        have : q ≠ p := fun e => hq ⟨0, by simp [e]⟩
        simp [this]

theorem reset_ok {h : DHeap δ} {m : Mock δ} {a : AMock δ} (r : m.Rep h a) :
    ∃ h' m', m.reset h = .ok (h', m') ∧ m'.Rep h' AMock.fresh ∧ MFrame h m h' m' ∧
      (∀ q, ¬ m'.Owns q) ∧ m'.isC = m.isC := by
  cases m with
  | cpp m =>
    refine ⟨h, _, rfl, ⟨rfl, rfl, rfl⟩, ?_, fun q hq => hq.elim, rfl⟩
    exact MFrame.refl_of h _ _ (fun q => Iff.rfl) (fun q hq => hq.elim)
  | c m =>
    have hl := fun q (hq : (Mock.c m : Mock δ).Owns q) => r.live hq
    obtain ⟨h1, h2, h3, h4, h5, h6, h7⟩ := r
    obtain ⟨h', e, hn, k1, k2⟩ := emptySlots_ok m.slots h h5 (fun i q hi => hl q ⟨i, hi⟩)
    have hno : ∀ q, ¬ (Mock.c ⟨0, 0, List.replicate m.slots.length none⟩ : Mock δ).Owns q := by
      rintro q ⟨i, hi⟩
      simp only [List.getElem?_replicate] at hi
      split at hi <;> simp at hi
    refine ⟨h', .c ⟨0, 0, List.replicate m.slots.length none⟩, ?_, ?_, ?_, hno, rfl⟩
    · simp [Mock.reset, CMock.reset, e]
    · refine ⟨rfl, rfl, by rw [List.length_replicate]; exact h3, Nat.zero_le _, ?_, ?_, ?_⟩
      · intro i j q hi; exact (hno q ⟨i, hi⟩).elim
      · intro i q hi; exact (hno q ⟨i, hi⟩).elim
      · intro i _ hi; simp [AMock.fresh] at hi
    · constructor
      · omega
      · intro q _ ho; exact k2 q ho
      · intro q hq
        by_cases ho : (Mock.c m : Mock δ).Owns q
        · rw [k1 q ho] at hq; simp at hq
        · rw [k2 q ho] at hq; exact Or.inr ⟨hq, ho⟩
      · intro q hq; exact (hno q hq).elim
      · intro q hq; exact (hno q hq).elim

theorem Rep_init (h : DHeap δ) : (Mock.c CMock.init : Mock δ).Rep h AMock.fresh := by
  have hno : ∀ i q : Nat, (List.replicate maxMockedCall (none : Option Nat))[i]? ≠ some (some q) := by
    intro i q hi
    rw [List.getElem?_replicate] at hi
    split at hi <;> simp at hi
  refine ⟨rfl, rfl, by simp only [CMock.init, List.length_replicate, maxMockedCall], Nat.zero_le _, ?_, ?_, ?_⟩
  · intro i j q hi; exact (hno i q hi).elim
  · intro i q hi; exact (hno i q hi).elim
  · intro i _ hi; simp [AMock.fresh] at hi

theorem not_owns_init (q : Nat) : ¬ (Mock.c CMock.init : Mock δ).Owns q := by
  rintro ⟨i, hi⟩
  simp only [CMock.init, List.getElem?_replicate] at hi
  split at hi <;> simp at hi

theorem Mock.Rep.nbActual {h : DHeap δ} {m : Mock δ} {a : AMock δ} (r : m.Rep h a) :
    m.getNbActualCall = a.calls := by
  cases m <;> exact r.2.1

theorem Mock.Rep.nbExpected {h : DHeap δ} {m : Mock δ} {a : AMock δ} (r : m.Rep h a) :
    m.getNbExpectedCall = a.exps.length := by
  cases m <;> exact r.1

end EasyMock
