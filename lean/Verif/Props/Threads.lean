import Verif.Mocked.Threads

/-! # C99: calls by several threads -/

namespace EasyMock.Threads

variable {δ : Type}

/-! ### Specification -/

/-- The thread is in the middle of its call. -/
def Inside : Phase δ → Prop
  | .start | .done _ => False
  | _ => True

/-- The threads of the program under test call the mock only while they hold a lock: nobody enters or goes on while another thread
    is in the middle of its call. -/
def Locked (s : St δ) : List Nat → Prop
  | [] => True
  | t :: ts => (∀ u, u ≠ t → ¬ Inside (s.phase u)) ∧ ∀ s', tick s t = .ok s' → Locked s' ts

/-- What the call with the number `k` gets when the test expects the calls `ds`. -/
def due (ds : List δ) (k : Nat) : Result δ := if h : k < ds.length then .served ds[k] else .unexpected

/-! ### Invariant -/

/-- The calls before `past` have taken their expectations, those from `live` on are there, the counter is `a`. -/
structure Data (ds : List δ) (h : DHeap δ) (m : CMock) (past live a : Nat) : Prop where
  actual : m.actual = a
  expected : m.expected = ds.length
  len : m.slots.length = maxMockedCall
  past : ∀ i : Nat, i < past → i < maxMockedCall → m.slots[i]? = some none
  beyond : ∀ i : Nat, ds.length ≤ i → i < maxMockedCall → m.slots[i]? = some none
  live : ∀ (i : Nat) d, live ≤ i → ds[i]? = some d → ∃ p, m.slots[i]? = some (some p) ∧ h.blocks p = some d
  apart : ∀ (i j p : Nat), m.slots[i]? = some (some p) → m.slots[j]? = some (some p) → i = j

/-- What holds in front of an access of the call with the number `k`. -/
def At (ds : List δ) (h : DHeap δ) (m : CMock) (k : Nat) : Phase δ → Prop
  | .start => Data ds h m k k k
  | .write r => r = k ∧ Data ds h m k k k
  | .compare => Data ds h m k k (k + 1)
  | .limit a => a = k + 1 ∧ Data ds h m k k (k + 1)
  | .scan i => i ≤ k ∧ k < ds.length ∧ Data ds h m k k (k + 1)
  | .zero | .index => k < ds.length ∧ Data ds h m k k (k + 1)
  | .test i | .copy i => i = k ∧ k < ds.length ∧ Data ds h m k k (k + 1)
  | .free i d => i = k ∧ ds[k]? = some d ∧ Data ds h m k k (k + 1)
  | .clear i d => i = k ∧ ds[k]? = some d ∧ Data ds h m k (k + 1) (k + 1)
  | .done _ => True

/-- Behind an access the call is done, with its result, or goes on. -/
def After (ds : List δ) (h : DHeap δ) (m : CMock) (k : Nat) (p : Phase δ) : Prop :=
  (∃ r, p = .done r ∧ r = due ds k ∧ Data ds h m (k + 1) (k + 1) (k + 1)) ∨ (Inside p ∧ At ds h m k p)

theorem access_ok {ds : List δ} (hds : ds.length ≤ maxMockedCall) {h : DHeap δ} {m : CMock} {k : Nat} (hk : k + 1 < 2 ^ 32) {p : Phase δ}
    (hp : ∀ r, p ≠ .done r) (ha : At ds h m k p) : ∃ h' m' p', access h m p = .ok (h', m', p') ∧ After ds h' m' k p' := by
  cases p with
  | start => exact ⟨_, _, _, rfl, .inr ⟨trivial, ha.actual, ha⟩⟩
  | write r =>
    obtain ⟨rfl, ha⟩ := ha
    refine ⟨_, _, _, rfl, .inr ⟨trivial, ?_⟩⟩
    exact { ha with actual := by show inc32 r = r + 1; rw [inc32, if_neg (by omega)] }
  | compare => exact ⟨_, _, _, rfl, .inr ⟨trivial, ha.actual, ha⟩⟩
  | limit a =>
    obtain ⟨rfl, ha⟩ := ha
    have e : dec32 (k + 1) = k := by rw [dec32, if_neg (by omega)]; rfl
    refine ⟨_, _, _, rfl, ?_⟩
    rw [e, ha.expected]
    split
    · next hle =>
      refine .inl ⟨_, rfl, by rw [due, dif_neg (by omega)], { ha with past := ?_, live := ?_ }⟩
      · intro i hi hm
        by_cases e : i = k
        · exact ha.beyond i (by omega) hm
        · exact ha.past i (by omega) hm
      · intro i d hi
        exact ha.live i d (by omega)
    · next hle => exact .inr ⟨trivial, by omega, by omega, ha⟩
  | scan i =>
    obtain ⟨hi, hkd, ha⟩ := ha
    have him : i < maxMockedCall := by omega
    rw [access, if_pos him]
    have hs : i < m.slots.length := by rw [ha.len]; exact him
    rw [List.getElem?_eq_getElem hs]
    cases hv : m.slots[i] with
    | none =>
      refine ⟨_, _, _, rfl, .inr ⟨trivial, ?_, hkd, ha⟩⟩
      have : i ≠ k := by
        rintro rfl
        obtain ⟨p, hp, -⟩ := ha.live i _ (Nat.le_refl _) (List.getElem?_eq_getElem hkd)
        rw [List.getElem?_eq_getElem hs, hv] at hp
        simp at hp
      omega
    | some q => exact ⟨_, _, _, rfl, .inr ⟨trivial, hkd, ha⟩⟩
  | zero =>
    obtain ⟨hkd, ha⟩ := ha
    rw [access, if_neg (by rw [ha.actual]; omega)]
    exact ⟨_, _, _, rfl, .inr ⟨trivial, hkd, ha⟩⟩
  | index =>
    obtain ⟨hkd, ha⟩ := ha
    exact ⟨_, _, _, rfl, .inr ⟨trivial, by rw [ha.actual, dec32, if_neg (by omega)]; rfl, hkd, ha⟩⟩
  | test i =>
    obtain ⟨rfl, hkd, ha⟩ := ha
    obtain ⟨p, hp, -⟩ := ha.live i _ (Nat.le_refl _) (List.getElem?_eq_getElem hkd)
    rw [access, hp]
    exact ⟨_, _, _, rfl, .inr ⟨trivial, rfl, hkd, ha⟩⟩
  | copy i =>
    obtain ⟨rfl, hkd, ha⟩ := ha
    obtain ⟨p, hp, hb⟩ := ha.live i _ (Nat.le_refl _) (List.getElem?_eq_getElem hkd)
    rw [access, hp]
    simp only [hb]
    exact ⟨_, _, _, rfl, .inr ⟨trivial, rfl, List.getElem?_eq_getElem hkd, ha⟩⟩
  | free i d =>
    obtain ⟨rfl, hd, ha⟩ := ha
    obtain ⟨p, hp, hb⟩ := ha.live i _ (Nat.le_refl _) hd
    rw [access, hp]
    simp only [DHeap.free, hb, Res.bind_ok]
    refine ⟨_, _, _, rfl, .inr ⟨trivial, rfl, hd, { ha with live := ?_ }⟩⟩
    intro j e hj he
    obtain ⟨q, hq, hqb⟩ := ha.live j e (by omega) he
    refine ⟨q, hq, ?_⟩
    show (if q = p then none else h.blocks q) = some e
    rw [if_neg, hqb]
    rintro rfl
    have := ha.apart i j q hp hq
    omega
  | clear i d =>
    obtain ⟨rfl, hd, ha⟩ := ha
    have hkd : i < ds.length := (List.getElem?_eq_some_iff.1 hd).1
    refine ⟨_, _, _, rfl, .inl ⟨_, rfl, ?_, ?_⟩⟩
    · rw [due, dif_pos hkd]
      rw [List.getElem?_eq_getElem hkd] at hd
      injection hd with hd
      rw [hd]
    · have hs : i < m.slots.length := by rw [ha.len]; omega
      have get : ∀ j : Nat, (m.slots.set i none)[j]? = if i = j then some none else m.slots[j]? := by
        intro j
        rw [List.getElem?_set]
        split
        · next e => subst e; simp
        · rfl
      constructor
      · exact ha.actual
      · exact ha.expected
      · simp only [List.length_set]; exact ha.len
      · intro j hj hm
        rw [get]
        split
        · rfl
        · exact ha.past j (by omega) hm
      · intro j hj hm
        rw [get]
        split
        · rfl
        · exact ha.beyond j hj hm
      · intro j e hj he
        obtain ⟨q, hq, hqb⟩ := ha.live j e hj he
        refine ⟨q, ?_, hqb⟩
        show (m.slots.set i none)[j]? = some (some q)
        rw [get, if_neg (by omega), hq]
      · intro j j' q hj hj'
        have hj : (m.slots.set i none)[j]? = some (some q) := hj
        have hj' : (m.slots.set i none)[j']? = some (some q) := hj'
        rw [get] at hj hj'
        split at hj
        · simp at hj
        · split at hj'
          · simp at hj'
          · exact ha.apart j j' q hj hj'
  | done r => exact absurd rfl (hp r)

/-- The invariant of a locked execution. -/
structure Inv (ds : List δ) (s : St δ) : Prop where
  inside : ∀ t, Inside (s.phase t) → At ds s.heap s.mock s.log.length (s.phase t)
  rest : (∀ t, ¬ Inside (s.phase t)) → Data ds s.heap s.mock s.log.length s.log.length s.log.length
  order : ∀ (k t : Nat) r, s.log[k]? = some (t, r) → r = due ds k
  logged : ∀ t r, s.phase t = .done r ↔ (t, r) ∈ s.log
  once : (s.log.map (·.1)).Nodup

theorem phase_cases (p : Phase δ) : p = .start ∨ Inside p ∨ ∃ r, p = .done r := by
  cases p <;> simp [Inside]

theorem tick_ok {ds : List δ} (hds : ds.length ≤ maxMockedCall) {s : St δ} (hi : Inv ds s) {t : Nat} (ht : ∀ u, u ≠ t → ¬ Inside (s.phase u))
    (hk : s.log.length + 1 < 2 ^ 32) : ∃ s', tick s t = .ok s' ∧ Inv ds s' ∧ s'.log.length ≤ s.log.length + 1 := by
  by_cases hd : ∃ r, s.phase t = .done r
  · obtain ⟨r, hd⟩ := hd
    have e : tick s t = .ok s := by
      rw [tick, hd]
      simp only [access, Res.bind_ok]
      have : (fun u => if u = t then Phase.done r else s.phase u) = s.phase := by
        funext u
        split
        · next e => rw [e, hd]
        · rfl
      rw [this]
    exact ⟨s, e, hi, by omega⟩
  · have hd' : ∀ r, s.phase t ≠ .done r := fun r h => hd ⟨r, h⟩
    have hat : At ds s.heap s.mock s.log.length (s.phase t) := by
      rcases phase_cases (s.phase t) with h | h | ⟨r, h⟩
      · rw [h]
        refine hi.rest fun u => ?_
        by_cases e : u = t
        · rw [e, h]; exact fun h => h
        · exact ht u e
      · exact hi.inside t h
      · exact absurd h (hd' r)
    obtain ⟨h', m', p', ha, haf⟩ := access_ok hds hk hd' hat
    have hnl : ∀ r, (t, r) ∉ s.log := fun r hr => hd' r ((hi.logged t r).2 hr)
    rcases haf with ⟨r, rfl, hr, hdata⟩ | ⟨hin, hat'⟩
    · have e : tick s t = .ok { heap := h', mock := m', phase := fun u => if u = t then .done r else s.phase u, log := s.log ++ [(t, r)] } := by
        rw [tick, ha]
        simp only [Res.bind_ok]
      refine ⟨_, e, ?_, by simp⟩
      constructor
      · intro u hu
        simp only at hu
        split at hu
        · exact hu.elim
        · next hne => exact absurd hu (ht u hne)
      · intro _
        simp only [List.length_append, List.length_singleton]
        exact hdata
      · intro k u q hq
        simp only at hq
        by_cases hkl : k < s.log.length
        · rw [List.getElem?_append_left hkl] at hq
          exact hi.order k u q hq
        · rw [List.getElem?_append_right (by omega)] at hq
          have hk0 : k - s.log.length = 0 := by
            have := (List.getElem?_eq_some_iff.1 hq).1
            simp only [List.length_singleton] at this
            omega
          rw [hk0] at hq
          injection hq with hq
          injection hq with _ hq
          rw [← hq, hr, show k = s.log.length by omega]
      · intro u q
        simp only [List.mem_append, List.mem_singleton, Prod.mk.injEq]
        split
        · next e =>
          subst e
          constructor
          · intro h; injection h with h; exact .inr ⟨rfl, h.symm⟩
          · rintro (h | ⟨-, h⟩)
            · exact absurd h (hnl q)
            · rw [h]
        · next hne => simp [hne, hi.logged u q]
      · simp only [List.map_append, List.map_cons, List.map_nil]
        rw [List.nodup_append]
        refine ⟨hi.once, by simp, ?_⟩
        intro a hmem b hb hab
        rw [List.mem_singleton] at hb
        subst hab; subst hb
        obtain ⟨⟨u, q⟩, hx, he⟩ := List.mem_map.1 hmem
        simp only at he
        subst he
        exact hnl q hx
    · have hnd : ∀ r, p' ≠ .done r := by rintro r rfl; exact hin
      have e : tick s t = .ok { heap := h', mock := m', phase := fun u => if u = t then p' else s.phase u, log := s.log } := by
        rw [tick, ha]
        simp only [Res.bind_ok]
      refine ⟨_, e, ?_, by simp⟩
      constructor
      · intro u hu
        simp only at hu ⊢
        split at hu
        · next e => rw [if_pos e]; exact hat'
        · next hne => exact absurd hu (ht u hne)
      · intro hno
        have := hno t
        simp only [if_true] at this
        exact absurd hin this
      · exact hi.order
      · intro u q
        simp only
        split
        · next e =>
          subst e
          constructor
          · intro h; exact absurd h (hnd q)
          · intro h; exact absurd h (hnl q)
        · exact hi.logged u q
      · exact hi.once

theorem exec_ok {ds : List δ} (hds : ds.length ≤ maxMockedCall) : ∀ (sched : List Nat) {s : St δ}, Inv ds s → Locked s sched →
    s.log.length + sched.length < 2 ^ 32 → ∃ s', exec s sched = .ok s' ∧ Inv ds s'
  | [], s, hi, _, _ => ⟨s, rfl, hi⟩
  | t :: ts, s, hi, hl, hn => by
    simp only [List.length_cons] at hn
    obtain ⟨s', e, hi', hlen⟩ := tick_ok hds hi hl.1 (by omega)
    obtain ⟨s'', e', hi''⟩ := exec_ok hds ts hi' (hl.2 s' e) (by omega)
    exact ⟨s'', by rw [exec, e]; exact e', hi''⟩

/-! ### Registration -/

/-- Some expectations are registered. -/
structure Reg (ds : List δ) (h : DHeap δ) (m : CMock) : Prop where
  data : Data ds h m 0 0 0
  fresh : ∀ (i p : Nat), m.slots[i]? = some (some p) → p < h.next

theorem register_ok : ∀ (es ds : List δ) {h : DHeap δ} {m : CMock}, Reg ds h m → ds.length + es.length ≤ maxMockedCall →
    ∃ h' m', register h m es = .ok (h', m') ∧ Reg (ds ++ es) h' m'
  | [], ds, h, m, hr, _ => ⟨h, m, rfl, by rw [List.append_nil]; exact hr⟩
  | d :: es, ds, h, m, hr, hn => by
    simp only [List.length_cons] at hn
    have hlt : ds.length < maxMockedCall := by omega
    have hslot := hr.data.beyond ds.length (Nat.le_refl _) hlt
    have hm : maxMockedCall = 256 := rfl
    have hinc : inc32 ds.length = ds.length + 1 := by rw [inc32, if_neg (by omega)]
    have e : m.addExpectedCall true h d = .ok (⟨fun q => if q = h.next then some d else h.blocks q, h.next + 1⟩,
        { m with expected := ds.length + 1, slots := m.slots.set ds.length (some h.next) }) := by
      rw [CMock.addExpectedCall, hr.data.expected, if_neg (by omega), hslot]
      simp only [DHeap.alloc, if_true, hinc]
    have hs : ds.length < m.slots.length := by rw [hr.data.len]; exact hlt
    have get : ∀ j : Nat, (m.slots.set ds.length (some h.next))[j]? = if ds.length = j then some (some h.next) else m.slots[j]? := by
      intro j
      rw [List.getElem?_set]
      split
      · next e => subst e; simp
      · rfl
    have hreg : Reg (ds ++ [d]) ⟨fun q => if q = h.next then some d else h.blocks q, h.next + 1⟩
        { m with expected := ds.length + 1, slots := m.slots.set ds.length (some h.next) } := by
      refine ⟨⟨hr.data.actual, by simp, ?_, fun i hi => absurd hi (by omega), ?_, ?_, ?_⟩, ?_⟩
      · simp only [List.length_set]; exact hr.data.len
      · intro i hi hm
        simp only [List.length_append, List.length_singleton] at hi
        show (m.slots.set ds.length (some h.next))[i]? = some none
        rw [get, if_neg (by omega)]
        exact hr.data.beyond i (by omega) hm
      · intro i x _ hx
        show ∃ p, (m.slots.set ds.length (some h.next))[i]? = some (some p) ∧ (if p = h.next then some d else h.blocks p) = some x
        rw [get]
        by_cases hi : ds.length = i
        · subst hi
          simp only [List.getElem?_concat_length, Option.some.injEq] at hx
          exact ⟨h.next, by simp, by simp [hx]⟩
        · rw [if_neg hi]
          have hlt : i < ds.length := by
            have := (List.getElem?_eq_some_iff.1 hx).1
            simp only [List.length_append, List.length_singleton] at this
            omega
          rw [List.getElem?_append_left hlt] at hx
          obtain ⟨p, hp, hb⟩ := hr.data.live i x (Nat.zero_le _) hx
          have := hr.fresh i p hp
          exact ⟨p, hp, by rw [if_neg (by omega), hb]⟩
      · intro i j p hi hj
        have hi : (m.slots.set ds.length (some h.next))[i]? = some (some p) := hi
        have hj : (m.slots.set ds.length (some h.next))[j]? = some (some p) := hj
        rw [get] at hi hj
        split at hi <;> split at hj
        · omega
        · have := hr.fresh j p hj
          simp only [Option.some.injEq] at hi
          omega
        · have := hr.fresh i p hi
          simp only [Option.some.injEq] at hj
          omega
        · exact hr.data.apart i j p hi hj
      · intro i p hi
        have hi : (m.slots.set ds.length (some h.next))[i]? = some (some p) := hi
        rw [get] at hi
        show p < h.next + 1
        split at hi
        · simp only [Option.some.injEq] at hi; omega
        · have := hr.fresh i p hi; omega
    obtain ⟨h', m', e', hr'⟩ := register_ok es (ds ++ [d]) hreg (by simp only [List.length_append, List.length_singleton]; omega)
    refine ⟨h', m', ?_, by rw [List.append_assoc] at hr'; exact hr'⟩
    rw [register, e]
    exact e'

theorem reg_init (h : DHeap δ) : Reg ([] : List δ) h CMock.init := by
  have none : ∀ (i p : Nat), CMock.init.slots[i]? ≠ some (some p) := by
    intro i p hp
    have := List.mem_of_getElem? hp
    simp [CMock.init] at this
  refine ⟨⟨rfl, rfl, by simp [CMock.init], fun i hi => absurd hi (by omega), ?_, fun i d _ hd => by simp at hd, fun i j p hi => absurd hi (none i p)⟩,
    fun i p hi => absurd hi (none i p)⟩
  intro i _ hi
  simp [CMock.init, hi]

/-! ### Theorems -/

/-- C99 for threads which hold a lock while they call the mock: whatever the schedule, nothing is undefined and the process goes on;
    the calls are served in the order in which they are done, the k-th by the k-th expectation; calls beyond the expectations
    are unexpected; every call is done once, and when no call is in progress the counter is the number of calls.

    Missing: threads without a lock, for which the claim is false (below). -/
theorem C99_locked_partial (h0 : DHeap δ) (ds : List δ) (hds : ds.length ≤ 256) :
    ∃ h m, register h0 CMock.init ds = .ok (h, m) ∧ ∀ sched : List Nat, sched.length < 2 ^ 32 →
      Locked { heap := h, mock := m, phase := fun _ => .start } sched →
      ∃ s, exec { heap := h, mock := m, phase := fun _ => .start } sched = .ok s ∧
        (∀ (k t : Nat) r, s.log[k]? = some (t, r) → r = if h : k < ds.length then .served ds[k] else .unexpected) ∧
        (s.log.map (·.1)).Nodup ∧ (∀ t r, s.phase t = .done r ↔ (t, r) ∈ s.log) ∧
        ((∀ t, ¬ Inside (s.phase t)) → s.mock.actual = s.log.length ∧ s.mock.expected = ds.length) := by
  obtain ⟨h, m, e, hr⟩ := register_ok ds [] (reg_init h0) (by simpa [maxMockedCall] using hds)
  refine ⟨h, m, e, fun sched hlen hl => ?_⟩
  have hi : Inv ds ({ heap := h, mock := m, phase := fun _ => .start } : St δ) :=
    ⟨fun t ht => ht.elim, fun _ => hr.data, fun k t r hk => by simp at hk, fun t r => by simp, by simp⟩
  obtain ⟨s, es, hs⟩ := exec_ok hds sched hi hl (by simpa using hlen)
  exact ⟨s, es, hs.order, hs.once, hs.logged, fun hno => ⟨(hs.rest hno).actual, (hs.rest hno).expected⟩⟩

/-- How many accesses a call needs at most. -/
def left : Phase δ → Nat
  | .start => 267
  | .write _ => 266
  | .compare => 265
  | .limit _ => 264
  | .scan i => 7 + (256 - i)
  | .zero => 6
  | .index => 5
  | .test _ => 4
  | .copy _ => 3
  | .free _ _ => 2
  | .clear _ _ => 1
  | .done _ => 0

theorem access_left {h h' : DHeap δ} {m m' : CMock} {p p' : Phase δ} (e : access h m p = .ok (h', m', p')) : left p' + 1 ≤ left p ∨ left p' = 0 := by
  cases p <;> simp only [access] at e
  case scan i =>
    have hm : maxMockedCall = 256 := rfl
    split at e
    · next hi =>
      split at e
      · cases e
      · injection e with e; injection e with _ e; injection e with _ e; subst e; simp only [left]; omega
      · injection e with e; injection e with _ e; injection e with _ e; subst e; simp only [left]; omega
    · injection e with e; injection e with _ e; injection e with _ e; subst e; simp [left]
  case limit a =>
    injection e with e; injection e with _ e; injection e with _ e
    subst e
    split <;> simp [left]
  case zero =>
    split at e
    · cases e
    · injection e with e; injection e with _ e; injection e with _ e; subst e; simp [left]
  case test i =>
    split at e
    · cases e
    · cases e
    · injection e with e; injection e with _ e; injection e with _ e; subst e; simp [left]
  case copy i =>
    split at e
    · split at e
      · injection e with e; injection e with _ e; injection e with _ e; subst e; simp [left]
      · cases e
    · cases e
  case free i d =>
    split at e
    · next p _ =>
      cases hf : h.free p with
      | ok x => rw [hf] at e; simp only [Res.bind_ok] at e; injection e with e; injection e with _ e; injection e with _ e; subst e; simp [left]
      | exit => rw [hf] at e; cases e
      | ub => rw [hf] at e; cases e
    · injection e with e; injection e with _ e; injection e with _ e; subst e; simp [left]
    · cases e
  all_goals (injection e with e; injection e with _ e; injection e with _ e; subst e; simp [left])

/-- C99: no call waits for another one: a thread which gets 267 turns is done, whatever the other threads do. -/
theorem C99_finishes (t : Nat) : ∀ (sched : List Nat) (s s' : St δ), exec s sched = .ok s' → 267 ≤ sched.count t → ∃ r, s'.phase t = .done r := by
  have done_of : ∀ p : Phase δ, left p = 0 → ∃ r, p = .done r := by
    intro p hp
    cases p <;> simp [left] at hp ⊢
  have bound : ∀ p : Phase δ, left p ≤ 267 := by
    intro p
    cases p <;> simp only [left] <;> omega
  have main : ∀ (sched : List Nat) (s s' : St δ), exec s sched = .ok s' → left (s'.phase t) + sched.count t ≤ left (s.phase t) ∨ left (s'.phase t) = 0 := by
    intro sched
    induction sched with
    | nil =>
      intro s s' e
      rw [exec] at e
      injection e with e
      subst e
      simp
    | cons u us ih =>
      intro s s' e
      rw [exec] at e
      cases ht : tick s u with
      | ok s1 =>
        rw [ht] at e
        have h1 := ih s1 s' e
        rw [tick] at ht
        cases ha : access s.heap s.mock (s.phase u) with
        | ok x =>
          obtain ⟨h, m, p⟩ := x
          rw [ha] at ht
          simp only [Res.bind_ok] at ht
          injection ht with ht
          subst ht
          simp only at h1
          by_cases hu : u = t
          · subst hu
            simp only [if_true] at h1
            rw [List.count_cons_self]
            rcases access_left ha with h2 | h2
            · omega
            · rcases h1 with h1 | h1
              · right; omega
              · exact .inr h1
          · rw [List.count_cons_of_ne hu]
            rw [if_neg (fun h => hu h.symm)] at h1
            exact h1
        | exit => rw [ha] at ht; cases ht
        | ub => rw [ha] at ht; cases ht
      | exit => rw [ht] at e; cases e
      | ub => rw [ht] at e; cases e
  intro sched s s' e hc
  rcases main sched s s' e with h | h
  · have := bound (s.phase t)
    exact done_of _ (by omega)
  · exact done_of _ h

/-! ### Deviations -/

/-- An empty heap. -/
def noBlocks : DHeap δ := ⟨fun _ => none, 0⟩

/-- C99 does not hold without a lock: two threads whose calls are both expected can make the mock free an expectation twice, which is
    undefined, or end the process, depending on the schedule. -/
theorem C99_refuted_two (d e : δ) : ∃ h m, register noBlocks CMock.init [d, e] = .ok (h, m) ∧
    (∃ sched, exec { heap := h, mock := m, phase := fun _ => .start } sched = .ub) ∧
    ∃ sched, exec { heap := h, mock := m, phase := fun _ => .start } sched = .exit :=
  ⟨_, _, rfl, ⟨(List.replicate 10 [0, 1]).flatten, rfl⟩, 1 :: (List.replicate 11 0 ++ List.replicate 8 1), rfl⟩

theorem exec_append : ∀ (a b : List Nat) {s s' : St δ}, exec s a = .ok s' → exec s (a ++ b) = exec s' b
  | [], _, s, s', e => by rw [exec] at e; injection e with e; rw [e]; rfl
  | t :: a, b, s, s', e => by
    rw [exec] at e
    rw [List.cons_append, exec]
    cases ht : tick s t with
    | ok s1 => rw [ht] at e; exact exec_append a b e
    | exit => rw [ht] at e; cases e
    | ub => rw [ht] at e; cases e

/-- The search for an expectation in a mock without any ends with the report of a bug. -/
theorem scan_empty {t : Nat} : ∀ (n i : Nat) {s : St δ}, i + n = maxMockedCall → s.phase t = .scan i →
    (∀ j : Nat, j < maxMockedCall → s.mock.slots[j]? = some none) →
    ∃ s', exec s (List.replicate (n + 1) t) = .ok s' ∧ s'.log = s.log ++ [(t, .bug)] ∧ s'.mock = s.mock
  | 0, i, s, hi, hp, _ => by
    refine ⟨{ s with phase := fun u => if u = t then .done .bug else s.phase u, log := s.log ++ [(t, .bug)] }, ?_, rfl, rfl⟩
    rw [List.replicate_one, exec, tick, hp, access, if_neg (by omega)]
    rfl
  | n + 1, i, s, hi, hp, hs => by
    have ht : tick s t = .ok { s with phase := fun u => if u = t then .scan (i + 1) else s.phase u } := by
      rw [tick, hp, access, if_pos (by omega), hs i (by omega)]
      rfl
    obtain ⟨s', e, hl, hm⟩ := scan_empty (t := t) n (i + 1) (s := { s with phase := fun u => if u = t then .scan (i + 1) else s.phase u })
      (by omega) (if_pos rfl) hs
    refine ⟨s', ?_, hl, hm⟩
    rw [List.replicate, exec, ht]
    exact e

/-- C99 does not hold without a lock: one call too many is counted as none, so that the number of calls is the expected one. -/
theorem C99_refuted_count (d : δ) : ∃ h m, register noBlocks CMock.init [d] = .ok (h, m) ∧
    ∃ sched s, exec { heap := h, mock := m, phase := fun _ => .start } sched = .ok s ∧
      s.log = [(0, .served d), (1, .bug)] ∧ s.mock.actual = s.mock.expected := by
  obtain ⟨h, m, hr, s1, e1, hp, hs, hl1, ha⟩ : ∃ h m, register noBlocks CMock.init [d] = .ok (h, m) ∧
      ∃ s1, exec { heap := h, mock := m, phase := fun _ => .start } (1 :: (List.replicate 11 0 ++ List.replicate 3 1)) = .ok s1 ∧
      s1.phase 1 = .scan 0 ∧ s1.mock.slots = List.replicate maxMockedCall none ∧ s1.log = [(0, .served d)] ∧ s1.mock.actual = s1.mock.expected :=
    ⟨_, _, rfl, _, rfl, rfl, rfl, rfl, rfl⟩
  refine ⟨h, m, hr, 1 :: (List.replicate 11 0 ++ List.replicate 3 1) ++ List.replicate 257 1, ?_⟩
  obtain ⟨s', e, hl, hm⟩ := scan_empty 256 0 rfl hp (by
    intro j hj
    rw [hs, List.getElem?_replicate, if_pos hj])
  exact ⟨s', (exec_append _ _ e1).trans e, by rw [hl, hl1]; rfl, by rw [hm]; exact ha⟩

/-! ### Example -/

theorem locked_alone {s : St δ} {t : Nat} : ∀ n, (∀ u, u ≠ t → ¬ Inside (s.phase u)) → Locked s (List.replicate n t)
  | 0, _ => trivial
  | n + 1, h => by
    refine ⟨h, fun s' hs => locked_alone n fun u hu => ?_⟩
    rw [tick] at hs
    cases ha : access s.heap s.mock (s.phase t) with
    | ok x =>
      rw [ha] at hs
      simp only [Res.bind_ok] at hs
      injection hs with hs
      rw [← hs]
      simp only [if_neg hu]
      exact h u hu
    | exit => rw [ha] at hs; cases hs
    | ub => rw [ha] at hs; cases hs

theorem locked_append : ∀ (a : List Nat) {b : List Nat} {s : St δ}, Locked s a → (∀ s', exec s a = .ok s' → Locked s' b) → Locked s (a ++ b)
  | [], _, s, _, h => h s rfl
  | t :: a, b, s, ha, h => ⟨ha.1, fun s' hs => locked_append a (ha.2 s' hs) fun s'' e => h s'' (by rw [exec, hs]; exact e)⟩

theorem exec_other {u : Nat} : ∀ (sched : List Nat) {s s' : St δ}, u ∉ sched → exec s sched = .ok s' → s'.phase u = s.phase u
  | [], s, s', _, e => by rw [exec] at e; injection e with e; rw [e]
  | t :: ts, s, s', hu, e => by
    rw [exec, tick] at e
    simp only [List.mem_cons, not_or] at hu
    cases ha : access s.heap s.mock (s.phase t) with
    | ok x =>
      rw [ha] at e
      simp only [Res.bind_ok] at e
      rw [exec_other ts hu.2 e]
      exact if_neg hu.1
    | exit => rw [ha] at e; cases e
    | ub => rw [ha] at e; cases e

theorem exec_alone {s s' : St δ} {t : Nat} (h : ∀ u, ¬ Inside (s.phase u)) (e : exec s (List.replicate 267 t) = .ok s') (u : Nat) : ¬ Inside (s'.phase u) := by
  by_cases hu : u = t
  · obtain ⟨r, hr⟩ := C99_finishes t _ s s' e (by rw [List.count_replicate_self]; exact Nat.le_refl _)
    rw [hu, hr]
    exact fun h => h
  · rw [exec_other _ (fun hm => hu (List.eq_of_mem_replicate hm)) e]
    exact h u

/-- Three calls one after the other, as a lock may order them, with two expectations: the hypotheses of C99 hold, and all are done. -/
example : ∃ (h : DHeap Nat) (m : CMock), register noBlocks CMock.init [10, 20] = .ok (h, m) ∧
    ∃ sched s, Locked { heap := h, mock := m, phase := fun _ => .start } sched ∧
      exec { heap := h, mock := m, phase := fun _ => .start } sched = .ok s ∧ ∀ t ∈ [7, 3, 5], ∃ r, s.phase t = .done r ∧ (t, r) ∈ s.log := by
  obtain ⟨h, m, e, hl⟩ := C99_locked_partial noBlocks [10, 20] (by decide)
  have h0 : ∀ u, ¬ Inside (({ heap := h, mock := m, phase := fun _ => .start } : St Nat).phase u) := fun u h => h
  have lk : Locked { heap := h, mock := m, phase := fun _ => .start } (List.replicate 267 7 ++ (List.replicate 267 3 ++ List.replicate 267 5)) := by
    refine locked_append _ (locked_alone _ fun u _ => h0 u) fun s' e => ?_
    exact locked_append _ (locked_alone _ fun u _ => exec_alone h0 e u) fun s'' e' => locked_alone _ fun u _ => exec_alone (exec_alone h0 e) e' u
  obtain ⟨s, es, -, -, hd, -⟩ := hl _ (by simp only [List.length_append, List.length_replicate]; omega) lk
  refine ⟨h, m, e, _, s, lk, es, fun t ht => ?_⟩
  obtain ⟨r, hr⟩ := C99_finishes t _ _ s es (by
    simp only [List.count_append, List.count_replicate]
    simp only [List.mem_cons, List.not_mem_nil, or_false] at ht
    rcases ht with rfl | rfl | rfl <;> decide)
  exact ⟨r, hr, (hd t r).1 hr⟩

end EasyMock.Threads
