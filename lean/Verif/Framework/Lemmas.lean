import Verif.Framework.Spec
import Verif.Mocked.Lemmas

namespace EasyMock
open Spec

/-! ## Functions of the configuration -/

def Valid (cfg : Cfg) (f : FnId) : Prop := (cfg.fn? f).isSome

theorem mem_fnsOf {cfg : Cfg} {i : Nat} {f : FnId} : f ∈ cfg.fnsOf i ↔ f.file = i ∧ Valid cfg f := by
  unfold Cfg.fnsOf Valid Cfg.fn?
  constructor
  · intro h
    split at h
    · simp at h
    · rename_i fns e
      simp only [List.mem_map, List.mem_range] at h
      obtain ⟨k, hk, rfl⟩ := h
      simp [e, hk]
  · rintro ⟨rfl, h⟩
    cases e : cfg.files[f.file]? with
    | none => simp [e] at h
    | some fns =>
      simp only [List.mem_map, List.mem_range]
      refine ⟨f.idx, ?_, rfl⟩
      simp only [e, Option.bind_some] at h
      by_cases hl : f.idx < fns.length
      · exact hl
      · simp [hl] at h

theorem fnsOf_nodup (cfg : Cfg) (i : Nat) : (cfg.fnsOf i).Nodup := by
  unfold Cfg.fnsOf
  split
  · simp
  · refine List.Pairwise.map _ ?_ List.nodup_range
    intro a b h e
    simp at e
    exact h e

theorem valid_file_lt {cfg : Cfg} {f : FnId} (h : Valid cfg f) : f.file < cfg.files.length := by
  unfold Valid Cfg.fn? at h
  by_cases hl : f.file < cfg.files.length
  · exact hl
  · simp [hl] at h

/-- Is the mock of `f` a C mock? -/
def kindC (cfg : Cfg) (f : FnId) : Bool := match cfg.fn? f with | some fc => fc.isC | none => false

/-! ## History functions -/

section hist
variable (f : FnId) (past : List Op)

@[simp] theorem exps_nil : exps f [] = [] := rfl
@[simp] theorem calls_nil : calls f [] = 0 := rfl

theorem since_cons (op : Op) : since f (op :: past) = if resets f op then [] else op :: since f past := rfl

theorem exps_cons (op : Op) : exps f (op :: past) =
    if resets f op then [] else exps f past ++ (expOp f op).toList := by
  unfold exps; rw [since_cons]
  by_cases h : resets f op
  · simp [h]
  · simp only [h, Bool.false_eq_true, if_false, List.filterMap_cons]
    cases expOp f op <;> simp

theorem calls_cons (op : Op) : calls f (op :: past) =
    if resets f op then 0 else calls f past + (if isCallOf f op then 1 else 0) := by
  unfold calls; rw [since_cons]
  by_cases h : resets f op
  · simp [h]
  · simp only [h, Bool.false_eq_true, if_false, List.countP_cons]

@[simp] theorem exps_expect (g : FnId) (e : Exp) (a : Bool) :
    exps f (.expect g e a :: past) = if g = f then exps f past ++ [e] else exps f past := by
  rw [exps_cons]; by_cases h : g = f <;> simp [resets, expOp, h]
@[simp] theorem exps_call (g : FnId) (c : Call) : exps f (.call g c :: past) = exps f past := by
  rw [exps_cons]; simp [resets, expOp]
@[simp] theorem exps_init : exps f (.init :: past) = [] := by rw [exps_cons]; simp [resets]
@[simp] theorem exps_check : exps f (.check :: past) = exps f past := by rw [exps_cons]; simp [resets, expOp]
@[simp] theorem exps_setOrder (b : Bool) : exps f (.setOrder b :: past) = exps f past := by
  rw [exps_cons]; simp [resets, expOp]
@[simp] theorem exps_setPrint (b : Bool) : exps f (.setPrint b :: past) = exps f past := by
  rw [exps_cons]; simp [resets, expOp]
@[simp] theorem exps_load (i : Nat) : exps f (.load i :: past) = if i = f.file then [] else exps f past := by
  rw [exps_cons]; by_cases h : i = f.file <;> simp [resets, expOp, h]
@[simp] theorem exps_unload (i : Nat) : exps f (.unload i :: past) = if i = f.file then [] else exps f past := by
  rw [exps_cons]; by_cases h : i = f.file <;> simp [resets, expOp, h]
@[simp] theorem exps_getStr : exps f (.getStr :: past) = exps f past := by rw [exps_cons]; simp [resets, expOp]
@[simp] theorem exps_getArr : exps f (.getArr :: past) = exps f past := by rw [exps_cons]; simp [resets, expOp]
@[simp] theorem exps_poke (a : Addr) (b : UInt8) : exps f (.poke a b :: past) = exps f past := by
  rw [exps_cons]; simp [resets, expOp]

@[simp] theorem calls_expect (g : FnId) (e : Exp) (a : Bool) : calls f (.expect g e a :: past) = calls f past := by
  rw [calls_cons]; simp [resets, isCallOf]
@[simp] theorem calls_call (g : FnId) (c : Call) :
    calls f (.call g c :: past) = if g = f then calls f past + 1 else calls f past := by
  rw [calls_cons]; by_cases h : g = f <;> simp [resets, isCallOf, h]
@[simp] theorem calls_init : calls f (.init :: past) = 0 := by rw [calls_cons]; simp [resets]
@[simp] theorem calls_check : calls f (.check :: past) = calls f past := by rw [calls_cons]; simp [resets, isCallOf]
@[simp] theorem calls_setOrder (b : Bool) : calls f (.setOrder b :: past) = calls f past := by
  rw [calls_cons]; simp [resets, isCallOf]
@[simp] theorem calls_setPrint (b : Bool) : calls f (.setPrint b :: past) = calls f past := by
  rw [calls_cons]; simp [resets, isCallOf]
@[simp] theorem calls_load (i : Nat) : calls f (.load i :: past) = if i = f.file then 0 else calls f past := by
  rw [calls_cons]; by_cases h : i = f.file <;> simp [resets, isCallOf, h]
@[simp] theorem calls_unload (i : Nat) : calls f (.unload i :: past) = if i = f.file then 0 else calls f past := by
  rw [calls_cons]; by_cases h : i = f.file <;> simp [resets, isCallOf, h]
@[simp] theorem calls_getStr : calls f (.getStr :: past) = calls f past := by rw [calls_cons]; simp [resets, isCallOf]
@[simp] theorem calls_getArr : calls f (.getArr :: past) = calls f past := by rw [calls_cons]; simp [resets, isCallOf]
@[simp] theorem calls_poke (a : Addr) (b : UInt8) : calls f (.poke a b :: past) = calls f past := by
  rw [calls_cons]; simp [resets, isCallOf]

theorem calls_le_length : calls f past ≤ past.length := by
  induction past with
  | nil => simp
  | cons op past ih => rw [calls_cons]; split <;> simp <;> split <;> omega

theorem exps_le_length : (exps f past).length ≤ past.length := by
  induction past with
  | nil => simp
  | cons op past ih =>
    rw [exps_cons]; split
    · simp
    · cases expOp f op <;> simp <;> omega

end hist

/-- A function whose file is not loaded is fresh. -/
theorem fresh_of_unloaded {cfg : Cfg} {m0 : Mem} {past : List Op} (hl : Legal cfg m0 past) (f : FnId)
    (h : loaded f.file past = false) : exps f past = [] ∧ calls f past = 0 := by
  induction past with
  | nil => simp
  | cons op past ih =>
    obtain ⟨hl, o, ho⟩ := hl
    have ih := ih hl
    cases op with
    | expect g e a =>
      simp only [loaded] at h
      have : g ≠ f := by
        intro e; subst e
        simp only [Spec.observe, h] at ho
        split at ho <;> simp at ho
      simp [this, ih h]
    | call g c =>
      simp only [loaded] at h
      have : g ≠ f := by
        intro e; subst e
        simp only [Spec.observe, h] at ho
        split at ho <;> simp at ho
      simp [this, ih h]
    | load i =>
      simp only [loaded] at h
      by_cases e : i = f.file
      · simp [e]
      · simp [e] at h ⊢; exact ih h
    | unload i =>
      simp only [loaded] at h
      by_cases e : i = f.file
      · simp [e]
      · simp [e] at h ⊢; exact ih h
    | init => simp
    | _ => simp only [loaded] at h; simpa using ih h

/-! ## Pending expectations and the order queue -/

/-- Expectations of `f` that a future call can still be served from. -/
def pending (past : List Op) (f : FnId) : Nat := (exps f past).length - calls f past

def allFns (cfg : Cfg) : List FnId := (List.range cfg.files.length).flatMap cfg.fnsOf

theorem mem_allFns {cfg : Cfg} {f : FnId} : f ∈ allFns cfg ↔ Valid cfg f := by
  unfold allFns
  simp only [List.mem_flatMap, List.mem_range, mem_fnsOf]
  constructor
  · rintro ⟨i, _, _, h⟩; exact h
  · intro h; exact ⟨f.file, valid_file_lt h, rfl, h⟩

theorem allFns_nodup (cfg : Cfg) : (allFns cfg).Nodup := by
  unfold allFns
  rw [List.nodup_iff_pairwise_ne, List.pairwise_flatMap]
  refine ⟨fun i _ => fnsOf_nodup cfg i, ?_⟩
  refine List.Pairwise.imp ?_ (List.nodup_range (n := cfg.files.length))
  intro i j hij f hf g hg e
  subst e
  exact hij ((mem_fnsOf.mp hf).1.symm.trans (mem_fnsOf.mp hg).1)

def total (l : List FnId) (g : FnId → Nat) : Nat := (l.map g).sum

theorem total_le {l : List FnId} {g g' : FnId → Nat} (h : ∀ f, g f ≤ g' f) : total l g ≤ total l g' := by
  induction l with
  | nil => simp [total]
  | cons a l ih => have := h a; simp only [total, List.map_cons, List.sum_cons] at *; omega

theorem total_congr {l : List FnId} {g g' : FnId → Nat} (h : ∀ f ∈ l, g f = g' f) : total l g = total l g' := by
  unfold total
  rw [List.map_congr_left h]

theorem total_zero (l : List FnId) : total l (fun _ => 0) = 0 := by
  induction l with
  | nil => rfl
  | cons a l ih => simp only [total, List.map_cons, List.sum_cons] at *; omega

theorem total_update {l : List FnId} (hn : l.Nodup) {f : FnId} (hf : f ∈ l) {g g' : FnId → Nat}
    (h : ∀ x, x ≠ f → g' x = g x) : total l g' + g f = total l g + g' f := by
  induction l with
  | nil => simp at hf
  | cons a l ih =>
    simp only [total, List.map_cons, List.sum_cons] at *
    rw [List.nodup_cons] at hn
    by_cases e : a = f
    · subst e
      have : l.map g' = l.map g := List.map_congr_left (fun x hx => h x (fun e => hn.1 (e ▸ hx)))
      rw [this]; omega
    · have hf' : f ∈ l := by simpa [Ne.symm e] using hf
      have := ih hn.2 hf'
      have := h a e
      omega

theorem serving_isSome (f : FnId) (past : List Op) : (serving f past).isSome = decide (calls f past < (exps f past).length) := by
  unfold serving
  by_cases h : calls f past < (exps f past).length <;> simp [h]

/-- The order queue holds at least one entry per pending expectation. -/
theorem pending_le_fifo {cfg : Cfg} {m0 : Mem} {past : List Op} (hl : Legal cfg m0 past) :
    total (allFns cfg) (pending past) ≤ (fifo cfg past).length := by
  induction past with
  | nil =>
    have : total (allFns cfg) (pending []) = total (allFns cfg) (fun _ => 0) := total_congr (fun f _ => by simp [pending])
    rw [this, total_zero]
    exact Nat.zero_le _
  | cons op past ih =>
    obtain ⟨hl, o, ho⟩ := hl
    have ih := ih hl
    cases op with
    | expect g e a =>
      have hv : Valid cfg g := by
        unfold Valid
        cases hg : cfg.fn? g with
        | none => simp [Spec.observe, hg] at ho
        | some _ => rfl
      have hu := total_update (allFns_nodup cfg) (mem_allFns.mpr hv) (g := pending past)
        (g' := pending (.expect g e a :: past)) (by intro x hx; simp [pending, Ne.symm hx])
      have hp : pending (.expect g e a :: past) g ≤ pending past g + 1 := by simp [pending]; omega
      simp only [fifo, List.length_append, List.length_cons, List.length_nil]
      omega
    | call g c =>
      have hv : Valid cfg g := by
        unfold Valid
        cases hg : cfg.fn? g with
        | none => simp [Spec.observe, hg] at ho
        | some _ => rfl
      have hu := total_update (allFns_nodup cfg) (mem_allFns.mpr hv) (g := pending past)
        (g' := pending (.call g c :: past)) (by intro x hx; simp [pending, Ne.symm hx])
      simp only [fifo, serving_isSome]
      by_cases hs : calls g past < (exps g past).length
      · simp only [hs, decide_true, if_true, List.length_tail]
        have : pending (.call g c :: past) g + 1 = pending past g := by simp [pending]; omega
        omega
      · simp only [hs, decide_false, Bool.false_eq_true, if_false]
        have : pending (.call g c :: past) g = pending past g := by simp [pending]; omega
        omega
    | init =>
      have : total (allFns cfg) (pending (.init :: past)) = total (allFns cfg) (fun _ => 0) :=
        total_congr (fun f _ => by simp [pending])
      rw [this, total_zero]
      exact Nat.zero_le _
    | load i =>
      have : total (allFns cfg) (pending (.load i :: past)) ≤ total (allFns cfg) (pending past) :=
        total_le (fun f => by simp only [pending, exps_load, calls_load]; split <;> simp)
      simp only [fifo]; omega
    | unload i =>
      have : total (allFns cfg) (pending (.unload i :: past)) ≤ total (allFns cfg) (pending past) :=
        total_le (fun f => by simp only [pending, exps_unload, calls_unload]; split <;> simp)
      simp only [fifo]; omega
    | check =>
      have : pending (.check :: past) = pending past := by funext f; simp [pending]
      rw [this]; exact ih
    | setOrder b =>
      have : pending (.setOrder b :: past) = pending past := by funext f; simp [pending]
      rw [this]; exact ih
    | setPrint b =>
      have : pending (.setPrint b :: past) = pending past := by funext f; simp [pending]
      rw [this]; exact ih
    | getStr =>
      have : pending (.getStr :: past) = pending past := by funext f; simp [pending]
      rw [this]; exact ih
    | getArr =>
      have : pending (.getArr :: past) = pending past := by funext f; simp [pending]
      rw [this]; exact ih
    | poke a b =>
      have : pending (.poke a b :: past) = pending past := by funext f; simp [pending]
      rw [this]; exact ih

theorem fifo_ne_nil {cfg : Cfg} {m0 : Mem} {past : List Op} (hl : Legal cfg m0 past) {f : FnId}
    (hv : Valid cfg f) (hs : (serving f past).isSome) : fifo cfg past ≠ [] := by
  intro e
  have h := pending_le_fifo hl
  rw [e] at h
  have hu := total_update (allFns_nodup cfg) (mem_allFns.mpr hv) (g := fun x => if x = f then 0 else pending past x)
        (g' := pending past) (by intro x hx; simp [hx])
  rw [serving_isSome] at hs
  simp [pending] at hu h hs
  omega

/-! ## The mocks and the heap -/

structure MInv (cfg : Cfg) (mocks : FnId → Mock Exp) (h : DHeap Exp) (A : FnId → AMock Exp) : Prop where
  rep : ∀ f, Valid cfg f → (mocks f).Rep h (A f)
  kind : ∀ f, Valid cfg f → (mocks f).isC = kindC cfg f
  uniq : ∀ f g q, Valid cfg f → Valid cfg g → (mocks f).Owns q → (mocks g).Owns q → f = g
  live : ∀ q, (h.blocks q).isSome → ∃ f, Valid cfg f ∧ (mocks f).Owns q
  bound : ∀ q, (h.blocks q).isSome → q < h.next

theorem MInv.congr {cfg : Cfg} {mocks : FnId → Mock Exp} {h : DHeap Exp} {A B : FnId → AMock Exp}
    (m : MInv cfg mocks h A) (e : ∀ f, Valid cfg f → A f = B f) : MInv cfg mocks h B :=
  ⟨fun f hf => e f hf ▸ m.rep f hf, m.kind, m.uniq, m.live, m.bound⟩

theorem MInv.update {cfg : Cfg} {mocks : FnId → Mock Exp} {h : DHeap Exp} {A : FnId → AMock Exp}
    (m : MInv cfg mocks h A) {f : FnId} (hf : Valid cfg f) {h' : DHeap Exp} {m' : Mock Exp} {a' : AMock Exp}
    (fr : MFrame h (mocks f) h' m') (r : m'.Rep h' a') (hk : m'.isC = (mocks f).isC) :
    MInv cfg (fun g => if g = f then m' else mocks g) h' (fun g => if g = f then a' else A g) := by
  have hnot : ∀ g, Valid cfg g → g ≠ f → ∀ q, (mocks g).Owns q → ¬ (mocks f).Owns q := by
    intro g hg hne q h1 h2
    exact hne (m.uniq g f q hg hf h1 h2)
  have hlt : ∀ g, Valid cfg g → ∀ q, (mocks g).Owns q → q < h.next :=
    fun g hg q ho => m.bound q ((m.rep g hg).live ho)
  constructor
  · intro g hg
    by_cases e : g = f
    · simp only [e, if_true]; exact r
    · simp only [e, if_false]
      exact (m.rep g hg).frame (fun q ho => fr.other q (hlt g hg q ho) (hnot g hg e q ho))
  · intro g hg
    by_cases e : g = f
    · simp only [e, if_true]; rw [hk]; exact m.kind f hf
    · simp only [e, if_false]; exact m.kind g hg
  · intro g g' q hg hg' h1 h2
    by_cases e : g = f <;> by_cases e' : g' = f
    · exact e.trans e'.symm
    · simp only [e, if_true] at h1
      simp only [e', if_false] at h2
      rcases fr.own q h1 with h | h
      · exact (hnot g' hg' e' q h2 h).elim
      · have := hlt g' hg' q h2; omega
    · simp only [e', if_true] at h2
      simp only [e, if_false] at h1
      rcases fr.own q h2 with h | h
      · exact (hnot g hg e q h1 h).elim
      · have := hlt g hg q h1; omega
    · simp only [e, e', if_false] at h1 h2
      exact m.uniq g g' q hg hg' h1 h2
  · intro q hq
    rcases fr.live q hq with ho | ⟨hs, ho⟩
    · exact ⟨f, hf, by simpa using ho⟩
    · obtain ⟨g, hg, hgo⟩ := m.live q hs
      have : g ≠ f := fun e => ho (e ▸ hgo)
      exact ⟨g, hg, by simpa [this] using hgo⟩
  · intro q hq
    rcases fr.live q hq with ho | ⟨hs, ho⟩
    · exact fr.bound q ho
    · exact Nat.lt_of_lt_of_le (m.bound q hs) fr.next

theorem resetFns_ok {cfg : Cfg} (l : List FnId) : ∀ (s : State) (A : FnId → AMock Exp),
    MInv cfg s.mocks s.heap A → (∀ f ∈ l, Valid cfg f) →
    ∃ mocks heap, resetFns s l = .ok { s with mocks := mocks, heap := heap } ∧
      MInv cfg mocks heap (fun f => if f ∈ l then AMock.fresh else A f) := by
  induction l with
  | nil => intro s A m _; exact ⟨s.mocks, s.heap, rfl, by simpa using m⟩
  | cons f l ih =>
    intro s A m hv
    obtain ⟨h', m', e, r, fr, _, hk⟩ := reset_ok (m.rep f (hv f (by simp)))
    have m2 := m.update (hv f (by simp)) fr r hk
    obtain ⟨mocks, heap, e2, m3⟩ := ih { s.setMock f m' with heap := h' } _ m2 (fun g hg => hv g (by simp [hg]))
    refine ⟨mocks, heap, by simp only [resetFns, e, Res.bind_ok, e2]; rfl, m3.congr ?_⟩
    intro g _
    by_cases h1 : g ∈ l <;> by_cases h2 : g = f <;> simp [h1, h2]

theorem resetFiles_ok {cfg : Cfg} (l : List Nat) : ∀ (s : State) (A : FnId → AMock Exp),
    MInv cfg s.mocks s.heap A → (∀ i, s.reg i = true → s.loaded i = true) →
    ∃ mocks heap, resetFiles cfg s l = .ok { s with mocks := mocks, heap := heap } ∧
      MInv cfg mocks heap (fun f => if f.file ∈ l ∧ s.reg f.file = true then AMock.fresh else A f) := by
  induction l with
  | nil => intro s A m _; exact ⟨s.mocks, s.heap, rfl, by simpa using m⟩
  | cons i l ih =>
    intro s A m hr
    by_cases hi : s.reg i = true
    · obtain ⟨mocks, heap, e, m2⟩ := resetFns_ok (cfg.fnsOf i) s A m (fun f hf => (mem_fnsOf.mp hf).2)
      obtain ⟨mocks2, heap2, e2, m3⟩ := ih { s with mocks := mocks, heap := heap } _ m2 hr
      refine ⟨mocks2, heap2, by simp only [resetFiles, hi, if_true, hr i hi, e, Res.bind_ok, e2], m3.congr ?_⟩
      intro f hf
      simp only [mem_fnsOf, hf, and_true, List.mem_cons]
      by_cases h2 : f.file = i
      · have h3 : s.reg f.file = true := h2 ▸ hi
        by_cases h1 : f.file ∈ l <;> simp [h2, hi]
      · simp [h2]
    · obtain ⟨mocks2, heap2, e2, m3⟩ := ih s A m hr
      refine ⟨mocks2, heap2, by simp only [resetFiles, hi]; exact e2, m3.congr ?_⟩
      intro f hf
      simp only [List.mem_cons]
      by_cases h2 : f.file = i
      · have : ¬ (s.reg f.file = true) := h2 ▸ hi
        simp [this]
      · simp [h2]

theorem zeroMock_rep {cfg : Cfg} {f : FnId} (h : DHeap Exp) :
    (zeroMock cfg f).Rep h AMock.fresh ∧ (∀ q, ¬ (zeroMock cfg f).Owns q) ∧
    (Valid cfg f → (zeroMock cfg f).isC = kindC cfg f) := by
  unfold zeroMock kindC Valid
  cases cfg.fn? f with
  | none => exact ⟨⟨rfl, rfl, rfl⟩, fun q hq => hq, by simp⟩
  | some fc =>
    cases hc : fc.isC with
    | true => simp only [hc, if_true]; exact ⟨Rep_init h, not_owns_init, fun _ => rfl⟩
    | false => simp only [hc, Bool.false_eq_true, if_false]; exact ⟨⟨rfl, rfl, rfl⟩, fun q hq => hq, fun _ => rfl⟩

theorem rep_fresh_owns {h : DHeap Exp} {m : Mock Exp} (r : m.Rep h AMock.fresh) (q : Nat) : ¬ m.Owns q := by
  cases m with
  | cpp m => exact id
  | c m =>
    obtain ⟨h1, h2, h3, h4, h5, h6, h7⟩ := r
    rintro ⟨i, hi⟩
    obtain ⟨d, k, _⟩ := h6 i q hi
    simp [AMock.fresh] at k

theorem initFns_ok {cfg : Cfg} (l : List FnId) : ∀ (s : State) (A : FnId → AMock Exp),
    MInv cfg s.mocks s.heap A → (∀ f ∈ l, Valid cfg f ∧ A f = AMock.fresh) →
    ∃ mocks, initFns cfg s l = { s with mocks := mocks } ∧ MInv cfg mocks s.heap A := by
  induction l with
  | nil => intro s A m _; exact ⟨s.mocks, rfl, m⟩
  | cons f l ih =>
    intro s A m hv
    obtain ⟨hf, ha⟩ := hv f (by simp)
    have hno : ∀ q, ¬ (s.mocks f).Owns q := rep_fresh_owns (ha ▸ m.rep f hf)
    obtain ⟨z1, z2, z3⟩ := zeroMock_rep (cfg := cfg) (f := f) s.heap
    have fr : MFrame s.heap (s.mocks f) s.heap (zeroMock cfg f) :=
      MFrame.refl_of _ _ _ (fun q => iff_of_false (z2 q) (hno q)) (fun q hq => (hno q hq).elim)
    have m2 := m.update hf fr z1 (by rw [z3 hf, m.kind f hf])
    obtain ⟨mocks, e, m3⟩ := ih (s.setMock f (zeroMock cfg f)) A
      (m2.congr (fun g _ => by by_cases e : g = f <;> simp [e, ha])) (fun g hg => hv g (by simp [hg]))
    exact ⟨mocks, by simp only [initFns, e]; rfl, m3⟩

/-! ## Checks -/

theorem verifyFns_eq (cfg : Cfg) (l : List FnId) : ∀ (s : State), verifyFns cfg s l =
    ({ s with errs := s.errs ++ (l.filterMap fun f =>
        if (s.mocks f).getNbExpectedCall = (s.mocks f).getNbActualCall then none
        else some (ErrKind.count (cfg.name f) (s.mocks f).getNbExpectedCall (s.mocks f).getNbActualCall)).map (fun k => (⟨k, none⟩ : Err)) },
      l.all fun f => (s.mocks f).getNbExpectedCall == (s.mocks f).getNbActualCall) := by
  induction l with
  | nil => intro s; simp [verifyFns]
  | cons f l ih =>
    intro s
    by_cases h : (s.mocks f).getNbExpectedCall = (s.mocks f).getNbActualCall
    · simp [verifyFns, verifyFn, h, ih]
    · simp [verifyFns, verifyFn, h, ih, State.addError]

theorem verifyFiles_eq (cfg : Cfg) (l : List Nat) : ∀ (s : State), (∀ i, s.reg i = true → s.loaded i = true) →
    verifyFiles cfg s l = .ok
    ({ s with errs := s.errs ++ (((l.filter s.reg).flatMap cfg.fnsOf).filterMap fun f =>
        if (s.mocks f).getNbExpectedCall = (s.mocks f).getNbActualCall then none
        else some (ErrKind.count (cfg.name f) (s.mocks f).getNbExpectedCall (s.mocks f).getNbActualCall)).map (fun k => (⟨k, none⟩ : Err)) },
      ((l.filter s.reg).flatMap cfg.fnsOf).all fun f => (s.mocks f).getNbExpectedCall == (s.mocks f).getNbActualCall) := by
  induction l with
  | nil => intro s _; simp [verifyFiles]
  | cons i l ih =>
    intro s hr
    by_cases h : s.reg i = true
    · have ih' := ih { s with errs := s.errs ++ ((cfg.fnsOf i).filterMap fun f =>
        if (s.mocks f).getNbExpectedCall = (s.mocks f).getNbActualCall then none
        else some (ErrKind.count (cfg.name f) (s.mocks f).getNbExpectedCall (s.mocks f).getNbActualCall)).map (fun k => (⟨k, none⟩ : Err)) } hr
      simp only [verifyFiles, h, if_true, hr i h, verifyFns_eq, ih', Res.bind_ok, List.filter_cons, List.flatMap_cons,
        List.filterMap_append, List.map_append, List.all_append, List.append_assoc]
    · simp only [verifyFiles, h, List.filter_cons, Bool.false_eq_true, if_false]
      exact ih s hr

/-! ## Calls -/

theorem checkParams_eq (pcs : Bool) (bt : String) (ord : Nat) (name : String) (ps : List (String × ParamExp × Val)) :
    ∀ s : State, ps.foldl (checkParam pcs bt ord name) s =
      { s with errs := s.errs ++ ((matchErrs s.mem ps).map (ErrKind.mismatch ord name)).map (fun k => (⟨k, if pcs then some bt else none⟩ : Err)) } := by
  induction ps with
  | nil => intro s; simp [matchErrs]
  | cons p ps ih =>
    intro s
    rw [List.foldl_cons, ih]
    unfold checkParam matchErrs
    cases hm : p.2.1.matcher with
    | none => simp [hm]
    | some mt =>
      cases hr : mt s.mem p.2.2 p.2.1.value p.1 with
      | none => simp [hm, hr]
      | some msg => simp [hm, hr, State.addError]

theorem memcpy_eq (m : Mem) (d s n : Nat) :
    memcpy m d s n = match copied m d s n with | some m' => .ok m' | none => .ub := by
  unfold memcpy copied
  by_cases h0 : n = 0
  · simp [h0]
  · simp only [h0, if_false]
    by_cases h : (∀ k, k < n → (m (s + k)).isSome) ∧ (∀ k, k < n → (m (d + k)).isSome) ∧ (s + n ≤ d ∨ d + n ≤ s)
    · rw [if_pos h, if_pos ⟨fun k hk => ⟨h.1 k hk, h.2.1 k hk⟩, h.2.2⟩]
    · rw [if_neg h, if_neg (fun h' => h ⟨fun k hk => (h'.1 k hk).1, fun k hk => (h'.1 k hk).2, h'.2⟩)]

theorem writeOuts_eq (l : List (Option Nat × OutExp × Addr)) : ∀ m : Mem,
    writeOuts m l = match copyAll m (l.filterMap fun (sz, o, dst) =>
      if o.src = 0 then none else some (dst, o.src, sz.getD o.size)) with | some m' => .ok m' | none => .ub := by
  induction l with
  | nil => intro m; rfl
  | cons x l ih =>
    intro m
    obtain ⟨sz, o, dst⟩ := x
    by_cases h0 : o.src = 0
    · simp only [writeOuts, h0, if_true, List.filterMap_cons]
      exact ih m
    · simp only [writeOuts, h0, if_false, List.filterMap_cons, copyAll, memcpy_eq]
      cases hc : copied m dst o.src (sz.getD o.size) with
      | none => simp
      | some m' => simp only [Res.bind_ok, Option.bind_some]; exact ih m'

end EasyMock
