import Verif.MockCode.Model

/-! # MockCode: the interpreter of the generated code -/

namespace EasyMock.MockCode

open EasyMock EasyMock.Gen

/-! ## Lists -/

theorem lookup_of_mem {α β : Type} [BEq α] [LawfulBEq α] {l : List (α × β)} (hn : (l.map Prod.fst).Nodup) {x : α} {v : β}
    (h : (x, v) ∈ l) : l.lookup x = some v := by
  induction l with
  | nil => simp at h
  | cons a l ih =>
    obtain ⟨y, w⟩ := a
    simp only [List.map_cons, List.nodup_cons] at hn
    simp only [List.lookup_cons]
    rcases List.mem_cons.mp h with h | h
    · cases h; simp
    · have : x ≠ y := by
        intro e
        exact hn.1 (e ▸ List.mem_map.mpr ⟨_, h, rfl⟩)
      have hb : (x == y) = false := by simpa using this
      rw [hb]
      exact ih hn.2 h

theorem zip_flatten {α β γ δ : Type} (f : α → List γ) (g : β → List δ) :
    ∀ (xs : List α) (ys : List β), (∀ p ∈ xs.zip ys, (f p.1).length = (g p.2).length) → xs.length = ys.length →
      (xs.map f).flatten.zip (ys.map g).flatten = ((xs.zip ys).map (fun p => (f p.1).zip (g p.2))).flatten
  | [], [], _, _ => rfl
  | [], _ :: _, _, h => by simp at h
  | _ :: _, [], _, h => by simp at h
  | x :: xs, y :: ys, h, hl => by
    simp only [List.map_cons, List.flatten_cons, List.zip_cons_cons]
    rw [List.zip_append (h (x, y) (by simp)), zip_flatten f g xs ys]
    · intro p hp; exact h p (by simp [hp])
    · simpa using hl

theorem length_flatten_eq {α β γ δ : Type} (f : α → List γ) (g : β → List δ) :
    ∀ (xs : List α) (ys : List β), (∀ p ∈ xs.zip ys, (f p.1).length = (g p.2).length) → xs.length = ys.length →
      (xs.map f).flatten.length = (ys.map g).flatten.length
  | [], [], _, _ => rfl
  | [], _ :: _, _, h => by simp at h
  | _ :: _, [], _, h => by simp at h
  | x :: xs, y :: ys, h, hl => by
    simp only [List.map_cons, List.flatten_cons, List.length_append]
    rw [h (x, y) (by simp), length_flatten_eq f g xs ys]
    · intro p hp; exact h p (by simp [hp])
    · simpa using hl

theorem mem_zip_of_getElem? {α β : Type} {xs : List α} {ys : List β} {i : Nat} {x : α} {y : β} (hx : xs[i]? = some x)
    (hy : ys[i]? = some y) : (x, y) ∈ xs.zip ys := by
  apply List.mem_of_getElem? (i := i)
  rw [List.getElem?_zip_eq_some]
  exact ⟨hx, hy⟩

theorem getElem?_of_mem_zip {α β : Type} {xs : List α} {ys : List β} {x : α} {y : β} (h : (x, y) ∈ xs.zip ys) :
    ∃ i : Nat, xs[i]? = some x ∧ ys[i]? = some y := by
  obtain ⟨i, hi⟩ := List.mem_iff_getElem?.mp h
  rw [List.getElem?_zip_eq_some] at hi
  exact ⟨i, hi.1, hi.2⟩

/-- An element of a filtered list has a place in the list before which as many elements are kept. -/
theorem filter_place {α : Type} (p : α → Bool) :
    ∀ (l : List α) (j : Nat) (x : α), (l.filter p)[j]? = some x →
      ∃ i, l[i]? = some x ∧ ((l.take i).filter p).length = j
  | [], j, x, h => by simp at h
  | a :: l, j, x, h => by
    cases hp : p a with
    | true =>
      rw [List.filter_cons_of_pos hp] at h
      cases j with
      | zero =>
        simp at h
        exact ⟨0, by simp [h], by simp⟩
      | succ j =>
        simp only [List.getElem?_cons_succ] at h
        obtain ⟨i, h1, h2⟩ := filter_place p l j x h
        refine ⟨i + 1, by simpa using h1, ?_⟩
        simp [List.take_succ_cons, List.filter_cons_of_pos hp, h2]
    | false =>
      have hp' : ¬ p a = true := by simp [hp]
      rw [List.filter_cons_of_neg hp'] at h
      obtain ⟨i, h1, h2⟩ := filter_place p l j x h
      refine ⟨i + 1, by simpa using h1, ?_⟩
      simp [List.take_succ_cons, List.filter_cons_of_neg hp', h2]

theorem idxOf_of_getElem? {α : Type} [BEq α] [LawfulBEq α] {l : List α} (hn : l.Nodup) {i : Nat} {x : α}
    (h : l[i]? = some x) : l.idxOf x = i := by
  induction l generalizing i with
  | nil => simp at h
  | cons a l ih =>
    simp only [List.nodup_cons] at hn
    cases i with
    | zero => simp at h; simp [h]
    | succ i =>
      simp only [List.getElem?_cons_succ] at h
      have : a ≠ x := by
        intro e; subst e; exact hn.1 (List.mem_of_getElem? h)
      have hb : (a == x) = false := by simpa using this
      simp [List.idxOf_cons, hb, ih hn.2 h]

theorem zip_fst_nodup {α β : Type} {xs : List α} {ys : List β} (h : xs.Nodup) : ((xs.zip ys).map Prod.fst).Nodup := by
  induction xs generalizing ys with
  | nil => simp
  | cons x xs ih =>
    simp only [List.nodup_cons] at h
    cases ys with
    | nil => simp
    | cons y ys =>
      simp only [List.zip_cons_cons, List.map_cons, List.nodup_cons]
      refine ⟨?_, ih h.2⟩
      intro hm
      obtain ⟨p, hp, e⟩ := List.mem_map.mp hm
      exact h.1 (e ▸ (List.of_mem_zip hp).1)

/-! ## Members -/

/-- The data of an expectation fit the function. -/
structure Fits (s : FunSection) (e : Exp) : Prop where
  params : e.params.length = s.params.entries.length
  outs : e.outs.length = s.outs.length

variable {s : FunSection} {e : Exp}

def parNames (s : FunSection) (x : String × String × Gen.Out × XDecl) : List String :=
  [x.2.1, dataPrefix s ++ "_match_" ++ x.2.1]

def outNames (x : String × String × Gen.Out × XDecl) : List String :=
  ("out_" ++ x.2.1) :: (if x.2.2.1 == .sized then ["out_" ++ x.2.1 ++ "_size"] else [])

def outVals (x : (String × String × Gen.Out × XDecl) × OutExp) : List MVal :=
  .ptr x.2.src :: (if x.1.2.2.1 == .sized then [.size x.2.size] else [])

def parVals (p : ParamExp) : List MVal := [.val p.value, .matcher p.matcher]

/-- The object of the expectation. -/
def instVals (s : FunSection) (e : Exp) : List MVal := if s.cls.isSome then [.ptr e.inst] else []

theorem inst_length (s : FunSection) (e : Exp) : (instanceNames s).length = (instVals s e).length := by
  unfold instanceNames instVals
  split <;> rfl

theorem dataMembers_eq (s : FunSection) : dataMembers s = instanceNames s ++ (s.params.entries.map (parNames s)).flatten ++
    (if s.hasReturn then [dataPrefix s ++ "_returnValue"] else []) ++ (s.outs.map outNames).flatten := rfl

theorem layout_eq (s : FunSection) (e : Exp) : layout s e = instVals s e ++ (e.params.map parVals).flatten ++
    (if s.hasReturn then [.val e.ret] else []) ++ ((s.outs.zip e.outs).map outVals).flatten := rfl

theorem zip_zip_same {α β : Type} : ∀ (xs : List α) (ys : List β) (p : α × α × β), p ∈ xs.zip (xs.zip ys) → p.1 = p.2.1
  | [], _, p, h => by simp at h
  | _ :: _, [], p, h => by simp at h
  | x :: xs, y :: ys, p, h => by
    simp only [List.zip_cons_cons, List.mem_cons] at h
    rcases h with h | h
    · subst h; rfl
    · exact zip_zip_same xs ys p h

theorem outs_lengths (s : FunSection) (e : Exp) : ∀ p ∈ s.outs.zip (s.outs.zip e.outs), (outNames p.1).length = (outVals p.2).length := by
  intro p hp
  have := zip_zip_same _ _ p hp
  simp only [outNames, outVals, ← this]
  split <;> rfl

theorem zip_eq (hf : Fits s e) : (dataMembers s).zip (layout s e) =
    (instanceNames s).zip (instVals s e) ++
    ((s.params.entries.zip e.params).map (fun p => (parNames s p.1).zip (parVals p.2))).flatten ++
    (if s.hasReturn then [(dataPrefix s ++ "_returnValue", MVal.val e.ret)] else []) ++
    ((s.outs.zip (s.outs.zip e.outs)).map (fun p => (outNames p.1).zip (outVals p.2))).flatten := by
  rw [dataMembers_eq, layout_eq]
  have hl1 : ∀ p ∈ s.params.entries.zip e.params, (parNames s p.1).length = (parVals p.2).length := by
    intro p _; rfl
  have hl2 := length_flatten_eq (parNames s) parVals s.params.entries e.params hl1 hf.params.symm
  rw [List.zip_append, List.zip_append, List.zip_append (inst_length s e), zip_flatten (parNames s) parVals _ _ hl1 hf.params.symm,
    zip_flatten outNames outVals s.outs (s.outs.zip e.outs) (outs_lengths s e) (by simp [hf.outs])]
  · cases s.hasReturn <;> rfl
  · rw [List.length_append, List.length_append, hl2, inst_length s e]
  · rw [List.length_append, List.length_append, List.length_append, List.length_append, hl2, inst_length s e]
    cases s.hasReturn <;> rfl

theorem member_of_mem (hd : (dataMembers s).Nodup) {m : String} {v : MVal}
    (h : (m, v) ∈ (dataMembers s).zip (layout s e)) : member s (layout s e) m = some v :=
  lookup_of_mem (zip_fst_nodup hd) h

theorem member_param (hf : Fits s e) (hd : (dataMembers s).Nodup) {x : String × String × Gen.Out × XDecl} {p : ParamExp}
    (h : (x, p) ∈ s.params.entries.zip e.params) : member s (layout s e) x.2.1 = some (.val p.value) ∧
      member s (layout s e) (matchMember s x.2.1) = some (.matcher p.matcher) := by
  constructor
  all_goals
    apply member_of_mem hd
    rw [zip_eq hf]
    refine List.mem_append_left _ (List.mem_append_left _ (List.mem_append_right _ (List.mem_flatten.mpr
      ⟨_, List.mem_map.mpr ⟨_, h, rfl⟩, ?_⟩)))
    simp [parNames, parVals, matchMember]

theorem member_inst (hf : Fits s e) (hd : (dataMembers s).Nodup) (hc : s.cls.isSome = true) :
    member s (layout s e) "instance" = some (.ptr e.inst) := by
  apply member_of_mem hd
  rw [zip_eq hf]
  exact List.mem_append_left _ (List.mem_append_left _ (List.mem_append_left _ (by simp [instanceNames, instVals, hc])))

theorem member_ret (hf : Fits s e) (hd : (dataMembers s).Nodup) (hr : s.hasReturn = true) :
    member s (layout s e) (retMember s) = some (.val e.ret) := by
  apply member_of_mem hd
  rw [zip_eq hf]
  exact List.mem_append_left _ (List.mem_append_right _ (by simp [hr, retMember]))

theorem member_out (hf : Fits s e) (hd : (dataMembers s).Nodup) {x : String × String × Gen.Out × XDecl} {o : OutExp}
    (h : (x, o) ∈ s.outs.zip e.outs) : member s (layout s e) ("out_" ++ x.2.1) = some (.ptr o.src) ∧
      (x.2.2.1 = .sized → member s (layout s e) ("out_" ++ x.2.1 ++ "_size") = some (.size o.size)) := by
  obtain ⟨i, hi1, hi2⟩ := getElem?_of_mem_zip h
  have hm : (x, x, o) ∈ s.outs.zip (s.outs.zip e.outs) := by
    apply mem_zip_of_getElem? hi1
    rw [List.getElem?_zip_eq_some]
    exact ⟨hi1, hi2⟩
  constructor
  · apply member_of_mem hd
    rw [zip_eq hf]
    refine List.mem_append_right _ (List.mem_flatten.mpr ⟨_, List.mem_map.mpr ⟨_, hm, rfl⟩, ?_⟩)
    simp [outNames, outVals]
  · intro hz
    apply member_of_mem hd
    rw [zip_eq hf]
    refine List.mem_append_right _ (List.mem_flatten.mpr ⟨_, List.mem_map.mpr ⟨_, hm, rfl⟩, ?_⟩)
    simp [outNames, outVals, hz]

end EasyMock.MockCode
