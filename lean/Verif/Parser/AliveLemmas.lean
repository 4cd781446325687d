import Verif.Parser.Alive
import Verif.Parser.TypesRoot

/-! # Parser: the record objects of converted types -/

namespace EasyMock.Parser

open EasyMock.Types (Ty Fields Params Methods Kw FunDecl)

theorem objs_wraps {name : String} {core t : Ty} (h : Wraps name core t) : objs "" t = objs name core := by
  rcases h with ⟨hn, h⟩ | ⟨_, h⟩
  · rw [h, hn]
  · rw [h, objs]

theorem uses_canon : ∀ (c : CTy) (v : Bool) (name : String), c.uses v name = c.canon.uses v (outerName name c)
  | .builtin _, _, _ => by simp [CTy.canon, CTy.uses]
  | .enum _, _, _ => by simp [CTy.canon, CTy.uses]
  | .ptr _, _, _ => by simp [CTy.canon, CTy.uses]
  | .ref _, _, _ => by simp [CTy.canon, CTy.uses]
  | .arr _ _, _, _ => by simp [CTy.canon, CTy.uses]
  | .fn _ _ _, _, _ => by simp [CTy.canon, CTy.uses]
  | .record id, v, name => by
    rw [outerName_id name _ rfl, CTy.canon]
    all_goals simp
  | .tdef n (.mk k vol t), v, name => by
    rw [outerName_tdef, CTy.canon, CTy.uses, uses_canon t, isEmpty_eq]
    simp

theorem uses_q (k vol v : Bool) (c : CTy) : (Q.mk k vol c).uses v = c.canon.uses v c.outer := by
  rw [Q.uses, uses_canon]
  simp [outerName]

/-- A member of some record mentions `id`. -/
def InField (D : Decls) (id : Nat) (name : String) : Prop :=
  ∃ r, ∃ f ∈ (D.records r).fields, ∃ v, (id, name, v) ∈ f.q.uses true

/-- The object `o` is an object of a record which is mentioned in `U` or by a member, and holds only what members mention. -/
def ObjOf (D : Decls) (U : Nat → String → Prop) (o : Obj) : Prop :=
  (∃ id, (U id o.td ∨ InField D id o.td) ∧ o.tag = (D.records id).tag ∧ o.kw = (D.records id).kw ∧ o.fwd = (!(D.records id).complete) ∧
    (o.empty = true → (D.records id).tag ∈ D.ignored ∨ (D.records id).fields = [])) ∧
  ∀ i ∈ o.inside, ∃ id, InField D id i.2 ∧ i.1 = (D.records id).tag

mutual
theorem den_objs {D : Decls} {s v : Bool} {q : Q} {t : Ty} (h : Den D s v q t) {U : Nat → String → Prop}
    (hu : ∀ id n w, (id, n, w) ∈ q.uses v → U id n) : ∀ o ∈ objs "" t, ObjOf D U o := by
  match h with
  | .plain (c := c) h => exact denT_objs h (fun id n w hm => hu id n w (by rw [uses_q]; exact hm))
  | .const (c := c) h =>
    rw [objs]
    exact denT_objs h (fun id n w hm => hu id n w (by rw [uses_q]; exact hm))

theorem denT_objs {D : Decls} {s v : Bool} {name : String} {c : CTy} {t : Ty} (h : DenT D s v name c t) {U : Nat → String → Prop}
    (hu : ∀ id n w, (id, n, w) ∈ c.uses v name → U id n) : ∀ o ∈ objs "" t, ObjOf D U o := by
  match h with
  | .builtin _ w => rw [objs_wraps w, objs]; simp
  | .enum w => rw [objs_wraps w, objs]; simp
  | .ptr h w => rw [objs_wraps w, objs]; exact den_objs h (by simpa only [CTy.uses] using hu)
  | .ref h w => rw [objs_wraps w, objs]; exact den_objs h (by simpa only [CTy.uses] using hu)
  | .arr h => exact den_objs h (by simpa only [CTy.uses] using hu)
  | .fn h hs =>
    rw [CTy.uses] at hu
    rw [objs]
    intro o ho
    rcases List.mem_append.1 ho with ho | ho
    · exact den_objs h (fun id n w hm => hu id n w (List.mem_append.2 (Or.inl hm))) o ho
    · exact denPs_objs hs (fun id n w hm => hu id n w (List.mem_append.2 (Or.inr hm))) o ho
  | .tag _ _ => rw [objs]; simp
  | .record (id := id) (fs := fs) hf w _ =>
    rw [objs_wraps w, objs]
    have hsub := denFs_objs hf (U := InField D) (fun f hf id n w hm => by
      split at hf
      · cases hf
      · exact ⟨_, f, hf, w, hm⟩)
    have hin : ∀ o ∈ objsF fs, ObjOf D U o := fun o ho => by
      obtain ⟨⟨i, h1, h2⟩, h3⟩ := hsub o ho
      exact ⟨⟨i, Or.inr (h1.elim (fun h => h) (fun h => h)), h2⟩, h3⟩
    intro o ho
    rcases List.mem_cons.1 ho with rfl | ho
    · refine ⟨⟨id, Or.inl (hu id name v (by simp [CTy.uses])), rfl, rfl, rfl, ?_⟩, ?_⟩
      · intro he
        by_cases hi : (D.records id).tag ∈ D.ignored
        · exact Or.inl hi
        · rw [if_neg hi] at hf
          right
          match fs, hf, he with
          | .nil, hf, _ =>
            generalize (D.records id).fields = l at hf
            cases hf
            rfl
      · intro i hi
        obtain ⟨o', ho', rfl⟩ := List.mem_map.1 hi
        obtain ⟨⟨j, h1, h2, -⟩, -⟩ := hsub o' ho'
        exact ⟨j, h1.elim (fun h => h) (fun h => h), h2⟩
    · exact hin o ho

theorem denPs_objs {D : Decls} {s : Bool} {qs : Qs} {ts : Params} (h : DenPs D s qs ts) {U : Nat → String → Prop}
    (hu : ∀ id n w, (id, n, w) ∈ qs.uses → U id n) : ∀ o ∈ objsP ts, ObjOf D U o := by
  match h with
  | .nil => rw [objsP]; simp
  | .cons h hs =>
    rw [Qs.uses] at hu
    rw [objsP]
    intro o ho
    rcases List.mem_append.1 ho with ho | ho
    · exact den_objs h (fun id n w hm => hu id n w (List.mem_append.2 (Or.inl hm))) o ho
    · exact denPs_objs hs (fun id n w hm => hu id n w (List.mem_append.2 (Or.inr hm))) o ho

theorem denFs_objs {D : Decls} {s : Bool} {fs : List FieldD} {ts : Fields} (h : DenFs D s fs ts) {U : Nat → String → Prop}
    (hu : ∀ f ∈ fs, ∀ id n w, (id, n, w) ∈ f.q.uses true → U id n) : ∀ o ∈ objsF ts, ObjOf D U o := by
  match h with
  | .nil => rw [objsF]; simp
  | .field _ h hs _ =>
    rw [objsF]
    intro o ho
    rcases List.mem_append.1 ho with ho | ho
    · exact den_objs h (hu _ (by simp)) o ho
    · exact denFs_objs hs (fun f hf => hu f (by simp [hf])) o ho
  | .bit _ h hs =>
    rw [objsF]
    intro o ho
    rcases List.mem_append.1 ho with ho | ho
    · exact den_objs h (hu _ (by simp)) o ho
    · exact denFs_objs hs (fun f hf => hu f (by simp [hf])) o ho
end

/-! ## Every record which is mentioned has an object -/

theorem noInc_core {name : String} {k : Bool} {u t : Ty} {core : Bool → Ty → Ty} (hc : core = Ty.ptr ∨ core = Ty.ref)
    (h : Wraps name (core k u) t) (hi : NoInc t) : NoInc u := by
  have hi : NoInc (core k u) := by
    rcases h with ⟨_, h⟩ | ⟨_, h⟩
    · rw [h] at hi; exact hi
    · rw [h, NoInc] at hi; exact hi
  rcases hc with rfl | rfl <;> simpa only [NoInc] using hi

mutual
theorem den_mention {D : Decls} {s v : Bool} {q : Q} {t : Ty} (h : Den D s v q t) (hi : NoInc t) {id : Nat} {n : String} {w : Bool}
    (hm : (id, n, w) ∈ q.uses v) : ∃ o ∈ objs "" t, o.key = ((D.records id).tag, n) := by
  match h with
  | .plain (c := c) h => exact denT_mention h hi (by rw [uses_q] at hm; exact hm)
  | .const (c := c) h =>
    rw [objs]
    exact denT_mention h (by simpa only [NoInc] using hi) (by rw [uses_q] at hm; exact hm)

theorem denT_mention {D : Decls} {s v : Bool} {name : String} {c : CTy} {t : Ty} (h : DenT D s v name c t) (hi : NoInc t) {id : Nat}
    {n : String} {w : Bool} (hm : (id, n, w) ∈ c.uses v name) : ∃ o ∈ objs "" t, o.key = ((D.records id).tag, n) := by
  match h with
  | .builtin _ _ => simp [CTy.uses] at hm
  | .enum _ => simp [CTy.uses] at hm
  | .ptr h hw =>
    rw [objs_wraps hw, objs]
    exact den_mention h (noInc_core (core := Ty.ptr) (Or.inl rfl) hw hi) (by simpa only [CTy.uses] using hm)
  | .ref h hw =>
    rw [objs_wraps hw, objs]
    exact den_mention h (noInc_core (core := Ty.ref) (Or.inr rfl) hw hi) (by simpa only [CTy.uses] using hm)
  | .arr h => exact den_mention h hi (by simpa only [CTy.uses] using hm)
  | .fn h hs =>
    rw [NoInc] at hi
    rw [CTy.uses] at hm
    rw [objs]
    rcases List.mem_append.1 hm with hm | hm
    · obtain ⟨o, h1, h2⟩ := den_mention h hi.1 hm
      exact ⟨o, List.mem_append.2 (Or.inl h1), h2⟩
    · obtain ⟨o, h1, h2⟩ := denPs_mention hs hi.2 hm
      exact ⟨o, List.mem_append.2 (Or.inr h1), h2⟩
  | .tag _ _ => exact hi.elim
  | .record hf hw _ =>
    rw [objs_wraps hw, objs]
    simp only [CTy.uses, List.mem_singleton, Prod.mk.injEq] at hm
    obtain ⟨rfl, rfl, -⟩ := hm
    exact ⟨_, List.mem_cons_self, rfl⟩

theorem denPs_mention {D : Decls} {s : Bool} {qs : Qs} {ts : Params} (h : DenPs D s qs ts) (hi : NoIncs ts) {id : Nat} {n : String}
    {w : Bool} (hm : (id, n, w) ∈ qs.uses) : ∃ o ∈ objsP ts, o.key = ((D.records id).tag, n) := by
  match h with
  | .nil => simp [Qs.uses] at hm
  | .cons h hs =>
    rw [NoIncs] at hi
    rw [Qs.uses] at hm
    rw [objsP]
    rcases List.mem_append.1 hm with hm | hm
    · obtain ⟨o, h1, h2⟩ := den_mention h hi.1 hm
      exact ⟨o, List.mem_append.2 (Or.inl h1), h2⟩
    · obtain ⟨o, h1, h2⟩ := denPs_mention hs hi.2 hm
      exact ⟨o, List.mem_append.2 (Or.inr h1), h2⟩
end

/-! ## The list of classes -/

theorem keep_sub : ∀ (os : List Obj) (seen : List (String × String)) (kept : List Obj), ∀ o ∈ keepClasses os seen kept,
    o ∈ kept ∨ (o ∈ os ∧ o.kw = .cls)
  | [], _, kept, o, h => Or.inl (by simpa [keepClasses] using h)
  | x :: os, seen, kept, o, h => by
    rw [keepClasses] at h
    split at h
    · rcases keep_sub os _ _ o h with h | ⟨h, hk⟩
      · exact Or.inl h
      · exact Or.inr ⟨List.mem_cons_of_mem _ h, hk⟩
    · split at h
      · rename_i hx
        rcases keep_sub os _ _ o h with h | ⟨h, hk⟩
        · rcases List.mem_append.1 h with h | h
          · exact Or.inl h
          · rw [List.mem_singleton] at h
            subst h
            refine Or.inr ⟨List.mem_cons_self, ?_⟩
            simp only [Bool.and_eq_true, beq_iff_eq] at hx
            exact hx.1
        · exact Or.inr ⟨List.mem_cons_of_mem _ h, hk⟩
      · rcases keep_sub os _ _ o h with h | ⟨h, hk⟩
        · exact Or.inl h
        · exact Or.inr ⟨List.mem_cons_of_mem _ h, hk⟩

theorem keep_mono : ∀ (os : List Obj) (seen : List (String × String)) (kept : List Obj), ∀ o ∈ kept, o ∈ keepClasses os seen kept
  | [], _, kept, o, h => by simpa [keepClasses] using h
  | x :: os, seen, kept, o, h => by
    rw [keepClasses]
    split
    · exact keep_mono os _ _ o h
    · split
      · exact keep_mono os _ _ o (List.mem_append.2 (Or.inl h))
      · exact keep_mono os _ _ o h

/-- A class is in the list if no other class which is in the list can have its hash. -/
theorem keep_class {i : String × String} (hi : i ≠ ("", "")) : ∀ (os : List Obj) (seen : List (String × String)) (kept : List Obj),
    (∀ o ∈ os, o.key = i → o.kw = .cls) → (∀ o ∈ os, ∀ o', o' ∈ os ∨ o' ∈ kept → o.key = i → o'.key ≠ i → sameHash o o' = false) →
    (∀ o ∈ kept, o.key ∈ seen) → (i ∈ seen → ∃ o ∈ kept, o.key = i) → (∃ o ∈ os, o.key = i) →
    ∃ o ∈ keepClasses os seen kept, o.key = i
  | [], _, _, _, _, _, _, h => by obtain ⟨o, ho, -⟩ := h; cases ho
  | x :: os, seen, kept, hk, hh, hs, hin, hex => by
    by_cases hseen : i ∈ seen
    · obtain ⟨o, ho, he⟩ := hin hseen
      exact ⟨o, keep_mono _ _ _ o ho, he⟩
    · by_cases hx : x.key = i
      · rw [keepClasses, if_neg (by rw [hx]; simp [hseen])]
        have hno : kept.any (sameHash x) = false := by
          rw [List.any_eq_false]
          intro o' ho'
          rw [hh x List.mem_cons_self o' (Or.inr ho') hx (fun h => hseen (h ▸ hs o' ho'))]
          simp
        rw [if_pos (by rw [hno, hk x List.mem_cons_self hx]; rfl)]
        exact ⟨x, keep_mono _ _ _ x (by simp), hx⟩
      · have hex' : ∃ o ∈ os, o.key = i := by
          obtain ⟨o, ho, he⟩ := hex
          rcases List.mem_cons.1 ho with rfl | ho
          · exact absurd he hx
          · exact ⟨o, ho, he⟩
        have hk' : ∀ o ∈ os, o.key = i → o.kw = .cls := fun o ho => hk o (List.mem_cons_of_mem _ ho)
        have hh' : ∀ o ∈ os, ∀ o', o' ∈ os ∨ o' ∈ kept → o.key = i → o'.key ≠ i → sameHash o o' = false :=
          fun o ho o' ho' => hh o (List.mem_cons_of_mem _ ho) o' (ho'.imp (List.mem_cons_of_mem _) id)
        rw [keepClasses]
        split
        · exact keep_class hi os seen kept hk' hh' hs hin hex'
        · split
          · refine keep_class hi os _ _ hk' ?_ ?_ ?_ hex'
            · intro o ho o' ho'
              refine hh o (List.mem_cons_of_mem _ ho) o' ?_
              rcases ho' with h | h
              · exact Or.inl (List.mem_cons_of_mem _ h)
              · rcases List.mem_append.1 h with h | h
                · exact Or.inr h
                · rw [List.mem_singleton] at h; exact Or.inl (h ▸ List.mem_cons_self)
            · intro o ho
              rcases List.mem_append.1 ho with ho | ho
              · exact List.mem_cons_of_mem _ (hs o ho)
              · rw [List.mem_singleton] at ho; rw [ho]; exact List.mem_cons_self
            · intro h
              rcases List.mem_cons.1 h with h | h
              · exact absurd h.symm hx
              · exact absurd h hseen
          · refine keep_class hi os _ _ hk' hh' (fun o ho => List.mem_cons_of_mem _ (hs o ho)) ?_ hex'
            intro h
            rcases List.mem_cons.1 h with h | h
            · exact absurd h.symm hx
            · exact absurd h hseen

end EasyMock.Parser
