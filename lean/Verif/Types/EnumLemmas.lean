import Verif.Types.Spec

/-! # Types: lemmas about enumerations and basic types -/

namespace EasyMock.Types

/-- Keys in strictly increasing order: the invariant of `std::map`. -/
def Ordered (m : List (Nat × String)) : Prop := (m.map Prod.fst).Pairwise (· < ·)

theorem mem_mapEmplace : ∀ (m : List (Nat × String)) (k : Nat) (s : String), Ordered m →
    ∀ q, q ∈ mapEmplace m k s ↔ q ∈ m ∨ (q = (k, s) ∧ ∀ p ∈ m, p.1 ≠ k)
  | [], k, s, _, q => by simp [mapEmplace]
  | (k', s') :: rest, k, s, ho, q => by
    have ho' : Ordered rest := by simp [Ordered] at ho ⊢; exact ho.2
    have hlt : ∀ p ∈ rest, k' < p.1 := by
      simp [Ordered] at ho
      intro p hp; exact ho.1 p.1 p.2 hp
    simp only [mapEmplace]
    split
    · next h =>
      constructor
      · intro hq
        rcases List.mem_cons.mp hq with rfl | hq
        · right
          refine ⟨rfl, ?_⟩
          intro p hp
          rcases List.mem_cons.mp hp with rfl | hp
          · simp; omega
          · have := hlt p hp; omega
        · exact Or.inl hq
      · rintro (hq | ⟨rfl, _⟩)
        · exact List.mem_cons_of_mem _ hq
        · exact List.mem_cons_self
    · split
      · next h1 h2 =>
        subst h2
        constructor
        · exact Or.inl
        · rintro (hq | ⟨_, hne⟩)
          · exact hq
          · exact absurd rfl (hne (k, s') List.mem_cons_self)
      · next h1 h2 =>
        have ih := mem_mapEmplace rest k s ho' q
        constructor
        · intro hq
          rcases List.mem_cons.mp hq with rfl | hq
          · exact Or.inl List.mem_cons_self
          · rcases ih.mp hq with hq | ⟨rfl, hne⟩
            · exact Or.inl (List.mem_cons_of_mem _ hq)
            · refine Or.inr ⟨rfl, ?_⟩
              intro p hp
              rcases List.mem_cons.mp hp with rfl | hp
              · simp; omega
              · exact hne p hp
        · rintro (hq | ⟨rfl, hne⟩)
          · rcases List.mem_cons.mp hq with rfl | hq
            · exact List.mem_cons_self
            · exact List.mem_cons_of_mem _ (ih.mpr (Or.inl hq))
          · exact List.mem_cons_of_mem _ (ih.mpr (Or.inr ⟨rfl,
              fun p hp => hne p (List.mem_cons_of_mem _ hp)⟩))

theorem ordered_mapEmplace : ∀ (m : List (Nat × String)) (k : Nat) (s : String), Ordered m →
    Ordered (mapEmplace m k s)
  | [], k, s, _ => by simp [mapEmplace, Ordered]
  | (k', s') :: rest, k, s, ho => by
    have ho' : Ordered rest := by simp [Ordered] at ho ⊢; exact ho.2
    have hlt : ∀ p ∈ rest, k' < p.1 := by
      simp [Ordered] at ho
      intro p hp; exact ho.1 p.1 p.2 hp
    simp only [mapEmplace]
    split
    · next h =>
      refine List.pairwise_cons.mpr ⟨?_, ho⟩
      intro a ha
      simp only [List.mem_map] at ha
      obtain ⟨p, hp, rfl⟩ := ha
      rcases List.mem_cons.mp hp with rfl | hp
      · exact h
      · have := hlt p hp; omega
    · split
      · exact ho
      · next h1 h2 =>
        refine List.pairwise_cons.mpr ⟨?_, ordered_mapEmplace rest k s ho'⟩
        intro a ha
        simp only [List.mem_map] at ha
        obtain ⟨p, hp, rfl⟩ := ha
        rcases (mem_mapEmplace rest k s ho' p).mp hp with hp | ⟨rfl, _⟩
        · exact hlt p hp
        · simp; omega

theorem ordered_fold : ∀ (es : List (String × Int)) (m : List (Nat × String)), Ordered m →
    Ordered (es.foldl (fun m e => addEnumValue m e.2 e.1) m)
  | [], _, h => h
  | _ :: es, m, h => ordered_fold es _ (ordered_mapEmplace m _ _ h)

theorem ordered_parseEnum (es : List (String × Int)) : Ordered (parseEnum es) :=
  ordered_fold es [] (by simp [Ordered])

/-- The first enumerator of a list whose 32-bit value is `k`. -/
theorem mem_fold : ∀ (es : List (String × Int)) (m : List (Nat × String)), Ordered m →
    ∀ q, q ∈ es.foldl (fun m e => addEnumValue m e.2 e.1) m ↔
      q ∈ m ∨ ((∀ p ∈ m, p.1 ≠ q.1) ∧
        ∃ pre e post, es = pre ++ e :: post ∧ q = (enumKey e.2, e.1) ∧
          ∀ e' ∈ pre, enumKey e'.2 ≠ q.1)
  | [], m, _, q => by simp
  | e :: es, m, ho, q => by
    have ih := mem_fold es (addEnumValue m e.2 e.1) (ordered_mapEmplace m _ _ ho) q
    rw [List.foldl_cons, ih]
    have hm := mem_mapEmplace m (enumKey e.2) e.1 ho
    constructor
    · rintro (hq | ⟨hne, pre, e', post, rfl, rfl, hpre⟩)
      · rcases (hm q).mp hq with hq | ⟨rfl, hne⟩
        · exact Or.inl hq
        · exact Or.inr ⟨hne, [], e, es, rfl, rfl, by simp⟩
      · refine Or.inr ⟨fun p hp => hne p ((hm p).mpr (Or.inl hp)), e :: pre, e', post, rfl, rfl, ?_⟩
        intro x hx
        rcases List.mem_cons.mp hx with rfl | hx
        · intro heq
          rcases Classical.em (∃ p ∈ m, p.1 = enumKey x.2) with ⟨p, hp, hpk⟩ | hno
          · exact hne p ((hm p).mpr (Or.inl hp)) (hpk.trans heq)
          · exact hne (enumKey x.2, x.1)
              ((hm _).mpr (Or.inr ⟨rfl, fun p hp hk => hno ⟨p, hp, hk⟩⟩)) heq
        · exact hpre x hx
    · rintro (hq | ⟨hne, pre, e', post, heq, rfl, hpre⟩)
      · exact Or.inl ((hm q).mpr (Or.inl hq))
      · cases pre with
        | nil =>
          simp at heq
          obtain ⟨rfl, rfl⟩ := heq
          exact Or.inl ((hm _).mpr (Or.inr ⟨rfl, hne⟩))
        | cons x pre =>
          simp at heq
          obtain ⟨rfl, rfl⟩ := heq
          refine Or.inr ⟨?_, pre, e', post, rfl, rfl,
            fun y hy => hpre y (List.mem_cons_of_mem _ hy)⟩
          intro p hp
          rcases (hm p).mp hp with hp | ⟨rfl, _⟩
          · exact hne p hp
          · exact hpre e List.mem_cons_self

theorem mem_parseEnum (es : List (String × Int)) (q : Nat × String) :
    q ∈ parseEnum es ↔ ∃ pre e post, es = pre ++ e :: post ∧ q = (enumKey e.2, e.1) ∧
      ∀ e' ∈ pre, enumKey e'.2 ≠ q.1 := by
  have := mem_fold es [] (by simp [Ordered]) q
  simpa [parseEnum] using this

theorem enumKey_of_unsigned32 {v : Int} (h0 : 0 ≤ v) (h1 : v < 4294967296) :
    (enumKey v : Int) = v := by
  simp only [enumKey]
  omega

theorem parseEnum_ne_nil {es : List (String × Int)} (h : es ≠ []) : parseEnum es ≠ [] := by
  cases es with
  | nil => exact absurd rfl h
  | cons e es =>
    intro hc
    have : (enumKey e.2, e.1) ∈ parseEnum (e :: es) :=
      (mem_parseEnum _ _).mpr ⟨[], e, es, rfl, rfl, by simp⟩
    rw [hc] at this
    exact absurd this List.not_mem_nil

/-! ## Basic types -/

theorem reachable_inv {cs : Bool} {c₀ : CT} {o : CTypeObj} (h : ReachableCType cs c₀ o) :
    o.name = o.c.str ∧ o.naked = (c₀ == .char) ∧
    (o.naked = true → o.c = .char ∨ o.c = (if cs then .uchar else .schar)) ∧
    (o.naked = false → o.c ≠ .char) := by
  induction h with
  | new => cases c₀ <;> simp [CTypeObj.new]
  | set o val _ ih =>
    obtain ⟨c, naked, name⟩ := o
    simp only at ih
    obtain ⟨h1, h2, h3, h4⟩ := ih
    subst h1
    cases cs <;> cases val <;> cases naked <;> cases c <;>
      simp_all [setUnsigned, toUnsigned, toSigned]

end EasyMock.Types
