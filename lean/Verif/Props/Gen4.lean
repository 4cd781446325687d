import Verif.Props.Gen3

/-!
  # C61: the names a generated file defines at file scope

  For functions without namespace and class, in C mode.
-/

namespace EasyMock.Gen
open EasyMock.Types

/-- The text ends with `q`. -/
def EndsWith (q x : String) : Prop := ∃ r, x = r ++ q

/-- A name which does not look like a name the generator makes. -/
def Ordinary (f : String) : Prop :=
  f ≠ "mocked" ∧ f ≠ "dummyRes" ∧ ¬ StartsWith "mocked_" f ∧ ¬ StartsWith "dummyRes_" f ∧
  ¬ EndsWith "_ExpectAndReturn" f ∧ ¬ EndsWith "_ExpectReturnAndOutput" f ∧
  ¬ EndsWith "_ExpectReturnAndOutput_common" f ∧ ¬ (∃ g, f = "_" ++ g ++ "_data")

theorem no_common_end (x y a b : String) (h : x ++ a = y ++ b)
    (hl : ¬ a.toList.reverse.isPrefixOf b.toList.reverse)
    (hl' : ¬ b.toList.reverse.isPrefixOf a.toList.reverse) : False := by
  have h1 := congrArg (fun z => z.toList.reverse) h
  simp only [String.toList_append, List.reverse_append] at h1
  rcases List.append_eq_append_iff.mp h1 with ⟨c, h2, _⟩ | ⟨c, h2, _⟩
  · exact hl (List.isPrefixOf_iff_prefix.mpr ⟨c, h2.symm⟩)
  · exact hl' (List.isPrefixOf_iff_prefix.mpr ⟨c, h2.symm⟩)

theorem no_common_start (x y a b : String) (h : a ++ x = b ++ y)
    (hl : ¬ a.toList.isPrefixOf b.toList) (hl' : ¬ b.toList.isPrefixOf a.toList) : False := by
  have h1 := congrArg String.toList h
  simp only [String.toList_append] at h1
  rcases List.append_eq_append_iff.mp h1 with ⟨c, h2, _⟩ | ⟨c, h2, _⟩
  · exact hl (List.isPrefixOf_iff_prefix.mpr ⟨c, h2.symm⟩)
  · exact hl' (List.isPrefixOf_iff_prefix.mpr ⟨c, h2.symm⟩)

theorem start_end (f g p s : String) (hp : '_' ∉ p.toList) (h : f ++ ("_" ++ s) = p ++ ("_" ++ g)) :
    f = p ∨ StartsWith (p ++ "_") f := by
  have hu : "_".toList = ['_'] := rfl
  have h1 := congrArg String.toList h
  simp only [String.toList_append, hu, List.cons_append, List.nil_append] at h1
  rcases List.append_eq_append_iff.mp h1 with ⟨c, h2, h3⟩ | ⟨c, h2, h3⟩
  · cases c with
    | nil => left; exact String.toList_inj.mp (by simpa using h2.symm)
    | cons d c =>
      simp only [List.cons_append, List.cons.injEq] at h3
      exact absurd (by rw [h2, ← h3.1]; simp) hp
  · cases c with
    | nil => left; exact String.toList_inj.mp (by simpa using h2)
    | cons d c =>
      simp only [List.cons_append, List.cons.injEq] at h3
      right
      refine ⟨String.ofList c, String.toList_inj.mp ?_⟩
      simp only [String.toList_append, hu, String.toList_ofList, h2, ← h3.1, List.append_assoc, List.cons_append,
        List.nil_append]

/-- All names which may be made of the name of a function. -/
def symbolsOf (f : String) : List String :=
  [f, "_" ++ f ++ "_data", f ++ "_ExpectReturnAndOutput_common", "mocked_" ++ f, "dummyRes_" ++ f,
   f ++ "_ExpectAndReturn", f ++ "_ExpectReturnAndOutput"]

theorem fileSymbols_sublist (s : FunSection) : (fileSymbols s).Sublist (symbolsOf s.name) := by
  unfold fileSymbols symbolsOf
  cases s.hasReturn <;> cases s.outs.isEmpty <;>
    simp only [if_true, if_false, Bool.false_eq_true, List.cons_append, List.nil_append, List.append_nil]
  all_goals repeat first
    | exact List.Sublist.refl _
    | apply List.Sublist.cons_cons
    | apply List.Sublist.cons

/-- The name of kind `i` made of the name of a function. -/
def symbolOf : Nat → String → String
  | 0, f => f
  | 1, f => "_" ++ f ++ "_data"
  | 2, f => f ++ "_ExpectReturnAndOutput_common"
  | 3, f => "mocked_" ++ f
  | 4, f => "dummyRes_" ++ f
  | 5, f => f ++ "_ExpectAndReturn"
  | _, f => f ++ "_ExpectReturnAndOutput"

theorem symbolsOf_eq (f : String) : symbolsOf f = (List.range 7).map (fun i => symbolOf i f) := rfl

theorem symbol_lt (i j : Nat) (hij : i < j) (hj : j < 7) (f g : String) (hf : Ordinary f) (hg : Ordinary g) :
    symbolOf i f ≠ symbolOf j g := by
  obtain ⟨f1, f2, f3, f4, f5, f6, f7, f8⟩ := hf
  obtain ⟨g1, g2, g3, g4, g5, g6, g7, g8⟩ := hg
  intro h
  have hc : ∀ (x y s p : String), '_' ∉ p.toList → x ≠ p → ¬ StartsWith (p ++ "_") x →
      x ++ ("_" ++ s) = p ++ ("_" ++ y) → False := by
    intro x y s p hp h1 h2 h3
    rcases start_end x y p s hp h3 with h | h
    · exact h1 h
    · exact h2 h
  match i, j, hij, hj with
  | 0, 1, _, _ => exact f8 ⟨g, h⟩
  | 0, 2, _, _ => exact f7 ⟨g, h⟩
  | 0, 3, _, _ => exact f3 ⟨g, h⟩
  | 0, 4, _, _ => exact f4 ⟨g, h⟩
  | 0, 5, _, _ => exact f5 ⟨g, h⟩
  | 0, 6, _, _ => exact f6 ⟨g, h⟩
  | 1, 2, _, _ => exact no_common_end _ _ _ _ h (by decide +kernel) (by decide +kernel)
  | 1, 3, _, _ =>
    rw [symbolOf, symbolOf, String.append_assoc] at h
    exact no_common_start _ _ _ _ h (by decide +kernel) (by decide +kernel)
  | 1, 4, _, _ =>
    rw [symbolOf, symbolOf, String.append_assoc] at h
    exact no_common_start _ _ _ _ h (by decide +kernel) (by decide +kernel)
  | 1, 5, _, _ => exact no_common_end _ _ _ _ h (by decide +kernel) (by decide +kernel)
  | 1, 6, _, _ => exact no_common_end _ _ _ _ h (by decide +kernel) (by decide +kernel)
  | 2, 3, _, _ =>
    exact hc f g "ExpectReturnAndOutput_common" "mocked" (by decide +kernel) f1 f3
      (by rw [← String.append_assoc (s₁ := "mocked")]; exact h)
  | 2, 4, _, _ =>
    exact hc f g "ExpectReturnAndOutput_common" "dummyRes" (by decide +kernel) f2 f4
      (by rw [← String.append_assoc (s₁ := "dummyRes")]; exact h)
  | 2, 5, _, _ => exact no_common_end _ _ _ _ h (by decide +kernel) (by decide +kernel)
  | 2, 6, _, _ => exact no_common_end _ _ _ _ h (by decide +kernel) (by decide +kernel)
  | 3, 4, _, _ => exact no_common_start _ _ _ _ h (by decide +kernel) (by decide +kernel)
  | 3, 5, _, _ =>
    exact hc g f "ExpectAndReturn" "mocked" (by decide +kernel) g1 g3
      (by rw [← String.append_assoc (s₁ := "mocked")]; exact h.symm)
  | 3, 6, _, _ =>
    exact hc g f "ExpectReturnAndOutput" "mocked" (by decide +kernel) g1 g3
      (by rw [← String.append_assoc (s₁ := "mocked")]; exact h.symm)
  | 4, 5, _, _ =>
    exact hc g f "ExpectAndReturn" "dummyRes" (by decide +kernel) g2 g4
      (by rw [← String.append_assoc (s₁ := "dummyRes")]; exact h.symm)
  | 4, 6, _, _ =>
    exact hc g f "ExpectReturnAndOutput" "dummyRes" (by decide +kernel) g2 g4
      (by rw [← String.append_assoc (s₁ := "dummyRes")]; exact h.symm)
  | 5, 6, _, _ => exact no_common_end _ _ _ _ h (by decide +kernel) (by decide +kernel)
  | n + 6, _, h1, h2 => omega

theorem symbol_same (i : Nat) (f g : String) (h : symbolOf i f = symbolOf i g) : f = g := by
  match i with
  | 0 => exact h
  | 1 =>
    have h' := append_right_inj _ h
    exact append_left_inj _ h'
  | 2 => exact append_right_inj _ h
  | 3 => exact append_left_inj _ h
  | 4 => exact append_left_inj _ h
  | 5 => exact append_right_inj _ h
  | n + 6 => exact append_right_inj _ h

theorem symbol_inj (i j : Nat) (hi : i < 7) (hj : j < 7) (f g : String) (hf : Ordinary f) (hg : Ordinary g)
    (h : symbolOf i f = symbolOf j g) : i = j ∧ f = g := by
  rcases Nat.lt_trichotomy i j with hlt | rfl | hlt
  · exact absurd h (symbol_lt i j hlt hj f g hf hg)
  · exact ⟨rfl, symbol_same i f g h⟩
  · exact absurd h.symm (symbol_lt j i hlt hi g f hg hf)

/-- C61 (partial: the functions have ordinary and distinct names, see the refutations).  No name is defined twice
    at file scope: neither by the code generated for one function nor by that of two functions. -/
theorem C61_distinct_partial (ss : List FunSection) (hn : (ss.map (fun s => s.name)).Nodup)
    (ho : ∀ s ∈ ss, Ordinary s.name) : (ss.flatMap fileSymbols).Nodup := by
  induction ss with
  | nil => simp
  | cons s ss ih =>
    rw [List.map_cons] at hn
    obtain ⟨h1, h2⟩ := List.nodup_cons.mp hn
    rw [List.flatMap_cons]
    have hs := ho s List.mem_cons_self
    refine List.nodup_append.mpr ⟨?_, ih h2 (fun t h => ho t (List.mem_cons_of_mem _ h)), ?_⟩
    · refine (fileSymbols_sublist s).nodup ?_
      rw [symbolsOf_eq, List.Nodup, List.pairwise_map]
      refine List.Pairwise.imp_of_mem ?_ (List.pairwise_lt_range (n := 7))
      intro i j _ hj hij
      exact symbol_lt i j hij (List.mem_range.mp hj) _ _ hs hs
    · intro a ha b hb hab
      obtain ⟨t, ht, hb'⟩ := List.mem_flatMap.mp hb
      have ha' := (fileSymbols_sublist s).subset ha
      have hb'' := (fileSymbols_sublist t).subset hb'
      rw [symbolsOf_eq] at ha' hb''
      obtain ⟨i, hi, ei⟩ := List.mem_map.mp ha'
      obtain ⟨j, hj, ej⟩ := List.mem_map.mp hb''
      have := symbol_inj i j (List.mem_range.mp hi) (List.mem_range.mp hj) s.name t.name hs
        (ho t (List.mem_cons_of_mem _ ht)) (by rw [ei, ej, hab])
      exact h1 (List.mem_map.mpr ⟨t, ht, this.2.symm⟩)

/-- C61.  Every generated function offers its mock, the type of its data, the common function, the mock object and
    the `ExpectAndReturn` function; the default result if and only if it returns a value, and the
    `ExpectReturnAndOutput` function if and only if a parameter is an output. -/
theorem C61_offered (s : FunSection) :
    (∀ x ∈ [s.name, "_" ++ s.name ++ "_data", s.name ++ "_ExpectReturnAndOutput_common", "mocked_" ++ s.name,
      s.name ++ "_ExpectAndReturn"], x ∈ fileSymbols s) ∧
    (Ordinary s.name → ("dummyRes_" ++ s.name ∈ fileSymbols s ↔ s.hasReturn = true)) ∧
    (Ordinary s.name → (s.name ++ "_ExpectReturnAndOutput" ∈ fileSymbols s ↔
      ∃ e ∈ s.params.entries, e.2.2.1 ≠ Out.none)) := by
  refine ⟨?_, ?_, ?_⟩
  · intro x hx
    unfold fileSymbols
    simp only [List.mem_cons, List.not_mem_nil, or_false, List.mem_append] at hx ⊢
    rcases hx with h | h | h | h | h <;> simp only [h, true_or, or_true]
  · intro ho
    have ne : ∀ i, i < 7 → i ≠ 4 → symbolOf i s.name ≠ "dummyRes_" ++ s.name := by
      intro i hi h4 h
      exact h4 (symbol_inj i 4 hi (by omega) _ _ ho ho h).1
    unfold fileSymbols
    cases hr : s.hasReturn
    · simp only [Bool.false_eq_true, if_false, List.append_nil, iff_false]
      intro h
      simp only [List.mem_append, List.mem_cons, List.not_mem_nil, or_false] at h
      rcases h with ((h | h | h | h) | h) | h
      · exact ne 0 (by omega) (by omega) h.symm
      · exact ne 1 (by omega) (by omega) h.symm
      · exact ne 2 (by omega) (by omega) h.symm
      · exact ne 3 (by omega) (by omega) h.symm
      · exact ne 5 (by omega) (by omega) h.symm
      · cases he : s.outs.isEmpty
        · simp only [he, Bool.false_eq_true, if_false, List.mem_singleton] at h
          exact ne 6 (by omega) (by omega) h.symm
        · simp [he] at h
    · simp only [if_true, List.mem_append, List.mem_singleton, true_or, or_true]
  · intro ho
    have ne : ∀ i, i < 6 → symbolOf i s.name ≠ s.name ++ "_ExpectReturnAndOutput" := by
      intro i hi h
      have := (symbol_inj i 6 (by omega) (by omega) _ _ ho ho h).1
      omega
    have hout : s.outs.isEmpty = false ↔ ∃ e ∈ s.params.entries, e.2.2.1 ≠ Out.none := by
      unfold FunSection.outs
      constructor
      · intro h
        cases hl : s.params.entries.filter (fun e => e.2.2.1 != .none) with
        | nil => rw [hl] at h; exact absurd h (by simp)
        | cons e l =>
          have : e ∈ s.params.entries.filter (fun e => e.2.2.1 != .none) := by rw [hl]; exact List.mem_cons_self
          obtain ⟨h1, h2⟩ := List.mem_filter.mp this
          exact ⟨e, h1, by simpa using h2⟩
      · rintro ⟨e, h1, h2⟩
        cases hl : s.params.entries.filter (fun e => e.2.2.1 != .none) with
        | nil =>
          have : e ∈ s.params.entries.filter (fun e => e.2.2.1 != .none) :=
            List.mem_filter.mpr ⟨h1, by simpa using h2⟩
          rw [hl] at this
          exact absurd this (by simp)
        | cons e l => rfl
    rw [← hout]
    unfold fileSymbols
    cases he : s.outs.isEmpty
    · simp only [Bool.false_eq_true, if_false, List.mem_append, List.mem_singleton, or_true]
    · simp only [if_true, List.append_nil, Bool.true_eq_false, iff_false]
      intro h
      simp only [List.mem_append, List.mem_cons, List.not_mem_nil, or_false] at h
      rcases h with ((h | h | h | h) | h) | h
      · exact ne 0 (by omega) h.symm
      · exact ne 1 (by omega) h.symm
      · exact ne 2 (by omega) h.symm
      · exact ne 3 (by omega) h.symm
      · cases hr : s.hasReturn
        · simp [hr] at h
        · simp only [hr, if_true, List.mem_singleton] at h
          exact ne 4 (by omega) h.symm
      · exact ne 5 (by omega) h.symm

/-- A section of the function `n`, with an output. -/
def exCalled (n : String) : FunSection := { exOuts "b" with name := n }

theorem not_startsWith {p x : String} (h : ¬ p.toList.isPrefixOf x.toList) : ¬ StartsWith p x := by
  rintro ⟨r, rfl⟩
  exact h (by rw [String.toList_append]; exact List.isPrefixOf_iff_prefix.mpr ⟨_, rfl⟩)

theorem not_endsWith {q x : String} (h : ¬ q.toList.isSuffixOf x.toList) : ¬ EndsWith q x := by
  rintro ⟨r, rfl⟩
  exact h (by rw [String.toList_append]; exact List.isSuffixOf_iff_suffix.mpr ⟨_, rfl⟩)

example : Ordinary "f" ∧ Ordinary "mock" ∧
    fileSymbols (exCalled "f") = ["f", "_f_data", "f_ExpectReturnAndOutput_common", "mocked_f", "dummyRes_f",
      "f_ExpectAndReturn", "f_ExpectReturnAndOutput"] := by
  refine ⟨⟨by decide, by decide, not_startsWith (by decide +kernel), not_startsWith (by decide +kernel),
    not_endsWith (by decide +kernel), not_endsWith (by decide +kernel), not_endsWith (by decide +kernel), ?_⟩,
    ⟨by decide, by decide, not_startsWith (by decide +kernel), not_startsWith (by decide +kernel),
    not_endsWith (by decide +kernel), not_endsWith (by decide +kernel), not_endsWith (by decide +kernel), ?_⟩, by
    decide +kernel⟩
  · rintro ⟨g, h⟩
    exact not_endsWith (q := "_data") (x := "f") (by decide +kernel) ⟨_, h⟩
  · rintro ⟨g, h⟩
    exact not_endsWith (q := "_data") (x := "mock") (by decide +kernel) ⟨_, h⟩

/-- C61 is false for functions whose names look like generated ones: `f` and `mocked_f`, `f` and
    `f_ExpectAndReturn`, `mocked` and `ExpectAndReturn`. -/
theorem C61_refuted_names :
    ("f" ≠ "mocked_f" ∧ ¬ ([exCalled "f", exCalled "mocked_f"].flatMap fileSymbols).Nodup) ∧
    (¬ ([exCalled "f", exCalled "f_ExpectAndReturn"].flatMap fileSymbols).Nodup) ∧
    (¬ ([exCalled "mocked", exCalled "ExpectAndReturn"].flatMap fileSymbols).Nodup) := by decide +kernel

/-- C61 is false for overloaded functions: the names do not depend on the parameters. -/
theorem C61_refuted_overloads :
    let f : FunSection := { exOuts "b" with params := .cons "int" "a" .none .none .nil }
    let g : FunSection := { exOuts "b" with params := .cons "float" "a" .none .none .nil }
    f.params.entries ≠ g.params.entries ∧ ¬ ([f, g].flatMap fileSymbols).Nodup := by
  refine ⟨?_, by decide +kernel⟩
  intro h
  simp [PList.entries] at h

end EasyMock.Gen
