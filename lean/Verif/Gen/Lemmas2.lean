import Verif.Gen.Model
import Std.Data.String.ToNat

/-! # Parameter lists and names: auxiliary lemmas -/

namespace EasyMock.Gen

open EasyMock.Types

/-! ## Comma-separated lists -/

theorem expandSep_eq {α : Type} (body : α → String) (sep : String) : ∀ l : List α,
    expandSep body sep l = sep.intercalate (l.map body)
  | [] => rfl
  | [x] => by simp [expandSep]
  | x :: y :: rest => by
    rw [expandSep, expandSep_eq body sep (y :: rest)]
    simp [String.intercalate_cons_cons]

theorem intercalate_append (sep : String) : ∀ (a b : List String), a ≠ [] → b ≠ [] →
    sep.intercalate (a ++ b) = sep.intercalate a ++ sep ++ sep.intercalate b
  | [], _, h, _ => absurd rfl h
  | [x], [], _, h => absurd rfl h
  | [x], y :: b, _, _ => by simp [String.intercalate_cons_cons]
  | x :: y :: a, b, _, hb => by
    have ih := intercalate_append sep (y :: a) b (by simp) hb
    rw [List.cons_append, List.cons_append, String.intercalate_cons_cons, ← List.cons_append, ih,
      String.intercalate_cons_cons]
    simp only [String.append_assoc]

/-- The comma between two lists is written when both have elements. -/
theorem intercalate_append' (sep : String) (a b : List String) :
    sep.intercalate (a ++ b) =
    sep.intercalate a ++ (if a.isEmpty || b.isEmpty then "" else sep) ++ sep.intercalate b := by
  cases a with
  | nil => simp
  | cons x a =>
    cases b with
    | nil => simp
    | cons y b =>
      rw [intercalate_append sep (x :: a) (y :: b) (by simp) (by simp)]
      simp

/-- How a parameter is written. -/
def paramText (e : String × String × Out × XDecl) : String := e.1 ++ " " ++ e.2.1 ++ e.2.2.2.text

theorem PList.text_eq : ∀ ps : PList, ps.text = ", ".intercalate (ps.entries.map paramText)
  | .nil => by simp [PList.text, PList.entries]
  | .cons t n o x .nil => by simp [PList.text, PList.entries, paramText]
  | .cons t n o x (.cons t' n' o' x' rest) => by
    have ih := PList.text_eq (.cons t' n' o' x' rest)
    rw [PList.text, ih]
    simp only [PList.entries, List.map_cons, String.intercalate_cons_cons, paramText]

/-! ## Parameter sections -/

/-- The names of the parameters as written in the source. -/
def sourceNames : Params → List String
  | .nil => []
  | .cons _ _ n rest => n :: sourceNames rest

theorem entries_length : ∀ (k : Nat) (ps : Params),
    (paramSection k ps).1.entries.length = (sourceNames ps).length
  | k, .nil => by simp [paramSection, PList.entries, sourceNames]
  | k, .cons s t n rest => by
    simp [paramSection, PList.entries, sourceNames, entries_length _ rest]

theorem paramSection_cons (k : Nat) (s : String) (t : Ty) (n : String) (rest : Params) :
    paramSection k (.cons s t n rest) =
    (.cons (declareString s t)
      (if n.isEmpty then "__easymock_param" ++ toString (extraOf false k t).2 else n) (output t)
      (extraOf false k t).1
      (paramSection (if n.isEmpty then (extraOf false k t).2 + 1 else (extraOf false k t).2) rest).1,
     (paramSection (if n.isEmpty then (extraOf false k t).2 + 1 else (extraOf false k t).2) rest).2) := by
  rw [paramSection]

mutual
theorem paramSection_mono : ∀ (ps : Params) (k : Nat), k ≤ (paramSection k ps).2
  | .nil, k => by simp [paramSection]
  | .cons s t n rest, k => by
    rw [paramSection_cons]
    have h1 := extraOf_mono t false k
    have h2 := paramSection_mono rest (if n.isEmpty then (extraOf false k t).2 + 1 else (extraOf false k t).2)
    split at h2 <;> rename_i h <;> simp only [h, if_true, Bool.false_eq_true, if_false] <;> omega

theorem extraOf_mono : ∀ (t : Ty) (b : Bool) (k : Nat), k ≤ (extraOf b k t).2
  | .ptr _ t, b, k => by
    rw [extraOf]; exact extraOf_mono t true k
  | .const _ t, b, k => by
    rw [extraOf]; exact extraOf_mono t b k
  | .ref _ t, b, k => by
    cases b
    · simp [extraOf]
    · rw [extraOf]; exact extraOf_mono t true k
  | .tdef _ _ t, b, k => by
    cases b
    · simp [extraOf]
    · rw [extraOf]; exact extraOf_mono t true k
  | .fn _ _ _ r ps, b, k => by
    cases b
    · simp [extraOf]
    · rw [extraOf]
      have h1 := paramSection_mono ps k
      have h2 := extraOf_mono r false (paramSection k ps).2
      exact Nat.le_trans h1 h2
  | .ctype .., b, k => by cases b <;> simp [extraOf]
  | .enum .., b, k => by cases b <;> simp [extraOf]
  | .comp .., b, k => by cases b <;> simp [extraOf]
  | .incomplete .., b, k => by cases b <;> simp [extraOf]
end

/-- The text put before the number of an unnamed parameter. -/
def unnamed (i : Nat) : String := "__easymock_param" ++ toString i

theorem unnamed_inj {i j : Nat} (h : unnamed i = unnamed j) : i = j := by
  have h1 := congrArg String.toList h
  simp only [unnamed, String.toList_append] at h1
  have h2 := (List.append_inj h1 rfl).2
  exact Nat.repr_injective (String.toList_inj.mp h2)

/-- Every name is a name of the source or a number from the counter. -/
theorem names_of : ∀ (ps : Params) (k : Nat) (x : String), x ∈ (paramSection k ps).1.names →
    (x ∈ sourceNames ps ∧ x ≠ "") ∨ ∃ i, k ≤ i ∧ x = unnamed i
  | .nil, k, x, h => by simp [paramSection, PList.names, PList.entries] at h
  | .cons s t n rest, k, x, h => by
    rw [paramSection_cons] at h
    simp only [PList.names, PList.entries, List.map_cons, List.mem_cons] at h
    have h1 := extraOf_mono t false k
    rcases h with rfl | h
    · by_cases hn : n.isEmpty = true
      · rw [if_pos hn]
        exact Or.inr ⟨_, h1, rfl⟩
      · rw [if_neg hn]
        refine Or.inl ⟨by simp [sourceNames], ?_⟩
        rintro rfl; exact hn rfl
    · rcases names_of rest _ x h with ⟨h2, h3⟩ | ⟨i, h2, h3⟩
      · exact Or.inl ⟨by simp [sourceNames, h2], h3⟩
      · refine Or.inr ⟨i, ?_, h3⟩
        split at h2 <;> omega

theorem names_nodup : ∀ (ps : Params) (k : Nat),
    ((sourceNames ps).filter (fun n => !n.isEmpty)).Nodup →
    (∀ n ∈ sourceNames ps, ∀ i, n ≠ unnamed i) → (paramSection k ps).1.names.Nodup
  | .nil, k, _, _ => by simp [paramSection, PList.names, PList.entries]
  | .cons s t n rest, k, hd, hu => by
    have hrest : ∀ k, (paramSection k rest).1.names.Nodup := by
      intro k
      refine names_nodup rest k ?_ (fun m hm => hu m (by simp [sourceNames, hm]))
      refine List.Sublist.nodup ?_ hd
      simp only [sourceNames]
      exact (List.sublist_cons_self n (sourceNames rest)).filter _
    rw [paramSection_cons]
    simp only [PList.names, PList.entries, List.map_cons, List.nodup_cons]
    refine ⟨?_, hrest _⟩
    intro hin
    rcases names_of rest _ _ hin with ⟨h2, h3⟩ | ⟨i, h2, h3⟩
    · by_cases hn : n.isEmpty = true
      · rw [if_pos hn] at h2
        exact hu _ (by simp only [sourceNames, List.mem_cons]; exact Or.inr h2) _ rfl
      · rw [if_neg hn] at h2
        have hn' : (!n.isEmpty) = true := by simpa using hn
        simp only [sourceNames, List.filter_cons, hn', if_true, List.nodup_cons] at hd
        exact hd.1 (List.mem_filter.mpr ⟨h2, hn'⟩)
    · by_cases hn : n.isEmpty = true
      · rw [if_pos hn] at h2 h3
        have := unnamed_inj h3
        omega
      · rw [if_neg hn] at h3
        exact hu n (by simp [sourceNames]) i h3

end EasyMock.Gen
