import Verif.Gen.Model
import Verif.Types.HashLemmas

/-! # Selection, macro table, file names: auxiliary definitions and lemmas -/

namespace EasyMock.Gen

open EasyMock.Types

/-! ## Selection -/

/-- The types of the parameters. -/
def paramTypes : Params → List Ty
  | .nil => []
  | .cons _ t _ rest => t :: paramTypes rest

/-- The type is an enum without enumerators, possibly `const`. -/
def IsEmptyEnum (t : Ty) : Prop := ∃ i n, t = .enum i n [] ∨ ∃ j, t = .const j (.enum i n [])

theorem isEmptyEnum_iff (t : Ty) : isEmptyEnum t = true ↔ IsEmptyEnum t := by
  constructor
  · intro h
    unfold isEmptyEnum at h
    split at h
    next i n e =>
      cases t <;> simp [unqualify] at e
      next j inner => exact ⟨i, n, Or.inr ⟨j, by rw [e]⟩⟩
      next a b c => obtain ⟨rfl, rfl, rfl⟩ := e; exact ⟨a, b, Or.inl rfl⟩
    next => exact absurd h (by simp)
  · rintro ⟨i, n, rfl | ⟨j, rfl⟩⟩ <;> rfl

theorem anyEmptyEnum_iff : ∀ ps, anyEmptyEnum ps = true ↔ ∃ t ∈ paramTypes ps, IsEmptyEnum t
  | .nil => by simp [anyEmptyEnum, paramTypes]
  | .cons _ t _ rest => by
    simp [anyEmptyEnum, paramTypes, isEmptyEnum_iff, anyEmptyEnum_iff rest]

theorem usesEmptyEnum_iff (f : FunDecl) :
    usesEmptyEnum f = true ↔ ∃ t ∈ f.ret :: paramTypes f.params, IsEmptyEnum t := by
  simp [usesEmptyEnum, isEmptyEnum_iff, anyEmptyEnum_iff]

/-- The kept functions, first of every raw hash, given the hashes seen before. -/
theorem selectLoop_spec {H : Type} [DecidableEq H] (h : Hasher H) (c : Config) (hm : String → Bool) :
    ∀ (fs : List FunDecl) (seen : List H),
    (selectLoop h c hm fs seen).Sublist (fs.filter (fun f => !skips c hm f)) ∧
    (∀ f ∈ selectLoop h c hm fs seen, declRawHash h f ∉ seen) ∧
    (selectLoop h c hm fs seen).Pairwise (fun f g => declRawHash h f ≠ declRawHash h g) ∧
    (∀ l₁ f l₂, fs.filter (fun f => !skips c hm f) = l₁ ++ f :: l₂ → declRawHash h f ∉ seen →
      (∀ g ∈ l₁, declRawHash h g ≠ declRawHash h f) → f ∈ selectLoop h c hm fs seen) ∧
    (∀ f ∈ fs, skips c hm f = false → declRawHash h f ∈ seen ∨
      ∃ g ∈ selectLoop h c hm fs seen, declRawHash h g = declRawHash h f)
  | [], seen => by
    refine ⟨?_, ?_, ?_, ?_, ?_⟩ <;> simp [selectLoop]
  | f :: fs, seen => by
    by_cases hs : skips c hm f = true
    · have ih := selectLoop_spec h c hm fs seen
      have e : selectLoop h c hm (f :: fs) seen = selectLoop h c hm fs seen := by
        simp [selectLoop, hs]
      have e2 : (f :: fs).filter (fun f => !skips c hm f) = fs.filter (fun f => !skips c hm f) := by
        simp [hs]
      rw [e, e2]
      refine ⟨ih.1, ih.2.1, ih.2.2.1, ih.2.2.2.1, ?_⟩
      intro g hg hk
      rcases List.mem_cons.mp hg with rfl | hg
      · rw [hs] at hk; cases hk
      · exact ih.2.2.2.2 g hg hk
    · have hs' : skips c hm f = false := by simpa using hs
      have e2 : (f :: fs).filter (fun f => !skips c hm f) =
          f :: fs.filter (fun f => !skips c hm f) := by simp [hs']
      by_cases hc : declRawHash h f ∈ seen
      · have ih := selectLoop_spec h c hm fs seen
        have e : selectLoop h c hm (f :: fs) seen = selectLoop h c hm fs seen := by
          simp [selectLoop, hs', hc]
        rw [e, e2]
        refine ⟨ih.1.cons _, ih.2.1, ih.2.2.1, ?_, ?_⟩
        · intro l₁ g l₂ hl hg hfirst
          cases l₁ with
          | nil => simp at hl; rw [← hl.1] at hg; exact absurd hc hg
          | cons x xs =>
            simp at hl
            exact ih.2.2.2.1 xs g l₂ hl.2 hg (fun y hy => hfirst y (List.mem_cons_of_mem _ hy))
        · intro g hg hk
          rcases List.mem_cons.mp hg with rfl | hg
          · exact Or.inl hc
          · exact ih.2.2.2.2 g hg hk
      · have ih := selectLoop_spec h c hm fs (declRawHash h f :: seen)
        have e : selectLoop h c hm (f :: fs) seen =
            f :: selectLoop h c hm fs (declRawHash h f :: seen) := by
          simp [selectLoop, hs', hc]
        rw [e, e2]
        refine ⟨ih.1.cons_cons _, ?_, ?_, ?_, ?_⟩
        · intro g hg
          rcases List.mem_cons.mp hg with rfl | hg
          · exact hc
          · intro hin; exact ih.2.1 g hg (List.mem_cons_of_mem _ hin)
        · refine List.pairwise_cons.mpr ⟨?_, ih.2.2.1⟩
          intro g hg heq
          exact ih.2.1 g hg (by rw [heq]; exact List.mem_cons_self)
        · intro l₁ g l₂ hl hg hfirst
          cases l₁ with
          | nil => simp at hl; rw [hl.1]; exact List.mem_cons_self
          | cons x xs =>
            simp at hl
            obtain ⟨rfl, hl⟩ := hl
            refine List.mem_cons_of_mem _ (ih.2.2.2.1 xs g l₂ hl ?_
              (fun y hy => hfirst y (List.mem_cons_of_mem _ hy)))
            intro hin
            rcases List.mem_cons.mp hin with h' | h'
            · exact hfirst _ List.mem_cons_self h'.symm
            · exact hg h'
        · intro g hg hk
          rcases List.mem_cons.mp hg with rfl | hg
          · exact Or.inr ⟨g, List.mem_cons_self, rfl⟩
          · rcases ih.2.2.2.2 g hg hk with hin | ⟨y, hy, he⟩
            · rcases List.mem_cons.mp hin with h' | h'
              · exact Or.inr ⟨f, List.mem_cons_self, h'.symm⟩
              · exact Or.inl h'
            · exact Or.inr ⟨y, List.mem_cons_of_mem _ hy, he⟩

/-- A function which is kept is the first of its raw hash. -/
theorem selectLoop_first {H : Type} [DecidableEq H] (h : Hasher H) (c : Config) (hm : String → Bool) :
    ∀ (fs : List FunDecl) (seen : List H), ∀ f ∈ selectLoop h c hm fs seen,
    ∃ l₁ l₂, fs.filter (fun f => !skips c hm f) = l₁ ++ f :: l₂ ∧
      ∀ g ∈ l₁, declRawHash h g ≠ declRawHash h f
  | [], _, f, hf => by simp [selectLoop] at hf
  | x :: fs, seen, f, hf => by
    by_cases hs : skips c hm x = true
    · have e : selectLoop h c hm (x :: fs) seen = selectLoop h c hm fs seen := by
        simp [selectLoop, hs]
      rw [e] at hf
      have e2 : (x :: fs).filter (fun f => !skips c hm f) = fs.filter (fun f => !skips c hm f) := by
        simp [hs]
      rw [e2]
      exact selectLoop_first h c hm fs seen f hf
    · have hs' : skips c hm x = false := by simpa using hs
      have e2 : (x :: fs).filter (fun f => !skips c hm f) =
          x :: fs.filter (fun f => !skips c hm f) := by simp [hs']
      rw [e2]
      by_cases hc : declRawHash h x ∈ seen
      · have e : selectLoop h c hm (x :: fs) seen = selectLoop h c hm fs seen := by
          simp [selectLoop, hs', hc]
        rw [e] at hf
        obtain ⟨l₁, l₂, h1, h2⟩ := selectLoop_first h c hm fs seen f hf
        refine ⟨x :: l₁, l₂, by rw [h1]; rfl, ?_⟩
        intro g hg
        rcases List.mem_cons.mp hg with rfl | hg
        · intro e
          exact (selectLoop_spec h c hm fs seen).2.1 f hf (by rw [← e]; exact hc)
        · exact h2 g hg
      · have e : selectLoop h c hm (x :: fs) seen =
            x :: selectLoop h c hm fs (declRawHash h x :: seen) := by
          simp [selectLoop, hs', hc]
        rw [e] at hf
        rcases List.mem_cons.mp hf with rfl | hf
        · exact ⟨[], _, rfl, by simp⟩
        · obtain ⟨l₁, l₂, h1, h2⟩ := selectLoop_first h c hm fs _ f hf
          refine ⟨x :: l₁, l₂, by rw [h1]; rfl, ?_⟩
          intro g hg
          rcases List.mem_cons.mp hg with rfl | hg
          · intro e
            exact (selectLoop_spec h c hm fs _).2.1 f hf (by rw [e]; exact List.mem_cons_self)
          · exact h2 g hg

/-- Nothing is dropped when the raw hashes of the kept functions differ. -/
theorem selectLoop_distinct {H : Type} [DecidableEq H] (h : Hasher H) (c : Config) (hm : String → Bool) :
    ∀ (fs : List FunDecl) (seen : List H),
    (fs.filter (fun f => !skips c hm f)).Pairwise (fun f g => declRawHash h f ≠ declRawHash h g) →
    (∀ f ∈ fs, skips c hm f = false → declRawHash h f ∉ seen) →
    selectLoop h c hm fs seen = fs.filter (fun f => !skips c hm f)
  | [], _, _, _ => rfl
  | f :: fs, seen, hp, hd => by
    by_cases hs : skips c hm f = true
    · simp only [selectLoop, hs, if_true]
      rw [selectLoop_distinct h c hm fs seen (by simpa [hs] using hp)
        (fun g hg => hd g (List.mem_cons_of_mem _ hg))]
      simp [hs]
    · have hs' : skips c hm f = false := by simpa using hs
      have hc := hd f List.mem_cons_self hs'
      have e2 : (f :: fs).filter (fun f => !skips c hm f) =
          f :: fs.filter (fun f => !skips c hm f) := by simp [hs']
      rw [e2] at hp ⊢
      obtain ⟨hp1, hp2⟩ := List.pairwise_cons.mp hp
      have e : selectLoop h c hm (f :: fs) seen =
          f :: selectLoop h c hm fs (declRawHash h f :: seen) := by
        simp [selectLoop, hs', hc]
      rw [e, selectLoop_distinct h c hm fs _ hp2]
      intro g hg hk hin
      rcases List.mem_cons.mp hin with h' | h'
      · exact hp1 g (List.mem_filter.mpr ⟨hg, by simp [hk]⟩) h'.symm
      · exact hd g (List.mem_cons_of_mem _ hg) hk h'

/-! ## Macro table -/

/-- The macro is defined after the directives: the last directive about it is a definition. -/
def Defined (ds : List Directive) (id : String) : Prop :=
  ∃ pre ps toks loc post, ds = pre ++ .define id ps toks loc :: post ∧ .undef id ∉ post

/-- A directive which is about `id`. -/
def about (id : String) : Directive → Bool
  | .define id' _ _ _ => id' == id
  | .undef id' => id' == id

theorem list_snoc {α : Type} : ∀ l : List α, l = [] ∨ ∃ pre x, l = pre ++ [x]
  | [] => Or.inl rfl
  | x :: xs => by
    rcases list_snoc xs with rfl | ⟨pre, y, rfl⟩
    · exact Or.inr ⟨[], x, rfl⟩
    · exact Or.inr ⟨x :: pre, y, rfl⟩

theorem snoc_inj {α : Type} {l l' : List α} {x y : α} (h : l ++ [x] = l' ++ [y]) : l = l' ∧ x = y := by
  have := List.append_inj' h rfl
  simpa using this

/-- How `Defined` evolves with one more directive. -/
theorem defined_snoc (ds : List Directive) (d : Directive) (id : String) :
    Defined (ds ++ [d]) id ↔
    (∃ ps toks loc, d = .define id ps toks loc) ∨ (d ≠ .undef id ∧ Defined ds id) := by
  constructor
  · rintro ⟨pre, ps, toks, loc, post, h, hu⟩
    rcases list_snoc post with rfl | ⟨post', x, rfl⟩
    · obtain ⟨_, rfl⟩ := snoc_inj h
      exact Or.inl ⟨ps, toks, loc, rfl⟩
    · have h' : ds ++ [d] = (pre ++ .define id ps toks loc :: post') ++ [x] := by simpa using h
      obtain ⟨h1, rfl⟩ := snoc_inj h'
      refine Or.inr ⟨?_, pre, ps, toks, loc, post', h1, fun hin => hu (by simp [hin])⟩
      rintro rfl
      exact hu (by simp)
  · rintro (⟨ps, toks, loc, rfl⟩ | ⟨hne, pre, ps, toks, loc, post, rfl, hu⟩)
    · exact ⟨ds, ps, toks, loc, [], rfl, by simp⟩
    · refine ⟨pre, ps, toks, loc, post ++ [d], by simp, ?_⟩
      intro hin
      rcases List.mem_append.mp hin with h' | h'
      · exact hu h'
      · simp at h'; exact hne h'.symm

theorem macroTable_snoc (ds : List Directive) (d : Directive) :
    macroTable (ds ++ [d]) = directive (macroTable ds) d := by
  simp [macroTable]

theorem not_defined_nil (id : String) : ¬ Defined [] id := by
  rintro ⟨pre, ps, toks, loc, post, h, _⟩
  simp at h

theorem hasMacroDefine_iff (m : List Macro) (id : String) :
    hasMacroDefine m id = true ↔ ∃ x ∈ m, x.id = id := by
  simp [hasMacroDefine]

theorem hasMacroDefine_false (m : List Macro) (id : String) :
    hasMacroDefine m id = false ↔ ∀ x ∈ m, x.id ≠ id := by
  simp [hasMacroDefine]

/-- An entry of the table: the first definition since the macro was last undefined. -/
def Entry (ds : List Directive) (x : Macro) : Prop :=
  ∃ pre ps toks loc post, ds = pre ++ .define x.id ps toks loc :: post ∧ .undef x.id ∉ post ∧
    ¬ Defined pre x.id ∧ x.params = (ps.getD []).map macroParam ∧ x.definition = joinTokens toks ∧
    x.origin = loc

theorem entry_snoc (ds : List Directive) (d : Directive) (x : Macro) :
    Entry (ds ++ [d]) x ↔
    (¬ Defined ds x.id ∧ ∃ ps toks loc, d = .define x.id ps toks loc ∧
      x.params = (ps.getD []).map macroParam ∧ x.definition = joinTokens toks ∧ x.origin = loc) ∨
    (d ≠ .undef x.id ∧ Entry ds x) := by
  constructor
  · rintro ⟨pre, ps, toks, loc, post, h, hu, hnd, e⟩
    rcases list_snoc post with rfl | ⟨post', y, rfl⟩
    · obtain ⟨rfl, rfl⟩ := snoc_inj h
      exact Or.inl ⟨hnd, ps, toks, loc, rfl, e⟩
    · have h' : ds ++ [d] = (pre ++ .define x.id ps toks loc :: post') ++ [y] := by simpa using h
      obtain ⟨h1, rfl⟩ := snoc_inj h'
      refine Or.inr ⟨?_, pre, ps, toks, loc, post', h1, fun hin => hu (by simp [hin]), hnd, e⟩
      rintro rfl
      exact hu (by simp)
  · rintro (⟨hnd, ps, toks, loc, rfl, e⟩ | ⟨hne, pre, ps, toks, loc, post, rfl, hu, hnd, e⟩)
    · exact ⟨ds, ps, toks, loc, [], rfl, by simp, hnd, e⟩
    · refine ⟨pre, ps, toks, loc, post ++ [d], by simp, ?_, hnd, e⟩
      intro hin
      rcases List.mem_append.mp hin with h' | h'
      · exact hu h'
      · simp at h'; exact hne h'.symm

theorem directive_define (m : List Macro) (id : String) (ps : Option (List String))
    (toks : List String) (loc : String) :
    directive m (.define id ps toks loc) =
    if id.isEmpty then m else if hasMacroDefine m id then m
      else m ++ [⟨id, (ps.getD []).map macroParam, joinTokens toks, loc⟩] := rfl

theorem directive_undef (m : List Macro) (id : String) :
    directive m (.undef id) = if !hasMacroDefine m id then m else m.filter (fun x => x.id != id) := rfl

theorem mem_directive_define (m : List Macro) (id : String) (ps : Option (List String))
    (toks : List String) (loc : String) (x : Macro) :
    x ∈ directive m (.define id ps toks loc) ↔
    x ∈ m ∨ (id ≠ "" ∧ (∀ y ∈ m, y.id ≠ id) ∧
      x = ⟨id, (ps.getD []).map macroParam, joinTokens toks, loc⟩) := by
  rw [directive_define]
  by_cases h1 : id = ""
  · subst h1; simp
  · have h1' : id.isEmpty = false := by simpa [String.isEmpty_iff] using h1
    rw [h1']
    by_cases h2 : hasMacroDefine m id = true
    · simp only [h2, if_true]
      constructor
      · exact Or.inl
      · rintro (h | ⟨_, h, _⟩)
        · exact h
        · obtain ⟨y, hy, e⟩ := (hasMacroDefine_iff _ _).mp h2
          exact absurd e (h y hy)
    · have h2' : hasMacroDefine m id = false := by simpa using h2
      have h3 := (hasMacroDefine_false _ _).mp h2'
      simp only [h2', Bool.false_eq_true, if_false, List.mem_append, List.mem_singleton]
      constructor
      · rintro (h | h)
        · exact Or.inl h
        · exact Or.inr ⟨h1, h3, h⟩
      · rintro (h | ⟨_, _, h⟩)
        · exact Or.inl h
        · exact Or.inr h

theorem mem_directive_undef (m : List Macro) (id : String) (x : Macro) :
    x ∈ directive m (.undef id) ↔ x ∈ m ∧ x.id ≠ id := by
  rw [directive_undef]
  by_cases h2 : hasMacroDefine m id = true
  · simp [h2]
  · have h2' : hasMacroDefine m id = false := by simpa using h2
    have h3 := (hasMacroDefine_false _ _).mp h2'
    simp only [h2', Bool.not_false, if_true]
    exact ⟨fun h => ⟨h, h3 x h⟩, fun h => h.1⟩

/-- The table contains exactly the entries. -/
theorem mem_macroTable (ds : List Directive) :
    (∀ x, x ∈ macroTable ds ↔ x.id ≠ "" ∧ Entry ds x) ∧
    (∀ id, (∃ x ∈ macroTable ds, x.id = id) ↔ id ≠ "" ∧ Defined ds id) := by
  generalize hn : ds.length = n
  induction n generalizing ds with
  | zero =>
    have : ds = [] := List.length_eq_zero_iff.mp hn
    subst this
    refine ⟨fun x => ?_, fun id => ?_⟩
    · constructor
      · intro h; simp [macroTable] at h
      · rintro ⟨_, pre, ps, toks, loc, post, h, _⟩; simp at h
    · constructor
      · rintro ⟨x, h, _⟩; simp [macroTable] at h
      · rintro ⟨_, h⟩; exact absurd h (not_defined_nil _)
  | succ n ih =>
    rcases list_snoc ds with rfl | ⟨ds, d, rfl⟩
    · simp at hn
    · have ih := ih ds (by simp at hn; exact hn)
      have ih1 := ih.1
      have ih2 := ih.2
      have key : ∀ x, x ∈ macroTable (ds ++ [d]) ↔ x.id ≠ "" ∧ Entry (ds ++ [d]) x := by
        intro x
        rw [macroTable_snoc, entry_snoc]
        cases d with
        | define id ps toks loc =>
          rw [mem_directive_define, ih1]
          constructor
          · rintro (⟨h1, h2⟩ | ⟨h1, h2, rfl⟩)
            · exact ⟨h1, Or.inr ⟨by simp, h2⟩⟩
            · refine ⟨h1, Or.inl ⟨?_, ps, toks, loc, rfl, rfl, rfl, rfl⟩⟩
              intro hd
              obtain ⟨y, hy, e⟩ := (ih2 id).mpr ⟨h1, hd⟩
              exact h2 y hy e
          · rintro ⟨h1, ⟨hnd, ps', toks', loc', e, e1, e2, e3⟩ | ⟨_, h2⟩⟩
            · injection e with a b c d
              subst a b c d
              refine Or.inr ⟨h1, ?_, ?_⟩
              · intro y hy e
                exact hnd ((ih2 _).mp ⟨y, hy, e⟩).2
              · cases x; simp_all
            · exact Or.inl ⟨h1, h2⟩
        | undef id =>
          rw [mem_directive_undef, ih1]
          constructor
          · rintro ⟨⟨h1, h2⟩, h3⟩
            exact ⟨h1, Or.inr ⟨by simpa using Ne.symm h3, h2⟩⟩
          · rintro ⟨h1, ⟨_, ps, toks, loc, e, _⟩ | ⟨h2, h3⟩⟩
            · cases e
            · exact ⟨⟨h1, h3⟩, by intro e; exact h2 (by rw [e])⟩
      refine ⟨key, fun id => ?_⟩
      rw [defined_snoc]
      constructor
      · rintro ⟨x, hx, rfl⟩
        obtain ⟨h1, h2⟩ := (key x).mp hx
        refine ⟨h1, ?_⟩
        rcases (entry_snoc _ _ _).mp h2 with ⟨_, ps, toks, loc, e, _⟩ | ⟨h3, h4⟩
        · exact Or.inl ⟨ps, toks, loc, e⟩
        · exact Or.inr ⟨h3, ((ih2 x.id).mp ⟨x, (ih1 x).mpr ⟨h1, h4⟩, rfl⟩).2⟩
      · rintro ⟨h1, h2⟩
        by_cases hd : Defined ds id
        · obtain ⟨x, hx, rfl⟩ := (ih2 id).mpr ⟨h1, hd⟩
          have hx' := ((ih1 x).mp hx).2
          refine ⟨x, (key x).mpr ⟨h1, (entry_snoc _ _ _).mpr (Or.inr ⟨?_, hx'⟩)⟩, rfl⟩
          rcases h2 with ⟨ps, toks, loc, rfl⟩ | ⟨h3, _⟩
          · simp
          · exact h3
        · rcases h2 with ⟨ps, toks, loc, rfl⟩ | ⟨_, h3⟩
          · exact ⟨⟨id, (ps.getD []).map macroParam, joinTokens toks, loc⟩,
              (key _).mpr ⟨h1, (entry_snoc _ _ _).mpr (Or.inl ⟨hd, ps, toks, loc, rfl, rfl, rfl, rfl⟩)⟩,
              rfl⟩
          · exact absurd h3 hd

/-- No two entries of the table have the same name. -/
theorem macroTable_nodup (ds : List Directive) : ((macroTable ds).map (·.id)).Nodup := by
  generalize hn : ds.length = n
  induction n generalizing ds with
  | zero =>
    have : ds = [] := List.length_eq_zero_iff.mp hn
    subst this
    simp [macroTable]
  | succ n ih =>
    rcases list_snoc ds with rfl | ⟨ds, d, rfl⟩
    · simp at hn
    · have ih := ih ds (by simp at hn; exact hn)
      rw [macroTable_snoc]
      cases d with
      | define id ps toks loc =>
        rw [directive_define]
        split
        · exact ih
        · split
          · exact ih
          · next h =>
            have h3 := (hasMacroDefine_false _ _).mp (by simpa using h)
            simp only [List.map_append, List.map_cons, List.map_nil]
            refine List.nodup_append.mpr ⟨ih, by simp, ?_⟩
            intro a ha b hb
            obtain ⟨y, hy, rfl⟩ := List.mem_map.mp ha
            simp at hb
            rw [hb]
            exact h3 y hy
      | undef id =>
        rw [directive_undef]
        split
        · exact ih
        · exact List.Sublist.nodup (List.filter_sublist.map _) ih

theorem eq_of_id : ∀ {m : List Macro}, (m.map (·.id)).Nodup → ∀ {x y : Macro}, x ∈ m → y ∈ m →
    x.id = y.id → x = y
  | [], _, _, _, hx, _, _ => by cases hx
  | a :: m, h, x, y, hx, hy, e => by
    simp only [List.map_cons, List.nodup_cons] at h
    by_cases h1 : x = a
    · by_cases h2 : y = a
      · rw [h1, h2]
      · have hy' : y ∈ m := by simpa [h2] using hy
        exact absurd (List.mem_map.mpr ⟨y, hy', by rw [← e, h1]⟩) h.1
    · have hx' : x ∈ m := by simpa [h1] using hx
      by_cases h2 : y = a
      · exact absurd (List.mem_map.mpr ⟨x, hx', by rw [e, h2]⟩) h.1
      · have hy' : y ∈ m := by simpa [h2] using hy
        exact eq_of_id h.2 hx' hy' e

theorem getMacroDefinition_of_mem {ds : List Directive} {x : Macro} (h : x ∈ macroTable ds) :
    getMacroDefinition (macroTable ds) x.id = x := by
  unfold getMacroDefinition
  cases hf : (macroTable ds).find? (fun y => y.id == x.id) with
  | none =>
    have := List.find?_eq_none.mp hf x h
    simp at this
  | some y =>
    have h1 := List.mem_of_find?_eq_some hf
    have h2 : y.id = x.id := by simpa using List.find?_some hf
    exact eq_of_id (macroTable_nodup ds) h1 h h2

/-! ## File names -/

theorem takeWhile_append_stop {α : Type} (p : α → Bool) (l : List α) (x : α) (r : List α)
    (hl : ∀ y ∈ l, p y = true) (hx : p x = false) : (l ++ x :: r).takeWhile p = l := by
  induction l with
  | nil => simp [hx]
  | cons a l ih =>
    simp [hl a List.mem_cons_self, ih (fun y hy => hl y (List.mem_cons_of_mem _ hy))]

theorem takeWhile_all {α : Type} (p : α → Bool) (l : List α) (hl : ∀ y ∈ l, p y = true) :
    l.takeWhile p = l := by
  induction l with
  | nil => rfl
  | cons a l ih =>
    simp [hl a List.mem_cons_self, ih (fun y hy => hl y (List.mem_cons_of_mem _ hy))]

theorem dropWhile_append_stop {α : Type} (p : α → Bool) (l : List α) (x : α) (r : List α)
    (hl : ∀ y ∈ l, p y = true) (hx : p x = false) : (l ++ x :: r).dropWhile p = x :: r := by
  induction l with
  | nil => simp [hx]
  | cons a l ih =>
    simp [hl a List.mem_cons_self, ih (fun y hy => hl y (List.mem_cons_of_mem _ hy))]

/-- The file name of `dir/name`. -/
theorem fileName_dir (dir name : String) (h : '/' ∉ name.toList) : fileName (dir ++ "/" ++ name) = name := by
  have e : (dir ++ "/" ++ name).toList.reverse =
      name.toList.reverse ++ '/' :: dir.toList.reverse := by
    simp [String.toList_append]
  unfold fileName
  rw [e, takeWhile_append_stop _ _ _ _ (fun y hy => by
    simp; rintro rfl; exact h (by simpa using hy)) (by simp)]
  simp

/-- The file name of `name`. -/
theorem fileName_plain (name : String) (h : '/' ∉ name.toList) : fileName name = name := by
  unfold fileName
  rw [takeWhile_all _ _ (fun y hy => by simp; rintro rfl; exact h (by simpa using hy))]
  simp

/-- The stem of `base.ext`. -/
theorem stem_ext (base ext : String) (hb : '/' ∉ base.toList) (he : '/' ∉ ext.toList)
    (hd : '.' ∉ ext.toList) : CmdLine.stem (base ++ "." ++ ext) = base := by
  have h0 : (base ++ "." ++ ext).toList = base.toList ++ '.' :: ext.toList := by
    simp [String.toList_append]
  have h1 : ((base ++ "." ++ ext).toList.reverse.takeWhile (· ≠ '/')) =
      (base ++ "." ++ ext).toList.reverse := by
    refine takeWhile_all _ _ (fun y hy => ?_)
    rw [h0] at hy
    simp at hy ⊢
    rintro rfl
    rcases hy with hy | hy
    · exact he hy
    · exact hb (by simpa using hy)
  unfold CmdLine.stem
  simp only [h1, List.reverse_reverse]
  rw [h0]
  rw [if_pos (by simp)]
  have h2 : (base.toList ++ '.' :: ext.toList).reverse = ext.toList.reverse ++ '.' :: base.toList.reverse := by
    simp
  rw [h2, dropWhile_append_stop _ _ _ _ (fun y hy => by
    simp; rintro rfl; exact hd (by simpa using hy)) (by simp)]
  simp

/-- The stem of a name without dot. -/
theorem stem_plain (base : String) (hb : '/' ∉ base.toList) (hd : '.' ∉ base.toList) :
    CmdLine.stem base = base := by
  unfold CmdLine.stem
  rw [takeWhile_all _ _ (fun y hy => by simp; rintro rfl; exact hb (by simpa using hy))]
  simp [hd]

theorem upperC_eq_toUpper (c : Char) : upperC c = c.toUpper := by
  unfold upperC Char.toUpper
  have h1 : (c.val ≥ 'a'.val ∧ c.val ≤ 'z'.val) ↔ ('a' ≤ c ∧ c ≤ 'z') := Iff.rfl
  by_cases h : 'a' ≤ c ∧ c ≤ 'z'
  · rw [if_pos h, dif_pos (h1.mpr h)]
    have hle : 97 ≤ c.val.toNat ∧ c.val.toNat ≤ 122 := by
      have a := UInt32.le_iff_toNat_le.mp h.1
      have b := UInt32.le_iff_toNat_le.mp h.2
      exact ⟨a, b⟩
    apply Char.ext
    apply UInt32.toNat_inj.mp
    have hv : (c.toNat - 32).isValidChar := by
      have : c.toNat = c.val.toNat := rfl
      refine Or.inl ?_
      omega
    rw [Char.ofNat, dif_pos hv]
    have : ∀ k hk, (Char.ofNatAux k hk).val.toNat = k := by
      intro k hk; rfl
    rw [this]
    have h32 : ('A'.val - 'a'.val : UInt32) = 4294967264 := by decide
    simp only [h32, UInt32.toNat_add]
    have h33 : (4294967264 : UInt32).toNat = 4294967264 := rfl
    rw [h33]
    have : c.toNat = c.val.toNat := rfl
    omega
  · rw [if_neg h, dif_neg (fun h' => h (h1.mp h'))]

/-- The range of the lower-case letters. -/
theorem isLower_iff (c : Char) : ('a' ≤ c ∧ c ≤ 'z') ↔ 97 ≤ c.toNat ∧ c.toNat ≤ 122 := by
  constructor
  · rintro ⟨h1, h2⟩
    exact ⟨UInt32.le_iff_toNat_le.mp h1, UInt32.le_iff_toNat_le.mp h2⟩
  · rintro ⟨h1, h2⟩
    exact ⟨UInt32.le_iff_toNat_le.mpr h1, UInt32.le_iff_toNat_le.mpr h2⟩

theorem toNat_toUpper (c : Char) :
    c.toUpper.toNat = if 97 ≤ c.toNat ∧ c.toNat ≤ 122 then c.toNat - 32 else c.toNat := by
  rw [← upperC_eq_toUpper]
  unfold upperC
  by_cases h : 'a' ≤ c ∧ c ≤ 'z'
  · rw [if_pos h, if_pos ((isLower_iff c).mp h)]
    have hle := (isLower_iff c).mp h
    have hv : (c.toNat - 32).isValidChar := Or.inl (by omega)
    rw [Char.ofNat, dif_pos hv]
    rfl
  · rw [if_neg h, if_neg (fun h' => h ((isLower_iff c).mpr h'))]

theorem char_eq_of_toNat {c d : Char} (h : c.toNat = d.toNat) : c = d :=
  Char.ext (UInt32.toNat_inj.mp h)

theorem toUpper_eq_dash {c : Char} (h : c.toUpper = '-') : c = '-' := by
  have h1 := congrArg Char.toNat h
  rw [toNat_toUpper] at h1
  have h2 : '-'.toNat = 45 := rfl
  rw [h2] at h1
  apply char_eq_of_toNat
  rw [h2]
  split at h1 <;> omega

theorem isUpper_iff (c : Char) : c.isUpper = true ↔ 65 ≤ c.toNat ∧ c.toNat ≤ 90 := by
  unfold Char.isUpper
  simp only [decide_eq_true_eq]
  constructor
  · rintro ⟨h1, h2⟩
    exact ⟨UInt32.le_iff_toNat_le.mp h1, UInt32.le_iff_toNat_le.mp h2⟩
  · rintro ⟨h1, h2⟩
    exact ⟨UInt32.le_iff_toNat_le.mpr h1, UInt32.le_iff_toNat_le.mpr h2⟩

theorem toUpper_inj {c d : Char} (hc : c.isUpper = false) (hd : d.isUpper = false)
    (h : c.toUpper = d.toUpper) : c = d := by
  have h1 := congrArg Char.toNat h
  rw [toNat_toUpper, toNat_toUpper] at h1
  have hc' : ¬ (65 ≤ c.toNat ∧ c.toNat ≤ 90) := fun h => by
    rw [(isUpper_iff c).mpr h] at hc; cases hc
  have hd' : ¬ (65 ≤ d.toNat ∧ d.toNat ≤ 90) := fun h => by
    rw [(isUpper_iff d).mpr h] at hd; cases hd
  apply char_eq_of_toNat
  split at h1 <;> split at h1 <;> omega

theorem map_upper_inj : ∀ (l₁ l₂ : List Char), (∀ c ∈ l₁, c.isUpper = false ∧ c ≠ '-') →
    (∀ c ∈ l₂, c.isUpper = false ∧ c ≠ '-') →
    l₁.map (fun c => if c = '-' then '_' else c.toUpper) =
      l₂.map (fun c => if c = '-' then '_' else c.toUpper) → l₁ = l₂
  | [], [], _, _, _ => rfl
  | [], _ :: _, _, _, h => by simp at h
  | _ :: _, [], _, _, h => by simp at h
  | a :: l₁, b :: l₂, h1, h2, h => by
    have ha := h1 a List.mem_cons_self
    have hb := h2 b List.mem_cons_self
    simp only [List.map_cons, List.cons.injEq, if_neg ha.2, if_neg hb.2] at h
    rw [toUpper_inj ha.1 hb.1 h.1, map_upper_inj l₁ l₂ (fun c hc => h1 c (List.mem_cons_of_mem _ hc))
      (fun c hc => h2 c (List.mem_cons_of_mem _ hc)) h.2]

theorem toUpper_alphanum {c : Char} (h : c.isAlphanum = true) : c.toUpper.isAlphanum = true := by
  by_cases hl : 'a' ≤ c ∧ c ≤ 'z'
  · have h1 : c.toUpper.isUpper = true := by
      rw [isUpper_iff, toNat_toUpper]
      have h2 := (isLower_iff c).mp hl
      rw [if_pos h2]
      omega
    simp only [Char.isAlphanum, Char.isAlpha, h1, Bool.true_or]
  · have : c.toUpper = c := by
      rw [← upperC_eq_toUpper, upperC, if_neg hl]
    rw [this]
    exact h

end EasyMock.Gen
