import Verif.CmdLine.Spec

/-!
# Lemmas about the argument loop
-/

namespace EasyMock.CmdLine
variable {fs : FS} {dir : String}

theorem not_option {a : String} (h : a ∉ toolOptions) :
    a ≠ "-i" ∧ a ≠ "-o" ∧ a ≠ "--mock-only" ∧ a ≠ "--cwd" ∧ a ≠ "--generate-attribute" ∧ a ≠ "--ignore-field-generation-of" ∧
    a ≠ "--ignore-generation-of" ∧ a ≠ "--generate-comparator-of" ∧ a ≠ "-h" ∧ a ≠ "--help" ∧ a ≠ "--generate-types" ∧
    a ≠ "--mock-cpp" ∧ a ≠ "--ignore-parser-error" ∧ a ≠ "--generate-included-functions" := by
  unfold toolOptions valueOptions at h
  simpa only [List.cons_append, List.nil_append, List.mem_cons, List.not_mem_nil, or_false, not_or] using h

theorem option_cases {a : String} (h : a ∈ toolOptions) :
    a = "-i" ∨ a = "-o" ∨ a = "--mock-only" ∨ a = "--cwd" ∨ a = "--generate-attribute" ∨ a = "--ignore-field-generation-of" ∨
    a = "--ignore-generation-of" ∨ a = "--generate-comparator-of" ∨ a = "-h" ∨ a = "--help" ∨ a = "--generate-types" ∨
    a = "--mock-cpp" ∨ a = "--ignore-parser-error" ∨ a = "--generate-included-functions" := by
  unfold toolOptions valueOptions at h
  simpa only [List.cons_append, List.nil_append, List.mem_cons, List.not_mem_nil, or_false] using h

theorem keyOf_other {a : String} (h : a ∉ toolOptions) : keyOf a = .other := by
  obtain ⟨h1, h2, h3, h4, h5, h6, h7, h8, h9, h10, h11, h12, h13, h14⟩ := not_option h
  unfold keyOf
  simp only [h1, h2, h3, h4, h5, h6, h7, h8, h9, h10, h11, h12, h13, h14, if_false, or_false]

section
variable (o : Options) (v : String) (n : Option String)

theorem act_input : act fs dir o "-i" (some v) =
    if o.input ≠ "" then .stop { o with errorMessage := errInputTwice }
    else if dash v then .one o
    else if fs.isRegular dir v = false then .stop { o with errorMessage := errNotRegular }
    else .two { o with input := v } := rfl
theorem act_input_none : act fs dir o "-i" none = .one { o with extraArgs := o.extraArgs ++ ["-i"] } := rfl
theorem act_output : act fs dir o "-o" (some v) =
    if o.outputDir ≠ "" then .stop { o with errorMessage := errOutputTwice }
    else if dash v then .one o
    else if fs.isDir dir v = false then .stop { o with errorMessage := errNotDir }
    else .two { o with outputDir := v } := rfl
theorem act_output_none : act fs dir o "-o" none = .one { o with extraArgs := o.extraArgs ++ ["-o"] } := rfl
theorem act_cwd : act fs dir o "--cwd" (some v) =
    if o.cwd ≠ "" then .stop { o with cwd := "", errorMessage := errCwdTwice }
    else if dash v then .stop { o with errorMessage := errCwdMissing }
    else .two { o with cwd := v } := rfl
theorem act_cwd_none : act fs dir o "--cwd" none =
    if o.cwd ≠ "" then .stop { o with cwd := "", errorMessage := errCwdTwice }
    else .stop { o with errorMessage := errCwdMissing } := rfl
theorem act_mockOnly : act fs dir o "--mock-only" (some v) =
    if dash v then .stop { o with errorMessage := errMockOnlyMissing }
    else .two { o with mockOnly := insert o.mockOnly v } := rfl
theorem act_mockOnly_none : act fs dir o "--mock-only" none = .stop { o with errorMessage := errMockOnlyMissing } := rfl
theorem act_attr : act fs dir o "--generate-attribute" (some v) =
    if dash v then .stop { o with errorMessage := errAttrMissing }
    else .two { o with attrs := insert o.attrs v } := rfl
theorem act_attr_none : act fs dir o "--generate-attribute" none = .stop { o with errorMessage := errAttrMissing } := rfl
theorem act_ignoreField : act fs dir o "--ignore-field-generation-of" (some v) =
    if dash v then .stop { o with errorMessage := errIgnoreFieldMissing }
    else .two { o with ignoreTypes := insert o.ignoreTypes v } := rfl
theorem act_ignoreField_none : act fs dir o "--ignore-field-generation-of" none = .stop { o with errorMessage := errIgnoreFieldMissing } := rfl
theorem act_ignoreGen : act fs dir o "--ignore-generation-of" (some v) =
    if dash v then .stop { o with errorMessage := errIgnoreGenMissing }
    else .two { o with ignoreFuns := insert o.ignoreFuns v } := rfl
theorem act_ignoreGen_none : act fs dir o "--ignore-generation-of" none = .stop { o with errorMessage := errIgnoreGenMissing } := rfl
theorem act_comparator : act fs dir o "--generate-comparator-of" (some v) =
    if dash v then .stop { o with errorMessage := errComparatorMissing }
    else .two { o with comparators := insert o.comparators v } := rfl
theorem act_comparator_none : act fs dir o "--generate-comparator-of" none = .stop { o with errorMessage := errComparatorMissing } := rfl
theorem act_h : act fs dir o "-h" n = .stop { o with helpMessage := helpText } := by cases n <;> rfl
theorem act_help : act fs dir o "--help" n = .stop { o with helpMessage := helpText } := by cases n <;> rfl
theorem act_types : act fs dir o "--generate-types" n = .one { o with genTypes := true } := by cases n <;> rfl
theorem act_cpp : act fs dir o "--mock-cpp" n = .one { o with mockCpp := true } := by cases n <;> rfl
theorem act_ignoreErr : act fs dir o "--ignore-parser-error" n = .one { o with ignoreParserError := true } := by cases n <;> rfl
theorem act_included : act fs dir o "--generate-included-functions" n = .one { o with genIncluded := true } := by cases n <;> rfl
theorem act_other {a : String} (h : a ∉ toolOptions) : act fs dir o a n = .one { o with extraArgs := o.extraArgs ++ [a] } := by
  simp only [act, keyOf_other h]

end

theorem not_accepted_error {o : Options} {e : String} (he : e ≠ "") : ¬ Accepted { o with errorMessage := e } := fun h => he h.1
theorem not_accepted_help (o : Options) : ¬ Accepted { o with helpMessage := helpText } := fun h => absurd (show helpText = "" from h.2) (by decide)

theorem dash_option {a : String} (h : a ∈ toolOptions) : dash a = true := by
  have : ∀ x ∈ toolOptions, dash x = true := by decide
  exact this a h

theorem valueOptions_sub {a : String} (h : a ∈ valueOptions) : a ∈ toolOptions := List.mem_append_left _ h

theorem nodash_not_option {v : String} (h : dash v = false) : v ∉ toolOptions := fun hm => by
  rw [dash_option hm] at h; simp at h

theorem valuesOf_cons {opt a v : String} {r : List String} :
    valuesOf opt (a :: v :: r) = (if a = opt ∧ dash v = false then [v] else []) ++ valuesOf opt (v :: r) := rfl

theorem valuesOf_skip {opt v : String} (rest : List String) (hv : dash v = false) (ho : opt ∈ toolOptions) :
    valuesOf opt (v :: rest) = valuesOf opt rest := by
  cases rest with
  | nil => rfl
  | cons w r =>
    rw [valuesOf_cons]
    have : v ≠ opt := fun e => nodash_not_option hv (e ▸ ho)
    simp [this]

theorem isValue_none (a : String) : ¬ isValue none a := by rintro ⟨⟨p, _, h⟩, _⟩; cases h

theorem isValue_not {p a : String} (h : p ∉ valueOptions) : ¬ isValue (some p) a := by
  rintro ⟨⟨q, hq, h'⟩, _⟩; cases h'; exact h hq

theorem forwarded_prev {p : String} (h : p ∉ valueOptions) (r : List String) : forwarded (some p) r = forwarded none r := by
  cases r with
  | nil => rfl
  | cons a r => simp only [forwarded, isValue_none, isValue_not h]

theorem forwarded_dash {v : String} (hv : dash v = true) (p : Option String) (r : List String) : forwarded p (v :: r) = forwarded none (v :: r) := by
  have : ∀ q, ¬ isValue q v := fun q h => by have := h.2; rw [hv] at this; simp at this
  simp only [forwarded, this]

/-- An option with its value is not forwarded. -/
theorem forwarded_two {a v : String} (ha : a ∈ valueOptions) (hv : dash v = false) (rest : List String) :
    forwarded none (a :: v :: rest) = forwarded none rest := by
  have h1 : a ∈ toolOptions := valueOptions_sub ha
  have h2 : isValue (some a) v := ⟨⟨a, ha, rfl⟩, hv⟩
  have h3 : v ∉ valueOptions := fun h => nodash_not_option hv (valueOptions_sub h)
  simp only [forwarded, h1, h2, true_or, if_true, List.nil_append, forwarded_prev h3]
  simp

/-- An option without value in front of further arguments is not forwarded. -/
theorem forwarded_opt {a v : String} (ha : a ∈ toolOptions) (h : a ∉ valueOptions ∨ dash v = true) (rest : List String) :
    forwarded none (a :: v :: rest) = forwarded none (v :: rest) := by
  have e : forwarded (some a) (v :: rest) = forwarded none (v :: rest) := by
    rcases h with h | h
    · exact forwarded_prev h _
    · exact forwarded_dash h _ _
  rw [show forwarded none (a :: v :: rest) =
    (if isValue none a ∨ (a ∈ toolOptions ∧ ¬ ((a = "-i" ∨ a = "-o") ∧ v :: rest = [])) then [] else [a]) ++ forwarded (some a) (v :: rest) from rfl, e]
  simp [ha]

theorem forwarded_other {a : String} (ha : a ∉ toolOptions) (rest : List String) :
    forwarded none (a :: rest) = a :: forwarded none rest := by
  have : a ∉ valueOptions := fun h => ha (valueOptions_sub h)
  simp [forwarded, isValue_none, ha, forwarded_prev this]

/-- The result of an accepted run of the loop, in terms of the arguments. -/
structure Says (fs : FS) (dir : String) (o : Options) (args : List String) (r : Options) : Prop where
  input : (valuesOf "-i" args = [] ∧ r.input = o.input) ∨
    (o.input = "" ∧ valuesOf "-i" args = [r.input] ∧ fs.isRegular dir r.input = true)
  output : (valuesOf "-o" args = [] ∧ r.outputDir = o.outputDir) ∨
    (o.outputDir = "" ∧ valuesOf "-o" args = [r.outputDir] ∧ fs.isDir dir r.outputDir = true)
  cwd : r.cwd = (valuesOf "--cwd" args).foldl (fun _ v => v) o.cwd
  cwdOnce : ∀ x ∈ (o.cwd :: valuesOf "--cwd" args).dropLast, x = ""
  mockOnly : r.mockOnly = (valuesOf "--mock-only" args).foldl insert o.mockOnly
  attrs : r.attrs = (valuesOf "--generate-attribute" args).foldl insert o.attrs
  ignoreTypes : r.ignoreTypes = (valuesOf "--ignore-field-generation-of" args).foldl insert o.ignoreTypes
  ignoreFuns : r.ignoreFuns = (valuesOf "--ignore-generation-of" args).foldl insert o.ignoreFuns
  comparators : r.comparators = (valuesOf "--generate-comparator-of" args).foldl insert o.comparators
  genTypes : r.genTypes = (o.genTypes || decide ("--generate-types" ∈ args))
  mockCpp : r.mockCpp = (o.mockCpp || decide ("--mock-cpp" ∈ args))
  ignoreErr : r.ignoreParserError = (o.ignoreParserError || decide ("--ignore-parser-error" ∈ args))
  included : r.genIncluded = (o.genIncluded || decide ("--generate-included-functions" ∈ args))
  extra : r.extraArgs = o.extraArgs ++ forwarded none args
  noHelp : "-h" ∉ args ∧ "--help" ∉ args
  found : r.input ≠ "" ∧ r.outputDir ≠ ""

theorem says_nil {o : Options} (h : Accepted (finish o)) : Says fs dir o [] (finish o) := by
  have e : finish o = o ∧ o.input ≠ "" ∧ o.outputDir ≠ "" := by
    unfold finish at h ⊢
    split at h
    · exact absurd h (not_accepted_error (by decide))
    · split at h
      · exact absurd h (not_accepted_error (by decide))
      · rename_i h1 h2; simp [h1, h2]
  rw [e.1]
  constructor <;> simp [valuesOf, forwarded, e.2]

theorem forwarded_nil : forwarded none [] = [] := rfl

theorem forwarded_single {a : String} : forwarded none [a] = if a ∈ toolOptions ∧ a ≠ "-i" ∧ a ≠ "-o" then [] else [a] := by
  simp only [forwarded, isValue_none, false_or, List.append_nil, and_true, not_or]

/-- Going on after one argument that sets nothing but flags and the forwarded arguments. -/
theorem Says.one {o o' r : Options} {a : String} {rest : List String} (S : Says fs dir o' rest r)
    (hv : ∀ opt ∈ valueOptions, valuesOf opt (a :: rest) = valuesOf opt rest)
    (h1 : o'.input = o.input) (h2 : o'.outputDir = o.outputDir) (h3 : o'.cwd = o.cwd) (h4 : o'.mockOnly = o.mockOnly)
    (h5 : o'.attrs = o.attrs) (h6 : o'.ignoreTypes = o.ignoreTypes) (h7 : o'.ignoreFuns = o.ignoreFuns)
    (h8 : o'.comparators = o.comparators)
    (h9 : o'.genTypes = (o.genTypes || decide (a = "--generate-types")))
    (h10 : o'.mockCpp = (o.mockCpp || decide (a = "--mock-cpp")))
    (h11 : o'.ignoreParserError = (o.ignoreParserError || decide (a = "--ignore-parser-error")))
    (h12 : o'.genIncluded = (o.genIncluded || decide (a = "--generate-included-functions")))
    (h13 : o'.extraArgs ++ forwarded none rest = o.extraArgs ++ forwarded none (a :: rest))
    (h14 : a ≠ "-h" ∧ a ≠ "--help") : Says fs dir o (a :: rest) r := by
  have m : ∀ x b : String, ∀ l : List String, decide (x ∈ b :: l) = (decide (b = x) || decide (x ∈ l)) := fun x b l => by
    by_cases e : x = b
    · simp [e]
    · simp [e, Ne.symm e]
  refine ⟨?_, ?_, ?_, ?_, ?_, ?_, ?_, ?_, ?_, ?_, ?_, ?_, ?_, ?_, ?_, S.found⟩
  · rw [hv _ (by decide), ← h1]; exact S.input
  · rw [hv _ (by decide), ← h2]; exact S.output
  · rw [hv _ (by decide), ← h3]; exact S.cwd
  · rw [hv _ (by decide), ← h3]; exact S.cwdOnce
  · rw [hv _ (by decide), ← h4]; exact S.mockOnly
  · rw [hv _ (by decide), ← h5]; exact S.attrs
  · rw [hv _ (by decide), ← h6]; exact S.ignoreTypes
  · rw [hv _ (by decide), ← h7]; exact S.ignoreFuns
  · rw [hv _ (by decide), ← h8]; exact S.comparators
  · rw [S.genTypes, h9, m, Bool.or_assoc]
  · rw [S.mockCpp, h10, m, Bool.or_assoc]
  · rw [S.ignoreErr, h11, m, Bool.or_assoc]
  · rw [S.included, h12, m, Bool.or_assoc]
  · rw [S.extra, h13]
  · simp only [List.mem_cons, not_or]
    exact ⟨⟨Ne.symm h14.1, S.noHelp.1⟩, Ne.symm h14.2, S.noHelp.2⟩

/-- The values of the options after an option that takes one. -/
theorem valuesOf_two {opt a v : String} {rest : List String} (ho : opt ∈ valueOptions) (hv : dash v = false) :
    valuesOf opt (a :: v :: rest) = (if a = opt then [v] else []) ++ valuesOf opt rest := by
  rw [valuesOf_cons, valuesOf_skip rest hv (valueOptions_sub ho)]
  simp [hv]

theorem not_mem_two {x a v : String} {rest : List String} (hx : x ∈ toolOptions) (ha : a ≠ x) (hv : dash v = false) :
    (x ∈ a :: v :: rest) ↔ x ∈ rest := by
  simp only [List.mem_cons]
  constructor
  · rintro (h | h | h)
    · exact absurd h.symm ha
    · exact absurd (h ▸ hx) (nodash_not_option hv)
    · exact h
  · exact fun h => .inr (.inr h)

theorem valuesOf_one {opt a v : String} {rest : List String} (h : a ≠ opt ∨ dash v = true) :
    valuesOf opt (a :: v :: rest) = valuesOf opt (v :: rest) := by
  rw [valuesOf_cons]
  have : ¬ (a = opt ∧ dash v = false) := by rintro ⟨h1, h2⟩; rcases h with h | h <;> simp_all
  simp [this]

/-- Going on after an option with its value. `hset` describes the effect of the option. -/
theorem Says.two {o o' r : Options} {a v : String} {rest : List String} (S : Says fs dir o' rest r) (ha : a ∈ valueOptions)
    (hv : dash v = false)
    (h1 : if a = "-i" then o.input = "" ∧ o'.input = v ∧ v ≠ "" ∧ fs.isRegular dir v = true else o'.input = o.input)
    (h2 : if a = "-o" then o.outputDir = "" ∧ o'.outputDir = v ∧ v ≠ "" ∧ fs.isDir dir v = true else o'.outputDir = o.outputDir)
    (h3 : if a = "--cwd" then o.cwd = "" ∧ o'.cwd = v else o'.cwd = o.cwd)
    (h4 : o'.mockOnly = if a = "--mock-only" then insert o.mockOnly v else o.mockOnly)
    (h5 : o'.attrs = if a = "--generate-attribute" then insert o.attrs v else o.attrs)
    (h6 : o'.ignoreTypes = if a = "--ignore-field-generation-of" then insert o.ignoreTypes v else o.ignoreTypes)
    (h7 : o'.ignoreFuns = if a = "--ignore-generation-of" then insert o.ignoreFuns v else o.ignoreFuns)
    (h8 : o'.comparators = if a = "--generate-comparator-of" then insert o.comparators v else o.comparators)
    (h9 : o'.genTypes = o.genTypes) (h10 : o'.mockCpp = o.mockCpp) (h11 : o'.ignoreParserError = o.ignoreParserError)
    (h12 : o'.genIncluded = o.genIncluded) (h13 : o'.extraArgs = o.extraArgs) : Says fs dir o (a :: v :: rest) r := by
  have hne : ∀ x, x ∉ valueOptions → a ≠ x := fun x hx e => hx (e ▸ ha)
  refine ⟨?_, ?_, ?_, ?_, ?_, ?_, ?_, ?_, ?_, ?_, ?_, ?_, ?_, ?_, ?_, S.found⟩
  · rw [valuesOf_two (by decide) hv]
    split at h1
    · rename_i e
      obtain ⟨i1, i2, i3, i4⟩ := h1
      rcases S.input with ⟨j1, j2⟩ | ⟨j1, _⟩
      · exact .inr ⟨i1, by rw [if_pos e, j1, j2, i2]; rfl, by rw [j2, i2, i4]⟩
      · rw [i2] at j1; exact absurd j1 i3
    · rename_i e
      rw [if_neg e, List.nil_append, ← h1]
      exact S.input
  · rw [valuesOf_two (by decide) hv]
    split at h2
    · rename_i e
      obtain ⟨i1, i2, i3, i4⟩ := h2
      rcases S.output with ⟨j1, j2⟩ | ⟨j1, _⟩
      · exact .inr ⟨i1, by rw [if_pos e, j1, j2, i2]; rfl, by rw [j2, i2, i4]⟩
      · rw [i2] at j1; exact absurd j1 i3
    · rename_i e
      rw [if_neg e, List.nil_append, ← h2]
      exact S.output
  · rw [valuesOf_two (by decide) hv, S.cwd]
    split at h3
    · rename_i e; rw [if_pos e, List.foldl_append, h3.2]; rfl
    · rename_i e; rw [if_neg e, List.nil_append, h3]
  · rw [valuesOf_two (by decide) hv]
    have hc := S.cwdOnce
    split at h3
    · rename_i e
      rw [h3.2] at hc
      rw [if_pos e, List.cons_append, List.nil_append, List.dropLast_cons_cons]
      intro x hx
      rcases List.mem_cons.mp hx with rfl | hx
      · exact h3.1
      · exact hc x hx
    · rename_i e
      rw [h3] at hc
      rw [if_neg e, List.nil_append]; exact hc
  · rw [valuesOf_two (by decide) hv, S.mockOnly, h4]; split <;> rfl
  · rw [valuesOf_two (by decide) hv, S.attrs, h5]; split <;> rfl
  · rw [valuesOf_two (by decide) hv, S.ignoreTypes, h6]; split <;> rfl
  · rw [valuesOf_two (by decide) hv, S.ignoreFuns, h7]; split <;> rfl
  · rw [valuesOf_two (by decide) hv, S.comparators, h8]; split <;> rfl
  · rw [S.genTypes, h9]; simp only [not_mem_two (by decide : "--generate-types" ∈ toolOptions) (hne _ (by decide)) hv]
  · rw [S.mockCpp, h10]; simp only [not_mem_two (by decide : "--mock-cpp" ∈ toolOptions) (hne _ (by decide)) hv]
  · rw [S.ignoreErr, h11]; simp only [not_mem_two (by decide : "--ignore-parser-error" ∈ toolOptions) (hne _ (by decide)) hv]
  · rw [S.included, h12]; simp only [not_mem_two (by decide : "--generate-included-functions" ∈ toolOptions) (hne _ (by decide)) hv]
  · rw [S.extra, h13, forwarded_two ha hv]
  · have k1 := not_mem_two (rest := rest) (by decide : "-h" ∈ toolOptions) (hne _ (by decide)) hv
    have k2 := not_mem_two (rest := rest) (by decide : "--help" ∈ toolOptions) (hne _ (by decide)) hv
    rw [k1, k2]; exact S.noHelp

theorem loop_single (o : Options) (a : String) : loop fs dir o [a] =
    match act fs dir o a none with
    | .stop o' => o'
    | .one o' | .two o' => finish o' := rfl

theorem loop_cons (o : Options) (a v : String) (rest : List String) : loop fs dir o (a :: v :: rest) =
    match act fs dir o a (some v) with
    | .stop o' => o'
    | .one o' => loop fs dir o' (v :: rest)
    | .two o' => loop fs dir o' rest := rfl

theorem valuesOf_single_eq (a : String) : ∀ opt ∈ valueOptions, valuesOf opt [a] = valuesOf opt [] := fun _ _ => rfl

theorem loop_says (hreg : fs.isRegular dir "" = false) (hdir : fs.isDir dir "" = false) :
    ∀ (n : Nat) (args : List String), args.length ≤ n → ∀ o : Options, Accepted (loop fs dir o args) →
    Says fs dir o args (loop fs dir o args) := by
  intro n
  induction n with
  | zero =>
    intro args hl o h
    have : args = [] := List.eq_nil_of_length_eq_zero (by omega)
    subst this
    exact says_nil h
  | succ n ih =>
    intro args hl o h
    match args, hl, h with
    | [], _, h => exact says_nil h
    | [a], _, h =>
      rw [loop_single] at h ⊢
      by_cases ha : a ∈ toolOptions
      · rcases option_cases ha with rfl | rfl | rfl | rfl | rfl | rfl | rfl | rfl | rfl | rfl | rfl | rfl | rfl | rfl
        · rw [act_input_none] at h ⊢
          refine (says_nil h).one (valuesOf_single_eq _) rfl rfl rfl rfl rfl rfl rfl rfl ?_ ?_ ?_ ?_ ?_ (by decide) <;> simp [forwarded_single, forwarded_nil]
        · rw [act_output_none] at h ⊢
          refine (says_nil h).one (valuesOf_single_eq _) rfl rfl rfl rfl rfl rfl rfl rfl ?_ ?_ ?_ ?_ ?_ (by decide) <;> simp [forwarded_single, forwarded_nil]
        · rw [act_mockOnly_none] at h; exact absurd h (not_accepted_error (by decide))
        · rw [act_cwd_none] at h
          by_cases c1 : o.cwd ≠ ""
          · rw [if_pos c1] at h; exact absurd h (fun h => absurd (show errCwdTwice = "" from h.1) (by decide))
          · rw [if_neg c1] at h; exact absurd h (not_accepted_error (by decide))
        · rw [act_attr_none] at h; exact absurd h (not_accepted_error (by decide))
        · rw [act_ignoreField_none] at h; exact absurd h (not_accepted_error (by decide))
        · rw [act_ignoreGen_none] at h; exact absurd h (not_accepted_error (by decide))
        · rw [act_comparator_none] at h; exact absurd h (not_accepted_error (by decide))
        · rw [act_h] at h; exact absurd h (not_accepted_help _)
        · rw [act_help] at h; exact absurd h (not_accepted_help _)
        · rw [act_types] at h ⊢
          refine (says_nil h).one (valuesOf_single_eq _) rfl rfl rfl rfl rfl rfl rfl rfl ?_ ?_ ?_ ?_ ?_ (by decide) <;> simp [forwarded_single, forwarded_nil, ha]
        · rw [act_cpp] at h ⊢
          refine (says_nil h).one (valuesOf_single_eq _) rfl rfl rfl rfl rfl rfl rfl rfl ?_ ?_ ?_ ?_ ?_ (by decide) <;> simp [forwarded_single, forwarded_nil, ha]
        · rw [act_ignoreErr] at h ⊢
          refine (says_nil h).one (valuesOf_single_eq _) rfl rfl rfl rfl rfl rfl rfl rfl ?_ ?_ ?_ ?_ ?_ (by decide) <;> simp [forwarded_single, forwarded_nil, ha]
        · rw [act_included] at h ⊢
          refine (says_nil h).one (valuesOf_single_eq _) rfl rfl rfl rfl rfl rfl rfl rfl ?_ ?_ ?_ ?_ ?_ (by decide) <;> simp [forwarded_single, forwarded_nil, ha]
      · rw [act_other _ _ ha] at h ⊢
        obtain ⟨k1, k2, k3, k4, k5, k6, k7, k8, k9, k10, k11, k12, k13, k14⟩ := not_option ha
        refine (says_nil h).one (valuesOf_single_eq _) rfl rfl rfl rfl rfl rfl rfl rfl ?_ ?_ ?_ ?_ ?_ ⟨k9, k10⟩ <;>
          simp [forwarded_single, forwarded_nil, ha, k11, k12, k13, k14]
    | a :: v :: rest, hl, h =>
      rw [loop_cons] at h ⊢
      have ih1 : ∀ o : Options, Accepted (loop fs dir o (v :: rest)) → Says fs dir o (v :: rest) (loop fs dir o (v :: rest)) :=
        ih (v :: rest) (by simpa using hl)
      have ih2 : ∀ o : Options, Accepted (loop fs dir o rest) → Says fs dir o rest (loop fs dir o rest) :=
        ih rest (by simp only [List.length_cons] at hl; omega)
      by_cases ha : a ∈ toolOptions
      · rcases option_cases ha with rfl | rfl | rfl | rfl | rfl | rfl | rfl | rfl | rfl | rfl | rfl | rfl | rfl | rfl
        · rw [act_input] at h ⊢
          by_cases c1 : o.input ≠ ""
          · rw [if_pos c1] at h; exact absurd h (not_accepted_error (by decide))
          · rw [if_neg c1] at h ⊢
            by_cases c2 : dash v = true
            · rw [if_pos c2] at h ⊢
              refine (ih1 _ h).one (fun opt ho => valuesOf_one (.inr c2)) rfl rfl rfl rfl rfl rfl rfl rfl ?_ ?_ ?_ ?_ ?_ (by decide) <;>
                simp [forwarded_opt ha (.inr c2)]
            · rw [if_neg c2] at h ⊢
              have c2 : dash v = false := by simpa using c2
              by_cases c3 : fs.isRegular dir v = false
              · rw [if_pos c3] at h; exact absurd h (not_accepted_error (by decide))
              · rw [if_neg c3] at h ⊢
                have c3 : fs.isRegular dir v = true := by simpa using c3
                have hv : v ≠ "" := fun e => by rw [e, hreg] at c3; simp at c3
                refine (ih2 _ h).two (by decide) c2 ?_ ?_ ?_ ?_ ?_ ?_ ?_ ?_ rfl rfl rfl rfl rfl <;> simp_all
        · rw [act_output] at h ⊢
          by_cases c1 : o.outputDir ≠ ""
          · rw [if_pos c1] at h; exact absurd h (not_accepted_error (by decide))
          · rw [if_neg c1] at h ⊢
            by_cases c2 : dash v = true
            · rw [if_pos c2] at h ⊢
              refine (ih1 _ h).one (fun opt ho => valuesOf_one (.inr c2)) rfl rfl rfl rfl rfl rfl rfl rfl ?_ ?_ ?_ ?_ ?_ (by decide) <;>
                simp [forwarded_opt ha (.inr c2)]
            · rw [if_neg c2] at h ⊢
              have c2 : dash v = false := by simpa using c2
              by_cases c3 : fs.isDir dir v = false
              · rw [if_pos c3] at h; exact absurd h (not_accepted_error (by decide))
              · rw [if_neg c3] at h ⊢
                have c3 : fs.isDir dir v = true := by simpa using c3
                have hv : v ≠ "" := fun e => by rw [e, hdir] at c3; simp at c3
                refine (ih2 _ h).two (by decide) c2 ?_ ?_ ?_ ?_ ?_ ?_ ?_ ?_ rfl rfl rfl rfl rfl <;> simp_all
        · rw [act_mockOnly] at h ⊢
          by_cases c2 : dash v = true
          · rw [if_pos c2] at h; exact absurd h (not_accepted_error (by decide))
          · rw [if_neg c2] at h ⊢
            refine (ih2 _ h).two (by decide) (by simpa using c2) ?_ ?_ ?_ ?_ ?_ ?_ ?_ ?_ rfl rfl rfl rfl rfl <;> simp
        · rw [act_cwd] at h ⊢
          by_cases c1 : o.cwd ≠ ""
          · rw [if_pos c1] at h; exact absurd h (fun h => absurd (show errCwdTwice = "" from h.1) (by decide))
          · rw [if_neg c1] at h ⊢
            by_cases c2 : dash v = true
            · rw [if_pos c2] at h; exact absurd h (not_accepted_error (by decide))
            · rw [if_neg c2] at h ⊢
              have c1 : o.cwd = "" := by simpa using c1
              refine (ih2 _ h).two (by decide) (by simpa using c2) ?_ ?_ ?_ ?_ ?_ ?_ ?_ ?_ rfl rfl rfl rfl rfl <;> simp [c1]
        · rw [act_attr] at h ⊢
          by_cases c2 : dash v = true
          · rw [if_pos c2] at h; exact absurd h (not_accepted_error (by decide))
          · rw [if_neg c2] at h ⊢
            refine (ih2 _ h).two (by decide) (by simpa using c2) ?_ ?_ ?_ ?_ ?_ ?_ ?_ ?_ rfl rfl rfl rfl rfl <;> simp
        · rw [act_ignoreField] at h ⊢
          by_cases c2 : dash v = true
          · rw [if_pos c2] at h; exact absurd h (not_accepted_error (by decide))
          · rw [if_neg c2] at h ⊢
            refine (ih2 _ h).two (by decide) (by simpa using c2) ?_ ?_ ?_ ?_ ?_ ?_ ?_ ?_ rfl rfl rfl rfl rfl <;> simp
        · rw [act_ignoreGen] at h ⊢
          by_cases c2 : dash v = true
          · rw [if_pos c2] at h; exact absurd h (not_accepted_error (by decide))
          · rw [if_neg c2] at h ⊢
            refine (ih2 _ h).two (by decide) (by simpa using c2) ?_ ?_ ?_ ?_ ?_ ?_ ?_ ?_ rfl rfl rfl rfl rfl <;> simp
        · rw [act_comparator] at h ⊢
          by_cases c2 : dash v = true
          · rw [if_pos c2] at h; exact absurd h (not_accepted_error (by decide))
          · rw [if_neg c2] at h ⊢
            refine (ih2 _ h).two (by decide) (by simpa using c2) ?_ ?_ ?_ ?_ ?_ ?_ ?_ ?_ rfl rfl rfl rfl rfl <;> simp
        · rw [act_h] at h; exact absurd h (not_accepted_help _)
        · rw [act_help] at h; exact absurd h (not_accepted_help _)
        · rw [act_types] at h ⊢
          refine (ih1 _ h).one (fun opt ho => valuesOf_one (.inl fun e => by subst e; revert ho; decide)) rfl rfl rfl rfl rfl rfl rfl rfl ?_ ?_ ?_ ?_ ?_ (by decide) <;>
            simp [forwarded_opt ha (.inl (by decide))]
        · rw [act_cpp] at h ⊢
          refine (ih1 _ h).one (fun opt ho => valuesOf_one (.inl fun e => by subst e; revert ho; decide)) rfl rfl rfl rfl rfl rfl rfl rfl ?_ ?_ ?_ ?_ ?_ (by decide) <;>
            simp [forwarded_opt ha (.inl (by decide))]
        · rw [act_ignoreErr] at h ⊢
          refine (ih1 _ h).one (fun opt ho => valuesOf_one (.inl fun e => by subst e; revert ho; decide)) rfl rfl rfl rfl rfl rfl rfl rfl ?_ ?_ ?_ ?_ ?_ (by decide) <;>
            simp [forwarded_opt ha (.inl (by decide))]
        · rw [act_included] at h ⊢
          refine (ih1 _ h).one (fun opt ho => valuesOf_one (.inl fun e => by subst e; revert ho; decide)) rfl rfl rfl rfl rfl rfl rfl rfl ?_ ?_ ?_ ?_ ?_ (by decide) <;>
            simp [forwarded_opt ha (.inl (by decide))]
      · rw [act_other _ _ ha] at h ⊢
        obtain ⟨k1, k2, k3, k4, k5, k6, k7, k8, k9, k10, k11, k12, k13, k14⟩ := not_option ha
        refine (ih1 _ h).one (fun opt ho => valuesOf_one (.inl fun e => ha (e ▸ valueOptions_sub ho))) rfl rfl rfl rfl rfl rfl rfl rfl ?_ ?_ ?_ ?_ ?_ ⟨k9, k10⟩ <;>
          simp [forwarded_other ha, k11, k12, k13, k14]

/-- Everything an accepted command line says. -/
theorem parse_says (hreg : fs.isRegular dir "" = false) (hdir : fs.isDir dir "" = false) {args : List String}
    (h : Accepted (parse fs dir args)) : Says fs dir {} args (parse fs dir args) :=
  loop_says hreg hdir args.length args (Nat.le_refl _) _ h

end EasyMock.CmdLine
