import Verif.CmdLine.Lemmas

/-!
# Argument vectors made of complete groups, duplicated options, help
-/

namespace EasyMock.CmdLine
variable {fs : FS} {dir : String}

/-- The effect of a group on the options. -/
def applyGroup (o : Options) : Group → Options
  | .opt n v =>
    if n = "-i" then { o with input := v }
    else if n = "-o" then { o with outputDir := v }
    else if n = "--mock-only" then { o with mockOnly := insert o.mockOnly v }
    else if n = "--cwd" then { o with cwd := v }
    else if n = "--generate-attribute" then { o with attrs := insert o.attrs v }
    else if n = "--ignore-field-generation-of" then { o with ignoreTypes := insert o.ignoreTypes v }
    else if n = "--ignore-generation-of" then { o with ignoreFuns := insert o.ignoreFuns v }
    else { o with comparators := insert o.comparators v }
  | .flag n =>
    if n = "--generate-types" then { o with genTypes := true }
    else if n = "--mock-cpp" then { o with mockCpp := true }
    else if n = "--ignore-parser-error" then { o with ignoreParserError := true }
    else { o with genIncluded := true }
  | .extra a => { o with extraArgs := o.extraArgs ++ [a] }

theorem value_cases {a : String} (h : a ∈ valueOptions) :
    a = "-i" ∨ a = "-o" ∨ a = "--mock-only" ∨ a = "--cwd" ∨ a = "--generate-attribute" ∨ a = "--ignore-field-generation-of" ∨
    a = "--ignore-generation-of" ∨ a = "--generate-comparator-of" := by
  unfold valueOptions at h
  simpa only [List.mem_cons, List.not_mem_nil, or_false] using h

theorem flag_cases {a : String} (h : a ∈ flags) :
    a = "--generate-types" ∨ a = "--mock-cpp" ∨ a = "--ignore-parser-error" ∨ a = "--generate-included-functions" := by
  unfold flags at h
  simpa only [List.mem_cons, List.not_mem_nil, or_false] using h

/-- One argument that is a flag or not for the tool. -/
theorem loop_one {o o' : Options} {a : String} (h : ∀ n, act fs dir o a n = .one o') (rest : List String) :
    loop fs dir o (a :: rest) = loop fs dir o' rest := by
  cases rest with
  | nil => rw [loop_single, h]; rfl
  | cons v r => rw [loop_cons, h]

theorem loop_group {o : Options} {g : Group} (hg : g.Valid fs dir) (rest : List String)
    (hi : (g.valueOf "-i").isSome → o.input = "") (ho : (g.valueOf "-o").isSome → o.outputDir = "")
    (hc : (g.valueOf "--cwd").isSome → o.cwd = "") :
    loop fs dir o (g.render ++ rest) = loop fs dir (applyGroup o g) rest := by
  cases g with
  | opt n v =>
    obtain ⟨hn, hv, h1, h2, h3⟩ := hg
    show loop fs dir o (n :: v :: rest) = _
    rcases value_cases hn with rfl | rfl | rfl | rfl | rfl | rfl | rfl | rfl
    · have := hi rfl; rw [loop_cons, act_input]; simp [this, hv, h1]; rfl
    · have := ho rfl; rw [loop_cons, act_output]; simp [this, hv, h2]; rfl
    · rw [loop_cons, act_mockOnly]; simp [hv]; rfl
    · have := hc rfl; rw [loop_cons, act_cwd]; simp [this, hv]; rfl
    · rw [loop_cons, act_attr]; simp [hv]; rfl
    · rw [loop_cons, act_ignoreField]; simp [hv]; rfl
    · rw [loop_cons, act_ignoreGen]; simp [hv]; rfl
    · rw [loop_cons, act_comparator]; simp [hv]; rfl
  | flag n =>
    show loop fs dir o (n :: rest) = _
    rcases flag_cases hg with rfl | rfl | rfl | rfl
    · exact loop_one (fun n => act_types o n) rest
    · exact loop_one (fun n => act_cpp o n) rest
    · exact loop_one (fun n => act_ignoreErr o n) rest
    · exact loop_one (fun n => act_included o n) rest
  | extra a => exact loop_one (fun n => act_other o n hg) rest

theorem apply_input (o : Options) {g : Group} (hg : g.Valid fs dir) : (applyGroup o g).input = ((g.valueOf "-i").getD o.input) := by
  cases g with
  | opt n v => rcases value_cases hg.1 with rfl | rfl | rfl | rfl | rfl | rfl | rfl | rfl <;> rfl
  | flag n => rcases flag_cases hg with rfl | rfl | rfl | rfl <;> rfl
  | extra a => rfl

theorem apply_output (o : Options) {g : Group} (hg : g.Valid fs dir) : (applyGroup o g).outputDir = ((g.valueOf "-o").getD o.outputDir) := by
  cases g with
  | opt n v => rcases value_cases hg.1 with rfl | rfl | rfl | rfl | rfl | rfl | rfl | rfl <;> rfl
  | flag n => rcases flag_cases hg with rfl | rfl | rfl | rfl <;> rfl
  | extra a => rfl

theorem apply_cwd (o : Options) {g : Group} (hg : g.Valid fs dir) : (applyGroup o g).cwd = ((g.valueOf "--cwd").getD o.cwd) := by
  cases g with
  | opt n v => rcases value_cases hg.1 with rfl | rfl | rfl | rfl | rfl | rfl | rfl | rfl <;> rfl
  | flag n => rcases flag_cases hg with rfl | rfl | rfl | rfl <;> rfl
  | extra a => rfl

theorem apply_msgs (o : Options) {g : Group} (hg : g.Valid fs dir) :
    (applyGroup o g).errorMessage = o.errorMessage ∧ (applyGroup o g).helpMessage = o.helpMessage := by
  cases g with
  | opt n v => rcases value_cases hg.1 with rfl | rfl | rfl | rfl | rfl | rfl | rfl | rfl <;> exact ⟨rfl, rfl⟩
  | flag n => rcases flag_cases hg with rfl | rfl | rfl | rfl <;> exact ⟨rfl, rfl⟩
  | extra a => exact ⟨rfl, rfl⟩

theorem given_cons (n : String) (g : Group) (gs : List Group) :
    given n (g :: gs) = (match g.valueOf n with | some v => [v] | none => []) ++ given n gs := by
  unfold given
  rw [List.filterMap_cons]
  cases g.valueOf n <;> rfl

/-- At most one of each single-value option, none of them set before. -/
structure Once (o : Options) (gs : List Group) : Prop where
  input : (given "-i" gs).length ≤ 1 ∧ (given "-i" gs ≠ [] → o.input = "")
  output : (given "-o" gs).length ≤ 1 ∧ (given "-o" gs ≠ [] → o.outputDir = "")
  cwd : (given "--cwd" gs).length ≤ 1 ∧ (given "--cwd" gs ≠ [] → o.cwd = "")

theorem once_step {n : String} {g : Group} {gs : List Group} {x : String} (h : (given n (g :: gs)).length ≤ 1 ∧ (given n (g :: gs) ≠ [] → x = "")) :
    ((g.valueOf n).isSome → x = "") ∧ ((given n gs).length ≤ 1 ∧ (given n gs ≠ [] → (g.valueOf n).getD x = "")) := by
  rw [given_cons] at h
  cases hv : g.valueOf n with
  | none => rw [hv] at h; simpa using h
  | some v =>
    rw [hv] at h
    have : given n gs = [] := List.eq_nil_of_length_eq_zero (by have := h.1; simp at this; simpa using this)
    simp only [this] at h ⊢
    simp at h ⊢
    exact h

theorem loop_groups : ∀ (gs : List Group) (o : Options) (rest : List String), (∀ g ∈ gs, g.Valid fs dir) → Once o gs →
    loop fs dir o (renderAll gs ++ rest) = loop fs dir (gs.foldl applyGroup o) rest
  | [], _, _, _, _ => rfl
  | g :: gs, o, rest, hv, h => by
    have hg := hv g (by simp)
    have a1 := once_step h.input
    have a2 := once_step h.output
    have a3 := once_step h.cwd
    have := loop_groups gs (applyGroup o g) rest (fun g' h' => hv g' (by simp [h']))
      ⟨by rw [apply_input o hg]; exact a1.2, by rw [apply_output o hg]; exact a2.2, by rw [apply_cwd o hg]; exact a3.2⟩
    rw [List.foldl_cons, ← this, ← loop_group hg _ a1.1 a2.1 a3.1]
    simp [renderAll]

theorem foldl_input : ∀ (gs : List Group) (o : Options), (∀ g ∈ gs, g.Valid fs dir) →
    (gs.foldl applyGroup o).input = (given "-i" gs).foldl (fun _ v => v) o.input
  | [], _, _ => rfl
  | g :: gs, o, h => by
    rw [List.foldl_cons, foldl_input gs _ (fun g' h' => h g' (by simp [h'])), apply_input o (h g (by simp)), given_cons]
    cases g.valueOf "-i" <;> rfl

theorem foldl_output : ∀ (gs : List Group) (o : Options), (∀ g ∈ gs, g.Valid fs dir) →
    (gs.foldl applyGroup o).outputDir = (given "-o" gs).foldl (fun _ v => v) o.outputDir
  | [], _, _ => rfl
  | g :: gs, o, h => by
    rw [List.foldl_cons, foldl_output gs _ (fun g' h' => h g' (by simp [h'])), apply_output o (h g (by simp)), given_cons]
    cases g.valueOf "-o" <;> rfl

theorem foldl_cwd : ∀ (gs : List Group) (o : Options), (∀ g ∈ gs, g.Valid fs dir) →
    (gs.foldl applyGroup o).cwd = (given "--cwd" gs).foldl (fun _ v => v) o.cwd
  | [], _, _ => rfl
  | g :: gs, o, h => by
    rw [List.foldl_cons, foldl_cwd gs _ (fun g' h' => h g' (by simp [h'])), apply_cwd o (h g (by simp)), given_cons]
    cases g.valueOf "--cwd" <;> rfl

theorem foldl_msgs : ∀ (gs : List Group) (o : Options), (∀ g ∈ gs, g.Valid fs dir) →
    (gs.foldl applyGroup o).errorMessage = o.errorMessage ∧ (gs.foldl applyGroup o).helpMessage = o.helpMessage
  | [], _, _ => ⟨rfl, rfl⟩
  | g :: gs, o, h => by
    have h1 := foldl_msgs gs (applyGroup o g) (fun g' h' => h g' (by simp [h']))
    have h2 := apply_msgs o (h g (by simp))
    rw [List.foldl_cons, h1.1, h1.2]; exact h2

theorem given_valid {n : String} {gs : List Group} {v : String} (h : v ∈ given n gs) : Group.opt n v ∈ gs := by
  obtain ⟨g, hg, e⟩ := List.mem_filterMap.mp h
  cases g with
  | opt m w =>
    simp only [Group.valueOf] at e
    split at e
    · rename_i e'; cases e; subst e'; exact hg
    · cases e
  | flag _ => cases e
  | extra _ => cases e

/-- A complete command line is accepted. -/
theorem accepted_groups {gs : List Group} (hv : ∀ g ∈ gs, g.Valid fs dir) (h1 : (given "-i" gs).length = 1)
    (h2 : (given "-o" gs).length = 1) (h3 : (given "--cwd" gs).length ≤ 1) : Accepted (parse fs dir (renderAll gs)) := by
  have h := loop_groups gs {} [] hv ⟨⟨by omega, fun _ => rfl⟩, ⟨by omega, fun _ => rfl⟩, ⟨h3, fun _ => rfl⟩⟩
  rw [List.append_nil] at h
  unfold parse
  rw [h]
  show Accepted (finish _)
  obtain ⟨x, hx⟩ := List.length_eq_one_iff.mp h1
  obtain ⟨y, hy⟩ := List.length_eq_one_iff.mp h2
  have i1 := foldl_input gs {} hv
  have i2 := foldl_output gs {} hv
  rw [hx] at i1
  rw [hy] at i2
  have v1 := ((hv _ (given_valid (n := "-i") (v := x) (by simp [hx]))).2.2.1 rfl).1
  have v2 := ((hv _ (given_valid (n := "-o") (v := y) (by simp [hy]))).2.2.2.1 rfl).1
  have m := foldl_msgs gs {} hv
  unfold finish
  rw [if_neg (by rw [i1]; exact v1), if_neg (by rw [i2]; exact v2)]
  exact ⟨m.1, m.2⟩

/-! ## The values and the rest of a vector of groups -/

theorem render_ne (g : Group) : ∃ a r, g.render = a :: r := by cases g <;> exact ⟨_, _, rfl⟩

theorem valuesOf_one' {opt a : String} (h : a ≠ opt) (rest : List String) : valuesOf opt (a :: rest) = valuesOf opt rest := by
  cases rest with
  | nil => rfl
  | cons v r => exact valuesOf_one (.inl h)

theorem valuesOf_render {n : String} (hn : n ∈ valueOptions) : ∀ (gs : List Group), (∀ g ∈ gs, g.Valid fs dir) →
    valuesOf n (renderAll gs) = given n gs
  | [], _ => rfl
  | g :: gs, h => by
    have ih := valuesOf_render hn gs (fun g' h' => h g' (by simp [h']))
    have hg := h g (by simp)
    rw [given_cons, ← ih]
    show valuesOf n (g.render ++ renderAll gs) = _
    cases g with
    | opt m v =>
      show valuesOf n (m :: v :: renderAll gs) = _
      rw [valuesOf_two hn hg.2.1]
      simp only [Group.valueOf]
      split <;> rfl
    | flag m =>
      refine (valuesOf_one' (fun e => ?_) _)
      subst e
      rcases flag_cases hg with rfl | rfl | rfl | rfl <;> exact absurd hn (by decide)
    | extra a => exact valuesOf_one' (fun e => by subst e; exact hg (valueOptions_sub hn)) _

theorem forwarded_flag {a : String} (h : a ∈ flags) (rest : List String) : forwarded none (a :: rest) = forwarded none rest := by
  cases rest with
  | nil => rcases flag_cases h with rfl | rfl | rfl | rfl <;> decide
  | cons v r =>
    refine forwarded_opt ?_ (.inl ?_) r
    · rcases flag_cases h with rfl | rfl | rfl | rfl <;> decide
    · rcases flag_cases h with rfl | rfl | rfl | rfl <;> decide

theorem forwarded_render : ∀ (gs : List Group), (∀ g ∈ gs, g.Valid fs dir) →
    forwarded none (renderAll gs) = gs.filterMap Group.extraOf
  | [], _ => rfl
  | g :: gs, h => by
    have ih := forwarded_render gs (fun g' h' => h g' (by simp [h']))
    have hg := h g (by simp)
    show forwarded none (g.render ++ renderAll gs) = _
    cases g with
    | opt m v => rw [List.filterMap_cons_none rfl, ← ih]; exact forwarded_two hg.1 hg.2.1 _
    | flag m => rw [List.filterMap_cons_none rfl, ← ih]; exact forwarded_flag hg _
    | extra a => rw [show (Group.extra a :: gs).filterMap Group.extraOf = a :: gs.filterMap Group.extraOf from rfl, ← ih]; exact forwarded_other hg _

theorem mem_render_flag {f : String} (hf : f ∈ flags) {gs : List Group} (h : ∀ g ∈ gs, g.Valid fs dir) :
    f ∈ renderAll gs ↔ Group.flag f ∈ gs := by
  have hft : f ∈ toolOptions := by rcases flag_cases hf with rfl | rfl | rfl | rfl <;> decide
  unfold renderAll
  rw [List.mem_flatMap]
  constructor
  · rintro ⟨g, hg, hm⟩
    have hv := h g hg
    cases g with
    | opt m v =>
      simp only [Group.render, List.mem_cons, List.not_mem_nil, or_false] at hm
      rcases hm with rfl | rfl
      · exact absurd hv.1 (by rcases flag_cases hf with rfl | rfl | rfl | rfl <;> decide)
      · exact absurd hft (nodash_not_option hv.2.1)
    | flag m =>
      simp only [Group.render, List.mem_cons, List.not_mem_nil, or_false] at hm
      exact hm ▸ hg
    | extra a =>
      simp only [Group.render, List.mem_cons, List.not_mem_nil, or_false] at hm
      exact absurd hft (hm ▸ hv)
  · intro hg
    exact ⟨_, hg, by simp [Group.render]⟩

/-! ## Sets -/

theorem mem_insert {l : List String} {x y : String} : y ∈ insert l x ↔ y ∈ l ∨ y = x := by
  unfold insert
  split
  · constructor
    · exact .inl
    · rintro (h | rfl)
      · exact h
      · assumption
  · simp

theorem mem_foldl_insert : ∀ (vs l : List String) (y : String), y ∈ vs.foldl insert l ↔ y ∈ l ∨ y ∈ vs
  | [], _, y => by simp
  | v :: vs, l, y => by
    rw [List.foldl_cons, mem_foldl_insert vs, mem_insert, List.mem_cons]
    constructor
    · rintro ((h | h) | h)
      · exact .inl h
      · exact .inr (.inl h)
      · exact .inr (.inr h)
    · rintro (h | h | h)
      · exact .inl (.inl h)
      · exact .inl (.inr h)
      · exact .inr h

theorem nodup_insert {l : List String} (h : l.Nodup) (x : String) : (insert l x).Nodup := by
  unfold insert
  split
  · exact h
  · rename_i hx
    rw [List.nodup_append]
    refine ⟨h, by simp, fun a ha b hb => ?_⟩
    have : b = x := by simpa using hb
    subst this
    exact fun e => hx (e ▸ ha)

theorem nodup_foldl_insert : ∀ (vs l : List String), l.Nodup → (vs.foldl insert l).Nodup
  | [], _, h => h
  | v :: vs, _, h => nodup_foldl_insert vs _ (nodup_insert h v)

theorem foldl_insert_nodup : ∀ (vs l : List String), (l ++ vs).Nodup → vs.foldl insert l = l ++ vs
  | [], _, _ => by simp
  | v :: vs, l, h => by
    have hv : v ∉ l := fun hm => by
      rw [List.nodup_append] at h
      exact h.2.2 v hm v (by simp) rfl
    have e : insert l v = l ++ [v] := by simp [insert, hv]
    rw [List.foldl_cons, e, foldl_insert_nodup vs (l ++ [v]) (by simpa using h)]
    simp

/-- Two lists without duplicates and with the same members are permutations. -/
theorem perm_of_nodup : ∀ {l₁ l₂ : List String}, l₁.Nodup → l₂.Nodup → (∀ x, x ∈ l₁ ↔ x ∈ l₂) → l₁.Perm l₂ := by
  intro l₁ l₂ h₁ h₂ h
  exact (List.perm_ext_iff_of_nodup h₁ h₂).mpr h

/-! ## Options given twice -/

theorem valuesOf_mid {opt v : String} (hv : dash v = false) (rest : List String) : ∀ pre : List String,
    ∃ l, valuesOf opt (pre ++ opt :: v :: rest) = l ++ v :: valuesOf opt (v :: rest)
  | [] => ⟨[], by rw [List.nil_append, valuesOf_cons]; simp [hv]⟩
  | [a] => by
    refine ⟨if a = opt ∧ dash opt = false then [opt] else [], ?_⟩
    show valuesOf opt (a :: opt :: v :: rest) = _
    rw [valuesOf_cons, valuesOf_cons]
    simp [hv]
  | a :: b :: pre => by
    obtain ⟨l, hl⟩ := valuesOf_mid hv rest (b :: pre)
    refine ⟨(if a = opt ∧ dash b = false then [b] else []) ++ l, ?_⟩
    show valuesOf opt (a :: b :: (pre ++ opt :: v :: rest)) = _
    rw [valuesOf_cons, List.append_assoc, ← hl]
    rfl

/-- Both values of an option given twice, in order. -/
theorem valuesOf_twice {opt v w : String} (ho : opt ∈ toolOptions) (hv : dash v = false) (hw : dash w = false) (pre mid post : List String) :
    ∃ l₁ l₂ l₃, valuesOf opt (pre ++ [opt, v] ++ mid ++ [opt, w] ++ post) = l₁ ++ v :: l₂ ++ w :: l₃ := by
  obtain ⟨l, hl⟩ := valuesOf_mid hv (mid ++ [opt, w] ++ post) pre
  obtain ⟨l', hl'⟩ := valuesOf_mid hw post mid
  refine ⟨l, l', valuesOf opt (w :: post), ?_⟩
  have e : pre ++ [opt, v] ++ mid ++ [opt, w] ++ post = pre ++ opt :: v :: (mid ++ [opt, w] ++ post) := by simp
  rw [e, hl, valuesOf_skip _ hv ho]
  have e2 : mid ++ [opt, w] ++ post = mid ++ opt :: w :: post := by simp
  rw [e2, hl']
  simp

/-! ## Help -/

theorem act_msg (o : Options) (a : String) (n : Option String) (hh : a ≠ "-h" ∧ a ≠ "--help") :
    match act fs dir o a n with
    | .stop o' | .one o' | .two o' => o'.helpMessage = o.helpMessage := by
  by_cases ha : a ∈ toolOptions
  · rcases option_cases ha with rfl | rfl | rfl | rfl | rfl | rfl | rfl | rfl | rfl | rfl | rfl | rfl | rfl | rfl
    case inr.inr.inr.inr.inr.inr.inr.inr.inl => exact absurd rfl hh.1
    case inr.inr.inr.inr.inr.inr.inr.inr.inr.inl => exact absurd rfl hh.2
    all_goals
      cases n with
      | none => simp only [act_input_none, act_output_none, act_mockOnly_none, act_cwd_none, act_attr_none, act_ignoreField_none,
          act_ignoreGen_none, act_comparator_none, act_types, act_cpp, act_ignoreErr, act_included] <;> (try split) <;> (try rfl)
                all_goals (rename_i e; split at e <;> cases e <;> rfl)
      | some v => simp only [act_input, act_output, act_mockOnly, act_cwd, act_attr, act_ignoreField,
          act_ignoreGen, act_comparator, act_types, act_cpp, act_ignoreErr, act_included] <;> (try split) <;> (try rfl)
                  all_goals (rename_i e; (repeat' split at e) <;> cases e <;> rfl)
  · rw [act_other _ _ ha]

theorem finish_help (o : Options) : (finish o).helpMessage = o.helpMessage := by unfold finish; repeat' split
                                                                                 all_goals rfl

/-- Without a request for help there is no help message. -/
theorem loop_help : ∀ (n : Nat) (args : List String), args.length ≤ n → ∀ o : Options, "-h" ∉ args → "--help" ∉ args →
    (loop fs dir o args).helpMessage = o.helpMessage := by
  intro n
  induction n with
  | zero =>
    intro args hl o _ _
    have : args = [] := List.eq_nil_of_length_eq_zero (by omega)
    subst this
    exact finish_help o
  | succ n ih =>
    intro args hl o h1 h2
    match args, hl, h1, h2 with
    | [], _, _, _ => exact finish_help o
    | [a], _, h1, h2 =>
      have hm := act_msg (fs := fs) (dir := dir) o a none ⟨fun e => h1 (by simp [e]), fun e => h2 (by simp [e])⟩
      rw [loop_single]
      split <;> rename_i e <;> rw [e] at hm
      · exact hm
      · rw [finish_help]; exact hm
      · rw [finish_help]; exact hm
    | a :: v :: rest, hl, h1, h2 =>
      have hm := act_msg (fs := fs) (dir := dir) o a (some v) ⟨fun e => h1 (by simp [e]), fun e => h2 (by simp [e])⟩
      rw [loop_cons]
      split <;> rename_i e <;> rw [e] at hm
      · exact hm
      · rw [ih _ (by simpa using hl) _ (fun h => h1 (List.mem_cons_of_mem _ h)) (fun h => h2 (List.mem_cons_of_mem _ h))]; exact hm
      · rw [ih _ (by simp only [List.length_cons] at hl; omega) _ (fun h => h1 (by simp [h])) (fun h => h2 (by simp [h]))]; exact hm

theorem generate_files (fs : FS) (dir : String) (o : Options) :
    (generate fs dir o).2 =
      if fs.writable dir (outFile o.outputDir o.input (if o.mockCpp then "cpp" else "c")) = false then []
      else if fs.writable dir (outFile o.outputDir o.input "h") = false then [outFile o.outputDir o.input (if o.mockCpp then "cpp" else "c")]
      else [outFile o.outputDir o.input (if o.mockCpp then "cpp" else "c"), outFile o.outputDir o.input "h"] := by
  unfold generate
  simp only
  generalize outFile o.outputDir o.input (if o.mockCpp then "cpp" else "c") = s
  by_cases h : fs.writable dir s = false
  · rw [if_pos h, if_pos h]
  · rw [if_neg h, if_neg h]
    split <;> rfl

theorem parse_help {args : List String} (h1 : "-h" ∉ args) (h2 : "--help" ∉ args) : (parse fs dir args).helpMessage = "" :=
  loop_help args.length args (Nat.le_refl _) _ h1 h2

end EasyMock.CmdLine
