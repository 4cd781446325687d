import Verif.CmdLine.Groups

/-!
# C31 - C37: the command line of the tool
-/

namespace EasyMock.CmdLine
variable {fs : FS} {dir : String}

/-- The empty path names nothing (POSIX: ENOENT). -/
def NoEmptyPath (fs : FS) : Prop := ∀ d, fs.isRegular d "" = false ∧ fs.isDir d "" = false

/-- A file system for the examples: `/w/a.h` is a file, `/w/out` and `/w/sub` are directories, `/w/sub/b.h` and
`/w/sub/out` exist below `/w/sub`. -/
def demoFS : FS where
  isRegular d p := (d == "/w" && p == "a.h") || (d == "/w/sub" && p == "b.h")
  isDir d p := (d == "/w" && (p == "out" || p == "sub")) || (d == "/w/sub" && p == "out")
  readable d p := (d == "/w" && p == "a.h") || (d == "/w/sub" && p == "b.h")
  chdir d p := if d == "/w" && p == "sub" then some "/w/sub" else none
  writable d p := d == "/w" && (p == "out/easyMock_a.c" || p == "out/easyMock_a.h")

theorem demoFS_noEmpty : NoEmptyPath demoFS := fun d => by
  have h1 : (("" : String) == "a.h") = false := by decide
  have h2 : (("" : String) == "b.h") = false := by decide
  have h3 : (("" : String) == "out") = false := by decide
  have h4 : (("" : String) == "sub") = false := by decide
  constructor
  · simp [demoFS, h1, h2]
  · simp [demoFS, h3, h4]

/-! ## C31 -/

/-- C31: an accepted command line has exactly one `-i` with a value and exactly one `-o` with a value; the input is the
value of `-i` and is a regular file, the output directory is the value of `-o` and is a directory; neither is empty. -/
theorem C31_accepted_complete (hfs : NoEmptyPath fs) {args : List String} (h : Accepted (parse fs dir args)) :
    valuesOf "-i" args = [(parse fs dir args).input] ∧ fs.isRegular dir (parse fs dir args).input = true ∧
    valuesOf "-o" args = [(parse fs dir args).outputDir] ∧ fs.isDir dir (parse fs dir args).outputDir = true ∧
    (parse fs dir args).input ≠ "" ∧ (parse fs dir args).outputDir ≠ "" := by
  have S := parse_says (hfs dir).1 (hfs dir).2 h
  rcases S.input with ⟨_, e⟩ | ⟨_, h1, h2⟩
  · exact absurd e S.found.1
  · rcases S.output with ⟨_, e⟩ | ⟨_, h3, h4⟩
    · exact absurd e S.found.2
    · exact ⟨h1, h2, h3, h4, S.found.1, S.found.2⟩

/-- C31: every other field of an accepted command line is what the arguments say: sets hold exactly the values of their
option, flags are set exactly when given, `--cwd` is the last value given, and no help was asked. -/
theorem C31_accepted_fields (hfs : NoEmptyPath fs) {args : List String} (h : Accepted (parse fs dir args)) :
    (∀ x, x ∈ (parse fs dir args).mockOnly ↔ x ∈ valuesOf "--mock-only" args) ∧
    (∀ x, x ∈ (parse fs dir args).attrs ↔ x ∈ valuesOf "--generate-attribute" args) ∧
    (∀ x, x ∈ (parse fs dir args).ignoreTypes ↔ x ∈ valuesOf "--ignore-field-generation-of" args) ∧
    (∀ x, x ∈ (parse fs dir args).ignoreFuns ↔ x ∈ valuesOf "--ignore-generation-of" args) ∧
    (∀ x, x ∈ (parse fs dir args).comparators ↔ x ∈ valuesOf "--generate-comparator-of" args) ∧
    ((parse fs dir args).genTypes = true ↔ "--generate-types" ∈ args) ∧
    ((parse fs dir args).mockCpp = true ↔ "--mock-cpp" ∈ args) ∧
    ((parse fs dir args).ignoreParserError = true ↔ "--ignore-parser-error" ∈ args) ∧
    ((parse fs dir args).genIncluded = true ↔ "--generate-included-functions" ∈ args) ∧
    (parse fs dir args).cwd = ((valuesOf "--cwd" args).getLast?).getD "" ∧
    "-h" ∉ args ∧ "--help" ∉ args := by
  have S := parse_says (hfs dir).1 (hfs dir).2 h
  have hs : ∀ vs : List String, ∀ x, x ∈ vs.foldl insert [] ↔ x ∈ vs := fun vs x => by
    rw [mem_foldl_insert]; simp
  have hl : ∀ (vs : List String) (d : String), vs.foldl (fun _ v => v) d = vs.getLast?.getD d := by
    intro vs
    induction vs with
    | nil => intro d; rfl
    | cons v vs ih =>
      intro d
      rw [List.foldl_cons, ih]
      cases vs with
      | nil => rfl
      | cons w ws => simp [List.getLast?_cons]
  refine ⟨?_, ?_, ?_, ?_, ?_, ?_, ?_, ?_, ?_, ?_, S.noHelp.1, S.noHelp.2⟩
  · rw [S.mockOnly]; exact hs _
  · rw [S.attrs]; exact hs _
  · rw [S.ignoreTypes]; exact hs _
  · rw [S.ignoreFuns]; exact hs _
  · rw [S.comparators]; exact hs _
  · rw [S.genTypes]; simp
  · rw [S.mockCpp]; simp
  · rw [S.ignoreErr]; simp
  · rw [S.included]; simp
  · rw [S.cwd]; exact hl _ _

/-- C31: a complete command line is accepted: groups in any order, one `-i` with a file, one `-o` with a directory and at
most one `--cwd`. -/
theorem C31_complete_accepted {gs : List Group} (hv : ∀ g ∈ gs, g.Valid fs dir) (h1 : (given "-i" gs).length = 1)
    (h2 : (given "-o" gs).length = 1) (h3 : (given "--cwd" gs).length ≤ 1) : Accepted (parse fs dir (renderAll gs)) :=
  accepted_groups hv h1 h2 h3

/-- C31: what is missing or wrong is named: after any complete groups, the message is the one of the first problem. -/
theorem C31_problem_named {gs : List Group} (hv : ∀ g ∈ gs, g.Valid fs dir) (h1 : (given "-i" gs).length ≤ 1)
    (h2 : (given "-o" gs).length ≤ 1) (h3 : (given "--cwd" gs).length ≤ 1) :
    -- no input, no output
    (given "-i" gs = [] → (parse fs dir (renderAll gs)).errorMessage = "Error: The input header file is not provided") ∧
    (given "-i" gs ≠ [] → given "-o" gs = [] →
      (parse fs dir (renderAll gs)).errorMessage = "Error: The output directory is not provided") ∧
    -- wrong paths
    (∀ v post, given "-i" gs = [] → dash v = false → fs.isRegular dir v = false →
      (parse fs dir (renderAll gs ++ "-i" :: v :: post)).errorMessage = "Error: Path given to -i isn't a regular file") ∧
    (∀ v post, given "-o" gs = [] → dash v = false → fs.isDir dir v = false →
      (parse fs dir (renderAll gs ++ "-o" :: v :: post)).errorMessage = "Error: Path given to -o isn't a directory") ∧
    -- options given twice
    (∀ v post, given "-i" gs ≠ [] →
      (parse fs dir (renderAll gs ++ "-i" :: v :: post)).errorMessage = "Error: -i argument can be used only once") ∧
    (∀ v post, given "-o" gs ≠ [] →
      (parse fs dir (renderAll gs ++ "-o" :: v :: post)).errorMessage = "Error: -o argument can be used only once") ∧
    (∀ post, given "--cwd" gs ≠ [] →
      (parse fs dir (renderAll gs ++ "--cwd" :: post)).errorMessage = "Error: Argument to --cwd is given more than once") ∧
    -- values missing
    (∀ post, (∀ v r, post = v :: r → dash v = true) →
      (given "--cwd" gs = [] → (parse fs dir (renderAll gs ++ "--cwd" :: post)).errorMessage = "Error: Argument to --cwd is missing") ∧
      (parse fs dir (renderAll gs ++ "--mock-only" :: post)).errorMessage = "Error: Argument to --mock-only is missing" ∧
      (parse fs dir (renderAll gs ++ "--generate-attribute" :: post)).errorMessage = "Error: Argument --generate-attribute needs a value" ∧
      (parse fs dir (renderAll gs ++ "--ignore-field-generation-of" :: post)).errorMessage =
        "Error: Argument --ignore-field-generation-of needs a value" ∧
      (parse fs dir (renderAll gs ++ "--ignore-generation-of" :: post)).errorMessage = "Error: Argument --ignore-generation-of needs a value" ∧
      (parse fs dir (renderAll gs ++ "--generate-comparator-of" :: post)).errorMessage =
        "Error: Argument --generate-comparator-of needs a value") := by
  have hon : Once {} gs := ⟨⟨h1, fun _ => rfl⟩, ⟨h2, fun _ => rfl⟩, ⟨h3, fun _ => rfl⟩⟩
  have L : ∀ rest, parse fs dir (renderAll gs ++ rest) = loop fs dir (gs.foldl applyGroup {}) rest :=
    fun rest => loop_groups gs {} rest hv hon
  have L0 : parse fs dir (renderAll gs) = finish (gs.foldl applyGroup {}) := by have := L []; rwa [List.append_nil] at this
  have i1 := foldl_input gs {} hv
  have i2 := foldl_output gs {} hv
  have i3 := foldl_cwd gs {} hv
  have one : ∀ {n : String} {x : String}, (given n gs).length ≤ 1 → given n gs ≠ [] →
      x = (given n gs).foldl (fun _ v => v) "" → Group.opt n x ∈ gs := by
    intro n x hl hne hx
    match hg : given n gs, hl, hne with
    | [y], _, _ =>
      rw [hg] at hx
      have : x = y := hx
      subst this
      exact given_valid (by rw [hg]; simp)
  have n1 : given "-i" gs ≠ [] → (gs.foldl applyGroup {}).input ≠ "" := fun h => ((hv _ (one h1 h i1)).2.2.1 rfl).1
  have n2 : given "-o" gs ≠ [] → (gs.foldl applyGroup {}).outputDir ≠ "" := fun h => ((hv _ (one h2 h i2)).2.2.2.1 rfl).1
  have n3 : given "--cwd" gs ≠ [] → (gs.foldl applyGroup {}).cwd ≠ "" := fun h => (hv _ (one h3 h i3)).2.2.2.2 rfl
  refine ⟨fun h => ?_, fun h h' => ?_, fun v post h hd hr => ?_, fun v post h hd hr => ?_, fun v post h => ?_, fun v post h => ?_,
    fun post h => ?_, fun post hp => ⟨fun h => ?_, ?_, ?_, ?_, ?_, ?_⟩⟩
  · rw [L0, finish, if_pos (by rw [i1, h]; rfl)]; rfl
  · rw [L0, finish, if_neg (n1 h), if_pos (by rw [i2, h']; rfl)]; rfl
  · have e : (gs.foldl applyGroup {}).input = "" := by rw [i1, h]; rfl
    rw [L, loop_cons, act_input]; simp only [e, hd, hr]; rfl
  · have e : (gs.foldl applyGroup {}).outputDir = "" := by rw [i2, h]; rfl
    rw [L, loop_cons, act_output]; simp only [e, hd, hr]; rfl
  · rw [L, loop_cons, act_input, if_pos (n1 h)]; rfl
  · rw [L, loop_cons, act_output, if_pos (n2 h)]; rfl
  · rw [L]
    cases post with
    | nil => rw [loop_single, act_cwd_none, if_pos (n3 h)]; rfl
    | cons v r => rw [loop_cons, act_cwd, if_pos (n3 h)]; rfl
  · rw [L]
    have e : (gs.foldl applyGroup {}).cwd = "" := by rw [i3, h]; rfl
    cases post with
    | nil => rw [loop_single, act_cwd_none, if_neg (by simp [e])]; rfl
    | cons v r => rw [loop_cons, act_cwd, if_neg (by simp [e]), if_pos (hp v r rfl)]; rfl
  · rw [L]
    cases post with
    | nil => rw [loop_single, act_mockOnly_none]; rfl
    | cons v r => rw [loop_cons, act_mockOnly, if_pos (hp v r rfl)]; rfl
  · rw [L]
    cases post with
    | nil => rw [loop_single, act_attr_none]; rfl
    | cons v r => rw [loop_cons, act_attr, if_pos (hp v r rfl)]; rfl
  · rw [L]
    cases post with
    | nil => rw [loop_single, act_ignoreField_none]; rfl
    | cons v r => rw [loop_cons, act_ignoreField, if_pos (hp v r rfl)]; rfl
  · rw [L]
    cases post with
    | nil => rw [loop_single, act_ignoreGen_none]; rfl
    | cons v r => rw [loop_cons, act_ignoreGen, if_pos (hp v r rfl)]; rfl
  · rw [L]
    cases post with
    | nil => rw [loop_single, act_comparator_none]; rfl
    | cons v r => rw [loop_cons, act_comparator, if_pos (hp v r rfl)]; rfl

/-- A complete command line for the examples. -/
def demoGroups : List Group :=
  [.extra "-DX=1", .opt "-o" "out", .opt "--mock-only" "f", .flag "--mock-cpp", .opt "--cwd" "sub", .opt "-i" "a.h", .extra "y",
   .opt "--mock-only" "g"]

theorem demoGroups_valid : ∀ g ∈ demoGroups, g.Valid demoFS "/w" := by
  intro g hg
  simp only [demoGroups, List.mem_cons, List.not_mem_nil, or_false] at hg
  rcases hg with rfl | rfl | rfl | rfl | rfl | rfl | rfl | rfl
  · show "-DX=1" ∉ toolOptions; decide
  · exact ⟨by decide, by decide, by decide, fun _ => ⟨by decide, by decide⟩, by decide⟩
  · exact ⟨by decide, by decide, by decide, by decide, by decide⟩
  · show "--mock-cpp" ∈ flags; decide
  · exact ⟨by decide, by decide, by decide, by decide, by decide⟩
  · exact ⟨by decide, by decide, fun _ => ⟨by decide, by decide⟩, by decide, by decide⟩
  · show "y" ∉ toolOptions; decide
  · exact ⟨by decide, by decide, by decide, by decide, by decide⟩

example : Accepted (parse demoFS "/w" (renderAll demoGroups)) :=
  C31_complete_accepted demoGroups_valid (by decide) (by decide) (by decide)

example : (parse demoFS "/w" (renderAll demoGroups)).input = "a.h" ∧ (parse demoFS "/w" (renderAll demoGroups)).mockOnly = ["f", "g"] :=
  by decide

example : valuesOf "-i" (renderAll demoGroups) = ["a.h"] := by decide

/-! ## C32 -/

/-- The groups that say what an option record says. -/
def groupsOf (o : Options) : List Group :=
  [.opt "-i" o.input, .opt "-o" o.outputDir] ++ (if o.cwd = "" then [] else [.opt "--cwd" o.cwd]) ++
  o.mockOnly.map (.opt "--mock-only") ++ o.attrs.map (.opt "--generate-attribute") ++
  o.ignoreTypes.map (.opt "--ignore-field-generation-of") ++ o.ignoreFuns.map (.opt "--ignore-generation-of") ++
  o.comparators.map (.opt "--generate-comparator-of") ++
  (if o.genTypes then [.flag "--generate-types"] else []) ++ (if o.mockCpp then [.flag "--mock-cpp"] else []) ++
  (if o.ignoreParserError then [.flag "--ignore-parser-error"] else []) ++
  (if o.genIncluded then [.flag "--generate-included-functions"] else []) ++ o.extraArgs.map .extra

/-- A record that can be written on a command line: existing paths, no value that starts with a dash, sets without
duplicates, no option of the tool among the forwarded arguments. -/
structure Expressible (fs : FS) (dir : String) (o : Options) : Prop where
  noMsg : o.errorMessage = "" ∧ o.helpMessage = ""
  input : o.input ≠ "" ∧ dash o.input = false ∧ fs.isRegular dir o.input = true
  output : o.outputDir ≠ "" ∧ dash o.outputDir = false ∧ fs.isDir dir o.outputDir = true
  cwd : dash o.cwd = false
  sets : ∀ l ∈ [o.mockOnly, o.attrs, o.ignoreTypes, o.ignoreFuns, o.comparators], l.Nodup ∧ ∀ x ∈ l, dash x = false
  extra : ∀ x ∈ o.extraArgs, x ∉ toolOptions

theorem given_append (n : String) (a b : List Group) : given n (a ++ b) = given n a ++ given n b := by
  unfold given; exact List.filterMap_append

theorem given_map_eq (n : String) (l : List String) : given n (l.map (.opt n)) = l := by
  unfold given
  rw [List.filterMap_map]
  induction l with
  | nil => rfl
  | cons a l ih => rw [List.filterMap_cons]; simp only [Function.comp_apply, Group.valueOf, if_true, ih]

theorem given_map_ne {n m : String} (h : m ≠ n) (l : List String) : given n (l.map (.opt m)) = [] := by
  unfold given
  rw [List.filterMap_map]
  induction l with
  | nil => rfl
  | cons a l ih => rw [List.filterMap_cons]; simp only [Function.comp_apply, Group.valueOf, if_neg h, ih]

theorem given_extra (n : String) (l : List String) : given n (l.map .extra) = [] := by
  unfold given
  rw [List.filterMap_map]
  induction l with
  | nil => rfl
  | cons a l ih => rw [List.filterMap_cons]; simp only [Function.comp_apply, Group.valueOf, ih]

theorem given_flag (n : String) (b : Bool) (f : String) : given n (if b = true then [Group.flag f] else []) = [] := by cases b <;> rfl

theorem groupsOf_valid {o : Options} (h : Expressible fs dir o) : ∀ g ∈ groupsOf o, g.Valid fs dir := by
  have hs : ∀ (n : String) (l : List String), n ∈ valueOptions → n ≠ "-i" → n ≠ "-o" → n ≠ "--cwd" → (∀ x ∈ l, dash x = false) →
      ∀ g ∈ l.map (Group.opt n), g.Valid fs dir := by
    intro n l hn h1 h2 h3 hd g hg
    obtain ⟨x, hx, rfl⟩ := List.mem_map.mp hg
    exact ⟨hn, hd x hx, fun e => absurd e h1, fun e => absurd e h2, fun e => absurd e h3⟩
  have hf : ∀ (f : String) (b : Bool), f ∈ flags → ∀ g ∈ (if b = true then [Group.flag f] else []), g.Valid fs dir := by
    intro f b hm g hg
    cases b
    · cases hg
    · simp only [if_true, List.mem_cons, List.not_mem_nil, or_false] at hg; subst hg; exact hm
  intro g hg
  unfold groupsOf at hg
  simp only [List.mem_append] at hg
  rcases hg with (((((((((((hg | hg) | hg) | hg) | hg) | hg) | hg) | hg) | hg) | hg) | hg) | hg)
  · simp only [List.mem_cons, List.not_mem_nil, or_false] at hg
    rcases hg with rfl | rfl
    · exact ⟨by decide, h.input.2.1, fun _ => ⟨h.input.1, h.input.2.2⟩, fun e => absurd e (by decide), fun e => absurd e (by decide)⟩
    · exact ⟨by decide, h.output.2.1, fun e => absurd e (by decide), fun _ => ⟨h.output.1, h.output.2.2⟩, fun e => absurd e (by decide)⟩
  · split at hg
    · cases hg
    · rename_i e
      simp only [List.mem_cons, List.not_mem_nil, or_false] at hg
      subst hg
      exact ⟨by decide, h.cwd, fun e => absurd e (by decide), fun e => absurd e (by decide), fun _ => e⟩
  · exact hs _ _ (by decide) (by decide) (by decide) (by decide) (h.sets _ (by simp)).2 _ hg
  · exact hs _ _ (by decide) (by decide) (by decide) (by decide) (h.sets _ (by simp)).2 _ hg
  · exact hs _ _ (by decide) (by decide) (by decide) (by decide) (h.sets _ (by simp)).2 _ hg
  · exact hs _ _ (by decide) (by decide) (by decide) (by decide) (h.sets _ (by simp)).2 _ hg
  · exact hs _ _ (by decide) (by decide) (by decide) (by decide) (h.sets _ (by simp)).2 _ hg
  · exact hf _ _ (by decide) _ hg
  · exact hf _ _ (by decide) _ hg
  · exact hf _ _ (by decide) _ hg
  · exact hf _ _ (by decide) _ hg
  · obtain ⟨x, hx, rfl⟩ := List.mem_map.mp hg
    exact h.extra x hx

theorem given_groupsOf (o : Options) :
    given "-i" (groupsOf o) = [o.input] ∧ given "-o" (groupsOf o) = [o.outputDir] ∧
    given "--cwd" (groupsOf o) = (if o.cwd = "" then [] else [o.cwd]) ∧ given "--mock-only" (groupsOf o) = o.mockOnly ∧
    given "--generate-attribute" (groupsOf o) = o.attrs ∧ given "--ignore-field-generation-of" (groupsOf o) = o.ignoreTypes ∧
    given "--ignore-generation-of" (groupsOf o) = o.ignoreFuns ∧ given "--generate-comparator-of" (groupsOf o) = o.comparators := by
  have hc : ∀ n : String, given n (if o.cwd = "" then [] else [.opt "--cwd" o.cwd]) = if "--cwd" = n then (if o.cwd = "" then [] else [o.cwd]) else [] := by
    intro n
    by_cases e : o.cwd = ""
    · simp [e, given]
    · by_cases e' : "--cwd" = n <;> simp [e, e', given, Group.valueOf]
  have h2 : ∀ n : String, given n [.opt "-i" o.input, .opt "-o" o.outputDir] =
      (if "-i" = n then [o.input] else []) ++ (if "-o" = n then [o.outputDir] else []) := by
    intro n
    rw [given_cons, given_cons]
    simp only [Group.valueOf, given, List.filterMap_nil, List.append_nil]
    congr 1 <;> split <;> simp_all
  unfold groupsOf
  simp only [given_append, given_extra, given_flag, List.append_nil, hc, h2]
  refine ⟨?_, ?_, ?_, ?_, ?_, ?_, ?_, ?_⟩ <;>
    simp only [given_map_ne (by decide : "--mock-only" ≠ "-i"), given_map_ne (by decide : "--mock-only" ≠ "-o"), given_map_ne (by decide : "--mock-only" ≠ "--cwd"),
      given_map_ne (by decide : "--mock-only" ≠ "--generate-attribute"), given_map_ne (by decide : "--mock-only" ≠ "--ignore-field-generation-of"),
      given_map_ne (by decide : "--mock-only" ≠ "--ignore-generation-of"), given_map_ne (by decide : "--mock-only" ≠ "--generate-comparator-of"),
      given_map_ne (by decide : "--generate-attribute" ≠ "-i"), given_map_ne (by decide : "--generate-attribute" ≠ "-o"), given_map_ne (by decide : "--generate-attribute" ≠ "--cwd"),
      given_map_ne (by decide : "--generate-attribute" ≠ "--mock-only"), given_map_ne (by decide : "--generate-attribute" ≠ "--ignore-field-generation-of"),
      given_map_ne (by decide : "--generate-attribute" ≠ "--ignore-generation-of"), given_map_ne (by decide : "--generate-attribute" ≠ "--generate-comparator-of"),
      given_map_ne (by decide : "--ignore-field-generation-of" ≠ "-i"), given_map_ne (by decide : "--ignore-field-generation-of" ≠ "-o"), given_map_ne (by decide : "--ignore-field-generation-of" ≠ "--cwd"),
      given_map_ne (by decide : "--ignore-field-generation-of" ≠ "--mock-only"), given_map_ne (by decide : "--ignore-field-generation-of" ≠ "--generate-attribute"),
      given_map_ne (by decide : "--ignore-field-generation-of" ≠ "--ignore-generation-of"), given_map_ne (by decide : "--ignore-field-generation-of" ≠ "--generate-comparator-of"),
      given_map_ne (by decide : "--ignore-generation-of" ≠ "-i"), given_map_ne (by decide : "--ignore-generation-of" ≠ "-o"), given_map_ne (by decide : "--ignore-generation-of" ≠ "--cwd"),
      given_map_ne (by decide : "--ignore-generation-of" ≠ "--mock-only"), given_map_ne (by decide : "--ignore-generation-of" ≠ "--generate-attribute"),
      given_map_ne (by decide : "--ignore-generation-of" ≠ "--ignore-field-generation-of"), given_map_ne (by decide : "--ignore-generation-of" ≠ "--generate-comparator-of"),
      given_map_ne (by decide : "--generate-comparator-of" ≠ "-i"), given_map_ne (by decide : "--generate-comparator-of" ≠ "-o"), given_map_ne (by decide : "--generate-comparator-of" ≠ "--cwd"),
      given_map_ne (by decide : "--generate-comparator-of" ≠ "--mock-only"), given_map_ne (by decide : "--generate-comparator-of" ≠ "--generate-attribute"),
      given_map_ne (by decide : "--generate-comparator-of" ≠ "--ignore-field-generation-of"), given_map_ne (by decide : "--generate-comparator-of" ≠ "--ignore-generation-of"),
      given_map_eq, List.append_nil] <;> simp

theorem flag_groupsOf (o : Options) :
    (Group.flag "--generate-types" ∈ groupsOf o ↔ o.genTypes = true) ∧ (Group.flag "--mock-cpp" ∈ groupsOf o ↔ o.mockCpp = true) ∧
    (Group.flag "--ignore-parser-error" ∈ groupsOf o ↔ o.ignoreParserError = true) ∧
    (Group.flag "--generate-included-functions" ∈ groupsOf o ↔ o.genIncluded = true) := by
  have hc : ∀ f : String, Group.flag f ∉ (if o.cwd = "" then [] else [.opt "--cwd" o.cwd]) := by
    intro f; split <;> simp
  have hm : ∀ (f n : String) (l : List String), Group.flag f ∉ l.map (Group.opt n) := by intro f n l; simp
  have he : ∀ (f : String) (l : List String), Group.flag f ∉ l.map Group.extra := by intro f l; simp
  have hf : ∀ (f g : String) (b : Bool), (Group.flag f ∈ (if b = true then [Group.flag g] else [])) ↔ (b = true ∧ f = g) := by
    intro f g b; cases b <;> simp
  unfold groupsOf
  simp only [List.mem_append, hc, hm, he, hf, List.mem_cons, List.not_mem_nil, reduceCtorEq, or_false, false_or]
  refine ⟨?_, ?_, ?_, ?_⟩ <;> simp

theorem extra_groupsOf (o : Options) : (groupsOf o).filterMap Group.extraOf = o.extraArgs := by
  have hm : ∀ (n : String) (l : List String), (l.map (Group.opt n)).filterMap Group.extraOf = [] := by
    intro n l
    induction l with
    | nil => rfl
    | cons a l ih => rw [List.map_cons, List.filterMap_cons_none rfl, ih]
  have hf : ∀ (f : String) (b : Bool), (if b = true then [Group.flag f] else []).filterMap Group.extraOf = [] := by
    intro f b; cases b <;> rfl
  have hc : (if o.cwd = "" then [] else [Group.opt "--cwd" o.cwd]).filterMap Group.extraOf = [] := by split <;> rfl
  have he : ∀ l : List String, (l.map Group.extra).filterMap Group.extraOf = l := by
    intro l
    induction l with
    | nil => rfl
    | cons a l ih => rw [List.map_cons, List.filterMap_cons_some (f := Group.extraOf) (b := a) rfl, ih]
  unfold groupsOf
  simp only [List.filterMap_append, hm, hf, hc, he]
  rfl

/-- The fields of a complete command line, in terms of its groups. -/
theorem groups_fields (hfs : NoEmptyPath fs) {gs : List Group} (hv : ∀ g ∈ gs, g.Valid fs dir) (h1 : (given "-i" gs).length = 1)
    (h2 : (given "-o" gs).length = 1) (h3 : (given "--cwd" gs).length ≤ 1) :
    let r := parse fs dir (renderAll gs)
    r.errorMessage = "" ∧ r.helpMessage = "" ∧ given "-i" gs = [r.input] ∧ given "-o" gs = [r.outputDir] ∧
    r.cwd = (given "--cwd" gs).foldl (fun _ v => v) "" ∧ r.mockOnly = (given "--mock-only" gs).foldl insert [] ∧
    r.attrs = (given "--generate-attribute" gs).foldl insert [] ∧
    r.ignoreTypes = (given "--ignore-field-generation-of" gs).foldl insert [] ∧
    r.ignoreFuns = (given "--ignore-generation-of" gs).foldl insert [] ∧
    r.comparators = (given "--generate-comparator-of" gs).foldl insert [] ∧
    r.genTypes = decide (Group.flag "--generate-types" ∈ gs) ∧ r.mockCpp = decide (Group.flag "--mock-cpp" ∈ gs) ∧
    r.ignoreParserError = decide (Group.flag "--ignore-parser-error" ∈ gs) ∧
    r.genIncluded = decide (Group.flag "--generate-included-functions" ∈ gs) ∧
    r.extraArgs = gs.filterMap Group.extraOf := by
  intro r
  have hacc : Accepted r := accepted_groups hv h1 h2 h3
  have S := parse_says (hfs dir).1 (hfs dir).2 hacc
  have V := fun n (hn : n ∈ valueOptions) => valuesOf_render (fs := fs) (dir := dir) hn gs hv
  have C := C31_accepted_complete hfs hacc
  refine ⟨hacc.1, hacc.2, ?_, ?_, ?_, ?_, ?_, ?_, ?_, ?_, ?_, ?_, ?_, ?_, ?_⟩
  · rw [← V _ (by decide)]; exact C.1
  · rw [← V _ (by decide)]; exact C.2.2.1
  · rw [← V _ (by decide)]; exact S.cwd
  · rw [← V _ (by decide)]; exact S.mockOnly
  · rw [← V _ (by decide)]; exact S.attrs
  · rw [← V _ (by decide)]; exact S.ignoreTypes
  · rw [← V _ (by decide)]; exact S.ignoreFuns
  · rw [← V _ (by decide)]; exact S.comparators
  · have := S.genTypes; simp only [mem_render_flag (by decide : "--generate-types" ∈ flags) hv, Bool.false_or] at this; exact this
  · have := S.mockCpp; simp only [mem_render_flag (by decide : "--mock-cpp" ∈ flags) hv, Bool.false_or] at this; exact this
  · have := S.ignoreErr; simp only [mem_render_flag (by decide : "--ignore-parser-error" ∈ flags) hv, Bool.false_or] at this; exact this
  · have := S.included; simp only [mem_render_flag (by decide : "--generate-included-functions" ∈ flags) hv, Bool.false_or] at this; exact this
  · rw [← forwarded_render (fs := fs) (dir := dir) gs hv]; exact S.extra

/-- C32: parsing the arguments of an option record gives back exactly that record. -/
theorem C32_round_trip (hfs : NoEmptyPath fs) {o : Options} (h : Expressible fs dir o) :
    parse fs dir (renderAll (groupsOf o)) = o := by
  obtain ⟨g1, g2, g3, g4, g5, g6, g7, g8⟩ := given_groupsOf o
  obtain ⟨f1, f2, f3, f4⟩ := flag_groupsOf o
  have F := groups_fields hfs (groupsOf_valid h) (by rw [g1]; rfl) (by rw [g2]; rfl) (by rw [g3]; split <;> simp)
  rw [g1, g2, g3, g4, g5, g6, g7, g8, extra_groupsOf] at F
  simp only [f1, f2, f3, f4, Bool.decide_eq_true] at F
  obtain ⟨a1, a2, a3, a4, a5, a6, a7, a8, a9, a10, a11, a12, a13, a14, a15⟩ := F
  have S := h.sets
  rw [foldl_insert_nodup _ _ (by simpa using (S o.mockOnly (by simp)).1)] at a6
  rw [foldl_insert_nodup _ _ (by simpa using (S o.attrs (by simp)).1)] at a7
  rw [foldl_insert_nodup _ _ (by simpa using (S o.ignoreTypes (by simp)).1)] at a8
  rw [foldl_insert_nodup _ _ (by simpa using (S o.ignoreFuns (by simp)).1)] at a9
  rw [foldl_insert_nodup _ _ (by simpa using (S o.comparators (by simp)).1)] at a10
  have e5 : (if o.cwd = "" then ([] : List String) else [o.cwd]).foldl (fun _ v => v) "" = o.cwd := by
    split
    · rename_i e; rw [e]; rfl
    · rfl
  rw [e5] at a5
  have b3 : (parse fs dir (renderAll (groupsOf o))).input = o.input := by simpa using a3.symm
  have b4 : (parse fs dir (renderAll (groupsOf o))).outputDir = o.outputDir := by simpa using a4.symm
  obtain ⟨m1, m2⟩ := h.noMsg
  rw [← m1] at a1
  rw [← m2] at a2
  generalize parse fs dir (renderAll (groupsOf o)) = r at *
  cases o; cases r
  simp_all

/-- A full option record for the examples. -/
def demoOptions : Options :=
  { input := "a.h", outputDir := "out", cwd := "sub", mockOnly := ["f", "g"], extraArgs := ["-DX", "y", "--foo"], genTypes := true,
    attrs := ["noreturn"], ignoreFuns := ["h"], comparators := ["struct s"], ignoreParserError := true }

theorem demoOptions_ok : Expressible demoFS "/w" demoOptions :=
  ⟨by decide, by decide, by decide, by decide, by decide, by decide⟩

example : parse demoFS "/w" (renderAll (groupsOf demoOptions)) = demoOptions := C32_round_trip demoFS_noEmpty demoOptions_ok

/-! ## C33 -/

/-- C33: in an accepted command line the forwarded arguments are, in their order, exactly those that are neither an option of
the tool nor the value of one. Partial: a `-i` or `-o` that is the very last argument is forwarded as well (see
`forwarded`); the full statement is refuted by `C33_trailing_option_forwarded`. -/
theorem C33_forwarded_partial (hfs : NoEmptyPath fs) {args : List String} (h : Accepted (parse fs dir args)) :
    (parse fs dir args).extraArgs = forwarded none args :=
  (parse_says (hfs dir).1 (hfs dir).2 h).extra

/-- C33, when no `-i` or `-o` is left without a value at the end: an argument is forwarded exactly when it is neither an option
nor a value. -/
theorem C33_complete_forwarded (hfs : NoEmptyPath fs) {gs : List Group} (hv : ∀ g ∈ gs, g.Valid fs dir)
    (h1 : (given "-i" gs).length = 1) (h2 : (given "-o" gs).length = 1) (h3 : (given "--cwd" gs).length ≤ 1) :
    (parse fs dir (renderAll gs)).extraArgs = gs.filterMap Group.extraOf :=
  (groups_fields hfs hv h1 h2 h3).2.2.2.2.2.2.2.2.2.2.2.2.2.2

/-- C33: the header parser is run with exactly these arguments. -/
theorem C33_reach_parser (hdrOk : String → ParserCfg → Bool) (hfs : NoEmptyPath fs) {args : List String} {d : String} {c : ParserCfg}
    (h : (mainRun fs hdrOk dir args).parsed = some (d, c)) :
    Accepted (parse fs dir args) ∧ c.flags = forwarded none args ∧ valuesOf "-i" args = [c.input] ∧
    (∀ x, x ∈ c.mockOnly ↔ x ∈ valuesOf "--mock-only" args) ∧
    (∀ x, x ∈ c.ignoreTypes ↔ x ∈ valuesOf "--ignore-field-generation-of" args) ∧
    (∀ x, x ∈ c.ignoreFuns ↔ x ∈ valuesOf "--ignore-generation-of" args) ∧
    (c.included = true ↔ "--generate-included-functions" ∈ args) ∧ (c.forceCpp = true ↔ "--mock-cpp" ∈ args) := by
  unfold mainRun at h
  simp only at h
  split at h
  · cases h
  · rename_i hh
    split at h
    · cases h
    · rename_i he
      have hacc : Accepted (parse fs dir args) := ⟨by simpa using he, by simpa using hh⟩
      split at h
      · cases h
      · split at h
        · cases h
        · simp only [Option.some.injEq, Prod.mk.injEq] at h
          obtain ⟨_, rfl⟩ := h
          have C := C31_accepted_complete hfs hacc
          have F := C31_accepted_fields hfs hacc
          exact ⟨hacc, C33_forwarded_partial hfs hacc, C.1, F.1, F.2.2.1, F.2.2.2.1, F.2.2.2.2.2.2.2.2.1, F.2.2.2.2.2.2.1⟩

/-- C33: the generator is run with exactly the options given for it. -/
theorem C33_reach_generator (hdrOk : String → ParserCfg → Bool) (hfs : NoEmptyPath fs) {args : List String} {g : GenCfg}
    (h : (mainRun fs hdrOk dir args).generated = some g) :
    (∀ x, x ∈ g.mockOnly ↔ x ∈ valuesOf "--mock-only" args) ∧ (∀ x, x ∈ g.attrs ↔ x ∈ valuesOf "--generate-attribute" args) ∧
    (∀ x, x ∈ g.comparators ↔ x ∈ valuesOf "--generate-comparator-of" args) ∧
    (g.genTypes = true ↔ "--generate-types" ∈ args) ∧ (g.cpp = true ↔ "--mock-cpp" ∈ args) := by
  unfold mainRun at h
  simp only at h
  split at h
  · cases h
  · rename_i hh
    split at h
    · cases h
    · rename_i he
      have hacc : Accepted (parse fs dir args) := ⟨by simpa using he, by simpa using hh⟩
      split at h
      · cases h
      · split at h
        · cases h
        · simp only [generateCode] at h
          split at h
          · cases h
          · simp only [Option.some.injEq] at h
            subst h
            have F := C31_accepted_fields hfs hacc
            exact ⟨F.1, F.2.1, F.2.2.2.2.1, F.2.2.2.2.2.1, F.2.2.2.2.2.2.1⟩

/-- C33 fails for a `-i` at the end: it is an option of the tool, yet it is forwarded to the header parser. -/
theorem C33_trailing_option_forwarded :
    let args := ["-i", "a.h", "-o", "out", "-i"]
    Accepted (parse demoFS "/w" args) ∧ "-i" ∈ toolOptions ∧ (parse demoFS "/w" args).extraArgs = ["-i"] := by
  refine ⟨⟨by decide, by decide⟩, by decide, by decide⟩

example : (parse demoFS "/w" (renderAll demoGroups)).extraArgs = ["-DX=1", "y"] :=
  C33_complete_forwarded demoFS_noEmpty demoGroups_valid (by decide) (by decide) (by decide)

/-! ## C34 -/

/-- The two records agree apart from the order of the forwarded arguments (and the order in which sets were filled). -/
def SameOptions (a b : Options) : Prop :=
  a.errorMessage = b.errorMessage ∧ a.helpMessage = b.helpMessage ∧ a.input = b.input ∧ a.outputDir = b.outputDir ∧ a.cwd = b.cwd ∧
  a.mockOnly.Perm b.mockOnly ∧ a.attrs.Perm b.attrs ∧ a.ignoreTypes.Perm b.ignoreTypes ∧ a.ignoreFuns.Perm b.ignoreFuns ∧
  a.comparators.Perm b.comparators ∧ a.genTypes = b.genTypes ∧ a.mockCpp = b.mockCpp ∧ a.ignoreParserError = b.ignoreParserError ∧
  a.genIncluded = b.genIncluded ∧ a.extraArgs.Perm b.extraArgs

/-- The records of two complete command lines that give the same single values, the same sets of values and flags and the
same forwarded arguments up to order. -/
theorem same_of_groups (hfs : NoEmptyPath fs) {gs gs' : List Group} (hv : ∀ g ∈ gs, g.Valid fs dir) (hv' : ∀ g ∈ gs', g.Valid fs dir)
    (h1 : (given "-i" gs).length = 1) (h2 : (given "-o" gs).length = 1) (h3 : (given "--cwd" gs).length ≤ 1)
    (e1 : given "-i" gs' = given "-i" gs) (e2 : given "-o" gs' = given "-o" gs) (e3 : given "--cwd" gs' = given "--cwd" gs)
    (hs : ∀ n v, v ∈ given n gs ↔ v ∈ given n gs') (hf : ∀ f, Group.flag f ∈ gs ↔ Group.flag f ∈ gs')
    (he : (gs.filterMap Group.extraOf).Perm (gs'.filterMap Group.extraOf)) :
    SameOptions (parse fs dir (renderAll gs)) (parse fs dir (renderAll gs')) := by
  obtain ⟨a1, a2, a3, a4, a5, a6, a7, a8, a9, a10, a11, a12, a13, a14, a15⟩ := groups_fields hfs hv h1 h2 h3
  obtain ⟨b1, b2, b3, b4, b5, b6, b7, b8, b9, b10, b11, b12, b13, b14, b15⟩ :=
    groups_fields hfs hv' (by rw [e1]; exact h1) (by rw [e2]; exact h2) (by rw [e3]; exact h3)
  have hp : ∀ n, ((given n gs).foldl insert []).Perm ((given n gs').foldl insert []) := fun n =>
    perm_of_nodup (nodup_foldl_insert _ _ List.nodup_nil) (nodup_foldl_insert _ _ List.nodup_nil) fun x => by
      rw [mem_foldl_insert, mem_foldl_insert, hs]
  refine ⟨by rw [a1, b1], by rw [a2, b2], ?_, ?_, by rw [a5, b5, e3], ?_, ?_, ?_, ?_, ?_, ?_, ?_, ?_, ?_, ?_⟩
  · rw [e1, a3] at b3; simpa using b3
  · rw [e2, a4] at b4; simpa using b4
  · rw [a6, b6]; exact hp _
  · rw [a7, b7]; exact hp _
  · rw [a8, b8]; exact hp _
  · rw [a9, b9]; exact hp _
  · rw [a10, b10]; exact hp _
  · rw [a11, b11]; simp only [hf]
  · rw [a12, b12]; simp only [hf]
  · rw [a13, b13]; simp only [hf]
  · rw [a14, b14]; simp only [hf]
  · rw [a15, b15]; exact he

/-- C34: permuting the groups of a complete command line changes nothing but the order of the forwarded arguments, which are
forwarded in the order given. -/
theorem C34_order_irrelevant (hfs : NoEmptyPath fs) {gs gs' : List Group} (hp : gs.Perm gs') (hv : ∀ g ∈ gs, g.Valid fs dir)
    (h1 : (given "-i" gs).length = 1) (h2 : (given "-o" gs).length = 1) (h3 : (given "--cwd" gs).length ≤ 1) :
    SameOptions (parse fs dir (renderAll gs)) (parse fs dir (renderAll gs')) ∧
    (parse fs dir (renderAll gs')).extraArgs = gs'.filterMap Group.extraOf := by
  have hp1 : ∀ n, (given n gs).Perm (given n gs') := fun n => hp.filterMap _
  have hsing : ∀ n, (given n gs).length ≤ 1 → given n gs' = given n gs := fun n hl => by
    have hpn := hp1 n
    match hg : given n gs, hl with
    | [], _ => rw [hg] at hpn; exact hpn.symm.eq_nil
    | [x], _ => rw [hg] at hpn; exact List.perm_singleton.mp hpn.symm
  have hv' : ∀ g ∈ gs', g.Valid fs dir := fun g hg => hv g (hp.mem_iff.mpr hg)
  have e1 := hsing "-i" (by omega)
  have e2 := hsing "-o" (by omega)
  have e3 := hsing "--cwd" h3
  exact ⟨same_of_groups hfs hv hv' h1 h2 h3 e1 e2 e3 (fun n v => (hp1 n).mem_iff)
      (fun f => hp.mem_iff) (hp.filterMap _),
    C33_complete_forwarded hfs hv' (by rw [e1]; exact h1) (by rw [e2]; exact h2) (by rw [e3]; exact h3)⟩

/-- C34: repeating an option that fills a set, or a flag, anywhere changes nothing. -/
theorem C34_repeat_irrelevant (hfs : NoEmptyPath fs) {pre post : List Group} {g : Group} (hg : g ∈ pre ++ post)
    (hk : g.valueOf "-i" = none ∧ g.valueOf "-o" = none ∧ g.valueOf "--cwd" = none ∧ g.extraOf = none)
    (hv : ∀ g ∈ pre ++ post, g.Valid fs dir) (h1 : (given "-i" (pre ++ post)).length = 1)
    (h2 : (given "-o" (pre ++ post)).length = 1) (h3 : (given "--cwd" (pre ++ post)).length ≤ 1) :
    SameOptions (parse fs dir (renderAll (pre ++ post))) (parse fs dir (renderAll (pre ++ g :: post))) := by
  have hmem : ∀ x, x ∈ pre ++ g :: post ↔ x ∈ pre ++ post := fun x => by
    constructor
    · intro h
      rcases List.mem_append.mp h with h | h
      · exact List.mem_append_left _ h
      · rcases List.mem_cons.mp h with rfl | h
        · exact hg
        · exact List.mem_append_right _ h
    · intro h
      rcases List.mem_append.mp h with h | h
      · exact List.mem_append_left _ h
      · exact List.mem_append_right _ (List.mem_cons_of_mem _ h)
  have hn : ∀ n, g.valueOf n = none → given n (pre ++ g :: post) = given n (pre ++ post) := fun n h => by
    rw [given_append, given_append, given_cons, h]; rfl
  refine same_of_groups hfs hv (fun x hx => hv x ((hmem x).mp hx)) h1 h2 h3 (hn _ hk.1) (hn _ hk.2.1) (hn _ hk.2.2.1)
    (fun n v => ?_) (fun f => (hmem _).symm) ?_
  · unfold given
    rw [List.mem_filterMap, List.mem_filterMap]
    exact ⟨fun ⟨x, hx, e⟩ => ⟨x, (hmem x).mpr hx, e⟩, fun ⟨x, hx, e⟩ => ⟨x, (hmem x).mp hx, e⟩⟩
  · rw [List.filterMap_append, List.filterMap_append, List.filterMap_cons_none hk.2.2.2]

example : SameOptions (parse demoFS "/w" (renderAll demoGroups)) (parse demoFS "/w" (renderAll demoGroups.reverse)) :=
  (C34_order_irrelevant demoFS_noEmpty (List.reverse_perm demoGroups).symm demoGroups_valid (by decide) (by decide) (by decide)).1

example : (parse demoFS "/w" (renderAll demoGroups.reverse)).extraArgs = ["y", "-DX=1"] := by decide

example : SameOptions (parse demoFS "/w" (renderAll demoGroups)) (parse demoFS "/w" (renderAll (demoGroups ++ [.flag "--mock-cpp"]))) := by
  have := C34_repeat_irrelevant (fs := demoFS) (dir := "/w") (pre := demoGroups) (post := []) (g := .flag "--mock-cpp") demoFS_noEmpty
    (by decide) (by decide) (by rw [List.append_nil]; exact demoGroups_valid) (by decide) (by decide) (by decide)
  rwa [List.append_nil] at this

/-! ## C35 -/

/-- C35 for `-i` and `-o`: whatever else is on the command line, giving the option twice with a value never is accepted, and it
is an error unless help is asked. -/
theorem C35_twice_rejected (hfs : NoEmptyPath fs) {opt : String} (ho : opt = "-i" ∨ opt = "-o") {v w : String}
    (hv : dash v = false) (hw : dash w = false) (pre mid post : List String) :
    let args := pre ++ [opt, v] ++ mid ++ [opt, w] ++ post
    ¬ Accepted (parse fs dir args) ∧ ("-h" ∉ args → "--help" ∉ args → (parse fs dir args).errorMessage ≠ "") := by
  intro args
  have hna : ¬ Accepted (parse fs dir args) := fun hacc => by
    have C := C31_accepted_complete hfs hacc
    rcases ho with rfl | rfl
    · obtain ⟨l₁, l₂, l₃, e⟩ := valuesOf_twice (by decide : "-i" ∈ toolOptions) hv hw pre mid post
      have := C.1
      rw [show valuesOf "-i" args = _ from e] at this
      have := congrArg List.length this
      simp at this
      omega
    · obtain ⟨l₁, l₂, l₃, e⟩ := valuesOf_twice (by decide : "-o" ∈ toolOptions) hv hw pre mid post
      have := C.2.2.1
      rw [show valuesOf "-o" args = _ from e] at this
      have := congrArg List.length this
      simp at this
      omega
  exact ⟨hna, fun h1 h2 he => hna ⟨he, parse_help h1 h2⟩⟩

/-- C35 for `--cwd`. Partial: for a first value that is not empty. Missing: the empty value, for which the property is false
(`C35_empty_cwd_twice_accepted`). -/
theorem C35_cwd_twice_rejected_partial (hfs : NoEmptyPath fs) {v w : String} (hv : dash v = false) (hw : dash w = false) (hne : v ≠ "")
    (pre mid post : List String) :
    let args := pre ++ ["--cwd", v] ++ mid ++ ["--cwd", w] ++ post
    ¬ Accepted (parse fs dir args) ∧ ("-h" ∉ args → "--help" ∉ args → (parse fs dir args).errorMessage ≠ "") := by
  intro args
  have hna : ¬ Accepted (parse fs dir args) := fun hacc => by
    have S := parse_says (hfs dir).1 (hfs dir).2 hacc
    obtain ⟨l₁, l₂, l₃, e⟩ := valuesOf_twice (by decide : "--cwd" ∈ toolOptions) hv hw pre mid post
    refine hne (S.cwdOnce v ?_)
    rw [show valuesOf "--cwd" args = _ from e]
    have : ("" :: (l₁ ++ v :: l₂ ++ w :: l₃)) = ("" :: l₁ ++ v :: l₂) ++ (w :: l₃) := by simp
    show v ∈ ("" :: (l₁ ++ v :: l₂ ++ w :: l₃)).dropLast
    rw [this, List.dropLast_append_of_ne_nil (by simp)]
    simp
  exact ⟨hna, fun h1 h2 he => hna ⟨he, parse_help h1 h2⟩⟩

/-- C35 fails for `--cwd ""`: the second `--cwd` is accepted and wins. -/
theorem C35_empty_cwd_twice_accepted :
    let args := ["-i", "a.h", "--cwd", "", "-o", "out", "--cwd", "sub"]
    valuesOf "--cwd" args = ["", "sub"] ∧ Accepted (parse demoFS "/w" args) ∧ (parse demoFS "/w" args).cwd = "sub" :=
  ⟨by decide, ⟨by decide, by decide⟩, by decide⟩

/-- C35: the tool exits with status 1 and runs neither the header parser nor the generator. -/
theorem C35_twice_exit (hfs : NoEmptyPath fs) (hdrOk : String → ParserCfg → Bool) {opt : String} (ho : opt = "-i" ∨ opt = "-o")
    {v w : String} (hv : dash v = false) (hw : dash w = false) (pre mid post : List String)
    (h1 : "-h" ∉ pre ++ [opt, v] ++ mid ++ [opt, w] ++ post) (h2 : "--help" ∉ pre ++ [opt, v] ++ mid ++ [opt, w] ++ post) :
    mainRun fs hdrOk dir (pre ++ [opt, v] ++ mid ++ [opt, w] ++ post) = { exitCode := 1 } := by
  have h := (C35_twice_rejected (dir := dir) hfs ho hv hw pre mid post).2 h1 h2
  have h' := parse_help (fs := fs) (dir := dir) h1 h2
  unfold mainRun
  simp only [h', ne_eq, not_true, if_false, if_pos h]

example : (parse demoFS "/w" ["-i", "a.h", "-DX", "-i", "b.h", "-o", "out"]).errorMessage ≠ "" :=
  (C35_twice_rejected demoFS_noEmpty (.inl rfl) (v := "a.h") (w := "b.h") (by decide) (by decide) [] ["-DX"] ["-o", "out"]).2
    (by decide) (by decide)

example : ¬ Accepted (parse demoFS "/w" ["-i", "a.h", "--cwd", "sub", "-o", "out", "--cwd", "x"]) :=
  (C35_cwd_twice_rejected_partial demoFS_noEmpty (v := "sub") (w := "x") (by decide) (by decide) (by decide) ["-i", "a.h"] ["-o", "out"] []).1

/-! ## C36 -/

/-- C36, partial: when the header parser is run, it is run in the directory of `--cwd` (if given), the input is a readable
file there, the output directory is a directory there, and all files are written below it. Missing: the paths must exist
relative to the start directory as well, see `C36_checked_in_start_directory` and `C36_refuted`. -/
theorem C36_used_in_cwd_partial (hdrOk : String → ParserCfg → Bool) (hfs : NoEmptyPath fs) {args : List String} {d : String} {c : ParserCfg}
    (h : (mainRun fs hdrOk dir args).parsed = some (d, c)) :
    (if ((valuesOf "--cwd" args).getLast?).getD "" = "" then d = dir
     else fs.chdir dir (((valuesOf "--cwd" args).getLast?).getD "") = some d) ∧
    valuesOf "-i" args = [c.input] ∧ fs.readable d c.input = true ∧
    (∃ out, valuesOf "-o" args = [out] ∧ fs.isDir d out = true ∧
      ∀ f ∈ (mainRun fs hdrOk dir args).written, fs.writable d f = true ∧ ∃ s, f = out ++ "/easyMock_" ++ s) := by
  have hacc := (C33_reach_parser hdrOk hfs h).1
  have C := C31_accepted_complete hfs hacc
  have F := (C31_accepted_fields hfs hacc).2.2.2.2.2.2.2.2.2.1
  have e1 := hacc.1
  have e2 := hacc.2
  rw [← F]
  have hcd : ∃ d', (if (parse fs dir args).cwd ≠ "" then fs.chdir dir (parse fs dir args).cwd else some dir) = some d' := by
    unfold mainRun at h
    simp only [e1, e2, ne_eq, not_true, if_false] at h
    split at h
    · cases h
    · rename_i d' e; exact ⟨d', e⟩
  obtain ⟨d', hd⟩ := hcd
  unfold mainRun at h ⊢
  simp only [e1, e2, ne_eq, not_true, if_false] at h ⊢
  simp only [ne_eq] at hd
  rw [hd] at h ⊢
  simp only at h ⊢
  by_cases hval : validate fs d' (parse fs dir args) = false
  · rw [if_pos hval] at h; cases h
  · rw [if_neg hval] at h ⊢
    simp only [Option.some.injEq, Prod.mk.injEq] at h
    obtain ⟨rfl, rfl⟩ := h
    have hval : validate fs d' (parse fs dir args) = true := by simpa using hval
    simp only [validate, Bool.and_eq_true] at hval
    refine ⟨?_, C.1, hval.1, (parse fs dir args).outputDir, C.2.2.1, hval.2, ?_⟩
    · split
      · rename_i e; rw [if_neg (by simp [e])] at hd; simpa using hd.symm
      · rename_i e; rw [if_pos e] at hd; exact hd
    · intro f hf
      simp only [generateCode] at hf
      split at hf
      · cases hf
      · simp only [generate_files] at hf
        have hpre : ∀ e, ∃ s, outFile (parse fs dir args).outputDir (parse fs dir args).input e =
            (parse fs dir args).outputDir ++ "/easyMock_" ++ s := fun e =>
          ⟨stem (parse fs dir args).input ++ ("." ++ e), by simp only [outFile, String.append_assoc]⟩
        by_cases w1 : fs.writable d' (outFile (parse fs dir args).outputDir (parse fs dir args).input
            (if (parse fs dir args).mockCpp = true then "cpp" else "c")) = false
        · rw [if_pos w1] at hf; cases hf
        · rw [if_neg w1] at hf
          by_cases w2 : fs.writable d' (outFile (parse fs dir args).outputDir (parse fs dir args).input "h") = false
          · rw [if_pos w2, List.mem_singleton] at hf
            subst hf
            exact ⟨by simpa using w1, hpre _⟩
          · rw [if_neg w2, List.mem_cons, List.mem_singleton] at hf
            rcases hf with rfl | rfl
            · exact ⟨by simpa using w1, hpre _⟩
            · exact ⟨by simpa using w2, hpre _⟩

/-- C36: nevertheless both paths must also exist relative to the directory the tool was started in. -/
theorem C36_checked_in_start_directory (hdrOk : String → ParserCfg → Bool) (hfs : NoEmptyPath fs) {args : List String} {d : String}
    {c : ParserCfg} (h : (mainRun fs hdrOk dir args).parsed = some (d, c)) :
    fs.isRegular dir c.input = true ∧ ∃ out, valuesOf "-o" args = [out] ∧ fs.isDir dir out = true := by
  have H := C33_reach_parser hdrOk hfs h
  have C := C31_accepted_complete hfs H.1
  have : c.input = (parse fs dir args).input := by
    have := H.2.2.1; rw [C.1] at this; simpa using this.symm
  rw [this]
  exact ⟨C.2.1, _, C.2.2.1, C.2.2.2.1⟩

/-- C36 fails: `b.h` and `out` exist in the directory given to `--cwd`, yet the run ends with an error. -/
theorem C36_refuted :
    let args := ["--cwd", "sub", "-i", "b.h", "-o", "out"]
    demoFS.chdir "/w" "sub" = some "/w/sub" ∧ demoFS.isRegular "/w/sub" "b.h" = true ∧ demoFS.readable "/w/sub" "b.h" = true ∧
    demoFS.isDir "/w/sub" "out" = true ∧
    (parse demoFS "/w" args).errorMessage = "Error: Path given to -i isn't a regular file" ∧
    mainRun demoFS (fun _ _ => true) "/w" args = { exitCode := 1 } := by
  refine ⟨by decide, by decide, by decide, by decide, by decide, by decide⟩

/-- The file system of the examples with `sub` containing the same names as `/w`. -/
def demoFS2 : FS where
  isRegular _ p := p == "a.h"
  isDir _ p := p == "out"
  readable _ p := p == "a.h"
  chdir d p := some (d ++ "/" ++ p)
  writable _ _ := true

example : mainRun demoFS2 (fun _ _ => true) "/w" ["--cwd", "sub", "-i", "a.h", "-o", "out"] =
    { exitCode := 0, parsed := some ("/w/sub", ⟨"a.h", [], [], [], [], false, false⟩), generated := some ⟨[], [], false, [], false⟩,
      written := ["out/easyMock_a.c", "out/easyMock_a.h"] } := by decide

/-! ## C37 -/

/-- C37, partial: the exit status is 0 exactly when help is printed, or the command line is accepted, the directory could be
changed, both paths are valid there and the header was parsed (or its errors are to be ignored); it is 1 otherwise. Missing:
a failure to write an output file does not change the exit status (`C37_refuted`). -/
theorem C37_exit_partial (hdrOk : String → ParserCfg → Bool) (args : List String) :
    let o := parse fs dir args
    let r := mainRun fs hdrOk dir args
    (r.exitCode = 0 ∨ r.exitCode = 1) ∧
    (r.exitCode = 0 ↔ o.helpMessage ≠ "" ∨
      (Accepted o ∧ ∃ d c, r.parsed = some (d, c) ∧ (o.cwd ≠ "" → fs.chdir dir o.cwd = some d) ∧ (o.cwd = "" → d = dir) ∧
        fs.readable d c.input = true ∧ fs.isDir d o.outputDir = true ∧ (hdrOk d c = true ∨ o.ignoreParserError = true))) := by
  intro o r
  have hr : r = mainRun fs hdrOk dir args := rfl
  unfold mainRun at hr
  simp only at hr
  by_cases hh : o.helpMessage ≠ ""
  · rw [if_pos hh] at hr
    simp [hr, hh]
  · rw [if_neg hh] at hr
    have hh' : o.helpMessage = "" := by simpa using hh
    by_cases he : o.errorMessage ≠ ""
    · rw [if_pos he] at hr
      refine ⟨by simp [hr], ?_⟩
      constructor
      · intro h; rw [hr] at h; cases h
      · rintro (h | ⟨h, _⟩)
        · exact absurd h hh
        · exact absurd h.1 he
    · rw [if_neg he] at hr
      have he' : o.errorMessage = "" := by simpa using he
      split at hr
      · refine ⟨by simp [hr], ?_⟩
        constructor
        · intro h; rw [hr] at h; cases h
        · rintro (h | ⟨_, d, c, h, _⟩)
          · exact absurd h hh
          · rw [hr] at h; cases h
      · rename_i d hd
        split at hr
        · refine ⟨by simp [hr], ?_⟩
          constructor
          · intro h; rw [hr] at h; cases h
          · rintro (h | ⟨_, d, c, h, _⟩)
            · exact absurd h hh
            · rw [hr] at h; cases h
        · rename_i hval
          have hval : validate fs d o = true := by simpa using hval
          simp only [validate, Bool.and_eq_true] at hval
          have hp : r.parsed = some (d, parserCfg o) := by rw [hr]
          have hx : r.exitCode = if (generateCode fs d o (hdrOk d (parserCfg o))).1 = true then 0 else 1 := by rw [hr]
          have hd1 : o.cwd ≠ "" → fs.chdir dir o.cwd = some d := fun h => by rwa [if_pos h] at hd
          have hd2 : o.cwd = "" → d = dir := fun h => by
            rw [if_neg (fun h' => h' h)] at hd; simpa using hd.symm
          refine ⟨by rw [hx]; split <;> simp, ?_⟩
          by_cases hg : hdrOk d (parserCfg o) = false ∧ o.ignoreParserError = false
          · rw [hx]
            simp only [generateCode, if_pos hg]
            constructor
            · intro h; simp at h
            · rintro (h | ⟨_, d', c, h, _, _, _, _, h'⟩)
              · exact absurd h hh
              · rw [hp] at h
                simp only [Option.some.injEq, Prod.mk.injEq] at h
                obtain ⟨rfl, rfl⟩ := h
                rcases h' with h' | h'
                · rw [hg.1] at h'; cases h'
                · rw [hg.2] at h'; cases h'
          · rw [hx]
            simp only [generateCode, if_neg hg, if_true, true_iff]
            refine .inr ⟨⟨he', hh'⟩, d, parserCfg o, hp, hd1, hd2, hval.1, hval.2, ?_⟩
            rcases Classical.em (hdrOk d (parserCfg o) = true) with h | h
            · exact .inl h
            · refine .inr ?_
              have h : hdrOk d (parserCfg o) = false := by simpa using h
              rcases Classical.em (o.ignoreParserError = true) with h2 | h2
              · exact h2
              · exact absurd ⟨h, by simpa using h2⟩ hg

/-- C37: what is written. Nothing unless the generator is run; otherwise the source file and then the header, each only if it
can be written, and never the header alone; with exit status 0 and a writable output directory both are there. -/
theorem C37_written (hdrOk : String → ParserCfg → Bool) (hfs : NoEmptyPath fs) (args : List String) :
    let r := mainRun fs hdrOk dir args
    (r.generated = none → r.written = []) ∧
    (r.exitCode ≠ 0 → r.written = []) ∧
    (∀ d c, r.parsed = some (d, c) → r.exitCode = 0 → ∀ out inp, valuesOf "-o" args = [out] → valuesOf "-i" args = [inp] →
      let src := out ++ "/easyMock_" ++ stem inp ++ "." ++ (if "--mock-cpp" ∈ args then "cpp" else "c")
      let hdr := out ++ "/easyMock_" ++ stem inp ++ ".h"
      r.written = (if fs.writable d src = false then [] else if fs.writable d hdr = false then [src] else [src, hdr])) := by
  intro r
  have hr : r = mainRun fs hdrOk dir args := rfl
  unfold mainRun at hr
  simp only at hr
  by_cases hh : (parse fs dir args).helpMessage ≠ ""
  · rw [if_pos hh] at hr; simp [hr]
  · rw [if_neg hh] at hr
    by_cases he : (parse fs dir args).errorMessage ≠ ""
    · rw [if_pos he] at hr; simp [hr]
    · rw [if_neg he] at hr
      have hacc : Accepted (parse fs dir args) := ⟨by simpa using he, by simpa using hh⟩
      have C := C31_accepted_complete hfs hacc
      have F := (C31_accepted_fields hfs hacc).2.2.2.2.2.2.1
      split at hr
      · simp [hr]
      · rename_i d hd
        split at hr
        · simp [hr]
        · by_cases hg : hdrOk d (parserCfg (parse fs dir args)) = false ∧ (parse fs dir args).ignoreParserError = false
          · simp only [generateCode, if_pos hg] at hr
            simp [hr]
          · simp only [generateCode, if_neg hg] at hr
            rw [hr]
            refine ⟨by simp, by simp, ?_⟩
            intro d' c hp _ out inp ho hi
            simp only [Option.some.injEq, Prod.mk.injEq] at hp
            obtain ⟨rfl, _⟩ := hp
            have e1 : (parse fs dir args).outputDir = out := by have := C.2.2.1; rw [ho] at this; simpa using this.symm
            have e2 : (parse fs dir args).input = inp := by have := C.1; rw [hi] at this; simpa using this.symm
            have e3 : (if (parse fs dir args).mockCpp = true then "cpp" else "c") = if "--mock-cpp" ∈ args then "cpp" else "c" := by
              by_cases hm : (parse fs dir args).mockCpp = true
              · rw [if_pos hm, if_pos (F.mp hm)]
              · rw [if_neg hm, if_neg (fun h => hm (F.mpr h))]
            have e4 : out ++ "/easyMock_" ++ stem inp ++ "." ++ "h" = out ++ "/easyMock_" ++ stem inp ++ ".h" := by
              rw [String.append_assoc]; rfl
            show (generate fs d (parse fs dir args)).2 = _
            rw [generate_files, e1, e2, e3, outFile, outFile, e4]

/-- C37 fails: nothing could be written, yet the exit status is 0. -/
theorem C37_refuted :
    let fs' : FS := { demoFS with writable := fun _ _ => false }
    let r := mainRun fs' (fun _ _ => true) "/w" ["-i", "a.h", "-o", "out"]
    r.exitCode = 0 ∧ r.written = [] ∧ r.generated ≠ none := by
  refine ⟨by decide, by decide, by decide⟩

example : (mainRun demoFS (fun _ _ => true) "/w" ["-i", "a.h", "-o", "out"]).written = ["out/easyMock_a.c", "out/easyMock_a.h"] := by decide

example : (mainRun demoFS (fun _ _ => false) "/w" ["-i", "a.h", "-o", "out"]).exitCode = 1 := by decide

example : (mainRun demoFS (fun _ _ => false) "/w" ["-i", "a.h", "--ignore-parser-error", "-o", "out"]).exitCode = 0 := by decide

end EasyMock.CmdLine
