import Verif.Disk.Model

/-!
# C89: what a run leaves in the output directory
-/

namespace EasyMock.Disk

open EasyMock.CmdLine (stem FS Options)

variable {F : Type} [DecidableEq F]

/-- The path of the source. -/
def Run.sourcePath (r : Run) : String := r.outDir ++ "/easyMock_" ++ stem r.name ++ (if r.cpp then ".cpp" else ".c")

/-- The path of the header. -/
def Run.headerPath (r : Run) : String := r.outDir ++ "/easyMock_" ++ stem r.name ++ ".h"

/-- A text without null characters. -/
def Plain (t : String) : Prop := '\x00' ∉ t.toList

theorem cString_plain {t : String} (h : Plain t) : cString t = t.toList := by
  unfold cString
  have go : ∀ l : List Char, '\x00' ∉ l → l.takeWhile (· ≠ '\x00') = l := by
    intro l
    induction l with
    | nil => intro _; rfl
    | cons c l ih =>
      intro hl
      have hc : c ≠ '\x00' := fun e => hl (e ▸ List.mem_cons_self)
      rw [List.takeWhile_cons, if_pos (by simpa using hc), ih (fun hm => hl (List.mem_cons_of_mem _ hm))]
  exact go _ h

theorem out_source (r : Run) : outName r.outDir r.name (if r.cpp then "cpp" else "c") = r.sourcePath := by
  unfold outName Run.sourcePath
  cases r.cpp
  · simp only [Bool.false_eq_true, if_false, String.append_assoc]; rfl
  · simp only [if_true, String.append_assoc]; rfl

theorem out_header (r : Run) : outName r.outDir r.name "h" = r.headerPath := by
  unfold outName Run.headerPath
  simp only [String.append_assoc]; rfl

theorem put_same (d : Files F) (f : F) (t : List Char) : put d f t f = some t := if_pos rfl

theorem put_other (d : Files F) {f g : F} (t : List Char) (h : g ≠ f) : put d f t g = d g := if_neg h

/-- Every outcome of writing one file. -/
theorem code_cases (resolve : String → Option F) (w : Write) (d : Files F) (o n e t : String) :
    (∀ g, resolve (outName o n e) ≠ some g → (codeToFile resolve w d o n e t).2 g = d g) ∧
    ((codeToFile resolve w d o n e t).1 = true → w = .done → ∃ f, resolve (outName o n e) = some f ∧
      (codeToFile resolve w d o n e t).2 f = some (cString t)) ∧
    ((codeToFile resolve w d o n e t).1 = true ↔ (∃ f, resolve (outName o n e) = some f) ∧ ∀ k, w ≠ .failed k) ∧
    (∀ f, resolve (outName o n e) = some f → ∃ p s, (codeToFile resolve w d o n e t).2 f = some p ∧ p ++ s = cString t) := by
  unfold codeToFile
  cases hr : resolve (outName o n e) with
  | none => exact ⟨fun _ _ => rfl, by simp, by simp, by simp⟩
  | some f =>
    have ho : ∀ (t : List Char) g, some f ≠ some g → put d f t g = d g := fun t g h => put_other d t (fun e => h (e ▸ rfl))
    cases w with
    | done =>
      exact ⟨ho _, fun _ _ => ⟨f, rfl, put_same ..⟩, by simp, fun f' e => by cases e; exact ⟨_, [], put_same .., List.append_nil _⟩⟩
    | failed k =>
      exact ⟨ho _, by simp, by simp, fun f' e => by cases e; exact ⟨_, _, put_same .., List.take_append_drop ..⟩⟩
    | lost k =>
      exact ⟨ho _, by simp, by simp, fun f' e => by cases e; exact ⟨_, _, put_same .., List.take_append_drop ..⟩⟩

/-- C89 (partial: no text is lost when the stream is closed, see `C89_refuted_close`; the two paths lead to different files).  When the
    generator reports success, the two files of the header hold the texts, and every other file holds what it held before. -/
theorem C89_success_partial (resolve : String → Option F) (d : Files F) (r : Run) (hp : Plain r.source) (hq : Plain r.header)
    (hs : ∀ n, r.sourceWrite ≠ .lost n) (hh : ∀ n, r.headerWrite ≠ .lost n) (ha : resolve r.sourcePath ≠ resolve r.headerPath)
    (ok : (generate resolve d r).1 = true) :
    ∃ f g, resolve r.sourcePath = some f ∧ resolve r.headerPath = some g ∧
    (generate resolve d r).2 f = some r.source.toList ∧ (generate resolve d r).2 g = some r.header.toList ∧
    ∀ x, x ≠ f → x ≠ g → (generate resolve d r).2 x = d x := by
  obtain ⟨s1, s2, s3, _⟩ := code_cases resolve r.sourceWrite d r.outDir r.name (if r.cpp then "cpp" else "c") r.source
  unfold generate at ok ⊢
  simp only at ok ⊢
  rw [out_source] at s1 s2 s3
  cases hb : (codeToFile resolve r.sourceWrite d r.outDir r.name (if r.cpp then "cpp" else "c") r.source).1 with
  | false => rw [hb] at ok; simp at ok
  | true =>
    rw [hb] at ok
    simp only [Bool.true_eq_false, if_false] at ok ⊢
    generalize hd : (codeToFile resolve r.sourceWrite d r.outDir r.name (if r.cpp then "cpp" else "c") r.source).2 = d' at *
    obtain ⟨h1, h2, h3, _⟩ := code_cases resolve r.headerWrite d' r.outDir r.name "h" r.header
    rw [out_header] at h1 h2 h3
    have done : ∀ w : Write, (∀ n, w ≠ .lost n) → (∀ n, w ≠ .failed n) → w = .done := by
      intro w a b
      cases w with
      | done => rfl
      | failed n => exact absurd rfl (b n)
      | lost n => exact absurd rfl (a n)
    obtain ⟨f, hf, hf'⟩ := s2 hb (done _ hs (s3.mp hb).2)
    obtain ⟨g, hg, hg'⟩ := h2 ok (done _ hh (h3.mp ok).2)
    refine ⟨f, g, hf, hg, ?_, ?_, ?_⟩
    · rw [h1 f (fun e => ha (hf.trans e.symm)), hf', cString_plain hp]
    · rw [hg', cString_plain hq]
    · intro x hx hy
      rw [h1 x (fun e => hy (by rw [hg] at e; exact (Option.some.inj e).symm)),
        s1 x (fun e => hx (by rw [hf] at e; exact (Option.some.inj e).symm))]

/-- C89: whatever happens, no file but the two of the header is touched, and each of them holds either what it held before or the beginning of
    a text; without success of the source the header is not touched.  Success is reported exactly if both files could be opened and no call
    of `fprintf` has failed. -/
theorem C89_touched (resolve : String → Option F) (d : Files F) (r : Run) :
    (∀ x, resolve r.sourcePath ≠ some x → resolve r.headerPath ≠ some x → (generate resolve d r).2 x = d x) ∧
    (∀ x, resolve r.sourcePath = some x → resolve r.headerPath ≠ some x →
      ∃ p s, (generate resolve d r).2 x = some p ∧ p ++ s = cString r.source) ∧
    (∀ x, resolve r.headerPath = some x → resolve r.sourcePath ≠ some x → (generate resolve d r).2 x = d x ∨
      ∃ p s, (generate resolve d r).2 x = some p ∧ p ++ s = cString r.header) ∧
    ((resolve r.sourcePath = none ∨ ∃ n, r.sourceWrite = .failed n) →
      (generate resolve d r).1 = false ∧ ∀ x, resolve r.sourcePath ≠ some x → (generate resolve d r).2 x = d x) ∧
    ((generate resolve d r).1 = true ↔ (resolve r.sourcePath).isSome ∧ (∀ n, r.sourceWrite ≠ .failed n) ∧
      (resolve r.headerPath).isSome ∧ ∀ n, r.headerWrite ≠ .failed n) := by
  obtain ⟨s1, _, s3, s4⟩ := code_cases resolve r.sourceWrite d r.outDir r.name (if r.cpp then "cpp" else "c") r.source
  unfold generate
  simp only
  rw [out_source] at s1 s3 s4
  cases hb : (codeToFile resolve r.sourceWrite d r.outDir r.name (if r.cpp then "cpp" else "c") r.source).1 with
  | false =>
    simp only [if_true]
    refine ⟨fun x hx _ => s1 x hx, fun x hx _ => s4 x hx, fun x _ hx => Or.inl (s1 x hx), fun _ => ⟨trivial, s1⟩, by simp, ?_⟩
    rintro ⟨a, b, _⟩
    rw [hb] at s3
    exact absurd (s3.mpr ⟨Option.isSome_iff_exists.mp a, b⟩) (by simp)
  | true =>
    simp only [Bool.true_eq_false, if_false]
    generalize (codeToFile resolve r.sourceWrite d r.outDir r.name (if r.cpp then "cpp" else "c") r.source).2 = d' at *
    obtain ⟨h1, _, h3, h4⟩ := code_cases resolve r.headerWrite d' r.outDir r.name "h" r.header
    rw [out_header] at h1 h3 h4
    have a := s3.mp hb
    refine ⟨fun x hx hy => (h1 x hy).trans (s1 x hx), fun x hx hy => ?_, fun x hx _ => Or.inr (h4 x hx), ?_, ?_⟩
    · obtain ⟨p, q, e1, e2⟩ := s4 x hx
      exact ⟨p, q, (h1 x hy).trans e1, e2⟩
    · rintro (e | ⟨n, e⟩)
      · obtain ⟨f, hf⟩ := a.1
        rw [hf] at e; cases e
      · exact absurd e (a.2 n)
    · rw [h3]
      constructor
      · rintro ⟨x, y⟩
        exact ⟨Option.isSome_iff_exists.mpr a.1, a.2, Option.isSome_iff_exists.mpr x, y⟩
      · rintro ⟨_, _, x, y⟩
        exact ⟨Option.isSome_iff_exists.mp x, y⟩

/-- The files of two runs are different ones. -/
def ApartRuns (resolve : String → Option F) (r r' : Run) : Prop :=
  ∀ p ∈ [r.sourcePath, r.headerPath], ∀ q ∈ [r'.sourcePath, r'.headerPath], ∀ f, resolve p = some f → resolve q ≠ some f

theorem build_keeps (resolve : String → Option F) (x : F) : ∀ (rs : List Run) (d : Files F),
    (∀ r ∈ rs, resolve r.sourcePath ≠ some x ∧ resolve r.headerPath ≠ some x) → build resolve d rs x = d x := by
  intro rs
  induction rs with
  | nil => intro d _; rfl
  | cons r rs ih =>
    intro d h
    show build resolve _ rs x = d x
    rw [ih _ (fun r' hr' => h r' (List.mem_cons_of_mem _ hr'))]
    have := h r List.mem_cons_self
    exact (C89_touched resolve d r).1 x this.1 this.2

/-- C89 (partial, as `C89_success_partial`).  A build mocks several headers, one after the other, starting from any contents of the disk.  The
    files of a run which succeeds hold its texts at the end, if no later run has a file in common with it. -/
theorem C89_build_partial (resolve : String → Option F) (d : Files F) (before after : List Run) (r : Run)
    (hp : Plain r.source) (hq : Plain r.header) (hs : ∀ n, r.sourceWrite ≠ .lost n) (hh : ∀ n, r.headerWrite ≠ .lost n)
    (ha : resolve r.sourcePath ≠ resolve r.headerPath) (hl : ∀ r' ∈ after, ApartRuns resolve r r')
    (ok : (generate resolve (build resolve d before) r).1 = true) :
    ∃ f g, resolve r.sourcePath = some f ∧ resolve r.headerPath = some g ∧
    build resolve d (before ++ r :: after) f = some r.source.toList ∧
    build resolve d (before ++ r :: after) g = some r.header.toList := by
  obtain ⟨f, g, hf, hg, cf, cg, _⟩ := C89_success_partial resolve (build resolve d before) r hp hq hs hh ha ok
  have e : build resolve d (before ++ r :: after) = build resolve (generate resolve (build resolve d before) r).2 after := by
    unfold build; rw [List.foldl_append]; rfl
  refine ⟨f, g, hf, hg, ?_, ?_⟩
  · rw [e, build_keeps resolve f after _ (fun r' hr' =>
      ⟨hl r' hr' _ List.mem_cons_self _ List.mem_cons_self f hf, hl r' hr' _ List.mem_cons_self _ (List.mem_cons_of_mem _ List.mem_cons_self) f hf⟩), cf]
  · rw [e, build_keeps resolve g after _ (fun r' hr' =>
      ⟨hl r' hr' _ (List.mem_cons_of_mem _ List.mem_cons_self) _ List.mem_cons_self g hg,
       hl r' hr' _ (List.mem_cons_of_mem _ List.mem_cons_self) _ (List.mem_cons_of_mem _ List.mem_cons_self) g hg⟩), cg]

/-! ## The paths -/

theorem stem_noSlash (p : String) : '/' ∉ (stem p).toList := by
  unfold stem
  simp only [String.toList_ofList]
  have h : ∀ c ∈ (p.toList.reverse.takeWhile (· ≠ '/')).reverse, c ≠ '/' := by
    intro c hc
    rw [List.mem_reverse] at hc
    have go : ∀ l : List Char, c ∈ l.takeWhile (· ≠ '/') → c ≠ '/' := by
      intro l
      induction l with
      | nil => intro h; cases h
      | cons x l ih =>
        intro h
        rw [List.takeWhile_cons] at h
        split at h
        · rename_i hx
          rcases List.mem_cons.mp h with rfl | h
          · simpa using hx
          · exact ih h
        · cases h
    exact go _ hc
  split
  · intro hm
    rw [List.mem_reverse] at hm
    exact h '/' (List.mem_reverse.mp ((List.dropWhile_sublist _).subset (List.mem_of_mem_drop hm))) rfl
  · intro hm; exact h '/' hm rfl

theorem split_last {a b a' b' : List Char} {c : Char} (hb : c ∉ b) (hb' : c ∉ b') (h : a ++ c :: b = a' ++ c :: b') : a = a' ∧ b = b' := by
  rcases List.append_eq_append_iff.mp h with ⟨m, e1, e2⟩ | ⟨m, e1, e2⟩
  · cases m with
    | nil => simp at e1 e2; exact ⟨e1.symm, e2⟩
    | cons x m =>
      exfalso
      have : c :: b = x :: (m ++ c :: b') := e2
      injection this with _ e
      exact hb (e ▸ List.mem_append_right _ List.mem_cons_self)
  · cases m with
    | nil => simp at e1 e2; exact ⟨e1, e2.symm⟩
    | cons x m =>
      exfalso
      have : c :: b' = x :: (m ++ c :: b) := e2
      injection this with _ e
      exact hb' (e ▸ List.mem_append_right _ List.mem_cons_self)

/-- C89: the paths.  Two generated files have the same path exactly if they are in the same directory, belong to headers which are called the
    same up to the last dot, and are of the same kind. -/
theorem C89_paths (o o' n n' e e' : String) (he : e ∈ ["c", "cpp", "h"]) (he' : e' ∈ ["c", "cpp", "h"]) :
    outName o n e = outName o' n' e' ↔ o = o' ∧ stem n = stem n' ∧ e = e' := by
  constructor
  · intro h
    have h := congrArg String.toList h
    have hd : ∀ x ∈ ["c", "cpp", "h"], '.' ∉ x.toList ∧ '/' ∉ x.toList := by decide
    have form : ∀ o n e : String, (outName o n e).toList =
        o.toList ++ '/' :: ("easyMock_".toList ++ ((stem n).toList ++ '.' :: e.toList)) := by
      intro o n e
      have a : "/easyMock_".toList = '/' :: "easyMock_".toList := by decide
      have b : ".".toList = ['.'] := by decide
      unfold outName
      simp only [String.toList_append, a, b, List.append_assoc, List.cons_append, List.nil_append]
    rw [form, form] at h
    have ns : ∀ (n e : String), '/' ∉ e.toList → '/' ∉ "easyMock_".toList ++ ((stem n).toList ++ '.' :: e.toList) := by
      intro n e he hm
      rcases List.mem_append.mp hm with hm | hm
      · revert hm; decide
      · rcases List.mem_append.mp hm with hm | hm
        · exact stem_noSlash n hm
        · rcases List.mem_cons.mp hm with hm | hm
          · revert hm; decide
          · exact he hm
    obtain ⟨h1, h2⟩ := split_last (ns n e (hd e he).2) (ns n' e' (hd e' he').2) h
    obtain ⟨h3, h4⟩ := split_last (hd e he).1 (hd e' he').1 (List.append_cancel_left h2)
    exact ⟨String.toList_inj.mp h1, String.toList_inj.mp h3, String.toList_inj.mp h4⟩
  · rintro ⟨rfl, h, rfl⟩
    unfold outName; rw [h]

omit [DecidableEq F] in
/-- C89: if different paths lead to different files, runs for headers in different output directories, or with names which differ before the
    last dot, have no file in common; nor have source and header of one run. -/
theorem C89_apart (resolve : String → Option F) (hi : ∀ p q f, resolve p = some f → resolve q = some f → p = q) (r r' : Run) :
    (r.outDir ≠ r'.outDir ∨ stem r.name ≠ stem r'.name → ApartRuns resolve r r') ∧
    ((resolve r.sourcePath).isSome → resolve r.sourcePath ≠ resolve r.headerPath) := by
  have hk : ∀ r : Run, ∀ p ∈ [r.sourcePath, r.headerPath], ∃ e ∈ ["c", "cpp", "h"], p = outName r.outDir r.name e := by
    intro r p hp
    rcases List.mem_cons.mp hp with rfl | hp
    · refine ⟨if r.cpp then "cpp" else "c", ?_, (out_source r).symm⟩
      cases r.cpp <;> simp
    · rw [List.mem_singleton] at hp
      subst hp
      exact ⟨"h", by simp, (out_header r).symm⟩
  constructor
  · intro hne p hp q hq f hf hf'
    obtain ⟨e, he, e1⟩ := hk r p hp
    obtain ⟨e', he', e2⟩ := hk r' q hq
    have := hi p q f hf hf'
    rw [e1, e2] at this
    obtain ⟨a, b, _⟩ := (C89_paths _ _ _ _ _ _ he he').mp this
    rcases hne with h | h
    · exact h a
    · exact h b
  · intro hs he
    obtain ⟨f, hf⟩ := Option.isSome_iff_exists.mp hs
    have := hi _ _ f hf (he ▸ hf)
    rw [← out_source, ← out_header] at this
    have hm : (if r.cpp then "cpp" else "c") ∈ ["c", "cpp", "h"] := by cases r.cpp <;> simp
    have e := ((C89_paths _ _ _ _ _ _ hm (by simp)).mp this).2.2
    cases hc : r.cpp <;> rw [hc] at e <;> revert e <;> decide

/-! ## Agreement with the model of the command line -/

/-- C89: the file system of the model of the command line (C37) and this one agree on the result and on the files which are written, when a
    path is writable there if it can be opened and written here. -/
theorem C89_agrees (fs : FS) (dir : String) (o : Options) (resolve : String → Option F) (d : Files F) (r : Run)
    (h1 : r.outDir = o.outputDir) (h2 : r.name = o.input) (h3 : r.cpp = o.mockCpp)
    (w1 : fs.writable dir r.sourcePath = true ↔ (resolve r.sourcePath).isSome ∧ ∀ n, r.sourceWrite ≠ .failed n)
    (w2 : fs.writable dir r.headerPath = true ↔ (resolve r.headerPath).isSome ∧ ∀ n, r.headerWrite ≠ .failed n) :
    (generate resolve d r).1 = (CmdLine.generate fs dir o).1 := by
  have a1 : CmdLine.outFile o.outputDir o.input (if o.mockCpp then "cpp" else "c") = r.sourcePath := by
    rw [← out_source, h1, h2, h3]; rfl
  have a2 : CmdLine.outFile o.outputDir o.input "h" = r.headerPath := by rw [← out_header, h1, h2]; rfl
  have hg := (C89_touched resolve d r).2.2.2.2
  unfold CmdLine.generate
  simp only [a1, a2]
  cases e1 : fs.writable dir r.sourcePath with
  | false =>
    simp only [if_true]
    cases hb : (generate resolve d r).1 with
    | false => rfl
    | true =>
      have := hg.mp hb
      rw [w1.mpr ⟨this.1, this.2.1⟩] at e1; cases e1
  | true =>
    cases e2 : fs.writable dir r.headerPath with
    | false =>
      simp only [Bool.true_eq_false, if_false, if_true]
      cases hb : (generate resolve d r).1 with
      | false => rfl
      | true =>
        have := hg.mp hb
        rw [w2.mpr this.2.2] at e2; cases e2
    | true =>
      simp only [Bool.true_eq_false, if_false]
      have x := w1.mp e1
      exact hg.mpr ⟨x.1, x.2, w2.mp e2⟩

/-! ## Where it is false -/

/-- Every path leads to a file of its own. -/
def everyPath : String → Option String := some

/-- An empty disk. -/
def emptyDisk : Files String := fun _ => none

/-- C89 is false for headers which are called the same up to the last dot: the mock of `a.h` is gone when that of `a.hpp` has been made, and both
    runs have succeeded. -/
theorem C89_refuted_same_stem :
    let r : Run := { outDir := "out", name := "a.h", source := "A", header := "a" }
    let r' : Run := { outDir := "out", name := "a.hpp", source := "B", header := "b" }
    (generate everyPath emptyDisk r).1 = true ∧ (generate everyPath (build everyPath emptyDisk [r]) r').1 = true ∧
    everyPath r.sourcePath = some "out/easyMock_a.c" ∧
    build everyPath emptyDisk [r, r'] "out/easyMock_a.c" = some ['B'] := by
  refine ⟨by decide +kernel, by decide +kernel, by decide +kernel, by decide +kernel⟩

/-- C89 is false when the header is mocked for C and for C++ into one directory: the header of the C mock is replaced. -/
theorem C89_refuted_both_languages :
    let r : Run := { outDir := "out", name := "a.h", source := "A", header := "a" }
    let r' : Run := { outDir := "out", name := "a.h", cpp := true, source := "B", header := "b" }
    build everyPath emptyDisk [r, r'] "out/easyMock_a.c" = some ['A'] ∧
    build everyPath emptyDisk [r, r'] "out/easyMock_a.h" = some ['b'] := by
  refine ⟨by decide +kernel, by decide +kernel⟩

/-- C89 is false when the disk is full at the time the stream is closed: success is reported for files which are cut off. -/
theorem C89_refuted_close :
    let r : Run := { outDir := "out", name := "a.h", source := "abc", header := "def", sourceWrite := .lost 1, headerWrite := .lost 0 }
    (generate everyPath emptyDisk r).1 = true ∧ (generate everyPath emptyDisk r).2 "out/easyMock_a.c" = some ['a'] ∧
    (generate everyPath emptyDisk r).2 "out/easyMock_a.h" = some [] := by
  refine ⟨by decide +kernel, by decide +kernel, by decide +kernel⟩

/-- C89: a run is not all or nothing.  If the header cannot be written, the new source stays beside the old header. -/
theorem C89_refuted_both :
    let d : Files String := fun p => if p = "out/easyMock_a.h" then some ['o'] else none
    let resolve : String → Option String := fun p => if p = "out/easyMock_a.h" then none else some p
    let r : Run := { outDir := "out", name := "a.h", source := "abc", header := "def" }
    (generate resolve d r).1 = false ∧ (generate resolve d r).2 "out/easyMock_a.c" = some ['a', 'b', 'c'] ∧
    (generate resolve d r).2 "out/easyMock_a.h" = some ['o'] := by
  refine ⟨by decide +kernel, by decide +kernel, by decide +kernel⟩

/-! ## Examples -/

/-- Two headers mocked into one directory, on a disk with an old file. -/
example :
    let r : Run := { outDir := "out", name := "a.h", source := "abc", header := "def" }
    let r' : Run := { outDir := "out", name := "b.h", cpp := true, source := "x", header := "y" }
    let d : Files String := fun p => if p = "out/easyMock_a.c" then some ['o', 'l', 'd'] else none
    ApartRuns everyPath r r' ∧ everyPath r.sourcePath ≠ everyPath r.headerPath ∧ Plain r.source ∧ Plain r.header ∧
    (generate everyPath (build everyPath d []) r).1 = true ∧
    build everyPath d [r, r'] "out/easyMock_a.c" = some ['a', 'b', 'c'] ∧ build everyPath d [r, r'] "out/easyMock_b.cpp" = some ['x'] := by
  refine ⟨?_, by decide +kernel, by unfold Plain; decide, by unfold Plain; decide, by decide +kernel, by decide +kernel, by decide +kernel⟩
  exact (C89_apart everyPath (fun p q f h h' => by
    unfold everyPath at h h'
    exact (Option.some.inj h).trans (Option.some.inj h').symm) _ _).1 (Or.inr (by decide +kernel))

end EasyMock.Disk
