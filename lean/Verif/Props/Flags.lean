import Verif.Parser.Flags
import Verif.Props.CmdLine

/-!
# C90: the include directories with which the header is parsed
-/

namespace EasyMock.Parser

open EasyMock.CmdLine

/-! ## How a compiler reads its arguments -/

/-- The arguments of a compiler: an option which takes its value from the next argument, as told by `sep`, or an argument of its own. -/
def items (sep : String → Bool) : List String → List (String × Option String)
  | [] => []
  | [a] => [(a, none)]
  | a :: b :: r => if sep a then (a, some b) :: items sep r else (a, none) :: items sep (b :: r)

/-- The include directory of an argument: `-I dir` or `-Idir`. -/
def directoryOf : String × Option String → Option String
  | (a, some d) => if a = "-I" then some d else none
  | (a, none) =>
    match a.toList with
    | '-' :: 'I' :: c :: r => some (String.ofList (c :: r))
    | _ => none

/-- The include directories in the order in which they are searched. -/
def directories (sep : String → Bool) (args : List String) : List String := (items sep args).filterMap directoryOf

/-- Which options take the next argument: `-I` does, `-Idir` does not. -/
structure ArgOptions (sep : String → Bool) : Prop where
  separate : sep "-I" = true
  joined : ∀ d, d ≠ "" → sep ("-I" ++ d) = false

/-- No argument waits for a value behind the last one. -/
def complete (sep : String → Bool) : List String → Bool
  | [] => true
  | [a] => !sep a
  | a :: b :: r => if sep a then complete sep r else complete sep (b :: r)

/-! ## Proofs -/

theorem getlines_word : ∀ (w : List Char) (acc rest : List Char), ':' ∉ w → getlines acc (w ++ rest) = getlines (w.reverse ++ acc) rest := by
  intro w
  induction w with
  | nil => intro acc rest _; rfl
  | cons c w ih =>
    intro acc rest h
    have hc : c ≠ ':' := fun e => h (e ▸ List.mem_cons_self)
    show getlines acc (c :: (w ++ rest)) = _
    rw [getlines, if_neg hc, ih _ _ (fun hm => h (List.mem_cons_of_mem _ hm)), List.reverse_cons, List.append_assoc]
    rfl

theorem getlines_join : ∀ ds : List String, (∀ d ∈ ds, d ≠ "" ∧ ':' ∉ d.toList) →
    getlines [] (":".intercalate ds).toList = ds.map String.toList := by
  intro ds
  induction ds with
  | nil => intro _; decide
  | cons d ds ih =>
    intro h
    obtain ⟨hd, hc⟩ := h d List.mem_cons_self
    have hne : d.toList.reverse.isEmpty = false := by
      cases e : d.toList.reverse with
      | nil =>
        exact absurd (String.toList_inj.mp (by rw [List.reverse_eq_nil_iff.mp e]; rfl)) hd
      | cons _ _ => rfl
    cases ds with
    | nil =>
      have : ":".intercalate [d] = d := by
        apply String.toList_inj.mp
        rw [String.toList_intercalate]; simp [List.intercalate]
      rw [this]
      have := getlines_word d.toList [] [] hc
      rw [List.append_nil, List.append_nil] at this
      rw [this, getlines, hne]
      simp
    | cons e ds =>
      have split : (":".intercalate (d :: e :: ds)).toList = d.toList ++ ':' :: (":".intercalate (e :: ds)).toList := by
        rw [String.toList_intercalate, String.toList_intercalate]
        simp [List.intercalate]
      rw [split, getlines_word _ _ _ hc, getlines, if_pos rfl, ih (fun x hx => h x (List.mem_cons_of_mem _ hx)), List.append_nil,
        List.reverse_reverse]
      rfl

theorem items_append (sep : String → Bool) : ∀ (n : Nat) (a b : List String), a.length ≤ n → complete sep a = true →
    items sep (a ++ b) = items sep a ++ items sep b := by
  intro n
  induction n with
  | zero =>
    intro a b hl _
    cases a with
    | nil => rfl
    | cons _ _ => simp at hl
  | succ n ih =>
    intro a b hl hc
    match a, hl, hc with
    | [], _, _ => rfl
    | [x], _, hc =>
      have hx : sep x = false := by simpa [complete] using hc
      cases b with
      | nil => rfl
      | cons y b =>
        show items sep (x :: y :: b) = _
        rw [items.eq_3, hx]; rfl
    | x :: y :: r, hl, hc =>
      show items sep (x :: y :: (r ++ b)) = _
      rw [items.eq_3, items.eq_3]
      unfold complete at hc
      cases hx : sep x with
      | true =>
        rw [hx] at hc
        simp only [if_true] at hc ⊢
        rw [ih r b (by simp at hl; omega) hc]; rfl
      | false =>
        rw [hx] at hc
        simp only [Bool.false_eq_true, if_false] at hc ⊢
        rw [show y :: (r ++ b) = (y :: r) ++ b from rfl, ih (y :: r) b (by simp at hl ⊢; omega) hc]; rfl

theorem items_joined {sep : String → Bool} (ho : ArgOptions sep) : ∀ ds : List String, (∀ d ∈ ds, d ≠ "") →
    items sep (ds.map (fun d => "-I" ++ d)) = ds.map (fun d => ("-I" ++ d, none)) := by
  intro ds
  induction ds with
  | nil => intro _; rfl
  | cons d ds ih =>
    intro h
    have hd := ho.joined d (h d List.mem_cons_self)
    have ih := ih (fun x hx => h x (List.mem_cons_of_mem _ hx))
    cases ds with
    | nil => rfl
    | cons e ds =>
      simp only [List.map_cons] at ih ⊢
      rw [items.eq_3, hd]
      simp only [Bool.false_eq_true, if_false]
      rw [ih]

theorem directory_joined {d : String} (h : d ≠ "") : directoryOf ("-I" ++ d, none) = some d := by
  have e : ("-I" ++ d).toList = '-' :: 'I' :: d.toList := by
    rw [String.toList_append]
    have : "-I".toList = ['-', 'I'] := by decide
    rw [this]; rfl
  unfold directoryOf
  simp only [e]
  cases hd : d.toList with
  | nil => exact absurd (String.toList_inj.mp (hd.trans (by decide))) h
  | cons c r =>
    simp only
    rw [← hd, String.ofList_toList]

/-! ## The property -/

/-- C90 (partial: no argument of the user waits for a value, no directory of the compiler is empty; see the refutations).  The header is parsed
    with the arguments of the user, unchanged and in their order, followed by one `-I` for each implicit include directory of the compiler.
    The directories of the user are searched first. -/
theorem C90_directories_partial {sep : String → Bool} (ho : ArgOptions sep) (flags ds : List String) (hf : complete sep flags = true)
    (hd : ∀ d ∈ ds, d ≠ "" ∧ ':' ∉ d.toList) :
    clangArgs flags (":".intercalate ds) = flags ++ ds.map (fun d => "-I" ++ d) ∧
    items sep (clangArgs flags (":".intercalate ds)) = items sep flags ++ ds.map (fun d => ("-I" ++ d, none)) ∧
    directories sep (clangArgs flags (":".intercalate ds)) = directories sep flags ++ ds := by
  have e1 : clangArgs flags (":".intercalate ds) = flags ++ ds.map (fun d => "-I" ++ d) := by
    unfold clangArgs
    rw [getlines_join ds hd, List.map_map]
    congr 1
    apply List.map_congr_left
    intro d _
    show "-I" ++ String.ofList d.toList = _
    rw [String.ofList_toList]
  have e2 : items sep (clangArgs flags (":".intercalate ds)) = items sep flags ++ ds.map (fun d => ("-I" ++ d, none)) := by
    rw [e1, items_append sep _ _ _ (Nat.le_refl _) hf, items_joined ho ds (fun d h => (hd d h).1)]
  refine ⟨e1, e2, ?_⟩
  unfold directories
  rw [e2, List.filterMap_append]
  congr 1
  clear e1 e2
  induction ds with
  | nil => rfl
  | cons d ds ih =>
    rw [List.map_cons, List.filterMap_cons, directory_joined (hd d List.mem_cons_self).1,
      ih (fun x hx => hd x (List.mem_cons_of_mem _ hx))]

/-- C90: whatever the flags and the directories of the compiler are, the arguments start with those of the user, and every argument behind them
    starts with `-I`. -/
theorem C90_prefix (flags : List String) (implicit : String) :
    ∃ rest, clangArgs flags implicit = flags ++ rest ∧ ∀ a ∈ rest, ∃ d : String, a = "-I" ++ d ∧ ':' ∉ d.toList := by
  refine ⟨_, rfl, ?_⟩
  intro a ha
  obtain ⟨d, hd, rfl⟩ := List.mem_map.mp ha
  refine ⟨String.ofList d, rfl, ?_⟩
  rw [String.toList_ofList]
  have go : ∀ (l acc : List Char), ':' ∉ acc → d ∈ getlines acc l → ':' ∉ d := by
    intro l
    induction l with
    | nil =>
      intro acc h hm
      unfold getlines at hm
      split at hm
      · cases hm
      · rw [List.mem_singleton] at hm; subst hm
        simpa using h
    | cons c l ih =>
      intro acc h hm
      unfold getlines at hm
      split at hm
      · rcases List.mem_cons.mp hm with rfl | hm
        · simpa using h
        · exact ih [] (by simp) hm
      · rename_i hc
        exact ih (c :: acc) (fun hx => by rcases List.mem_cons.mp hx with e | e; exact hc e.symm; exact h e) hm
  exact go _ [] (by simp) hd

/-- C90 (partial, as `C90_directories_partial`), from the command line of the tool: the arguments of the user are those of the command line which
    the tool does not know. -/
theorem C90_run_partial {sep : String → Bool} (ho : ArgOptions sep) {fs : FS} {dir : String} (hdrOk : String → ParserCfg → Bool)
    (hfs : NoEmptyPath fs) {args : List String} {d : String} {c : ParserCfg} (h : (mainRun fs hdrOk dir args).parsed = some (d, c))
    (hf : complete sep (forwarded none args) = true) (ds : List String) (hd : ∀ d ∈ ds, d ≠ "" ∧ ':' ∉ d.toList) :
    directories sep (clangArgs c.flags (":".intercalate ds)) = directories sep (forwarded none args) ++ ds := by
  rw [(C33_reach_parser hdrOk hfs h).2.1]
  exact (C90_directories_partial ho _ ds hf hd).2.2

/-- The options `-I`, `-D` and `-include` take the next argument. -/
def someOptions (a : String) : Bool := a == "-I" || a == "-D" || a == "-include"

theorem someOptions_ok : ArgOptions someOptions := by
  refine ⟨by decide, ?_⟩
  intro d hd
  have e : ("-I" ++ d).toList = '-' :: 'I' :: d.toList := by
    rw [String.toList_append]
    have : "-I".toList = ['-', 'I'] := by decide
    rw [this]; rfl
  have n : ∀ s : String, ("-I" ++ d).toList ≠ s.toList → (("-I" ++ d) == s) = false := by
    intro s hs
    rw [beq_eq_false_iff_ne]
    intro h; exact hs (by rw [h])
  unfold someOptions
  rw [n "-I", n "-D", n "-include"]
  · rfl
  · rw [e]; intro h
    have : "-include".toList = ['-', 'i', 'n', 'c', 'l', 'u', 'd', 'e'] := by decide
    rw [this] at h; simp at h
  · rw [e]; intro h
    have : "-D".toList = ['-', 'D'] := by decide
    rw [this] at h; simp at h
  · rw [e]; intro h
    have t : "-I".toList = ['-', 'I'] := by decide
    rw [t] at h
    have : d.toList = [] := by simpa using h
    exact hd (String.toList_inj.mp (this.trans (by decide)))

/-- C90 is false for an empty entry in the directories of the compiler: the `-I` made for it takes the next argument, and the directory behind it
    is not searched. -/
theorem C90_refuted_empty : clangArgs ["-Iinc"] "/a::/b" = ["-Iinc", "-I/a", "-I", "-I/b"] ∧
    directories someOptions (clangArgs ["-Iinc"] "/a::/b") = ["inc", "/a", "-I/b"] := by
  refine ⟨by decide +kernel, by decide +kernel⟩

/-- C90 is false when the last argument of the user waits for a value, as in `EasyMockGenerate -i a.h -o out -D`: it takes the first directory of the
    compiler. -/
theorem C90_refuted_incomplete : directories someOptions (clangArgs ["-Iinc", "-D"] "/a:/b") = ["inc", "/b"] := by decide +kernel

/-- Arguments of both forms. -/
example : directories someOptions (clangArgs ["-I", "x", "-D", "-Iy", "-Iz"] "/usr/include:/usr/local/include") =
    ["x", "z", "/usr/include", "/usr/local/include"] := by
  have h := (C90_directories_partial someOptions_ok ["-I", "x", "-D", "-Iy", "-Iz"] ["/usr/include", "/usr/local/include"]
    (by decide +kernel) (by decide +kernel)).2.2
  have e : ":".intercalate ["/usr/include", "/usr/local/include"] = "/usr/include:/usr/local/include" := by decide +kernel
  rw [e] at h
  rw [h]
  decide +kernel

example : ∃ d c, (mainRun demoFS (fun _ _ => true) "/w" ["-i", "a.h", "-Iinc", "-o", "out"]).parsed = some (d, c) ∧
    directories someOptions (clangArgs c.flags (":".intercalate ["/usr/include"])) = ["inc", "/usr/include"] := by
  refine ⟨_, _, rfl, ?_⟩
  have h := C90_run_partial someOptions_ok (fun _ _ => true) demoFS_noEmpty
    (args := ["-i", "a.h", "-Iinc", "-o", "out"]) (dir := "/w") rfl (by decide +kernel) ["/usr/include"] (by decide +kernel)
  rw [h]
  decide +kernel

end EasyMock.Parser
