import Verif.Macro.Written

/-! # C92: the macros of the generated header are those of the mocked header

With `--generate-types` the generated header replaces the mocked one: its macros have to mean the same. -/

namespace EasyMock.Macro

open EasyMock.Gen (Directive macroTable macroText joinTokens macroParam hasMacroDefine addMacroDefine deleteMacroDefine)

/-! ## The section -/

/-- What the table holds for a definition of the header. -/
structure Holds (cpp : Bool) (x : Gen.Macro) (d : Source) : Prop where
  entry : x = Macro.entry x.id d x.origin
  id : isIdent x.id.toList = true
  source : SourceOk cpp d
  loc : '\n' ∉ x.origin.toList

theorem run_section (cpp : Bool) (D : Gen.Macro → Source) : ∀ (ms : List Gen.Macro) (T : Table), (∀ x ∈ ms, Holds cpp x (D x)) →
    (ms.map (·.id)).Nodup →
    ∃ T', run cpp ⟨T, []⟩ (linesOf (macroSection ms).toList) = some ⟨T', []⟩ ∧
      (∀ id, (T id).isSome → T' id = T id) ∧
      (∀ x ∈ ms, T x.id.toList = none → T' x.id.toList = some (readAs (D x))) ∧
      (∀ id, T id = none → (∀ x ∈ ms, x.id.toList ≠ id) → T' id = none)
  | [], T, _, _ => ⟨T, rfl, fun _ _ => rfl, fun x hx => by simp at hx, fun id h _ => h⟩
  | x :: ms, T, h, hn => by
    have hx := h x List.mem_cons_self
    simp only [List.map_cons, List.nodup_cons] at hn
    obtain ⟨T', h1, h2, h3, h4⟩ := run_section cpp D ms (step T x.id.toList (readAs (D x)))
      (fun y hy => h y (List.mem_cons_of_mem _ hy)) hn.2
    have hne : ∀ y ∈ ms, y.id.toList ≠ x.id.toList := by
      intro y hy e
      exact hn.1 (by rw [← String.toList_inj.mp e]; exact List.mem_map_of_mem hy)
    have e : (macroSection (x :: ms)).toList = (macroText x).toList ++ (macroSection ms).toList := by
      simp [macroSection]
    have hstep : ∀ id, (T id).isSome → step T x.id.toList (readAs (D x)) id = T id := by
      intro id hid
      unfold step
      split
      · rfl
      · rename_i hs
        unfold Table.set
        rw [if_neg]
        rintro rfl
        exact hs hid
    have hother : ∀ id, id ≠ x.id.toList → step T x.id.toList (readAs (D x)) id = T id := by
      intro id hid
      unfold step
      split
      · rfl
      · unfold Table.set
        rw [if_neg hid]
    refine ⟨T', ?_, ?_, ?_, ?_⟩
    · rw [e, hx.entry, run_entry hx.id hx.source hx.loc]
      exact h1
    · intro id hid
      rw [h2 id (by rw [hstep id hid]; exact hid), hstep id hid]
    · intro y hy hT
      rcases List.mem_cons.mp hy with rfl | hy
      · have hs : step T y.id.toList (readAs (D y)) y.id.toList = some (readAs (D y)) := by
          unfold step
          rw [hT]
          simp [Table.set]
        rw [h2 _ (by rw [hs]; rfl), hs]
      · exact h3 y hy (by rw [hother _ (hne y hy)]; exact hT)
    · intro id hT hall
      refine h4 id ?_ (fun y hy => hall y (List.mem_cons_of_mem _ hy))
      rw [hother id (Ne.symm (hall x List.mem_cons_self))]
      exact hT

/-! ## The table -/

/-- The directives of a header which are written so that they are read back. -/
def SaidOk (cpp : Bool) : Said → Prop
  | .define id d loc => isIdent id.toList = true ∧ SourceOk cpp d ∧ '\n' ∉ loc.toList
  | .undef _ => True

/-- A name which has a definition is not given another one without `#undef` (ISO C 6.10.3p2). -/
def Benign (H : List Char → Option Meaning) (ds : List Said) : Prop :=
  ∀ pre id d loc post, ds = pre ++ .define id d loc :: post → ∀ m, headerFrom H pre id.toList = some m → m = d.meaning

structure Inv (cpp : Bool) (ms : List Gen.Macro) (H : List Char → Option Meaning) : Prop where
  known : ∀ x ∈ ms, ∃ d, Holds cpp x d ∧ H x.id.toList = some d.meaning
  unknown : ∀ id : List Char, (∀ x ∈ ms, x.id.toList ≠ id) → H id = none

theorem inv_step {cpp : Bool} {ms : List Gen.Macro} {H : List Char → Option Meaning} (hi : Inv cpp ms H) (a : Said)
    (ha : SaidOk cpp a) (hb : ∀ id d loc, a = .define id d loc → ∀ m, H id.toList = some m → m = d.meaning) :
    Inv cpp (Gen.directive ms (directiveOf a.event)) (defines H a) := by
  cases a with
  | define id d loc =>
    obtain ⟨hid, hsrc, hloc⟩ := ha
    have hne : id.isEmpty = false := by
      rw [← Bool.not_eq_true, String.isEmpty_iff]
      rintro rfl
      exact absurd hid (by decide)
    have e : Gen.directive ms (directiveOf (Said.define id d loc).event) =
        if hasMacroDefine ms id then ms else ms ++ [entry id d loc] := by
      show (if (id.isEmpty : Bool) then ms else addMacroDefine ms id _ _ loc) = _
      rw [hne]
      simp only [Bool.false_eq_true, if_false, addMacroDefine]
      cases hf : d.formals with
      | none => simp [entry, hf]
      | some f => simp [entry, hf]
    rw [e]
    have hh : hasMacroDefine ms id = true ↔ ∃ x ∈ ms, x.id = id := by
      simp [hasMacroDefine]
    split
    · rename_i hs
      obtain ⟨x, hx, hxid⟩ := hh.mp hs
      have hm : H id.toList = some d.meaning := by
        obtain ⟨d', _, h2⟩ := hi.known x hx
        rw [hxid] at h2
        rw [h2, hb id d loc rfl _ h2]
      refine ⟨?_, ?_⟩
      · intro y hy
        obtain ⟨d', h1, h2⟩ := hi.known y hy
        refine ⟨d', h1, ?_⟩
        simp only [defines]
        split
        · rename_i hq
          rw [← h2, hq, hm]
        · exact h2
      · intro y hy
        simp only [defines]
        rw [if_neg (by rintro rfl; exact hy x hx (by rw [hxid]))]
        exact hi.unknown y hy
    · rename_i hs
      have hno : ∀ x ∈ ms, x.id ≠ id := fun x hx hxid => hs (hh.mpr ⟨x, hx, hxid⟩)
      refine ⟨?_, ?_⟩
      · intro y hy
        simp only [List.mem_append, List.mem_singleton] at hy
        rcases hy with hy | rfl
        · obtain ⟨d', h1, h2⟩ := hi.known y hy
          refine ⟨d', h1, ?_⟩
          simp only [defines]
          rw [if_neg (fun hq => hno y hy (String.toList_inj.mp hq))]
          exact h2
        · refine ⟨d, ⟨rfl, hid, hsrc, hloc⟩, ?_⟩
          simp [defines, entry]
      · intro y hy
        simp only [defines]
        rw [if_neg (by
          rintro rfl
          exact hy (entry id d loc) (List.mem_append_right _ List.mem_cons_self) rfl)]
        exact hi.unknown y (fun x hx => hy x (List.mem_append_left _ hx))
  | undef id =>
    have e : Gen.directive ms (directiveOf (Said.undef id).event) = ms.filter (fun x => x.id != id) := by
      show (if !hasMacroDefine ms id then ms else deleteMacroDefine ms id) = _
      cases hh : hasMacroDefine ms id with
      | true => rfl
      | false =>
        simp only [Bool.not_false, if_true]
        symm
        rw [List.filter_eq_self]
        intro x hx
        simp only [hasMacroDefine, List.any_eq_false] at hh
        have := hh x hx
        simpa using this
    rw [e]
    refine ⟨?_, ?_⟩
    · intro y hy
      simp only [List.mem_filter, bne_iff_ne, ne_eq] at hy
      obtain ⟨d', h1, h2⟩ := hi.known y hy.1
      refine ⟨d', h1, ?_⟩
      simp only [defines]
      rw [if_neg (fun hq => hy.2 (String.toList_inj.mp hq))]
      exact h2
    · intro y hy
      simp only [defines]
      split
      · rfl
      · rename_i hq
        refine hi.unknown y (fun x hx he => ?_)
        refine hy x ?_ he
        simp only [List.mem_filter, bne_iff_ne, ne_eq]
        refine ⟨hx, ?_⟩
        rintro rfl
        exact hq he.symm

theorem inv_all {cpp : Bool} : ∀ (ds : List Said) (ms : List Gen.Macro) (H : List Char → Option Meaning), Inv cpp ms H →
    (∀ a ∈ ds, SaidOk cpp a) → Benign H ds →
    Inv cpp ((ds.map (fun a => directiveOf a.event)).foldl Gen.directive ms) (headerFrom H ds)
  | [], _, _, hi, _, _ => hi
  | a :: ds, ms, H, hi, ha, hb => by
    have h1 := inv_step hi a (ha a List.mem_cons_self)
      (fun id d loc e m hm => hb [] id d loc ds (by rw [e]; rfl) m hm)
    exact inv_all ds _ _ h1 (fun b hb' => ha b (List.mem_cons_of_mem _ hb'))
      (fun pre id d loc post e m hm => hb (a :: pre) id d loc post (by rw [e]; rfl) m hm)

/-- C92 (partial: the definitions are the ones which are not lost, see the refutations — every token is an identifier, a
    punctuator or a literal, a function-like macro has a parameter, its last parameter is not `name...`, and no name is defined
    again differently without `#undef`).  Wherever the generated header is included, with whatever macros `T` defined before and
    in whatever order the table is written: the macros defined before keep their definition, and every other name is defined
    exactly if it is at the end of the mocked header, with the same parameters and the same replacement. -/
theorem C92_partial (cpp : Bool) (ds : List Said) (hok : ∀ a ∈ ds, SaidOk cpp a) (hb : Benign (fun _ => none) ds)
    (ms : List Gen.Macro) (hms : ms.Perm (tableOf (ds.map Said.event))) (T : Table) :
    ∃ T', preprocess cpp T (macroSection ms).toList = some T' ∧
      (∀ id, (T id).isSome → T' id = T id) ∧
      (∀ id, T id = none → (T' id).map Def.meaning = header ds id) := by
  have e : tableOf (ds.map Said.event) = (ds.map (fun a => directiveOf a.event)).foldl Gen.directive [] := by
    simp [tableOf, macroTable, List.map_map, Function.comp_def]
  have hi := inv_all (cpp := cpp) ds [] (fun _ => none)
    ⟨fun x hx => by simp at hx, fun _ _ => rfl⟩ hok hb
  rw [← e] at hi
  have hn : (ms.map (·.id)).Nodup := (hms.map (·.id)).nodup_iff.mpr (Gen.macroTable_nodup _)
  have hD : ∀ x, ∃ d, x ∈ ms → Holds cpp x d ∧ header ds x.id.toList = some d.meaning := by
    intro x
    by_cases hx : x ∈ ms
    · obtain ⟨d, hd⟩ := hi.known x (hms.mem_iff.mp hx)
      exact ⟨d, fun _ => hd⟩
    · exact ⟨⟨none, []⟩, fun h => absurd h hx⟩
  let D := fun x => Classical.choose (hD x)
  have hD' : ∀ x ∈ ms, Holds cpp x (D x) ∧ header ds x.id.toList = some (D x).meaning :=
    fun x hx => Classical.choose_spec (hD x) hx
  obtain ⟨T', h1, h2, h3, h4⟩ := run_section cpp D ms T (fun x hx => (hD' x hx).1) hn
  refine ⟨T', ?_, h2, ?_⟩
  · unfold preprocess
    rw [h1]
  · intro id hT
    by_cases hx : ∃ x ∈ ms, x.id.toList = id
    · obtain ⟨x, hx, rfl⟩ := hx
      rw [h3 x hx hT, (hD' x hx).2, Option.map_some, readAs_meaning]
    · have hall : ∀ x ∈ ms, x.id.toList ≠ id := fun x hx' he => hx ⟨x, hx', he⟩
      rw [h4 id hT hall, Option.map_none]
      exact (hi.unknown id (fun x hx' => hall x (hms.mem_iff.mpr hx'))).symm

/-! ## An example -/

theorem benign_cons (H : List Char → Option Meaning) (a : Said) (ds : List Said)
    (h : ∀ id d loc, a = .define id d loc → ∀ m, H id.toList = some m → m = d.meaning) (hs : Benign (defines H a) ds) :
    Benign H (a :: ds) := by
  intro pre id d loc post e m hm
  cases pre with
  | nil =>
    simp only [List.nil_append, List.cons.injEq] at e
    exact h id d loc e.1 m hm
  | cons b pre =>
    simp only [List.cons_append, List.cons.injEq] at e
    obtain ⟨rfl, e⟩ := e
    exact hs pre id d loc post e m hm

theorem benign_nil (H : List Char → Option Meaning) : Benign H [] := by
  intro pre id d loc post e
  simp at e

instance (cpp : Bool) (t : List Char) : Decidable (IsToken cpp t) := inferInstanceAs (Decidable (_ ∧ _))

/-- `(-2L)`. -/
def exSize : Source := ⟨none, [.punct "(", .punct "-", .lit "2L", .punct ")"]⟩

/-- The macro `LOG(fmt, ...)` with the replacement `log_##fmt(L"a \"b", 1.5e+3f, #fmt, __VA_ARGS__)`. -/
def exLog : Source :=
  ⟨some ⟨["fmt".toList], .dots⟩, [.ident "log_", .punct "##", .ident "fmt", .punct "(", .lit "L\"a \\\"b\"", .punct ",",
    .lit "1.5e+3f", .punct ",", .punct "#", .ident "fmt", .punct ",", .ident "__VA_ARGS__", .punct ")"]⟩

/-- `#define SIZE 'x'`, `#undef SIZE`, `#define SIZE (-2L)`, the macro `LOG`, `#define ONCE`, `#define SIZE (-2L)`. -/
def exSaid : List Said :=
  [.define "SIZE" ⟨none, [.lit "'x'"]⟩ "list.h:3:9", .undef "SIZE", .define "SIZE" exSize "list.h:5:9",
   .define "LOG" exLog "list.h:6:9", .define "ONCE" ⟨none, []⟩ "<command line>:1:9", .define "SIZE" exSize "other.h:1:9"]

theorem exSize_ok : SourceOk false exSize := by
  refine ⟨?_, fun f h => by simp [exSize] at h⟩
  intro t ht
  simp only [exSize, List.mem_cons, List.not_mem_nil, or_false] at ht
  rcases ht with rfl | rfl | rfl | rfl <;> exact ⟨by decide +kernel, by intro x h; cases h⟩

theorem exLog_ok : SourceOk false exLog := by
  refine ⟨?_, ?_⟩
  · intro t ht
    simp only [exLog, List.mem_cons, List.not_mem_nil, or_false] at ht
    rcases ht with rfl | rfl | rfl | rfl | rfl | rfl | rfl | rfl | rfl | rfl | rfl | rfl | rfl <;>
      exact ⟨by decide +kernel, by intro x h; cases h⟩
  · intro f h
    simp only [exLog, Option.some.injEq] at h
    subst h
    refine ⟨?_, .inr rfl, .inr rfl⟩
    intro n hn
    simp only [List.mem_cons, List.not_mem_nil, or_false] at hn
    subst hn
    decide +kernel

theorem exSaid_ok : ∀ a ∈ exSaid, SaidOk false a := by
  intro a ha
  simp only [exSaid, List.mem_cons, List.not_mem_nil, or_false] at ha
  rcases ha with rfl | rfl | rfl | rfl | rfl | rfl
  · refine ⟨by decide +kernel, ⟨?_, fun f h => by simp at h⟩, by decide +kernel⟩
    intro t ht
    simp only [List.mem_cons, List.not_mem_nil, or_false] at ht
    subst ht
    exact ⟨by decide +kernel, by intro x h; cases h⟩
  · trivial
  · exact ⟨by decide +kernel, exSize_ok, by decide +kernel⟩
  · exact ⟨by decide +kernel, exLog_ok, by decide +kernel⟩
  · exact ⟨by decide +kernel, ⟨fun t ht => by simp at ht, fun f h => by simp at h⟩, by decide +kernel⟩
  · exact ⟨by decide +kernel, exSize_ok, by decide +kernel⟩

theorem exSaid_benign : Benign (fun _ => none) exSaid := by
  have step : ∀ (H : List Char → Option Meaning) (id : String) (d : Source) (loc : String) (ds : List Said),
      (H id.toList = none ∨ H id.toList = some d.meaning) → Benign (defines H (.define id d loc)) ds →
      Benign H (.define id d loc :: ds) := by
    intro H id d loc ds h hs
    refine benign_cons H _ ds ?_ hs
    intro id' d' loc' e m hm
    cases e
    rcases h with h | h
    · rw [h] at hm; cases hm
    · rw [h] at hm; injection hm with hm; exact hm.symm
  refine step _ _ _ _ _ (.inl rfl) ?_
  refine benign_cons _ _ _ (fun _ _ _ h => by cases h) ?_
  refine step _ _ _ _ _ (.inl (by decide +kernel)) ?_
  refine step _ _ _ _ _ (.inl (by decide +kernel)) ?_
  refine step _ _ _ _ _ (.inl (by decide +kernel)) ?_
  exact step _ _ _ _ _ (.inr (by decide +kernel)) (benign_nil _)

/-- The header read where `ONCE` is defined as `1`. -/
def exTable : Table := fun x => if x = "ONCE".toList then some ⟨none, [⟨true, ['1']⟩]⟩ else none

example : ∃ T', preprocess false exTable (macroSection (tableOf (exSaid.map Said.event)).reverse).toList = some T' ∧
    T' "ONCE".toList = some ⟨none, [⟨true, ['1']⟩]⟩ ∧
    (T' "SIZE".toList).map Def.meaning = some (none, [['('], ['-'], ['2', 'L'], [')']]) ∧
    (T' "LOG".toList).map Def.meaning = some exLog.meaning ∧
    (T' "DEBUG".toList).map Def.meaning = none := by
  obtain ⟨T', h1, h2, h3⟩ := C92_partial false exSaid exSaid_ok exSaid_benign _ (List.reverse_perm _) exTable
  refine ⟨T', h1, ?_, ?_, ?_, ?_⟩
  · rw [h2 _ (by decide +kernel)]
    decide +kernel
  · rw [h3 _ (by decide +kernel)]
    decide +kernel
  · rw [h3 _ (by decide +kernel)]
    decide +kernel
  · rw [h3 _ (by decide +kernel)]
    decide +kernel

/-- The text itself, for `LOG`. -/
example : macroText (entry "LOG" exLog "list.h:6:9") = "#ifndef LOG\n// from: list.h:6:9\n#define LOG(fmt,...)  log_ ## fmt ( " ++
    "L\"a \\\"b\" , 1.5e+3f , # fmt , __VA_ARGS__ )\n#endif //macro LOG\n\n" := by
  decide +kernel

/-- The reader takes the longest token: `a+++b`, `.5e-x.y`, and in C++ only `a::b` and `1'000`. -/
example : (lex false "a+++b//c".toList).map (·.map (·.text)) = some [['a'], ['+', '+'], ['+'], ['b']] ∧
    (lex false ".5e-x.y ..".toList).map (·.map (·.text)) = some [".5e-x.y".toList, ['.'], ['.']] ∧
    (lex true "a::b 1'000'".toList).isNone ∧
    (lex true "a::b 1'000".toList).map (·.map (·.text)) = some [['a'], [':', ':'], ['b'], "1'000".toList] ∧
    (lex false "a::b u8\"x//\"y".toList).map (·.map (·.text)) =
      some [['a'], [':'], [':'], ['b'], "u8\"x//\"".toList, ['y']] := by
  decide +kernel

/-! ## The definitions which are lost -/

/-- What a test sees of a macro of the mocked header through the generated one. -/
def seen (cpp : Bool) (ds : List Said) (id : String) : Option Meaning :=
  ((preprocess cpp (fun _ => none) (macroSection (tableOf (ds.map Said.event))).toList).bind (fun T => T id.toList)).map
    Def.meaning

/-- C92 is false for `#define P(args...) f(args)`: the macro written takes one argument only. -/
theorem C92_refuted_named :
    ∃ ds, ds = [Said.define "P" ⟨some ⟨[], .named "args".toList⟩, [.ident "f", .punct "(", .ident "args", .punct ")"]⟩ "h:1"] ∧
      header ds "P".toList = some (some ⟨[], .named "args".toList⟩, [['f'], ['('], "args".toList, [')']]) ∧
      seen false ds "P" = some (some ⟨["args".toList], .no⟩, [['f'], ['('], "args".toList, [')']]) :=
  ⟨_, rfl, by decide +kernel, by decide +kernel⟩

/-- C92 is false for `#define F() 1`: the macro written is object-like, `F()` becomes `1()`. -/
theorem C92_refuted_no_parameters :
    ∃ ds, ds = [Said.define "F" ⟨some ⟨[], .no⟩, [.lit "1"]⟩ "h:1"] ∧
      header ds "F".toList = some (some ⟨[], .no⟩, [['1']]) ∧ seen false ds "F" = some (none, [['1']]) :=
  ⟨_, rfl, by decide +kernel, by decide +kernel⟩

/-- C92 is false for the tokens clang has no kind for: they disappear. -/
theorem C92_refuted_unknown :
    ∃ ds, ds = [Said.define "TICK" ⟨none, [.ident "a", .other "`", .ident "b"]⟩ "h:1"] ∧
      header ds "TICK".toList = some (none, [['a'], ['`'], ['b']]) ∧ seen false ds "TICK" = some (none, [['a'], ['b']]) :=
  ⟨_, rfl, by decide +kernel, by decide +kernel⟩

/-- C92 is false for redefinitions (which preprocessors accept with a warning): the first definition is written. -/
theorem C92_refuted_redefinition :
    ∃ ds, ds = [Said.define "N" ⟨none, [.lit "1"]⟩ "h:1", .define "N" ⟨none, [.lit "2"]⟩ "h:2"] ∧
      header ds "N".toList = some (none, [['2']]) ∧ seen false ds "N" = some (none, [['1']]) :=
  ⟨_, rfl, by decide +kernel, by decide +kernel⟩

/-- The white space between the tokens is not kept: the string made from `VERSION` is `1.2-3` in the mocked header, `1.2 - 3` with
    the generated one. -/
theorem C92_refuted_spacing :
    ((preprocess false (fun _ => none) "#define VERSION 1.2-3\n".toList).bind (fun T => T "VERSION".toList)).map
        (fun d => (d.meaning, stringize d.body)) = some ((none, [['1', '.', '2'], ['-'], ['3']]), "1.2-3".toList) ∧
    ((preprocess false (fun _ => none) (macroSection (tableOf
        [(Said.define "VERSION" ⟨none, [.lit "1.2", .punct "-", .lit "3"]⟩ "h:1").event])).toList).bind
          (fun T => T "VERSION".toList)).map
        (fun d => (d.meaning, stringize d.body)) = some ((none, [['1', '.', '2'], ['-'], ['3']]), "1.2 - 3".toList) := by
  constructor <;> decide +kernel

end EasyMock.Macro
