import Verif.Props.Macro
import Verif.Macro.Agree
import Verif.Props.Parser
import Verif.Props.TypesText

/-! # C93: text of the mocked header means the same in the generated header

The generator copies pieces of the mocked header: the type of a member is its source text, with the names of macros
(`getDeclareString`, PARSER:543-588).  In the generated header all macros come first and have the definitions of the end of the
mocked header. -/

namespace EasyMock.Macro

/-- The name of a directive. -/
def Said.name : Said → String
  | .define id _ _ => id
  | .undef id => id

theorem headerFrom_append (H : List Char → Option Meaning) (a b : List Said) :
    headerFrom H (a ++ b) = headerFrom (headerFrom H a) b := by
  simp [headerFrom]

theorem headerFrom_other (w : List Char) : ∀ (ds : List Said) (H : List Char → Option Meaning),
    (∀ a ∈ ds, a.name.toList ≠ w) → headerFrom H ds w = H w
  | [], _, _ => rfl
  | a :: ds, H, h => by
    have h1 := headerFrom_other w ds (defines H a) (fun b hb => h b (List.mem_cons_of_mem _ hb))
    have h2 := h a List.mem_cons_self
    show headerFrom (defines H a) ds w = H w
    rw [h1]
    cases a with
    | define id d loc => exact if_neg (Ne.symm h2)
    | undef id => exact if_neg (Ne.symm h2)

/-- The macros at a place as a preprocessor sees them. -/
def Table.meanings (T : Table) : List Char → Option Meaning := fun w => (T w).map Def.meaning

/-- C93 (partial: the macros which the text mentions, directly or through other macros, are not defined or undefined behind it,
    see the refutations; replacement lists with `#` and `##` are not expanded).  A piece of text which stands in the mocked header
    behind the directives `pre` is expanded to the same tokens in the generated header, behind the macros, wherever the generated
    header is included: `W` are the names the expansion can meet; the ones which are defined before the generated header mean the
    same there. -/
theorem C93_partial (cpp : Bool) (pre post : List Said) (hok : ∀ a ∈ pre ++ post, SaidOk cpp a)
    (hb : Benign (fun _ => none) (pre ++ post)) (ms : List Gen.Macro)
    (hms : ms.Perm (tableOf ((pre ++ post).map Said.event))) (T : Table)
    (text : List (List Char)) (W : List Char → Prop) (hW : ∀ t ∈ text, isIdent t = true → W t)
    (hc : Closed W (header pre)) (hpost : ∀ a ∈ post, ¬ W a.name.toList)
    (hT : ∀ w, W w → T w = none ∨ T.meanings w = header pre w) :
    ∃ T', preprocess cpp T (macroSection ms).toList = some T' ∧
      ∀ fuel, expandText T'.meanings fuel text = expandText (header pre) fuel text := by
  obtain ⟨T', h1, h2, h3⟩ := C92_partial cpp (pre ++ post) hok hb ms hms T
  refine ⟨T', h1, ?_⟩
  intro fuel
  have he : ∀ w, W w → T'.meanings w = header pre w := by
    intro w hw
    have hn : header (pre ++ post) w = header pre w := by
      unfold header
      rw [headerFrom_append]
      exact headerFrom_other w post _ (fun a ha e => hpost a ha (by rw [e]; exact hw))
    cases ht : T w with
    | none =>
      show (T' w).map Def.meaning = _
      rw [h3 w ht, hn]
    | some d =>
      rcases hT w hw with h | h
      · rw [ht] at h; cases h
      · show (T' w).map Def.meaning = _
        rw [h2 w (by rw [ht]; rfl), ← h]
        rfl
  unfold expandText
  rw [(expand_agree hc he fuel _ ?_).1]
  intro t ht
  obtain ⟨x, hx, rfl⟩ := List.mem_map.mp ht
  exact hW x hx

/-! ## An example -/

/-- `#define LEN sizeof(WORD)`, `#define WORD unsigned long`, `#define ARRAY(t, n) t[n]`; behind the text, `#define LIMIT 3`. -/
def exPre : List Said :=
  [.define "LEN" ⟨none, [.ident "sizeof", .punct "(", .ident "WORD", .punct ")"]⟩ "a.h:1",
   .define "WORD" ⟨none, [.ident "unsigned", .ident "long"]⟩ "a.h:2",
   .define "ARRAY" ⟨some ⟨["t".toList, "n".toList], .no⟩, [.ident "t", .punct "[", .ident "n", .punct "]"]⟩ "a.h:3"]

def exPost : List Said := [.define "LIMIT" ⟨none, [.lit "3"]⟩ "a.h:9"]

/-- `ARRAY(WORD, LEN) x;` -/
def exText : List (List Char) :=
  ["ARRAY".toList, ['('], "WORD".toList, [','], "LEN".toList, [')'], ['x'], [';']]

/-- The names which the expansion meets. -/
def exWords : List (List Char) :=
  ["ARRAY".toList, "WORD".toList, "LEN".toList, ['x'], "sizeof".toList, "unsigned".toList, "long".toList]

theorem exText_ok : ∀ a ∈ exPre ++ exPost, SaidOk false a := by
  intro a ha
  simp only [exPre, exPost, List.cons_append, List.nil_append, List.mem_cons, List.not_mem_nil, or_false] at ha
  rcases ha with rfl | rfl | rfl | rfl
  · refine ⟨by decide +kernel, ⟨?_, fun f h => by simp at h⟩, by decide +kernel⟩
    intro t ht
    simp only [List.mem_cons, List.not_mem_nil, or_false] at ht
    rcases ht with rfl | rfl | rfl | rfl <;> exact ⟨by decide +kernel, by intro x h; cases h⟩
  · refine ⟨by decide +kernel, ⟨?_, fun f h => by simp at h⟩, by decide +kernel⟩
    intro t ht
    simp only [List.mem_cons, List.not_mem_nil, or_false] at ht
    rcases ht with rfl | rfl <;> exact ⟨by decide +kernel, by intro x h; cases h⟩
  · refine ⟨by decide +kernel, ⟨?_, ?_⟩, by decide +kernel⟩
    · intro t ht
      simp only [List.mem_cons, List.not_mem_nil, or_false] at ht
      rcases ht with rfl | rfl | rfl | rfl <;> exact ⟨by decide +kernel, by intro x h; cases h⟩
    · intro f h
      simp only [Option.some.injEq] at h
      subst h
      refine ⟨?_, .inl rfl, .inl (by simp)⟩
      intro n hn
      simp only [List.mem_cons, List.not_mem_nil, or_false] at hn
      rcases hn with rfl | rfl <;> decide +kernel
  · refine ⟨by decide +kernel, ⟨?_, fun f h => by simp at h⟩, by decide +kernel⟩
    intro t ht
    simp only [List.mem_cons, List.not_mem_nil, or_false] at ht
    subst ht
    exact ⟨by decide +kernel, by intro x h; cases h⟩

theorem benign_define (H : List Char → Option Meaning) (id : String) (d : Source) (loc : String) (ds : List Said)
    (h : H id.toList = none) (hs : Benign (defines H (.define id d loc)) ds) : Benign H (.define id d loc :: ds) := by
  refine benign_cons H _ ds ?_ hs
  intro id' d' loc' e m hm
  cases e
  rw [h] at hm
  cases hm

theorem exText_benign : Benign (fun _ => none) (exPre ++ exPost) := by
  refine benign_define _ _ _ _ _ rfl ?_
  refine benign_define _ _ _ _ _ (by decide +kernel) ?_
  refine benign_define _ _ _ _ _ (by decide +kernel) ?_
  refine benign_define _ _ _ _ _ (by decide +kernel) ?_
  exact benign_nil _

theorem exText_closed : Closed (· ∈ exWords) (header exPre) := by
  have key : exWords.all (fun w => ((header exPre w).toList.all (fun m => m.2.all (fun b =>
      !isIdent b || ((m.1.map Formals.all).getD []).contains b || exWords.contains b)))) = true := by
    decide +kernel
  intro w m hw hm b hb hi hf
  rw [List.all_eq_true] at key
  have h1 := key w hw
  rw [hm] at h1
  simp only [Option.toList_some, List.all_cons, List.all_nil, Bool.and_true, List.all_eq_true] at h1
  have h2 := h1 b hb
  rw [hi] at h2
  have h3 : ((m.1.map Formals.all).getD []).contains b = false := by
    cases h4 : m.1 with
    | none => rfl
    | some f =>
      have := hf f h4
      simpa using this
  rw [h3] at h2
  simpa using h2

example : ∃ T', preprocess false (fun _ => none) (macroSection (tableOf ((exPre ++ exPost).map Said.event))).toList = some T' ∧
    expandText T'.meanings 40 exText =
      some [['u', 'n', 's', 'i', 'g', 'n', 'e', 'd'], ['l', 'o', 'n', 'g'], ['['], ['s', 'i', 'z', 'e', 'o', 'f'], ['('],
        ['u', 'n', 's', 'i', 'g', 'n', 'e', 'd'], ['l', 'o', 'n', 'g'], [')'], [']'], ['x'], [';']] := by
  obtain ⟨T', h1, h2⟩ := C93_partial false exPre exPost exText_ok exText_benign _ (.refl _) (fun _ => none) exText (· ∈ exWords)
    (by decide +kernel) exText_closed (by decide +kernel) (fun _ _ => .inl rfl)
  exact ⟨T', h1, by rw [h2 40]; decide +kernel⟩

/-! ## Texts which change -/

/-- A test reads a text behind the generated macros. -/
def expandSeen (cpp : Bool) (ds : List Said) (fuel : Nat) (l : List (List Char)) : Option (List (List Char)) :=
  (preprocess cpp (fun _ => none) (macroSection (tableOf (ds.map Said.event))).toList).bind
    (fun T => expandText T.meanings fuel l)

/-- C93 is false for a macro which is defined behind the text that has its name: `struct sigaction` of the C library has a
    member `sa_handler` inside a union, and behind it `#define sa_handler __sigaction_handler.sa_handler`.  In the generated header
    the macro comes first: the member is declared as `int __sigaction_handler.sa_handler`, which no compiler accepts. -/
theorem C93_refuted_later :
    ∃ post, post = [Said.define "sa_handler" ⟨none, [.ident "__sigaction_handler", .punct ".", .ident "sa_handler"]⟩ "s.h:9"] ∧
      expandText (header []) 9 [['i', 'n', 't'], "sa_handler".toList, [';']] =
        some [['i', 'n', 't'], "sa_handler".toList, [';']] ∧
      expandSeen false post 9 [['i', 'n', 't'], "sa_handler".toList, [';']] =
        some [['i', 'n', 't'], "__sigaction_handler".toList, ['.'], "sa_handler".toList, [';']] :=
  ⟨_, rfl, by decide +kernel, by decide +kernel⟩

/-- The text written for the structure of `C93_refuted_later`: the macro stands before the member. -/
example : CFile.typesText Emit.free CFile.TypeDecl.Ex.num
      (tableOf [(Said.define "sa_handler" ⟨none, [.ident "__sigaction_handler", .punct ".", .ident "sa_handler"]⟩ "s.h:9").event])
      (Emit.items (Emit.emit Emit.free [Emit.Ex.f (Emit.Ex.struct "s" (.field "" Emit.Ex.int "sa_handler" (-1) .nil))])) =
    "#ifndef sa_handler\n// from: s.h:9\n#define sa_handler __sigaction_handler . sa_handler\n#endif //macro sa_handler\n\n" ++
    "#ifndef EASYMOCK_struct_s_FORWARD_GENERATED\n#define EASYMOCK_struct_s_FORWARD_GENERATED\nstruct s;\n" ++
    " //GENERATED_TYPE_FORWARD_DECLARATION_SECTION\n#endif //EASYMOCK_struct_s_FORWARD_GENERATED\n" ++
    "#ifndef EASYMOCK_structs_GENERATED\n#define EASYMOCK_structs_GENERATED\n//GENERATED_TYPE_SECTION\n" ++
    "struct s\n{\n    int sa_handler;\n\n};\n\n#endif //EASYMOCK_structs_GENERATED\n" := by
  decide +kernel

/-- C93 is false for a macro which is undefined behind the text: `#define WORD long`, `struct s { WORD x; };`, `#undef WORD`.  The
    type of the member is copied as `WORD`, which the generated header does not define. -/
theorem C93_refuted_undef :
    ∃ pre post, pre = [Said.define "WORD" ⟨none, [.ident "long"]⟩ "s.h:1"] ∧ post = [Said.undef "WORD"] ∧
      String.ofList (Parser.declareString true "WORD ".toList) = "WORD" ∧
      expandText (header pre) 9 ["WORD".toList, ['x'], [';']] = some [['l', 'o', 'n', 'g'], ['x'], [';']] ∧
      expandSeen false (pre ++ post) 9 ["WORD".toList, ['x'], [';']] = some ["WORD".toList, ['x'], [';']] :=
  ⟨_, _, rfl, rfl, by decide +kernel, by decide +kernel, by decide +kernel⟩

end EasyMock.Macro
