import Verif.CFile.LocalText
import Verif.CFile.CmpDeclared
import Verif.Props.TypesText
import Verif.Props.TypedFile

/-!
# C91: the type declared inside a comparator has the members of the compared type

A member whose type has no name cannot be spoken of outside of the type around it; its comparator declares a type of its own and looks at
the objects as this type.  What the text of this declaration says, whether a compiler accepts it, and whether it declares the type named
in the comparator.
-/

namespace EasyMock.CFile.TypeDecl

open EasyMock.Types (Ty Fields Kw)
open EasyMock.CFile.Txt (CName)
open EasyMock.Emit (tagOf written boundOf nameless Mirror MirrorDecl composite CEnv objectOk membersOk declOk)
open EasyMock.CDecl (kwWord)

/-- The types of the members which are no structures or unions, those of the structures and unions inside included. -/
def leaves : Fields → List Ty
  | .nil => []
  | .field _ (.comp _ _ _ fs _ _ _) _ _ rest | .bit _ (.comp _ _ _ fs _ _ _) _ _ rest => leaves fs ++ leaves rest
  | .field _ t _ _ rest | .bit _ t _ _ rest => t :: leaves rest

theorem two_words {k n : String} (hk : CName k) (hn : CName n) : words (k ++ " " ++ n).toList = [k.toList, n.toList] := by
  rw [String.toList_append, String.toList_append, show " ".toList = [' '] by decide +kernel, List.append_assoc, List.singleton_append]
  have h1 : k.toList ≠ [] := cname_ne hk
  have h2 : n.toList ≠ [] := cname_ne hn
  rw [words, words_word k.toList [] _ ' ' (fun c hc => cname_nonblank hk c hc) (by decide), List.nil_append, if_neg h1,
    words_single h2 (fun c hc => cname_nonblank hn c hc)]
  rfl

/-! ## The properties -/

/-- **C91, the text.**  The comparator of a type without name which is declared inside another type declares one type, with the keyword of the
    compared type and the tag of the type as which the comparator looks at its arguments (there is no typedef name for it); the declared type
    has the members of the compared one: the same names, types, bounds and widths in the same order; the structures and unions among
    them are declared in place.  Partial: the members can be spelled (`FieldsOk`). -/
theorem C91_local_partial (env : StructCmp.Env) (num : Ty → String → Nat) (reg : List (Nat × String)) (i : Bool) (kw : Kw) (fs : Fields) (fwd : Bool)
    (ms : Types.Methods) (h : FieldsOk (asEmit env) fs)
    (hr : ∀ x ∈ reg, x.1 ≠ env.key (.comp i kw "" fs true fwd ms)) :
    ∃ text, (localText (asEmit env) num (.comp i kw "" fs true fwd ms)).toList = text ++ [';', '\n'] ∧ Piece text ∧
    ∃ head body tail ds, Braces text head body tail ∧
      words head = words (StructCmp.declText env reg (.comp i kw "" fs true fwd ms)).toList ∧ (words head).length = 2 ∧ trim tail = [] ∧
      Holds body ds ∧ Members (asEmit env) ds (inPlace fs) := by
  have hname : (Types.attrs (.comp i kw "" fs true fwd ms)).name = "" := by cases kw <;> rfl
  have hanon : Types.isAnonymous (.comp i kw "" fs true fwd ms) = true := by cases kw <;> rfl
  have htag : Emit.tag (asEmit env) (.comp i kw "" fs true fwd ms) = StructCmp.anonymousName env (.comp i kw "" fs true fwd ms) := by
    unfold Emit.tag
    rw [hname]; rfl
  have hc := anonymous_name env (.comp i kw "" fs true fwd ms)
  have htd : StructCmp.typedefName env reg (.comp i kw "" fs true fwd ms) = "" := by
    unfold StructCmp.typedefName
    rw [List.find?_eq_none.2 (fun x hx => by simpa using hr x hx)]
  have hcast : words (StructCmp.declText env reg (.comp i kw "" fs true fwd ms)).toList =
      [(kwWord kw).toList, (StructCmp.anonymousName env (.comp i kw "" fs true fwd ms)).toList] := by
    unfold StructCmp.declText
    rw [htd, if_pos (by rfl), hanon, if_pos rfl]
    rw [show (StructCmp.keyword (.comp i kw "" fs true fwd ms)) = kw.str from rfl, ← CDecl.kw_text]
    exact two_words (kw_name kw) hc
  obtain ⟨ts, h1, h2, h3, h4⟩ := members_read (asEmit env) num _ _ (local_mirror (asEmit env) fs) (place_ok (asEmit env) fs h)
  obtain ⟨T, head, body, tail, eT, p, hB, hw, ht, hH⟩ := record_piece (num := num) (kw := kw) (field := "") (Or.inr hc)
    (by decide +kernel) (by decide +kernel) (by decide +kernel) h1 h2 h3
  rw [if_neg hc.word.1] at hw
  refine ⟨T, ?_, p, head, body, tail, ts, hB, ?_, ?_, ?_, hH, h4⟩
  · rw [← eT]
    unfold localText
    rw [hanon, show StructCmp.embedded (.comp i kw "" fs true fwd ms) = true from rfl, if_pos (by rfl)]
    rw [localDecl, htag]
  · rw [hw, hcast]
  · rw [hw]; rfl
  · rw [ht]; rfl

/-- **C91, the source file.**  The generated source is accepted, and each comparator of a type without name which is declared inside another
    one has this declaration in its body, before the first use of the type: what it declares is as in `C91_local_partial`.  Partial: the
    conditions of `C79_generated_partial`. -/
theorem C91_source_partial (c : Gen.Config) (path : String) (env : StructCmp.Env) (num : Ty → String → Nat) (steps : List StructCmp.Step)
    (k : Nat) (fs : List Types.FunDecl) (m' : List (List Char)) (hn : NameOk path) (hs : ∀ s ∈ steps, Txt.StepNames (LocalOk (asEmit env)) s)
    (hf : ∀ f ∈ fs, Txt.FunText c f) :
    ∃ ss, readFile m' (sourceText c path ((StructCmp.program env steps).map (Txt.srcCmp (localText (asEmit env) num))) (srcFuns c k fs)) = some ss ∧
    ∀ x ∈ StructCmp.program env steps, ∀ i kw gs fwd ms, x.ty = .comp i kw "" gs true fwd ms →
      ∃ text, ⟨[], ("int cmp_" ++ x.name ++
          "(const void *currentCall_ptr, const void *expectedCall_ptr, const char *paramName, char *errorMessage )").toList,
        some (some ([says "(void)currentCall_ptr", says "(void)expectedCall_ptr", says "(void)paramName", says "(void)errorMessage", .stmt text,
          says ("const " ++ x.decl ++ " *currentCall_val = (" ++ ("const " ++ x.decl) ++ " *)currentCall_ptr"), says "(void)currentCall_val",
          says ("const " ++ x.decl ++ " *expectedCall_val = (" ++ ("const " ++ x.decl) ++ " *)expectedCall_ptr"), says "(void)expectedCall_val"] ++
          ((x.checks.filter (fun y => !y.array) ++ x.checks.filter (fun y => y.array)).map (checkItems x.article)).flatten ++ [says "return 0"]))⟩ ∈ ss.decls.map Decl.entry ∧
      Piece text ∧ ∃ head body tail ds, Braces text head body tail ∧
        words head = [(kwWord kw).toList, ("easymock_generated_anonymous_type_hash_" ++ toString (env.key x.ty)).toList] ∧ trim tail = [] ∧
        Holds body ds ∧ Members (asEmit env) ds (inPlace gs) := by
  have hi : Txt.InnerOk (LocalOk (asEmit env)) (localText (asEmit env) num) := local_innerOk num
  have hc : ∀ n ∈ (StructCmp.program env steps).map (Txt.srcCmp (localText (asEmit env) num)), CmpOk n := Txt.program_text hi hs
  obtain ⟨ss, e1, -, -, e2⟩ := C79_source_partial c path ((StructCmp.program env steps).map (Txt.srcCmp (localText (asEmit env) num)))
    (srcFuns c k fs) m' (source_typed hn hc hf)
  refine ⟨ss, e1, fun x hx i kw gs fwd ms hty => ?_⟩
  have hP : LocalOk (asEmit env) x.ty := by
    obtain ⟨i', kw', n', fs', emb', fwd', ms', e3, h3⟩ := Txt.program_types (env := env) hi hs x hx
    rw [hty] at e3
    cases e3
    exact h3 rfl rfl
  rw [hty] at hP
  have htext := C91_local_partial env num [] i kw gs fwd ms hP.2.2.2.1 (by intro x hx; cases hx)
  obtain ⟨text, et, p, head, body, tail, ds, hB, hw, -, ht, hH, hM⟩ := htext
  refine ⟨text, ?_, p, head, body, tail, ds, hB, ?_, ht, hH, hM⟩
  rotate_left
  · have hanon : Types.isAnonymous (.comp i kw "" gs true fwd ms) = true := by cases kw <;> rfl
    rw [hw, hty]
    unfold StructCmp.declText
    rw [show StructCmp.typedefName env [] (.comp i kw "" gs true fwd ms) = "" from rfl, if_pos (by rfl), hanon, if_pos rfl,
      show (StructCmp.keyword (.comp i kw "" gs true fwd ms)) = kw.str from rfl, ← CDecl.kw_text]
    exact two_words (kw_name kw) (anonymous_name env _)
  have hm : ∀ e ∈ cmpEntries (Txt.srcCmp (localText (asEmit env) num) x), e ∈ ss.decls.map Decl.entry := by
    intro e he
    rw [e2]
    refine List.mem_append_left _ (List.mem_append_left _ (List.mem_append_right _ ?_))
    exact List.mem_flatten.mpr ⟨_, List.mem_map_of_mem (List.mem_map_of_mem hx), he⟩
  have hin : innerItems (Txt.srcCmp (localText (asEmit env) num) x) = [.stmt text] := by
    have e3 : (Txt.srcCmp (localText (asEmit env) num) x).inner.toList = text ++ [';', '\n'] := by
      show (localText (asEmit env) num x.ty).toList = _
      rw [hty]; exact et
    unfold innerItems
    rw [if_neg, e3, show text ++ [';', '\n'] = (text ++ [';']) ++ ['\n'] by simp, List.dropLast_concat, List.dropLast_concat]
    intro h
    rw [h] at e3
    have := congrArg List.length e3
    simp at this
  have := hm _ List.mem_cons_self
  unfold cmpItems at this
  rw [hin] at this
  exact this

section
variable {H : Type} (e : Emit.Env H)

theorem valid_plain {c : CEnv} {t : Ty} {rest : List Ty} {ms : Emit.Members} {d n : String}
    (ih : membersOk e c ms = if ∀ u ∈ rest, objectOk e c u = true then some c else none) :
    membersOk e c (.plain d t n ms) = if ∀ u ∈ t :: rest, objectOk e c u = true then some c else none := by
  rw [membersOk, ih]
  by_cases h : objectOk e c t = true
  · rw [if_pos h]
    simp only [List.mem_cons, forall_eq_or_imp, h, true_and]
  · rw [if_neg h, if_neg (fun h' => h (h' t List.mem_cons_self))]

theorem valid_sub {c : CEnv} {kw : Kw} {inner rest : List Ty} {ms ns : Emit.Members} {n : String}
    (ih1 : membersOk e c ms = if ∀ u ∈ inner, objectOk e c u = true then some c else none)
    (ih2 : membersOk e c ns = if ∀ u ∈ rest, objectOk e c u = true then some c else none) :
    membersOk e c (.sub (.mk kw "" true ms) n ns) = if ∀ u ∈ inner ++ rest, objectOk e c u = true then some c else none := by
  rw [membersOk, declOk, ih1]
  by_cases h : ∀ u ∈ inner, objectOk e c u = true
  · rw [if_pos h]
    show membersOk e c ns = _
    rw [ih2]
    by_cases h2 : ∀ u ∈ rest, objectOk e c u = true
    · rw [if_pos h2, if_pos (fun u hu => (List.mem_append.1 hu).elim (h u) (h2 u))]
    · rw [if_neg h2, if_neg (fun h' => h2 (fun u hu => h' u (List.mem_append_right _ hu)))]
  · rw [if_neg h, if_neg (fun h' => h (fun u hu => h' u (List.mem_append_left _ hu)))]

theorem valid_members (c : CEnv) : ∀ fs : Fields, membersOk e c (localMembers e fs) =
    if ∀ u ∈ leaves fs, objectOk e c u = true then some c else none
  | .nil => by rw [localMembers, membersOk, if_pos (by simp [leaves])]
  | .field s (.comp i kw m fs emb fwd ms) n a rest => valid_sub e (valid_members c fs) (valid_members c rest)
  | .bit s (.comp i kw m fs emb fwd ms) n k rest => valid_sub e (valid_members c fs) (valid_members c rest)
  | .field s (.ctype ..) n a rest | .field s (.ptr ..) n a rest | .field s (.ref ..) n a rest | .field s (.const ..) n a rest
  | .field s (.tdef ..) n a rest | .field s (.enum ..) n a rest | .field s (.incomplete ..) n a rest | .field s (.fn ..) n a rest =>
    valid_plain e (valid_members c rest)
  | .bit s (.ctype ..) n a rest | .bit s (.ptr ..) n a rest | .bit s (.ref ..) n a rest | .bit s (.const ..) n a rest
  | .bit s (.tdef ..) n a rest | .bit s (.enum ..) n a rest | .bit s (.incomplete ..) n a rest | .bit s (.fn ..) n a rest =>
    valid_plain e (valid_members c rest)

/-- **C91, what a compiler makes of it.**  Where the names `c` are declared, the declaration is accepted if and only if an object can be declared
    of the type of every member, those of the structures and unions inside included; behind it only the tag is declared in addition.  In
    particular the types inside which have a tag are not defined twice. -/
theorem C91_valid (c : CEnv) (i : Bool) (kw : Kw) (n : String) (fs : Fields) (emb fwd : Bool) (ms : Types.Methods)
    (ht : tagOf e (.comp i kw n fs emb fwd ms) ≠ "") (hc : (kw, tagOf e (.comp i kw n fs emb fwd ms)) ∉ c.complete) :
    (localDecl e (.comp i kw n fs emb fwd ms)).bind (declOk e c) = if ∀ u ∈ leaves fs, objectOk e c u = true then
      some { c with complete := (kw, tagOf e (.comp i kw n fs emb fwd ms)) :: c.complete,
                    declared := (kw, tagOf e (.comp i kw n fs emb fwd ms)) :: c.declared } else none := by
  rw [localDecl, Option.bind_some, declOk, valid_members]
  show (match (if ∀ u ∈ leaves fs, objectOk e c u = true then some c else none) with
    | none => none
    | some c' => if (tagOf e (.comp i kw n fs emb fwd ms)).isEmpty then some c'
      else if c'.complete.contains (kw, tagOf e (.comp i kw n fs emb fwd ms)) then none else some { c' with complete := _, declared := _ }) = _
  by_cases h : ∀ u ∈ leaves fs, objectOk e c u = true
  · rw [if_pos h, if_pos h]
    show (if _ then _ else if _ then _ else _) = _
    rw [if_neg (by simpa using ht), if_neg (by simpa using hc)]
    rfl
  · rw [if_neg h, if_neg h]

end

/-- **C91, nothing else is declared.**  The comparator of a type with a tag, and of a type which is not declared inside another one, declares no
    type. -/
theorem C91_only {H : Type} (e : Emit.Env H) (num : Ty → String → Nat) (i : Bool) (kw : Kw) (n : String) (fs : Fields) (emb fwd : Bool) (ms : Types.Methods) :
    localText e num (.comp i kw n fs emb fwd ms) ≠ "" ↔ n = "" ∧ emb = true := by
  have h1 : Types.isAnonymous (.comp i kw n fs emb fwd ms) = n.isEmpty := by cases kw <;> cases n <;> rfl
  unfold localText
  rw [h1, show StructCmp.embedded (.comp i kw n fs emb fwd ms) = emb from rfl, localDecl]
  by_cases h : n = "" ∧ emb = true
  · obtain ⟨rfl, rfl⟩ := h
    rw [if_pos (by rfl)]
    refine ⟨fun _ => ⟨rfl, rfl⟩, fun _ h => ?_⟩
    have h' := congrArg String.toList h
    simp only [recordText, String.toList_append, List.append_assoc] at h'
    have : kw.str.toList = [] := (List.append_eq_nil_iff.1 h').1
    cases kw <;> exact absurd this (by decide +kernel)
  · rw [if_neg (by simpa using h)]
    exact ⟨fun h => absurd rfl h, fun h' => absurd h' h⟩

/-! ## Examples, and where the property fails -/

namespace LocalEx

open EasyMock.Emit.Ex (int uint struct mem ptr anonymous)
open EasyMock.CFile.TypeDecl.Ex (num cname plain_ok fnInt)

/-- Unions have the number 7, structures 6, enumerations 8; all comparators are asked for. -/
def env : StructCmp.Env := ⟨fun | .comp _ .union .. => 7 | .comp .. => 6 | .enum .. => 8 | _ => 9, ["EasyMock_all_comparators"]⟩

/-- `union { int i; struct P { unsigned x[2]; struct N *next; } p; unsigned b : 3; struct { int v; }; void (*cb)(int); }` inside a structure. -/
def fields : Fields :=
  .field "" int "i" (-1) (.field "" (struct "P" (.field "" uint "x" 2 (.field "" (ptr (.comp false .struct "N" .nil false false .nil)) "next" (-1) .nil))) "p" (-1)
    (.bit "" uint "b" 3 (.field "" (struct "" (mem int "v" .nil)) "" (-1) (.field "" (ptr fnInt) "cb" (-1) .nil))))

/-- The type of a member of another structure. -/
def inner (kw : Kw) (fs : Fields) : Ty := .comp false kw "" fs true false .nil

theorem spell {t : Ty} (h : CDecl.Spellable false t) : Spelled (asEmit env) "" t := .type h (Or.inl rfl)

theorem fields_ok : FieldsOk (asEmit env) fields := by
  have hN : CDecl.Word "N" := by decide +kernel
  exact ⟨⟨cname (by decide +kernel), spell trivial⟩,
    ⟨Or.inr (cname (by decide +kernel)), (fun h => absurd h (by decide +kernel)), Or.inr (cname (by decide +kernel)),
      ⟨cname (by decide +kernel), spell trivial⟩, ⟨cname (by decide +kernel), spell hN⟩, trivial⟩,
    rfl, Or.inr (cname (by decide +kernel)), spell trivial, (fun _ => rfl),
    ⟨Or.inl rfl, (fun _ => rfl), Or.inl rfl, ⟨cname (by decide +kernel), spell trivial⟩, trivial⟩,
    ⟨cname (by decide +kernel), spell ⟨rfl, rfl, trivial, Or.inl rfl, trivial, Or.inl rfl, trivial⟩⟩, trivial⟩

/-- The text in the comparator of the member. -/
example : localText (asEmit env) num (inner .union fields) =
    "union easymock_generated_anonymous_type_hash_7\n{\n    int i;\nstruct \n{\n    unsigned int x[2];\nstruct N* next;\n\n} p;\n" ++
    "unsigned int b:3;\nstruct \n{\n    int v;\n\n};\nvoid(* cb)(int __easymock_param0);\n\n};\n" := by
  decide +kernel

/-- C91 for this member: another type has a typedef name. -/
example : ∃ text, (localText (asEmit env) num (inner .union fields)).toList = text ++ [';', '\n'] ∧ Piece text ∧
    ∃ head body tail ds, Braces text head body tail ∧
      words head = words (StructCmp.declText env [(3, "T")] (inner .union fields)).toList ∧ (words head).length = 2 ∧ trim tail = [] ∧
      Holds body ds ∧ Members (asEmit env) ds (inPlace fields) :=
  C91_local_partial env num [(3, "T")] false .union fields false .nil fields_ok (by
    intro x hx
    rw [List.mem_singleton.1 hx]
    decide)

/-- A compiler accepts it where `struct N` and `struct P` are declared, although `P` is one of the members. -/
example : (localDecl (asEmit env) (inner .union fields)).bind (declOk (asEmit env) ⟨[(.struct, "P")], [(.struct, "P")], [], []⟩) =
    some ⟨[(.union, "easymock_generated_anonymous_type_hash_7"), (.struct, "P")], [(.union, "easymock_generated_anonymous_type_hash_7"), (.struct, "P")], [], []⟩ := by
  unfold inner
  rw [C91_valid (asEmit env) _ _ _ _ _ _ _ _ (by decide +kernel) (by decide +kernel), if_pos]
  · rfl
  · intro u hu
    have : u ∈ [int, uint, ptr (.comp false .struct "N" .nil false false .nil), uint, int, ptr fnInt] := hu
    simp only [List.mem_cons, List.not_mem_nil, or_false] at this
    rcases this with rfl | rfl | rfl | rfl | rfl | rfl <;> rfl

/-- `struct S { union { … } u; int z; }` with this union, a pointer to which is a parameter. -/
def step : StructCmp.Step :=
  .param (ptr (.comp false .struct "S" (.field "" (inner .union fields) "u" (-1) (mem int "z" .nil)) false false .nil))

theorem nest (t : Ty) : TextNests "" t := Or.inl ⟨Txt.plain_empty, rfl⟩

theorem step_names : Txt.StepNames (LocalOk (asEmit env)) step := by
  have hP : Txt.TypeNames (LocalOk (asEmit env)) (inner .union fields) := by
    refine ⟨Or.inr ⟨rfl, fun _ => ⟨rfl, rfl, anonymous_name env _, fields_ok, ?_⟩⟩, ?_⟩
    · exact ⟨nest _, ⟨nest _, nest _, trivial⟩, nest _, ⟨nest _, trivial⟩, nest _, trivial⟩
    · refine ⟨?_, ?_, ?_, ?_, ?_, trivial⟩
      · rw [if_neg (by decide +kernel)]; exact ⟨cname (by decide +kernel), trivial⟩
      · rw [if_neg (by decide +kernel)]
        refine ⟨cname (by decide +kernel), Or.inl (cname (by decide +kernel)), ?_, ?_, trivial⟩
        · rw [if_neg (by decide +kernel)]; exact ⟨cname (by decide +kernel), trivial⟩
        · rw [if_neg (by decide +kernel)]; exact ⟨cname (by decide +kernel), Or.inl (cname (by decide +kernel)), trivial⟩
      · exact Or.inr ⟨cname (by decide +kernel), trivial, trivial, rfl⟩
      · rw [if_pos rfl]
        refine ⟨by decide +kernel, Or.inr rfl, ?_, trivial⟩
        rw [if_neg (by decide +kernel)]; exact ⟨cname (by decide +kernel), trivial⟩
      · rw [if_neg (by decide +kernel)]; exact ⟨cname (by decide +kernel), trivial⟩
  refine ⟨Or.inl (cname (by decide +kernel)), ?_, ?_, trivial⟩
  · rw [if_neg (by decide +kernel)]; exact ⟨cname (by decide +kernel), hP⟩
  · rw [if_neg (by decide +kernel)]; exact ⟨cname (by decide +kernel), trivial⟩

/-- C91 for the source with the comparators of this parameter: the second one is that of the union. -/
example : ∃ ss, readFile [] (sourceText {} "inc/s.h" ((StructCmp.program env [step]).map (Txt.srcCmp (localText (asEmit env) num))) (srcFuns {} 0 [])) = some ss ∧
    ∃ x ∈ StructCmp.program env [step], x.ty = inner .union fields ∧ x.decl = "union easymock_generated_anonymous_type_hash_7" ∧
      ∃ e ∈ ss.decls.map Decl.entry, ∃ text items, e.inside = some (some items) ∧ .stmt text ∈ items ∧ Piece text ∧
        ∃ head body tail ds, Braces text head body tail ∧ words head = ["union".toList, "easymock_generated_anonymous_type_hash_7".toList] ∧
          trim tail = [] ∧ Holds body ds ∧ Members (asEmit env) ds (inPlace fields) := by
  obtain ⟨ss, h1, h2⟩ := C91_source_partial {} "inc/s.h" env num [step] 0 [] [] ⟨by decide +kernel⟩
    (by intro s hs; rw [List.mem_singleton] at hs; subst hs; exact step_names) (by intro f hf; cases hf)
  have hx : ∃ x ∈ StructCmp.program env [step], x.ty = inner .union fields ∧ x.decl = "union easymock_generated_anonymous_type_hash_7" := by
    refine ⟨((StructCmp.program env [step])[1]?).getD ⟨"", "", [], "", int⟩, ?_, ?_, ?_⟩ <;> decide +kernel
  obtain ⟨x, hm, hty, hd⟩ := hx
  obtain ⟨text, he, hp, head, body, tail, ds, hB, hw, ht, hH, hM⟩ := h2 x hm false .union fields false .nil hty
  refine ⟨ss, h1, x, hm, hty, hd, _, he, text, _, rfl, ?_, hp, head, body, tail, ds, hB, ?_, ht, hH, hM⟩
  · simp
  · rw [hw, hty]; decide +kernel

/-- C91 fails for `struct S { union { enum { A, B } e; } x; };`: the text mentions the enumeration by a name made for it, which the mocked
    header does not declare. -/
theorem C91_refuted_enum (c : CEnv) (hc : "easymock_generated_anonymous_type_hash_8" ∉ c.enums)
    (ht : (Kw.union, "easymock_generated_anonymous_type_hash_7") ∉ c.complete) :
    localText (asEmit env) num (inner .union (mem (.enum false "" [(0, "A"), (1, "B")]) "e" .nil)) =
      "union easymock_generated_anonymous_type_hash_7\n{\n    enum easymock_generated_anonymous_type_hash_8 e;\n\n};\n" ∧
    (localDecl (asEmit env) (inner .union (mem (.enum false "" [(0, "A"), (1, "B")]) "e" .nil))).bind (declOk (asEmit env) c) = none := by
  have e1 : tagOf (asEmit env) (inner .union (mem (.enum false "" [(0, "A"), (1, "B")]) "e" .nil)) = "easymock_generated_anonymous_type_hash_7" := by
    decide +kernel
  have e2 : tagOf (asEmit env) (.enum false "" [(0, "A"), (1, "B")]) = "easymock_generated_anonymous_type_hash_8" := by decide +kernel
  refine ⟨by decide +kernel, ?_⟩
  unfold inner at e1 ⊢
  rw [C91_valid (asEmit env) c _ _ _ _ _ _ _ (by rw [e1]; decide +kernel) (by rw [e1]; exact ht), if_neg]
  intro h
  have := h (.enum false "" [(0, "A"), (1, "B")]) List.mem_cons_self
  unfold objectOk Emit.nameable at this
  rw [e2] at this
  simp only [Bool.and_eq_true] at this
  exact hc (by simpa using this.1)

/-- C91 fails for `struct S { union { const struct { unsigned y; } c; } x; };`: the type of `c` is mentioned by a name made for it, and
    there is no such type. -/
theorem C91_refuted_const (c : CEnv) (hc : (Kw.struct, "easymock_generated_anonymous_type_hash_6") ∉ c.complete)
    (ht : (Kw.union, "easymock_generated_anonymous_type_hash_7") ∉ c.complete) :
    localText (asEmit env) num (inner .union (mem (.const false anonymous) "c" .nil)) =
      "union easymock_generated_anonymous_type_hash_7\n{\n    struct const easymock_generated_anonymous_type_hash_6 c;\n\n};\n" ∧
    (localDecl (asEmit env) (inner .union (mem (.const false anonymous) "c" .nil))).bind (declOk (asEmit env) c) = none := by
  have e1 : tagOf (asEmit env) (inner .union (mem (.const false anonymous) "c" .nil)) = "easymock_generated_anonymous_type_hash_7" := by
    decide +kernel
  have e2 : tagOf (asEmit env) anonymous = "easymock_generated_anonymous_type_hash_6" := by decide +kernel
  refine ⟨by decide +kernel, ?_⟩
  unfold inner at e1 ⊢
  rw [C91_valid (asEmit env) c _ _ _ _ _ _ _ (by rw [e1]; decide +kernel) (by rw [e1]; exact ht), if_neg]
  intro h
  have := h (.const false anonymous) List.mem_cons_self
  unfold objectOk at this
  simp only [Bool.and_eq_true] at this
  have h2 := this.2
  unfold Emit.completeIn anonymous struct Emit.completeIn at h2
  unfold anonymous struct at e2
  rw [e2] at h2
  exact hc (by simpa using h2)

/-- C91 fails for `void f(struct { unsigned y; } *);`: the type is not declared inside another one, so nothing is declared, and
    the comparator looks at the objects as a type which is declared nowhere. -/
theorem C91_refuted_parameter :
    localText (asEmit env) num anonymous = "" ∧
    ((StructCmp.program env [.param (ptr anonymous)]).map (fun k => (k.name, k.decl))) =
      [("struct_easymock_generated_anonymous_type_hash_6", "struct easymock_generated_anonymous_type_hash_6")] := by
  decide +kernel

end LocalEx

end EasyMock.CFile.TypeDecl
