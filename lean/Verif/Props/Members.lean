import Verif.CFile.MemberProg
import Verif.Props.TypesText

/-!
# C94: the generated types have the members of the program

With `--generate-types` the structures and unions of the mocked header are declared again.  The text of each is read with the reader of
declarations and compared with clang's record: its keyword, and its members with their names, types, bounds and widths, in their order.
-/

namespace EasyMock.CFile.TypeDecl

open EasyMock.Types (Ty Fields Params Kw FunDecl)
open EasyMock.CFile.Txt (CName)
open EasyMock.Emit (Occ tagOf tagged valuesOf enumName guardOf visible emit)
open EasyMock.Parser (CTy Q Decls FieldD)

section
variable {H : Type} [DecidableEq H] (e : Emit.Env H)

omit [DecidableEq H] in
/-- The text of a composite type defines a record of the program with all its members, under its own tag if it has one. -/
def Defines (D : Decls) (text : List Char) (t : Ty) : Prop :=
  ∃ id, RecordOf D text id (tagOf e t) ∧ tagged t = some ((D.records id).kw, (D.records id).tag)

omit [DecidableEq H] in
theorem defines_by (num : Ty → String → Nat) {D : Decls} {mi : Parser.MacroInfo} {ds : List Parser.FnD} {fs : List FunDecl}
    (hA : Parser.Unambiguous D (Parser.Used D (ds.flatMap CDecl.typesOf))) (hC : Parser.NamedCycles D (Parser.Used D (ds.flatMap CDecl.typesOf)))
    (hp : CDecl.ParsedFile D mi ds fs) (hD : ∀ id, ∀ f ∈ writtenMembers D id, MemberOk D f) :
    ∀ c b, Emit.Faithful e c → Occ fs b c.ty → CName (tagOf e c.ty) →
      ∃ T, Body (itemBody e num (.comp c.guard c.decl)).toList T ∧ Defines e D T c.ty := by
  intro c b hf ho hn
  have hcomp : IsComp c.ty := by
    obtain ⟨t, g, d⟩ := c
    cases t <;> first | trivial | exact hf.elim
  obtain ⟨id, hid⟩ := desc_comp (occ_desc hp hA hC ho) hcomp
  obtain ⟨T, hb, hr⟩ := comp_prog e (num := num) (g := c.guard) hf hn hD hid
  refine ⟨T, hb, id, hr, ?_⟩
  generalize c.ty = t at hid
  cases t with
  | comp i kw n fs emb fwd ms => rw [tagged, hid.1, hid.2.1]
  | _ => exact hid.elim

/-- C94 for the text of the types (partial: the members satisfy `MemberOk`, the names `NamesOk`, of types which no option leaves without members).  For the
    functions which the parser finds in a file, a compiler which reads the text of the used types finds one declaration for each item whose
    guard is not defined before; each composite type is a definition of a record of the program, with the same keyword and tag, and with the same
    members in the same order: each with its name, its type, its bounds and its width, the members of types without tag included. -/
theorem C94_types_partial (num : Ty → String → Nat) {D : Decls} {mi : Parser.MacroInfo} {ds : List Parser.FnD} {fs : List FunDecl}
    (hA : Parser.Unambiguous D (Parser.Used D (ds.flatMap CDecl.typesOf))) (hC : Parser.NamedCycles D (Parser.Used D (ds.flatMap CDecl.typesOf)))
    (hp : CDecl.ParsedFile D mi ds fs) (hD : ∀ id, ∀ f ∈ writtenMembers D id, MemberOk D f)
    (ms : List Gen.Macro) (defs : List String) (hm : ∀ x ∈ ms, MacroOk x) (h : ∀ b t, Occ fs b t → NamesOk e t) :
    ∃ ts, readFile (defs.map String.toList) (typesText e num ms (Emit.items (emit e fs))) =
        some ⟨(((visible (after defs ms) (Emit.items (emit e fs))).map Emit.Item.macro).reverse ++ after defs ms).map String.toList, [],
          ts.map (fun t => ⟨[], t, none⟩)⟩ ∧
      Each (SaysBy e (Defines e D) fs) ts (visible (after defs ms) (Emit.items (emit e fs))) := by
  obtain ⟨ts, h1, h2⟩ := types_run_by e num fs ms defs (Defines e D) hm h (defines_by e num hA hC hp hD)
  exact ⟨ts, readFile_of h1, h2⟩

/-- C94 for the generated header (partial: as above, and what C88 supposes): a compiler of C or C++ which reads it finds first the declarations of
    the types, where each composite type defines a record of the program with its members, and behind them the comparators and the functions. -/
theorem C94_program_partial (num : Ty → String → Nat) {D : Decls} {mi : Parser.MacroInfo} {rows : List Row}
    (hA : Parser.Unambiguous D (Parser.Used D ((rows.map Row.d).flatMap CDecl.typesOf)))
    (hC : Parser.NamedCycles D (Parser.Used D ((rows.map Row.d).flatMap CDecl.typesOf)))
    (hp : CDecl.ParsedFile D mi (rows.map Row.d) (rows.map Row.f)) (ht : ∀ r ∈ rows, Txt.FnText D mi r.d r.Ss r.R)
    (hD : ∀ id, ∀ f ∈ writtenMembers D id, MemberOk D f)
    (c : Gen.Config) (hc : c.cpp = false) (ha : c.attrs = []) (hg : c.genTypes = true) (path : String) (hn : NameOk path)
    (cmps : List String) (hcmp : ∀ n ∈ cmps, Ident n.toList) (k : Nat)
    (ms : List Gen.Macro) (hm : ∀ x ∈ ms, MacroOk x) (hx : ∀ x ∈ ms, x.id ≠ "__cplusplus")
    (h : ∀ b t, Occ (rows.map Row.f) b t → NamesOk e t) (m : List (List Char)) (hnew : guardWord path ∉ m) :
    ∃ s ts, readFile m (headerText c path (typesText e num ms (Emit.items (emit e (rows.map Row.f)))) cmps
        ((srcFuns c k (rows.map Row.f)).map SrcFun.toFun)) = some s ∧
    s.includes = [stdarg, easyMockH] ∧
    (∀ d ∈ s.decls, d.body = none ∧ d.scopes = (if cplusplus ∈ m then [.externC] else [])) ∧
    (s.decls.take ts.length).map Decl.text = ts ∧
    Each (SaysBy e (Defines e D) (rows.map Row.f)) ts
      (visible (after ((guardWord path :: m).map String.ofList) ms) (Emit.items (emit e (rows.map Row.f)))) ∧
    (s.decls.drop ts.length).map (fun d => CDecl.read (String.ofList d.text)) =
      cmps.flatMap (fun n => (cmpDeclared n).map some) ++
      rows.flatMap (fun r => ((r.d.name.toList, CDecl.Sem.fn r.R r.Ss r.d.variadic) ::
        expectDeclared r.d.name (slots D r.d.params r.Ss) (returnOf r.d r.R)).map some) :=
  program_by e num (Defines e D) hA hC hp ht c hc ha hg path hn cmps hcmp k ms hm hx h (defines_by e num hA hC hp hD) m hnew

end

/-! ## Examples -/

namespace MemberEx

open EasyMock.Emit (free)
open EasyMock.CDecl (spellQ)
open EasyMock.Parser (listUnit unitOf qInt qRec qPtr qDef FnD exampleMacros)
open EasyMock.CFile.TypeDecl.Ex (num maxMacro macro_ok textsOf file_ok)

theorem source_struct : Parser.TypeSource "struct N *".toList :=
  ⟨⟨'s', _, rfl, by simp [Parser.Blank]⟩, ⟨"struct N ".toList, '*', by decide +kernel, by simp⟩, by decide +kernel⟩

theorem source_int : Parser.TypeSource "int ".toList :=
  ⟨⟨'i', _, rfl, by simp [Parser.Blank]⟩, ⟨"int".toList, ' ', by decide +kernel, by simp⟩, by decide +kernel⟩

theorem list_next : CDecl.read (String.ofList ("struct N *".toList ++ " x".toList)) = some ("x".toList, spellQ listUnit (elemQ (qPtr (qRec 0)))) := by
  decide +kernel

theorem list_pointer (n : String) (hn : CName n) : MemberOk listUnit ⟨"struct N *".toList, qPtr (qRec 0), n, none⟩ :=
  .source rfl hn (fun h => h.elim) (fun _ h => h.elim) (by show "N" ≠ ""; decide +kernel) (Or.inl trivial)
    ⟨_, source_struct, list_next, Or.inl rfl⟩

theorem list_in : MemberOk listUnit ⟨"struct { struct N *prev; int n : 3; } ".toList, qRec 1, "in", none⟩ :=
  .record (id := 1) rfl (Or.inr (Ex.cname (by decide +kernel))) (fun h => h.elim) rfl (fun h => absurd h (by decide +kernel)) (Or.inl rfl) (fun h => absurd rfl h)

theorem list_v : MemberOk listUnit ⟨"int v[3".toList, .mk false false (.arr (some 3) qInt), "v", none⟩ :=
  .source rfl (Ex.cname (by decide +kernel)) ⟨rfl, rfl, ⟨3, rfl⟩, fun h => h.elim⟩ (fun _ h => h.elim) trivial (Or.inl trivial)
    ⟨_, source_int, by decide +kernel, Or.inr (Or.inl ⟨"v".toList, [], '[', "3".toList, ⟨by decide +kernel, by decide +kernel⟩, by simp, Or.inr rfl,
      by decide +kernel, by decide +kernel⟩)⟩

theorem list_n : MemberOk listUnit ⟨"int n : ".toList, qInt, "n", some 3⟩ :=
  .bits rfl (Or.inr (Ex.cname (by decide +kernel))) ⟨rfl, trivial, fun h => by cases h⟩ trivial trivial (fun h => h.elim)

theorem list_members : ∀ id, ∀ f ∈ (listUnit.records id).fields, MemberOk listUnit f := by
  intro id f hf
  match id with
  | 0 =>
    rcases List.mem_cons.1 hf with rfl | hf
    · exact list_pointer _ (Ex.cname (by decide +kernel))
    rcases List.mem_cons.1 hf with rfl | hf
    · exact list_in
    rw [List.mem_singleton.1 hf]
    exact list_v
  | 1 =>
    rcases List.mem_cons.1 hf with rfl | hf
    · exact list_pointer _ (Ex.cname (by decide +kernel))
    rw [List.mem_singleton.1 hf]
    exact list_n
  | n + 2 => cases hf

/-- C94 for the functions `f` and `g` of the example of C85: `struct N` has its members, those of the structure inside included. -/
example : ∃ s ts, readFile [] (headerText { genTypes := true } "inc/list.h" (typesText free num [maxMacro] (Emit.items (emit free (fileRows.map Row.f)))) ["struct_N"]
      ((srcFuns { genTypes := true } 0 (fileRows.map Row.f)).map SrcFun.toFun)) = some s ∧
    s.includes = [stdarg, easyMockH] ∧
    Each (SaysBy free (Defines free listUnit) (fileRows.map Row.f)) ts (visible ["MAX", "_LIST_EASYMOCK_H"] (Emit.items (emit free (fileRows.map Row.f)))) := by
  obtain ⟨s, ts, h1, h2, -, -, h3, -⟩ := C94_program_partial free num file_unambiguous file_named file_parsed file_text list_members
    { genTypes := true } rfl rfl rfl
    "inc/list.h" file_name ["struct_N"] (by intro n hn; rw [List.mem_singleton] at hn; subst hn; decide +kernel) 0 [maxMacro] (by simpa using macro_ok)
    (by intro x hx; rw [List.mem_singleton] at hx; subst hx; decide +kernel) (fun b t h => names_of free (file_ok b t h)) []
    (by decide +kernel)
  refine ⟨s, ts, h1, h2, ?_⟩
  rw [show after ([guardWord "inc/list.h"].map String.ofList) [maxMacro] = ["MAX", "_LIST_EASYMOCK_H"] by decide +kernel] at h3
  exact h3

/-- C94 for the text of these types, where the guard of `struct N` is defined before. -/
example : ∃ ts, readFile ["EASYMOCK_structN_GENERATED".toList] (typesText free num [] (Emit.items (emit free (fileRows.map Row.f)))) =
      some ⟨(((visible ["EASYMOCK_structN_GENERATED"] (Emit.items (emit free (fileRows.map Row.f)))).map Emit.Item.macro).reverse ++
        ["EASYMOCK_structN_GENERATED"]).map String.toList, [], ts.map (fun t => ⟨[], t, none⟩)⟩ ∧
    Each (SaysBy free (Defines free listUnit) (fileRows.map Row.f)) ts (visible ["EASYMOCK_structN_GENERATED"] (Emit.items (emit free (fileRows.map Row.f)))) :=
  C94_types_partial free num file_unambiguous file_named file_parsed list_members [] ["EASYMOCK_structN_GENERATED"] (by simp)
    (fun b t h => names_of free (file_ok b t h))

/-! ## Where the members are not those of the program -/

theorem before_brace {x : Char} : ∀ {h h' r r' : List Char}, x ∉ h → x ∉ h' → h ++ x :: r = h' ++ x :: r' → h = h' ∧ r = r'
  | [], [], _, _, _, _, e => ⟨rfl, (List.cons.inj e).2⟩
  | [], c :: h', _, _, _, h2, e => absurd (List.cons.inj e).1 (fun hc => h2 (by simp [hc]))
  | c :: h, [], _, _, h1, _, e => absurd (List.cons.inj e).1 (fun hc => h1 (by simp [hc]))
  | c :: h, c' :: h', r, r', h1, h2, e => by
    obtain ⟨e1, e2⟩ := List.cons.inj e
    obtain ⟨e3, e4⟩ := before_brace (fun hm => h1 (by simp [hm])) (fun hm => h2 (by simp [hm])) e2
    exact ⟨by rw [e1, e3], e4⟩

theorem holds_eq {body : List Char} {ds ds' : List (List Char)} (h : Holds body ds) (h' : Holds body ds') : ds = ds' := by
  unfold Holds at h h'
  rw [h] at h'
  have := congrArg (fun s : Option Reader => s.map (fun r => r.decls.map Decl.text)) h'
  simpa [List.map_map, Function.comp_def] using this

/-- A definition has one list of members. -/
theorem record_members {D : Decls} {id : Nat} {tag : String} {head body tail : List Char} {ds : List (List Char)}
    (h : RecordOf D (head ++ '{' :: (body ++ '}' :: tail)) id tag) (h1 : '{' ∉ head) (h2 : '}' ∉ tail) (h3 : Holds body ds) :
    MembersOf D ds (writtenMembers D id) := by
  obtain ⟨head', body', tail', ds', ⟨e, g1, g2⟩, -, -, hh, hm⟩ := h
  obtain ⟨-, e2⟩ := before_brace h1 g1 e
  have e3 := congrArg List.reverse e2
  rw [List.reverse_append, List.reverse_append, List.reverse_cons, List.reverse_cons, List.append_assoc, List.append_assoc] at e3
  have e4 := (before_brace (by simpa using h2) (by simpa using g2) e3).2
  rw [List.reverse_inj.1 e4] at h3
  rw [holds_eq h3 hh]
  exact hm

/-- `void f(struct X);` where `struct X` is the record with this number. -/
def fnX (id : Nat) : FnD := { name := "f", ret := .mk false false (.builtin .void), retText := "void ".toList, params := [{ q := qRec id, name := "x" }] }

/-- The declarations which a compiler finds in the text of the types for `fnX`. -/
def textsFor (D : Decls) (id : Nat) : Option (List String) :=
  match Parser.parseUnit D exampleMacros 5 [fnX id] with
  | .ok fs => textsOf fs
  | _ => none

/-- `struct M { int m[2][3]; };` -/
def matrixUnit : Decls := unitOf [{ kw := .struct, tag := "M", fields := [⟨"int m[2][3".toList, .mk false false (.arr (some 2) (.mk false false (.arr (some 3) qInt))), "m", none⟩] }]

/-- What the parser makes of `fnX` for this structure with `--ignore-field-generation-of M`. -/
def ignoredFuns : List FunDecl :=
  match Parser.parseUnit { matrixUnit with ignored := ["M"] } exampleMacros 5 [fnX 0] with
  | .ok fs => fs
  | _ => []

/-- C94 for a structure which an option leaves without members: it is defined without members, whatever they are. -/
example : ∃ ts, readFile [] (typesText free num [] (Emit.items (emit free ignoredFuns))) =
      some ⟨((visible [] (Emit.items (emit free ignoredFuns))).map Emit.Item.macro).reverse.map String.toList, [], ts.map (fun t => ⟨[], t, none⟩)⟩ ∧
    Each (SaysBy free (Defines free { matrixUnit with ignored := ["M"] }) ignoredFuns) ts (visible [] (Emit.items (emit free ignoredFuns))) ∧
    (visible [] (Emit.items (emit free ignoredFuns))).length = 2 := by
  have uses : ∀ {i n}, Parser.Used { matrixUnit with ignored := ["M"] } ([fnX 0].flatMap CDecl.typesOf) i n → i = 0 ∧ n = "" := by
    intro i n h
    rcases h with ⟨q, hq, v, h⟩ | ⟨r, f, hf, v, h⟩
    · simp only [fnX, CDecl.typesOf, List.flatMap_cons, List.flatMap_nil, List.map_cons, List.map_nil, Option.map_none, Option.toList_none, List.append_nil,
        List.mem_cons, List.not_mem_nil, or_false] at hq
      rcases hq with rfl | rfl
      · simp [Parser.Q.uses, Parser.CTy.uses] at h
      · simp [qRec, Parser.Q.uses, Parser.CTy.uses] at h
        exact ⟨h.1, h.2.1⟩
    · match r with
      | 0 =>
        simp only [matrixUnit, unitOf, List.getD_cons_zero, List.mem_cons, List.not_mem_nil, or_false] at hf
        subst hf
        simp [qInt, Parser.Q.uses, Parser.CTy.uses] at h
      | r + 1 => simp [matrixUnit, unitOf] at hf
  have hA : Parser.Unambiguous { matrixUnit with ignored := ["M"] } (Parser.Used { matrixUnit with ignored := ["M"] } ([fnX 0].flatMap CDecl.typesOf)) := by
    constructor
    · intro i n j m hi hj _ _
      rw [(uses hi).1, (uses hj).1]
    · intro i n j m hi hj _ _
      rw [(uses hi).1, (uses hj).1]
    · intro i n j m hi hj _ _
      rw [(uses hi).1, (uses hj).1]
    · intro i n j m hi hj _ _
      exact ⟨by rw [(uses hi).1, (uses hj).1], by rw [(uses hi).2, (uses hj).2]⟩
  have hp : CDecl.ParsedFile { matrixUnit with ignored := ["M"] } exampleMacros [fnX 0] ignoredFuns := ⟨5, rfl⟩
  have hroots : ignoredFuns.map (fun f => f.ret :: Emit.paramTypes f.params) =
      [[.ctype .void false false, .comp false .struct "M" .nil false false .nil]] := by decide +kernel
  obtain ⟨ts, h1, h2⟩ := C94_types_partial free num hA (fun _ _ hi hn _ => absurd (uses hi).2 hn) hp
    (by
      intro id f hf
      match id with
      | 0 => cases hf
      | id + 1 =>
        rw [writtenMembers] at hf
        split at hf <;> cases hf) [] [] (by simp) (by
      intro b t h
      have h : t ∈ [Ty.ctype .void false false, .comp false .struct "M" .nil false false .nil] := by
        induction h with
        | @ret f hf =>
          have : (f.ret :: Emit.paramTypes f.params) ∈ ignoredFuns.map (fun f => f.ret :: Emit.paramTypes f.params) := List.mem_map_of_mem hf
          rw [hroots, List.mem_singleton] at this
          rw [← this]
          exact List.mem_cons_self
        | @param f t hf ht =>
          have : (f.ret :: Emit.paramTypes f.params) ∈ ignoredFuns.map (fun f => f.ret :: Emit.paramTypes f.params) := List.mem_map_of_mem hf
          rw [hroots, List.mem_singleton] at this
          rw [← this]
          exact List.mem_cons_of_mem _ ht
        | @child b t u _ hu ih =>
          simp only [List.mem_cons, List.not_mem_nil, or_false] at ih
          rcases ih with rfl | rfl <;> cases hu
      simp only [List.mem_cons, List.not_mem_nil, or_false] at h
      rcases h with rfl | rfl
      · trivial
      · exact Ex.cname (by decide +kernel))
  rw [show after [] [] = [] from rfl] at h1 h2
  exact ⟨ts, by simpa using h1, h2, by decide +kernel⟩

/-- `typedef int vec[3]; struct M { vec m; };` -/
def vectorUnit : Decls := unitOf [{ kw := .struct, tag := "M", fields := [⟨"vec ".toList, .mk false false (.tdef "vec" (.mk false false (.arr (some 3) qInt))), "m", none⟩] }]

/-- `struct M { int n; char m[]; };` -/
def flexUnit : Decls := unitOf [{ kw := .struct, tag := "M", fields := [⟨"int ".toList, qInt, "n", none⟩, ⟨"int m[".toList, .mk false false (.arr none qInt), "m", none⟩] }]

/-- `struct M { _Bool m : 1; };` -/
def boolUnit : Decls := unitOf [{ kw := .struct, tag := "M", fields := [⟨"_Bool m : ".toList, .mk false false (.builtin .bool), "m", some 1⟩] }]

/-- `struct M { int *n, m; };` -/
def secondUnit : Decls := unitOf [{ kw := .struct, tag := "M", fields := [⟨"int *n".toList, qPtr qInt, "n", none⟩, ⟨"int *n, ".toList, qInt, "m", none⟩] }]

theorem suffix_mem {t : List Char} {S : CDecl.Sem} {n suffix : List Char} (h : Declares t S n suffix) : ∀ c ∈ suffix, c ∈ t := by
  obtain ⟨a, b, rfl, -⟩ := h
  intro c hc
  simp [hc]

/-- Without parentheses nothing is behind the bounds. -/
theorem suffix_last {t : List Char} {S : CDecl.Sem} {n suffix : List Char} (h : Declares t S n suffix) (hp : ')' ∉ t) :
    ∃ a, t = a ++ n ++ suffix ∧ CDecl.read (String.ofList (a ++ n)) = some (n, S) := by
  obtain ⟨a, b, rfl, -, hb | ⟨⟨r, rfl⟩, -⟩, hr⟩ := h
  · subst hb
    exact ⟨a, by simp, by simpa using hr⟩
  · simp at hp

theorem plain_only {D : Decls} {t : List Char} {f : FieldD} (h : MemberOf D t f) (hb : f.bits = none) (ht : '{' ∉ t) :
    Declares t (spellQ D (elemQ f.q)) f.name.toList (boundsQ f.q).toList := by
  cases h with
  | plain _ _ h => exact h
  | bits h => rw [hb] at h; cases h
  | pad h => rw [hb] at h; cases h
  | record _ _ h => exact absurd (by rw [h.1]; simp) ht

theorem first_member {D : Decls} {t : List Char} {ds : List (List Char)} {f : FieldD} {fs : List FieldD} (h : MembersOf D (t :: ds) (f :: fs)) :
    MemberOf D t f ∧ MembersOf D ds fs := by
  cases h with
  | cons h1 h2 => exact ⟨h1, h2⟩

/-- The text of the second declaration. -/
def textM (body : String) : List Char := "struct M\n".toList ++ '{' :: (body.toList ++ '}' :: [])

/-- C94 fails for `struct M { int m[2][3]; };`: only the first bound is written, `struct M` is smaller. -/
theorem C94_refuted_matrix : textsFor matrixUnit 0 = some ["struct M", String.ofList (textM "\n    int m[2];\n\n")] ∧
    ¬ RecordOf matrixUnit (textM "\n    int m[2];\n\n") 0 "M" := by
  refine ⟨by decide +kernel, fun h => ?_⟩
  have hm := record_members (ds := ["int m[2]".toList]) h (by decide +kernel) (by decide +kernel) (by unfold Holds; decide +kernel)
  have hd := plain_only (first_member hm).1 rfl (by decide +kernel)
  exact absurd (suffix_mem hd '3' (by decide +kernel)) (by decide +kernel)

/-- C94 fails for `typedef int vec[3]; struct M { vec m; };`: the bound of the typedef is written again, `struct M` has nine elements. -/
theorem C94_refuted_array_typedef : textsFor vectorUnit 0 = some ["struct M", String.ofList (textM "\n    vec m[3];\n\n")] ∧
    ¬ RecordOf vectorUnit (textM "\n    vec m[3];\n\n") 0 "M" := by
  refine ⟨by decide +kernel, fun h => ?_⟩
  have hm := record_members (ds := ["vec m[3]".toList]) h (by decide +kernel) (by decide +kernel) (by unfold Holds; decide +kernel)
  obtain ⟨a, e, -⟩ := suffix_last (plain_only (first_member hm).1 rfl (by decide +kernel)) (by decide +kernel)
  dsimp only at e
  have := congrArg List.getLast? e
  rw [show (boundsQ (.mk false false (.tdef "vec" (.mk false false (.arr (some 3) qInt))))).toList = [] by decide +kernel, List.append_nil,
    show "m".toList = ['m'] by decide +kernel, List.getLast?_concat] at this
  revert this
  decide +kernel

/-- C94 fails for `struct M { int n; int m[]; };`: the last member is an array of no elements. -/
theorem C94_refuted_flexible : textsFor flexUnit 0 = some ["struct M", String.ofList (textM "\n    int n;\nint m[0];\n\n")] ∧
    ¬ RecordOf flexUnit (textM "\n    int n;\nint m[0];\n\n") 0 "M" := by
  refine ⟨by decide +kernel, fun h => ?_⟩
  have hm := record_members (ds := ["int n".toList, "int m[0]".toList]) h (by decide +kernel) (by decide +kernel) (by unfold Holds; decide +kernel)
  obtain ⟨a, e, -⟩ := suffix_last (plain_only (first_member (first_member hm).2).1 rfl (by decide +kernel)) (by decide +kernel)
  dsimp only at e
  have := congrArg (fun l => l.reverse.take 2) e
  rw [show (boundsQ (.mk false false (.arr none qInt))).toList = ['[', ']'] by decide +kernel] at this
  simp only [List.reverse_append, List.reverse_cons, List.reverse_nil, List.nil_append, List.cons_append, List.take_succ_cons, List.take_zero] at this
  revert this
  decide +kernel

/-- C94 fails for `struct M { _Bool m : 1; };`: the bit-field is an `unsigned int`, which has another size and alignment. -/
theorem C94_refuted_bool : textsFor boolUnit 0 = some ["struct M", String.ofList (textM "\n    unsigned int m:1;\n\n")] ∧
    ¬ RecordOf boolUnit (textM "\n    unsigned int m:1;\n\n") 0 "M" := by
  refine ⟨by decide +kernel, fun h => ?_⟩
  have hm := record_members (ds := ["unsigned int m:1".toList]) h (by decide +kernel) (by decide +kernel) (by unfold Holds; decide +kernel)
  have hd := (first_member hm).1
  cases hd with
  | plain hb => cases hb
  | pad _ hn => exact absurd hn (by decide +kernel)
  | record hb => cases hb
  | bits hb _ hd =>
    cases hb
    obtain ⟨a, e, hr⟩ := suffix_last hd (by decide +kernel)
    rw [show "unsigned int m:1".toList = "unsigned int ".toList ++ "m".toList ++ (":" ++ toString 1).toList by decide +kernel] at e
    have e' := List.append_cancel_right (List.append_cancel_right e)
    rw [← e'] at hr
    revert hr
    decide +kernel

/-- C94 fails for `struct M { int *n, m; };`: the second member gets the star of the first. -/
theorem C94_refuted_second : textsFor secondUnit 0 = some ["struct M", String.ofList (textM "\n    int * n;\nint * m;\n\n")] ∧
    ¬ RecordOf secondUnit (textM "\n    int * n;\nint * m;\n\n") 0 "M" := by
  refine ⟨by decide +kernel, fun h => ?_⟩
  have hm := record_members (ds := ["int * n".toList, "int * m".toList]) h (by decide +kernel) (by decide +kernel) (by unfold Holds; decide +kernel)
  obtain ⟨a, e, hr⟩ := suffix_last (plain_only (first_member (first_member hm).2).1 rfl (by decide +kernel)) (by decide +kernel)
  dsimp only at e hr
  rw [show (boundsQ qInt).toList = [] by decide +kernel, List.append_nil] at e
  rw [← e] at hr
  revert hr
  decide +kernel

end MemberEx

end EasyMock.CFile.TypeDecl
