import Verif.Gen.Lemmas
import Verif.Props.Types

/-! # Properties of the selection of functions, of the macro table and of the file names

C44, C45, C48, C50. -/

namespace EasyMock.Gen

open EasyMock.Types

/-! ## C50: the macro table -/

/-- C50.  After any sequence of directives the table knows exactly the macros whose last directive
    defines them. -/
theorem C50_known (ds : List Directive) (id : String) (hid : id ≠ "") :
    hasMacroDefine (macroTable ds) id = true ↔
    ∃ pre ps toks loc post, ds = pre ++ .define id ps toks loc :: post ∧ .undef id ∉ post := by
  rw [hasMacroDefine_iff, (mem_macroTable ds).2 id]
  exact ⟨fun h => h.2, fun h => ⟨hid, h⟩⟩

/-- C50.  Every macro occurs once in the table, so it is written at most once. -/
theorem C50_once (ds : List Directive) : ((macroTable ds).map (·.id)).Nodup := macroTable_nodup ds

/-- The parameters as they have to be written: the variadic parameter is written `...`. -/
def writtenParam (p : String) : String := if p = "__VA_ARGS__" then "..." else p

theorem joinTokens_aux : ∀ (toks : List String), (∀ t ∈ toks, t ≠ "") → ∀ (acc : String), acc ≠ "" →
    toks.foldl (fun d t => (if d.isEmpty then d else d.push ' ') ++ t) acc =
    " ".intercalate (acc :: toks)
  | [], _, acc, _ => by simp
  | t :: ts, h, acc, hacc => by
    have he : acc.isEmpty = false := by simpa [String.isEmpty_iff] using hacc
    simp only [List.foldl_cons, he, Bool.false_eq_true, if_false]
    rw [joinTokens_aux ts (fun x hx => h x (List.mem_cons_of_mem _ hx)) _ (by
      intro e
      have := congrArg String.toList e
      simp at this)]
    rw [String.push_eq_append, String.intercalate_cons_cons]
    rw [show acc ++ String.singleton ' ' = acc ++ " " from rfl, String.intercalate_cons_append]

theorem joinTokens_eq (toks : List String) (h : ∀ t ∈ toks, t ≠ "") :
    joinTokens toks = " ".intercalate toks := by
  cases toks with
  | nil => rfl
  | cons t ts =>
    have ht : t ≠ "" := h t List.mem_cons_self
    unfold joinTokens
    simp only [List.foldl_cons]
    rw [show (if ("" : String).isEmpty = true then ("" : String) else String.push "" ' ') ++ t = t from by
      simp]
    exact joinTokens_aux ts (fun x hx => h x (List.mem_cons_of_mem _ hx)) t ht

/-- C50 (partial: a macro defined again without `#undef` in between must be defined the same way, as ISO C
    requires; preprocessors accept other redefinitions — see the refutation).  The table holds the
    parameters and the replacement tokens of the last definition. -/
theorem C50_definition_partial (ds : List Directive) (id : String) (hid : id ≠ "")
    (pre : List Directive) (ps : Option (List String)) (toks : List String) (loc : String)
    (post : List Directive) (hds : ds = pre ++ .define id ps toks loc :: post)
    (hlast : .undef id ∉ post ∧ ∀ ps toks loc, .define id ps toks loc ∉ post)
    (hsame : ∀ pre' ps' toks' loc' mid, pre = pre' ++ .define id ps' toks' loc' :: mid →
      .undef id ∉ mid → ps' = ps ∧ toks' = toks)
    (htok : ∀ t ∈ toks, t ≠ "") :
    (getMacroDefinition (macroTable ds) id).id = id ∧
    (getMacroDefinition (macroTable ds) id).params = (ps.getD []).map writtenParam ∧
    (getMacroDefinition (macroTable ds) id).definition = " ".intercalate toks := by
  obtain ⟨x, hx, rfl⟩ := ((mem_macroTable ds).2 id).mpr ⟨hid, pre, ps, toks, loc, post, hds, hlast.1⟩
  rw [getMacroDefinition_of_mem hx]
  obtain ⟨_, pre', ps', toks', loc', post', h1, h2, h3, h4, h5, h6⟩ := ((mem_macroTable ds).1 x).mp hx
  have hp : macroParam = writtenParam := by
    funext p; simp [macroParam, writtenParam]
  have key : ps' = ps ∧ toks' = toks := by
    rw [hds] at h1
    rcases List.append_eq_append_iff.mp h1 with ⟨a, ha, hb⟩ | ⟨a, ha, hb⟩
    · cases a with
      | nil =>
        simp at hb
        exact ⟨hb.1.1.symm, hb.1.2.1.symm⟩
      | cons d a =>
        simp at hb
        obtain ⟨rfl, hb⟩ := hb
        have hin : Directive.define x.id ps' toks' loc' ∈ post := by rw [hb]; simp
        exact absurd hin (hlast.2 _ _ _)
    · cases a with
      | nil =>
        simp at hb
        exact ⟨hb.1.1, hb.1.2.1⟩
      | cons d a =>
        simp at hb
        obtain ⟨rfl, hb⟩ := hb
        refine hsame pre' ps' toks' loc' a ha ?_
        intro hin
        exact h2 (by rw [hb]; simp [hin])
  obtain ⟨rfl, rfl⟩ := key
  exact ⟨rfl, by rw [h4, hp], by rw [h5, joinTokens_eq _ htok]⟩

/-- `#define X 1`, `#undef X`, `#define F(a, ...) a + __VA_ARGS__`, `#define X 2`. -/
def exDirectives : List Directive :=
  [.define "X" none ["1"] "f.h:1", .undef "X", .define "F" (some ["a", "__VA_ARGS__"])
    ["a", "+", "__VA_ARGS__"] "f.h:3", .define "X" none ["2"] "f.h:4"]

example : macroTable exDirectives = [⟨"F", ["a", "..."], "a + __VA_ARGS__", "f.h:3"⟩,
    ⟨"X", [], "2", "f.h:4"⟩] ∧
    (getMacroDefinition (macroTable exDirectives) "X").definition = "2" ∧
    hasMacroDefine (macroTable (exDirectives ++ [.undef "F"])) "F" = false := by
  decide +kernel

example : (getMacroDefinition (macroTable exDirectives) "F").params = ["a", "..."] := by
  have h := C50_definition_partial exDirectives "F" (by decide)
    [.define "X" none ["1"] "f.h:1", .undef "X"] (some ["a", "__VA_ARGS__"])
    ["a", "+", "__VA_ARGS__"] "f.h:3" [.define "X" none ["2"] "f.h:4"] rfl (by simp)
    (by
      intro pre' ps' toks' loc' mid h
      have : Directive.define "F" ps' toks' loc' ∈
          [Directive.define "X" none ["1"] "f.h:1", .undef "X"] := by rw [h]; simp
      simp at this)
    (by simp)
  exact h.2.1

/-- C50 is false for redefinitions which preprocessors accept with a warning: the table keeps the first
    definition, the preprocessor uses the last. -/
theorem C50_refuted_redefinition :
    (getMacroDefinition (macroTable [.define "X" none ["1"] "f.h:1", .define "X" none ["2"] "f.h:2"])
      "X").definition = "1" := by decide +kernel

/-- C50.  The text written for an object-like macro. -/
theorem C50_text_object (id d origin : String) (hd : d ≠ "") :
    macroText ⟨id, [], d, origin⟩ =
    "#ifndef " ++ id ++ "\n// from: " ++ origin ++ "\n#define " ++ id ++ " " ++ d ++
    "\n#endif //macro " ++ id ++ "\n\n" := by
  have h : d.isEmpty = false := by simpa [String.isEmpty_iff] using hd
  unfold macroText
  simp only [h, List.isEmpty_nil, if_true, Bool.false_eq_true, if_false, String.append_empty,
    String.append_assoc]

/-- C50.  The text written for a macro without replacement. -/
theorem C50_text_empty (id origin : String) :
    macroText ⟨id, [], "", origin⟩ =
    "#ifndef " ++ id ++ "\n// from: " ++ origin ++ "\n#define " ++ id ++
    "\n#endif //macro " ++ id ++ "\n\n" := by
  unfold macroText
  simp only [List.isEmpty_nil, show ("" : String).isEmpty = true from rfl, if_true, String.append_empty, String.append_assoc]

/-- C50.  The text written for a function-like macro with parameters. -/
theorem C50_text_function (id p : String) (ps : List String) (d origin : String) (hd : d ≠ "") :
    macroText ⟨id, p :: ps, d, origin⟩ =
    "#ifndef " ++ id ++ "\n// from: " ++ origin ++ "\n#define " ++ id ++
    "(" ++ ",".intercalate (p :: ps) ++ ")" ++ " " ++ " " ++ d ++
    "\n#endif //macro " ++ id ++ "\n\n" := by
  have h : d.isEmpty = false := by simpa [String.isEmpty_iff] using hd
  unfold macroText
  simp only [h, List.isEmpty_cons, Bool.false_eq_true, if_false, String.append_assoc]

/-- C50 is false for function-like macros without parameters: `#define F() 1` is written
    `#define F 1`, like `#define F 1`. -/
theorem C50_refuted_no_parameters :
    macroText (getMacroDefinition (macroTable [.define "F" (some []) ["1"] "f.h:1"]) "F") =
      "#ifndef F\n// from: f.h:1\n#define F 1\n#endif //macro F\n\n" ∧
    macroTable [.define "F" (some []) ["1"] "f.h:1"] = macroTable [.define "F" none ["1"] "f.h:1"] := by
  decide +kernel

/-! ## C44, C45: the functions which are mocked -/

/-- The functions mocked for the declarations `fs` and the directives `ds` of a header. The same list
    `--mock-only` is given to the parser and to the generator (main.cpp:40-61). -/
def mocked {H : Type} [DecidableEq H] (h : Hasher H) (mockOnly ignore : List String)
    (included genTypes : Bool) (ds : List Directive) (fs : List Visited) : List FunDecl :=
  selected h { genTypes, mockOnly } (hasMacroDefine (macroTable ds))
    (parsed { mockOnly, ignoreFuns := ignore, included } fs)

/-- The declarations which the options allow to be mocked. -/
structure Allowed (mockOnly ignore : List String) (included genTypes : Bool) (ds : List Directive)
    (v : Visited) : Prop where
  only : mockOnly = [] ∨ v.decl.info.name ∈ mockOnly
  notIgnored : v.decl.info.name ∉ ignore
  origin : included = true ∨ v.fromMain = true
  notMacro : ¬ ∃ pre ps toks loc post, ds = pre ++ .define v.decl.info.name ps toks loc :: post ∧
    .undef v.decl.info.name ∉ post
  plain : genTypes = true ∨ (v.decl.info.inlined = false ∧ v.decl.hasBody = false ∧
    v.decl.info.isStatic = false ∧ ("noreturn", []) ∉ v.decl.info.attributes ∧
    ∀ t ∈ v.decl.ret :: paramTypes v.decl.params, ∀ i n,
      t ≠ .enum i n [] ∧ ∀ j, t ≠ .const j (.enum i n []))

theorem not_skips_iff (mockOnly : List String) (genTypes : Bool) (ds : List Directive) (f : FunDecl)
    (hn : f.info.name ≠ "") :
    skips { genTypes, mockOnly } (hasMacroDefine (macroTable ds)) f = false ↔
    (mockOnly = [] ∨ f.info.name ∈ mockOnly) ∧
    (¬ ∃ pre ps toks loc post, ds = pre ++ .define f.info.name ps toks loc :: post ∧
      .undef f.info.name ∉ post) ∧
    (genTypes = true ∨ (f.info.inlined = false ∧ f.hasBody = false ∧ f.info.isStatic = false ∧
      ("noreturn", []) ∉ f.info.attributes ∧ ∀ t ∈ f.ret :: paramTypes f.params, ∀ i n,
      t ≠ .enum i n [] ∧ ∀ j, t ≠ .const j (.enum i n []))) := by
  have hm := C50_known ds f.info.name hn
  have he := usesEmptyEnum_iff f
  have he' : (∀ t ∈ f.ret :: paramTypes f.params, ∀ i n,
      t ≠ .enum i n [] ∧ ∀ j, t ≠ .const j (.enum i n [])) ↔ usesEmptyEnum f = false := by
    rw [← Bool.not_eq_true, he]
    constructor
    · rintro h ⟨t, ht, i, n, rfl | ⟨j, rfl⟩⟩
      · exact (h _ ht i n).1 rfl
      · exact (h _ ht i n).2 j rfl
    · intro h t ht i n
      exact ⟨fun e => h ⟨t, ht, i, n, Or.inl e⟩, fun j e => h ⟨t, ht, i, n, Or.inr ⟨j, e⟩⟩⟩
  have hmo : (!mockOnly.isEmpty && !mockOnly.contains f.info.name) = false ↔
      (mockOnly = [] ∨ f.info.name ∈ mockOnly) := by
    cases mockOnly <;> simp [Decidable.imp_iff_not_or]
  rw [he', ← hmo, ← hm]
  have hat : ("noreturn", []) ∉ f.info.attributes ↔
      f.info.attributes.contains ("noreturn", []) = false := by simp
  rw [hat]
  simp only [skips]
  cases (!mockOnly.isEmpty && !mockOnly.contains f.info.name) <;>
  cases hasMacroDefine (macroTable ds) f.info.name <;>
  cases usesEmptyEnum f <;> cases f.info.attributes.contains ("noreturn", []) <;>
  cases f.info.inlined <;> cases f.hasBody <;> cases f.info.isStatic <;> cases genTypes <;> simp

theorem parserKeeps_iff (mockOnly ignore : List String) (included : Bool) (v : Visited) :
    parserKeeps { mockOnly, ignoreFuns := ignore, included } v = true ↔
    (mockOnly = [] ∨ v.decl.info.name ∈ mockOnly) ∧ v.decl.info.name ∉ ignore ∧
    (included = true ∨ v.fromMain = true) := by
  have hmo : (!mockOnly.isEmpty && !mockOnly.contains v.decl.info.name) = false ↔
      (mockOnly = [] ∨ v.decl.info.name ∈ mockOnly) := by
    cases mockOnly <;> simp [Decidable.imp_iff_not_or]
  have hig : (!ignore.isEmpty && ignore.contains v.decl.info.name) = false ↔
      v.decl.info.name ∉ ignore := by
    cases ignore <;> simp
  rw [← hmo, ← hig]
  simp only [parserKeeps]
  cases (!mockOnly.isEmpty && !mockOnly.contains v.decl.info.name) <;>
  cases (!ignore.isEmpty && ignore.contains v.decl.info.name) <;>
  cases included <;> cases v.fromMain <;> simp

theorem allowed_iff (mockOnly ignore : List String) (included genTypes : Bool) (ds : List Directive)
    (v : Visited) (hn : v.decl.info.name ≠ "") :
    Allowed mockOnly ignore included genTypes ds v ↔
    parserKeeps { mockOnly, ignoreFuns := ignore, included } v = true ∧
    skips { genTypes, mockOnly } (hasMacroDefine (macroTable ds)) v.decl = false := by
  rw [not_skips_iff _ _ _ _ hn, parserKeeps_iff]
  constructor
  · intro h
    exact ⟨⟨h.only, h.notIgnored, h.origin⟩, h.only, h.notMacro, h.plain⟩
  · rintro ⟨⟨h1, h2, h3⟩, _, h4, h5⟩
    exact ⟨h1, h2, h3, h4, h5⟩

section
variable {H : Type} [DecidableEq H] (h : Hasher H) (mockOnly ignore : List String)
  (included genTypes : Bool) (ds : List Directive) (fs : List Visited)

/-- C44.  Only allowed functions are mocked. -/
theorem C44_only_allowed (hn : ∀ v ∈ fs, v.decl.info.name ≠ "") (f : FunDecl)
    (hf : f ∈ mocked h mockOnly ignore included genTypes ds fs) :
    ∃ v ∈ fs, v.decl = f ∧ Allowed mockOnly ignore included genTypes ds v := by
  have h1 := (selectLoop_spec h { genTypes, mockOnly } (hasMacroDefine (macroTable ds))
    (parsed { mockOnly, ignoreFuns := ignore, included } fs) []).1.subset hf
  obtain ⟨h2, h3⟩ := List.mem_filter.mp h1
  obtain ⟨v, h4, rfl⟩ := List.mem_map.mp h2
  obtain ⟨h5, h6⟩ := List.mem_filter.mp h4
  exact ⟨v, h5, rfl, (allowed_iff _ _ _ _ _ _ (hn v h5)).mpr ⟨h6, by simpa using h3⟩⟩

/-- C44.  Every allowed function is mocked, or a function with the same raw hash is. -/
theorem C44_allowed_covered (v : Visited) (hv : v ∈ fs) (hn : v.decl.info.name ≠ "")
    (ha : Allowed mockOnly ignore included genTypes ds v) :
    ∃ g ∈ mocked h mockOnly ignore included genTypes ds fs, declRawHash h g = declRawHash h v.decl := by
  obtain ⟨h1, h2⟩ := (allowed_iff _ _ _ _ _ _ hn).mp ha
  rcases (selectLoop_spec h { genTypes, mockOnly } (hasMacroDefine (macroTable ds))
    (parsed { mockOnly, ignoreFuns := ignore, included } fs) []).2.2.2.2 v.decl
    (List.mem_map.mpr ⟨v, List.mem_filter.mpr ⟨hv, h1⟩, rfl⟩) h2 with h3 | h3
  · cases h3
  · exact h3

open Classical in
/-- The allowed declarations, in the order of the header. -/
noncomputable def allowedDecls (mockOnly ignore : List String) (included genTypes : Bool)
    (ds : List Directive) (fs : List Visited) : List FunDecl :=
  (fs.filter (fun v => decide (Allowed mockOnly ignore included genTypes ds v))).map (·.decl)

theorem allowedDecls_eq (hn : ∀ v ∈ fs, v.decl.info.name ≠ "") :
    allowedDecls mockOnly ignore included genTypes ds fs =
    (parsed { mockOnly, ignoreFuns := ignore, included } fs).filter
      (fun f => !skips { genTypes, mockOnly } (hasMacroDefine (macroTable ds)) f) := by
  unfold allowedDecls parsed
  rw [List.filter_map, List.filter_filter]
  congr 1
  apply List.filter_congr
  intro v hv
  have := allowed_iff mockOnly ignore included genTypes ds v (hn v hv)
  rw [Bool.eq_iff_iff]
  simp [this, And.comm]

/-- C44 (partial: the raw hashes of the allowed functions differ, see C45).  The mocked functions are
    exactly the allowed ones, in the order of the header. -/
theorem C44_exact_partial (hn : ∀ v ∈ fs, v.decl.info.name ≠ "")
    (hd : (allowedDecls mockOnly ignore included genTypes ds fs).Pairwise
      (fun f g => declRawHash h f ≠ declRawHash h g)) :
    mocked h mockOnly ignore included genTypes ds fs =
    allowedDecls mockOnly ignore included genTypes ds fs := by
  rw [allowedDecls_eq _ _ _ _ _ _ hn] at hd ⊢
  exact selectLoop_distinct h _ _ _ [] hd (by simp)

/-- C45.  The mocked functions are allowed declarations in the order of the header, and no two of them have
    the same raw hash. -/
theorem C45_sublist (hn : ∀ v ∈ fs, v.decl.info.name ≠ "") :
    (mocked h mockOnly ignore included genTypes ds fs).Sublist
      (allowedDecls mockOnly ignore included genTypes ds fs) ∧
    (mocked h mockOnly ignore included genTypes ds fs).Pairwise
      (fun f g => declRawHash h f ≠ declRawHash h g) := by
  rw [allowedDecls_eq _ _ _ _ _ _ hn]
  have := selectLoop_spec h { genTypes, mockOnly } (hasMacroDefine (macroTable ds))
    (parsed { mockOnly, ignoreFuns := ignore, included } fs) []
  exact ⟨this.1, this.2.2.1⟩

/-- Two declarations of one C function, up to one typedef around the type of a parameter or around the
    return type. -/
structure Redeclares (f g : FunDecl) : Prop where
  name : f.info.name = g.info.name
  variadic : f.info.variadic = g.info.variadic
  params : (rawParamTypes f.params).map hashed = (rawParamTypes g.params).map hashed
  ret : hashed (untypedefOnce f.ret) = hashed (untypedefOnce g.ret)

theorem map_hash_of_hashed {H : Type} (h : Hasher H) : ∀ {as bs : List Ty},
    as.map hashed = bs.map hashed → as.map (hash h) = bs.map (hash h)
  | [], [], _ => rfl
  | [], _ :: _, e => by simp at e
  | _ :: _, [], e => by simp at e
  | a :: as, b :: bs, e => by
    simp only [List.map_cons, List.cons.injEq] at e
    simp only [List.map_cons, map_hash_of_hashed h e.2]
    rw [← hash_hashed h a, ← hash_hashed h b, e.1]

/-- Redeclarations have the same raw hash, whatever the arithmetic. -/
theorem rawHash_of_redeclares {H : Type} (h : Hasher H) {f g : FunDecl} (e : Redeclares f g) :
    declRawHash h f = declRawHash h g := by
  simp only [declRawHash, rawHashParams_eq, rawHash_untypedefOnce]
  rw [e.name, e.variadic, map_hash_of_hashed h e.params, ← hash_hashed h (untypedefOnce f.ret), e.ret,
    hash_hashed h]

/-- C45.  A function which is declared several times is mocked once: whatever the arithmetic, no mocked
    function redeclares another mocked function. -/
theorem C45_once : (mocked h mockOnly ignore included genTypes ds fs).Pairwise
    (fun f g => ¬ Redeclares f g) := by
  have := selectLoop_spec h { genTypes, mockOnly } (hasMacroDefine (macroTable ds))
    (parsed { mockOnly, ignoreFuns := ignore, included } fs) []
  exact this.2.2.1.imp (fun hne e => hne (rawHash_of_redeclares h e))

/-- C45 (partial: functions are told apart by name, variadicity, parameter types and return type only, see
    the refutations; and the arithmetic of hashes must not collide).  The mocked functions are exactly the
    first declarations of the allowed functions. -/
theorem C45_none_lost_partial (hn : ∀ v ∈ fs, v.decl.info.name ≠ "") (f : FunDecl) :
    (f ∈ mocked freeHasher mockOnly ignore included genTypes ds fs ↔
    ∃ before after, allowedDecls mockOnly ignore included genTypes ds fs = before ++ f :: after ∧
      ∀ g ∈ before, ¬ Redeclares g f) := by
  have hs := selectLoop_spec freeHasher { genTypes, mockOnly } (hasMacroDefine (macroTable ds))
    (parsed { mockOnly, ignoreFuns := ignore, included } fs) []
  have hraw : ∀ a b : FunDecl, declRawHash freeHasher a = declRawHash freeHasher b ↔ Redeclares a b := by
    intro a b
    constructor
    · intro e
      obtain ⟨h1, h2, h3, h4⟩ := (C40_raw_hash_partial a b).mp e
      exact ⟨h2, h1, h3, h4⟩
    · exact rawHash_of_redeclares freeHasher
  rw [allowedDecls_eq _ _ _ _ _ _ hn]
  constructor
  · intro hf
    obtain ⟨l₁, l₂, h1, h2⟩ := selectLoop_first freeHasher _ _ _ [] f hf
    exact ⟨l₁, l₂, h1, fun g hg e => h2 g hg ((hraw g f).mpr e)⟩
  · rintro ⟨before, after, e, hb⟩
    exact hs.2.2.2.1 before f after e (by simp) (fun g hg e => hb g hg ((hraw g f).mp e))

end

/-- A declaration `int name(int x)` of the mocked header. -/
def exVisited (name : String) : Visited :=
  { decl := { info := { name }, retStr := "int", ret := .ctype .int false false,
              params := .cons "int" (.ctype .int false false) "x" .nil }, fromMain := true }

/-- `int f(int x)`, `int g(int x)` of an included header, `int f(T x)` with `typedef int T`,
    `static int s(int x)`, `int k(int x)`. -/
def exVisits : List Visited :=
  [exVisited "f", { exVisited "g" with fromMain := false },
   { exVisited "f" with decl := { (exVisited "f").decl with
       params := .cons "T" (.tdef false "T" (.ctype .int false false)) "x" .nil } },
   { exVisited "s" with decl := { (exVisited "s").decl with
       info := { name := "s", isStatic := true } } },
   exVisited "k"]

example : (mocked freeHasher [] [] false false [] exVisits).map (·.info.name) = ["f", "k"] ∧
    (mocked freeHasher [] [] true false [] exVisits).map (·.info.name) = ["f", "g", "k"] ∧
    (mocked freeHasher [] ["k"] false true [] exVisits).map (·.info.name) = ["f", "s"] ∧
    (mocked freeHasher ["k", "g"] [] false false [] exVisits).map (·.info.name) = ["k"] ∧
    (mocked freeHasher [] [] false false [.define "k" none ["1"] ""] exVisits).map (·.info.name) =
      ["f"] := by decide +kernel

example : (∀ v ∈ exVisits, v.decl.info.name ≠ "") ∧
    Allowed [] ["g"] false false [.define "h" none [] ""] (exVisited "f") ∧
    Redeclares (exVisits.head (by simp [exVisits])).decl (exVisits[2]'(by simp [exVisits])).decl := by
  refine ⟨by simp [exVisits, exVisited], ⟨Or.inl rfl, by simp [exVisited], Or.inr rfl, ?_, Or.inr ?_⟩,
    ⟨rfl, rfl, rfl, rfl⟩⟩
  · rintro ⟨pre, ps, toks, loc, post, e, _⟩
    have : Directive.define "f" ps toks loc ∈ [Directive.define "h" none [] ""] := by
      rw [e]; simp [exVisited]
    simp at this
  · simp [exVisited, paramTypes]

/-- C44 is false when the header defines a macro with the name of the function, even one which expands to
    the name itself (`#define f f`): the function asked for with `--mock-only f` is not mocked. -/
theorem C44_refuted_self_macro {H : Type} [DecidableEq H] (h : Hasher H) :
    mocked h ["f"] [] true true [.define "f" none ["f"] ""] [exVisited "f"] = [] ∧
    (mocked h ["f"] [] true true [] [exVisited "f"]).length = 1 := ⟨rfl, rfl⟩

/-- Two declarations as a list of visited functions of the mocked header. -/
def visits (f g : FunDecl) : List Visited := [⟨f, true⟩, ⟨g, true⟩]

/-- C45 is false for functions of different namespaces: of `a::f` and `b::f` only the first is mocked. -/
theorem C45_refuted_namespaces {H : Type} [DecidableEq H] (h : Hasher H) :
    declEq (exFun ["a"]) (exFun ["b"]) = false ∧
    mocked h [] [] true false [] (visits (exFun ["a"]) (exFun ["b"])) = [exFun ["a"]] := by
  refine ⟨by decide +kernel, ?_⟩
  have e : declRawHash h (exFun ["b"]) = declRawHash h (exFun ["a"]) := rfl
  simp [mocked, selected, parsed, parserKeeps, selectLoop, visits, skips, exFun, usesEmptyEnum,
    isEmptyEnum, unqualify, anyEmptyEnum, macroTable, hasMacroDefine]
  rfl

/-- C45 is false for methods: of the methods `m` of two classes only the first is mocked, and of two
    methods which differ by `const` only the first. -/
theorem C45_refuted_methods {H : Type} [DecidableEq H] (h : Hasher H) :
    declEq (exMethod "a" false) (exMethod "b" false) = false ∧
    mocked h [] [] true false [] (visits (exMethod "a" false) (exMethod "b" false)) =
      [exMethod "a" false] ∧
    declEq (exMethod "a" false) (exMethod "a" true) = false ∧
    mocked h [] [] true false [] (visits (exMethod "a" false) (exMethod "a" true)) =
      [exMethod "a" false] := by
  refine ⟨by decide +kernel, ?_, by decide +kernel, ?_⟩
  · simp [mocked, selected, parsed, parserKeeps, selectLoop, visits, skips, exMethod, usesEmptyEnum,
      isEmptyEnum, unqualify, anyEmptyEnum, macroTable, hasMacroDefine]
    rfl
  · simp [mocked, selected, parsed, parserKeeps, selectLoop, visits, skips, exMethod, usesEmptyEnum,
      isEmptyEnum, unqualify, anyEmptyEnum, macroTable, hasMacroDefine]
    rfl

/-- `int f(<text> x)` whose parameter is a pointer to `t`. -/
def exPointerParam (text : String) (t : Ty) : FunDecl :=
  { info := { name := "f" }, retStr := "int", ret := .ctype .int false false,
    params := .cons text (.ptr false t) "x" .nil }

/-- C45 is false for redeclarations which name a pointee through a typedef: `int f(int *x)` and
    `int f(T *x)` with `typedef int T` declare one C function, which is mocked twice. -/
theorem C45_refuted_twice :
    (mocked freeHasher [] [] true false [] (visits (exPointerParam "int *" (.ctype .int false false))
      (exPointerParam "T *" (.tdef false "T" (.ctype .int false false))))).map (·.info.name) =
    ["f", "f"] := by decide +kernel

/-! ## C48: file names -/

/-- C48.  The generated header of `dir/base.ext` and of `base.ext` is `easyMock_base.h`. -/
theorem C48_header_name (dir base ext : String) (hb : '/' ∉ base.toList) (he : '/' ∉ ext.toList)
    (hd : '.' ∉ ext.toList) :
    headerName (dir ++ "/" ++ (base ++ "." ++ ext)) = "easyMock_" ++ base ++ ".h" ∧
    headerName (base ++ "." ++ ext) = "easyMock_" ++ base ++ ".h" := by
  have hs : '/' ∉ (base ++ "." ++ ext).toList := by
    simp [String.toList_append, hb, he]
  unfold headerName
  rw [fileName_dir _ _ hs, fileName_plain _ hs, stem_ext _ _ hb he hd]
  exact ⟨rfl, rfl⟩

/-- C48 (partial: the mocked header must be called `*.h` — see the refutation).  The generated source file
    includes the generated header exactly when the extension of the mocked header is `h`. -/
theorem C48_include_partial (dir base ext : String) (hb : '/' ∉ base.toList) (he : '/' ∉ ext.toList)
    (hd : '.' ∉ ext.toList) :
    includedHeader (dir ++ "/" ++ (base ++ "." ++ ext)) =
      headerName (dir ++ "/" ++ (base ++ "." ++ ext)) ↔ ext = "h" := by
  rw [(C48_header_name dir base ext hb he hd).1]
  have hs : '/' ∉ (base ++ "." ++ ext).toList := by
    simp [String.toList_append, hb, he]
  unfold includedHeader
  rw [fileName_dir _ _ hs]
  constructor
  · intro e
    have := congrArg String.toList e
    simp [String.toList_append] at this
    exact String.toList_inj.mp (by simpa using this)
  · rintro rfl
    apply String.toList_inj.mp
    simp [String.toList_append]

/-- C48 is false for other extensions, and for none: the source file generated for `a.hpp` includes
    `easyMock_a.hpp` while `easyMock_a.h` was generated. -/
theorem C48_refuted_extension :
    includedHeader "inc/a.hpp" = "easyMock_a.hpp" ∧ headerName "inc/a.hpp" = "easyMock_a.h" ∧
    includedHeader "a" = "easyMock_a" ∧ headerName "a" = "easyMock_a.h" := by decide +kernel

/-- C48.  The include guard of `dir/base.ext`: `base` in upper case with `_` for `-`. -/
theorem C48_guard (dir base ext : String) (hb : '/' ∉ base.toList) (he : '/' ∉ ext.toList)
    (hd : '.' ∉ ext.toList) :
    guard (dir ++ "/" ++ (base ++ "." ++ ext)) =
    "_" ++ String.ofList (base.toList.map (fun c => if c = '-' then '_' else c.toUpper)) ++
      "_EASYMOCK_H" := by
  have hs : '/' ∉ (base ++ "." ++ ext).toList := by
    simp [String.toList_append, hb, he]
  unfold guard guardStem
  rw [fileName_dir _ _ hs, stem_ext _ _ hb he hd, List.map_map]
  congr 3
  apply List.map_congr_left
  intro c _
  simp only [Function.comp, upperC_eq_toUpper]
  by_cases h : c = '-'
  · subst h; rfl
  · rw [if_neg h, if_neg]
    exact fun e => h (toUpper_eq_dash e)

/-- C48 (partial: file names without capital letters and without `-` — see the refutation).  Headers with
    different names have different include guards. -/
theorem C48_guard_injective_partial (dir₁ base₁ ext₁ dir₂ base₂ ext₂ : String)
    (hb₁ : '/' ∉ base₁.toList) (he₁ : '/' ∉ ext₁.toList) (hd₁ : '.' ∉ ext₁.toList)
    (hb₂ : '/' ∉ base₂.toList) (he₂ : '/' ∉ ext₂.toList) (hd₂ : '.' ∉ ext₂.toList)
    (hl₁ : ∀ c ∈ base₁.toList, c.isUpper = false ∧ c ≠ '-')
    (hl₂ : ∀ c ∈ base₂.toList, c.isUpper = false ∧ c ≠ '-')
    (hg : guard (dir₁ ++ "/" ++ (base₁ ++ "." ++ ext₁)) = guard (dir₂ ++ "/" ++ (base₂ ++ "." ++ ext₂))) :
    base₁ = base₂ := by
  rw [C48_guard _ _ _ hb₁ he₁ hd₁, C48_guard _ _ _ hb₂ he₂ hd₂] at hg
  have h1 := congrArg String.toList hg
  simp only [String.toList_append, String.toList_ofList] at h1
  have h2 := (List.append_inj' h1 rfl).1
  have h3 := (List.append_inj h2 rfl).2
  apply String.toList_inj.mp
  exact map_upper_inj _ _ hl₁ hl₂ h3

/-- C48 is false for file names which differ by case or by `-` and `_`: the second of two generated headers
    which are both included is skipped. -/
theorem C48_refuted_guard :
    headerName "a-b.h" ≠ headerName "a_b.h" ∧ guard "a-b.h" = guard "a_b.h" ∧
    headerName "Foo.h" ≠ headerName "foo.h" ∧ guard "Foo.h" = guard "foo.h" := by decide +kernel

/-- C48 (partial: letters, digits, `_` and `-` — see the refutation).  The include guard is an
    identifier. -/
theorem C48_guard_identifier_partial (dir base ext : String) (hb : '/' ∉ base.toList)
    (he : '/' ∉ ext.toList) (hd : '.' ∉ ext.toList)
    (hc : ∀ c ∈ base.toList, c.isAlphanum = true ∨ c = '_' ∨ c = '-') :
    ∃ rest, guard (dir ++ "/" ++ (base ++ "." ++ ext)) = "_" ++ rest ∧
      ∀ c ∈ rest.toList, c.isAlphanum = true ∨ c = '_' := by
  rw [C48_guard _ _ _ hb he hd, String.append_assoc]
  refine ⟨_, rfl, ?_⟩
  intro c h
  simp only [String.toList_append, String.toList_ofList, List.mem_append, List.mem_map] at h
  rcases h with ⟨d, hdm, rfl⟩ | h
  · by_cases h1 : d = '-'
    · rw [if_pos h1]; exact Or.inr rfl
    · rw [if_neg h1]
      rcases hc d hdm with h2 | rfl | h2
      · exact Or.inl (toUpper_alphanum h2)
      · exact Or.inr rfl
      · exact absurd h2 h1
  · have : ∀ c ∈ ("_EASYMOCK_H" : String).toList, c.isAlphanum = true ∨ c = '_' := by decide +kernel
    exact this c h

/-- C48 is false for a file name with further dots: the guard of `a.b.h` is no identifier. -/
theorem C48_refuted_guard_identifier : guard "a.b.h" = "_A.B_EASYMOCK_H" := by decide +kernel

example : headerName "inc/foo-bar.h" = "easyMock_foo-bar.h" ∧
    includedHeader "inc/foo-bar.h" = "easyMock_foo-bar.h" ∧
    guard "inc/foo-bar.h" = "_FOO_BAR_EASYMOCK_H" ∧
    guard "inc/foo_bar1.h" ≠ guard "inc/foo_bar2.h" := by decide +kernel

end EasyMock.Gen
