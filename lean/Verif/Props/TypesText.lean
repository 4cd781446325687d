import Verif.CFile.TypesFile
import Verif.Props.Emit
import Verif.Props.TypedFile

/-!
# C88: the text of the generated types declares the types of the functions

The text of the header which declares the used types (`--generate-types`), read by the reader of files: which declarations it has,
in which order, and what each one says.
-/

namespace EasyMock.CFile.TypeDecl

open EasyMock.Types (Ty Fields Params Kw FunDecl)
open EasyMock.CFile.Txt (CName)
open EasyMock.Emit (Occ tagOf tagged valuesOf enumName guardOf visible emit)
open EasyMock.CDecl (kwWord)

section
variable {H : Type} [DecidableEq H] (e : Emit.Env H)

/-- The text of a declaration says what it is there for, and the type occurs in the functions; `rec`: what the text of a composite type says. -/
def SaysBy (rec : List Char → Ty → Prop) (fs : List FunDecl) (text : List Char) : Emit.Item → Prop
  | .fwd kw n => Forward text kw n ∧ ∃ b t, Occ fs b t ∧ tagged t = some (kw, n)
  | .td n t => Typedef e text n t ∧ ∃ b i, Occ fs b (.tdef i n t)
  | .en n vs => Enumeration text n vs ∧ ∃ b i m us, Occ fs b (.enum i m us) ∧ vs = valuesOf m us ∧ n = enumName e i m us
  | .comp g _ => ∃ b t, Occ fs b t ∧ rec text t ∧ guardOf e (fun t => ∃ b, Occ fs b t) t g

/-- The text of a declaration says what it is there for, and the type occurs in the functions. -/
def Says : List FunDecl → List Char → Emit.Item → Prop := SaysBy e (Record e)

/-- The names of a type can be read; its members are not looked at. -/
def NamesOk : Ty → Prop
  | .comp i kw n fs emb fwd ms => CName (tagOf e (.comp i kw n fs emb fwd ms))
  | t => TypeOk e t

omit [DecidableEq H] in
theorem names_of {t : Ty} (h : TypeOk e t) : NamesOk e t := by
  cases t
  case comp => exact h.1
  all_goals exact h

theorem kw_ident (kw : Kw) : ∀ c ∈ kw.str.toList, identChar c = true := by cases kw <;> decide +kernel

theorem ident_macro {x y z : String} (hx : ∀ c ∈ x.toList, identChar c = true) (hy : ∀ c ∈ y.toList, identChar c = true)
    (hz : ∀ c ∈ z.toList, identChar c = true) : Ident ("EASYMOCK_" ++ x ++ y ++ z).toList := by
  have he : ∀ c ∈ "EASYMOCK_".toList, identChar c = true := by decide +kernel
  refine ⟨?_, fun c hc => ?_⟩
  · rw [show "EASYMOCK_" = "E" ++ "ASYMOCK_" by decide +kernel, sassoc, sassoc, sassoc, String.toList_append, show "E".toList = ['E'] by decide +kernel]
    exact List.cons_ne_nil _ _
  · simp only [String.toList_append, List.mem_append] at hc
    rcases hc with ((hc | hc) | hc) | hc
    · exact he c hc
    · exact hx c hc
    · exact hy c hc
    · exact hz c hc

theorem gen_ident : ∀ c ∈ "_GENERATED".toList, identChar c = true := by decide +kernel

theorem name_macro {n : String} (h : ∀ c ∈ n.toList, identChar c = true) : Ident ("EASYMOCK_" ++ n ++ "_GENERATED").toList := by
  have := ident_macro h (y := "") (by decide +kernel) gen_ident
  rw [String.append_empty] at this
  exact this

/-- Every declaration of a program says what it is there for. -/
theorem item_by (num : Ty → String → Nat) (fs : List FunDecl) (rec : List Char → Ty → Prop) (h : ∀ b t, Occ fs b t → NamesOk e t)
    (hrec : ∀ c b, Emit.Faithful e c → Occ fs b c.ty → CName (tagOf e c.ty) →
      ∃ T, Body (itemBody e num (.comp c.guard c.decl)).toList T ∧ rec T c.ty) : ∀ x ∈ Emit.items (emit e fs),
    Ident x.macro.toList ∧ ∃ T, Body (itemBody e num x).toList T ∧ SaysBy e rec fs T x := by
  obtain ⟨s1, s2, s3, s4⟩ := Emit.C54_sound e fs
  have s5 := Emit.C54_members e fs
  intro x hx
  unfold Emit.items at hx
  simp only [List.mem_append, List.mem_map] at hx
  rcases hx with ((⟨y, hy, rfl⟩ | ⟨y, hy, rfl⟩) | ⟨y, hy, rfl⟩) | ⟨c, hc, rfl⟩
  · obtain ⟨hne, b, t, ho, ht⟩ := s1 y hy
    have hn : CName y.2 := by
      have := h b t ho
      cases t <;> cases ht
      · have h1 := this
        dsimp only [NamesOk] at h1
        unfold tagOf at h1
        rename_i kw n _ _ _ _
        rw [show (Types.attrs (Ty.comp _ kw n _ _ _ _)).name = n by cases kw <;> rfl, if_neg (by simpa using hne)] at h1
        exact h1
      · exact this.resolve_left hne
    obtain ⟨T, hb, hf⟩ := forward_body e (num := num) (kw := y.1) hn
    refine ⟨?_, T, hb, hf, b, t, ho, ht⟩
    have := ident_macro (x := y.1.str ++ "_") (y := y.2) (z := "_FORWARD_GENERATED") (by
      intro c hc
      rw [String.toList_append] at hc
      rcases List.mem_append.1 hc with hc | hc
      · exact kw_ident _ c hc
      · have : ∀ c ∈ "_".toList, identChar c = true := by decide +kernel
        exact this c hc) hn.ident.2 (by decide +kernel)
    rw [← sassoc "EASYMOCK_"] at this
    exact this
  · obtain ⟨b, i, ho⟩ := s2 y hy
    obtain ⟨hn, ht⟩ := h b _ ho
    obtain ⟨T, hb, hf⟩ := typedef_block e (num := num) hn ht
    exact ⟨name_macro hn.ident.2, T, hb.body, hf, b, i, ho⟩
  · obtain ⟨b, i, n, vs, ho, hv, hn⟩ := s3 y hy
    obtain ⟨h1, h2⟩ := h b _ ho
    have hv' : ∀ v ∈ valuesOf n vs, Ident v.2.toList := by
      cases vs with
      | nil =>
        intro v hv
        rw [valuesOf, List.mem_singleton] at hv
        subst hv
        have hc : ∀ c ∈ n.toList, identChar c = true := by
          by_cases h0 : n = ""
          · subst h0; decide +kernel
          · unfold enumName at h1
            rw [if_neg h0] at h1
            exact h1.ident.2
        refine ⟨?_, fun c hm => ?_⟩
        · rw [String.toList_append]
          exact List.append_ne_nil_of_right_ne_nil _ (by decide +kernel)
        · rw [String.toList_append] at hm
          rcases List.mem_append.1 hm with hm | hm
          · exact hc c hm
          · have : ∀ c ∈ "_dummy".toList, identChar c = true := by decide +kernel
            exact this c hm
      | cons v vs => exact h2
    rw [← hn] at h1
    rw [← hv] at hv'
    obtain ⟨T, hb, hf⟩ := enum_body e (num := num) h1 hv'
    exact ⟨name_macro h1.ident.2, T, hb, hf, b, i, n, vs, ho, hv, hn⟩
  · obtain ⟨⟨b, ho⟩, hg⟩ := s4 c hc
    have hf := s5 c hc
    have hok := h b _ ho
    have hty : ∃ i kw n fs emb fwd ms, c.ty = .comp i kw n fs emb fwd ms := by
      obtain ⟨t, g, d⟩ := c
      cases t <;> first | exact ⟨_, _, _, _, _, _, _, rfl⟩ | exact hg.elim
    obtain ⟨i, kw, n, fls, emb, fwd, ms, hty⟩ := hty
    have hok' := hok
    rw [hty] at hok'
    have hn : CName (tagOf e c.ty) := by rw [hty]; exact hok'
    obtain ⟨T, hb, hr⟩ := hrec c b hf ho hn
    refine ⟨?_, T, hb, b, c.ty, ho, hr, hg⟩
    have key : ∀ w : String, (∀ c ∈ w.toList, identChar c = true) → ∀ c ∈ (kw.str ++ w).toList, identChar c = true := by
      intro w hw c hc
      rw [String.toList_append] at hc
      rcases List.mem_append.1 hc with hc | hc
      · exact kw_ident kw c hc
      · exact hw c hc
    have htag : (Types.attrs c.ty).name = n := by
      rw [hty]; cases kw <;> rfl
    rw [hty] at hg
    show Ident ("EASYMOCK_" ++ c.guard ++ "_GENERATED").toList
    rcases hg with ⟨hg, h0⟩ | ⟨hg, h0⟩ | ⟨j, m, t, ⟨b', ho'⟩, hg, h0⟩
    · rw [hg]
      refine name_macro (key n ?_)
      have h1 := hn
      unfold tagOf at h1
      rw [htag, if_neg (by simpa using h0)] at h1
      exact h1.ident.2
    · rw [hg]
      refine name_macro (key _ ?_)
      have h1 := hn
      unfold tagOf at h1
      rw [htag, if_pos (by simpa using h0), hty] at h1
      exact h1.ident.2
    · rw [hg]
      exact name_macro (key m (h b' _ ho').1.ident.2)

/-- The text of the types, whatever the texts of composite types say. -/
theorem types_run_by (num : Ty → String → Nat) (fs : List FunDecl) (ms : List Gen.Macro) (defs : List String) (rec : List Char → Ty → Prop)
    (hm : ∀ x ∈ ms, MacroOk x) (h : ∀ b t, Occ fs b t → NamesOk e t)
    (hrec : ∀ c b, Emit.Faithful e c → Occ fs b c.ty → CName (tagOf e c.ty) →
      ∃ T, Body (itemBody e num (.comp c.guard c.decl)).toList T ∧ rec T c.ty) :
    ∃ ts, Runs (st (defs.map String.toList) [] [] [] []) (typesText e num ms (Emit.items (emit e fs))).toList
        (st ((((visible (after defs ms) (Emit.items (emit e fs))).map Emit.Item.macro).reverse ++ after defs ms).map String.toList) [] [] []
          (ts.map (fun t => ⟨[], t, none⟩))) ∧
      Each (SaysBy e rec fs) ts (visible (after defs ms) (Emit.items (emit e fs))) := by
  obtain ⟨ts, h1, h2⟩ := runs_items (num := num) (is := []) (S := []) (cs := []) e rfl (Emit.items (emit e fs)) (after defs ms) []
    (item_by e num fs rec h hrec)
  exact ⟨ts, runs_str (runs_macros rfl ms defs hm) h1, h2⟩

omit [DecidableEq H] in
theorem record_by (num : Ty → String → Nat) (fs : List FunDecl) (h : ∀ b t, Occ fs b t → TypeOk e t) :
    ∀ c b, Emit.Faithful e c → Occ fs b c.ty → CName (tagOf e c.ty) →
      ∃ T, Body (itemBody e num (.comp c.guard c.decl)).toList T ∧ Record e T c.ty :=
  fun c b hf ho hn => comp_body e hf hn (by
    intro i kw n fls emb fwd ms ht
    have := h b _ ho
    rw [ht] at this
    exact this.2)

theorem types_run (num : Ty → String → Nat) (fs : List FunDecl) (ms : List Gen.Macro) (defs : List String)
    (hm : ∀ x ∈ ms, MacroOk x) (h : ∀ b t, Occ fs b t → TypeOk e t) :
    ∃ ts, Runs (st (defs.map String.toList) [] [] [] []) (typesText e num ms (Emit.items (emit e fs))).toList
        (st ((((visible (after defs ms) (Emit.items (emit e fs))).map Emit.Item.macro).reverse ++ after defs ms).map String.toList) [] [] []
          (ts.map (fun t => ⟨[], t, none⟩))) ∧
      Each (Says e fs) ts (visible (after defs ms) (Emit.items (emit e fs))) :=
  types_run_by e num fs ms defs (Record e) hm (fun b t ho => names_of e (h b t ho)) (record_by e num fs h)

/-- C88 for programs whose types satisfy `TypeOk`: a compiler which reads the text of the used types finds, for every declaration whose
    guard is not defined before, one declaration in the same order, at the level of the file, and nothing else; each one says what it is
    there for; no file is included; the macros of the configuration and the guards are defined behind it. -/
theorem C88_types_partial (num : Ty → String → Nat) (fs : List FunDecl) (ms : List Gen.Macro) (defs : List String)
    (hm : ∀ x ∈ ms, MacroOk x) (h : ∀ b t, Occ fs b t → TypeOk e t) :
    ∃ ts, readFile (defs.map String.toList) (typesText e num ms (Emit.items (emit e fs))) =
        some ⟨(((visible (after defs ms) (Emit.items (emit e fs))).map Emit.Item.macro).reverse ++ after defs ms).map String.toList, [],
          ts.map (fun t => ⟨[], t, none⟩)⟩ ∧
      Each (Says e fs) ts (visible (after defs ms) (Emit.items (emit e fs))) := by
  obtain ⟨ts, h1, h2⟩ := types_run e num fs ms defs hm h
  exact ⟨ts, readFile_of h1, h2⟩

theorem types_plain_by (num : Ty → String → Nat) (fs : List FunDecl) (ms : List Gen.Macro) (rec : List Char → Ty → Prop)
    (hm : ∀ x ∈ ms, MacroOk x) (h : ∀ b t, Occ fs b t → NamesOk e t)
    (hrec : ∀ c b, Emit.Faithful e c → Occ fs b c.ty → CName (tagOf e c.ty) →
      ∃ T, Body (itemBody e num (.comp c.guard c.decl)).toList T ∧ rec T c.ty) :
    '\\' ∉ (typesText e num ms (Emit.items (emit e fs))).toList := by
  obtain ⟨ts, ⟨ls, h1, -⟩, -⟩ := types_run_by e num fs ms [] rec hm h hrec
  exact h1.1

theorem types_plain (num : Ty → String → Nat) (fs : List FunDecl) (ms : List Gen.Macro)
    (hm : ∀ x ∈ ms, MacroOk x) (h : ∀ b t, Occ fs b t → TypeOk e t) : '\\' ∉ (typesText e num ms (Emit.items (emit e fs))).toList :=
  types_plain_by e num fs ms (Record e) hm (fun b t ho => names_of e (h b t ho)) (record_by e num fs h)

theorem mem_after {n : String} : ∀ (ms : List Gen.Macro) (defs : List String), (∀ x ∈ ms, x.id ≠ n) → (n ∈ after defs ms ↔ n ∈ defs)
  | [], _, _ => Iff.rfl
  | x :: ms, defs, h => by
    have := mem_after ms (if defs.contains x.id then defs else x.id :: defs) (fun y hy => h y (by simp [hy]))
    refine this.trans ?_
    split
    · exact Iff.rfl
    · rw [List.mem_cons]
      exact or_iff_right (Ne.symm (h x (by simp)))

theorem macro_head (x : Emit.Item) : x.macro.toList.head? = some 'E' := by
  have h : ∀ w : String, ("EASYMOCK_" ++ w).toList.head? = some 'E' := by
    intro w
    rw [show "EASYMOCK_" = "E" ++ "ASYMOCK_" by decide +kernel, sassoc, String.toList_append, show "E".toList = ['E'] by decide +kernel]
    rfl
  cases x <;> (unfold Emit.Item.macro; simp only [sassoc]; exact h _)

/-- The macros defined behind the types say whether the compiler is one of C++, as the ones before it. -/
theorem types_cplusplus {fs : List FunDecl} {ms : List Gen.Macro} {path : String} {m : List (List Char)} (hx : ∀ x ∈ ms, x.id ≠ "__cplusplus") :
    let defs := (guardWord path :: m).map String.ofList
    ((((visible (after defs ms) (Emit.items (emit e fs))).map Emit.Item.macro).reverse ++ after defs ms).map String.toList).contains cplusplus =
      m.contains cplusplus := by
  intro defs
  have hc : cplusplus = "__cplusplus".toList := by decide +kernel
  rw [Bool.eq_iff_iff, List.contains_iff_mem, List.contains_iff_mem, List.mem_map]
  constructor
  · rintro ⟨n, hn, e⟩
    have hn' : n = "__cplusplus" := by rw [hc] at e; exact String.ext e
    subst hn'
    rcases List.mem_append.1 hn with hn | hn
    · obtain ⟨x, -, hx⟩ := List.mem_map.1 (List.mem_reverse.1 hn)
      have := macro_head x
      rw [hx] at this
      exact absurd this (by decide +kernel)
    · have hd := (mem_after ms defs hx).1 hn
      obtain ⟨w, hw, e'⟩ := List.mem_map.1 hd
      have e2 : w = cplusplus := by rw [← String.toList_ofList (l := w), e', e]
      rw [e2] at hw
      rcases List.mem_cons.1 hw with h | h
      · exact absurd h.symm (guardWord_cplusplus path)
      · exact h
  · intro h
    refine ⟨"__cplusplus", List.mem_append_right _ ((mem_after ms defs hx).2 (List.mem_map.2 ⟨cplusplus, List.mem_cons_of_mem _ h, ?_⟩)), hc.symm⟩
    rw [hc, String.ofList_toList]

theorem types_seen_by (num : Ty → String → Nat) {fs : List FunDecl} {ms : List Gen.Macro} {c : Gen.Config} {path : String} {m : List (List Char)}
    (rec : List Char → Ty → Prop) (hg : c.genTypes = true) (hm : ∀ x ∈ ms, MacroOk x) (h : ∀ b t, Occ fs b t → NamesOk e t)
    (hrec : ∀ c b, Emit.Faithful e c → Occ fs b c.ty → CName (tagOf e c.ty) →
      ∃ T, Body (itemBody e num (.comp c.guard c.decl)).toList T ∧ rec T c.ty) :
    ∃ ts, typesSeen c path m (typesText e num ms (Emit.items (emit e fs))) =
        some ⟨((((visible (after ((guardWord path :: m).map String.ofList) ms) (Emit.items (emit e fs))).map Emit.Item.macro).reverse ++
          after ((guardWord path :: m).map String.ofList) ms).map String.toList), [], ts.map (fun t => ⟨[], t, none⟩)⟩ ∧
      Each (SaysBy e rec fs) ts (visible (after ((guardWord path :: m).map String.ofList) ms) (Emit.items (emit e fs))) := by
  obtain ⟨ts, h1, h2⟩ := types_run_by e num fs ms ((guardWord path :: m).map String.ofList) rec hm h hrec
  refine ⟨ts, ?_, h2⟩
  unfold typesSeen
  have h1 := readFile_of h1
  rw [List.map_map, show String.toList ∘ String.ofList = id from funext (fun l => String.toList_ofList), List.map_id] at h1
  rw [if_pos hg, h1]

theorem types_seen (num : Ty → String → Nat) {fs : List FunDecl} {ms : List Gen.Macro} {c : Gen.Config} {path : String} {m : List (List Char)}
    (hg : c.genTypes = true) (hm : ∀ x ∈ ms, MacroOk x) (h : ∀ b t, Occ fs b t → TypeOk e t) :
    ∃ ts, typesSeen c path m (typesText e num ms (Emit.items (emit e fs))) =
        some ⟨((((visible (after ((guardWord path :: m).map String.ofList) ms) (Emit.items (emit e fs))).map Emit.Item.macro).reverse ++
          after ((guardWord path :: m).map String.ofList) ms).map String.toList), [], ts.map (fun t => ⟨[], t, none⟩)⟩ ∧
      Each (Says e fs) ts (visible (after ((guardWord path :: m).map String.ofList) ms) (Emit.items (emit e fs))) :=
  types_seen_by e num (Record e) hg hm (fun b t ho => names_of e (h b t ho)) (record_by e num fs h)

/-- C88 for the files of a generation (partial: `TypeOk`, and what C79 supposes).  In C with `--generate-types`, a compiler which has not
    seen the header before finds in it first the declarations of the types whose guards are not defined, in their order, each of which says
    what it is there for, and behind them exactly what the source defines for other files; nothing of the mocked header is included. -/
theorem C88_header_partial (num : Ty → String → Nat) (c : Gen.Config) (hc : c.cpp = false) (hg : c.genTypes = true) (path : String) (hn : NameOk path)
    (cmps : List SrcCmp) (hcmp : ∀ n ∈ cmps, CmpOk n) (k : Nat) (fs : List FunDecl) (hf : ∀ f ∈ fs, Txt.FunText c f) (hp : ∀ f ∈ fs, f.parent = none)
    (ms : List Gen.Macro) (hm : ∀ x ∈ ms, MacroOk x) (hx : ∀ x ∈ ms, x.id ≠ "__cplusplus") (h : ∀ b t, Occ fs b t → TypeOk e t)
    (m m' : List (List Char)) (hnew : guardWord path ∉ m) :
    ∃ hs ss ts, readFile m (headerText c path (typesText e num ms (Emit.items (emit e fs))) (cmps.map (fun k => k.cmp.name))
        ((srcFuns c k fs).map SrcFun.toFun)) = some hs ∧
    readFile m' (sourceText c path cmps (srcFuns c k fs)) = some ss ∧
    hs.includes = [stdarg, easyMockH] ∧
    (hs.decls.take ts.length = ts.map (fun t => ⟨if cplusplus ∈ m then [.externC] else [], t, none⟩)) ∧
    Each (Says e fs) ts (visible (after ((guardWord path :: m).map String.ofList) ms) (Emit.items (emit e fs))) ∧
    (hs.decls.drop ts.length).map Decl.key =
      ((ss.decls.map Decl.entry).filter Entry.external).map (fun e => (e.scopes, e.text)) := by
  obtain ⟨ts, h1, h2⟩ := types_seen e num (path := path) (m := m) hg hm h
  have hpl := types_plain e num fs ms hm h
  have hcp := types_cplusplus e (fs := fs) (path := path) (m := m) hx
  obtain ⟨hs, ss, e1, e2, -, D, defs, e3, e4, -, -, e5⟩ := C79_typed_partial c path _ cmps k fs m m' _ hn (fun _ => hpl) hcmp hf h1 (fun _ => hcp) hnew
  obtain ⟨base, hb, e6⟩ := C78_header_partial c path _ _ _ m _
    (header_typed hn (fun _ => hpl) (fun n h => by obtain ⟨x, hx, rfl⟩ := List.mem_map.mp h; exact (hcmp x hx).name) hf) h1 (fun _ => hcp) hnew
  refine ⟨hs, ss, ts, e1, e2, ?_, ?_, h2, ?_⟩
  · rw [e1] at e6
    rw [Option.some.inj e6, hg]
    rfl
  · rw [e1] at e6
    rw [Option.some.inj e6]
    have hl : ts.length = (List.map (fun d : Decl => (⟨base ++ d.scopes, d.text, d.body⟩ : Decl)) (ts.map (fun t => (⟨[], t, none⟩ : Decl)))).length := by
      rw [List.length_map, List.length_map]
    simp only [List.append_assoc]
    rw [hl, List.take_left', List.map_map, hb]
    · rw [hc]
      refine List.map_congr_left (fun t _ => ?_)
      simp
    · rfl
  · rw [e4, ← e5 hg hp, ← e3, List.length_map]

/-- The header of a generation with types, whatever the texts of composite types say. -/
theorem program_by (num : Ty → String → Nat) (rec : List Char → Ty → Prop) {D : Parser.Decls} {mi : Parser.MacroInfo} {rows : List Row}
    (hA : Parser.Unambiguous D (Parser.Used D ((rows.map Row.d).flatMap CDecl.typesOf)))
    (hC : Parser.NamedCycles D (Parser.Used D ((rows.map Row.d).flatMap CDecl.typesOf)))
    (hp : CDecl.ParsedFile D mi (rows.map Row.d) (rows.map Row.f)) (ht : ∀ r ∈ rows, Txt.FnText D mi r.d r.Ss r.R)
    (c : Gen.Config) (hc : c.cpp = false) (ha : c.attrs = []) (hg : c.genTypes = true) (path : String) (hn : NameOk path)
    (cmps : List String) (hcmp : ∀ n ∈ cmps, Ident n.toList) (k : Nat)
    (ms : List Gen.Macro) (hm : ∀ x ∈ ms, MacroOk x) (hx : ∀ x ∈ ms, x.id ≠ "__cplusplus")
    (h : ∀ b t, Occ (rows.map Row.f) b t → NamesOk e t)
    (hrec : ∀ c b, Emit.Faithful e c → Occ (rows.map Row.f) b c.ty → CName (tagOf e c.ty) →
      ∃ T, Body (itemBody e num (.comp c.guard c.decl)).toList T ∧ rec T c.ty)
    (m : List (List Char)) (hnew : guardWord path ∉ m) :
    ∃ s ts, readFile m (headerText c path (typesText e num ms (Emit.items (emit e (rows.map Row.f)))) cmps
        ((srcFuns c k (rows.map Row.f)).map SrcFun.toFun)) = some s ∧
    s.includes = [stdarg, easyMockH] ∧
    (∀ d ∈ s.decls, d.body = none ∧ d.scopes = (if cplusplus ∈ m then [.externC] else [])) ∧
    (s.decls.take ts.length).map Decl.text = ts ∧
    Each (SaysBy e rec (rows.map Row.f)) ts (visible (after ((guardWord path :: m).map String.ofList) ms) (Emit.items (emit e (rows.map Row.f)))) ∧
    (s.decls.drop ts.length).map (fun d => CDecl.read (String.ofList d.text)) =
      cmps.flatMap (fun n => (cmpDeclared n).map some) ++
      rows.flatMap (fun r => ((r.d.name.toList, CDecl.Sem.fn r.R r.Ss r.d.variadic) ::
        expectDeclared r.d.name (slots D r.d.params r.Ss) (returnOf r.d r.R)).map some) := by
  obtain ⟨q1, q2⟩ := rows_say hA hC hp ht hc ha
  obtain ⟨ts, h1, h2⟩ := types_seen_by e num (path := path) (m := m) rec hg hm h hrec
  have hpl := types_plain_by e num _ ms rec hm h hrec
  have hcp := types_cplusplus e (fs := rows.map Row.f) (path := path) (m := m) hx
  have hok : HeaderOk c path (typesText e num ms (Emit.items (emit e (rows.map Row.f)))) cmps ((srcFuns c k (rows.map Row.f)).map SrcFun.toFun) :=
    header_typed hn (fun _ => hpl) hcmp q1
  obtain ⟨base, hb, hr⟩ := C78_header_partial c path _ cmps _ m _ hok h1 (fun _ => hcp) hnew
  have hb : base = (if cplusplus ∈ m then [.externC] else []) := by rw [hb, hc]; simp
  have hcr : ∀ r ∈ rows, ∀ k, (srcFun c k r.f).sec.cls = none := by
    intro r hr k
    obtain ⟨i, hi⟩ := List.mem_iff_getElem?.mp hr
    have h := (CDecl.C76_functions_partial hA hC hp).2 i r.d r.f (by rw [List.getElem?_map, hi]; rfl) (by rw [List.getElem?_map, hi]; rfl)
    show r.f.parent.map _ = none
    rw [(h.free (ht r hr).free).1]; rfl
  have hcls : ∀ s ∈ srcFuns c k (rows.map Row.f), s.sec.cls = none := by
    intro s hs
    obtain ⟨f, hf, j, rfl⟩ := srcFuns_mem hs
    obtain ⟨r, hr, rfl⟩ := List.mem_map.1 hf
    exact hcr r hr j
  have hl : ts.length = (List.map (fun d : Decl => (⟨base ++ d.scopes, d.text, d.body⟩ : Decl)) (ts.map (fun t => (⟨[], t, none⟩ : Decl)))).length := by
    rw [List.length_map, List.length_map]
  refine ⟨_, ts, hr, by rw [hg]; rfl, ?_, ?_, h2, ?_⟩
  · intro d hd
    simp only [List.append_assoc, hg, hc, Bool.false_eq_true, if_false, List.append_nil, true_and,
      List.map_map] at hd
    rw [← hb]
    rcases List.mem_append.1 hd with hd | hd
    · obtain ⟨t, -, rfl⟩ := List.mem_map.1 hd
      exact ⟨rfl, by simp⟩
    rcases List.mem_append.1 hd with hd | hd
    · obtain ⟨l, hl, hd⟩ := List.mem_flatten.mp hd
      obtain ⟨n, -, rfl⟩ := List.mem_map.mp hl
      rcases List.mem_cons.mp hd with rfl | hd
      · exact ⟨rfl, rfl⟩
      · rw [List.mem_singleton] at hd
        subst hd
        exact ⟨rfl, rfl⟩
    · obtain ⟨l, hl, hd⟩ := List.mem_flatten.mp hd
      obtain ⟨s, hs, rfl⟩ := List.mem_map.mp hl
      rcases List.mem_append.1 hd with hd | hd
      · have hd : d ∈ (if s.sec.cls = none then _ else _) := hd
        rw [if_pos (hcls s hs), List.mem_singleton] at hd
        subst hd
        exact ⟨rfl, by simp⟩
      · rcases List.mem_cons.mp hd with rfl | hd
        · exact ⟨rfl, rfl⟩
        · split at hd
          · cases hd
          · rw [List.mem_singleton] at hd
            subst hd
            exact ⟨rfl, rfl⟩
  · simp only [List.append_assoc]
    rw [hl, List.take_left', List.map_map, List.map_map]
    · exact (List.map_congr_left (fun t _ => rfl)).trans (List.map_id _)
    · rfl
  · simp only [List.append_assoc]
    rw [hl, List.drop_left']
    · simp only [hg, hc, Bool.false_eq_true, if_false, List.append_nil, true_and, List.map_append,
        List.map_map, List.map_flatten]
      refine congr (congrArg _ ?_) ?_
      · refine (congrArg List.flatten (List.map_congr_left (fun n h => ?_))).trans (List.flatMap_def ..).symm
        rw [← cmps_read (hcmp n h)]
        show [CDecl.read (String.ofList (cmpSignature n).toList), CDecl.read (String.ofList (cmpDerefSignature n).toList)] = _
        rw [String.ofList_toList, String.ofList_toList]
        rfl
      refine says_all rows k q2 _ _ (fun r hr k hs => ?_)
      have e0 : ∀ t : String, CDecl.read (String.ofList t.toList) = CDecl.read t := fun t => by rw [String.ofList_toList]
      rw [List.map_cons, ← hs.mock, ← hs.expect]
      show List.map _ ((if (srcFun c k r.f).sec.cls = none then _ else _) ++ _ :: _) = _
      rw [if_pos (hcr r hr k), List.map_append, List.map_cons, List.map_cons, List.map_cons, List.map_nil, List.cons_append, List.nil_append]
      refine congr (congrArg _ (e0 _)) (congr (congrArg _ (e0 _)) ?_)
      show List.map _ (if (Gen.funSection c k r.f).1.outs = [] then _ else _) = _
      split
      · rfl
      · exact congrArg (fun x => [x]) (e0 _)
    · rfl

/-- C88 from the program (partial: `TypeOk`, and what C85 supposes).  In C with `--generate-types`, the header generated for the functions of
    a file is accepted by C and by C++, includes nothing of the mocked header, and declares the used types, the comparators, and then for each function, in
    their order, the function, with the types of the program, and its Expect functions. -/
theorem C88_program_partial (num : Ty → String → Nat) {D : Parser.Decls} {mi : Parser.MacroInfo} {rows : List Row}
    (hA : Parser.Unambiguous D (Parser.Used D ((rows.map Row.d).flatMap CDecl.typesOf)))
    (hC : Parser.NamedCycles D (Parser.Used D ((rows.map Row.d).flatMap CDecl.typesOf)))
    (hp : CDecl.ParsedFile D mi (rows.map Row.d) (rows.map Row.f)) (ht : ∀ r ∈ rows, Txt.FnText D mi r.d r.Ss r.R)
    (c : Gen.Config) (hc : c.cpp = false) (ha : c.attrs = []) (hg : c.genTypes = true) (path : String) (hn : NameOk path)
    (cmps : List String) (hcmp : ∀ n ∈ cmps, Ident n.toList) (k : Nat)
    (ms : List Gen.Macro) (hm : ∀ x ∈ ms, MacroOk x) (hx : ∀ x ∈ ms, x.id ≠ "__cplusplus")
    (h : ∀ b t, Occ (rows.map Row.f) b t → TypeOk e t) (m : List (List Char)) (hnew : guardWord path ∉ m) :
    ∃ s ts, readFile m (headerText c path (typesText e num ms (Emit.items (emit e (rows.map Row.f)))) cmps
        ((srcFuns c k (rows.map Row.f)).map SrcFun.toFun)) = some s ∧
    s.includes = [stdarg, easyMockH] ∧
    (∀ d ∈ s.decls, d.body = none ∧ d.scopes = (if cplusplus ∈ m then [.externC] else [])) ∧
    (s.decls.take ts.length).map Decl.text = ts ∧
    Each (Says e (rows.map Row.f)) ts (visible (after ((guardWord path :: m).map String.ofList) ms) (Emit.items (emit e (rows.map Row.f)))) ∧
    (s.decls.drop ts.length).map (fun d => CDecl.read (String.ofList d.text)) =
      cmps.flatMap (fun n => (cmpDeclared n).map some) ++
      rows.flatMap (fun r => ((r.d.name.toList, CDecl.Sem.fn r.R r.Ss r.d.variadic) ::
        expectDeclared r.d.name (slots D r.d.params r.Ss) (returnOf r.d r.R)).map some) :=
  program_by e num (Record e) hA hC hp ht c hc ha hg path hn cmps hcmp k ms hm hx (fun b t ho => names_of e (h b t ho))
    (record_by e num _ h) m hnew

end

namespace Ex

open EasyMock.Emit.Ex (void int uint struct mem ptr td enum fn par f anonymous inside)
open EasyMock.Emit (free children paramTypes fieldTypes bitTypes)

/-- All parameters of callbacks get numbers from 0. -/
def num : Ty → String → Nat := fun _ _ => 0

/-- The declarations in the text of the types of some functions. -/
def textsOf (fs : List FunDecl) : Option (List String) :=
  (readFile [] (typesText free num [] (Emit.items (emit free fs)))).map (fun s => s.decls.map (fun d => String.ofList d.text))

/-- `struct S { struct S *next; int a[3]; unsigned b : 5; unsigned : 2; union { int x; unsigned y; } u; void (*cb)(int); enum E e; };` -/
def S : Ty := struct "S" (mem (ptr (inside "S")) "next" (.field "" int "a" 3 (.bit "" uint "b" 5 (.bit "" uint "" 2
  (.field "" (.comp false .union "" (mem int "x" (mem uint "y" .nil)) false false .nil) "u" (-1)
    (mem (ptr (fn void (par int .nil))) "cb" (mem (enum "E") "e" .nil)))))))

/-- `typedef void (*cb_t)(int, struct S *);` -/
def cb : Ty := td "cb_t" (ptr (fn void (par int (par (ptr S) .nil))))

/-- `typedef struct { unsigned y; } y_t; y_t g(struct S *, cb_t);` -/
def prog : List FunDecl :=
  [{ info := { name := "g" }, retStr := "", ret := td "y_t" anonymous, params := par (ptr S) (par cb .nil) }]

/-- The types which occur. -/
def types : List Ty :=
  [td "y_t" anonymous, anonymous, uint, ptr S, S, ptr (inside "S"), inside "S", int,
   .comp false .union "" (mem int "x" (mem uint "y" .nil)) false false .nil, ptr (fn void (par int .nil)), fn void (par int .nil), void,
   enum "E", cb, ptr (fn void (par int (par (ptr S) .nil))), fn void (par int (par (ptr S) .nil))]

/-- The types inside the types which occur. -/
def inner : List (List Ty) :=
  [[anonymous], [uint], [], [S],
   [ptr (inside "S"), int, .comp false .union "" (mem int "x" (mem uint "y" .nil)) false false .nil, ptr (fn void (par int .nil)), enum "E", uint, uint],
   [inside "S"], [], [], [int, uint], [fn void (par int .nil)], [void, int], [], [], [ptr (fn void (par int (par (ptr S) .nil)))],
   [fn void (par int (par (ptr S) .nil))], [void, int, ptr S]]

theorem children_types : types.map children = inner := rfl

theorem inner_types : ∀ l ∈ inner, ∀ u ∈ l, u ∈ types := by
  unfold inner
  simp only [List.mem_cons, List.not_mem_nil, or_false, forall_eq_or_imp, forall_eq, types, or_true, true_or, and_true, implies_true, false_implies]

theorem occ_types : ∀ b t, Occ prog b t → t ∈ types := by
  intro b t h
  induction h with
  | ret h =>
    rw [List.mem_singleton.1 h]
    exact List.mem_cons_self
  | param h ht =>
    rw [List.mem_singleton.1 h] at ht
    have ht' := (show _ ∈ [ptr S, cb] from ht)
    simp only [List.mem_cons, List.not_mem_nil, or_false] at ht'
    rcases ht' with rfl | rfl <;> simp only [types, List.mem_cons, or_true, true_or]
  | child h hu ih =>
    exact inner_types _ (by rw [← children_types]; exact List.mem_map.2 ⟨_, ih, rfl⟩) _ hu

instance (n : List Char) : Decidable (Ident n) := inferInstanceAs (Decidable (_ ∧ _))

theorem cname {n : String} (h : CDecl.Word n ∧ Ident n.toList) : CName n := ⟨h.1, h.2⟩

theorem plain_ok {t : Ty} {n : String} (hc : CName n) (hs : CDecl.Spellable false t) : CName n ∧ Spelled free "" t := ⟨hc, .type hs (Or.inl rfl)⟩

theorem types_ok : ∀ b t, Occ prog b t → TypeOk free t := by
  intro b t h
  have h := occ_types b t h
  have hE : CDecl.Word "E" := by decide +kernel
  have hS : CDecl.Word "S" := by decide +kernel
  simp only [types, List.mem_cons, List.not_mem_nil, or_false] at h
  rcases h with rfl | rfl | rfl | rfl | rfl | rfl | rfl | rfl | rfl | rfl | rfl | rfl | rfl | rfl | rfl | rfl
  · exact ⟨cname (by decide +kernel), .comp (cname (by decide +kernel))⟩
  · exact ⟨cname (by decide +kernel), plain_ok (cname (by decide +kernel)) trivial, trivial⟩
  · trivial
  · trivial
  · refine ⟨cname (by decide +kernel), plain_ok (cname (by decide +kernel)) hS, plain_ok (cname (by decide +kernel)) trivial,
      ⟨rfl, Or.inr (cname (by decide +kernel)), .type trivial (Or.inl rfl), fun _ => rfl,
       rfl, Or.inl rfl, .type trivial (Or.inl rfl), fun _ => rfl, ?_⟩⟩
    refine ⟨⟨Or.inl rfl, fun _ => rfl, Or.inr (cname (by decide +kernel)), plain_ok (cname (by decide +kernel)) trivial,
      plain_ok (cname (by decide +kernel)) trivial, trivial⟩, plain_ok (cname (by decide +kernel)) ?_, plain_ok (cname (by decide +kernel)) hE, trivial⟩
    exact ⟨rfl, rfl, trivial, Or.inl rfl, trivial, Or.inl rfl, trivial⟩
  · trivial
  · exact Or.inr (cname (by decide +kernel))
  · trivial
  · exact ⟨cname (by decide +kernel), plain_ok (cname (by decide +kernel)) trivial, plain_ok (cname (by decide +kernel)) trivial, trivial⟩
  · trivial
  · trivial
  · trivial
  · exact ⟨cname (by decide +kernel), by decide +kernel⟩
  · refine ⟨cname (by decide +kernel), .fn ⟨rfl, rfl, trivial, Or.inl rfl, trivial, Or.inl rfl, Or.inl rfl, hS, Or.inl rfl, trivial⟩ rfl ⟨rfl, rfl, trivial⟩⟩
  · trivial
  · trivial

/-- A macro of the configuration: `#define MAX(a,b)  ((a) > (b) ? (a) : (b))`. -/
def maxMacro : Gen.Macro := ⟨"MAX", ["a", "b"], "((a) > (b) ? (a) : (b))", "/usr/include/x.h"⟩

theorem macro_ok : MacroOk maxMacro := ⟨by decide +kernel, ⟨by decide +kernel, by decide +kernel⟩, by decide +kernel, by decide +kernel⟩

/-- The hypotheses of `C88_types_partial` hold for `prog`. -/
example : ∃ ts, readFile ["EASYMOCK_E_GENERATED".toList] (typesText free num [maxMacro] (Emit.items (emit free prog))) =
      some ⟨(((visible ["MAX", "EASYMOCK_E_GENERATED"] (Emit.items (emit free prog))).map Emit.Item.macro).reverse ++ ["MAX", "EASYMOCK_E_GENERATED"]).map String.toList, [],
        ts.map (fun t => ⟨[], t, none⟩)⟩ ∧
    Each (Says free prog) ts (visible ["MAX", "EASYMOCK_E_GENERATED"] (Emit.items (emit free prog))) := by
  have := C88_types_partial free num prog [maxMacro] ["EASYMOCK_E_GENERATED"] (by simpa using macro_ok) types_ok
  rw [show after ["EASYMOCK_E_GENERATED"] [maxMacro] = ["MAX", "EASYMOCK_E_GENERATED"] by decide +kernel] at this
  exact this

/-- The text for `typedef struct A { int x[3]; unsigned b : 2; } A_t; void f(A_t);`. -/
example : typesText free num [maxMacro] (Emit.items (emit free [f (td "A_t" (struct "A" (.field "" int "x" 3 (.bit "" uint "b" 2 .nil))))])) =
    "#ifndef MAX\n// from: /usr/include/x.h\n#define MAX(a,b)  ((a) > (b) ? (a) : (b))\n#endif //macro MAX\n\n" ++
    "#ifndef EASYMOCK_struct_A_FORWARD_GENERATED\n#define EASYMOCK_struct_A_FORWARD_GENERATED\nstruct A;\n" ++
    " //GENERATED_TYPE_FORWARD_DECLARATION_SECTION\n#endif //EASYMOCK_struct_A_FORWARD_GENERATED\n" ++
    "#ifndef EASYMOCK_A_t_GENERATED\n#define EASYMOCK_A_t_GENERATED\ntypedef struct A A_t;\n#endif //EASYMOCK_A_t_GENERATED\n" ++
    "#ifndef EASYMOCK_structA_GENERATED\n#define EASYMOCK_structA_GENERATED\n//GENERATED_TYPE_SECTION\n" ++
    "struct A\n{\n    int x[3];\nunsigned int b:2;\n\n};\n\n#endif //EASYMOCK_structA_GENERATED\n" := by decide +kernel

/-- The text for `enum E { E_a }; void f(enum E);`. -/
example : typesText free num [] (Emit.items (emit free [f (enum "E")])) =
    "#ifndef EASYMOCK_E_GENERATED\n#define EASYMOCK_E_GENERATED\nenum E\n{\n  E_a = 0,\n};\n#endif //EASYMOCK_E_GENERATED\n" := by decide +kernel

/-! ## Headers -/

theorem occ_closed {fs : List FunDecl} {l : List Ty} (h1 : ∀ f ∈ fs, f.ret ∈ l) (h2 : ∀ f ∈ fs, ∀ t ∈ paramTypes f.params, t ∈ l)
    (h3 : ∀ ks ∈ l.map children, ∀ u ∈ ks, u ∈ l) : ∀ b t, Occ fs b t → t ∈ l := by
  intro b t h
  induction h with
  | ret h => exact h1 _ h
  | param h ht => exact h2 _ h _ ht
  | child h hu ih => exact h3 _ (List.mem_map.2 ⟨_, ih, rfl⟩) _ hu

/-- `struct { struct N *prev; int n : 3; } in;` inside `struct N`. -/
def In : Ty := .comp false .struct "" (.field "struct N *" (ptr (inside "N")) "prev" (-1) (.bit "int" int "n" 3 .nil)) true false .nil

/-- `struct N { struct N *next; struct { struct N *prev; int n : 3; } in; int v[3]; };` -/
def N : Ty := struct "N" (.field "struct N *" (ptr (inside "N")) "next" (-1) (.field "struct" In "in" (-1) (.field "int" int "v" 3 .nil)))

/-- `typedef struct N List;` -/
def Lst : Ty := td "List" N

/-- `int (struct N *, const char *)` -/
def fCb : Ty := .fn false { name := "" } "int" int (.cons "struct N*" (ptr N) "" (.cons "char const*" (ptr (.const false (.ctype .char true false))) "" .nil))

/-- `int *(long)` -/
def gCb : Ty := .fn false { name := "" } "int*" (ptr int) (.cons "long" (.ctype .long false false) "" .nil)

/-- The types of the functions of the example of C85. -/
def fileTypes : List Ty :=
  [ptr (ptr (.const false Lst)), ptr (.const false Lst), .const false Lst, Lst, N, ptr (inside "N"), inside "N", In, int, .ctype .uchar true false,
   ptr fCb, fCb, ptr N, ptr (.const false (.ctype .char true false)), .const false (.ctype .char true false), .ctype .char true false,
   .const false (ptr Lst), ptr Lst, ptr gCb, gCb, ptr int, .ctype .long false false]

/-- The types inside them. -/
def fileInner : List (List Ty) :=
  [[ptr (.const false Lst)], [.const false Lst], [Lst], [N], [ptr (inside "N"), In, int], [inside "N"], [], [ptr (inside "N"), int], [], [],
   [fCb], [int, ptr N, ptr (.const false (.ctype .char true false))], [N], [.const false (.ctype .char true false)], [.ctype .char true false], [],
   [ptr Lst], [Lst], [gCb], [ptr int, .ctype .long false false], [int], []]

theorem file_children : fileTypes.map children = fileInner := rfl

theorem file_inner : ∀ l ∈ fileInner, ∀ u ∈ l, u ∈ fileTypes := by
  unfold fileInner
  simp only [List.mem_cons, List.not_mem_nil, or_false, forall_eq_or_imp, forall_eq, fileTypes, or_true, true_or, and_true, implies_true, false_implies]

/-- The types of the results and of the parameters. -/
def fileRoots : List (List Ty) :=
  [[ptr (ptr (.const false Lst)), .ctype .uchar true false, ptr fCb, .const false (ptr Lst), int, ptr Lst], [ptr gCb, ptr N]]

theorem file_roots : (fileRows.map Row.f).map (fun f => f.ret :: paramTypes f.params) = fileRoots := by
  with_unfolding_all rfl

theorem roots_types : ∀ l ∈ fileRoots, ∀ u ∈ l, u ∈ fileTypes := by
  unfold fileRoots
  simp only [List.mem_cons, List.not_mem_nil, or_false, forall_eq_or_imp, forall_eq, fileTypes, or_true, true_or, and_true]

theorem file_ok : ∀ b t, Occ (fileRows.map Row.f) b t → TypeOk free t := by
  intro b t h
  have h : t ∈ fileTypes := occ_closed
    (fun f hf => roots_types _ (by rw [← file_roots]; exact List.mem_map.2 ⟨f, hf, rfl⟩) _ List.mem_cons_self)
    (fun f hf t ht => roots_types _ (by rw [← file_roots]; exact List.mem_map.2 ⟨f, hf, rfl⟩) _ (List.mem_cons_of_mem _ ht))
    (by rw [file_children]; exact file_inner) b t h
  have hN : CDecl.Word "N" := by decide +kernel
  have hp : Spelled free "struct N *" (ptr (inside "N")) := .source rfl (fun _ => rfl) ⟨'s', "truct N *".toList, by decide +kernel, by decide⟩ (by decide +kernel)
  have hi : Spelled free "int" int := .type trivial (Or.inr rfl)
  have hIn : FieldsOk free (.field "struct N *" (ptr (inside "N")) "prev" (-1) (.bit "int" int "n" 3 .nil)) :=
    ⟨⟨cname (by decide +kernel), hp⟩, rfl, Or.inr (cname (by decide +kernel)), hi, fun _ => rfl, trivial⟩
  simp only [fileTypes, List.mem_cons, List.not_mem_nil, or_false] at h
  rcases h with rfl | rfl | rfl | rfl | rfl | rfl | rfl | rfl | rfl | rfl | rfl | rfl | rfl | rfl | rfl | rfl | rfl | rfl | rfl | rfl | rfl | rfl
  · trivial
  · trivial
  · trivial
  · exact ⟨cname (by decide +kernel), .named hN trivial (by decide +kernel)⟩
  · exact ⟨cname (by decide +kernel), ⟨cname (by decide +kernel), hp⟩, ⟨Or.inl rfl, fun _ => rfl, Or.inr (cname (by decide +kernel)), hIn⟩,
      ⟨cname (by decide +kernel), hi⟩, trivial⟩
  · trivial
  · exact Or.inr (cname (by decide +kernel))
  · exact ⟨cname (by decide +kernel), hIn⟩
  all_goals trivial

/-- C88 for the functions `f` and `g` of the example of C85: the header declares `struct N`, `List`, and the functions. -/
example : ∃ s ts, readFile [] (headerText { genTypes := true } "inc/list.h" (typesText free num [maxMacro] (Emit.items (emit free (fileRows.map Row.f)))) ["struct_N"]
      ((srcFuns { genTypes := true } 0 (fileRows.map Row.f)).map SrcFun.toFun)) = some s ∧
    s.includes = [stdarg, easyMockH] ∧
    Each (Says free (fileRows.map Row.f)) ts (visible ["MAX", "_LIST_EASYMOCK_H"] (Emit.items (emit free (fileRows.map Row.f)))) ∧
    (s.decls.drop ts.length).map (fun d => (CDecl.read (String.ofList d.text)).map (fun x => String.ofList x.1)) =
      [some "cmp_struct_N", some "cmp_deref_ptr_struct_N", some "f", some "f_ExpectAndReturn", some "f_ExpectReturnAndOutput", some "g", some "g_ExpectAndReturn", some "g_ExpectReturnAndOutput"] := by
  obtain ⟨s, ts, h1, h2, -, -, h3, h4⟩ := C88_program_partial free num file_unambiguous file_named file_parsed file_text { genTypes := true } rfl rfl rfl
    "inc/list.h" file_name ["struct_N"] (by intro n hn; rw [List.mem_singleton] at hn; subst hn; decide +kernel) 0 [maxMacro] (by simpa using macro_ok) (by intro x hx; rw [List.mem_singleton] at hx; subst hx; decide +kernel) file_ok []
    (by decide +kernel)
  refine ⟨s, ts, h1, h2, ?_, ?_⟩
  · rw [show after ([guardWord "inc/list.h"].map String.ofList) [maxMacro] = ["MAX", "_LIST_EASYMOCK_H"] by decide +kernel] at h3
    exact h3
  · have e : ∀ l : List Decl, l.map (fun d => (CDecl.read (String.ofList d.text)).map (fun x => String.ofList x.1)) =
        (l.map (fun d => CDecl.read (String.ofList d.text))).map (fun r => r.map (fun x => String.ofList x.1)) := fun l => by
      rw [List.map_map]; rfl
    rw [e, h4]
    decide +kernel

theorem prog_text : ∀ f ∈ prog, Txt.FunText { genTypes := true } f := by
  intro f hf
  rw [List.mem_singleton.1 hf]
  refine ⟨by decide +kernel, by decide +kernel, (fun h => by cases h), (fun p h => by cases h), ?_, ?_, Or.inl rfl, (fun h => by cases h), ?_,
    by decide +kernel⟩
  · have hS : CDecl.Word "S" := by decide +kernel
    have hc : CDecl.Word "cb_t" := by decide +kernel
    exact .cons ⟨hS, Or.inl rfl, Or.inl rfl, (fun _ => rfl), (fun h => by cases h), (fun h => by cases h)⟩
      (.cons ⟨⟨hc, fun h => by cases h⟩, Or.inl rfl, Or.inl rfl, (fun _ => rfl), (fun h => by cases h), (fun h => by cases h)⟩ .nil)
  · have hy : CDecl.Word "y_t" := by decide +kernel
    exact ⟨hy, fun h => by cases h⟩
  · intro a h
    cases h

/-- C88 for the files of `prog`, with a comparator. -/
example : ∃ hs ss ts, readFile [] (headerText { genTypes := true } "inc/list.h" (typesText free num [maxMacro] (Emit.items (emit free prog))) ["struct_s"]
      ((srcFuns { genTypes := true } 0 prog).map SrcFun.toFun)) = some hs ∧
    readFile [] (sourceText { genTypes := true } "inc/list.h" [exCmp] (srcFuns { genTypes := true } 0 prog)) = some ss ∧
    Each (Says free prog) ts (visible ["MAX", "_LIST_EASYMOCK_H"] (Emit.items (emit free prog))) ∧
    (hs.decls.drop ts.length).map Decl.key = ((ss.decls.map Decl.entry).filter Entry.external).map (fun e => (e.scopes, e.text)) := by
  obtain ⟨hs, ss, ts, h1, h2, -, -, h3, h4⟩ := C88_header_partial free num { genTypes := true } rfl rfl "inc/list.h" file_name [exCmp]
    (by intro n hn; rw [List.mem_singleton] at hn; subst hn; exact exCmp_ok) 0 prog prog_text (by intro f hf; rw [List.mem_singleton.1 hf])
    [maxMacro] (by simpa using macro_ok) (by intro x hx; rw [List.mem_singleton] at hx; subst hx; decide +kernel) types_ok [] [] (by decide +kernel)
  refine ⟨hs, ss, ts, h1, h2, ?_, h4⟩
  rw [show after ([guardWord "inc/list.h"].map String.ofList) [maxMacro] = ["MAX", "_LIST_EASYMOCK_H"] by decide +kernel] at h3
  exact h3

/-! ## Where the text does not declare the type -/

theorem not_typedef {H : Type} {e : Emit.Env H} {d n : String} {t : Ty}
    (h : CDecl.read (String.ofList (nameParams d.toList)) ≠ some (n.toList, semIn e t)) : ¬ Typedef e ("typedef ".toList ++ d.toList) n t := by
  rintro ⟨d', h1, h2⟩
  rw [← List.append_cancel_left h1] at h2
  exact h h2

/-- `void (int)`. -/
def fnInt : Ty := fn void (par int .nil)

/-- C88 fails for `typedef void (*const fp)(int); void f(fp);`: the text is `typedef void(* constfp)(int)`. -/
theorem C88_refuted_const_callback : textsOf [f (td "fp" (.const false (ptr fnInt)))] = some ["typedef void(* constfp)(int)"] ∧
    ¬ Typedef free ("typedef ".toList ++ "void(* constfp)(int)".toList) "fp" (.const false (ptr fnInt)) :=
  ⟨by decide +kernel, not_typedef (by decide +kernel)⟩

/-- C88 fails for `typedef void fn_t(int); void f(fn_t *);`: the text has a parenthesis too many. -/
theorem C88_refuted_function : textsOf [f (ptr (td "fn_t" fnInt))] = some ["typedef void( )(int)fn_t)(int)"] ∧
    ¬ Typedef free ("typedef ".toList ++ "void( )(int)fn_t)(int)".toList) "fn_t" fnInt :=
  ⟨by decide +kernel, not_typedef (by decide +kernel)⟩

/-- C88 fails for `typedef struct { unsigned y; } *p_t; void f(p_t);`: the name made for the structure is behind the star. -/
theorem C88_refuted_nameless_pointer : .td "p_t" (ptr anonymous) ∈ Emit.items (emit free [f (td "p_t" (ptr anonymous))]) ∧
    itemBody free num (.td "p_t" (ptr anonymous)) = "typedef struct* easymock_generated_anonymous_type_hash_struct p_t;\n" ∧
    ¬ Typedef free ("typedef ".toList ++ "struct* easymock_generated_anonymous_type_hash_struct p_t".toList) "p_t" (ptr anonymous) :=
  ⟨List.mem_cons_self, by decide +kernel, not_typedef (by decide +kernel)⟩

/-- C88 fails for `typedef struct { unsigned y; } A_t; typedef A_t B_t; void f(B_t);`: the name made for the structure is behind the name of
    the type which it is defined with. -/
theorem C88_refuted_nameless_twice : .td "B_t" (td "A_t" anonymous) ∈ Emit.items (emit free [f (td "B_t" (td "A_t" anonymous))]) ∧
    itemBody free num (.td "B_t" (td "A_t" anonymous)) = "typedef A_t easymock_generated_anonymous_type_hash_struct B_t;\n" ∧
    ¬ Typedef free ("typedef ".toList ++ "A_t easymock_generated_anonymous_type_hash_struct B_t".toList) "B_t" (td "A_t" anonymous) :=
  ⟨List.mem_cons_self, by decide +kernel, not_typedef (by decide +kernel)⟩

/-- C88 fails for `typedef void (*cb)(int); typedef cb cb2; void f(cb2);`: the text has a parenthesis too many. -/
theorem C88_refuted_callback_twice : textsOf [f (td "cb2" (td "cb" (ptr fnInt)))] = some ["typedef cbcb2)(int)", "typedef void(*cb)(int)"] ∧
    ¬ Typedef free ("typedef ".toList ++ "cbcb2)(int)".toList) "cb2" (td "cb" (ptr fnInt)) :=
  ⟨by decide +kernel, not_typedef (by decide +kernel)⟩

/-- C88 fails for `typedef int (*log)(int, ...); void f(log);`: the text is accepted, and declares another type, without the dots. -/
theorem C88_refuted_variadic :
    textsOf [f (td "log" (ptr (.fn false { name := "", variadic := true } "" int (par int .nil))))] = some ["typedef int(*log)(int)"] ∧
    ¬ Typedef free ("typedef ".toList ++ "int(*log)(int)".toList) "log" (ptr (.fn false { name := "", variadic := true } "" int (par int .nil))) ∧
    Typedef free ("typedef ".toList ++ "int(*log)(int)".toList) "log" (ptr (fn int (par int .nil))) :=
  ⟨by decide +kernel, not_typedef (by decide +kernel), _, rfl, by decide +kernel⟩

/-- C88 fails for `typedef void (*hcb)(void (*)(int)); void f(hcb);`: the parameters of the parameter are missing. -/
theorem C88_refuted_callback_parameter : textsOf [f (td "hcb" (ptr (fn void (par (ptr fnInt) .nil))))] = some ["typedef void(*hcb)(void(*)"] ∧
    ¬ Typedef free ("typedef ".toList ++ "void(*hcb)(void(*)".toList) "hcb" (ptr (fn void (par (ptr fnInt) .nil))) :=
  ⟨by decide +kernel, not_typedef (by decide +kernel)⟩

/-- C88 fails for `typedef void (*(*rcb)(int))(int); void f(rcb);`: the parameters of the result are missing. -/
theorem C88_refuted_callback_result : textsOf [f (td "rcb" (ptr (fn (ptr fnInt) (par int .nil))))] = some ["typedef void(*(*rcb)(int)"] ∧
    ¬ Typedef free ("typedef ".toList ++ "void(*(*rcb)(int)".toList) "rcb" (ptr (fn (ptr fnInt) (par int .nil))) :=
  ⟨by decide +kernel, not_typedef (by decide +kernel)⟩

/-- C88 fails for `enum E { A, B }; typedef enum E E; void f(E);`: the enumeration has the guard of the type with its name, and a compiler
    does not see it. -/
theorem C88_refuted_same_name : textsOf [f (td "E" (enum "E"))] = some ["typedef enum E E"] ∧
    ∃ vs, Emit.items (emit free [f (td "E" (enum "E"))]) = [.td "E" (enum "E"), .en "E" vs] := by
  exact ⟨by decide +kernel, _, rfl⟩

/-- C88 fails for `struct S { struct { unsigned y; } *p; }; void f(struct S *);`: the member has no declarator. -/
theorem C88_refuted_nameless_member :
    (∃ d, (Emit.items (emit free [f (struct "S" (mem (ptr anonymous) "p" .nil))])).getLast? = some (.comp "structS" d) ∧
      itemBody free num (.comp "structS" d) = "//GENERATED_TYPE_SECTION\nstruct S\n{\n    struct* easymock_generated_anonymous_type_hash_struct p;\n\n};\n\n") ∧
    CDecl.read "struct* easymock_generated_anonymous_type_hash_struct p" = none :=
  ⟨⟨_, rfl, by decide +kernel⟩, by decide +kernel⟩

end Ex

end EasyMock.CFile.TypeDecl
