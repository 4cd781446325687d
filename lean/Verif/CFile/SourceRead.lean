import Verif.CFile.Bodies2
import Verif.CFile.HeaderWhole

/-! # CFile: the whole generated source, read -/

namespace EasyMock.CFile

open EasyMock.Gen

variable {m is : List (List Char)} {cs : List Bool} {S : List Scope} {D : List Decl} {c : Config} {f : SrcFun}

/-! ## Signatures and declarations -/

theorem ta (a b : String) : (a ++ b).toList = a.toList ++ b.toList := String.toList_append

/-- A text which starts with a word of its own. -/
structure Lead (pre : String) (w : List Char) : Prop where
  text : ∃ r, pre.toList = w ++ ' ' :: r
  plain : Plain pre
  nonempty : w ≠ []
  word : ∀ x ∈ w, blank x = false
  first : w.head? ≠ some '#'
  space : w ≠ kwNamespace

theorem Lead.head {pre rest : String} {w : List Char} (h : Lead pre w) :
    (∃ c r, (pre ++ rest).toList = c :: r ∧ blank c = false ∧ c ≠ '#') ∧ (words (pre ++ rest).toList).head? ≠ some kwNamespace := by
  obtain ⟨r, e⟩ := h.text
  rw [String.toList_append, e, List.append_assoc, List.cons_append]
  constructor
  · cases hw : w with
    | nil => exact absurd hw h.nonempty
    | cons x w' =>
      refine ⟨x, w' ++ ' ' :: (r ++ rest.toList), by simp, h.word x (by rw [hw]; simp), ?_⟩
      have := h.first
      rw [hw] at this
      simpa using this
  · rw [words_first (by decide) h.nonempty h.word]
    simpa using h.space

theorem lead_void : Lead "void " "void".toList :=
  ⟨⟨[], by decide +kernel⟩, by unfold Plain; decide +kernel, by decide +kernel, by decide +kernel, by decide +kernel, by decide +kernel⟩
theorem lead_static : Lead "static " "static".toList :=
  ⟨⟨[], by decide +kernel⟩, by unfold Plain; decide +kernel, by decide +kernel, by decide +kernel, by decide +kernel, by decide +kernel⟩
theorem lead_staticVoid : Lead "static void " "static".toList :=
  ⟨⟨"void ".toList, by decide +kernel⟩, by unfold Plain; decide +kernel, by decide +kernel, by decide +kernel, by decide +kernel,
    by decide +kernel⟩
theorem lead_cmp : Lead "int cmp_" "int".toList :=
  ⟨⟨"cmp_".toList, by decide +kernel⟩, by unfold Plain; decide +kernel, by decide +kernel, by decide +kernel, by decide +kernel,
    by decide +kernel⟩
theorem lead_deref : Lead "int cmp_deref_ptr_" "int".toList :=
  ⟨⟨"cmp_deref_ptr_".toList, by decide +kernel⟩, by unfold Plain; decide +kernel, by decide +kernel, by decide +kernel,
    by decide +kernel, by decide +kernel⟩

theorem plain_close1 : Plain ")" := by unfold Plain; decide +kernel
theorem plain_open1 : Plain "(" := by unfold Plain; decide +kernel

theorem Lead.sig {pre mid : String} {w : List Char} (h : Lead pre w) (hm : Plain mid) : SigText (pre ++ mid ++ ")").toList := by
  have hh := h.head (rest := mid ++ ")")
  rw [← sassoc] at hh
  refine ⟨(h.plain.append hm).append plain_close1, hh.1, hh.2, Or.inl ⟨(pre ++ mid).toList, ?_⟩⟩
  have e : ")".toList = [')'] := by decide +kernel
  rw [String.toList_append, e]

theorem Lead.decl {pre rest : String} {w : List Char} (h : Lead pre w) (hm : Plain rest)
    (hl : ∃ a b : String, rest = a ++ b ∧ b.toList ≠ [] ∧ ∀ x ∈ b.toList.getLast?, blank x = false) : DeclText (pre ++ rest).toList := by
  have hp := h.plain.append hm
  obtain ⟨x, r, e, h1, h2⟩ := (h.head (rest := rest)).1
  refine ⟨plain_proper hp, ⟨x, r, e, h1, h2, ?_⟩, ?_⟩
  · exact (plain_ne (hp x (by rw [e]; simp))).2.2.2.2.1
  · obtain ⟨a, b, rfl, hb, hb'⟩ := hl
    intro x hx
    rw [String.toList_append, String.toList_append, last_append (by simp [hb]), last_append hb] at hx
    exact hb' x hx

theorem cmp_sig {n : String} (hn : Ident n.toList) : SigText (cmpSignature n).toList ∧ SigText (cmpDerefSignature n).toList := by
  have e : "(const void *currentCall_ptr, const void *expectedCall_ptr, const char *paramName, char *errorMessage )" =
      "(const void *currentCall_ptr, const void *expectedCall_ptr, const char *paramName, char *errorMessage " ++ ")" := by
    decide +kernel
  have hp : Plain "(const void *currentCall_ptr, const void *expectedCall_ptr, const char *paramName, char *errorMessage " := by
    unfold Plain; decide +kernel
  unfold cmpSignature cmpDerefSignature
  rw [e, ← sassoc, ← sassoc]
  constructor
  · rw [sassoc "int cmp_"]
    exact lead_cmp.sig (hn.plain.append hp)
  · rw [sassoc "int cmp_deref_ptr_"]
    exact lead_deref.sig (hn.plain.append hp)

theorem expect_sigs (h : FunOk c f.toFun) :
    SigText ("void " ++ expectName c f.sec ++ "(" ++ expectParams c f.sec ++ ")").toList ∧
    SigText ("void " ++ expectOutputName c f.sec ++ "(" ++ expectOutputParams c f.sec ++ ")").toList ∧
    SigText ("static void " ++ commonName f.sec ++ "(" ++ expectOutputParams c f.sec ++ ")").toList := by
  have hu : Plain "_" := by unfold Plain; decide +kernel
  have hempty : Plain "" := by unfold Plain; decide +kernel
  have he1 : Plain "ExpectAndReturn" := by unfold Plain; decide +kernel
  have he2 : Plain "ExpectReturnAndOutput" := by unfold Plain; decide +kernel
  have he3 : Plain "_ExpectReturnAndOutput_common" := by unfold Plain; decide +kernel
  have hpre : Plain (if c.cpp then "" else f.sec.name ++ "_") := by
    split
    · exact hempty
    · exact h.name.plain.append hu
  have hsub : Plain (expectParams c f.sec) := by
    intro ch hch
    apply h.params ch
    unfold expectOutputParams
    rw [String.toList_append, String.toList_append]
    simp [hch]
  refine ⟨?_, ?_, ?_⟩
  · rw [sassoc "void ", sassoc "void "]
    exact lead_void.sig (((hpre.append he1).append plain_open1).append hsub)
  · rw [sassoc "void ", sassoc "void "]
    exact lead_void.sig (((hpre.append he2).append plain_open1).append h.params)
  · rw [sassoc "static void ", sassoc "static void "]
    exact lead_staticVoid.sig (((h.name.plain.append he3).append plain_open1).append h.params)

theorem extra_ends : ∀ x : XDecl, x.text = "" ∨ ∃ a, x.text = a ++ ")"
  | .none => Or.inl rfl
  | .decl ps inner => by
    unfold XDecl.text
    rcases extra_ends inner with e | ⟨a, e⟩
    · exact Or.inr ⟨")(" ++ ps.text, by rw [e, String.append_empty]⟩
    · exact Or.inr ⟨")(" ++ ps.text ++ ")" ++ a, by rw [e]; simp only [sassoc]⟩

theorem mock_sig (h : SrcOk c f) : SigText (mockSignature f.sec).toList := by
  have e : ")".toList = [')'] := by decide +kernel
  have e2 : " const".toList = ' ' :: kwConst := by decide +kernel
  have hbase : ∀ k : String, ∃ a, expandSep attrText " " f.sec.attrs ++ f.sec.ret ++ " " ++
      k ++ f.sec.name ++ parameters f.sec ++ f.sec.topExtra.text = a ++ ")" := by
    intro k
    rcases extra_ends f.sec.topExtra with hx | ⟨a, hx⟩
    · rw [hx, String.append_empty]
      unfold parameters
      exact ⟨_, by rw [← sassoc]⟩
    · rw [hx, ← sassoc]
      exact ⟨_, rfl⟩
  refine ⟨h.sig.plain, ?_, h.word, ?_⟩
  · obtain ⟨x, r, e, hx⟩ := h.sig.first
    refine ⟨x, r, e, ?_⟩
    rcases hx with hx | rfl
    · exact ⟨ident_blank hx, by rintro rfl; exact absurd hx (by decide)⟩
    · decide
  · have hend : ∀ a : String, (∃ b, (a ++ ")" ++ (if f.sec.classConst then " const" else "")).toList = b ++ [')']) ∨
        (∃ b, (a ++ ")" ++ (if f.sec.classConst then " const" else "")).toList = b ++ ')' :: ' ' :: kwConst) := by
      intro a
      cases f.sec.classConst with
      | false =>
        left
        simp only [Bool.false_eq_true, if_false, String.append_empty]
        exact ⟨a.toList, by rw [String.toList_append, e]⟩
      | true =>
        right
        simp only [if_true]
        exact ⟨a.toList, by rw [String.toList_append, String.toList_append, e, e2]; simp⟩
    unfold mockSignature
    cases f.sec.cls with
    | none => obtain ⟨a, ha⟩ := hbase ""; simp only; rw [ha]; exact hend a
    | some k => obtain ⟨a, ha⟩ := hbase (k ++ "::"); simp only; rw [ha]; exact hend a

/-! ## The data structure and the objects of a function -/

/-- The declaration of the data structure. -/
def dataDecl (c : Config) (f : SrcFun) : Decl :=
  if c.cpp then ⟨[], ("struct " ++ srcDataType f.sec ++ " ").toList ++ ['{'] ++ bodyText (dataLines c f) ++ ['}'] ++ [], none⟩
  else ⟨[], "typedef struct  ".toList ++ ['{'] ++ bodyText (dataLines c f) ++ ['}'] ++ (" " ++ srcDataType f.sec).toList, none⟩

theorem SrcOk.data (h : SrcOk c f) : Ident (srcDataType f.sec).toList := h.prefix.append (by decide +kernel)

theorem ident_noparen {t : String} (h : Ident t.toList) : ')' ∉ t.toList := fun hm => absurd (h.2 _ hm) (by decide)

theorem data_part (h : SrcOk c f) : PartText ("struct " ++ srcDataType f.sec ++ " ").toList := by
  have hl : Lead "struct " "struct".toList :=
    ⟨⟨[], by decide +kernel⟩, by unfold Plain; decide +kernel, by decide +kernel, by decide +kernel, by decide +kernel,
      by decide +kernel⟩
  have hp : Plain ("struct " ++ srcDataType f.sec ++ " ") := (hl.plain.append h.data.plain).append (by unfold Plain; decide +kernel)
  have hh := hl.head (rest := srcDataType f.sec ++ " ")
  rw [← sassoc] at hh
  refine ⟨hp, hh.1, opens_part hp hh.2 ?_⟩
  have h1 : ')' ∉ "struct ".toList := by decide +kernel
  have h2 : ')' ∉ " ".toList := by decide +kernel
  rw [String.toList_append, String.toList_append]
  simp only [List.mem_append, not_or]
  exact ⟨⟨h1, ident_noparen h.data⟩, h2⟩

theorem typedef_part : PartText "typedef struct  ".toList :=
  ⟨by decide +kernel, ⟨'t', "ypedef struct  ".toList, by decide +kernel, by decide, by decide⟩, by decide +kernel⟩

theorem runs_data (h : SrcOk c f) (ha : cs.all id = true) :
    Runs (st m cs is [] D) (dataText c f).toList (st m cs is [] (D ++ [dataDecl c f])) := by
  have hb := data_ok h
  have e1 : " {\n".toList = [' '] ++ ['{', '\n'] := by decide +kernel
  have e2 : "};\n".toList = ['}'] ++ [] ++ [';', '\n'] := by decide +kernel
  have e3 : "typedef struct  {\n".toList = "typedef struct  ".toList ++ ['{', '\n'] := by decide +kernel
  have e4 : "} ".toList = ['}'] ++ " ".toList := by decide +kernel
  have e5 : ";\n".toList = [';', '\n'] := by decide +kernel
  have e6 : " ".toList = [' '] := by decide +kernel
  have hn : ∀ D', Runs (st m cs is [] D') "\n".toList (st m cs is [] D') := fun D' => runs_newline (st_top m cs is [] D')
  unfold dataText dataDecl
  cases hc : c.cpp with
  | true =>
    simp only [if_true]
    refine runs_str ?_ (hn _)
    have := runs_struct (m := m) (cs := cs) (is := is) (S := []) (D := D) (data_part h) hb (back := []) (by simp) (by simp) ha
    have e : ("struct " ++ srcDataType f.sec ++ " {\n" ++ linesText 0 (dataLines c f) ++ "};\n").toList =
        ("struct " ++ srcDataType f.sec ++ " ").toList ++ ['{', '\n'] ++ (linesText 0 (dataLines c f)).toList ++
          (['}'] ++ [] ++ [';', '\n']) := by
      simp only [String.toList_append, e1, e2, e6, List.append_assoc]
    rw [e]
    exact this
  | false =>
    simp only [Bool.false_eq_true, if_false]
    refine runs_str ?_ (hn _)
    have hpl : Plain (" " ++ srcDataType f.sec) := Plain.append (by unfold Plain; decide +kernel) h.data.plain
    have := runs_struct (m := m) (cs := cs) (is := is) (S := []) (D := D) typedef_part hb (back := (" " ++ srcDataType f.sec).toList)
      hpl (by
        intro x hx
        rw [String.toList_append, last_append h.data.1] at hx
        exact ident_blank (h.data.2 x (List.mem_of_getLast? hx))) ha
    have e : ("typedef struct  {\n" ++ linesText 0 (dataLines c f) ++ ("} " ++ srcDataType f.sec ++ ";\n")).toList =
        "typedef struct  ".toList ++ ['{', '\n'] ++ (linesText 0 (dataLines c f)).toList ++
          (['}'] ++ (" " ++ srcDataType f.sec).toList ++ [';', '\n']) := by
      simp only [String.toList_append, e3, e4, e5, List.append_assoc]
    rw [e]
    exact this

/-- The declarations of the static objects of a function. -/
def objectDecls (c : Config) (f : SrcFun) : List Decl :=
  [⟨[], ("static void " ++ commonName f.sec ++ "(" ++ expectOutputParams c f.sec ++ ")").toList, none⟩,
   ⟨[], (if c.cpp then "static MockedCppFunction<" ++ srcDataType f.sec ++ "> mocked_" ++ f.sec.name
         else "static MockedFunction mocked_" ++ f.sec.name).toList, none⟩] ++
  (if f.sec.hasReturn then
    [⟨[], (if c.cpp then ("static " ++ f.result.raw ++ " dummyRes_" ++ f.sec.name ++ f.sec.retExtra.text ++ "{}").toList
           else ("static " ++ f.result.raw ++ " dummyRes_" ++ f.sec.name ++ f.sec.retExtra.text).toList), none⟩]
   else [])

theorem opens_part' {a w : List Char} (h1 : ∀ c ∈ a ++ ' ' :: w, plainChar c = true)
    (h2 : (words (a ++ ' ' :: w)).head? ≠ some kwNamespace) (hf : ∃ c r, a ++ ' ' :: w = c :: r ∧ blank c = false ∧ c ≠ '#')
    (hw : ∀ c ∈ w, identChar c = true) (h0 : w ≠ []) (hk : w ≠ kwConst) : opens (a ++ ' ' :: w) = .part := by
  have hb : ∀ c ∈ w, blank c = false := fun c hc => ident_blank (hw c hc)
  have hl : (a ++ ' ' :: w).getLast? = w.getLast? := by
    have : a ++ ' ' :: w = (a ++ [' ']) ++ w := by simp
    rw [this, last_append h0]
  obtain ⟨x, r, e, hx, _⟩ := hf
  have ht : trim (a ++ ' ' :: w) = a ++ ' ' :: w :=
    trim_id (by rw [e]; simp [hx]) (by rw [hl]; intro y hy; exact hb y (List.mem_of_getLast? hy))
  unfold opens
  rw [if_neg (plain_noC h1), if_neg h2, if_neg, ]
  rintro (h | ⟨h, _⟩)
  · rw [ht, hl] at h
    exact absurd (hw _ (List.mem_of_getLast? h)) (by decide)
  · rw [words_last (by decide) h0 hb] at h
    exact hk (by simpa using h)

theorem dummy_name (h : SrcOk c f) : Ident ("dummyRes_" ++ f.sec.name).toList := Ident.after (by decide +kernel) h.base.name

theorem dummy_part (h : SrcOk c f) (hc : c.cpp = true) (hr : f.sec.hasReturn = true) :
    PartText ("static " ++ f.result.raw ++ " dummyRes_" ++ f.sec.name ++ f.sec.retExtra.text).toList := by
  obtain ⟨h1, h2⟩ := h.plainResult hc hr
  have hn := dummy_name h
  have e6 : " ".toList = [' '] := by decide +kernel
  have e : "static " ++ f.result.raw ++ " dummyRes_" ++ f.sec.name ++ f.sec.retExtra.text =
      "static " ++ (f.result.raw ++ " " ++ ("dummyRes_" ++ f.sec.name)) := by
    have e1 : " dummyRes_" = " " ++ "dummyRes_" := by decide +kernel
    rw [h1, String.append_empty, e1]; simp only [sassoc]
  have hp : Plain ("static " ++ (f.result.raw ++ " " ++ ("dummyRes_" ++ f.sec.name))) :=
    lead_static.plain.append ((Plain.append h2.plain (by unfold Plain; decide +kernel)).append hn.plain)
  have hh := lead_static.head (rest := f.result.raw ++ " " ++ ("dummyRes_" ++ f.sec.name))
  have e2 : ("static " ++ (f.result.raw ++ " " ++ ("dummyRes_" ++ f.sec.name))).toList =
      ("static " ++ f.result.raw).toList ++ ' ' :: ("dummyRes_" ++ f.sec.name).toList := by
    rw [ta "static ", ta _ ("dummyRes_" ++ f.sec.name), ta f.result.raw, e6, ta "static " f.result.raw]
    simp
  rw [e]
  refine ⟨hp, hh.1, ?_⟩
  unfold Plain at hp
  rw [e2] at hp hh ⊢
  refine opens_part' hp hh.2 hh.1 hn.2 hn.1 ?_
  have hd : ∃ t, "dummyRes_".toList = 'd' :: t := ⟨"ummyRes_".toList, by decide +kernel⟩
  obtain ⟨t, ht⟩ := hd
  have hk : ∃ t, kwConst = 'c' :: t := ⟨"onst".toList, by decide +kernel⟩
  obtain ⟨t', ht'⟩ := hk
  rw [String.toList_append, ht, ht']
  simp

theorem dummy_decl (h : SrcOk c f) (hr : f.sec.hasReturn = true) :
    DeclText ("static " ++ f.result.raw ++ " dummyRes_" ++ f.sec.name ++ f.sec.retExtra.text).toList := by
  have hn := dummy_name h
  have hk := h.result hr
  have e : "static " ++ f.result.raw ++ " dummyRes_" ++ f.sec.name ++ f.sec.retExtra.text =
      "static " ++ (f.result.raw ++ " " ++ ("dummyRes_" ++ f.sec.name) ++ f.sec.retExtra.text) := by
    have e1 : " dummyRes_" = " " ++ "dummyRes_" := by decide +kernel
    rw [e1]; simp only [sassoc]
  rw [e]
  unfold ResultOk at hk
  cases hm : f.result with
  | regular t =>
    rw [hm] at hk
    have ht := hk.1 _ hn
    refine lead_static.decl ht.plain ⟨"", t ++ " " ++ ("dummyRes_" ++ f.sec.name) ++ f.sec.retExtra.text, ?_, ht.inert.nonempty, ht.last⟩
    rw [String.empty_append]; rfl
  | reference raw deref =>
    rw [hm] at hk
    obtain ⟨h1, _, h2⟩ := hk
    rw [h2, String.append_empty]
    refine lead_static.decl ((Plain.append h1.plain (by unfold Plain; decide +kernel)).append hn.plain)
      ⟨_, _, rfl, hn.1, fun x hx => ident_blank (hn.2 x (List.mem_of_getLast? hx))⟩

theorem object_decl (h : SrcOk c f) :
    DeclText ("static MockedCppFunction<" ++ srcDataType f.sec ++ "> mocked_" ++ f.sec.name).toList ∧
    DeclText ("static MockedFunction mocked_" ++ f.sec.name).toList := by
  have l1 : Lead "static MockedCppFunction<" "static".toList :=
    ⟨⟨"MockedCppFunction<".toList, by decide +kernel⟩, by unfold Plain; decide +kernel, by decide +kernel, by decide +kernel,
      by decide +kernel, by decide +kernel⟩
  have l2 : Lead "static MockedFunction mocked_" "static".toList :=
    ⟨⟨"MockedFunction mocked_".toList, by decide +kernel⟩, by unfold Plain; decide +kernel, by decide +kernel, by decide +kernel,
      by decide +kernel, by decide +kernel⟩
  have hl : ∀ x ∈ f.sec.name.toList.getLast?, blank x = false :=
    fun x hx => ident_blank (h.base.name.2 x (List.mem_of_getLast? hx))
  constructor
  · rw [sassoc "static MockedCppFunction<", sassoc "static MockedCppFunction<"]
    exact l1.decl ((h.data.plain.append (by unfold Plain; decide +kernel)).append h.base.name.plain) ⟨_, _, rfl, h.base.name.1, hl⟩
  · exact l2.decl h.base.name.plain ⟨"", _, (String.empty_append).symm, h.base.name.1, hl⟩

theorem runs_objects (h : SrcOk c f) (ha : cs.all id = true) :
    Runs (st m cs is [] D) (objectsText c f).toList (st m cs is [] (D ++ objectDecls c f)) := by
  have hn : ∀ D', Runs (st m cs is [] D') "\n".toList (st m cs is [] D') := fun D' => runs_newline (st_top m cs is [] D')
  have h1 := runs_decl (m := m) (is := is) (S := []) (D := D) (expect_sigs h.base).2.2.decl ha
  have h2 : ∀ D', Runs (st m cs is [] D')
      (if c.cpp then "static MockedCppFunction<" ++ srcDataType f.sec ++ "> mocked_" ++ f.sec.name ++ ";\n"
       else "static MockedFunction mocked_" ++ f.sec.name ++ ";\n").toList
      (st m cs is [] (D' ++ [⟨[], (if c.cpp then "static MockedCppFunction<" ++ srcDataType f.sec ++ "> mocked_" ++ f.sec.name
         else "static MockedFunction mocked_" ++ f.sec.name).toList, none⟩])) := by
    intro D'
    cases c.cpp with
    | true => exact runs_decl (object_decl h).1 ha
    | false => exact runs_decl (object_decl h).2 ha
  have h3 : ∀ D', Runs (st m cs is [] D')
      (if f.sec.hasReturn then
        (if c.cpp then "static " ++ f.result.raw ++ " dummyRes_" ++ f.sec.name ++ f.sec.retExtra.text ++ "{};\n"
         else "static " ++ f.result.raw ++ " dummyRes_" ++ f.sec.name ++ f.sec.retExtra.text ++ ";\n")
       else "").toList
      (st m cs is [] (D' ++ (if f.sec.hasReturn then
        [⟨[], (if c.cpp then ("static " ++ f.result.raw ++ " dummyRes_" ++ f.sec.name ++ f.sec.retExtra.text ++ "{}").toList
               else ("static " ++ f.result.raw ++ " dummyRes_" ++ f.sec.name ++ f.sec.retExtra.text).toList), none⟩]
        else []))) := by
    intro D'
    cases hr : f.sec.hasReturn with
    | false => simpa using runs_empty _
    | true =>
      simp only [if_true]
      cases hc : c.cpp with
      | false => exact runs_decl (dummy_decl h hr) ha
      | true =>
        simp only [if_true]
        have := runs_init (m := m) (cs := cs) (is := is) (S := []) (D := D') (dummy_part h hc hr) (inner := []) rfl ha
        have e1 : "{};\n".toList = ['{'] ++ [] ++ ['}', ';', '\n'] := by decide +kernel
        have e2 : "{}".toList = ['{'] ++ [] ++ ['}'] := by decide +kernel
        rw [ta _ "{};\n", ta _ "{}", e1, e2]
        simpa [List.append_assoc] using this
  unfold objectsText objectDecls
  have := runs_str (runs_str (runs_str h1 (h2 _)) (h3 _)) (hn _)
  simpa [List.append_assoc] using this

/-! ## The definitions of a function -/

/-- The definitions of the mock, the Expect functions and the common function. -/
def definitionDecls (c : Config) (f : SrcFun) : List Decl :=
  [⟨if c.cpp then spaces f.sec.ns else [], (mockSignature f.sec).toList, some (bodyText (mockLines c f))⟩] ++
  [⟨expectScopes c f.sec, ("void " ++ expectName c f.sec ++ "(" ++ expectParams c f.sec ++ ")").toList,
    some (bodyText [line (commonName f.sec ++ "(" ++ expectCall f.sec ++ ")")])⟩] ++
  (if f.sec.outs.isEmpty then []
   else [⟨expectScopes c f.sec, ("void " ++ expectOutputName c f.sec ++ "(" ++ expectOutputParams c f.sec ++ ")").toList,
    some (bodyText [line (commonName f.sec ++ "(" ++ expectOutputCall f.sec ++ ")")])⟩]) ++
  [⟨[], ("static void " ++ commonName f.sec ++ "(" ++ expectOutputParams c f.sec ++ ")").toList, some (bodyText (commonLines f))⟩]

theorem runs_mockText (h : SrcOk c f) (ha : cs.all id = true) :
    Runs (st m cs is [] D) (mockText c f).toList
      (st m cs is [] (D ++ [⟨if c.cpp then spaces f.sec.ns else [], (mockSignature f.sec).toList, some (bodyText (mockLines c f))⟩])) := by
  have hs := mock_sig h
  have hb := mock_ok h
  unfold mockText
  cases hc : c.cpp with
  | false =>
    simp only [Bool.false_eq_true, if_false]
    have h1 := runs_definition (m := m) (is := is) (S := []) (D := D) hs hb ha
    have h2 := runs_newline (st_top m cs is [] (D ++ [⟨[], (mockSignature f.sec).toList, some (bodyText (mockLines c f))⟩]))
    rw [String.empty_append, String.append_empty]
    exact runs_str h1 h2
  | true =>
    simp only [if_true]
    have h1 := runs_begin (m := m) (is := is) (S := []) (D := D) (h.base.spaces hc).1 ha
    have h2 := runs_newline (st_top m cs is ([] ++ spaces f.sec.ns) D)
    have h3 := runs_definition (m := m) (is := is) (S := [] ++ spaces f.sec.ns) (D := D) hs hb ha
    have h4 := runs_newline (st_top m cs is ([] ++ spaces f.sec.ns)
      (D ++ [⟨[] ++ spaces f.sec.ns, (mockSignature f.sec).toList, some (bodyText (mockLines c f))⟩]))
    have h5 := runs_end (m := m) (is := is) (S := [])
      (D := D ++ [⟨[] ++ spaces f.sec.ns, (mockSignature f.sec).toList, some (bodyText (mockLines c f))⟩])
      (h.base.spaces hc).1 ha (spaces f.sec.ns) (by simp)
    have h6 := runs_newline (st_top m cs is []
      (D ++ [⟨[] ++ spaces f.sec.ns, (mockSignature f.sec).toList, some (bodyText (mockLines c f))⟩]))
    exact runs_str (runs_str (runs_str h1 h2) (runs_str h3 h4)) (runs_str h5 h6)

theorem runs_expectText (h : SrcOk c f) (ha : cs.all id = true) :
    Runs (st m cs is [] D) (expectText c f.sec).toList
      (st m cs is [] (D ++ ([⟨expectScopes c f.sec, ("void " ++ expectName c f.sec ++ "(" ++ expectParams c f.sec ++ ")").toList,
          some (bodyText [line (commonName f.sec ++ "(" ++ expectCall f.sec ++ ")")])⟩] ++
        (if f.sec.outs.isEmpty then []
         else [⟨expectScopes c f.sec, ("void " ++ expectOutputName c f.sec ++ "(" ++ expectOutputParams c f.sec ++ ")").toList,
          some (bodyText [line (commonName f.sec ++ "(" ++ expectOutputCall f.sec ++ ")")])⟩])))) := by
  obtain ⟨s1, s2, _⟩ := expect_sigs h.base
  have h1 := runs_expectBegin (m := m) (is := is) (S := []) (D := D) h.base ha
  rw [List.nil_append] at h1
  have h2 := runs_definition (m := m) (is := is) (S := expectScopes c f.sec) (D := D) s1 (expect_ok h) ha
  have hn : ∀ D', Runs (st m cs is (expectScopes c f.sec) D') "\n".toList (st m cs is (expectScopes c f.sec) D') :=
    fun D' => runs_newline (st_top m cs is _ D')
  have h3 : ∀ D', Runs (st m cs is (expectScopes c f.sec) D')
      (if f.sec.outs.isEmpty then ""
       else definition ("void " ++ expectOutputName c f.sec ++ "(" ++ expectOutputParams c f.sec ++ ")")
        [line (commonName f.sec ++ "(" ++ expectOutputCall f.sec ++ ")")]).toList
      (st m cs is (expectScopes c f.sec) (D' ++ (if f.sec.outs.isEmpty then []
         else [⟨expectScopes c f.sec, ("void " ++ expectOutputName c f.sec ++ "(" ++ expectOutputParams c f.sec ++ ")").toList,
          some (bodyText [line (commonName f.sec ++ "(" ++ expectOutputCall f.sec ++ ")")])⟩]))) := by
    intro D'
    cases f.sec.outs.isEmpty with
    | true => simpa using runs_empty _
    | false => exact runs_definition s2 (expectOutput_ok h) ha
  have h4 : ∀ D', Runs (st m cs is (expectScopes c f.sec) D') (expectEnd c f.sec ++ "\n").toList (st m cs is [] D') := by
    intro D'
    have := runs_expectEnd (m := m) (is := is) (S := []) (D := D') h.base ha
    rw [List.nil_append] at this
    exact this
  unfold expectText
  have := runs_str (runs_str (runs_str (runs_str h1 (runs_str h2 (hn _))) (h3 _)) (hn _)) (h4 _)
  simpa only [List.append_assoc] using this

/-- The declarations of a function. -/
def sourceDecls (c : Config) (f : SrcFun) : List Decl := [dataDecl c f] ++ objectDecls c f ++ definitionDecls c f

theorem runs_sourceFun (h : SrcOk c f) (ha : cs.all id = true) :
    Runs (st m cs is [] D) (sourceFun c f).toList (st m cs is [] (D ++ sourceDecls c f)) := by
  have hn : ∀ D', Runs (st m cs is [] D') "\n".toList (st m cs is [] D') := fun D' => runs_newline (st_top m cs is [] D')
  have h1 := Runs.blank (generate_scans h.base.comment) (st_top m cs is [] D) (fun _ hl => two_blank hl)
  have h2 := runs_data (m := m) (is := is) (D := D) h ha
  have h3 := runs_objects (m := m) (is := is) (D := D ++ [dataDecl c f]) h ha
  have h4 := runs_mockText (m := m) (is := is) (D := D ++ [dataDecl c f] ++ objectDecls c f) h ha
  have h5 := fun D' => runs_expectText (m := m) (is := is) (D := D') h ha
  have h6 := fun D' => runs_definition (m := m) (is := is) (S := []) (D := D') (expect_sigs h.base).2.2 (common_ok h) ha
  have h7 := fun D' => Runs.blank (endGenerate_scans h.base.comment) (st_top m cs is [] D') (fun _ hl => one_blank hl)
  have := runs_str (runs_str (runs_str (runs_str (runs_str (runs_str (runs_str h1 (hn _)) h2) h3) h4) (h5 _))
    (runs_str (h6 _) (hn _))) (runs_str (h7 _) (hn _))
  unfold sourceFun sourceDecls definitionDecls
  simpa only [List.append_assoc] using this

/-! ## The comparators -/

/-- The definitions of a comparator. -/
def cmpDefs (k : SrcCmp) : List Decl :=
  [⟨[], (cmpSignature k.cmp.name).toList, some (bodyText (cmpLines k))⟩,
   ⟨[], (cmpDerefSignature k.cmp.name).toList, some (bodyText (cmpDerefLines k))⟩]

theorem runs_sourceCmp {k : SrcCmp} (h : CmpOk k) (ha : cs.all id = true) :
    Runs (st m cs is [] D) (sourceCmp k).toList (st m cs is [] (D ++ cmpDefs k)) := by
  have hn : ∀ D', Runs (st m cs is [] D') "\n".toList (st m cs is [] D') := fun D' => runs_newline (st_top m cs is [] D')
  have h1 := runs_definition (m := m) (is := is) (S := []) (D := D) (cmp_sig h.name).1 (cmp_ok h) ha
  have h2 := fun D' => runs_definition (m := m) (is := is) (S := []) (D := D') (cmp_sig h.name).2 (cmpDeref_ok h) ha
  have := runs_str (runs_str h1 (hn _)) (runs_str (h2 _) (hn _))
  unfold sourceCmp cmpDefs
  simpa [List.append_assoc] using this

/-! ## The beginning and the end -/

theorem static_sigs : SigText "static void easyMock_resetAllMocksInThisHeader()".toList ∧
    SigText "static void easyMock_initAllMocksInThisHeader()".toList ∧
    SigText "static easyMock_bool easyMock_verifyAllMocksInThisHeader()".toList ∧
    SigText "static void __attribute__((constructor(102))) easyMock_register_this_header()".toList ∧
    SigText "static void __attribute__((destructor)) easyMock_unregister_this_header()".toList := by
  have key : ∀ t : String, (∃ r : String, t = "static " ++ r ++ ")" ∧ Plain r) → SigText t.toList := by
    rintro t ⟨r, rfl, hr⟩
    exact lead_static.sig hr
  refine ⟨key _ ⟨"void easyMock_resetAllMocksInThisHeader(", ?_, ?_⟩, key _ ⟨"void easyMock_initAllMocksInThisHeader(", ?_, ?_⟩,
    key _ ⟨"easyMock_bool easyMock_verifyAllMocksInThisHeader(", ?_, ?_⟩,
    key _ ⟨"void __attribute__((constructor(102))) easyMock_register_this_header(", ?_, ?_⟩,
    key _ ⟨"void __attribute__((destructor)) easyMock_unregister_this_header(", ?_, ?_⟩⟩ <;>
    first | decide +kernel | (unfold Plain; decide +kernel)

theorem register_ok : BodyOk [line "easyMock_initAllMocksInThisHeader()", line "easyMock_registerMockedFile(&mockedRegister)"] :=
  bodyOk _ (by each_line) rfl

theorem unregister_ok : BodyOk [line "easyMock_resetAllMocksInThisHeader()", line "easyMock_unregisterMockedFile(&mockedRegister)"] :=
  bodyOk _ (by each_line) rfl

/-- The declarations at the end of the source. -/
def backDecls (path : String) (fs : List SrcFun) : List Decl :=
  [⟨[], "static void easyMock_resetAllMocksInThisHeader()".toList, some (bodyText (resetLines fs))⟩] ++
  [⟨[], "static void easyMock_initAllMocksInThisHeader()".toList, some (bodyText (initLines fs))⟩] ++
  [⟨[], "static easyMock_bool easyMock_verifyAllMocksInThisHeader()".toList, some (bodyText (verifyLines fs))⟩] ++
  [⟨[], ("static easyMock_mockedFileRegister_t mockedRegister = {\"" ++ fileName path ++
    "\", &easyMock_resetAllMocksInThisHeader, &easyMock_verifyAllMocksInThisHeader }").toList, none⟩] ++
  [⟨[], "static void __attribute__((constructor(102))) easyMock_register_this_header()".toList,
    some (bodyText [line "easyMock_initAllMocksInThisHeader()", line "easyMock_registerMockedFile(&mockedRegister)"])⟩] ++
  [⟨[], "static void __attribute__((destructor)) easyMock_unregister_this_header()".toList,
    some (bodyText [line "easyMock_resetAllMocksInThisHeader()", line "easyMock_unregisterMockedFile(&mockedRegister)"])⟩]

theorem registered_part : PartText "static easyMock_mockedFileRegister_t mockedRegister = ".toList :=
  ⟨by decide +kernel, ⟨'s', "tatic easyMock_mockedFileRegister_t mockedRegister = ".toList, by decide +kernel, by decide, by decide⟩,
    by decide +kernel⟩

theorem runs_registered {path : String} (h : NameOk path) (ha : cs.all id = true) :
    Runs (st m cs is [] D) ("static easyMock_mockedFileRegister_t mockedRegister = {\"" ++ fileName path ++
      "\", &easyMock_resetAllMocksInThisHeader, &easyMock_verifyAllMocksInThisHeader };\n").toList
      (st m cs is [] (D ++ [⟨[], ("static easyMock_mockedFileRegister_t mockedRegister = {\"" ++ fileName path ++
        "\", &easyMock_resetAllMocksInThisHeader, &easyMock_verifyAllMocksInThisHeader }").toList, none⟩])) := by
  have hq := quoted_closed (t := (fileName path).toList) (fun x hx => ⟨(h.chars x hx).1, (h.chars x hx).2.2.1, (h.chars x hx).2.2.2⟩)
  have hr : Closed ", &easyMock_resetAllMocksInThisHeader, &easyMock_verifyAllMocksInThisHeader ".toList := by
    unfold Closed; decide +kernel
  have := runs_init (m := m) (cs := cs) (is := is) (S := []) (D := D) registered_part (hq.append hr) ha
  have e1 : "static easyMock_mockedFileRegister_t mockedRegister = {\"".toList =
      "static easyMock_mockedFileRegister_t mockedRegister = ".toList ++ ['{', '"'] := by decide +kernel
  have e2 : "\", &easyMock_resetAllMocksInThisHeader, &easyMock_verifyAllMocksInThisHeader };\n".toList =
      ['"'] ++ ", &easyMock_resetAllMocksInThisHeader, &easyMock_verifyAllMocksInThisHeader ".toList ++ ['}', ';', '\n'] := by
    decide +kernel
  have e3 : "\", &easyMock_resetAllMocksInThisHeader, &easyMock_verifyAllMocksInThisHeader }".toList =
      ['"'] ++ ", &easyMock_resetAllMocksInThisHeader, &easyMock_verifyAllMocksInThisHeader ".toList ++ ['}'] := by
    decide +kernel
  rw [String.toList_append, String.toList_append, String.toList_append, String.toList_append, e1, e2, e3]
  simp only [List.append_assoc, List.cons_append, List.nil_append] at this ⊢
  exact this

theorem runs_back {path : String} {fs : List SrcFun} (hp : NameOk path) (h : ∀ f ∈ fs, SrcOk c f) (ha : cs.all id = true) :
    Runs (st m cs is [] D) (sourceBack path fs).toList (st m cs is [] (D ++ backDecls path fs)) := by
  obtain ⟨s1, s2, s3, s4, s5⟩ := static_sigs
  have hn : ∀ D', Runs (st m cs is [] D') "\n".toList (st m cs is [] D') := fun D' => runs_newline (st_top m cs is [] D')
  have h1 := fun D' => runs_definition (m := m) (is := is) (S := []) (D := D') s1 (reset_ok h) ha
  have h2 := fun D' => runs_definition (m := m) (is := is) (S := []) (D := D') s2 (init_ok h) ha
  have h3 := fun D' => runs_definition (m := m) (is := is) (S := []) (D := D') s3 (verify_ok h) ha
  have h4 := fun D' => runs_registered (m := m) (is := is) (D := D') hp ha
  have h5 := fun D' => runs_definition (m := m) (is := is) (S := []) (D := D') s4 register_ok ha
  have h6 := fun D' => runs_definition (m := m) (is := is) (S := []) (D := D') s5 unregister_ok ha
  have := runs_str (runs_str (runs_str (runs_str (runs_str (runs_str (hn D) (h1 _)) (h2 _)) (runs_str (h3 _) (hn _)))
    (runs_str (h4 _) (hn _))) (runs_str (h5 _) (hn _))) (h6 _)
  unfold sourceBack backDecls
  simpa only [List.append_assoc] using this

/-- The headers which every source includes. -/
def systemHeaders (c : Config) : List (List Char) :=
  ["<easyMock_framework.h>".toList, "<easyMock_glueStdlib.h>".toList, "<MockedFunction.h>".toList, "<cstring.h>".toList] ++
  (if c.cpp then ["<sstream>".toList, "<tuple>".toList] else [])

/-- The prototypes at the beginning of the source. -/
def frontDecls : List Decl :=
  [⟨[], "static void easyMock_initAllMocksInThisHeader()".toList, none⟩] ++
  [⟨[], "static void easyMock_resetAllMocksInThisHeader()".toList, none⟩] ++
  [⟨[], "static easyMock_bool easyMock_verifyAllMocksInThisHeader()".toList, none⟩]

theorem runs_sys (w n : String) (h1 : w.toList = '#' :: (kwInclude ++ ' ' :: '<' :: n.toList.tail) ++ ['\n'] := by decide +kernel)
    (h2 : n.toList = '<' :: n.toList.tail := by decide +kernel) (h3 : '\\' ∉ w.toList := by decide +kernel)
    (h4 : w.toList.foldl Scan.step ⟨.code, [], []⟩ = ⟨.code, [], ['#' :: (kwInclude ++ ' ' :: '<' :: n.toList.tail)]⟩ := by decide +kernel)
    (h5 : trim n.toList = n.toList := by decide +kernel) (ha : cs.all id = true) :
    Runs (st m cs is S D) w.toList (st m cs (is ++ [n.toList]) S D) := by
  have := runs_system (m := m) (cs := cs) (is := is) (S := S) (D := D) n.toList.tail h1 (Scans.of h3 h4) (by rw [← h2, h5])
  rw [if_pos ha, ← h2] at this
  exact this

theorem runs_front {path : String} (hp : NameOk path) (ha : cs.all id = true) :
    Runs (st m cs is [] D) (sourceFront c path).toList
      (st m cs (is ++ systemHeaders c ++ [quoted (includedHeader path)]) [] (D ++ frontDecls)) := by
  obtain ⟨s1, s2, s3, _⟩ := static_sigs
  have hn : ∀ is' D', Runs (st m cs is' [] D') "\n".toList (st m cs is' [] D') := fun is' D' => runs_newline (st_top m cs is' [] D')
  have i1 := fun is' => runs_sys (m := m) (is := is') (S := []) (D := D) "#include <easyMock_framework.h>\n" "<easyMock_framework.h>" (ha := ha)
  have i2 := fun is' => runs_sys (m := m) (is := is') (S := []) (D := D) "#include <easyMock_glueStdlib.h>\n" "<easyMock_glueStdlib.h>" (ha := ha)
  have i3 := fun is' => runs_sys (m := m) (is := is') (S := []) (D := D) "#include <MockedFunction.h>\n" "<MockedFunction.h>" (ha := ha)
  have i4 := fun is' => runs_sys (m := m) (is := is') (S := []) (D := D) "#include <cstring.h>\n" "<cstring.h>" (ha := ha)
  have i5 : ∀ is', Runs (st m cs is' [] D) (if c.cpp then "#include <sstream>\n" ++ "#include <tuple>\n" else "").toList
      (st m cs (is' ++ (if c.cpp then ["<sstream>".toList, "<tuple>".toList] else [])) [] D) := by
    intro is'
    cases c.cpp with
    | false => simpa using runs_empty _
    | true =>
      have a1 := runs_sys (m := m) (is := is') (S := []) (D := D) "#include <sstream>\n" "<sstream>" (ha := ha)
      have a2 := fun is' => runs_sys (m := m) (is := is') (S := []) (D := D) "#include <tuple>\n" "<tuple>" (ha := ha)
      have := runs_str a1 (a2 _)
      rw [List.append_assoc] at this
      exact this
  have hq : ∀ x ∈ (includedHeader path).toList, x ≠ '"' ∧ x ≠ '\\' ∧ x ≠ '\n' := by
    intro x hx
    unfold includedHeader at hx
    rw [String.toList_append, List.mem_append] at hx
    rcases hx with hx | hx
    · have : ∀ y ∈ "easyMock_".toList, y ≠ '"' ∧ y ≠ '\\' ∧ y ≠ '\n' := by decide +kernel
      exact this x hx
    · exact ⟨(hp.chars x hx).1, (hp.chars x hx).2.2⟩
  have i6 := fun is' => runs_quote (m := m) (is := is') (S := []) (D := D) hq ha
  have d1 := fun is' D' => runs_decl (m := m) (is := is') (S := []) (D := D') s2.decl ha
  have d2 := fun is' D' => runs_decl (m := m) (is := is') (S := []) (D := D') s1.decl ha
  have d3 := fun is' D' => runs_decl (m := m) (is := is') (S := []) (D := D') s3.decl ha
  have := runs_str (runs_str (runs_str (runs_str (runs_str (runs_str (runs_str (runs_str (runs_str (runs_str (runs_str (i1 is) (i2 _)) (i3 _)) (i4 _)) (i5 _)) (hn _ _)) (i6 _)) (hn _ _)) (d1 _ _)) (d2 _ _)) (d3 _ _)) (hn _ _)
  unfold sourceFront systemHeaders frontDecls
  simpa only [List.append_assoc, List.cons_append, List.nil_append] using this

/-! ## The whole source -/

/-- What a source can be made of. -/
structure SourceOk (c : Config) (path : String) (cmps : List SrcCmp) (fs : List SrcFun) : Prop where
  name : NameOk path
  cmps : ∀ k ∈ cmps, CmpOk k
  funs : ∀ f ∈ fs, SrcOk c f

theorem source_runs {path : String} {cmps : List SrcCmp} {fs : List SrcFun} (h : SourceOk c path cmps fs) :
    Runs (st m [] [] [] []) (sourceText c path cmps fs).toList
      (st m [] (systemHeaders c ++ [quoted (includedHeader path)]) []
        (frontDecls ++ (cmps.map cmpDefs).flatten ++ (fs.map (sourceDecls c)).flatten ++ backDecls path fs)) := by
  have ha : ([] : List Bool).all id = true := rfl
  have h1 := runs_licence (m := m) (cs := []) (is := []) (S := []) (D := [])
  have h2 := runs_front (m := m) (is := []) (D := []) (c := c) h.name ha
  have h3 := fun is' D' => runs_join (m := m) (cs := []) (is := is') (S := []) sourceCmp cmpDefs cmps D'
    (fun k hk _ => runs_sourceCmp (h.cmps k hk) ha)
  have h4 := fun is' D' => runs_join (m := m) (cs := []) (is := is') (S := []) (sourceFun c) (sourceDecls c) fs D'
    (fun f hf _ => runs_sourceFun (h.funs f hf) ha)
  have h5 := fun is' D' => runs_back (m := m) (is := is') (D := D') h.name h.funs ha
  have := runs_str (runs_str (runs_str (runs_str h1 h2) (h3 _ _)) (h4 _ _)) (h5 _ _)
  unfold sourceText
  simpa only [List.nil_append] using this

end EasyMock.CFile
