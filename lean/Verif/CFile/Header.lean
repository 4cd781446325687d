import Verif.CFile.Model
import Verif.CFile.Frame

/-! # CFile: the generated header, read -/

namespace EasyMock.CFile

open EasyMock.Gen

/-- The file between declarations. -/
abbrev st (m : List (List Char)) (cs : List Bool) (is : List (List Char)) (S : List Scope) (D : List Decl) : File :=
  ⟨m, cs, is, ⟨S, .top, none, false, [], D⟩⟩

theorem st_top (m : List (List Char)) (cs : List Bool) (is : List (List Char)) (S : List Scope) (D : List Decl) :
    AtTop (st m cs is S D).reader := ⟨rfl, rfl, rfl, rfl⟩

theorem runs_str {f f' f'' : File} {a b : String} (ha : Runs f a.toList f') (hb : Runs f' b.toList f'') :
    Runs f (a ++ b).toList f'' := by rw [String.toList_append]; exact ha.append hb

theorem quiet_str {a b : String} (ha : Quiet a.toList) (hb : Quiet b.toList) : Quiet (a ++ b).toList := by
  rw [String.toList_append]; exact ha.append hb

theorem sassoc (a b c : String) : a ++ b ++ c = a ++ (b ++ c) := String.append_assoc

theorem runs_empty (f : File) : Runs f "".toList f := Runs.nil f

theorem quiet_empty : Quiet "".toList := Quiet.nil

theorem newline_scans : Scans "\n".toList [[]] := Scans.of (by decide +kernel) (by decide +kernel)

theorem runs_newline {f : File} (hr : AtTop f.reader) : Runs f "\n".toList f :=
  Runs.blank newline_scans hr (by simp)

theorem quiet_newline : Quiet "\n".toList := Quiet.blank newline_scans (by simp)

/-! ## Comments -/

theorem NoClose.before {a b : List Char} (ha : '*' ∉ a) (hb : NoClose b) : NoClose (a ++ b) := by
  intro x y e
  rcases List.append_eq_append_iff.mp e with ⟨z, hz, hb'⟩ | ⟨z, hz, hy⟩
  · exact hb z y hb'
  · cases z with
    | nil => exact hb [] y (by simpa using hy.symm)
    | cons c z =>
      have : c = '*' := by simp only [List.cons_append, List.cons.injEq] at hy; exact hy.1.symm
      exact ha (by rw [hz, this]; simp)

theorem NoClose.after {a b : List Char} (ha : NoClose a) (hb : '/' ∉ b) : NoClose (a ++ b) := by
  intro x y e
  rcases List.append_eq_append_iff.mp e with ⟨z, hz, hb'⟩ | ⟨z, hz, hy⟩
  · exact hb (by rw [hb']; simp)
  · cases z with
    | nil => exact hb (by rw [← List.nil_append b, ← hy]; simp)
    | cons c z =>
      simp only [List.cons_append, List.cons.injEq] at hy
      cases z with
      | nil => exact hb (by rw [← List.nil_append b, ← hy.2]; simp)
      | cons d z =>
        simp only [List.cons_append, List.cons.injEq] at hy
        exact ha x z (by rw [hz, ← hy.1, ← hy.2.1])

/-- A comment with a text of its own in quotes. -/
theorem comment_scans (pre post : String) (k : List Char) (hpre : ∃ p, pre.toList = '/' :: '*' :: p ∧ '*' ∉ p ∧ '\\' ∉ p)
    (hpost : ∃ p, post.toList = p ++ ['*', '/', '\n'] ∧ '/' ∉ p ∧ '\\' ∉ p) (hk : NoClose k) (he : '\\' ∉ k) :
    Scans (pre.toList ++ k ++ post.toList) [[' ']] := by
  obtain ⟨p, e1, h1, h1'⟩ := hpre
  obtain ⟨q, e2, h2, h2'⟩ := hpost
  have := Scans.block (k := p ++ (k ++ q)) (NoClose.before h1 (hk.after h2)) (by simp [h1', h2', he])
  rw [e1, e2]
  simpa [List.append_assoc] using this

theorem one_blank {l : List Char} (hl : l ∈ [[' ']]) : ∀ c ∈ l, blank c = true := by
  simp only [List.mem_singleton] at hl
  subst hl
  decide

/-- The texts of a function in comments do not end them. -/
structure CommentOk (f : Fun) : Prop where
  sig : NoClose (mockSignature f.sec).toList
  escape : '\\' ∉ (mockSignature f.sec).toList
  origin : '\n' ∉ f.origin.toList ∧ '\\' ∉ f.origin.toList

theorem generate_scans {f : Fun} (h : CommentOk f) : Scans (generateComment f).toList [[' '], []] := by
  have h1 := comment_scans "/*------------------- GENERATING '" "' -------------------*/\n" (mockSignature f.sec).toList
    ⟨"------------------- GENERATING '".toList, by decide +kernel, by decide +kernel, by decide +kernel⟩
    ⟨"' -------------------".toList, by decide +kernel, by decide +kernel, by decide +kernel⟩ h.sig h.escape
  have h2 := Scans.toEnd (t := []) (k := " from: ".toList ++ f.origin.toList) (by simp)
    (by
      have : '\n' ∉ " from: ".toList := by decide +kernel
      simp [h.origin.1])
    (by
      have : '\\' ∉ " from: ".toList := by decide +kernel
      simp [h.origin.2])
  have e : "// from: ".toList = '/' :: '/' :: " from: ".toList := by decide +kernel
  have e3 : "\n".toList = ['\n'] := by decide +kernel
  have := h1.append h2
  unfold generateComment
  simp only [String.toList_append]
  rw [e, e3]
  simpa [List.append_assoc] using this

theorem endGenerate_scans {f : Fun} (h : CommentOk f) : Scans (endGenerateComment f ++ "\n").toList [[' ']] := by
  have h1 := comment_scans "/*----------------- END GENERATION '" "' -----------------*/\n" (mockSignature f.sec).toList
    ⟨"----------------- END GENERATION '".toList, by decide +kernel, by decide +kernel, by decide +kernel⟩
    ⟨"' -----------------".toList, by decide +kernel, by decide +kernel, by decide +kernel⟩ h.sig h.escape
  have e : "' -----------------*/\n".toList = "' -----------------*/".toList ++ "\n".toList := by decide +kernel
  unfold endGenerateComment
  simp only [String.toList_append]
  rw [e] at h1
  simpa [List.append_assoc] using h1

/-! ## Namespaces -/

/-- The scopes with these names. -/
abbrev spaces (ns : List String) : List Scope := ns.map (fun n => Scope.space n.toList)

theorem begin_text (n : String) : ("namespace " ++ n ++ "\n{\n").toList = spaceLines n.toList := by
  have e1 : "namespace ".toList = kwNamespace ++ [' '] := by decide +kernel
  have e2 : "\n{\n".toList = ['\n', '{', '\n'] := by decide +kernel
  rw [String.toList_append, String.toList_append, e1, e2]
  simp [spaceLines, spaceText]

theorem end_text (n : String) : ("} // namespace " ++ n ++ "\n").toList = endLine n.toList := by
  have e1 : "} // namespace ".toList = ['}', ' ', '/', '/', ' '] ++ kwNamespace ++ [' '] := by decide +kernel
  have e2 : "\n".toList = ['\n'] := by decide +kernel
  rw [String.toList_append, String.toList_append, e1, e2]
  simp [endLine]

variable {m is : List (List Char)} {cs : List Bool} {S : List Scope} {D : List Decl}

theorem runs_space {n : String} (hn : Ident n.toList) (ha : cs.all id = true) :
    Runs (st m cs is S D) ("namespace " ++ n ++ "\n{\n").toList (st m cs is (S ++ [.space n.toList]) D) := by
  rw [begin_text]
  exact Runs.space hn (st_top m cs is S D) ha

theorem runs_leave {n : String} {s : Scope} (hn : Ident n.toList) (ha : cs.all id = true) :
    Runs (st m cs is (S ++ [s]) D) ("} // namespace " ++ n ++ "\n").toList (st m cs is S D) := by
  rw [end_text]
  have := Runs.leave (f := st m cs is (S ++ [s]) D) hn (st_top m cs is _ D) ha (by simp)
  simpa [File.leave] using this

theorem runs_begin {ns : List String} (hn : ∀ n ∈ ns, Ident n.toList) (ha : cs.all id = true) : ∀ {S : List Scope},
    Runs (st m cs is S D) (namespaceBegin ns).toList (st m cs is (S ++ spaces ns) D) := by
  induction ns with
  | nil => intro S; simpa [namespaceBegin] using runs_empty _
  | cons n ns ih =>
    intro S
    have h1 := runs_space (m := m) (is := is) (S := S) (D := D) (hn n (by simp)) ha
    have h2 := ih (fun x hx => hn x (by simp [hx])) (S := S ++ [.space n.toList])
    have := runs_str h1 h2
    simpa [namespaceBegin] using this

theorem runs_end {ns : List String} (hn : ∀ n ∈ ns, Ident n.toList) (ha : cs.all id = true) : ∀ (T : List Scope),
    T.length = ns.length → Runs (st m cs is (S ++ T) D) (namespaceEnd ns).toList (st m cs is S D) := by
  induction ns with
  | nil =>
    intro T hT
    have : T = [] := by simpa using hT
    subst this
    simpa [namespaceEnd] using runs_empty _
  | cons n ns ih =>
    intro T hT
    rcases List.eq_nil_or_concat T with rfl | ⟨T', s, rfl⟩
    · simp at hT
    · have h1 := runs_leave (m := m) (is := is) (S := S ++ T') (D := D) (s := s) (hn n (by simp)) ha
      have h2 := ih (fun x hx => hn x (by simp [hx])) T' (by simpa using hT)
      have := runs_str h1 h2
      simpa [namespaceEnd, List.append_assoc] using this

theorem quiet_space {n : String} (hn : Ident n.toList) : Quiet ("namespace " ++ n ++ "\n{\n").toList := by
  rw [begin_text]; exact Quiet.space hn

theorem quiet_leave {n : String} (hn : Ident n.toList) : Quiet ("} // namespace " ++ n ++ "\n").toList := by
  rw [end_text]; exact Quiet.leave hn

theorem quiet_begin {ns : List String} (hn : ∀ n ∈ ns, Ident n.toList) : Quiet (namespaceBegin ns).toList := by
  induction ns with
  | nil => exact quiet_empty
  | cons n ns ih => exact quiet_str (quiet_space (hn n (by simp))) (ih (fun x hx => hn x (by simp [hx])))

theorem quiet_end {ns : List String} (hn : ∀ n ∈ ns, Ident n.toList) : Quiet (namespaceEnd ns).toList := by
  induction ns with
  | nil => exact quiet_empty
  | cons n ns ih => exact quiet_str (quiet_leave (hn n (by simp))) (ih (fun x hx => hn x (by simp [hx])))

/-! ## Declarations -/

theorem runs_decl {t : String} (h : DeclText t.toList) (ha : cs.all id = true) :
    Runs (st m cs is S D) (t ++ ";\n").toList (st m cs is S (D ++ [⟨S, t.toList, none⟩])) := by
  have e : ";\n".toList = [';', '\n'] := by decide +kernel
  rw [String.toList_append, e]
  exact Runs.decl h (st_top m cs is S D) ha

theorem quiet_decl {t : String} (h : DeclText t.toList) : Quiet (t ++ ";\n").toList := by
  have e : ";\n".toList = [';', '\n'] := by decide +kernel
  rw [String.toList_append, e]
  exact Quiet.decl h

/-- Nothing but plain characters. -/
def Plain (t : String) : Prop := ∀ c ∈ t.toList, plainChar c = true

theorem Plain.append {a b : String} (ha : Plain a) (hb : Plain b) : Plain (a ++ b) := by
  intro c hc
  rw [String.toList_append] at hc
  rcases List.mem_append.mp hc with h | h
  · exact ha c h
  · exact hb c h

theorem Ident.plain {n : String} (h : Ident n.toList) : Plain n := fun c hc => ident_plain (h.2 c hc)

/-- A prototype: it starts with a word and ends with a parenthesis. -/
theorem prototype_text {pre mid : String} (hp : ∃ c t, pre.toList = c :: t ∧ blank c = false ∧ c ≠ '#' ∧ c ≠ '"')
    (h1 : Plain pre) (h2 : Plain mid) : DeclText (pre ++ mid ++ ")").toList := by
  have e : ")".toList = [')'] := by decide +kernel
  have hpl := (h1.append h2).append (b := ")") (by intro c hc; rw [e] at hc; simp only [List.mem_singleton] at hc; subst hc; decide)
  obtain ⟨c, t, e0, hc⟩ := hp
  refine ⟨plain_proper hpl, ⟨c, t ++ (mid.toList ++ [')']), ?_, hc⟩, ?_⟩
  · rw [String.toList_append, String.toList_append, e0, e]; simp
  · intro x hx
    rw [String.toList_append, e, last_append (by simp)] at hx
    simp only [List.getLast?_singleton, Option.mem_def, Option.some.injEq] at hx
    subst hx
    decide

theorem cmp_text {n : String} (hn : Ident n.toList) : DeclText (cmpSignature n).toList ∧ DeclText (cmpDerefSignature n).toList := by
  have e : "(const void *currentCall_ptr, const void *expectedCall_ptr, const char *paramName, char *errorMessage )" =
      "(const void *currentCall_ptr, const void *expectedCall_ptr, const char *paramName, char *errorMessage " ++ ")" := by
    decide +kernel
  have hp : Plain "(const void *currentCall_ptr, const void *expectedCall_ptr, const char *paramName, char *errorMessage " := by
    unfold Plain; decide +kernel
  unfold cmpSignature cmpDerefSignature
  rw [e, ← sassoc, ← sassoc]
  constructor
  · rw [sassoc "int cmp_"]
    exact prototype_text ⟨'i', "nt cmp_".toList, by decide +kernel, by decide, by decide, by decide⟩
      (by unfold Plain; decide +kernel) (hn.plain.append hp)
  · rw [sassoc "int cmp_deref_ptr_"]
    exact prototype_text ⟨'i', "nt cmp_deref_ptr_".toList, by decide +kernel, by decide, by decide, by decide⟩
      (by unfold Plain; decide +kernel) (hn.plain.append hp)

/-- The declarations of a comparator. -/
def cmpDecls (S : List Scope) (n : String) : List Decl :=
  [⟨S, (cmpSignature n).toList, none⟩, ⟨S, (cmpDerefSignature n).toList, none⟩]

theorem runs_cmp {n : String} (hn : Ident n.toList) (ha : cs.all id = true) :
    Runs (st m cs is S D) (headerCmp n).toList (st m cs is S (D ++ cmpDecls S n)) := by
  have h1 := runs_decl (m := m) (is := is) (S := S) (D := D) (cmp_text hn).1 ha
  have h2 := runs_decl (m := m) (is := is) (S := S) (D := D ++ [⟨S, (cmpSignature n).toList, none⟩]) (cmp_text hn).2 ha
  have := runs_str h1 h2
  simpa [headerCmp, cmpDecls] using this

theorem quiet_cmp {n : String} (hn : Ident n.toList) : Quiet (headerCmp n).toList :=
  quiet_str (quiet_decl (cmp_text hn).1) (quiet_decl (cmp_text hn).2)

theorem join_cons (a : String) (l : List String) : String.join (a :: l) = a ++ String.join l := by
  simp [String.join_cons]

/-- A text made of parts that add declarations. -/
theorem runs_join {α : Type} (g : α → String) (d : α → List Decl) :
    ∀ (l : List α) (D : List Decl), (∀ x ∈ l, ∀ D, Runs (st m cs is S D) (g x).toList (st m cs is S (D ++ d x))) →
      Runs (st m cs is S D) (String.join (l.map g)).toList (st m cs is S (D ++ (l.map d).flatten))
  | [], D, _ => by simpa [String.join] using runs_empty _
  | x :: l, D, h => by
    have h1 := h x (by simp) D
    have h2 := runs_join g d l (D ++ d x) (fun y hy => h y (by simp [hy]))
    rw [List.map_cons, join_cons]
    have := runs_str h1 h2
    simpa [List.append_assoc] using this

theorem quiet_join {α : Type} (g : α → String) : ∀ (l : List α), (∀ x ∈ l, Quiet (g x).toList) →
    Quiet (String.join (l.map g)).toList
  | [], _ => by simpa [String.join] using quiet_empty
  | x :: l, h => by
    rw [List.map_cons, join_cons]
    exact quiet_str (h x (by simp)) (quiet_join g l (fun y hy => h y (by simp [hy])))

/-! ## Functions -/

/-- What a generated header must be able to say about a function. -/
structure FunOk (c : Config) (f : Fun) : Prop where
  name : Ident f.sec.name.toList
  comment : CommentOk f
  params : Plain (expectOutputParams c f.sec)
  spaces : c.cpp = true → (∀ n ∈ f.sec.ns, Ident n.toList) ∧ (∀ k ∈ f.sec.cls, Ident k.toList)
  declared : c.genTypes = true → f.sec.cls = none → DeclText (mockSignature f.sec).toList

/-- The scopes of the Expect functions. -/
def expectScopes (c : Config) (s : FunSection) : List Scope :=
  if c.cpp then spaces ("EasyMock" :: (s.ns ++ s.cls.toList ++ [s.name])) else []

/-- The declarations of the Expect functions. -/
def expectDecls (S : List Scope) (c : Config) (s : FunSection) : List Decl :=
  ⟨S ++ expectScopes c s, ("void " ++ expectName c s ++ "(" ++ expectParams c s ++ ")").toList, none⟩ ::
  (if s.outs.isEmpty then []
   else [⟨S ++ expectScopes c s, ("void " ++ expectOutputName c s ++ "(" ++ expectOutputParams c s ++ ")").toList, none⟩])

/-- The declaration of the mocked function. -/
def mockDecls (S : List Scope) (c : Config) (s : FunSection) : List Decl :=
  if c.genTypes && s.cls.isNone then [⟨S ++ (if c.cpp then spaces s.ns else []), (mockSignature s).toList, none⟩] else []

/-- The declarations of a function. -/
def funDecls (S : List Scope) (c : Config) (f : Fun) : List Decl := mockDecls S c f.sec ++ expectDecls S c f.sec

theorem easyMock_ident : Ident "EasyMock".toList := ⟨by decide +kernel, by decide +kernel⟩

theorem begin_open (n : String) : "namespace " ++ n ++ "\n{" ++ "\n" = "namespace " ++ n ++ "\n{\n" := by
  have : "\n{" ++ "\n" = "\n{\n" := by decide +kernel
  rw [sassoc, this]

theorem easyMock_begin : "namespace EasyMock\n{\n" = "namespace " ++ "EasyMock" ++ "\n{\n" := by decide +kernel
theorem easyMock_end : "} // namespace EasyMock" ++ "\n" = "} // namespace " ++ "EasyMock" ++ "\n" := by decide +kernel

theorem scopes_split (S : List Scope) (a n : String) (ns ks : List String) :
    S ++ spaces (a :: (ns ++ ks ++ [n])) = S ++ [.space a.toList] ++ spaces ns ++ spaces ks ++ [.space n.toList] := by
  simp [List.append_assoc]

theorem runs_expectBegin {c : Config} {f : Fun} (h : FunOk c f) (ha : cs.all id = true) :
    Runs (st m cs is S D) (expectBegin c f.sec ++ "\n").toList (st m cs is (S ++ expectScopes c f.sec) D) := by
  unfold expectBegin expectScopes
  cases hc : c.cpp with
  | false => simpa using runs_newline (st_top m cs is S D)
  | true =>
    simp only [if_true]
    rw [sassoc _ _ "\n", begin_open, easyMock_begin]
    have h1 := runs_space (m := m) (is := is) (S := S) (D := D) easyMock_ident ha
    have h2 := runs_begin (m := m) (is := is) (D := D) (h.spaces hc).1 ha (S := S ++ [.space "EasyMock".toList])
    have h3 := runs_newline (st_top m cs is (S ++ [.space "EasyMock".toList] ++ spaces f.sec.ns) D)
    have h4 : Runs (st m cs is (S ++ [.space "EasyMock".toList] ++ spaces f.sec.ns) D)
        (match f.sec.cls with | some k => "namespace " ++ k ++ "\n{\n" | none => "").toList
        (st m cs is (S ++ [.space "EasyMock".toList] ++ spaces f.sec.ns ++ spaces f.sec.cls.toList) D) := by
      cases hk : f.sec.cls with
      | none => simpa using runs_empty _
      | some k => exact runs_space ((h.spaces hc).2 k (by rw [hk]; rfl)) ha
    have h5 := runs_space (m := m) (is := is) (D := D)
      (S := S ++ [.space "EasyMock".toList] ++ spaces f.sec.ns ++ spaces f.sec.cls.toList) h.name ha
    rw [scopes_split]
    exact runs_str (runs_str (runs_str (runs_str h1 h2) h3) h4) h5

theorem quiet_expectBegin {c : Config} {f : Fun} (h : FunOk c f) : Quiet (expectBegin c f.sec ++ "\n").toList := by
  unfold expectBegin
  cases hc : c.cpp with
  | false => simpa using quiet_newline
  | true =>
    simp only [if_true]
    rw [sassoc _ _ "\n", begin_open, easyMock_begin]
    refine quiet_str (quiet_str (quiet_str (quiet_str (quiet_space easyMock_ident) (quiet_begin (h.spaces hc).1)) quiet_newline) ?_)
      (quiet_space h.name)
    cases hk : f.sec.cls with
    | none => exact quiet_empty
    | some k => exact quiet_space ((h.spaces hc).2 k (by rw [hk]; rfl))

theorem runs_expectEnd {c : Config} {f : Fun} (h : FunOk c f) (ha : cs.all id = true) :
    Runs (st m cs is (S ++ expectScopes c f.sec) D) (expectEnd c f.sec ++ "\n").toList (st m cs is S D) := by
  unfold expectEnd expectScopes
  cases hc : c.cpp with
  | false => simpa using runs_newline (st_top m cs is S D)
  | true =>
    simp only [if_true]
    rw [sassoc _ _ "\n", easyMock_end]
    have h5 := runs_leave (m := m) (is := is) (D := D) (s := .space f.sec.name.toList)
      (S := S ++ [.space "EasyMock".toList] ++ spaces f.sec.ns ++ spaces f.sec.cls.toList) h.name ha
    have h4 : Runs (st m cs is (S ++ [.space "EasyMock".toList] ++ spaces f.sec.ns ++ spaces f.sec.cls.toList) D)
        (match f.sec.cls with | some k => "} // namespace " ++ k ++ "\n" | none => "").toList
        (st m cs is (S ++ [.space "EasyMock".toList] ++ spaces f.sec.ns) D) := by
      cases hk : f.sec.cls with
      | none => simpa using runs_empty _
      | some k => exact runs_leave ((h.spaces hc).2 k (by rw [hk]; rfl)) ha
    have h2 := runs_end (m := m) (is := is) (D := D) (S := S ++ [.space "EasyMock".toList]) (h.spaces hc).1 ha (spaces f.sec.ns)
      (by simp)
    have h3 := runs_newline (st_top m cs is (S ++ [.space "EasyMock".toList]) D)
    have h1 := runs_leave (m := m) (is := is) (S := S) (D := D) (s := .space "EasyMock".toList) easyMock_ident ha
    rw [scopes_split]
    exact runs_str (runs_str (runs_str (runs_str h5 h4) h2) h3) h1

theorem quiet_expectEnd {c : Config} {f : Fun} (h : FunOk c f) : Quiet (expectEnd c f.sec ++ "\n").toList := by
  unfold expectEnd
  cases hc : c.cpp with
  | false => simpa using quiet_newline
  | true =>
    simp only [if_true]
    rw [sassoc _ _ "\n", easyMock_end]
    refine quiet_str (quiet_str (quiet_str (quiet_str (quiet_leave h.name) ?_) (quiet_end (h.spaces hc).1)) quiet_newline)
      (quiet_leave easyMock_ident)
    cases hk : f.sec.cls with
    | none => exact quiet_empty
    | some k => exact quiet_leave ((h.spaces hc).2 k (by rw [hk]; rfl))

theorem runs_mock {c : Config} {f : Fun} (h : FunOk c f) (ha : cs.all id = true) :
    Runs (st m cs is S D) (mockPrototype c f.sec).toList (st m cs is S (D ++ mockDecls S c f.sec)) := by
  unfold mockPrototype mockDecls mustDeclare
  by_cases hd : (c.genTypes && f.sec.cls.isNone) = true
  · rw [if_pos hd, if_pos hd]
    simp only [Bool.and_eq_true, Option.isNone_iff_eq_none] at hd
    have ht := h.declared hd.1 hd.2
    cases hc : c.cpp with
    | false =>
      have := runs_decl (m := m) (is := is) (S := S) (D := D) ht ha
      simpa using this
    | true =>
      simp only [if_true]
      have h1 := runs_begin (m := m) (is := is) (S := S) (D := D) (h.spaces hc).1 ha
      have h2 := runs_newline (st_top m cs is (S ++ spaces f.sec.ns) D)
      have h3 := runs_decl (m := m) (is := is) (S := S ++ spaces f.sec.ns) (D := D) ht ha
      have h4 := runs_end (m := m) (is := is) (S := S)
        (D := D ++ [⟨S ++ spaces f.sec.ns, (mockSignature f.sec).toList, none⟩]) (h.spaces hc).1 ha (spaces f.sec.ns) (by simp)
      have h5 := runs_newline (st_top m cs is S (D ++ [⟨S ++ spaces f.sec.ns, (mockSignature f.sec).toList, none⟩]))
      exact runs_str (runs_str (runs_str h1 h2) h3) (runs_str h4 h5)
  · rw [if_neg hd, if_neg hd]
    simpa using runs_empty _

theorem quiet_mock {c : Config} {f : Fun} (h : FunOk c f) : Quiet (mockPrototype c f.sec).toList := by
  unfold mockPrototype mustDeclare
  by_cases hd : (c.genTypes && f.sec.cls.isNone) = true
  · rw [if_pos hd]
    simp only [Bool.and_eq_true, Option.isNone_iff_eq_none] at hd
    have ht := h.declared hd.1 hd.2
    cases hc : c.cpp with
    | false => simpa using quiet_decl ht
    | true =>
      simp only [if_true]
      exact quiet_str (quiet_str (quiet_str (quiet_begin (h.spaces hc).1) quiet_newline) (quiet_decl ht))
        (quiet_str (quiet_end (h.spaces hc).1) quiet_newline)
  · rw [if_neg hd]
    exact quiet_empty

theorem expect_texts {c : Config} {f : Fun} (h : FunOk c f) :
    DeclText ("void " ++ expectName c f.sec ++ "(" ++ expectParams c f.sec ++ ")").toList ∧
    DeclText ("void " ++ expectOutputName c f.sec ++ "(" ++ expectOutputParams c f.sec ++ ")").toList := by
  have hv : Plain "void " := by unfold Plain; decide +kernel
  have hv' : ∃ c t, "void ".toList = c :: t ∧ blank c = false ∧ c ≠ '#' ∧ c ≠ '"' :=
    ⟨'v', "oid ".toList, by decide +kernel, by decide, by decide, by decide⟩
  have ho : Plain "(" := by unfold Plain; decide +kernel
  have hu : Plain "_" := by unfold Plain; decide +kernel
  have hempty : Plain "" := by unfold Plain; decide +kernel
  have he1 : Plain "ExpectAndReturn" := by unfold Plain; decide +kernel
  have he2 : Plain "ExpectReturnAndOutput" := by unfold Plain; decide +kernel
  have hpre : Plain (if c.cpp then "" else f.sec.name ++ "_") := by
    split
    · exact hempty
    · exact h.name.plain.append hu
  have hsub : Plain (expectParams c f.sec) := by
    intro ch hch
    apply h.params ch
    unfold expectOutputParams
    rw [String.toList_append, String.toList_append]
    simp [hch]
  constructor
  · rw [sassoc "void ", sassoc "void "]
    exact prototype_text hv' hv (((hpre.append he1).append ho).append hsub)
  · rw [sassoc "void ", sassoc "void "]
    exact prototype_text hv' hv (((hpre.append he2).append ho).append h.params)

theorem semicolon_line (t : String) : t ++ ");" ++ "\n" = t ++ ")" ++ ";\n" := by
  have e1 : ");" = ")" ++ ";" := by decide +kernel
  have e2 : ";" ++ "\n" = ";\n" := by decide +kernel
  rw [e1, ← sassoc, sassoc _ ";" "\n", e2]

theorem runs_expects {c : Config} {f : Fun} (h : FunOk c f) (ha : cs.all id = true) :
    Runs (st m cs is (S ++ expectScopes c f.sec) D) (String.join ((headerDecls c f.sec).map (· ++ "\n"))).toList
      (st m cs is (S ++ expectScopes c f.sec) (D ++ expectDecls S c f.sec)) := by
  have ht := expect_texts h
  have h1 := runs_decl (m := m) (is := is) (S := S ++ expectScopes c f.sec) (D := D) ht.1 ha
  unfold headerDecls expectDecls
  rw [List.singleton_append, List.map_cons, join_cons, semicolon_line]
  by_cases ho : f.sec.outs.isEmpty = true
  · rw [if_pos ho, if_pos ho]
    have := runs_str h1 (runs_empty _)
    simpa [String.join] using this
  · rw [if_neg ho, if_neg ho, List.map_cons, join_cons, semicolon_line]
    have h2 := runs_decl (m := m) (is := is) (S := S ++ expectScopes c f.sec)
      (D := D ++ [⟨S ++ expectScopes c f.sec, ("void " ++ expectName c f.sec ++ "(" ++ expectParams c f.sec ++ ")").toList, none⟩])
      ht.2 ha
    have := runs_str h1 (runs_str h2 (runs_empty _))
    simpa [String.join] using this

theorem quiet_expects {c : Config} {f : Fun} (h : FunOk c f) :
    Quiet (String.join ((headerDecls c f.sec).map (· ++ "\n"))).toList := by
  have ht := expect_texts h
  unfold headerDecls
  rw [List.singleton_append, List.map_cons, join_cons, semicolon_line]
  refine quiet_str (quiet_decl ht.1) ?_
  by_cases ho : f.sec.outs.isEmpty = true
  · rw [if_pos ho]; exact quiet_empty
  · rw [if_neg ho, List.map_cons, join_cons, semicolon_line]
    exact quiet_str (quiet_decl ht.2) quiet_empty

theorem two_blank {l : List Char} (hl : l ∈ [[' '], []]) : ∀ c ∈ l, blank c = true := by
  simp only [List.mem_cons, List.not_mem_nil, or_false] at hl
  rcases hl with rfl | rfl <;> decide

theorem runs_fun {c : Config} {f : Fun} (h : FunOk c f) (ha : cs.all id = true) :
    Runs (st m cs is S D) (headerFun c f).toList (st m cs is S (D ++ funDecls S c f)) := by
  have h1 := Runs.blank (generate_scans h.comment) (st_top m cs is S D) (fun _ hl => two_blank hl)
  have h2 := runs_mock (m := m) (is := is) (S := S) (D := D) h ha
  have h3 := runs_expectBegin (m := m) (is := is) (S := S) (D := D ++ mockDecls S c f.sec) h ha
  have h4 := runs_expects (m := m) (is := is) (S := S) (D := D ++ mockDecls S c f.sec) h ha
  have h5 := runs_expectEnd (m := m) (is := is) (S := S) (D := D ++ mockDecls S c f.sec ++ expectDecls S c f.sec) h ha
  have h6 := Runs.blank (endGenerate_scans h.comment) (st_top m cs is S (D ++ mockDecls S c f.sec ++ expectDecls S c f.sec))
    (fun _ hl => one_blank hl)
  have := runs_str (runs_str (runs_str (runs_str (runs_str h1 h2) h3) h4) h5) h6
  simpa [headerFun, funDecls, List.append_assoc] using this

theorem quiet_fun {c : Config} {f : Fun} (h : FunOk c f) : Quiet (headerFun c f).toList :=
  quiet_str (quiet_str (quiet_str (quiet_str (quiet_str (Quiet.blank (generate_scans h.comment) (fun _ hl => two_blank hl))
    (quiet_mock h)) (quiet_expectBegin h)) (quiet_expects h)) (quiet_expectEnd h))
    (Quiet.blank (endGenerate_scans h.comment) (fun _ hl => one_blank hl))

end EasyMock.CFile
