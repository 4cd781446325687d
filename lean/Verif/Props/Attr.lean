import Verif.Parser.Attr
import Verif.Props.Parser
import Verif.Props.Gen3

/-! # C75: the mock is declared with the requested attributes of the function -/

namespace EasyMock.Parser

open EasyMock.Gen EasyMock.Types

instance (c : Char) : Decidable (Blank c) := inferInstanceAs (Decidable (_ ∈ _))

/-- A text without its blanks. -/
def noBlanks (s : List Char) : List Char := s.filter (fun c => decide (¬ Blank c))

/-- The arguments of an attribute as the user wrote them, with their parentheses. -/
def argsWritten : AttrArgs → String
  | .format t i f => "(" ++ t ++ "," ++ toString i ++ "," ++ toString f ++ ")"
  | .sect s => "(\"" ++ s ++ "\")"
  | .other (some b) => "(" ++ String.ofList b ++ ")"
  | .other none => ""

/-- The attribute as the user wrote it. -/
def attrWritten (d : AttrD) : String := "__attribute__((" ++ d.name.getD "" ++ argsWritten d.args ++ "))"

/-- Whether attributes of this name are requested. -/
def Requested (c : Config) (d : AttrD) : Bool :=
  match d.name with
  | some n => c.attrs.contains n
  | none => false

def AttrD.isFormat (d : AttrD) : Bool := match d.args with | .format .. => true | _ => false
def AttrD.isSection (d : AttrD) : Bool := match d.args with | .sect _ => true | _ => false

theorem noBlanks_append (a b : List Char) : noBlanks (a ++ b) = noBlanks a ++ noBlanks b := by
  simp [noBlanks]

theorem noBlanks_trim (s : List Char) : noBlanks (trim s) = noBlanks s := by
  obtain ⟨a, b, e, ha, hb, _⟩ := strips_trim s
  have none : ∀ l : List Char, (∀ c ∈ l, Blank c) → noBlanks l = [] := by
    intro l h
    simp only [noBlanks, List.filter_eq_nil_iff]
    intro c hc; simpa using h c hc
  conv => rhs; rw [e]
  rw [noBlanks_append, noBlanks_append, none a ha, none b hb]; simp

theorem intercalate_toList (s : String) (l : List String) :
    (s.intercalate l).toList = s.toList.intercalate (l.map String.toList) := by
  simp [String.toList_intercalate]

theorem noBlanks_intercalate (parts : List (List Char)) :
    noBlanks ([',', ' '].intercalate (parts.map trim)) = noBlanks ([','].intercalate parts) := by
  induction parts with
  | nil => rfl
  | cons p ps ih =>
    cases ps with
    | nil => simp [List.intercalate, noBlanks_trim]
    | cons q ps =>
      have e1 : [','].intercalate (p :: q :: ps) = p ++ [','] ++ [','].intercalate (q :: ps) := by
        simp [List.intercalate]
      have e2 : [',', ' '].intercalate ((p :: q :: ps).map trim) =
          trim p ++ [',', ' '] ++ [',', ' '].intercalate ((q :: ps).map trim) := by
        simp [List.intercalate]
      rw [e1, e2, noBlanks_append, noBlanks_append, noBlanks_append, noBlanks_append, ih, noBlanks_trim]
      have : noBlanks [',', ' '] = noBlanks [','] := by decide
      rw [this]

theorem attrArgs_ne {n b : List Char} : attrArgs (n ++ '(' :: b) ≠ [] := by
  have : (n ++ '(' :: b).dropWhile (· != '(') ≠ [] := by
    induction n with
    | nil => simp
    | cons c n ih =>
      rw [List.cons_append, List.dropWhile_cons]
      split
      · exact ih
      · simp
  unfold attrArgs
  split
  · rename_i h; exact absurd h this
  · rw [splitArgs]
    split <;> simp

theorem noBlanks_args {n b : List Char} (hn : '(' ∉ n) :
    noBlanks ([',', ' '].intercalate (attrArgs (n ++ '(' :: b))) = noBlanks b := by
  obtain ⟨parts, h1, h2, h3⟩ := exists_intercalate b
  have hd : (n ++ '(' :: b).dropWhile (· != '(') = '(' :: b := by
    rw [dropWhile_append_all _ (fun c h => by
      have : c ≠ '(' := fun e => hn (e ▸ h)
      simpa using this)]
    simp
  have : attrArgs (n ++ '(' :: b) = parts.map trim := by
    unfold attrArgs
    rw [hd]
    simp only
    rw [h3]
    exact splitArgs_intercalate h1 h2
  rw [this, noBlanks_intercalate, ← h3]

theorem formatArgs_first {all : List AttrD} (h : all.countP AttrD.isFormat ≤ 1) {n : Option String} {t : String} {i f : Nat}
    (hm : ⟨n, .format t i f⟩ ∈ all) : formatArgs all = [t, toString i, toString f] := by
  induction all with
  | nil => cases hm
  | cons d all ih =>
    obtain ⟨dn, da⟩ := d
    cases da with
    | format t' i' f' =>
      rcases List.mem_cons.1 hm with e | hm
      · cases e; rfl
      · exfalso
        have : 0 < all.countP AttrD.isFormat := List.countP_pos_iff.2 ⟨_, hm, rfl⟩
        rw [List.countP_cons_of_pos rfl] at h
        omega
    | sect s =>
      rw [List.countP_cons_of_neg (by simp [AttrD.isFormat])] at h
      exact ih h (by simpa using hm)
    | other b =>
      rw [List.countP_cons_of_neg (by simp [AttrD.isFormat])] at h
      exact ih h (by simpa using hm)

theorem attrText_eq (a : String × List String) : attrText a = "__attribute__((" ++ a.1 ++
    (if a.2 = [] then "" else "(" ++ ", ".intercalate a.2 ++ ")") ++ ")) " := by
  unfold attrText
  rw [expandSep_eq]
  cases h : a.2 <;> simp

theorem noBlanks_stop : noBlanks ")) ".toList = noBlanks "))".toList := by decide +kernel

theorem format_written (t x y : String) :
    noBlanks ("(" ++ ", ".intercalate [t, x, y] ++ ")").toList =
    noBlanks ("(" ++ t ++ "," ++ x ++ "," ++ y ++ ")").toList := by
  have e1 : noBlanks ", ".toList = noBlanks ",".toList := by decide +kernel
  have e0 : ", ".toList.intercalate ([t, x, y].map String.toList) =
      t.toList ++ (", ".toList ++ (x.toList ++ (", ".toList ++ y.toList))) := by simp [List.intercalate]
  simp only [String.toList_append, String.toList_intercalate, noBlanks_append, e0, e1, List.append_assoc]

/-- One attribute of the mock is the attribute which was written. -/
theorem attrText_written {all : List AttrD} (h : all.countP AttrD.isFormat ≤ 1) {n : String} {a : AttrArgs}
    (hm : ⟨some n, a⟩ ∈ all) (hs : AttrD.isSection ⟨some n, a⟩ = false) (hn : '(' ∉ n.toList) :
    noBlanks (attrText (n, attrParams all n a)).toList = noBlanks (attrWritten ⟨some n, a⟩).toList := by
  suffices hh : noBlanks ((if attrParams all n a = [] then "" else
      "(" ++ ", ".intercalate (attrParams all n a) ++ ")") : String).toList = noBlanks (argsWritten a).toList by
    rw [attrText_eq]
    simp only [attrWritten, String.toList_append, noBlanks_append, noBlanks_stop, Option.getD_some]
    rw [hh]
  cases a with
  | format t i f =>
    have e : attrParams all n (.format t i f) = [t, toString i, toString f] := formatArgs_first h hm
    rw [if_neg (by rw [e]; simp), e]
    exact format_written t (toString i) (toString f)
  | sect s => simp [AttrD.isSection] at hs
  | other b =>
    cases b with
    | none => rfl
    | some b =>
      have hne : attrParams all n (.other (some b)) ≠ [] := by
        simp only [attrParams, attrSource, ne_eq, List.map_eq_nil_iff]
        exact attrArgs_ne
      rw [if_neg hne]
      have e1 : noBlanks (", ".intercalate (attrParams all n (.other (some b)))).toList = noBlanks b := by
        rw [String.toList_intercalate]
        simp only [attrParams, attrSource, List.map_map]
        have : (String.toList ∘ String.ofList) = id := by funext x; simp
        rw [this, List.map_id]
        exact noBlanks_args hn
      rw [show argsWritten (.other (some b)) = "(" ++ String.ofList b ++ ")" from rfl]
      simp only [String.toList_append, noBlanks_append, e1, String.toList_ofList]

theorem noBlanks_join (l : List String) :
    noBlanks (" ".intercalate l).toList = (l.map (fun s => noBlanks s.toList)).flatten := by
  rw [String.toList_intercalate]
  induction l with
  | nil => rfl
  | cons x l ih =>
    cases l with
    | nil => simp [List.intercalate]
    | cons y l =>
      have e : " ".toList.intercalate ((x :: y :: l).map String.toList) =
          x.toList ++ " ".toList ++ " ".toList.intercalate ((y :: l).map String.toList) := by simp [List.intercalate]
      have e1 : noBlanks " ".toList = [] := by decide
      rw [e, noBlanks_append, noBlanks_append, ih, e1]
      simp

theorem attrLoop_written {c : Config} {all : List AttrD} (h : all.countP AttrD.isFormat ≤ 1)
    (hs : ∀ d ∈ all, Requested c d = true → AttrD.isSection d = false)
    (hn : ∀ d ∈ all, ∀ n, d.name = some n → '(' ∉ n.toList) : ∀ l : List AttrD, (∀ d ∈ l, d ∈ all) →
    (((attrLoop all l).filter (fun a => c.attrs.contains a.1)).map (fun a => noBlanks (attrText a).toList)) =
      (l.filter (Requested c)).map (fun d => noBlanks (attrWritten d).toList)
  | [], _ => rfl
  | ⟨none, a⟩ :: l, hl => by
    have ih := attrLoop_written h hs hn l (fun d hd => hl d (by simp [hd]))
    simp only [attrLoop]
    rw [ih, List.filter_cons_of_neg (by simp [Requested])]
  | ⟨some n, a⟩ :: l, hl => by
    have ih := attrLoop_written h hs hn l (fun d hd => hl d (by simp [hd]))
    have hm : ⟨some n, a⟩ ∈ all := hl _ (by simp)
    simp only [attrLoop]
    by_cases hr : c.attrs.contains n = true
    · have hr' : Requested c ⟨some n, a⟩ = true := hr
      rw [List.filter_cons_of_pos (p := fun a : String × List String => c.attrs.contains a.1) hr, List.filter_cons_of_pos hr', List.map_cons, List.map_cons, ih,
        attrText_written h hm (hs _ hm hr') (hn _ hm n rfl)]
    · have hr' : ¬ Requested c ⟨some n, a⟩ = true := hr
      rw [List.filter_cons_of_neg (p := fun a : String × List String => c.attrs.contains a.1) hr, List.filter_cons_of_neg hr', ih]

/-- **C75** (partial): up to blanks the signature of the mock starts with the requested attributes of the declaration as
    they were written, in their order, followed by `noreturn` if the function does not return and this is requested; the
    rest of the signature does not depend on them.  Missing: `section` attributes and functions with several `format`
    attributes, for which the claim is false (below). -/
theorem C75_partial (c : Config) (k : Nat) (f : FunDecl) (ds : List AttrD) (nr : Bool)
    (hf : f.info.attributes = functionAttributes ds nr) (h : ds.countP AttrD.isFormat ≤ 1)
    (hs : ∀ d ∈ ds, Requested c d = true → AttrD.isSection d = false)
    (hn : ∀ d ∈ ds, ∀ n, d.name = some n → '(' ∉ n.toList) :
    noBlanks (mockSignature (funSection c k f).1).toList =
      ((ds.filter (Requested c)).map (fun d => noBlanks (attrWritten d).toList)).flatten ++
      (if nr = true ∧ "noreturn" ∈ c.attrs then "__attribute__((noreturn))".toList else []) ++
      noBlanks (mockSignature { (funSection c k f).1 with attrs := [] }).toList := by
  have h1 : mockSignature (funSection c k f).1 =
      " ".intercalate ((funSection c k f).1.attrs.map attrText) ++
        mockSignature { (funSection c k f).1 with attrs := [] } := by
    rw [C63_signature, C63_signature]
    have : (fun a : String × List String => "__attribute__((" ++ a.1 ++
      (if a.2 = [] then "" else "(" ++ ", ".intercalate a.2 ++ ")") ++ ")) ") = attrText := by
      funext a; rw [attrText_eq]
    rw [this]
    simp only [String.append_assoc, List.map_nil]
    rfl
  have h2 : (funSection c k f).1.attrs = (functionAttributes ds nr).filter (fun a => c.attrs.contains a.1) := by
    rw [← hf]; rfl
  rw [h1, String.toList_append, noBlanks_append, noBlanks_join, h2, List.map_map]
  congr 1
  unfold functionAttributes
  rw [List.filter_append, List.map_append, List.flatten_append]
  have h3 := attrLoop_written h hs hn ds (fun d hd => hd)
  rw [show ((fun s : String => noBlanks s.toList) ∘ attrText) = fun a => noBlanks (attrText a).toList from rfl, h3]
  congr 1
  have e : noBlanks (attrText ("noreturn", [])).toList = "__attribute__((noreturn))".toList := by decide +kernel
  cases nr with
  | false => simp
  | true =>
    by_cases hc : "noreturn" ∈ c.attrs
    · simp [hc, e]
    · simp [hc]

/-- `void f(const char *, ...) __attribute__((format(printf, 1, 2), cold, nonnull( 1 , 2)));`, and an attribute without name -/
def exAttrs : List AttrD :=
  [⟨some "format", .format "printf" 1 2⟩, ⟨none, .other none⟩, ⟨some "cold", .other none⟩,
   ⟨some "nonnull", .other (some " 1 , 2".toList)⟩]

example : functionAttributes exAttrs false = [("format", ["printf", "1", "2"]), ("cold", []), ("nonnull", ["1", "2"])] ∧
    exAttrs.countP AttrD.isFormat ≤ 1 ∧ (∀ d ∈ exAttrs, AttrD.isSection d = false) ∧
    (∀ d ∈ exAttrs, ∀ n ∈ d.name, '(' ∉ n.toList) := by decide +kernel

/-- C75 is false for the second `format` attribute of a function: it gets the arguments of the first one. -/
theorem C75_refuted_format :
    functionAttributes [⟨some "format", .format "printf" 1 2⟩, ⟨some "format", .format "printf" 3 4⟩] false =
      [("format", ["printf", "1", "2"]), ("format", ["printf", "1", "2"])] := by decide +kernel

/-- C75 is false for `section` attributes: the section is written without quotes. -/
theorem C75_refuted_section :
    let d : AttrD := ⟨some "section", .sect ".text.f"⟩
    (functionAttributes [d] false).map attrText = ["__attribute__((section(.text.f))) "] ∧
    attrWritten d = "__attribute__((section(\".text.f\")))" := by decide +kernel

theorem sectionArgs_first {all : List AttrD} : ∀ {pre post : List AttrD} {n : Option String} {s : String},
    all = pre ++ ⟨n, .sect s⟩ :: post → (∀ d ∈ pre, AttrD.isSection d = false) → sectionArgs all = [s] := by
  intro pre
  induction pre generalizing all with
  | nil => rintro post n s rfl _; rfl
  | cons d pre ih =>
    rintro post n s rfl h
    obtain ⟨dn, da⟩ := d
    have ih := ih (all := pre ++ ⟨n, .sect s⟩ :: post) rfl (fun d hd => h d (by simp [hd]))
    cases da with
    | format t i f => exact ih
    | sect s' => exact absurd (h ⟨dn, .sect s'⟩ (by simp)) (by simp [AttrD.isSection])
    | other b => exact ih

theorem mem_attrLoop {all : List AttrD} {n : String} {a : AttrArgs} : ∀ {l : List AttrD}, ⟨some n, a⟩ ∈ l →
    (n, attrParams all n a) ∈ attrLoop all l
  | ⟨none, b⟩ :: l, h => by
    rw [attrLoop]
    exact mem_attrLoop (by simpa using h)
  | ⟨some m, b⟩ :: l, h => by
    rw [attrLoop]
    rcases List.mem_cons.1 h with e | h
    · cases e; exact List.mem_cons_self
    · exact List.mem_cons_of_mem _ (mem_attrLoop h)

/-- Every `section` attribute of a function is written with the section of the first one, and without quotes. -/
theorem C75_refuted_sections (ds : List AttrD) (nr : Bool) (pre post : List AttrD) (n n' : String) (s s' : String)
    (h : ds = pre ++ ⟨some n, .sect s⟩ :: post) (hp : ∀ d ∈ pre, AttrD.isSection d = false) (hm : ⟨some n', .sect s'⟩ ∈ ds) :
    ∃ a ∈ functionAttributes ds nr, attrText a = "__attribute__((" ++ n' ++ "(" ++ s ++ "))) " := by
  refine ⟨(n', [s]), ?_, ?_⟩
  · unfold functionAttributes
    have := mem_attrLoop (all := ds) hm
    rw [show attrParams ds n' (.sect s') = [s] from sectionArgs_first h hp] at this
    exact List.mem_append_left _ this
  · rw [attrText_eq, if_neg (by simp)]
    simp only [String.append_assoc]
    congr 3

/-- The second of two sections becomes the first. -/
example : functionAttributes [⟨some "cold", .other none⟩, ⟨some "section", .sect "a"⟩, ⟨some "section", .sect "b"⟩] false =
    [("cold", []), ("section", ["a"]), ("section", ["a"])] := by decide +kernel

/-- The string argument of an attribute breaks the string literal by which the mock is registered (C63). -/
theorem C75_refuted_literal :
    functionAttributes [⟨some "deprecated", .other (some "\"no\"".toList)⟩] false = [("deprecated", ["\"no\""])] ∧
    ¬ LiteralSafe (attrText ("deprecated", ["\"no\""])) := by
  refine ⟨by decide +kernel, fun h => ?_⟩
  exact (h '"' (by decide +kernel)).1 rfl

end EasyMock.Parser
