import Verif.CFile.TypedText
import Verif.StructCmp.GenLemmas

/-! # CFile: the texts of the comparators

The conditions which `CmpOk` puts on the texts of a comparator follow from conditions on the names in the types. -/

namespace EasyMock.CFile.Txt

open EasyMock.Types (Ty Fields Kw)
open EasyMock.CDecl (Word Spellable)
open EasyMock.StructCmp

/-! ## Conditions -/

/-- The name of a type, of a typedef or of a member. -/
structure CName (n : String) : Prop where
  word : Word n
  ident : Ident n.toList

theorem CName.of {n : String} (h1 : Word n) (h2 : Ident n.toList) : CName n := ⟨h1, h2⟩

mutual
/-- The names in a type which has a comparator.  The comparator of an anonymous type which is declared inside another one starts with a
    declaration of the type (GEN:2287-2291): `P` says of which types this declaration is taken. -/
def TypeNames (P : Ty → Prop) : Ty → Prop
  | .ptr _ t => TypeNames P t
  | .ref _ t => TypeNames P t
  | .const _ t => TypeNames P t
  | .tdef _ n t => CName n ∧ TypeNames P t
  | .comp i kw n fs emb fwd ms => (CName n ∨ n = "" ∧ (emb = true → P (.comp i kw n fs emb fwd ms))) ∧ FieldNames P fs
  | .incomplete _ _ n => n = "" ∨ CName n
  | _ => True
/-- The names in the type of an anonymous member. -/
def MemberNames (P : Ty → Prop) : Ty → Prop
  | .ptr _ t => MemberNames P t
  | .ref _ t => MemberNames P t
  | .const _ t => MemberNames P t
  | .tdef _ n t => CName n ∧ MemberNames P t
  | .comp _ _ n fs _ _ _ => (CName n ∨ n = "") ∧ FieldNames P fs
  | _ => True
/-- The names of members. -/
def FieldNames (P : Ty → Prop) : Fields → Prop
  | .nil => True
  | .field _ t n _ rest => (if n = "" then holdsMembers t = true ∧ MemberNames P t else CName n ∧ TypeNames P t) ∧ FieldNames P rest
  | .bit _ t n _ rest => (n = "" ∨ CName n ∧ TypeNames P t ∧ Spellable false t ∧ opens t = 0) ∧ FieldNames P rest
end

/-- The names in the typedefs and in the types of the parameters. -/
def StepNames (P : Ty → Prop) : Step → Prop
  | .typedef n _ => CName n
  | .param t => TypeNames P t

/-! ## Registries -/

/-- The registered names. -/
def RegNames (reg : List (Nat × String)) : Prop := ∀ e ∈ reg, CName e.2

variable {env : Env} {P : Ty → Prop} {inner : Ty → String}

theorem register_names {reg : List (Nat × String)} {n : String} {t : Ty} (h : RegNames reg) (hn : CName n) : RegNames (register env reg n t) := by
  unfold register
  split
  · exact h
  · intro e he
    rcases List.mem_append.mp he with he | he
    · exact h e he
    · rw [List.mem_singleton] at he; subst he; exact hn

/-- The names of the typedefs on the way to the object. -/
def ChainNames : Ty → Prop
  | .ptr _ t => ChainNames t
  | .ref _ t => ChainNames t
  | .const _ t => ChainNames t
  | .tdef _ n t => CName n ∧ ChainNames t
  | _ => True

theorem typeNames_chain : ∀ {t : Ty}, TypeNames P t → ChainNames t
  | .ptr _ t, h | .ref _ t, h | .const _ t, h => typeNames_chain (t := t) h
  | .tdef _ _ _, h => ⟨h.1, typeNames_chain h.2⟩
  | .ctype .., _ | .enum .., _ | .comp .., _ | .incomplete .., _ | .fn .., _ => trivial

theorem memberNames_chain : ∀ {t : Ty}, MemberNames P t → ChainNames t
  | .ptr _ t, h | .ref _ t, h | .const _ t, h => memberNames_chain (t := t) h
  | .tdef _ _ _, h => ⟨h.1, memberNames_chain h.2⟩
  | .ctype .., _ | .enum .., _ | .comp .., _ | .incomplete .., _ | .fn .., _ => trivial

theorem registerRaw_names : ∀ (t : Ty) {reg : List (Nat × String)}, RegNames reg → ChainNames t → RegNames (registerRaw env reg t)
  | .ptr _ t, _, h, ht | .ref _ t, _, h, ht | .const _ t, _, h, ht => registerRaw_names t h ht
  | .tdef _ _ t, _, h, ht => registerRaw_names t (register_names h ht.1) ht.2
  | .ctype .., _, h, _ | .enum .., _, h, _ | .comp .., _, h, _ | .incomplete .., _, h, _ | .fn .., _, h, _ => h

theorem registerDefined_names : ∀ (t : Ty) {reg : List (Nat × String)}, RegNames reg → ChainNames t → RegNames (registerDefined env reg t)
  | .ptr .., _, h, _ | .ref .., _, h, _ => h
  | .const _ t, _, h, ht => registerDefined_names t h ht
  | .tdef _ _ t, _, h, ht => registerDefined_names t (register_names h ht.1) ht.2
  | .ctype .., _, h, _ | .enum .., _, h, _ | .comp .., _, h, _ | .incomplete .., _, h, _ | .fn .., _, h, _ => h

theorem typedef_names {reg : List (Nat × String)} (h : RegNames reg) (t : Ty) : typedefName env reg t = "" ∨ CName (typedefName env reg t) := by
  unfold typedefName
  cases hf : reg.find? (fun e => e.1 == env.key t) with
  | none => exact Or.inl rfl
  | some e => exact Or.inr (h e (List.mem_of_find?_eq_some hf))

theorem not_empty {n : String} (h : CName n) : n.isEmpty = false := by
  cases hs : n.isEmpty with
  | false => rfl
  | true => exact absurd (String.isEmpty_iff.mp hs) h.word.1

/-! ## Names -/

theorem digits_ident (k : Nat) : ∀ c ∈ (toString k).toList, identChar c = true := by
  intro c hc
  have e : (toString k).toList = Nat.toDigits 10 k := by simp [toString, Nat.repr]
  rw [e] at hc
  have : c.isDigit = true := Nat.isDigit_of_mem_toDigits (by decide) (by decide) hc
  simp [identChar, Char.isAlphanum, this]

theorem anonymous_ident (env : Env) (t : Ty) : Ident (anonymousName env t).toList :=
  Ident.append ⟨by decide +kernel, by decide +kernel⟩ (digits_ident _)

theorem kw_text (kw : Kw) : Word kw.str ∧ Ident kw.str.toList := by cases kw <;> exact ⟨by decide +kernel, ⟨by decide +kernel, by decide +kernel⟩⟩

/-- A type with a tag or without a name. -/
def Tagged : Ty → Prop
  | .comp _ _ n _ _ _ _ => CName n ∨ n = ""
  | .incomplete _ _ n => CName n ∨ n = ""
  | _ => False

theorem comparator_ident {reg : List (Nat × String)} (h : RegNames reg) {t : Ty} (ht : Tagged t) : Ident (comparatorName env reg t).toList := by
  have key : ∀ (kw : Kw) (n u : String), (CName n ∨ n = "") → Ident u.toList → Ident (kw.str ++ "_" ++ (if n.isEmpty then u else n)).toList := by
    intro kw n u hn hu
    refine Ident.append (Ident.append (kw_text kw).2 (by decide +kernel)) ?_
    split
    · exact hu.2
    · rename_i he
      rcases hn with hn | rfl
      · exact hn.ident.2
      · simp at he
  unfold comparatorName
  split
  · match t, ht with
    | .comp i kw n fs emb fwd ms, ht =>
      have e : (Types.attrs (.comp i kw n fs emb fwd ms)).name = n := by cases kw <;> rfl
      rw [e]
      exact key kw n _ ht (anonymous_ident env _)
    | .incomplete f kw n, ht => exact key kw n _ ht (anonymous_ident env _)
  · rename_i he
    rcases typedef_names (env := env) h t with e | e
    · rw [e] at he; exact absurd rfl he
    · exact e.ident

/-! ## Paths -/

/-- The text of a path of names. -/
def PathText (t : String) : Prop := ∀ x ∈ t.toList, identChar x = true ∨ x = ':' ∨ x = '<' ∨ x = '>'

theorem PathText.append {a b : String} (ha : PathText a) (hb : PathText b) : PathText (a ++ b) := by
  intro x hx
  rw [String.toList_append, List.mem_append] at hx
  exact hx.elim (ha x) (hb x)

theorem path_empty : PathText "" := by intro x hx; cases hx
theorem path_colons : PathText "::" := by unfold PathText; decide +kernel
theorem path_anonymous : PathText "<anonymous>" := by unfold PathText; decide +kernel
theorem CName.path {n : String} (h : CName n) : PathText n := fun x hx => Or.inl (h.ident.2 x hx)

theorem path_char {x : Char} (h : identChar x = true ∨ x = ':' ∨ x = '<' ∨ x = '>') :
    plainChar x = true ∧ ¬(x = '(' ∨ x = '[') ∧ ¬(x = ')' ∨ x = ']') ∧ x ≠ '*' ∧ blank x = false := by
  rcases h with h | rfl | rfl | rfl
  · exact ⟨ident_plain h, (ident_bracket h).1, (ident_bracket h).2, by rintro rfl; exact absurd h (by decide), ident_blank h⟩
  · decide
  · decide
  · decide

theorem path_inert {t : String} (h : PathText t) : t = "" ∨ Inert t.toList := by
  by_cases h0 : t = ""
  · exact Or.inl h0
  · have hm : Moves t 0 0 := Moves.flat (fun x hx => ⟨(path_char (h x hx)).2.1, (path_char (h x hx)).2.2.1⟩) 0
    refine Or.inr ⟨fun x hx => (path_char (h x hx)).1, hm.nests, ?_,
      fun x hx => (path_char (h x (List.mem_of_getLast? hx))).2.2.2.2⟩
    cases hl : t.toList with
    | nil => exact absurd (String.toList_inj.mp (by rw [hl]; rfl)) h0
    | cons x r => exact ⟨x, r, rfl, (path_char (h x (by rw [hl]; simp))).2.2.2.1⟩

theorem defined_path {reg : List (Nat × String)} (h : RegNames reg) {t : Ty} (ht : Tagged t) : PathText (mostDefinedName env reg t) := by
  unfold mostDefinedName
  split
  · match t, ht with
    | .comp i kw n fs emb fwd ms, ht =>
      have e : (Types.attrs (.comp i kw n fs emb fwd ms)).name = n := by cases kw <;> rfl
      rw [e]
      rcases ht with ht | rfl
      · exact ht.path
      · exact path_empty
    | .incomplete f kw n, ht =>
      show PathText n
      rcases ht with ht | rfl
      · exact ht.path
      · exact path_empty
  · rename_i he
    rcases typedef_names (env := env) h t with e | e
    · rw [e] at he; exact absurd rfl he
    · exact e.path

theorem owner_path {reg : List (Nat × String)} (h : RegNames reg) {t : Ty} (ht : Tagged t) {d : String} (hd : PathText d) :
    PathText (ownerText env reg t d) := by
  unfold ownerText
  split
  · exact defined_path h ht
  · refine hd.append ?_
    split
    · exact path_anonymous
    · exact path_empty

theorem anonymousDecl_path {d : String} (hd : PathText d) : PathText (anonymousDecl d) := by
  unfold anonymousDecl
  refine PathText.append ?_ path_colons
  split
  · exact hd.append path_anonymous
  · exact hd

/-! ## Texts -/

theorem format_text (t : Ty) : ∀ x ∈ formatOf t, TypeText x.toList := by
  have ht : ∀ {x : String}, (∀ c ∈ x.toList, plainChar c = true) → nests 0 x.toList = true →
      (∃ c r, x.toList = c :: r ∧ (identChar c = true ∨ c = ':')) → (∀ y ∈ x.toList.getLast?, blank y = false) → TypeText x.toList :=
    fun h1 h2 h3 h4 => ⟨h1, h2, h3, h4⟩
  have hid : ∀ {x : String}, Ident x.toList → TypeText x.toList := fun h => h.type
  intro x hx
  unfold formatOf at hx
  split at hx
  · cases hx; exact hid ⟨by decide +kernel, by decide +kernel⟩
  · split at hx
    · cases hx; exact hid ⟨by decide +kernel, by decide +kernel⟩
    · split at hx
      · cases hx
        rename_i c _ _ _
        cases c
        case int128 => exact ht (by decide +kernel) (by decide +kernel) ⟨'l', "f%lf".toList, by decide +kernel, by decide⟩ (by decide +kernel)
        case uint128 => exact ht (by decide +kernel) (by decide +kernel) ⟨'L', "f%Lf".toList, by decide +kernel, by decide⟩ (by decide +kernel)
        all_goals exact hid ⟨by decide +kernel, by decide +kernel⟩
      · cases hx

/-- The text of the type as which a comparator looks at its arguments. -/
theorem decl_text {reg : List (Nat × String)} (h : RegNames reg) {i : Bool} {kw : Kw} {n : String} {fs : Fields} {emb fwd : Bool}
    {ms : Types.Methods} (ht : CName n ∨ n = "") : TypeText (declText env reg (.comp i kw n fs emb fwd ms)).toList := by
  unfold declText
  split
  · split
    · have hk := kw_text kw
      have hu := anonymous_ident env (.comp i kw n fs emb fwd ms)
      refine typeText ((starts_of hk.2.type).append plain_space |>.append hu.plain) ((ident_closed hu).append ?_)
        (((ident_moves hk.2 0).append (moves_space 0)).append (ident_moves hu 0))
      intro e
      exact hu.1 (by rw [e]; rfl)
    · rename_i ha
      have hn : CName n := by
        rcases ht with ht | rfl
        · exact ht
        · exact absurd (by cases kw <;> rfl) ha
      exact full_ok (b := false) (t := .comp i kw n fs emb fwd ms) hn.word rfl
  · rename_i he
    rcases typedef_names (env := env) h (.comp i kw n fs emb fwd ms) with e | e
    · rw [e] at he; exact absurd rfl he
    · exact e.ident.type

theorem article_text (kw : Kw) : Inert (article kw).toList := by
  cases kw
  case struct => exact ⟨by decide +kernel, by decide +kernel, ⟨' ', "struct".toList, by decide +kernel, by decide⟩, by decide +kernel⟩
  case union => exact ⟨by decide +kernel, by decide +kernel, ⟨'n', " union".toList, by decide +kernel, by decide⟩, by decide +kernel⟩
  case cls => exact ⟨by decide +kernel, by decide +kernel, ⟨' ', "class".toList, by decide +kernel, by decide⟩, by decide +kernel⟩

theorem holds_compared {t : Ty} (h : holdsMembers t = true) : comparedAsComposite t = true := by
  have h1 : Types.isComposable (Types.rawType t) = true := by rw [rawType_object t h]; exact h
  have h2 : Types.isPointer (unqualified t) = false := by
    cases t with
    | const i u => cases u <;> first | rfl | (rename_i kw _ _ _ _ _; cases kw <;> rfl) | (exact absurd h (by simp [holdsMembers, object, Types.isComposable, Types.attrs]))
    | ptr => exact absurd h (by simp [holdsMembers, object, Types.isComposable, Types.attrs])
    | comp i kw => cases kw <;> rfl
    | incomplete => exact absurd h (by simp [holdsMembers, object, Types.isComposable, Types.attrs])
    | _ => rfl
  simp [comparedAsComposite, h1, h2]

theorem raw_tagged : ∀ {t : Ty}, TypeNames P t → comparedAsComposite t = true → Tagged (Types.rawType t) := by
  have key : ∀ t : Ty, TypeNames P t → (Types.isComposable (Types.rawType t) || (Types.attrs (Types.rawType t)).incomplete) = true →
      Tagged (Types.rawType t) := by
    intro t
    induction t using Types.rawType.induct with
    | case1 _ t ih | case2 _ t ih | case3 _ t ih => exact ih
    | case4 _ _ t ih => exact fun h => ih h.2
    | case5 t h1 h2 h3 h4 =>
      intro h hc
      cases t with
      | ptr i u => exact absurd rfl (h1 i u)
      | ref i u => exact absurd rfl (h2 i u)
      | const i u => exact absurd rfl (h3 i u)
      | tdef i n u => exact absurd rfl (h4 i n u)
      | comp => exact h.1.imp id (fun h => h.1)
      | incomplete => exact h.symm
      | ctype => exact absurd hc (by simp [Types.rawType, Types.isComposable, Types.attrs])
      | enum => exact absurd hc (by simp [Types.rawType, Types.isComposable, Types.attrs])
      | fn => exact absurd hc (by simp [Types.rawType, Types.isComposable, Types.attrs])
  intro t h hc
  refine key t h ?_
  unfold comparedAsComposite at hc
  rw [Bool.and_eq_true] at hc
  exact hc.2

/-! ## The comparators of a generation -/

/-- A comparator of the source file, GEN:2306-2322: `inner` is the declaration of the type in the comparator, GEN:2287-2291. -/
def srcCmp (inner : Ty → String) (k : Comparator) : SrcCmp := ⟨k, "const " ++ k.decl, inner k.ty⟩

theorem const_text {t : String} (h : TypeText t.toList) : TypeText ("const " ++ t).toList := by
  have hm : Moves t 0 0 := Moves.of h.nests 0
  have h1 : Starts "const " := ⟨by unfold Plain; decide +kernel, 'c', "onst ".toList, by decide +kernel, by decide⟩
  refine typeText (h1.append h.plain) (Closed.append h.last ?_) (Moves.append (Moves.flat (by decide +kernel) 0) hm)
  rintro rfl
  obtain ⟨c, r, e, -⟩ := h.first
  cases e

/-- The declarations inside comparators: there is one for the types without name which are declared inside others, and its text is in
    order for the types of `P`. -/
structure InnerOk (P : Ty → Prop) (inner : Ty → String) : Prop where
  none : ∀ (i : Bool) (kw : Kw) (n : String) (fs : Fields) (emb fwd : Bool) (ms : Types.Methods), n ≠ "" ∨ emb = false →
    inner (.comp i kw n fs emb fwd ms) = ""
  some : ∀ t, P t → InnerText (inner t).toList

/-- What a piece of generation yields. -/
structure TextOk (P : Ty → Prop) (inner : Ty → String) (σ : St) (cs : List Check) (ks : List Comparator) : Prop where
  reg : RegNames σ.reg
  checks : ∀ x ∈ cs, CheckOk x
  cmps : ∀ k ∈ ks, CmpOk (srcCmp inner k)
  types : ∀ k ∈ ks, ∃ i kw n fs emb fwd ms, k.ty = .comp i kw n fs emb fwd ms ∧ (n = "" → emb = true → P k.ty)

theorem TextOk.nil {σ : St} (h : RegNames σ.reg) : TextOk P inner σ [] [] := ⟨h, by simp, by simp, by simp⟩

/-- The prefix of the names of the types declared inside others. -/
def Under (p : String) : Prop := ∀ c ∈ p.toList, identChar c = true

theorem Under.next {p : String} (h : Under p) : Under (p ++ "_") := by
  intro c hc
  rw [String.toList_append, List.mem_append] at hc
  rcases hc with hc | hc
  · exact h c hc
  · revert hc; revert c; decide +kernel

theorem generated_ident {emb : Bool} {p u : String} (hp : Under p) (hu : Ident u.toList) : Ident (generatedName emb p u).toList := by
  unfold generatedName
  split
  · exact Ident.after hp hu
  · exact hu

theorem called_ident {reg : List (Nat × String)} (h : RegNames reg) {p : String} (hp : Under p) {t : Ty} (ht : Tagged t) :
    Ident (calledName env reg p t).toList := by
  rw [called_eq]
  exact generated_ident hp.next (comparator_ident h ht)

mutual
theorem section_text (hi : InnerOk P inner) (p d : String) (hp : Under p) (hd : PathText d) : ∀ (t : Ty) (σ : St), RegNames σ.reg → TypeNames P t →
    TextOk P inner (genSection env p d σ t).1 [] (genSection env p d σ t).2
  | .ptr _ t, σ, h, ht => section_text hi p d hp hd t σ h ht
  | .ref _ t, σ, h, ht => section_text hi p d hp hd t σ h ht
  | .const _ t, σ, h, ht => section_text hi p d hp hd t σ h ht
  | .tdef _ _ t, σ, h, ht => section_text hi p d hp hd t σ h ht.2
  | .comp i kw n fs emb fwd ms, σ, h, ht => by
    have ht1 : CName n ∨ n = "" := ht.1.imp id (fun h => h.1)
    have htag : Tagged (.comp i kw n fs emb fwd ms) := ht1
    unfold genSection
    simp only
    split
    · exact TextOk.nil h
    · have ih := fields_text hi (.comp i kw n fs emb fwd ms) p (d ++ mostDefinedName env σ.reg (.comp i kw n fs emb fwd ms)) htag hp
        (hd.append (defined_path h htag)) fs { σ with done := σ.done ++ [comparatorName env σ.reg (.comp i kw n fs emb fwd ms)] } h ht.2
      refine ⟨ih.reg, by simp, ?_, fun k hk => ?_⟩
      rotate_left
      · rcases List.mem_cons.mp hk with rfl | hk
        · refine ⟨i, kw, n, fs, emb, fwd, ms, rfl, fun h0 h1 => ?_⟩
          rcases ht.1 with hn | ⟨-, hP⟩
          · exact absurd h0 hn.word.1
          · exact hP h1
        · exact ih.types k hk
      intro k hk
      rcases List.mem_cons.mp hk with rfl | hk
      · refine ⟨generated_ident hp (comparator_ident h htag), article_text kw, const_text (decl_text h ht1), ih.checks, ?_⟩
        rcases ht.1 with hn | ⟨rfl, hP⟩
        · exact Or.inl (hi.none i kw n fs emb fwd ms (Or.inl hn.word.1))
        · cases emb with
          | false => exact Or.inl (hi.none i kw "" fs false fwd ms (Or.inr rfl))
          | true => exact Or.inr (hi.some _ (hP rfl))
      · exact ih.cmps k hk
  | .ctype .., _, h, _ | .enum .., _, h, _ | .incomplete .., _, h, _ | .fn .., _, h, _ => TextOk.nil h

theorem anonymous_text (hi : InnerOk P inner) (p d : String) (hp : Under p) (hd : PathText d) : ∀ (t : Ty) (σ : St), RegNames σ.reg → MemberNames P t →
    TextOk P inner (genAnonymous env p d σ t).1 (genAnonymous env p d σ t).2.1 (genAnonymous env p d σ t).2.2
  | .ptr _ t, σ, h, ht => anonymous_text hi p d hp hd t σ h ht
  | .ref _ t, σ, h, ht => anonymous_text hi p d hp hd t σ h ht
  | .const _ t, σ, h, ht => anonymous_text hi p d hp hd t σ h ht
  | .tdef _ _ t, σ, h, ht => anonymous_text hi p d hp hd t σ h ht.2
  | .comp i kw n fs emb fwd ms, σ, h, ht => fields_text hi (.comp i kw n fs emb fwd ms) p d ht.1 hp hd fs σ h ht.2
  | .ctype .., _, h, _ | .enum .., _, h, _ | .incomplete .., _, h, _ | .fn .., _, h, _ => TextOk.nil h

theorem fields_text (hi : InnerOk P inner) (owner : Ty) (p d : String) (ho : Tagged owner) (hp : Under p) (hd : PathText d) : ∀ (fs : Fields) (σ : St),
    RegNames σ.reg → FieldNames P fs →
    TextOk P inner (genFields env owner p d σ fs).1 (genFields env owner p d σ fs).2.1 (genFields env owner p d σ fs).2.2
  | .nil, σ, h, _ => TextOk.nil h
  | .field s t n a rest, σ, h, ht => by
    have hc : ChainNames t := by
      have h1 := ht.1
      split at h1
      · exact memberNames_chain h1.2
      · exact typeNames_chain h1.2
    have h₁ : RegNames (if a > 0 then { σ with reg := registerDefined env σ.reg t } else σ).reg := by
      split
      · exact registerDefined_names t h hc
      · exact h
    unfold genFields
    simp only
    generalize (if a > 0 then { σ with reg := registerDefined env σ.reg t } else σ) = σ₁ at h₁ ⊢
    have key : ∀ r : St × List Check × List Comparator, TextOk P inner r.1 r.2.1 r.2.2 →
        TextOk P inner (genFields env owner p d r.1 rest).1 (r.2.1 ++ (genFields env owner p d r.1 rest).2.1)
          (r.2.2 ++ (genFields env owner p d r.1 rest).2.2) := by
      intro r hr
      have ih := fields_text hi owner p d ho hp hd rest r.1 hr.reg ht.2
      refine ⟨ih.reg, fun x hx => ?_, fun x hx => ?_, fun x hx => ?_⟩
      · exact (List.mem_append.mp hx).elim (hr.checks x) (ih.checks x)
      · exact (List.mem_append.mp hx).elim (hr.cmps x) (ih.cmps x)
      · exact (List.mem_append.mp hx).elim (hr.types x) (ih.types x)
    apply key
    have h₂ : RegNames (registerRaw env σ₁.reg t) := registerRaw_names t h₁ hc
    split
    · exact TextOk.nil h₁
    · split
      · rename_i hcmp
        split
        · rename_i hn
          have h1 := ht.1
          rw [if_pos (String.isEmpty_iff.mp hn)] at h1
          exact anonymous_text hi (p ++ "_") (anonymousDecl d) hp.next (anonymousDecl_path hd) t _ h₂ h1.2
        · rename_i hn
          have h1 := ht.1
          rw [if_neg (fun e => hn (String.isEmpty_iff.mpr e))] at h1
          have ih := section_text hi (p ++ "_") (d ++ "::") hp.next (hd.append path_colons) t { σ₁ with reg := registerRaw env σ₁.reg t } h₂ h1.2
          refine ⟨ih.reg, ?_, ih.cmps, ih.types⟩
          intro x hx
          rw [List.mem_singleton] at hx
          subst hx
          refine ⟨h1.1.ident, fun _ _ _ e => (by cases e), ?_⟩
          intro name e
          cases e
          exact called_ident h₂ hp (raw_tagged h1.2 hcmp)
      · rename_i hcmp
        have h1 := ht.1
        split at h1
        · exact absurd (holds_compared h1.1) hcmp
        · refine ⟨h₂, ?_, by simp, by simp⟩
          intro x hx
          rw [List.mem_singleton] at hx
          subst hx
          refine ⟨h1.1.ident, ?_, fun _ e => (by cases e)⟩
          intro o f k e
          cases e
          exact ⟨path_inert (owner_path h₂ ho hd), format_text t, fun x hx => (by cases hx)⟩
  | .bit s t n k rest, σ, h, ht => by
    unfold genFields
    simp only
    have key : ∀ r : St × List Check, TextOk P inner r.1 r.2 [] →
        TextOk P inner (genFields env owner p d r.1 rest).1 (r.2 ++ (genFields env owner p d r.1 rest).2.1)
          (genFields env owner p d r.1 rest).2.2 := by
      intro r hr
      have ih := fields_text hi owner p d ho hp hd rest r.1 hr.reg ht.2
      refine ⟨ih.reg, fun x hx => ?_, ih.cmps, ih.types⟩
      exact (List.mem_append.mp hx).elim (hr.checks x) (ih.checks x)
    apply key
    split
    · exact TextOk.nil h
    · rename_i hn
      rcases ht.1 with h1 | ⟨h1, h2, h3, h4⟩
      · exact absurd (String.isEmpty_iff.mpr h1) hn
      · have h₂ : RegNames (registerRaw env σ.reg t) := registerRaw_names t h (typeNames_chain h2)
        refine ⟨h₂, ?_, by simp, by simp⟩
        intro x hx
        rw [List.mem_singleton] at hx
        subst hx
        refine ⟨h1.ident, ?_, fun _ e => (by cases e)⟩
        intro o f k e
        cases e
        exact ⟨path_inert (owner_path h₂ ho hd), format_text t, fun x hx => (by cases hx; exact full_ok h3 h4)⟩
end

theorem steps_text (hi : InnerOk P inner) : ∀ (steps : List Step) (σ : St), RegNames σ.reg → (∀ s ∈ steps, StepNames P s) →
    TextOk P inner (genSteps env σ steps).1 [] (genSteps env σ steps).2
  | [], σ, h, _ => TextOk.nil h
  | s :: rest, σ, h, hs => by
    have h1 : TextOk P inner (genStep env σ s).1 [] (genStep env σ s).2 := by
      have hs := hs s (by simp)
      cases s with
      | typedef n u => exact TextOk.nil (register_names h hs)
      | param t =>
        unfold genStep
        simp only
        have h₂ : RegNames (registerRaw env σ.reg t) := registerRaw_names t h (typeNames_chain hs)
        split
        · exact section_text hi "" "" (by intro c hc; cases hc) path_empty t { σ with reg := registerRaw env σ.reg t } h₂ hs
        · exact TextOk.nil h₂
    have h2 := steps_text hi rest (genStep env σ s).1 h1.reg (fun x hx => hs x (by simp [hx]))
    unfold genSteps
    refine ⟨h2.reg, by simp, fun k hk => ?_, fun k hk => ?_⟩
    · exact (List.mem_append.mp hk).elim (h1.cmps k) (h2.cmps k)
    · exact (List.mem_append.mp hk).elim (h1.types k) (h2.types k)

/-- The texts of the comparators of a generation are in order. -/
theorem program_text {steps : List Step} (hi : InnerOk P inner) (h : ∀ s ∈ steps, StepNames P s) : ∀ k ∈ ((genSteps env {} steps).2).map (srcCmp inner), CmpOk k := by
  intro k hk
  obtain ⟨x, hx, rfl⟩ := List.mem_map.mp hk
  exact (steps_text (env := env) hi steps {} (by intro e he; cases he) h).cmps x hx

/-- The types of the comparators of a generation. -/
theorem program_types {steps : List Step} (hi : InnerOk P inner) (h : ∀ s ∈ steps, StepNames P s) : ∀ k ∈ (genSteps env {} steps).2,
    ∃ i kw n fs emb fwd ms, k.ty = .comp i kw n fs emb fwd ms ∧ (n = "" → emb = true → P k.ty) :=
  (steps_text (env := env) hi steps {} (by intro e he; cases he) h).types

end EasyMock.CFile.Txt
