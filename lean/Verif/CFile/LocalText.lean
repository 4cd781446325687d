import Verif.CFile.TypesMembers
import Verif.CFile.LocalModel
import Verif.CFile.CmpDeclared
import Verif.Emit.Once

/-! # CFile: the text of the declaration inside a comparator

The text can stand among the statements of a function: its brackets match, and only the last semicolon stands outside of them. -/

namespace EasyMock.CFile.TypeDecl

open EasyMock.Types (Ty Fields Kw)
open EasyMock.CDecl (Spellable)
open EasyMock.Gen (extraOf)
open EasyMock.CFile.Txt (CName Moves Balanced)
open EasyMock.Emit (written boundOf nameless composite Mirror MirrorDecl)

/-! ## Conditions -/

/-- The brackets of the text in front of the name of a member match, or the text is made from the type. -/
def TextNests (s : String) (t : Ty) : Prop := Balanced s ∨ Spellable false t ∧ s = Types.declPrefix t

/-- The same for all members. -/
def FieldsNest : Fields → Prop
  | .nil => True
  | .field s t _ _ rest =>
    (match t with
     | .comp _ _ _ fs _ _ _ => FieldsNest fs
     | t => TextNests s t) ∧ FieldsNest rest
  | .bit s t _ _ rest => TextNests s t ∧ FieldsNest rest

/-- A type without name the members of which can be spelled. -/
def LocalOk {H : Type} (e : Emit.Env H) : Ty → Prop
  | .comp i kw n fs emb fwd ms => n = "" ∧ emb = true ∧ CName (e.anon (.comp i kw n fs emb fwd ms)) ∧ FieldsOk e fs ∧ FieldsNest fs
  | _ => False

/-! ## Texts which change nothing -/

/-- The brackets of a text match. -/
def Flat (t : List Char) : Prop := ∀ d b, t.foldlM Ctl.stepN ⟨.code, d, b⟩ = some ⟨.code, d, b⟩

/-- The same inside of brackets, where there may be semicolons. -/
def Kept (t : List Char) : Prop := ∀ d b, t.foldlM Ctl.stepN ⟨.code, d + 1, b⟩ = some ⟨.code, d + 1, b⟩

theorem Flat.kept {t : List Char} (h : Flat t) : Kept t := fun d b => h (d + 1) b

theorem Flat.append {t u : List Char} (h : Flat t) (h' : Flat u) : Flat (t ++ u) := by
  intro d b
  rw [List.foldlM_append, h d b]
  exact h' d b

theorem Kept.append {t u : List Char} (h : Kept t) (h' : Kept u) : Kept (t ++ u) := by
  intro d b
  rw [List.foldlM_append, h d b]
  exact h' d b

theorem stepN_step : ∀ (t : List Char) (s : Ctl), (∀ c ∈ t, c ≠ '\n') → t.foldlM Ctl.stepN s = t.foldlM Ctl.step s
  | [], _, _ => rfl
  | c :: t, s, h => by
    rw [List.foldlM_cons, List.foldlM_cons, Ctl.stepN, if_neg (h c (by simp))]
    congr 1
    funext s'
    exact stepN_step t s' (fun x hx => h x (by simp [hx]))

theorem flat_plain {t : String} (h : Plain t) (hm : Moves t 0 0) : Flat t.toList := by
  intro d b
  rw [stepN_step _ _ (fun c hc => (plain_ne (h c hc)).1)]
  exact inert_code d b t.toList 0 h hm.nests

theorem flat_line : Flat ['\n'] := fun _ _ => rfl

theorem kept_end : Kept [';', '\n'] := fun _ _ => rfl

theorem flat_braces {t : List Char} (h : Kept t) : Flat ('{' :: (t ++ ['}'])) := by
  intro d b
  rw [List.foldlM_cons]
  have e : Ctl.stepN ⟨.code, d, b⟩ '{' = some ⟨.code, d + 1, b + 1⟩ := rfl
  rw [e]
  show (t ++ ['}']).foldlM Ctl.stepN ⟨.code, d + 1, b + 1⟩ = _
  rw [List.foldlM_append, h d (b + 1)]
  rfl

/-! ## Members -/

variable {H : Type} {e : Emit.Env H}

theorem cname_plain {n : String} (h : CName n) : Plain n ∧ Moves n 0 0 := ⟨h.ident.type.plain, Txt.ident_moves h.ident 0⟩

theorem dash_char {c : Char} (h : identChar c = true ∨ c = '-') : plainChar c = true ∧ ¬(c = '(' ∨ c = '[') ∧ ¬(c = ')' ∨ c = ']') := by
  rcases h with h | rfl
  · exact ⟨ident_plain h, ident_bracket h⟩
  · decide

theorem int_char (a : Int) : ∀ c ∈ (toString a).toList, identChar c = true ∨ c = '-' := by
  intro c hc
  cases a with
  | ofNat k => exact Or.inl (nat_ok k c hc).2.2
  | negSucc k =>
    have e : (toString (Int.negSucc k)).toList = '-' :: (toString (k + 1)).toList := by
      show ("-" ++ toString (k + 1)).toList = _
      rw [String.toList_append]; rfl
    rw [e] at hc
    rcases List.mem_cons.1 hc with rfl | hc
    · exact Or.inr rfl
    · exact Or.inl (nat_ok _ c hc).2.2

theorem bound_plain (a : Int) : Plain (boundOf a) ∧ Moves (boundOf a) 0 0 := by
  unfold boundOf
  split
  · exact ⟨Txt.plain_empty, Moves.empty 0⟩
  · have h1 : Plain (toString a) := fun c hc => (dash_char (int_char a c hc)).1
    have h2 : Moves (toString a) 1 1 := Moves.flat (fun c hc => (dash_char (int_char a c hc)).2) 1
    refine ⟨(Plain.append (Plain.append ?_ h1) ?_), (Moves.append (Moves.append (b := 1) ?_ h2) ?_)⟩
    · unfold Plain; decide +kernel
    · unfold Plain; decide +kernel
    · refine Moves.lit ['['] (by decide +kernel) (fun d r => ?_)
      show nests (0 + d) ('[' :: r) = _
      simp only [nests, or_true, if_true]
      rw [Nat.zero_add, Nat.add_comm]
    · refine Moves.lit [']'] (by decide +kernel) (fun d r => ?_)
      show nests (1 + d) (']' :: r) = _
      have h1 : ¬(']' = '(' ∨ ']' = '[') := by decide
      simp only [nests, h1, or_true, if_false, if_true]
      have : (1 + d != 0) = true := by simp
      rw [this, Bool.true_and, show 1 + d - 1 = 0 + d by omega]

theorem width_plain (k : Nat) : Plain (":" ++ toString k) ∧ Moves (":" ++ toString k) 0 0 := by
  have h1 : Plain (toString k) := fun c hc => ident_plain (nat_ok k c hc).2.2
  have h2 : Moves (toString k) 0 0 := Moves.flat (fun c hc => ident_bracket (nat_ok k c hc).2.2) 0
  exact ⟨Plain.append (by unfold Plain; decide +kernel) h1, Moves.append (Moves.flat (by decide +kernel) 0) h2⟩

/-- What the text in front of a name opens is closed by the text behind it. -/
theorem spelled_nests {s : String} {t : Ty} (h : Spelled e s t) (hs : TextNests s t) :
    Plain (written e s t) ∧ ∀ k, ∃ j, Moves (written e s t) 0 j ∧ Txt.ExtraOk (extraOf false k t).1 j := by
  have made : Spellable false t → written e s t = Types.declPrefix t →
      Plain (written e s t) ∧ ∀ k, ∃ j, Moves (written e s t) 0 j ∧ Txt.ExtraOk (extraOf false k t).1 j := by
    intro ht hw
    rw [hw]
    have hp := Txt.prefix_ok t false ht
    exact ⟨hp.starts.plain, fun k => ⟨_, hp.moves, Txt.extra_ok t false k ht⟩⟩
  cases h with
  | type ht hw =>
    refine made ht ?_
    unfold written
    rw [(sem_in e t false ht).1]
    rcases hw with rfl | rfl
    · rw [if_pos rfl]; simp
    · split <;> simp
  | source h1 hx hf hr =>
    obtain ⟨c, r, e1, -⟩ := hf
    have h0 : s ≠ "" := by rintro rfl; cases e1
    have hwr : written e s t = s := by
      unfold written
      rw [h1, if_neg h0]; simp
    rcases hs with hb | ⟨ht, hd⟩
    · rw [hwr]
      exact ⟨hb.1, fun k => ⟨0, Moves.of hb.2 0, by rw [hx k]; exact Txt.extra_none⟩⟩
    · exact made ht (by rw [hwr, hd])
  | @enum i vs h0 hn =>
    subst h0
    have hwr : written e "" (.enum i "" vs) = "enum" ++ " " ++ e.anon (.enum i "" vs) := by
      unfold written
      rw [if_pos rfl, nameless, if_pos rfl, Types.declPrefix, String.append_empty, kw_enum]
      simp only [String.append_assoc]
    rw [hwr]
    refine ⟨Plain.append (by unfold Plain; decide +kernel) (cname_plain hn).1, fun k => ⟨0, ?_, Txt.extra_none⟩⟩
    exact Moves.append (Moves.flat (by decide +kernel) 0) (cname_plain hn).2

/-- A member and the end of its line. -/
theorem member_kept {s n : String} {t : Ty} (num : Ty → String → Nat) (h : Spelled e s t) (hs : TextNests s t) (hn : Plain n ∧ Moves n 0 0) :
    Kept (written e s t ++ " " ++ n ++ memberExtra num t n ++ ";\n").toList := by
  obtain ⟨h1, h2⟩ := spelled_nests h hs
  obtain ⟨j, h3, h4⟩ := h2 (num t n)
  have hn' : Moves n j j := by
    have := hn.2.shift j
    rwa [Nat.zero_add] at this
  rw [String.toList_append, show ";\n".toList = [';', '\n'] by decide +kernel]
  refine Kept.append (Flat.kept (flat_plain ?_ ?_)) kept_end
  · exact ((h1.append Txt.plain_space).append hn.1).append h4.plain
  · exact ((h3.append (Txt.moves_space j)).append hn').append h4.moves

/-- A composite type with its members, up to the brace behind them. -/
theorem record_flat {kw : Kw} {m : String} {M : List Char} (hm : m = "" ∨ CName m) (h : Kept M) :
    Flat ((kw.str ++ " " ++ m ++ "\n").toList ++ '{' :: (("\n    ".toList ++ M ++ "\n".toList) ++ ['}'])) := by
  have hk : CName kw.str := CName.of (Txt.kw_text kw).1 (Txt.kw_text kw).2
  have hm' : Plain m ∧ Moves m 0 0 := by
    rcases hm with rfl | hm
    · exact ⟨Txt.plain_empty, Moves.empty 0⟩
    · exact cname_plain hm
  have hl : Kept "\n".toList := by rw [show "\n".toList = ['\n'] by decide +kernel]; exact flat_line.kept
  have hl4 : Kept "\n    ".toList := by
    rw [show "\n    ".toList = ['\n'] ++ "    ".toList by decide +kernel]
    exact (flat_line.append (flat_plain (by unfold Plain; decide +kernel) (Moves.flat (by decide +kernel) 0))).kept
  refine Flat.append ?_ (flat_braces ((hl4.append h).append hl))
  rw [String.toList_append, show "\n".toList = ['\n'] by decide +kernel]
  refine Flat.append (flat_plain ?_ ?_) flat_line
  · exact ((cname_plain hk).1.append Txt.plain_space).append hm'.1
  · exact ((cname_plain hk).2.append (Txt.moves_space 0)).append hm'.2

theorem record_split (num : Ty → String → Nat) (kw : Kw) (m field : String) (ms : Emit.Members) :
    (recordText num field (.mk kw m true ms)).toList =
      (((kw.str ++ " " ++ m ++ "\n").toList ++ '{' :: (("\n    ".toList ++ (membersText num ms).toList ++ "\n".toList) ++ ['}'])) ++
        (tailText field).toList) ++ [';', '\n'] := by
  rw [recordText, if_pos rfl]
  show (_ ++ (tailText field) ++ ";\n").toList = _
  simp only [String.toList_append, List.append_assoc]
  rw [show "\n{\n".toList = ['\n', '{', '\n'] by decide +kernel, show "\n    ".toList = '\n' :: "    ".toList by decide +kernel,
    show "\n}".toList = ['\n', '}'] by decide +kernel, show "\n".toList = ['\n'] by decide +kernel, show ";\n".toList = [';', '\n'] by decide +kernel]
  simp only [List.cons_append, List.nil_append, List.append_assoc]

theorem tail_flat {field : String} (h : Plain field ∧ Moves field 0 0) : Flat (tailText field).toList := by
  unfold tailText
  split
  · exact fun _ _ => rfl
  · exact flat_plain (Txt.plain_space.append h.1) ((Txt.moves_space 0).append h.2)

theorem sub_kept {num : Ty → String → Nat} {kw : Kw} {field : String} {ms : Emit.Members} (h : Kept (membersText num ms).toList)
    (hf : Plain field ∧ Moves field 0 0) : Kept (recordText num field (.mk kw "" true ms)).toList := by
  rw [record_split]
  exact Kept.append (Flat.kept ((record_flat (Or.inl rfl) h).append (tail_flat hf))) kept_end

theorem field_plain {n : String} (a : Int) (h : CName n) : Plain (n ++ boundOf a) ∧ Moves (n ++ boundOf a) 0 0 :=
  ⟨(cname_plain h).1.append (bound_plain a).1, (cname_plain h).2.append (bound_plain a).2⟩

theorem members_plain {num : Ty → String → Nat} {d n : String} {t : Ty} {rest : Emit.Members} (h : Kept (d ++ " " ++ n ++ memberExtra num t n ++ ";\n").toList)
    (hr : Kept (membersText num rest).toList) : Kept (membersText num (.plain d t n rest)).toList := by
  rw [membersText, String.toList_append]
  exact h.append hr

theorem bit_kept {s n : String} {t : Ty} {k : Nat} {rest : Emit.Members} (num : Ty → String → Nat) (hn : n = "" ∨ CName n) (h : Spelled e s t)
    (hs : TextNests s t) (hr : Kept (membersText num rest).toList) :
    Kept (membersText num (.plain (Emit.declarator e s t) t (n ++ ":" ++ toString k) rest)).toList := by
  refine members_plain ?_ hr
  rw [Emit.declarator_written]
  refine member_kept num h hs ?_
  rw [String.append_assoc]
  rcases hn with rfl | hn
  · rw [String.empty_append]; exact width_plain k
  · exact ⟨(cname_plain hn).1.append (width_plain k).1, (cname_plain hn).2.append (width_plain k).2⟩

theorem field_kept {s n : String} {t : Ty} {a : Int} {rest : Emit.Members} (num : Ty → String → Nat) (h : CName n ∧ Spelled e s t)
    (hs : TextNests s t) (hr : Kept (membersText num rest).toList) :
    Kept (membersText num (.plain (Emit.declarator e s t) t (n ++ Emit.boundText a) rest)).toList := by
  refine members_plain ?_ hr
  rw [Emit.declarator_written]
  exact member_kept num h.2 hs (field_plain a h.1)

theorem members_kept (num : Ty → String → Nat) : ∀ fs : Fields, FieldsOk e fs → FieldsNest fs → Kept (membersText num (localMembers e fs)).toList
  | .nil, _, _ => fun _ _ => rfl
  | .field s (.comp i kw m fs emb fwd ms) n a rest, h, hs => by
    obtain ⟨⟨-, -, hn, hfs⟩, hr⟩ := h
    rw [localMembers, membersText, String.toList_append]
    refine Kept.append (sub_kept (members_kept num fs hfs hs.1) ?_) (members_kept num rest hr hs.2)
    rcases hn with rfl | hn
    · exact ⟨Txt.plain_empty, Moves.empty 0⟩
    · rw [if_neg (by simpa using hn.word.1)]
      exact field_plain a hn
  | .bit s (.comp ..) n k rest, h, _ => by cases h.1
  | .field s (.ctype ..) n a rest, h, hs | .field s (.ptr ..) n a rest, h, hs | .field s (.ref ..) n a rest, h, hs
  | .field s (.const ..) n a rest, h, hs | .field s (.tdef ..) n a rest, h, hs | .field s (.enum ..) n a rest, h, hs
  | .field s (.incomplete ..) n a rest, h, hs | .field s (.fn ..) n a rest, h, hs =>
    field_kept num h.1 hs.1 (members_kept num rest h.2 hs.2)
  | .bit s (.ctype ..) n a rest, h, hs | .bit s (.ptr ..) n a rest, h, hs | .bit s (.ref ..) n a rest, h, hs
  | .bit s (.const ..) n a rest, h, hs | .bit s (.tdef ..) n a rest, h, hs | .bit s (.enum ..) n a rest, h, hs
  | .bit s (.incomplete ..) n a rest, h, hs | .bit s (.fn ..) n a rest, h, hs =>
    bit_kept num h.2.1 h.2.2.1 hs.1 (members_kept num rest h.2.2.2.2 hs.2)

/-! ## The members, read in place -/

mutual
/-- The members with the types inside them declared in place: structures and unions inside have no tags of their own. -/
def inPlace : Fields → Fields
  | .nil => .nil
  | .field s t n a rest => .field s (inPlaceTy t) n a (inPlace rest)
  | .bit s t n k rest => .bit s (inPlaceTy t) n k (inPlace rest)

/-- The same for the type of a member. -/
def inPlaceTy : Ty → Ty
  | .comp i kw _ fs emb fwd ms => .comp i kw "" (inPlace fs) emb fwd ms
  | t => t
end

section
variable {H : Type} (e : Emit.Env H)

theorem plain_place {t : Ty} (h : composite t = false) : inPlaceTy t = t := by
  cases t <;> first | rfl | cases h

theorem local_plain {t : Ty} (h : composite t = false) (d n : String) (a : Int) (rest : Fields) : localMembers e (.field d t n a rest) =
    .plain (Emit.declarator e d t) t (n ++ Emit.boundText a) (localMembers e rest) := by
  cases t <;> first | rfl | cases h

theorem local_bit {t : Ty} (h : composite t = false) (d n : String) (k : Nat) (rest : Fields) : localMembers e (.bit d t n k rest) =
    .plain (Emit.declarator e d t) t (n ++ ":" ++ toString k) (localMembers e rest) := by
  cases t <;> first | rfl | cases h

theorem local_mirror : ∀ fs : Fields, Mirror e (inPlace fs) (localMembers e fs)
  | .nil => trivial
  | .field s (.comp i kw m fs emb fwd ms) n a rest => by
    refine ⟨⟨rfl, rfl, fun _ => rfl, fun _ => local_mirror fs⟩, ?_, local_mirror rest⟩
    by_cases h : n = ""
    · subst h; rfl
    · rw [if_neg h, if_neg (by simpa using h)]; rfl
  | .bit s (.comp i kw m fs emb fwd ms) n k rest => ⟨⟨rfl, rfl, fun _ => rfl, fun _ => local_mirror fs⟩, rfl, local_mirror rest⟩
  | .field s (.ctype ..) n a rest | .field s (.ptr ..) n a rest | .field s (.ref ..) n a rest | .field s (.const ..) n a rest
  | .field s (.tdef ..) n a rest | .field s (.enum ..) n a rest | .field s (.incomplete ..) n a rest | .field s (.fn ..) n a rest =>
    ⟨rfl, Emit.declarator_written e _ _, rfl, rfl, local_mirror rest⟩
  | .bit s (.ctype ..) n a rest | .bit s (.ptr ..) n a rest | .bit s (.ref ..) n a rest | .bit s (.const ..) n a rest
  | .bit s (.tdef ..) n a rest | .bit s (.enum ..) n a rest | .bit s (.incomplete ..) n a rest | .bit s (.fn ..) n a rest =>
    ⟨rfl, Emit.declarator_written e _ _, rfl, rfl, local_mirror rest⟩

theorem place_ok : ∀ fs : Fields, FieldsOk e fs → FieldsOk e (inPlace fs)
  | .nil, _ => trivial
  | .field s (.comp i kw m fs emb fwd ms) n a rest, h => by
    obtain ⟨⟨-, -, h3, h4⟩, h5⟩ := h
    exact ⟨⟨Or.inl rfl, fun _ => rfl, h3, place_ok fs h4⟩, place_ok rest h5⟩
  | .bit s (.comp i kw m fs emb fwd ms) n k rest, h => by cases h.1
  | .field s (.ctype ..) n a rest, h | .field s (.ptr ..) n a rest, h | .field s (.ref ..) n a rest, h | .field s (.const ..) n a rest, h
  | .field s (.tdef ..) n a rest, h | .field s (.enum ..) n a rest, h | .field s (.incomplete ..) n a rest, h | .field s (.fn ..) n a rest, h =>
    ⟨h.1, place_ok rest h.2⟩
  | .bit s (.ctype ..) n a rest, h | .bit s (.ptr ..) n a rest, h | .bit s (.ref ..) n a rest, h | .bit s (.const ..) n a rest, h
  | .bit s (.tdef ..) n a rest, h | .bit s (.enum ..) n a rest, h | .bit s (.incomplete ..) n a rest, h | .bit s (.fn ..) n a rest, h =>
    ⟨rfl, h.2.1, h.2.2.1, h.2.2.2.1, place_ok rest h.2.2.2.2⟩

end

theorem kw_name (kw : Kw) : CName kw.str := CName.of (Txt.kw_text kw).1 (Txt.kw_text kw).2

/-- The names made for types without name. -/
theorem anonymous_name (env : StructCmp.Env) (t : Ty) : CName (StructCmp.anonymousName env t) := by
  have hid := Txt.anonymous_ident env t
  refine CName.of ⟨fun h => hid.1 (by rw [h]; rfl), fun c hc => ident_wordChar (hid.2 c hc), ?_⟩ hid
  unfold StructCmp.anonymousName
  rw [String.toList_append, show "easymock_generated_anonymous_type_hash_".toList = 'e' :: "asymock_generated_anonymous_type_hash_".toList by decide +kernel,
    List.cons_append]
  rfl

/-! ## The declaration -/

theorem local_record (e : Emit.Env H) (num : Ty → String → Nat) (i : Bool) (kw : Kw) (fs : Fields) (fwd : Bool) (ms : Types.Methods) :
    localText e num (.comp i kw "" fs true fwd ms) =
      recordText num "" (.mk kw (e.anon (.comp i kw "" fs true fwd ms)) true (localMembers e fs)) := by
  have hanon : Types.isAnonymous (.comp i kw "" fs true fwd ms) = true := by cases kw <;> rfl
  have htag : Emit.tag e (.comp i kw "" fs true fwd ms) = e.anon (.comp i kw "" fs true fwd ms) := by
    unfold Emit.tag
    rw [show (Types.attrs (.comp i kw "" fs true fwd ms)).name = "" by cases kw <;> rfl]; rfl
  unfold localText
  rw [hanon, show StructCmp.embedded (.comp i kw "" fs true fwd ms) = true from rfl, if_pos (by rfl)]
  rw [localDecl, htag]

theorem local_inner (num : Ty → String → Nat) {t : Ty} (h : LocalOk e t) : InnerText (localText e num t).toList := by
  match t, h with
  | .comp i kw _ fs _ fwd ms, ⟨rfl, rfl, hc, hf, hs⟩ =>
    obtain ⟨ts, h1, h2, h3, h4⟩ := members_read e num _ _ (local_mirror e fs) (place_ok e fs hf)
    obtain ⟨T, head, body, tail, eT, p, -⟩ := record_piece (num := num) (kw := kw) (field := "") (Or.inr hc)
      (by decide +kernel) (by decide +kernel) (by decide +kernel) h1 h2 h3
    rw [local_record]
    have hk : CName kw.str := kw_name kw
    refine ⟨⟨_, record_split num kw _ "" _, ?_, ?_, ?_, ?_⟩, ?_⟩
    · exact ((record_flat (Or.inr hc) (members_kept num fs hf hs)).append (tail_flat ⟨Txt.plain_empty, Moves.empty 0⟩)) 0 0
    · have hh : ∃ c r, kw.str.toList = c :: r ∧ blank c = false ∧ c ≠ '{' := by
        cases kw <;> exact ⟨_, _, rfl, by decide, by decide⟩
      obtain ⟨c, r, e1, e2, e3⟩ := hh
      have key : ∀ m r : List Char, ∃ c' r', (kw.str.toList ++ m) ++ r = c' :: r' ∧ blank c' = false ∧ c' ≠ '{' :=
        fun m r => ⟨c, _, by rw [e1]; rfl, e2, e3⟩
      simp only [String.toList_append, List.append_assoc]
      simpa only [List.append_assoc] using key _ _
    · show ∀ x ∈ List.getLast? (_ ++ (tailText "").toList), _
      rw [show (tailText "").toList = [] from rfl, List.append_nil, show ∀ (a b : List Char), a ++ '{' :: (b ++ ['}']) = (a ++ '{' :: b) ++ ['}'] by simp,
        List.getLast?_concat]
      intro x hx
      cases hx
      decide
    · have e1 : ∀ r : List Char, control (kw.str.toList ++ ' ' :: r) = false := by
        intro r
        rw [control_stop (by decide)]
        cases kw <;> decide +kernel
      simp only [String.toList_append, List.append_assoc]
      exact e1 _
    · rw [eT]
      intro hm
      rcases List.mem_append.1 hm with hm | hm
      · exact absurd (p.text _ hm) (by decide)
      · exact absurd hm (by decide)

/-- The declarations inside comparators can stand there. -/
theorem local_innerOk (num : Ty → String → Nat) : Txt.InnerOk (LocalOk e) (localText e num) := by
  refine ⟨fun i kw n fs emb fwd ms h => ?_, fun t h => local_inner num h⟩
  have h1 : Types.isAnonymous (.comp i kw n fs emb fwd ms) = n.isEmpty := by cases kw <;> cases n <;> rfl
  unfold localText
  rw [h1, show StructCmp.embedded (.comp i kw n fs emb fwd ms) = emb from rfl, if_neg]
  rintro h0
  rw [Bool.and_eq_true] at h0
  rcases h with h | h
  · exact h (by simpa using h0.1)
  · rw [h] at h0; cases h0.2

end EasyMock.CFile.TypeDecl
