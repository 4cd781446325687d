import Verif.CFile.TypedText
import Verif.Props.TypedProgram

/-! # CFile: the texts of the functions of a program

The functions which the parser makes of a program in C fulfil `FunText`. -/

namespace EasyMock.CFile.Txt

open EasyMock.Gen
open EasyMock.Types (Ty Params FunDecl)
open EasyMock.Parser (Decls Q CTy MacroInfo FnD ParamD Den NoInc PointsToFn isFn_iff)
open EasyMock.CDecl

/-! ## The text of a result -/

theorem split_chars : ∀ (s : List Char) (c : Char), c ∈ s → c = ' ' ∨ ∃ w ∈ Parser.splitBlank s, c ∈ w
  | x :: s, c, h => by
    rw [Parser.splitBlank]
    rcases List.mem_cons.mp h with rfl | h
    · by_cases hx : c = ' '
      · exact Or.inl hx
      · refine Or.inr ?_
        rw [if_neg hx]
        split
        · exact ⟨_, List.mem_singleton.mpr rfl, by simp⟩
        · exact ⟨_, List.mem_cons_self .., by simp⟩
    · rcases split_chars s c h with h | ⟨w, hw, hc⟩
      · exact Or.inl h
      · refine Or.inr ?_
        split
        · exact ⟨w, by simp [hw], hc⟩
        · split
          · rename_i e; rw [e] at hw; cases hw
          · rename_i v vs e
            rw [e] at hw
            rcases List.mem_cons.mp hw with rfl | hw
            · exact ⟨_, List.mem_cons_self .., by simp [hc]⟩
            · exact ⟨w, by simp [hw], hc⟩

theorem words_chars {s : List Char} {c : Char} (h : c ∈ s) : c = ' ' ∨ ∃ w ∈ Parser.words s, c ∈ w := by
  rcases split_chars s c h with h | ⟨w, hw, hc⟩
  · exact Or.inl h
  · refine Or.inr ⟨w, List.mem_filter.mpr ⟨hw, ?_⟩, hc⟩
    cases w with
    | nil => cases hc
    | cons => rfl

/-- The first word of a text which does not begin with a blank. -/
theorem words_front {c : Char} {s : List Char} (h : c ≠ ' ') :
    (Parser.words (c :: s)).head? = some ((c :: s).takeWhile (fun x => x != ' ')) := by
  have key : ∀ s : List Char, (Parser.splitBlank s).head? = some (s.takeWhile (fun x => x != ' ')) := by
    intro s
    induction s with
    | nil => rfl
    | cons x s ih =>
      rw [Parser.splitBlank]
      by_cases hx : x = ' '
      · rw [if_pos hx, List.takeWhile_cons_of_neg (by simp [hx])]; rfl
      · rw [if_neg hx, List.takeWhile_cons_of_pos (by simp [hx])]
        cases e : Parser.splitBlank s with
        | nil => exact absurd e (Parser.splitBlank_ne_nil s)
        | cons w ws =>
          rw [e] at ih
          have := Option.some.inj ih
          show some (x :: w) = _
          rw [this]
  have h1 := key (c :: s)
  unfold Parser.words
  cases e : Parser.splitBlank (c :: s) with
  | nil => exact absurd e (Parser.splitBlank_ne_nil _)
  | cons w ws =>
    rw [e] at h1
    have h1 : w = _ := Option.some.inj h1
    rw [List.filter_cons_of_pos ?_]
    · rw [h1]; rfl
    · rw [h1, List.takeWhile_cons_of_pos (by simp [h])]; rfl

theorem take_same : ∀ (l : List Char), (∀ y ∈ l.takeWhile (fun x => x != ' '), wordChar y = true) →
    l.takeWhile wordChar = l.takeWhile (fun x => x != ' ')
  | [], _ => rfl
  | c :: l, h => by
    by_cases hc : c = ' '
    · subst hc; rfl
    · rw [List.takeWhile_cons_of_pos (by simpa using hc)] at h
      rw [List.takeWhile_cons_of_pos (h c (by simp)), List.takeWhile_cons_of_pos (p := fun x => x != ' ') (by simpa using hc),
        take_same l (fun y hy => h y (by simp [hy]))]

/-- Words of identifiers and stars with blanks between them. -/
theorem words_text {s : List Char} {kept : List (List Char)} (hw : Parser.words s = kept) (ht : Parser.Tight s)
    (hk : ∀ w ∈ kept, Parser.TypeWord w) (hh : ∃ c w r, kept = (c :: w) :: r ∧ wordChar c = true) :
    TypeText s ∧ some (s.takeWhile wordChar) = kept.head? := by
  have hch : ∀ c ∈ s, identChar c = true ∨ c = '*' ∨ c = ' ' := by
    intro c hc
    rcases words_chars hc with h | ⟨w, hw', hc⟩
    · exact Or.inr (Or.inr h)
    · rw [hw] at hw'
      rcases (hk w hw').2 with h | h
      · left
        have := h c hc
        simpa [identChar] using this
      · exact Or.inr (Or.inl (h c hc))
  obtain ⟨c, w, r, hkept, hc⟩ := hh
  have hne : s ≠ [] := by
    rintro rfl
    rw [hkept] at hw
    simp [Parser.words, Parser.splitBlank] at hw
  obtain ⟨x, s', rfl⟩ := List.exists_cons_of_ne_nil hne
  have hx : x ≠ ' ' := by
    have := ht.1 x s' rfl
    rintro rfl
    cases this
  have hfront := words_front (s := s') hx
  rw [hw, hkept, List.head?_cons, Option.some.injEq, List.takeWhile_cons_of_pos (by simpa using hx)] at hfront
  obtain ⟨rfl, hwt⟩ := List.cons.inj hfront
  have hword : ∀ y ∈ c :: w, identChar y = true := by
    have hm := (hk (c :: w) (by simp [hkept])).2
    rcases hm with h | h
    · intro y hy
      have := h y hy
      simpa [identChar] using this
    · have := h c (by simp)
      rw [this] at hc
      cases hc
  refine ⟨⟨?_, ?_, ⟨c, s', rfl, Or.inl (hword c (by simp))⟩, ?_⟩, ?_⟩
  · intro y hy
    rcases hch y hy with h | rfl | rfl
    · exact ident_plain h
    · decide
    · decide
  · have := nests_flat (c :: s') (by
      intro y hy
      rcases hch y hy with h | rfl | rfl
      · constructor
        · rintro (rfl | rfl) <;> cases h
        · rintro (rfl | rfl) <;> cases h
      · decide
      · decide) 0 []
    rw [List.append_nil] at this
    rw [this]; rfl
  · intro y hy
    obtain ⟨r', hr⟩ := List.getLast?_eq_some_iff.mp hy
    exact ht.2 y r' hr
  · rw [hkept, List.head?_cons]
    congr 1
    have e := take_same (c :: s') (by
      rw [List.takeWhile_cons_of_pos (by simpa using hx), ← hwt]
      intro y hy
      have h := hword y hy
      unfold identChar at h
      unfold wordChar
      rw [h]; rfl)
    rw [e, List.takeWhile_cons_of_pos (by simpa using hx), ← hwt]

/-! ## The first word of a type -/

/-- The words which name the type at the end of the pointers, qualifiers and functions. -/
def base : Sem → List (List Char)
  | .named ws => ws
  | .qual _ s | .ptr s | .ref s | .arr _ s | .fn s _ _ => base s

theorem first_append {a b : String} (h : ∀ c r, b.toList = c :: r → wordChar c = false) : firstWord (a ++ b) = firstWord a := by
  unfold firstWord
  rw [String.toList_append]
  generalize a.toList = l
  induction l with
  | nil =>
    cases hb : b.toList with
    | nil => rfl
    | cons c r => rw [List.nil_append, List.takeWhile_cons_of_neg (by rw [h c r hb]; decide)]; rfl
  | cons x l ih =>
    rw [List.cons_append]
    by_cases hx : wordChar x = true
    · rw [List.takeWhile_cons_of_pos hx, List.takeWhile_cons_of_pos hx, ih]
    · rw [List.takeWhile_cons_of_neg hx, List.takeWhile_cons_of_neg hx]

theorem first_word {n : String} (h : Word n) : firstWord n = n.toList := by
  unfold firstWord
  have h := h.2.1
  revert h
  generalize n.toList = l
  intro h
  induction l with
  | nil => rfl
  | cons x l ih => rw [List.takeWhile_cons_of_pos (h x List.mem_cons_self), ih (fun y hy => h y (List.mem_cons_of_mem x hy))]

theorem first_two {k n : String} (hk : Word k) (h : Word n) : firstWord (Types.trimR (k ++ " " ++ n)) = k.toList := by
  rw [Types.keyword_text k n (CDecl.last_word hk) hk.1 (CDecl.word_ident h), if_neg h.1, String.append_assoc, first_append, first_word hk]
  intro c r e
  rw [String.toList_append] at e
  have : c = ' ' := by
    have e : ' ' :: n.toList = c :: r := e
    exact (List.cons.inj e).1.symm
  subst this; rfl

/-- The text of a type begins with the words which name it. -/
theorem first_prefix : ∀ (t : Ty) (b : Bool), Spellable b t → some (firstWord (Types.declPrefix t)) = (base (semOf t)).head?
  | .ctype c n i, _, _ => by rw [Types.declPrefix, semOf]; cases c <;> decide +kernel
  | .ptr _ t, _, h => by
    rw [Types.declPrefix, first_append (by intro c r e; cases e; rfl)]
    exact first_prefix t true h
  | .ref _ t, _, h => by
    rw [Types.declPrefix, first_append (by intro c r e; cases e; rfl)]
    exact first_prefix t true h.1
  | .const i t, b, h => by
    rw [Types.declPrefix, trim_prefix h.1 h.2, String.append_assoc, first_append (by intro c r e; cases e; rfl)]
    exact first_prefix t b h.1
  | .tdef _ n _, _, h => by rw [Types.declPrefix, first_word h.1]; rfl
  | .enum _ n _, _, h => by
    rw [Types.declPrefix, show "enum " = "enum" ++ " " by decide +kernel, first_two CDecl.word_enum h]; rfl
  | .comp _ kw n _ _ _ _, _, h | .incomplete _ kw n, _, h => by
    rw [Types.declPrefix, CDecl.kw_text, first_two (CDecl.word_kw kw) h]; rfl
  | .fn _ _ _ r _, _, h => by
    rw [Types.declPrefix, first_append (by intro c r e; cases e; rfl)]
    exact first_prefix r false h.2.2.1

/-! ## The functions of a program -/

/-- A result which the generated files can declare: `void` or a value of a plain type; its text consists of identifiers and stars,
    or it is a pointer to a function. -/
structure ResultText (D : Decls) (ms : MacroInfo) (d : FnD) (R : Sem) : Prop where
  plain : PlainQ D false d.ret
  noRef : CNoRef d.ret.ty
  value : (∃ v, d.ret = .mk false v (.builtin .void)) ∨ Value d.ret
  text : (∃ kept, ResultWords ms d.retText kept ∧
      read (String.ofList ([' '].intercalate kept) ++ " " ++ d.name) = some (d.name.toList, R) ∧
      (CNoFn d.ret.ty ∨ ∃ n k v t, d.ret = .mk false v (.tdef n (.mk k false t)) ∧ n ≠ "" ∧ ¬ CFn t ∧ ¬ CArr t) ∧
      (∃ c w r, kept = (c :: w) :: r ∧ wordChar c = true) ∧ kept.head? ≠ some "namespace".toList) ∨
    (PointsToFn d.ret.ty ∧ (d.ret.isConst = true ∨ NoTdef d.ret.ty) ∧ R = spellQ D d.ret ∧
      (base R).head? ≠ some "namespace".toList ∧ (base R).head? ≠ some "static".toList)

/-- A parameter which is no reference; the text is that of a type if it is written with a macro. -/
structure ParamOk (D : Decls) (p : ParamD) : Prop where
  noRef : CNoRef p.q.ty
  name : p.name = "" ∨ Ident p.name.toList
  text : ∀ ty, p.macroText = some ty → PlainQ D false (dropVolatile p.q) ∧ TypeText (Parser.declareString false ty)

/-- A function of a program in C which the generated files can declare. -/
structure FnText (D : Decls) (ms : MacroInfo) (d : FnD) (Ss : Sems) (R : Sem) : Prop where
  free : d.member = none
  name : Ident d.name.toList ∧ Word d.name
  origin : '\n' ∉ d.originFile.toList ∧ '\\' ∉ d.originFile.toList
  params : ParamsAre D d.params Ss
  plain : ∀ p ∈ d.params, ParamOk D p
  result : ResultText D ms d R

theorem params_text {D : Decls} {c : Config} (hc : c.cpp = false) : ∀ (ds : List ParamD) (ps : Params) (Ss : Sems), ParamsOf D ds ps →
    ParamsAre D ds Ss → (∀ p ∈ ds, ParamOk D p) → ParamsText c ps
  | [], _, _, .nil, .nil, _ => .nil
  | d :: ds, _, _, .cons (s := s) (ps := ps) (t := t) h1 h2 h3 h4 h5, .cons (Ss := Ss) hn h h', hr => by
    have hd := hr d (by simp)
    refine .cons ?_ (params_text hc ds ps Ss h5 h' (fun x hx => hr x (by simp [hx])))
    have hnr := den_noRef h1 hd.noRef
    have key : Spellable false t → Written s t → ParamText c s t d.name := fun hs hw =>
      ⟨hs, hw, hd.name, fun ho => opens_noFn t (out_noFn hs hnr ho), fun h => (by rw [hc] at h; cases h),
        fun h => (by rw [noRef_reference hnr] at h; cases h)⟩
    match h with
    | .type hm hp _ =>
      exact key (den_spell (dropVolatile d.q) true false t (den_volatile h1) h2 hp).1 (Or.inr (Or.inl (h3 hm)))
    | .text ty hm hf _ _ _ _ =>
      obtain ⟨hp, ht⟩ := hd.text ty hm
      refine key (den_spell (dropVolatile d.q) true false t (den_volatile h1) h2 hp).1 (Or.inr (Or.inr ⟨?_, opens_noFn t (den_noFn h1 hf)⟩))
      rw [h4 ty hm]
      unfold Parser.declaratorString
      rw [show d.q.isFn = false by cases hq : d.q with | mk k v c => rw [hq] at hf; exact isFn_noFn c hf]
      rw [if_pos (by simp), if_neg, String.toList_ofList]
      · exact ht
      · intro he
        obtain ⟨x, r, hx, -⟩ := ht.first
        rw [hx] at he
        cases he

/-- The text of a result which consists of words. -/
theorem result_words {D : Decls} {ms : MacroInfo} {d : FnD} {f : FunDecl} {R : Sem} {kept : List (List Char)} (h : FnOf D ms d f)
    (hn : Word d.name) (hw : ResultWords ms d.retText kept)
    (hrd : read (String.ofList ([' '].intercalate kept) ++ " " ++ d.name) = some (d.name.toList, R))
    (hty : CNoFn d.ret.ty ∨ ∃ n k v t, d.ret = .mk false v (.tdef n (.mk k false t)) ∧ n ≠ "" ∧ ¬ CFn t ∧ ¬ CArr t)
    (hh : ∃ c w r, kept = (c :: w) :: r ∧ wordChar c = true) :
    TypeText f.retStr.toList ∧ opens f.ret = 0 ∧ some (firstWord f.retStr) = kept.head? ∧ "static".toList ∉ kept := by
  obtain ⟨h1, h2⟩ := result_read hw hrd hn
  have hstr : f.retStr = String.ofList (Parser.returnString ms d.name.toList d.retText) ∧ opens f.ret = 0 := by
    rw [h.retStr]
    unfold Parser.declaratorString
    rcases hty with hty | ⟨n, k1, v1, t1, hq, hne, hcf, hca⟩
    · rw [show d.ret.isFn = false by cases hq : d.ret with | mk k v c => rw [hq] at hty; exact isFn_noFn c hty]
      rw [if_pos (by simp), if_neg (by simpa using h2)]
      exact ⟨rfl, opens_noFn _ (den_noFn h.ret hty)⟩
    · have hden := h.ret
      rw [hq] at hden
      have ho : (CTy.tdef n (.mk k1 false t1)).outer = n := by simp [CTy.outer, hne]
      obtain ⟨u, hu⟩ : ∃ u, f.ret = .tdef false n u := by
        match hden with
        | .plain hden =>
          rw [ho] at hden
          exact denT_named hden (fun h => hcf ((canon_fn t1).2 h)) (fun h => hca ((canon_arr t1).2 h)) h.retNI hne
      rw [hu]
      refine ⟨?_, rfl⟩
      rw [if_pos (by simp [Types.attrs]), if_neg (by simpa using h2)]
  obtain ⟨ws, tail, keep, he, rfl, hne, hty', ht, hid, hp, hs, hk⟩ := hw
  have h70 := Parser.C70_partial ms d.name.toList tail ws keep hne hty' ht hid hp hs hk
  rw [← he] at h70
  obtain ⟨a, b⟩ := words_text h70 (Parser.trim_spec _).choose_spec.choose_spec.2.2.2
    (fun w hw => hty' w (List.mem_filter.mp hw).1) hh
  rw [hstr.1]
  unfold firstWord
  rw [String.toList_ofList]
  refine ⟨a, hstr.2, b, fun hm => ?_⟩
  obtain ⟨m1, m2⟩ := List.mem_filter.mp hm
  exact ((hk _ m1).mp m2).2 (by simp)

/-- The functions of a program in C can be declared. -/
theorem fn_text {D : Decls} {ms : MacroInfo} {d : FnD} {f : FunDecl} {Ss : Sems} {R : Sem} {c : Config} (hc : c.cpp = false)
    (ha : c.attrs = []) (h : FnOf D ms d f) (ht : FnText D ms d Ss R) : FunText c f := by
  have hcpp : ¬ c.cpp = true := by rw [hc]; decide
  obtain ⟨hs, hsem⟩ := den_spell d.ret true false f.ret h.ret h.retNI ht.result.plain
  have hres : Written f.retStr f.ret ∧ firstWord (Types.declareString f.retStr f.ret) ≠ "namespace".toList ∧
      firstWord (Types.declareString f.retStr f.ret) ≠ "static".toList := by
    rcases ht.result.text with ⟨kept, h1, h2, h3, h4, h5⟩ | ⟨h1, h2, h3, h4⟩
    · obtain ⟨a1, a2, a3, a4⟩ := result_words h ht.name.2 h1 h2 h3 h4
      refine ⟨Or.inr (Or.inr ⟨a1, a2⟩), ?_⟩
      have e : Types.declareString f.retStr f.ret = f.retStr := by
        unfold Types.declareString
        rw [if_neg]
        intro he
        obtain ⟨x, r, hx, -⟩ := a1.first
        have : f.retStr = "" := by simpa using he
        rw [this] at hx
        cases hx
      rw [e]
      constructor
      · intro hw; rw [← a3, hw] at h5; exact h5 rfl
      · intro hw
        rw [hw] at a3
        exact a4 (List.mem_of_mem_head? a3.symm)
    · have hfn : d.ret.isFn = true := by
        cases hq : d.ret with
        | mk k v c => rw [hq] at h1; exact (isFn_iff c).2 h1
      have htd : (Types.attrs f.ret).typedef = false := den_typedef h.ret h1 h2
      have hstr : f.retStr = Types.declPrefix f.ret := by
        rw [h.retStr]
        unfold Parser.declaratorString
        rw [hfn, htd, if_neg (by simp)]
      rw [declare_eq (Or.inr hstr)]
      have hfirst := first_prefix f.ret false hs
      rw [hsem, ← h3] at hfirst
      rw [← hfirst] at h4
      exact ⟨Or.inr (Or.inl hstr), fun e => h4.1 (by rw [e]), fun e => h4.2 (by rw [e])⟩
  refine ⟨by rw [h.name]; exact ht.name.1, by rw [h.file]; exact ht.origin, fun h => absurd h hcpp, ?_,
    params_text hc _ _ _ h.params ht.params ht.plain, hs, hres.1, fun h => absurd h hcpp, ?_, hres.2⟩
  · intro p hp
    rw [(h.free ht.free).1] at hp
    cases hp
  · intro a ham
    unfold keptAttrs at ham
    rw [ha] at ham
    have := (List.mem_filter.mp ham).2
    cases this

end EasyMock.CFile.Txt
