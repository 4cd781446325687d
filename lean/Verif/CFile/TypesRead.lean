import Verif.CFile.TypesSpec
import Verif.CFile.Lines
import Verif.CDecl.Lists

/-! # CFile: reading texts with braces

Lemmas about the reader of files for texts of several lines: composite types and enumerations. -/

namespace EasyMock.CFile.TypeDecl

open EasyMock.CDecl (wordChar symbol Tok lexFrom)

/-! ## Characters -/

/-- The characters of declarations without braces, also at the end of a line. -/
def okChar (c : Char) : Bool :=
  !(c == '/' || c == '\\' || c == '\'' || c == '"' || c == '{' || c == '}' || c == ';' || c == '#')

/-- The characters of declarations. -/
def textChar (c : Char) : Bool := !(c == '/' || c == '\\' || c == '\'' || c == '"' || c == '#')

theorem ok_text {c : Char} (h : okChar c = true) : textChar c = true := by
  simp only [okChar, textChar, Bool.not_eq_true', Bool.or_eq_false_iff] at h ⊢
  simp [h]

theorem word_ok {c : Char} (h : wordChar c = true) : okChar c = true := by
  cases ho : okChar c with
  | true => rfl
  | false =>
    exfalso
    simp only [okChar, Bool.not_eq_false', Bool.or_eq_true, beq_iff_eq] at ho
    rcases ho with ((((((rfl | rfl) | rfl) | rfl) | rfl) | rfl) | rfl) | rfl <;> exact absurd h (by decide)

theorem bad_char {c : Char} (h : okChar c = false) : wordChar c = false ∧ symbol c = [.bad] := by
  simp only [okChar, Bool.not_eq_false', Bool.or_eq_true, beq_iff_eq] at h
  rcases h with ((((((rfl | rfl) | rfl) | rfl) | rfl) | rfl) | rfl) | rfl <;> decide

theorem lex_bad : ∀ (l acc : List Char) (c : Char), c ∈ l → okChar c = false → Tok.bad ∈ lexFrom acc l
  | x :: l, acc, c, hc, hb => by
    unfold lexFrom
    by_cases hx : wordChar x = true
    · rw [if_pos hx]
      rcases List.mem_cons.1 hc with rfl | h
      · exact absurd hx (by simp [(bad_char hb).1])
      · exact lex_bad l _ c h hb
    · rw [if_neg hx]
      rcases List.mem_cons.1 hc with rfl | h
      · rw [(bad_char hb).2]; simp
      · exact List.mem_append_right _ (lex_bad l _ c h hb)

theorem step_bad (s : CDecl.State) : CDecl.step s .bad = none := by
  match s with
  | none => rfl
  | some (.spec ws, stk) => rfl
  | some (.pend ws, stk) =>
    simp only [CDecl.step]
    split
    · rfl
    · split <;> rfl
  | some (.ops ws l, stk) => rfl
  | some (.suffix n ws l ls, stk) => rfl

theorem run_bad : ∀ (ts : List Tok) (s : CDecl.State), Tok.bad ∈ ts → ts.foldl CDecl.step s = none
  | t :: ts, s, h => by
    rw [List.foldl_cons]
    rcases List.mem_cons.1 h with rfl | h
    · rw [step_bad]; exact CDecl.run_none ts
    · exact run_bad ts _ h

/-- A text which is read has no other characters. -/
theorem read_chars {s : String} {r : List Char × CDecl.Sem} (h : CDecl.read s = some r) : ∀ c ∈ s.toList, okChar c = true := by
  intro c hc
  cases ho : okChar c with
  | true => rfl
  | false =>
    unfold CDecl.read at h
    rw [run_bad (CDecl.lex s) _ (lex_bad s.toList [] c hc ho)] at h
    cases h

/-! ## Lines -/

/-- The lines of a text, and what is left behind the last one; `l` is the line so far. -/
def linesFrom (l : List Char) : List Char → List (List Char) × List Char
  | [] => ([], l)
  | c :: cs => if c = '\n' then (l :: (linesFrom [] cs).1, (linesFrom [] cs).2) else linesFrom (l ++ [c]) cs

theorem scan_lines : ∀ (X l : List Char) (d : List (List Char)), (∀ c ∈ X, textChar c = true) →
    X.foldl Scan.step ⟨.code, l, d⟩ = ⟨.code, (linesFrom l X).2, d ++ (linesFrom l X).1⟩
  | [], l, d, _ => by simp [linesFrom]
  | c :: X, l, d, h => by
    have hc := h c (by simp)
    simp only [textChar, Bool.not_eq_true', Bool.or_eq_false_iff, beq_eq_false_iff_ne] at hc
    have hX : ∀ x ∈ X, textChar x = true := fun x hx => h x (by simp [hx])
    rw [List.foldl_cons, linesFrom]
    by_cases hn : c = '\n'
    · rw [if_pos hn, show Scan.step ⟨.code, l, d⟩ c = ⟨.code, [], d ++ [l]⟩ by rw [hn]; rfl, scan_lines X [] _ hX]
      simp
    · rw [if_neg hn, show Scan.step ⟨.code, l, d⟩ c = ⟨.code, l ++ [c], d⟩ by simp [Scan.step, Scan.inCode, hn, hc], scan_lines X _ _ hX]

theorem lines_join : ∀ (X l : List Char), l ++ X = joined (linesFrom l X).1 ++ (linesFrom l X).2
  | [], l => by simp [linesFrom, joined]
  | c :: X, l => by
    rw [linesFrom]
    by_cases hn : c = '\n'
    · rw [if_pos hn, joined_cons, List.append_assoc, ← lines_join X [], hn]
      simp
    · rw [if_neg hn, ← lines_join X]
      simp

theorem lines_end : ∀ (X l : List Char), (linesFrom l X).2 = if X = [] then l else if X.getLast? = some '\n' then [] else (linesFrom l X).2
  | [], l => rfl
  | [c], l => by
    by_cases hn : c = '\n'
    · simp [linesFrom, hn]
    · simp [linesFrom, hn]
  | c :: c' :: X, l => by
    have ih := fun l => lines_end (c' :: X) l
    simp only [reduceCtorEq, if_false] at ih ⊢
    rw [List.getLast?_cons_cons]
    by_cases hl : (c' :: X).getLast? = some '\n'
    · rw [if_pos hl]
      simp only [if_pos hl] at ih
      rw [linesFrom]
      split
      · exact ih []
      · exact ih _
    · rw [if_neg hl]

theorem lines_chars : ∀ (X l : List Char), ∀ x ∈ (linesFrom l X).1, ∀ c ∈ x, c ∈ l ∨ c ∈ X
  | [], l, x, hx, c, hc => by simp [linesFrom] at hx
  | y :: X, l, x, hx, c, hc => by
    rw [linesFrom] at hx
    split at hx
    · rcases List.mem_cons.1 hx with rfl | hx
      · exact Or.inl hc
      · rcases lines_chars X [] x hx c hc with h | h
        · cases h
        · exact Or.inr (by simp [h])
    · rcases lines_chars X _ x hx c hc with h | h
      · rcases List.mem_append.1 h with h | h
        · exact Or.inl h
        · exact Or.inr (by simp at h; simp [h])
      · exact Or.inr (by simp [h])

theorem head_mem {l : List Char} {c : Char} (h : (l.dropWhile blank).head? = some c) : c ∈ l :=
  (List.dropWhile_suffix _).subset (List.mem_of_head? h)

theorem code_scans {X : List Char} (hX : ∀ c ∈ X, textChar c = true) (hl : X = [] ∨ X.getLast? = some '\n') :
    Scans X (linesFrom [] X).1 ∧ joined (linesFrom [] X).1 = X ∧ ∀ l ∈ (linesFrom [] X).1, (l.dropWhile blank).head? ≠ some '#' := by
  have h2 : (linesFrom [] X).2 = [] := by
    rcases hl with rfl | hl
    · rfl
    · rw [lines_end, if_pos hl]; split <;> rfl
  refine ⟨Scans.of (fun hm => absurd (hX _ hm) (by decide)) ?_, ?_, ?_⟩
  · rw [scan_lines X [] [] hX, h2]; simp
  · have := lines_join X []
    rw [h2] at this
    simpa using this.symm
  · intro l hl h
    rcases lines_chars X [] l hl _ (head_mem h) with h | h
    · cases h
    · exact absurd (hX _ h) (by decide)

/-- Whole lines of code are read by the reader of declarations. -/
theorem code_runs {f : File} {r : Reader} {X : List Char} (hX : ∀ c ∈ X, textChar c = true) (hl : X = [] ∨ X.getLast? = some '\n')
    (ha : f.active = true) (h : X.foldlM Reader.step f.reader = some r) : Runs f X { f with reader := r } := by
  obtain ⟨h1, h2, h3⟩ := code_scans hX hl
  exact ⟨_, h1, lines_feed _ f r ha h3 (by rw [h2]; exact h)⟩

theorem code_quiet {X : List Char} (hX : ∀ c ∈ X, textChar c = true) (hl : X = [] ∨ X.getLast? = some '\n') : Quiet X := by
  obtain ⟨h1, h2, h3⟩ := code_scans hX hl
  exact ⟨_, h1, h3⟩

/-! ## Braces -/

/-- A text which stays inside the braces it finds itself in. -/
def Bal (M : List Char) : Prop := ∀ S n p D, M.foldlM Reader.step ⟨S, .inPart n, none, false, p, D⟩ =
  some ⟨S, .inPart n, none, false, p ++ M, D⟩

theorem Bal.nil : Bal [] := fun S n p D => by simp

theorem Bal.append {a b : List Char} (ha : Bal a) (hb : Bal b) : Bal (a ++ b) := by
  intro S n p D
  rw [List.foldlM_append, ha]
  simp only [Option.bind_eq_bind, Option.bind_some]
  rw [hb, List.append_assoc]

theorem Bal.char {c : Char} (h1 : c ≠ '"') (h2 : c ≠ '\'') (h3 : c ≠ '{') (h4 : c ≠ '}') : Bal [c] := by
  intro S n p D
  rw [foldlM_one]
  simp [Reader.step, Reader.plain, h1, h2, h3, h4]

theorem Bal.chars : ∀ {t : List Char}, (∀ c ∈ t, c ≠ '"' ∧ c ≠ '\'' ∧ c ≠ '{' ∧ c ≠ '}') → Bal t
  | [], _ => Bal.nil
  | c :: t, h => by
    have hc := h c (by simp)
    exact (Bal.char hc.1 hc.2.1 hc.2.2.1 hc.2.2.2).append (a := [c]) (Bal.chars (fun x hx => h x (by simp [hx])))

theorem ok_ne {c : Char} (h : okChar c = true) : c ≠ '"' ∧ c ≠ '\'' ∧ c ≠ '{' ∧ c ≠ '}' ∧ c ≠ ';' := by
  simp only [okChar, Bool.not_eq_true', Bool.or_eq_false_iff, beq_eq_false_iff_ne] at h
  simp [h]

theorem Bal.ok {t : List Char} (h : ∀ c ∈ t, okChar c = true) : Bal t :=
  Bal.chars (fun c hc => ⟨(ok_ne (h c hc)).1, (ok_ne (h c hc)).2.1, (ok_ne (h c hc)).2.2.1, (ok_ne (h c hc)).2.2.2.1⟩)

theorem Bal.braces {M : List Char} (h : Bal M) : Bal ('{' :: (M ++ ['}'])) := by
  intro S n p D
  rw [List.foldlM_cons, show Reader.step ⟨S, .inPart n, none, false, p, D⟩ '{' = some ⟨S, .inPart (n + 1), none, false, p ++ ['{'], D⟩ by
    simp [Reader.step, Reader.plain]]
  simp only [Option.bind_eq_bind, Option.bind_some]
  rw [List.foldlM_append, h]
  simp [Reader.step, Reader.plain]

/-! ## Declarations at the top -/

/-- Characters behind the first one of a declaration. -/
theorem feed_ok : ∀ (t : List Char) (S : List Scope) (p : List Char) (D : List Decl), (∀ c ∈ t, okChar c = true) → p ≠ [] →
    t.foldlM Reader.step ⟨S, .top, none, false, p, D⟩ = some ⟨S, .top, none, false, p ++ t, D⟩
  | [], S, p, D, _, _ => by simp
  | c :: t, S, p, D, h, hp => by
    obtain ⟨h1, h2, h3, h4, h5⟩ := ok_ne (h c (by simp))
    have e : Reader.step ⟨S, .top, none, false, p, D⟩ c = some ⟨S, .top, none, false, p ++ [c], D⟩ := by
      simp [Reader.step, Reader.plain, h1, h2, h3, h4, h5, hp]
    rw [List.foldlM_cons, e]
    simp only [Option.bind_eq_bind, Option.bind_some]
    rw [feed_ok t S _ D (fun x hx => h x (by simp [hx])) (by simp)]
    simp

/-- A text which starts a declaration. -/
structure Head (t : List Char) : Prop where
  ok : ∀ c ∈ t, okChar c = true
  first : ∃ c r, t = c :: r ∧ blank c = false

theorem Head.feed {t : List Char} (h : Head t) (S : List Scope) (D : List Decl) :
    t.foldlM Reader.step ⟨S, .top, none, false, [], D⟩ = some ⟨S, .top, none, false, t, D⟩ := by
  obtain ⟨c, r, rfl, hc⟩ := h.first
  obtain ⟨h1, h2, h3, h4, h5⟩ := ok_ne (h.ok c (by simp))
  have e : Reader.step ⟨S, .top, none, false, [], D⟩ c = some ⟨S, .top, none, false, [c], D⟩ := by
    simp [Reader.step, Reader.plain, h1, h2, h3, h4, h5, hc]
  rw [List.foldlM_cons, e]
  simp only [Option.bind_eq_bind, Option.bind_some]
  rw [feed_ok r S [c] D (fun x hx => h.ok x (by simp [hx])) (by simp)]
  rfl

theorem trim_first {t : List Char} {c : Char} {r : List Char} (e : t = c :: r) (hc : blank c = false) : trim t ≠ [] := by
  subst e
  intro h
  unfold trim at h
  rw [List.dropWhile_cons, hc] at h
  have h1 : ((c :: r).reverse.dropWhile blank) = [] := by simpa using h
  have h2 : ∀ l : List Char, l.dropWhile blank = [] → ∀ x ∈ l, blank x = true := by
    intro l
    induction l with
    | nil => intro _ x hx; cases hx
    | cons y l ih =>
      intro hl x hx
      rw [List.dropWhile_cons] at hl
      split at hl
      · rename_i hy
        rcases List.mem_cons.1 hx with rfl | hx
        · exact hy
        · exact ih hl x hx
      · cases hl
  have := h2 _ h1 c (by simp)
  rw [hc] at this
  cases this

/-- The end of a declaration. -/
theorem feed_end {t : List Char} {c : Char} {r : List Char} (e : t = c :: r) (hc : blank c = false) (S : List Scope) (D : List Decl) :
    [';'].foldlM Reader.step ⟨S, .top, none, false, t, D⟩ = some ⟨S, .top, none, false, [], D ++ [⟨S, trim t, none⟩]⟩ := by
  rw [foldlM_one]
  simp [Reader.step, Reader.plain, trim_first e hc]

/-- A text which is the list of these declarations, wherever it stands. -/
def Lists (X : List Char) (ds : List (List Char)) : Prop := ∀ S D, X.foldlM Reader.step ⟨S, .top, none, false, [], D⟩ =
  some ⟨S, .top, none, false, [], D ++ ds.map (fun d => ⟨S, d, none⟩)⟩

theorem Lists.holds {X : List Char} {ds : List (List Char)} (h : Lists X ds) : Holds X ds := by
  have := h [] []
  rw [List.nil_append] at this
  exact this

theorem Lists.nil : Lists [] [] := fun S D => by simp

theorem Lists.append {a b : List Char} {da db : List (List Char)} (ha : Lists a da) (hb : Lists b db) : Lists (a ++ b) (da ++ db) := by
  intro S D
  rw [List.foldlM_append, ha]
  simp only [Option.bind_eq_bind, Option.bind_some]
  rw [hb]
  simp

theorem Lists.blanks {b : List Char} (h : ∀ c ∈ b, blank c = true) : Lists b [] := by
  intro S D
  rw [feed_blank b _ ⟨rfl, rfl, rfl, rfl⟩ h]
  simp

/-- A declaration without braces. -/
theorem Lists.decl {t : List Char} (h : Head t) (hl : ∀ x ∈ t.getLast?, blank x = false) : Lists (t ++ [';']) [t] := by
  intro S D
  obtain ⟨c, r, e, hc⟩ := h.first
  rw [List.foldlM_append, h.feed]
  simp only [Option.bind_eq_bind, Option.bind_some]
  rw [feed_end e hc, trim_id (by rw [e]; simpa using hc) hl]
  rfl

/-- The brace behind a tag opens a list of members. -/
structure Tagged (head : List Char) : Prop extends Head head where
  close : ')' ∉ head
  space : (words head).head? ≠ some kwNamespace
  extern : (words head).head? ≠ some kwExtern

theorem Tagged.opens {head : List Char} (h : Tagged head) : CFile.opens head = .part := by
  unfold CFile.opens
  have h1 : words head ≠ [kwExtern, kwC] := fun e => h.extern (by rw [e]; rfl)
  have h2 : ¬ ((trim head).getLast? = some ')' ∨ ((words head).getLast? = some kwConst ∧ ')' ∈ head)) := by
    rintro (h2 | h2)
    · have := List.mem_of_getLast? h2
      unfold trim at this
      rw [List.mem_reverse] at this
      have := (List.dropWhile_suffix _).subset this
      rw [List.mem_reverse] at this
      exact h.close ((List.dropWhile_suffix _).subset this)
    · exact h.close h2.2
  rw [if_neg h1, if_neg h.space, if_neg h2]

/-- A declaration with braces. -/
theorem Lists.braces {head M tail : List Char} (h : Tagged head) (hM : Bal M) (ht : ∀ c ∈ tail, okChar c = true)
    (hl : ∀ x ∈ tail.getLast?, CFile.blank x = false) : Lists (head ++ '{' :: (M ++ '}' :: tail) ++ [';']) [head ++ '{' :: (M ++ '}' :: tail)] := by
  intro S D
  obtain ⟨c, r, e, hc⟩ := h.first
  have e1 : Reader.step ⟨S, .top, none, false, head, D⟩ '{' = some ⟨S, .inPart 0, none, false, head ++ ['{'], D⟩ := by
    simp [Reader.step, Reader.plain, h.opens]
  have e2 : Reader.step ⟨S, .inPart 0, none, false, head ++ ['{'] ++ M, D⟩ '}' = some ⟨S, .top, none, false, head ++ ['{'] ++ M ++ ['}'], D⟩ := by
    simp [Reader.step, Reader.plain]
  have hf : head ++ '{' :: (M ++ '}' :: tail) = c :: (r ++ '{' :: (M ++ '}' :: tail)) := by rw [e]; rfl
  have hlast : ∀ x ∈ (head ++ '{' :: (M ++ '}' :: tail)).getLast?, CFile.blank x = false := by
    intro x hx
    have e3 : head ++ '{' :: (M ++ '}' :: tail) = (head ++ '{' :: M) ++ ('}' :: tail) := by simp
    rw [e3, last_append (by simp)] at hx
    cases tail with
    | nil =>
      simp at hx; subst hx; decide
    | cons y tail =>
      rw [List.getLast?_cons_cons] at hx
      exact hl x hx
  rw [List.foldlM_append, List.foldlM_append, h.toHead.feed]
  simp only [Option.bind_eq_bind, Option.bind_some]
  rw [List.foldlM_cons, e1]
  simp only [Option.bind_eq_bind, Option.bind_some]
  rw [List.foldlM_append, hM]
  simp only [Option.bind_eq_bind, Option.bind_some]
  rw [List.foldlM_cons, e2]
  simp only [Option.bind_eq_bind, Option.bind_some]
  rw [feed_ok tail S _ D ht (by simp), show head ++ ['{'] ++ M ++ ['}'] ++ tail = head ++ '{' :: (M ++ '}' :: tail) by simp]
  simp only [Option.bind_some]
  rw [feed_end hf hc, trim_id (by rw [hf]; simpa using hc) hlast]
  rfl

end EasyMock.CFile.TypeDecl
