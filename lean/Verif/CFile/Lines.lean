import Verif.CFile.CodeLemmas
import Verif.CFile.SourceModel
import Verif.CFile.Header

/-! # CFile: the lines of the bodies, read -/

namespace EasyMock.CFile

/-! ## Texts of statements -/

/-- The text of a statement in front of its semicolon. -/
structure StmText (t : List Char) : Prop where
  closed : Closed t
  first : ∃ c r, t = c :: r ∧ blank c = false ∧ c ≠ '#' ∧ c ≠ '{'
  last : ∀ x ∈ t.getLast?, blank x = false
  brace : '{' ∈ t → control t = false

/-- The text in front of a block. -/
structure HeadText (t : List Char) : Prop where
  closed : Closed t
  first : ∃ c r, t = c :: r ∧ blank c = false ∧ c ≠ '#' ∧ c ≠ '{'
  last : ∀ x ∈ t.getLast?, blank x = false
  brace : '{' ∉ t
  control : control t = true

theorem StmText.trim {t : List Char} (h : StmText t) : trim t = t := by
  obtain ⟨c, r, e, hc, _⟩ := h.first
  exact trim_id (by rw [e]; simp [hc]) h.last

/-! ## Declarations of several lines -/

/-- One character of a declaration in which lines end. -/
def Ctl.stepN (s : Ctl) (c : Char) : Option Ctl := if c = '\n' then (if s.mode = .code then some s else none) else s.step c

/-- The text of a declaration of several lines, with the semicolon and the end of the line behind it. -/
structure InnerText (t : List Char) : Prop where
  ends : ∃ u, t = u ++ [';', '\n'] ∧ u.foldlM Ctl.stepN Ctl.start = some Ctl.start ∧ (∃ c r, u = c :: r ∧ blank c = false ∧ c ≠ '{') ∧
    (∀ x ∈ u.getLast?, blank x = false) ∧ control u = false
  sharp : '#' ∉ t

/-- The lines of a text, the first behind `a`. -/
def cut : List Char → List Char → List (List Char)
  | a, [] => [a]
  | a, c :: r => if c = '\n' then a :: cut [] r else cut (a ++ [c]) r

theorem stepN_split {c : Char} {s s' : Ctl} (h : s.stepN c = some s') : (c = '\n' ∧ s.mode = .code ∧ s' = s) ∨ (c ≠ '\n' ∧ s.step c = some s') := by
  unfold Ctl.stepN at h
  by_cases hc : c = '\n'
  · rw [if_pos hc] at h
    by_cases hm : s.mode = .code
    · rw [if_pos hm] at h; cases h; exact Or.inl ⟨hc, hm, rfl⟩
    · rw [if_neg hm] at h; cases h
  · rw [if_neg hc] at h; exact Or.inr ⟨hc, h⟩

theorem scan_ctlN : ∀ (t : List Char) (s s' : Ctl) (l : List Char) (d : List (List Char)), t.foldlM Ctl.stepN s = some s' →
    ∃ l' ds, t.foldl Scan.step ⟨s.scanMode, l, d⟩ = ⟨s'.scanMode, l', d ++ ds⟩ ∧ cut (l ++ s.pending) t = ds ++ [l' ++ s'.pending]
  | [], s, s', l, d, h => by
    cases h
    exact ⟨l, [], by simp, by simp [cut]⟩
  | c :: t, s, s', l, d, h => by
    rw [List.foldlM_cons] at h
    cases h1 : s.stepN c with
    | none => rw [h1] at h; cases h
    | some s1 =>
      rw [h1] at h
      rcases stepN_split h1 with ⟨rfl, hm, rfl⟩ | ⟨hc, h2⟩
      · obtain ⟨l', ds, e1, e2⟩ := scan_ctlN t s1 s' [] (d ++ [l]) h
        refine ⟨l', l :: ds, ?_, ?_⟩
        · rw [List.foldl_cons]
          have e : Scan.step ⟨s1.scanMode, l, d⟩ '\n' = ⟨s1.scanMode, [], d ++ [l]⟩ := by
            obtain ⟨m, dp, br⟩ := s1
            simp only at hm
            subst hm
            rfl
          rw [e, e1]
          simp
        · have hp : s1.pending = [] := by simp [Ctl.pending, hm]
          rw [hp] at e2 ⊢
          rw [cut, if_pos rfl, List.append_nil, List.cons_append, ← e2]
          rfl
      · obtain ⟨l1, e1, e2⟩ := scan_ctl [c] s s1 l d (by rw [List.foldlM_cons, h2]; rfl)
        obtain ⟨l', ds, e3, e4⟩ := scan_ctlN t s1 s' l1 d h
        refine ⟨l', ds, ?_, ?_⟩
        · rw [List.foldl_cons]
          have e1' : Scan.step ⟨s.scanMode, l, d⟩ c = ⟨s1.scanMode, l1, d⟩ := e1
          rw [e1', e3]
        · rw [cut, if_neg hc, ← e2, e4]

theorem noescapeN : ∀ (t : List Char) (s s' : Ctl), t.foldlM Ctl.stepN s = some s' → '\\' ∉ t
  | [], _, _, _ => by simp
  | c :: t, s, s', h => by
    rw [List.foldlM_cons] at h
    cases h1 : s.stepN c with
    | none => rw [h1] at h; cases h
    | some s1 =>
      rw [h1] at h
      have ih := noescapeN t s1 s' h
      simp only [List.mem_cons, not_or]
      refine ⟨?_, ih⟩
      rcases stepN_split h1 with ⟨rfl, -⟩ | ⟨-, h2⟩
      · decide
      · have := ctl_noescape [c] s s1 (by rw [List.foldlM_cons, h2]; rfl)
        simpa using this

theorem feed_ctlN (I : Inside) : ∀ (t : List Char) (s s' : Ctl) (S : List Scope) (n : Nat) (p : List Char) (D : List Decl),
    t.foldlM Ctl.stepN s = some s' →
    t.foldlM Reader.step ⟨S, I.place (n + s.braces), s.quote, false, p, D⟩ =
      some ⟨S, I.place (n + s'.braces), s'.quote, false, p ++ t, D⟩
  | [], s, s', S, n, p, D, h => by cases h; simp
  | c :: t, s, s', S, n, p, D, h => by
    rw [List.foldlM_cons] at h
    cases h1 : s.stepN c with
    | none => rw [h1] at h; cases h
    | some s1 =>
      rw [h1] at h
      have ih := feed_ctlN I t s1 s' S n (p ++ [c]) D h
      have happ : p ++ c :: t = (p ++ [c]) ++ t := by simp
      rw [List.foldlM_cons, happ, ← ih]
      have hstep : Reader.step ⟨S, I.place (n + s.braces), s.quote, false, p, D⟩ c =
          some ⟨S, I.place (n + s1.braces), s1.quote, false, p ++ [c], D⟩ := by
        rcases stepN_split h1 with ⟨rfl, hm, rfl⟩ | ⟨-, h2⟩
        · have hq : s1.quote = none := by simp [Ctl.quote, hm]
          rw [hq]
          cases I <;> simp [Reader.step, Reader.plain, Inside.place]
        · have := feed_ctl I [c] s s1 S n p D (by rw [List.foldlM_cons, h2]; rfl)
          rw [List.foldlM_cons] at this
          cases hr : Reader.step ⟨S, I.place (n + s.braces), s.quote, false, p, D⟩ c with
          | none => rw [hr] at this; cases this
          | some r => rw [hr] at this; exact this
      rw [hstep]
      rfl

theorem code_ctlN (w : List Char) (hw : control w = false) : ∀ (t : List Char) (s s' : Ctl) (n : Nat)
    (is : List Item) (p : List Char), p ++ t = w → (p ≠ [] ∨ ∃ c r, t = c :: r ∧ blank c = false ∧ c ≠ '{') →
    t.foldlM Ctl.stepN s = some s' → t.foldlM CodeReader.step (cr n is p s) = some (cr n is w s')
  | [], s, s', n, is, p, e, _, h => by
    cases h
    rw [List.append_nil] at e
    rw [e]
    rfl
  | c :: t, s, s', n, is, p, e, hp, h => by
    rw [List.foldlM_cons] at h
    cases h1 : s.stepN c with
    | none => rw [h1] at h; cases h
    | some s1 =>
      rw [h1] at h
      have ih := code_ctlN w hw t s1 s' n is (p ++ [c]) (by rw [← e]; simp) (Or.inl (by simp)) h
      rw [List.foldlM_cons, ← ih]
      have hstep : CodeReader.step (cr n is p s) c = some (cr n is (p ++ [c]) s1) := by
        rcases stepN_split h1 with ⟨rfl, hm, rfl⟩ | ⟨-, h2⟩
        · have hpn : p ≠ [] := by
            rcases hp with hp | ⟨x, r, hx, hb, -⟩
            · exact hp
            · cases hx; exact absurd hb (by decide)
          have hq : s1.quote = none := by simp [Ctl.quote, hm]
          unfold cr
          rw [hq]
          by_cases hd : s1.depth = 0
          · simp [CodeReader.step, CodeReader.plain, hd, hpn]
          · simp [CodeReader.step, CodeReader.inner, hd]
        · have hpre : '{' ∈ p ++ [c] → control (p ++ [c]) = false := by
            intro hb
            obtain ⟨a, r, e1⟩ := List.append_of_mem hb
            rw [e1, control_stop (by decide)]
            rw [← e, show p ++ c :: t = (p ++ [c]) ++ t by simp, e1, List.append_assoc, List.cons_append, control_stop (by decide)] at hw
            exact hw
          have := code_ctl (p ++ [c]) hpre [c] s s1 n is p rfl
            (hp.imp id (fun ⟨x, r, hx, hb⟩ => by cases hx; exact ⟨c, [], rfl, hb⟩)) (by rw [List.foldlM_cons, h2]; rfl)
          rw [List.foldlM_cons] at this
          cases hr : CodeReader.step (cr n is p s) c with
          | none => rw [hr] at this; cases this
          | some r => rw [hr] at this; exact this
      rw [hstep]
      rfl

theorem cut_ne : ∀ (t a : List Char), cut a t ≠ []
  | [], a => by simp [cut]
  | c :: t, a => by
    rw [cut]
    split
    · simp
    · exact cut_ne t _

theorem cut_line : ∀ (t a : List Char), cut a (t ++ ['\n']) = cut a t ++ [[]]
  | [], a => by simp [cut]
  | c :: t, a => by
    rw [List.cons_append, cut, cut]
    split
    · rw [cut_line t []]; rfl
    · exact cut_line t _

theorem cut_semi : ∀ (t a : List Char) (ds : List (List Char)) (l : List Char), cut a t = ds ++ [l] → cut a (t ++ [';']) = ds ++ [l ++ [';']]
  | [], a, ds, l, h => by
    cases ds with
    | nil => simp only [cut, List.nil_append, List.cons.injEq, and_true] at h; subst h; simp [cut]
    | cons x ds => simp [cut] at h
  | c :: t, a, ds, l, h => by
    rw [List.cons_append]
    rw [cut] at h ⊢
    split at h
    · rename_i hc
      rw [if_pos hc]
      cases ds with
      | nil =>
        have h2 := (List.cons.inj h).2
        cases t <;> simp only [cut] at h2
        · cases h2
        · split at h2 <;> rename_i hd
          · cases h2
          · exact absurd h2 (cut_ne _ _)
      | cons x ds =>
        have h1 := (List.cons.inj h).1
        rw [cut_semi t [] ds l (List.cons.inj h).2, h1]
        rfl
    · rename_i hc
      rw [if_neg hc]
      exact cut_semi t _ ds l h

theorem cut_sharp : ∀ (t a : List Char), '#' ∉ a → '#' ∉ t → ∀ l ∈ cut a t, '#' ∉ l
  | [], a, ha, _ => by intro l hl; simp only [cut, List.mem_singleton] at hl; subst hl; exact ha
  | c :: t, a, ha, ht => by
    simp only [List.mem_cons, not_or] at ht
    intro l hl
    rw [cut] at hl
    split at hl
    · rcases List.mem_cons.1 hl with rfl | hl
      · exact ha
      · exact cut_sharp t [] (by simp) ht.2 l hl
    · exact cut_sharp t (a ++ [c]) (by simp [ha, ht.1]) ht.2 l hl

theorem cut_joined : ∀ (t a : List Char), ((cut a t).map (· ++ ['\n'])).flatten = a ++ t ++ ['\n']
  | [], a => by simp [cut]
  | c :: t, a => by
    rw [cut]
    split
    · rename_i hc
      subst hc
      rw [List.map_cons, List.flatten_cons, cut_joined t []]
      simp
    · rw [cut_joined t _]; simp

/-- What the lines of a body can be. -/
def LineOk : Line → Prop
  | .stmt t k => StmText t.toList ∧ '\n' ∉ k.toList ∧ '\\' ∉ k.toList
  | .enter h => HeadText h.toList
  | .comment k => '\n' ∉ k.toList ∧ '\\' ∉ k.toList
  | .decl t => InnerText t.toList
  | _ => True

/-- The number of blocks open behind lines, if no more are left than were entered. -/
def closes : Nat → List Line → Option Nat
  | n, [] => some n
  | n, .stmt _ _ :: r => closes n r
  | n, .enter _ :: r => closes (n + 1) r
  | 0, .leave :: _ => none
  | n + 1, .leave :: r => closes n r
  | n, .comment _ :: r => closes n r
  | n, .blanks :: r => closes n r
  | n, .empty :: r => closes n r
  | n, .decl _ :: r => closes n r

theorem closes_append : ∀ (a b : List Line) (n : Nat), closes n (a ++ b) = (closes n a).bind (fun k => closes k b)
  | [], _, _ => rfl
  | .stmt _ _ :: a, b, n => closes_append a b n
  | .enter _ :: a, b, n => closes_append a b (n + 1)
  | .leave :: a, b, 0 => rfl
  | .leave :: a, b, n + 1 => closes_append a b n
  | .comment _ :: a, b, n => by simp only [List.cons_append, closes]; exact closes_append a b n
  | .blanks :: a, b, n => by simp only [List.cons_append, closes]; exact closes_append a b n
  | .empty :: a, b, n => by simp only [List.cons_append, closes]; exact closes_append a b n
  | .decl _ :: a, b, n => by simp only [List.cons_append, closes]; exact closes_append a b n

/-- The statements and blocks of lines. -/
def items : List Line → List Item
  | [] => []
  | .stmt t _ :: r => .stmt t.toList :: items r
  | .enter h :: r => .enter h.toList :: items r
  | .leave :: r => .leave :: items r
  | .comment _ :: r => items r
  | .blanks :: r => items r
  | .empty :: r => items r
  | .decl t :: r => .stmt t.toList.dropLast.dropLast :: items r

theorem items_append : ∀ (a b : List Line), items (a ++ b) = items a ++ items b
  | [], _ => rfl
  | .stmt _ _ :: a, b => by simp [items, items_append a b]
  | .enter _ :: a, b => by simp [items, items_append a b]
  | .leave :: a, b => by simp [items, items_append a b]
  | .comment _ :: a, b => by simp [items, items_append a b]
  | .blanks :: a, b => by simp [items, items_append a b]
  | .empty :: a, b => by simp [items, items_append a b]
  | .decl _ :: a, b => by simp [items, items_append a b]

/-- The indentation. -/
def ind (n : Nat) : List Char := (indent n).toList

theorem ind_zero : ind 0 = [] := by decide +kernel

theorem indent_succ (n : Nat) : indent (n + 1) = "    " ++ indent n := by
  unfold indent; rw [List.replicate_succ, join_cons]

theorem ind_chars : ∀ (n : Nat), ∀ c ∈ ind n, c = ' '
  | 0 => by rw [ind_zero]; simp
  | n + 1 => by
    intro c hc
    unfold ind at hc
    rw [indent_succ, String.toList_append, List.mem_append] at hc
    rcases hc with h | h
    · revert h; revert c; decide +kernel
    · exact ind_chars n c h

theorem ind_blank (n : Nat) : ∀ c ∈ ind n, blank c = true := fun c hc => by rw [ind_chars n c hc]; decide
theorem ind_line (n : Nat) : ∀ c ∈ ind n, lineChar c = true := fun c hc => by rw [ind_chars n c hc]; decide

/-- The lines which the reader of the file sees. -/
def seen : Nat → List Line → List (List Char)
  | _, [] => []
  | n, .stmt t k :: r => (ind (n + 1) ++ t.toList ++ (if k.isEmpty then [';'] else [';', ' '])) :: seen n r
  | n, .enter h :: r => (ind (n + 1) ++ h.toList) :: (ind (n + 1) ++ ['{']) :: seen (n + 1) r
  | n, .leave :: r => (ind n ++ ['}']) :: seen (n - 1) r
  | n, .comment _ :: r => ind (n + 1) :: seen n r
  | n, .blanks :: r => ind (n + 1) :: seen n r
  | n, .empty :: r => [] :: seen n r
  | n, .decl t :: r => cut (ind (n + 1)) t.toList ++ seen n r

/-! ## The lines of the text -/

theorem scan_toEnd (l : List Char) (d : List (List Char)) : ∀ (k : List Char), '\n' ∉ k →
    k.foldl Scan.step ⟨.toEnd, l, d⟩ = ⟨.toEnd, l, d⟩
  | [], _ => rfl
  | c :: k, h => by
    simp only [List.mem_cons, not_or] at h
    rw [List.foldl_cons]
    simpa [Scan.step, Ne.symm h.1] using scan_toEnd l d k h.2

theorem stmt_scans {n : Nat} {t k : List Char} (ht : Closed t) (hk : '\n' ∉ k) (he : '\\' ∉ k) :
    Scans (ind n ++ t ++ ([';', ' ', '/', '/', ' '] ++ k ++ ['\n'])) [ind n ++ t ++ [';', ' ']] := by
  refine Scans.of (by simp [lineChar_noescape (ind_line n), ht.noescape, he]) ?_
  have h0 : (ind n ++ t).foldl Scan.step ⟨.code, [], []⟩ = ⟨.code, [] ++ ind n ++ t, []⟩ := by
    rw [List.foldl_append, scan_line _ [] [] (ind_line n), ht.scan]
  rw [List.foldl_append, h0, List.foldl_append, List.foldl_append]
  have h2 : [';', ' ', '/', '/', ' '].foldl Scan.step ⟨.code, [] ++ ind n ++ t, []⟩ = ⟨.toEnd, [] ++ ind n ++ t ++ [';'] ++ [' '], []⟩ := rfl
  rw [h2, scan_toEnd _ _ k hk]
  simp [Scan.step, Scan.endLine]

theorem plain_scans {n : Nat} {t u : List Char} (ht : Closed t) (hu : ∀ c ∈ u, lineChar c = true) :
    Scans (ind n ++ t ++ (u ++ ['\n'])) [ind n ++ t ++ u] := by
  refine Scans.of (by simp [lineChar_noescape (ind_line n), ht.noescape, lineChar_noescape hu]) ?_
  have h0 : (ind n ++ t).foldl Scan.step ⟨.code, [], []⟩ = ⟨.code, [] ++ ind n ++ t, []⟩ := by
    rw [List.foldl_append, scan_line _ [] [] (ind_line n), ht.scan]
  rw [List.foldl_append, h0, List.foldl_append, scan_line u _ _ hu]
  simp [Scan.step, Scan.inCode, Scan.endLine]

theorem closed_nil : Closed [] := rfl

theorem toList_newline : "\n".toList = ['\n'] := by decide +kernel
theorem toList_semi : ";\n".toList = [';', '\n'] := by decide +kernel
theorem toList_comment : "; // ".toList = [';', ' ', '/', '/', ' '] := by decide +kernel
theorem toList_open : "{\n".toList = ['{', '\n'] := by decide +kernel
theorem toList_close : "}\n".toList = ['}', '\n'] := by decide +kernel

theorem toList_slashes : "// ".toList = ['/', '/', ' '] := by decide +kernel

theorem lines_scan : ∀ (L : List Line) (n : Nat), (∀ x ∈ L, LineOk x) → Scans (linesText n L).toList (seen n L)
  | [], n, _ => ⟨by unfold linesText; decide +kernel, fun d => by simp [linesText, seen]⟩
  | .stmt t k :: r, n, h => by
    have ih := lines_scan r n (fun x hx => h x (by simp [hx]))
    obtain ⟨ht, hk, he⟩ := h (.stmt t k) (by simp)
    unfold linesText seen
    rw [String.toList_append]
    refine Scans.append (la := [_]) ?_ ih
    by_cases hb : k.isEmpty = true
    · rw [if_pos hb, if_pos hb, String.toList_append, String.toList_append, toList_semi]
      exact plain_scans (u := [';']) ht.closed (by decide)
    · rw [if_neg hb, if_neg hb, String.toList_append, String.toList_append, String.toList_append, String.toList_append,
        toList_comment, toList_newline]
      exact stmt_scans ht.closed hk he
  | .enter t :: r, n, h => by
    have ih := lines_scan r (n + 1) (fun x hx => h x (by simp [hx]))
    have ht : HeadText t.toList := h (.enter t) (by simp)
    unfold linesText seen
    rw [String.toList_append]
    refine Scans.append (la := [_, _]) ?_ ih
    rw [String.toList_append, String.toList_append, String.toList_append, String.toList_append, toList_open, toList_newline]
    have h1 := plain_scans (n := n + 1) (u := []) ht.closed (by simp)
    have h2 := plain_scans (n := n + 1) (u := ['{']) closed_nil (by decide)
    have := h1.append h2
    simpa [ind, List.append_assoc] using this
  | .leave :: r, n, h => by
    have ih := lines_scan r (n - 1) (fun x hx => h x (by simp [hx]))
    unfold linesText seen
    rw [String.toList_append]
    refine Scans.append (la := [_]) ?_ ih
    rw [String.toList_append, toList_close]
    have h2 := plain_scans (n := n) (u := ['}']) closed_nil (by decide)
    simpa [ind] using h2
  | .comment k :: r, n, h => by
    have ih := lines_scan r n (fun x hx => h x (by simp [hx]))
    have hk : '\n' ∉ k.toList ∧ '\\' ∉ k.toList := h (.comment k) (by simp)
    unfold linesText seen
    rw [String.toList_append]
    refine Scans.append (la := [_]) ?_ ih
    rw [String.toList_append, String.toList_append, String.toList_append, toList_slashes, toList_newline]
    have := Scans.toEnd (t := ind (n + 1)) (k := ' ' :: k.toList) (ind_line _) (by simp [hk.1]) (by simp [hk.2])
    simpa [ind, List.append_assoc] using this
  | .blanks :: r, n, h => by
    have ih := lines_scan r n (fun x hx => h x (by simp [hx]))
    unfold linesText seen
    rw [String.toList_append]
    refine Scans.append (la := [_]) ?_ ih
    rw [String.toList_append, toList_newline]
    exact Scans.line (ind_line _)
  | .empty :: r, n, h => by
    have ih := lines_scan r n (fun x hx => h x (by simp [hx]))
    unfold linesText seen
    rw [String.toList_append]
    exact Scans.append (la := [_]) newline_scans ih
  | .decl t :: r, n, h => by
    have ih := lines_scan r n (fun x hx => h x (by simp [hx]))
    have ht : InnerText t.toList := h (.decl t) (by simp)
    unfold linesText seen
    rw [String.toList_append]
    refine Scans.append ?_ ih
    obtain ⟨u, e, hu, -⟩ := ht.ends
    rw [String.toList_append, String.toList_append, toList_newline, e]
    refine Scans.of (by simp [show '\\' ∉ (indent (n + 1)).toList from lineChar_noescape (ind_line (n + 1)), noescapeN u _ _ hu]) ?_
    obtain ⟨l', ds, e1, e2⟩ := scan_ctlN u _ _ (ind (n + 1)) [] hu
    simp only [Ctl.start, Ctl.scanMode, List.nil_append] at e1
    have e2 : cut (ind (n + 1)) u = ds ++ [l'] := by simpa [Ctl.start, Ctl.pending] using e2
    have h0 : (indent (n + 1)).toList.foldl Scan.step ⟨.code, [], []⟩ = ⟨.code, ind (n + 1), []⟩ := by
      have := scan_line (ind (n + 1)) [] [] (ind_line _)
      simpa [ind] using this
    rw [show u ++ [';', '\n'] = (u ++ [';']) ++ ['\n'] by simp, cut_line, cut_semi u _ ds l' e2, List.foldl_append, List.foldl_append, List.foldl_append,
      List.foldl_append, h0, e1]
    simp [Scan.step, Scan.inCode, Scan.endLine]

theorem drop_blanks : ∀ (b t : List Char), (∀ c ∈ b, blank c = true) → (b ++ t).dropWhile blank = t.dropWhile blank
  | [], _, _ => rfl
  | c :: b, t, h => by
    rw [List.cons_append, List.dropWhile_cons, if_pos (h c (by simp))]
    exact drop_blanks b t (fun x hx => h x (by simp [hx]))

theorem seen_directive : ∀ (L : List Line) (n : Nat), (∀ x ∈ L, LineOk x) → ∀ l ∈ seen n L, (l.dropWhile blank).head? ≠ some '#'
  | [], n, _ => by simp [seen]
  | .stmt t k :: r, n, h => by
    have ih := seen_directive r n (fun x hx => h x (by simp [hx]))
    obtain ⟨c, u, e, hc, hh, _⟩ := (h (.stmt t k) (by simp)).1.first
    intro l hl
    simp only [seen, List.mem_cons] at hl
    rcases hl with rfl | hl
    · rw [List.append_assoc, drop_blanks _ _ (ind_blank _), e, List.cons_append, List.dropWhile_cons, hc]
      simpa using hh
    · exact ih l hl
  | .enter t :: r, n, h => by
    have ih := seen_directive r (n + 1) (fun x hx => h x (by simp [hx]))
    obtain ⟨c, u, e, hc, hh, _⟩ := (show HeadText t.toList from h (.enter t) (by simp)).first
    intro l hl
    simp only [seen, List.mem_cons] at hl
    rcases hl with rfl | rfl | hl
    · rw [drop_blanks _ _ (ind_blank _), e, List.dropWhile_cons, hc]
      simpa using hh
    · rw [drop_blanks _ _ (ind_blank _)]; decide
    · exact ih l hl
  | .leave :: r, n, h => by
    have ih := seen_directive r (n - 1) (fun x hx => h x (by simp [hx]))
    intro l hl
    simp only [seen, List.mem_cons] at hl
    rcases hl with rfl | hl
    · rw [drop_blanks _ _ (ind_blank _)]; decide
    · exact ih l hl
  | .comment _ :: r, n, h => by
    have ih := seen_directive r n (fun x hx => h x (by simp [hx]))
    intro l hl
    simp only [seen, List.mem_cons] at hl
    rcases hl with rfl | hl
    · rw [dropWhile_blank (ind_blank _)]; decide
    · exact ih l hl
  | .blanks :: r, n, h => by
    have ih := seen_directive r n (fun x hx => h x (by simp [hx]))
    intro l hl
    simp only [seen, List.mem_cons] at hl
    rcases hl with rfl | hl
    · rw [dropWhile_blank (ind_blank _)]; decide
    · exact ih l hl
  | .empty :: r, n, h => by
    have ih := seen_directive r n (fun x hx => h x (by simp [hx]))
    intro l hl
    simp only [seen, List.mem_cons] at hl
    rcases hl with rfl | hl
    · decide
    · exact ih l hl
  | .decl t :: r, n, h => by
    have ih := seen_directive r n (fun x hx => h x (by simp [hx]))
    have ht : InnerText t.toList := h (.decl t) (by simp)
    intro l hl
    simp only [seen, List.mem_append] at hl
    rcases hl with hl | hl
    · have := cut_sharp t.toList (ind (n + 1)) (fun hc => absurd (ind_chars _ _ hc) (by decide)) ht.sharp l hl
      intro hs
      exact this ((List.dropWhile_sublist _).subset (List.mem_of_head? hs))
    · exact ih l hl

/-! ## The reader of declarations over whole lines -/

/-- The text of lines. -/
def joined (ls : List (List Char)) : List Char := (ls.map (· ++ ['\n'])).flatten

theorem joined_cons (l : List Char) (ls : List (List Char)) : joined (l :: ls) = l ++ ['\n'] ++ joined ls := by simp [joined]
theorem joined_append (a b : List (List Char)) : joined (a ++ b) = joined a ++ joined b := by simp [joined]

theorem lines_feed : ∀ (ls : List (List Char)) (f : File) (r : Reader), f.active = true →
    (∀ l ∈ ls, (l.dropWhile blank).head? ≠ some '#') → (joined ls).foldlM Reader.step f.reader = some r →
    ls.foldlM File.line f = some { f with reader := r }
  | [], f, r, _, _, h => by cases h; rfl
  | l :: ls, f, r, ha, hd, h => by
    rw [joined_cons, List.foldlM_append] at h
    rw [List.foldlM_cons, line_code (hd l (by simp)) ha]
    cases h1 : (l ++ ['\n']).foldlM Reader.step f.reader with
    | none => rw [h1] at h; cases h
    | some r1 =>
      rw [h1] at h
      exact lines_feed ls { f with reader := r1 } r ha (fun x hx => hd x (by simp [hx])) h

theorem blanks_closed {b : List Char} (h : ∀ c ∈ b, c = ' ') : Closed b := by
  unfold Closed
  induction b with
  | nil => rfl
  | cons c b ih =>
    have := h c (by simp)
    subst this
    exact ih (fun x hx => h x (by simp [hx]))

theorem feed_newline (I : Inside) (S : List Scope) (n : Nat) (p : List Char) (D : List Decl) :
    Reader.step ⟨S, I.place n, none, false, p, D⟩ '\n' = some ⟨S, I.place n, none, false, p ++ ['\n'], D⟩ := by
  cases I <;> simp [Reader.step, Reader.plain, Inside.place]

theorem feed_semi (I : Inside) (S : List Scope) (n : Nat) (p : List Char) (D : List Decl) :
    Reader.step ⟨S, I.place n, none, false, p, D⟩ ';' = some ⟨S, I.place n, none, false, p ++ [';'], D⟩ := by
  cases I <;> simp [Reader.step, Reader.plain, Inside.place]

theorem feed_open (I : Inside) (S : List Scope) (n : Nat) (p : List Char) (D : List Decl) :
    Reader.step ⟨S, I.place n, none, false, p, D⟩ '{' = some ⟨S, I.place (n + 1), none, false, p ++ ['{'], D⟩ := by
  cases I <;> simp [Reader.step, Reader.plain, Inside.place]

theorem feed_close (I : Inside) (S : List Scope) (n : Nat) (p : List Char) (D : List Decl) :
    Reader.step ⟨S, I.place (n + 1), none, false, p, D⟩ '}' = some ⟨S, I.place n, none, false, p ++ ['}'], D⟩ := by
  cases I <;> simp [Reader.step, Reader.plain, Inside.place]

theorem foldlM_one {α β : Type} (f : β → α → Option β) (s : β) (a : α) : [a].foldlM f s = f s a := by
  rw [List.foldlM_cons]; cases f s a <;> rfl

theorem seen_feed (I : Inside) (S : List Scope) (D : List Decl) : ∀ (L : List Line) (n n' : Nat) (p : List Char),
    (∀ x ∈ L, LineOk x) → closes n L = some n' →
    (joined (seen n L)).foldlM Reader.step ⟨S, I.place n, none, false, p, D⟩ =
      some ⟨S, I.place n', none, false, p ++ joined (seen n L), D⟩
  | [], n, n', p, _, h => by cases h; simp [seen, joined]
  | .stmt t k :: r, n, n', p, h, hc => by
    obtain ⟨ht, _⟩ := h (.stmt t k) (by simp)
    have ih := seen_feed I S D r n n' (p ++ (ind (n + 1) ++ t.toList ++ (if k.isEmpty then [';'] else [';', ' ']) ++ ['\n']))
      (fun x hx => h x (by simp [hx])) hc
    have h1 := (blanks_closed (ind_chars (n + 1))).feed I S n p D
    have h2 := ht.closed.feed I S n (p ++ ind (n + 1)) D
    have h3 : (if k.isEmpty then [';'] else [';', ' ']).foldlM Reader.step ⟨S, I.place n, none, false, p ++ ind (n + 1) ++ t.toList, D⟩ =
        some ⟨S, I.place n, none, false, p ++ ind (n + 1) ++ t.toList ++ (if k.isEmpty then [';'] else [';', ' ']), D⟩ := by
      by_cases hk : k.isEmpty = true
      · rw [if_pos hk, foldlM_one, feed_semi]
      · rw [if_neg hk, List.foldlM_cons, feed_semi]
        have := (blanks_closed (b := [' ']) (by simp)).feed I S n (p ++ ind (n + 1) ++ t.toList ++ [';']) D
        simpa using this
    simp only [seen, joined_cons]
    rw [List.foldlM_append, List.foldlM_append, List.foldlM_append, List.foldlM_append, h1]
    simp only [Option.bind_eq_bind, Option.bind_some]
    rw [h2]
    simp only [Option.bind_some]
    rw [h3]
    simp only [Option.bind_some]
    rw [foldlM_one, feed_newline]
    simp only [Option.bind_some]
    simp only [List.append_assoc] at ih ⊢
    exact ih
  | .enter t :: r, n, n', p, h, hc => by
    have ht : HeadText t.toList := h (.enter t) (by simp)
    have ih := seen_feed I S D r (n + 1) n' (p ++ (ind (n + 1) ++ t.toList ++ ['\n'] ++ ind (n + 1) ++ ['{'] ++ ['\n']))
      (fun x hx => h x (by simp [hx])) hc
    have h1 := (blanks_closed (ind_chars (n + 1))).feed I S n p D
    have h2 := ht.closed.feed I S n (p ++ ind (n + 1)) D
    have h3 := (blanks_closed (ind_chars (n + 1))).feed I S n (p ++ ind (n + 1) ++ t.toList ++ ['\n']) D
    simp only [seen, joined_cons]
    rw [List.foldlM_append, List.foldlM_append, List.foldlM_append, h1]
    simp only [Option.bind_eq_bind, Option.bind_some]
    rw [h2]
    simp only [Option.bind_some]
    rw [foldlM_one, feed_newline]
    simp only [Option.bind_some]
    rw [List.foldlM_append, List.foldlM_append, List.foldlM_append, h3]
    simp only [Option.bind_eq_bind, Option.bind_some]
    rw [foldlM_one, feed_open]
    simp only [Option.bind_some]
    rw [foldlM_one, feed_newline]
    simp only [Option.bind_some]
    simp only [List.append_assoc] at ih ⊢
    exact ih
  | .leave :: r, 0, n', p, h, hc => by cases hc
  | .leave :: r, n + 1, n', p, h, hc => by
    have ih := seen_feed I S D r n n' (p ++ (ind (n + 1) ++ ['}'] ++ ['\n'])) (fun x hx => h x (by simp [hx])) hc
    have h1 := (blanks_closed (ind_chars (n + 1))).feed I S (n + 1) p D
    simp only [seen, joined_cons]
    rw [List.foldlM_append, List.foldlM_append, List.foldlM_append, h1]
    simp only [Option.bind_eq_bind, Option.bind_some]
    rw [foldlM_one, feed_close]
    simp only [Option.bind_some]
    rw [foldlM_one, feed_newline]
    simp only [Option.bind_some, Nat.add_sub_cancel]
    simp only [List.append_assoc] at ih ⊢
    exact ih
  | .comment _ :: r, n, n', p, h, hc => by
    simp only [closes] at hc
    have ih := seen_feed I S D r n n' (p ++ (ind (n + 1) ++ ['\n'])) (fun x hx => h x (by simp [hx])) hc
    have h1 := (blanks_closed (ind_chars (n + 1))).feed I S n p D
    simp only [seen, joined_cons]
    rw [List.foldlM_append, List.foldlM_append, h1]
    simp only [Option.bind_eq_bind, Option.bind_some]
    rw [foldlM_one, feed_newline]
    simp only [Option.bind_some]
    simp only [List.append_assoc] at ih ⊢
    exact ih
  | .blanks :: r, n, n', p, h, hc => by
    simp only [closes] at hc
    have ih := seen_feed I S D r n n' (p ++ (ind (n + 1) ++ ['\n'])) (fun x hx => h x (by simp [hx])) hc
    have h1 := (blanks_closed (ind_chars (n + 1))).feed I S n p D
    simp only [seen, joined_cons]
    rw [List.foldlM_append, List.foldlM_append, h1]
    simp only [Option.bind_eq_bind, Option.bind_some]
    rw [foldlM_one, feed_newline]
    simp only [Option.bind_some]
    simp only [List.append_assoc] at ih ⊢
    exact ih
  | .empty :: r, n, n', p, h, hc => by
    simp only [closes] at hc
    have ih := seen_feed I S D r n n' (p ++ ['\n']) (fun x hx => h x (by simp [hx])) hc
    simp only [seen, joined_cons]
    rw [List.foldlM_append, List.nil_append, foldlM_one, feed_newline]
    simp only [Option.bind_eq_bind, Option.bind_some]
    simp only [List.append_assoc] at ih ⊢
    exact ih
  | .decl t :: r, n, n', p, h, hc => by
    simp only [closes] at hc
    have ht : InnerText t.toList := h (.decl t) (by simp)
    obtain ⟨u, e, hu, -⟩ := ht.ends
    have ih := seen_feed I S D r n n' (p ++ (ind (n + 1) ++ u ++ [';'] ++ ['\n'] ++ ['\n'])) (fun x hx => h x (by simp [hx])) hc
    have h1 := (blanks_closed (ind_chars (n + 1))).feed I S n p D
    have h2 : u.foldlM Reader.step ⟨S, I.place n, none, false, p ++ ind (n + 1), D⟩ =
        some ⟨S, I.place n, none, false, p ++ ind (n + 1) ++ u, D⟩ := feed_ctlN I u _ _ S n (p ++ ind (n + 1)) D hu
    have e2 : joined (seen n (.decl t :: r)) = ind (n + 1) ++ u ++ [';'] ++ ['\n'] ++ ['\n'] ++ joined (seen n r) := by
      rw [seen, joined_append, joined, cut_joined, e]; simp
    rw [e2, List.foldlM_append, List.foldlM_append, List.foldlM_append, List.foldlM_append, List.foldlM_append, h1]
    simp only [Option.bind_eq_bind, Option.bind_some]
    rw [h2]
    simp only [Option.bind_some]
    rw [foldlM_one, feed_semi]
    simp only [Option.bind_some]
    rw [foldlM_one, feed_newline]
    simp only [Option.bind_some]
    rw [foldlM_one, feed_newline]
    simp only [Option.bind_some]
    simp only [List.append_assoc] at ih ⊢
    exact ih

/-! ## The reader of statements over whole lines -/

/-- The reader of statements between two of them. -/
abbrev between (n : Nat) (is : List Item) : CodeReader := ⟨n, is, [], 0, none, false⟩

theorem code_blanks (n : Nat) (is : List Item) : ∀ (b : List Char), (∀ c ∈ b, blank c = true) →
    b.foldlM CodeReader.step (between n is) = some (between n is)
  | [], _ => rfl
  | c :: b, h => by
    have hb := h c (by simp)
    have e : CodeReader.step (between n is) c = some (between n is) := by
      simp only [CFile.blank, Bool.or_eq_true, beq_iff_eq] at hb
      rcases hb with ((((rfl | rfl) | rfl) | rfl) | rfl) | rfl <;> rfl
    rw [List.foldlM_cons, e]
    exact code_blanks n is b (fun x hx => h x (by simp [hx]))

theorem code_stmt {t : List Char} (h : StmText t) (n : Nat) (is : List Item) :
    t.foldlM CodeReader.step (between n is) = some ⟨n, is, t, 0, none, false⟩ := by
  obtain ⟨c, r, e, h1, h2, h3⟩ := h.first
  exact code_ctl t h.brace t Ctl.start Ctl.start n is [] rfl (Or.inr ⟨c, r, e, h1, h3⟩) h.closed

theorem code_head {t : List Char} (h : HeadText t) (n : Nat) (is : List Item) :
    t.foldlM CodeReader.step (between n is) = some ⟨n, is, t, 0, none, false⟩ := by
  obtain ⟨c, r, e, h1, h2, h3⟩ := h.first
  exact code_ctl t (fun hb => absurd hb h.brace) t Ctl.start Ctl.start n is [] rfl (Or.inr ⟨c, r, e, h1, h3⟩) h.closed

theorem code_behind (n : Nat) (is : List Item) : ∀ (b : List Char) (p : List Char), (∀ c ∈ b, blank c = true) → p ≠ [] →
    b.foldlM CodeReader.step ⟨n, is, p, 0, none, false⟩ = some ⟨n, is, p ++ b, 0, none, false⟩
  | [], p, _, _ => by simp
  | c :: b, p, h, hp => by
    have hb := h c (by simp)
    have e : CodeReader.step ⟨n, is, p, 0, none, false⟩ c = some ⟨n, is, p ++ [c], 0, none, false⟩ := by
      simp only [CFile.blank, Bool.or_eq_true, beq_iff_eq] at hb
      rcases hb with ((((rfl | rfl) | rfl) | rfl) | rfl) | rfl <;> simp [CodeReader.step, CodeReader.plain, hp]
    have := code_behind n is b (p ++ [c]) (fun x hx => h x (by simp [hx])) (by simp)
    rw [List.foldlM_cons, e]
    simpa using this

theorem trim_behind {t b : List Char} (h1 : ∀ x ∈ t.head?, blank x = false) (h2 : ∀ x ∈ t.getLast?, blank x = false)
    (h0 : t ≠ []) (hb : ∀ c ∈ b, blank c = true) : trim (t ++ b) = t := by
  have e1 : (t ++ b).dropWhile blank = t ++ b := by
    cases t with
    | nil => exact absurd rfl h0
    | cons c t => rw [List.cons_append, List.dropWhile_cons, h1 c (by simp)]; rfl
  have e2 : t.reverse.dropWhile blank = t.reverse := by
    cases hr : t.reverse with
    | nil => rfl
    | cons c u =>
      rw [List.dropWhile_cons, h2 c (by rw [← List.head?_reverse, hr]; rfl)]; rfl
  unfold trim
  rw [e1, List.reverse_append, drop_blanks b.reverse _ (by simpa using hb), e2, List.reverse_reverse]

theorem seen_code : ∀ (L : List Line) (n n' : Nat) (is : List Item), (∀ x ∈ L, LineOk x) → closes n L = some n' →
    (joined (seen n L)).foldlM CodeReader.step (between n is) = some (between n' (is ++ items L))
  | [], n, n', is, _, h => by cases h; simp [seen, joined, items]
  | .stmt t k :: r, n, n', is, h, hc => by
    obtain ⟨ht, _⟩ := h (.stmt t k) (by simp)
    have ih := seen_code r n n' (is ++ [.stmt t.toList]) (fun x hx => h x (by simp [hx])) hc
    have hsemi : CodeReader.step ⟨n, is, t.toList, 0, none, false⟩ ';' = some (between n (is ++ [.stmt t.toList])) := by
      obtain ⟨c, u, e, _⟩ := ht.first
      have hne : trim t.toList ≠ [] := by rw [ht.trim, e]; simp
      have : ¬ trim t.toList = [] := hne
      simp [CodeReader.step, CodeReader.plain, ht.trim]
      exact fun e0 => by rw [e0] at e; cases e
    have h3 : (if k.isEmpty then [';'] else [';', ' ']).foldlM CodeReader.step ⟨n, is, t.toList, 0, none, false⟩ =
        some (between n (is ++ [.stmt t.toList])) := by
      by_cases hk : k.isEmpty = true
      · rw [if_pos hk, foldlM_one, hsemi]
      · rw [if_neg hk, List.foldlM_cons, hsemi]
        exact code_blanks n _ [' '] (by decide)
    simp only [seen, joined_cons]
    rw [List.foldlM_append, List.foldlM_append, List.foldlM_append, List.foldlM_append, code_blanks _ _ _ (ind_blank _)]
    simp only [Option.bind_eq_bind, Option.bind_some]
    rw [code_stmt ht]
    simp only [Option.bind_some]
    rw [h3]
    simp only [Option.bind_some]
    rw [code_blanks _ _ ['\n'] (by decide)]
    simp only [Option.bind_some]
    rw [ih]
    simp [items]
  | .enter t :: r, n, n', is, h, hc => by
    have ht : HeadText t.toList := h (.enter t) (by simp)
    have ih := seen_code r (n + 1) n' (is ++ [.enter t.toList]) (fun x hx => h x (by simp [hx])) hc
    obtain ⟨c, u, e, hcb, _⟩ := ht.first
    have hne : t.toList ≠ [] := by rw [e]; simp
    have hbl : ∀ c ∈ '\n' :: ind (n + 1), blank c = true := by
      intro c hc
      rcases List.mem_cons.mp hc with rfl | hc
      · decide
      · exact ind_blank _ c hc
    have hopen : CodeReader.step ⟨n, is, t.toList ++ ('\n' :: ind (n + 1)), 0, none, false⟩ '{' =
        some (between (n + 1) (is ++ [.enter t.toList])) := by
      have h1 : control (t.toList ++ '\n' :: ind (n + 1)) = true := by rw [control_stop (by decide)]; exact ht.control
      have h2 := trim_behind (t := t.toList) (b := '\n' :: ind (n + 1)) (by rw [e]; simp [hcb]) ht.last hne hbl
      simp [CodeReader.step, CodeReader.plain, h1, h2]
    have e2 : joined (seen n (.enter t :: r)) = ind (n + 1) ++ t.toList ++ ('\n' :: ind (n + 1)) ++ ['{'] ++ ['\n'] ++
        joined (seen (n + 1) r) := by
      simp [seen, joined_cons]
    rw [e2, List.foldlM_append, List.foldlM_append, List.foldlM_append, List.foldlM_append, List.foldlM_append,
      code_blanks _ _ _ (ind_blank _)]
    simp only [Option.bind_eq_bind, Option.bind_some]
    rw [code_head ht]
    simp only [Option.bind_some]
    rw [code_behind n is _ _ hbl hne]
    simp only [Option.bind_some]
    rw [foldlM_one, hopen]
    simp only [Option.bind_some]
    rw [code_blanks _ _ ['\n'] (by decide)]
    simp only [Option.bind_some]
    rw [ih]
    simp [items]
  | .leave :: r, 0, n', is, h, hc => by cases hc
  | .leave :: r, n + 1, n', is, h, hc => by
    have ih := seen_code r n n' (is ++ [.leave]) (fun x hx => h x (by simp [hx])) hc
    have hclose : CodeReader.step (between (n + 1) is) '}' = some (between n (is ++ [.leave])) := by
      simp [CodeReader.step, CodeReader.plain]
    simp only [seen, joined_cons]
    rw [List.foldlM_append, List.foldlM_append, List.foldlM_append, code_blanks _ _ _ (ind_blank _)]
    simp only [Option.bind_eq_bind, Option.bind_some]
    rw [foldlM_one, hclose]
    simp only [Option.bind_some]
    rw [code_blanks _ _ ['\n'] (by decide)]
    simp only [Option.bind_some, Nat.add_sub_cancel]
    rw [ih]
    simp [items]
  | .comment _ :: r, n, n', is, h, hc => by
    simp only [closes] at hc
    have ih := seen_code r n n' is (fun x hx => h x (by simp [hx])) hc
    simp only [seen, joined_cons]
    rw [List.foldlM_append, List.foldlM_append, code_blanks _ _ _ (ind_blank _)]
    simp only [Option.bind_eq_bind, Option.bind_some]
    rw [code_blanks _ _ ['\n'] (by decide)]
    simp only [Option.bind_some]
    rw [ih]
    simp [items]
  | .blanks :: r, n, n', is, h, hc => by
    simp only [closes] at hc
    have ih := seen_code r n n' is (fun x hx => h x (by simp [hx])) hc
    simp only [seen, joined_cons]
    rw [List.foldlM_append, List.foldlM_append, code_blanks _ _ _ (ind_blank _)]
    simp only [Option.bind_eq_bind, Option.bind_some]
    rw [code_blanks _ _ ['\n'] (by decide)]
    simp only [Option.bind_some]
    rw [ih]
    simp [items]
  | .empty :: r, n, n', is, h, hc => by
    simp only [closes] at hc
    have ih := seen_code r n n' is (fun x hx => h x (by simp [hx])) hc
    simp only [seen, joined_cons]
    rw [List.foldlM_append, List.nil_append, code_blanks _ _ ['\n'] (by decide)]
    simp only [Option.bind_eq_bind, Option.bind_some]
    rw [ih]
    simp [items]
  | .decl t :: r, n, n', is, h, hc => by
    simp only [closes] at hc
    have ht : InnerText t.toList := h (.decl t) (by simp)
    obtain ⟨u, e, hu, ⟨c, v, ec, hcb, hcc⟩, hl, hk⟩ := ht.ends
    have ih := seen_code r n n' (is ++ [.stmt u]) (fun x hx => h x (by simp [hx])) hc
    have h2 := code_ctlN u hk u _ _ n is [] rfl (Or.inr ⟨c, v, ec, hcb, hcc⟩) hu
    have htr : trim u = u := trim_id (by rw [ec]; simp [hcb]) hl
    have hsemi : CodeReader.step ⟨n, is, u, 0, none, false⟩ ';' = some (between n (is ++ [.stmt u])) := by
      simp [CodeReader.step, CodeReader.plain, htr]
      exact fun e0 => by rw [e0] at ec; cases ec
    have e2 : joined (seen n (.decl t :: r)) = ind (n + 1) ++ u ++ [';'] ++ ['\n', '\n'] ++ joined (seen n r) := by
      rw [seen, joined_append, joined, cut_joined, e]; simp
    rw [e2, List.foldlM_append, List.foldlM_append, List.foldlM_append, List.foldlM_append, code_blanks _ _ _ (ind_blank _)]
    simp only [Option.bind_eq_bind, Option.bind_some]
    have h2' : u.foldlM CodeReader.step (between n is) = some ⟨n, is, u, 0, none, false⟩ := h2
    rw [h2']
    simp only [Option.bind_some]
    rw [foldlM_one, hsemi]
    simp only [Option.bind_some]
    rw [code_blanks _ _ ['\n', '\n'] (by decide)]
    simp only [Option.bind_some]
    rw [ih, items, e]
    simp

/-- What can stand between the braces of a function. -/
structure BodyOk (L : List Line) : Prop where
  lines : ∀ x ∈ L, LineOk x
  closed : closes 0 L = some 0

/-- The text between the braces. -/
def bodyText (L : List Line) : List Char := '\n' :: joined (seen 0 L)

theorem BodyOk.code {L : List Line} (h : BodyOk L) : code (bodyText L) = some (items L) := by
  have h1 := seen_code L 0 0 [] h.lines h.closed
  have h0 : CodeReader.step (between 0 []) '\n' = some (between 0 []) := rfl
  unfold CFile.code bodyText
  rw [List.foldlM_cons, h0]
  simp only [Option.bind_eq_bind, Option.bind_some]
  rw [h1]
  simp

theorem BodyOk.nil : BodyOk [] := ⟨by simp, rfl⟩

theorem BodyOk.append {a b : List Line} (ha : BodyOk a) (hb : BodyOk b) : BodyOk (a ++ b) :=
  ⟨fun x hx => (List.mem_append.mp hx).elim (ha.lines x) (hb.lines x), by rw [closes_append, ha.closed]; exact hb.closed⟩

theorem BodyOk.flatten : ∀ {l : List (List Line)}, (∀ x ∈ l, BodyOk x) → BodyOk l.flatten
  | [], _ => BodyOk.nil
  | a :: l, h => by
    rw [List.flatten_cons]
    exact (h a (by simp)).append (BodyOk.flatten (fun x hx => h x (by simp [hx])))

end EasyMock.CFile
