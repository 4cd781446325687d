import Verif.CFile.Lines

/-! # CFile: texts made of fixed parts and names -/

namespace EasyMock.CFile

/-- Whether the round and square brackets of a text match, `d` of them being open. -/
def nests : Nat → List Char → Bool
  | d, [] => d == 0
  | d, c :: t =>
    if c = '(' ∨ c = '[' then nests (d + 1) t
    else if c = ')' ∨ c = ']' then d != 0 && nests (d - 1) t
    else nests d t

/-- A text of plain characters whose brackets match. -/
structure Inert (t : List Char) : Prop where
  plain : ∀ c ∈ t, plainChar c = true
  nests : nests 0 t = true
  first : ∃ c r, t = c :: r ∧ c ≠ '*'
  last : ∀ x ∈ t.getLast?, blank x = false

/-- The text of a type, a declarator or a signature: it starts with an identifier or a colon. -/
structure TypeText (t : List Char) : Prop where
  plain : ∀ c ∈ t, plainChar c = true
  nests : CFile.nests 0 t = true
  first : ∃ c r, t = c :: r ∧ (identChar c = true ∨ c = ':')
  last : ∀ x ∈ t.getLast?, blank x = false

theorem TypeText.inert {t : List Char} (h : TypeText t) : Inert t := by
  obtain ⟨c, r, e, hc⟩ := h.first
  refine ⟨h.plain, h.nests, ⟨c, r, e, ?_⟩, h.last⟩
  intro e0
  subst e0
  rcases hc with hc | hc
  · exact absurd hc (by decide)
  · exact absurd hc (by decide)

theorem ident_bracket {c : Char} (hc : identChar c = true) : ¬(c = '(' ∨ c = '[') ∧ ¬(c = ')' ∨ c = ']') := by
  constructor
  · rintro (rfl | rfl) <;> exact absurd hc (by decide)
  · rintro (rfl | rfl) <;> exact absurd hc (by decide)

theorem ident_nests : ∀ {t : List Char} (_ : ∀ c ∈ t, identChar c = true) (d : Nat), nests d t = (d == 0)
  | [], _, d => rfl
  | c :: t, h, d => by
    have hc := ident_bracket (h c (by simp))
    simp only [nests, hc.1, hc.2, if_false]
    exact ident_nests (fun x hx => h x (by simp [hx])) d

theorem Ident.type {n : List Char} (h : Ident n) : TypeText n := by
  obtain ⟨h0, h1⟩ := h
  refine ⟨fun c hc => ident_plain (h1 c hc), by rw [ident_nests h1]; rfl, ?_, fun x hx => ident_blank (h1 x (List.mem_of_getLast? hx))⟩
  cases n with
  | nil => exact absurd rfl h0
  | cons c r => exact ⟨c, r, rfl, Or.inl (h1 c (by simp))⟩

/-! ## What inert texts do to the states -/

theorem plain_ne {c : Char} (h : plainChar c = true) :
    c ≠ '\n' ∧ c ≠ '/' ∧ c ≠ '\\' ∧ c ≠ '\'' ∧ c ≠ '"' ∧ c ≠ '{' ∧ c ≠ '}' ∧ c ≠ ';' := by
  simp only [plainChar, Bool.not_eq_true', Bool.or_eq_false_iff, beq_eq_false_iff_ne] at h
  exact ⟨h.1.1.1.1.1.1.1, h.1.1.1.1.1.1.2, h.1.1.1.1.1.2, h.1.1.1.1.2, h.1.1.1.2, h.1.1.2, h.1.2, h.2⟩

theorem inert_str (s : Ctl) (hs : s.mode = .str) : ∀ (t : List Char), (∀ c ∈ t, plainChar c = true) →
    t.foldlM Ctl.step s = some s
  | [], _ => rfl
  | c :: t, h => by
    obtain ⟨h1, _, h3, _, h5, _⟩ := plain_ne (h c (by simp))
    rw [List.foldlM_cons]
    have : Ctl.step s c = some s := by simp [Ctl.step, hs, h1, h3, h5]
    rw [this]
    exact inert_str s hs t (fun x hx => h x (by simp [hx]))

theorem plain_open {s : Ctl} {c : Char} (hc : c = '(' ∨ c = '[') : s.plain c = some ⟨.code, s.depth + 1, s.braces⟩ := by
  rcases hc with rfl | rfl <;> simp [Ctl.plain]

theorem plain_close {s : Ctl} {c : Char} (hc : c = ')' ∨ c = ']') (h : s.depth ≠ 0) :
    s.plain c = some ⟨.code, s.depth - 1, s.braces⟩ := by
  rcases hc with rfl | rfl <;> simp [Ctl.plain, h]

theorem plain_other {s : Ctl} {c : Char} (hp : plainChar c = true) (h1 : ¬(c = '(' ∨ c = '[')) (h2 : ¬(c = ')' ∨ c = ']')) :
    s.plain c = some ⟨.code, s.depth, s.braces⟩ := by
  obtain ⟨e1, e2, e3, e4, e5, e6, e7, e8⟩ := plain_ne hp
  simp [Ctl.plain, e1, e2, e3, e4, e5, e6, e7, e8, h1, h2]

theorem inert_code (D b : Nat) : ∀ (t : List Char) (d : Nat), (∀ c ∈ t, plainChar c = true) → nests d t = true →
    t.foldlM Ctl.step ⟨.code, D + d, b⟩ = some ⟨.code, D, b⟩
  | [], d, _, hn => by
    have : d = 0 := by simpa [nests] using hn
    subst this; rfl
  | c :: t, d, h, hn => by
    have hp := h c (by simp)
    have ht : ∀ x ∈ t, plainChar x = true := fun x hx => h x (by simp [hx])
    rw [List.foldlM_cons]
    have e : Ctl.step ⟨.code, D + d, b⟩ c = Ctl.plain ⟨.code, D + d, b⟩ c := rfl
    rw [e]
    by_cases h1 : c = '(' ∨ c = '['
    · rw [plain_open h1]
      simp only [nests, h1, if_true] at hn
      exact inert_code D b t (d + 1) ht hn
    · by_cases h2 : c = ')' ∨ c = ']'
      · simp only [nests, h1, h2, if_true, if_false, Bool.and_eq_true, bne_iff_ne] at hn
        obtain ⟨k, rfl⟩ : ∃ k, d = k + 1 := ⟨d - 1, by omega⟩
        rw [plain_close h2 (by simp)]
        exact inert_code D b t k ht hn.2
      · rw [plain_other hp h1 h2]
        simp only [nests, h1, h2, if_false] at hn
        exact inert_code D b t d ht hn

/-- The state behind an inert text. -/
def Ctl.after (s : Ctl) : Ctl := if s.mode = .str then s else { s with mode := .code }

theorem Inert.ctl {t : List Char} (h : Inert t) (s : Ctl) : t.foldlM Ctl.step s = some s.after := by
  obtain ⟨m, D, b⟩ := s
  cases m with
  | str => exact inert_str _ rfl t h.plain
  | code => exact inert_code D b t 0 h.plain h.nests
  | slash =>
    obtain ⟨c, r, e, hc⟩ := h.first
    have h2 := inert_code D b t 0 h.plain h.nests
    rw [← show t.foldlM Ctl.step ⟨.code, D + 0, b⟩ = t.foldlM Ctl.step ⟨.slash, D, b⟩ from ?_]
    · exact h2
    · have hp := (plain_ne (h.plain c (by rw [e]; simp))).2.1
      rw [e, List.foldlM_cons, List.foldlM_cons]
      have : Ctl.step ⟨.slash, D, b⟩ c = Ctl.step ⟨.code, D + 0, b⟩ c := by
        simp only [Ctl.step, hp, hc, or_self, if_false]
        rfl
      rw [this]

/-! ## Texts which behave alike -/

/-- A first character of a statement. -/
def good (c : Char) : Bool := !(blank c || c == '#' || c == '{')

/-- Two texts which the readers of statements treat in the same way. -/
structure Sim (u v : List Char) : Prop where
  ctl : ∀ s, u.foldlM Ctl.step s = v.foldlM Ctl.step s
  nil : u = [] ↔ v = []
  head : ∀ c ∈ u.head?, ∀ d ∈ v.head?, good d = true → good c = true
  last : ∀ c ∈ u.getLast?, ∀ d ∈ v.getLast?, blank d = false → blank c = false
  brace : '{' ∈ u ↔ '{' ∈ v

theorem Sim.lit (t : List Char) : Sim t t :=
  ⟨fun _ => rfl, Iff.rfl, fun c hc d hd h => by rw [hc] at hd; cases hd; exact h,
    fun c hc d hd h => by rw [hc] at hd; cases hd; exact h, Iff.rfl⟩

theorem Sim.append {a b u v : List Char} (h1 : Sim a u) (h2 : Sim b v) : Sim (a ++ b) (u ++ v) := by
  refine ⟨fun s => ?_, ?_, ?_, ?_, ?_⟩
  · rw [List.foldlM_append, List.foldlM_append, h1.ctl]
    cases u.foldlM Ctl.step s with
    | none => rfl
    | some s' => exact h2.ctl s'
  · rw [List.append_eq_nil_iff, List.append_eq_nil_iff, h1.nil, h2.nil]
  · intro c hc d hd hg
    cases ha : a with
    | nil =>
      have hu := h1.nil.mp ha
      rw [ha, List.nil_append] at hc
      rw [hu, List.nil_append] at hd
      exact h2.head c hc d hd hg
    | cons x a' =>
      cases hu : u with
      | nil => exact absurd (h1.nil.mpr hu) (by rw [ha]; simp)
      | cons y u' =>
        rw [ha] at hc; rw [hu] at hd
        exact h1.head c (by rw [ha]; simpa using hc) d (by rw [hu]; simpa using hd) hg
  · intro c hc d hd hg
    by_cases hb : b = []
    · have hv := h2.nil.mp hb
      rw [hb, List.append_nil] at hc
      rw [hv, List.append_nil] at hd
      exact h1.last c hc d hd hg
    · have hv : v ≠ [] := fun e => hb (h2.nil.mpr e)
      rw [last_append hb] at hc
      rw [last_append hv] at hd
      exact h2.last c hc d hd hg
  · rw [List.mem_append, List.mem_append, h1.brace, h2.brace]

theorem Sim.str {a b : String} {u v : List Char} (h1 : Sim a.toList u) (h2 : Sim b.toList v) : Sim (a ++ b).toList (u ++ v) := by
  rw [String.toList_append]; exact h1.append h2

theorem after_x (s : Ctl) : ['x'].foldlM Ctl.step s = some s.after := by
  obtain ⟨m, D, b⟩ := s
  cases m <;> rfl

theorem after_blank (s : Ctl) : [' ', 'x'].foldlM Ctl.step s = some s.after := by
  obtain ⟨m, D, b⟩ := s
  cases m <;> rfl

theorem Inert.nobrace {t : List Char} (h : Inert t) : '{' ∉ t := fun hm => absurd (h.plain _ hm) (by decide)

theorem Inert.nonempty {t : List Char} (h : Inert t) : t ≠ [] := by
  obtain ⟨c, r, e, _⟩ := h.first; rw [e]; simp

/-- An inert text behaves like a blank and an identifier. -/
theorem Inert.sim {t : List Char} (h : Inert t) : Sim t [' ', 'x'] := by
  refine ⟨fun s => by rw [h.ctl, after_blank], ?_, ?_, fun c hc d hd _ => h.last c hc, ?_⟩
  · simp [h.nonempty]
  · intro c hc d hd hg
    simp only [List.head?_cons, Option.mem_def, Option.some.injEq] at hd
    subst hd
    exact absurd hg (by decide)
  · simp [h.nobrace]

/-- The text of a type behaves like an identifier. -/
theorem TypeText.sim {t : List Char} (h : TypeText t) : Sim t ['x'] := by
  refine ⟨fun s => by rw [h.inert.ctl, after_x], ?_, ?_, fun c hc d hd _ => h.last c hc, ?_⟩
  · simp [h.inert.nonempty]
  · intro c hc d hd hg
    obtain ⟨x, r, e, hx⟩ := h.first
    rw [e] at hc
    simp only [List.head?_cons, Option.mem_def, Option.some.injEq] at hc
    subst hc
    rcases hx with hx | rfl
    · have h1 := ident_blank hx
      have h2 : x ≠ '#' := by rintro rfl; exact absurd hx (by decide)
      have h3 : x ≠ '{' := by rintro rfl; exact absurd hx (by decide)
      simp [good, h1, h2, h3]
    · decide
  · simp [h.inert.nobrace]

theorem Ident.sim {n : List Char} (h : Ident n) : Sim n ['x'] := h.type.sim

/-- A string whose text does not end it. -/
theorem quoted_closed {t : List Char} (h : ∀ c ∈ t, c ≠ '"' ∧ c ≠ '\\' ∧ c ≠ '\n') : Closed ('"' :: t ++ ['"']) := by
  have hstr : ∀ (t : List Char), (∀ c ∈ t, c ≠ '"' ∧ c ≠ '\\' ∧ c ≠ '\n') →
      t.foldlM Ctl.step ⟨.str, 0, 0⟩ = some ⟨.str, 0, 0⟩ := by
    intro t h
    induction t with
    | nil => rfl
    | cons c t ih =>
      obtain ⟨h1, h2, h3⟩ := h c (by simp)
      rw [List.foldlM_cons]
      have : Ctl.step ⟨.str, 0, 0⟩ c = some ⟨.str, 0, 0⟩ := by simp [Ctl.step, h1, h2, h3]
      rw [this]
      exact ih (fun x hx => h x (by simp [hx]))
  unfold Closed
  have e : Ctl.step Ctl.start '"' = some ⟨.str, 0, 0⟩ := rfl
  rw [List.cons_append, List.foldlM_cons, e]
  simp only [Option.bind_eq_bind, Option.bind_some]
  rw [List.foldlM_append, hstr t h]
  rfl

theorem Closed.append {a b : List Char} (ha : Closed a) (hb : Closed b) : Closed (a ++ b) := by
  unfold Closed at ha hb ⊢
  rw [List.foldlM_append, ha]
  exact hb

/-! ## Statements -/

/-- The conditions on the text of a statement without braces. -/
def stm (t : List Char) : Bool :=
  (t.foldlM Ctl.step Ctl.start == some Ctl.start) && (t.head?.any good) && (t.getLast?.all (fun x => !blank x)) &&
  !t.contains '{'

theorem sim_parts {t u : List Char} (h : Sim t u)
    (hu : ((u.foldlM Ctl.step Ctl.start == some Ctl.start) && (u.head?.any good) && (u.getLast?.all (fun x => !blank x))) = true) :
    Closed t ∧ (∃ c r, t = c :: r ∧ blank c = false ∧ c ≠ '#' ∧ c ≠ '{') ∧ (∀ x ∈ t.getLast?, blank x = false) := by
  simp only [Bool.and_eq_true, beq_iff_eq] at hu
  obtain ⟨⟨h1, h2⟩, h3⟩ := hu
  refine ⟨by unfold Closed; rw [h.ctl]; exact h1, ?_, ?_⟩
  · cases hv : u with
    | nil => rw [hv] at h2; cases h2
    | cons d u' =>
      cases ht : t with
      | nil => exact absurd (h.nil.mp ht) (by rw [hv]; simp)
      | cons c r =>
        rw [hv] at h2
        have := h.head c (by rw [ht]; simp) d (by rw [hv]; simp) (by simpa using h2)
        simp only [good, Bool.not_eq_true', Bool.or_eq_false_iff, beq_eq_false_iff_ne] at this
        exact ⟨c, r, rfl, this.1.1, this.1.2, this.2⟩
  · intro x hx
    cases hl : u.getLast? with
    | none =>
      have hu0 := List.getLast?_eq_none_iff.mp hl
      rw [h.nil.mpr hu0] at hx; cases hx
    | some d =>
      rw [hl] at h3
      exact h.last x hx d hl (by simpa using h3)

theorem StmText.of_sim {t u : List Char} (h : Sim t u) (hu : stm u = true) : StmText t := by
  unfold stm at hu
  rw [Bool.and_eq_true] at hu
  obtain ⟨h1, h2, h3⟩ := sim_parts h hu.1
  refine ⟨h1, h2, h3, fun hb => ?_⟩
  have := h.brace.mp hb
  simp [this] at hu

theorem HeadText.of_sim {t u : List Char} (h : Sim t u) (hu : stm u = true) (hc : CFile.control t = true) : HeadText t := by
  unfold stm at hu
  rw [Bool.and_eq_true] at hu
  obtain ⟨h1, h2, h3⟩ := sim_parts h hu.1
  refine ⟨h1, h2, h3, fun hb => ?_, hc⟩
  have := h.brace.mp hb
  simp [this] at hu

theorem StmText.of_brace {t u : List Char} (h : Sim t u)
    (hu : ((u.foldlM Ctl.step Ctl.start == some Ctl.start) && (u.head?.any good) && (u.getLast?.all (fun x => !blank x))) = true)
    (hc : control t = false) : StmText t := by
  obtain ⟨h1, h2, h3⟩ := sim_parts h hu
  exact ⟨h1, h2, h3, fun _ => hc⟩

/-- The first word of a text ends inside it, and says whether a block can follow. -/
structure Starts (t : List Char) (v : Bool) : Prop where
  stop : t.all identChar = false
  control : control t = v

theorem Starts.append {a b : List Char} {v : Bool} (h : Starts a v) : Starts (a ++ b) v := by
  have hw : (a ++ b).takeWhile identChar = a.takeWhile identChar := by
    have h1 := h.stop
    clear h
    induction a with
    | nil => simp at h1
    | cons c a ih =>
      simp only [List.cons_append, List.takeWhile_cons]
      cases hc : identChar c with
      | false => rfl
      | true =>
        simp only [List.all_cons, hc, Bool.true_and] at h1
        simp [ih h1]
  refine ⟨by rw [List.all_append, h.stop]; rfl, ?_⟩
  unfold CFile.control
  rw [hw]
  exact h.control

theorem Starts.str {a b : String} {v : Bool} (h : Starts a.toList v) : Starts (a ++ b).toList v := by
  rw [String.toList_append]; exact h.append

/-- The first word of a text is that of its fixed beginning. -/
macro "starts" : tactic => `(tactic| (repeat' with_reducible apply Starts.str) <;> exact ⟨by decide +kernel, by decide +kernel⟩)

/-- Takes a text apart; the hypotheses say what its names behave like. -/
macro "sim" : tactic => `(tactic| repeat' first | with_reducible assumption | with_reducible apply Sim.str | exact Sim.lit _)

theorem lineOk_stmt {t : String} {u : List Char} (h : Sim t.toList u) (hu : stm u = true) : LineOk (line t) :=
  ⟨StmText.of_sim h hu, by decide +kernel, by decide +kernel⟩

theorem lineOk_comment {t k : String} {u : List Char} (h : Sim t.toList u) (hu : stm u = true) (hk : k.toList.all (fun c => c != '\n' && c != '\\') = true) :
    LineOk (.stmt t k) := by
  simp only [List.all_eq_true, Bool.and_eq_true, bne_iff_ne] at hk
  exact ⟨StmText.of_sim h hu, fun hm => (hk _ hm).1 rfl, fun hm => (hk _ hm).2 rfl⟩

theorem lineOk_enter {t : String} {u : List Char} (h : Sim t.toList u) (hu : stm u = true) (hc : Starts t.toList true) :
    LineOk (.enter t) := HeadText.of_sim h hu hc.control

/-- The conditions on the text of a statement with braces. -/
def braced (t : List Char) : Bool :=
  (t.foldlM Ctl.step Ctl.start == some Ctl.start) && (t.head?.any good) && (t.getLast?.all (fun x => !blank x))

theorem lineOk_brace {t : String} {u : List Char} (h : Sim t.toList u) (hu : braced u = true) (hc : Starts t.toList false) :
    LineOk (line t) := ⟨StmText.of_brace h hu hc.control, by decide +kernel, by decide +kernel⟩

theorem ok_leave : LineOk .leave := trivial
theorem ok_empty : LineOk .empty := trivial
theorem ok_blanks : LineOk .blanks := trivial

/-- The lines of a list. -/
def LinesOk (L : List Line) : Prop := ∀ x ∈ L, LineOk x

theorem ok_nil : LinesOk [] := fun x hx => by cases hx

theorem ok_cons {a : Line} {L : List Line} (h : LineOk a) (t : LinesOk L) : LinesOk (a :: L) := by
  intro x hx
  rcases List.mem_cons.mp hx with rfl | hx
  · exact h
  · exact t x hx

/-- The lines of a list, one by one; the hypotheses say what their names behave like. -/
macro "each_line" : tactic => `(tactic| repeat' first
  | with_reducible exact ok_nil
  | with_reducible apply ok_cons
  | with_reducible exact ok_leave
  | with_reducible exact ok_empty
  | with_reducible exact ok_blanks
  | with_reducible refine lineOk_stmt (by sim) (by decide +kernel)
  | with_reducible refine lineOk_enter (by sim) (by decide +kernel) (by starts)
  | with_reducible refine lineOk_comment (by sim) (by decide +kernel) (by decide +kernel)
  | with_reducible refine lineOk_brace (by sim) (by decide +kernel) (by starts))

end EasyMock.CFile
