import Verif.CFile.Code
import Verif.CFile.Lemmas

/-! # CFile: lemmas about the reader of statements -/

namespace EasyMock.CFile

/-! ## Statements -/

/-- Where a text of a statement is: in the code, behind a `/`, inside a string; the number of brackets open, and how many of
    these are braces. -/
inductive CMode where
  | code | slash | str
  deriving DecidableEq, Repr

structure Ctl where
  mode : CMode
  depth : Nat
  braces : Nat
  deriving DecidableEq, Repr

/-- One character of a statement outside strings. -/
def Ctl.plain (s : Ctl) (c : Char) : Option Ctl :=
  if c = '\n' ∨ c = '\\' ∨ c = '\'' then none
  else if c = '"' then some { s with mode := .str }
  else if c = '/' then some { s with mode := .slash }
  else if c = '(' ∨ c = '[' then some ⟨.code, s.depth + 1, s.braces⟩
  else if c = '{' then some ⟨.code, s.depth + 1, s.braces + 1⟩
  else if c = ')' ∨ c = ']' then if s.depth = 0 then none else some ⟨.code, s.depth - 1, s.braces⟩
  else if c = '}' then if s.depth = 0 ∨ s.braces = 0 then none else some ⟨.code, s.depth - 1, s.braces - 1⟩
  else if c = ';' then if s.depth = 0 then none else some { s with mode := .code }
  else some { s with mode := .code }

/-- One character of a statement. -/
def Ctl.step (s : Ctl) (c : Char) : Option Ctl :=
  match s.mode with
  | .str => if c = '"' then some { s with mode := .code } else if c = '\\' ∨ c = '\n' then none else some s
  | .slash => if c = '/' ∨ c = '*' then none else s.plain c
  | .code => s.plain c

/-- The state at the beginning and the end of a statement. -/
def Ctl.start : Ctl := ⟨.code, 0, 0⟩

/-- The text so far, without a `/` at its end. -/
def Ctl.pending (s : Ctl) : List Char := if s.mode = .slash then ['/'] else []

def Ctl.scanMode (s : Ctl) : Mode :=
  match s.mode with
  | .code => .code
  | .slash => .slash
  | .str => .quote '"'

def Ctl.quote (s : Ctl) : Option Char := if s.mode = .str then some '"' else none

theorem scan_inCode (l : List Char) (d : List (List Char)) (s s' : Ctl) (c : Char) (m : Mode) (h : s.plain c = some s') :
    ∃ l', Scan.inCode ⟨m, l, d⟩ c = ⟨s'.scanMode, l', d⟩ ∧ l' ++ s'.pending = l ++ [c] := by
  unfold Ctl.plain at h
  by_cases h1 : c = '\n' ∨ c = '\\' ∨ c = '\''
  · rw [if_pos h1] at h; cases h
  rw [if_neg h1] at h
  have h1' : c ≠ '\n' ∧ c ≠ '\\' ∧ c ≠ '\'' := by
    refine ⟨fun e => h1 (Or.inl e), fun e => h1 (Or.inr (Or.inl e)), fun e => h1 (Or.inr (Or.inr e))⟩
  by_cases h2 : c = '"'
  · rw [if_pos h2] at h; cases h
    subst h2
    exact ⟨l ++ ['"'], rfl, by simp [Ctl.pending]⟩
  rw [if_neg h2] at h
  by_cases h3 : c = '/'
  · rw [if_pos h3] at h; cases h
    subst h3
    exact ⟨l, rfl, by simp [Ctl.pending]⟩
  rw [if_neg h3] at h
  have e : Scan.inCode ⟨m, l, d⟩ c = ⟨.code, l ++ [c], d⟩ := by
    simp [Scan.inCode, h1', h2, h3]
  have hs : s'.mode = .code := by
    repeat' split at h
    all_goals first | cases h; rfl | cases h
  exact ⟨l ++ [c], by rw [e]; simp [Ctl.scanMode, hs], by simp [Ctl.pending, hs]⟩

theorem scan_ctl : ∀ (t : List Char) (s s' : Ctl) (l : List Char) (d : List (List Char)), t.foldlM Ctl.step s = some s' →
    ∃ l', t.foldl Scan.step ⟨s.scanMode, l, d⟩ = ⟨s'.scanMode, l', d⟩ ∧ l' ++ s'.pending = l ++ s.pending ++ t
  | [], s, s', l, d, h => by
    cases h
    exact ⟨l, rfl, by simp⟩
  | c :: t, s, s', l, d, h => by
    rw [List.foldlM_cons] at h
    cases h1 : s.step c with
    | none => rw [h1] at h; cases h
    | some s1 =>
      rw [h1] at h
      have hstep : ∃ l1, Scan.step ⟨s.scanMode, l, d⟩ c = ⟨s1.scanMode, l1, d⟩ ∧ l1 ++ s1.pending = l ++ s.pending ++ [c] := by
        obtain ⟨m, dp, br⟩ := s
        cases m with
        | code =>
          simp only [Ctl.step] at h1
          have := scan_inCode l d ⟨.code, dp, br⟩ s1 c .code h1
          simpa [Ctl.pending, Ctl.scanMode, Scan.step] using this
        | slash =>
          simp only [Ctl.step] at h1
          by_cases hc : c = '/' ∨ c = '*'
          · rw [if_pos hc] at h1; cases h1
          · rw [if_neg hc] at h1
            have hc' : c ≠ '/' ∧ c ≠ '*' := ⟨fun e => hc (Or.inl e), fun e => hc (Or.inr e)⟩
            have := scan_inCode (l ++ ['/']) d ⟨.slash, dp, br⟩ s1 c .slash h1
            simpa [Ctl.pending, Ctl.scanMode, Scan.step, hc'] using this
        | str =>
          simp only [Ctl.step] at h1
          by_cases hc : c = '"'
          · rw [if_pos hc] at h1; cases h1
            subst hc
            exact ⟨l ++ ['"'], rfl, by simp [Ctl.pending]⟩
          · rw [if_neg hc] at h1
            by_cases hn : c = '\\' ∨ c = '\n'
            · rw [if_pos hn] at h1; cases h1
            · rw [if_neg hn] at h1; cases h1
              have hn' : c ≠ '\\' := fun e => hn (Or.inl e)
              exact ⟨l ++ [c], by simp [Ctl.scanMode, Scan.step, hc, hn'], by simp [Ctl.pending]⟩
      obtain ⟨l1, e1, e1'⟩ := hstep
      obtain ⟨l2, e2, e2'⟩ := scan_ctl t s1 s' l1 d h
      exact ⟨l2, by rw [List.foldl_cons, e1, e2], by rw [e2', e1']; simp⟩

theorem ctl_noescape : ∀ (t : List Char) (s s' : Ctl), t.foldlM Ctl.step s = some s' → '\\' ∉ t
  | [], _, _, _ => by simp
  | c :: t, s, s', h => by
    rw [List.foldlM_cons] at h
    cases h1 : s.step c with
    | none => rw [h1] at h; cases h
    | some s1 =>
      rw [h1] at h
      have := ctl_noescape t s1 s' h
      simp only [List.mem_cons, not_or]
      refine ⟨fun e => ?_, this⟩
      subst e
      obtain ⟨m, dp, br⟩ := s
      cases m <;> simp [Ctl.step, Ctl.plain] at h1

/-- A statement in a line: a text in which strings and brackets are closed. -/
def Closed (t : List Char) : Prop := t.foldlM Ctl.step Ctl.start = some Ctl.start

theorem Closed.scan {t : List Char} (h : Closed t) (l : List Char) (d : List (List Char)) :
    t.foldl Scan.step ⟨.code, l, d⟩ = ⟨.code, l ++ t, d⟩ := by
  obtain ⟨l', e1, e2⟩ := scan_ctl t _ _ l d h
  simp only [Ctl.scanMode, Ctl.start] at e1
  rw [e1]
  simp only [Ctl.pending, Ctl.start] at e2
  simp at e2
  rw [e2]

theorem Closed.noescape {t : List Char} (h : Closed t) : '\\' ∉ t := ctl_noescape t _ _ h

/-! ## Inside the braces of a declaration -/

/-- A place inside braces, with further braces open. -/
inductive Inside where
  | part
  | body (header : List Char)

def Inside.place : Inside → Nat → Place
  | .part, n => .inPart n
  | .body h, n => .inBody h n

theorem feed_ctl (I : Inside) : ∀ (t : List Char) (s s' : Ctl) (S : List Scope) (n : Nat) (p : List Char) (D : List Decl),
    t.foldlM Ctl.step s = some s' →
    t.foldlM Reader.step ⟨S, I.place (n + s.braces), s.quote, false, p, D⟩ =
      some ⟨S, I.place (n + s'.braces), s'.quote, false, p ++ t, D⟩
  | [], s, s', S, n, p, D, h => by cases h; simp
  | c :: t, s, s', S, n, p, D, h => by
    rw [List.foldlM_cons] at h
    cases h1 : s.step c with
    | none => rw [h1] at h; cases h
    | some s1 =>
      rw [h1] at h
      have ih := feed_ctl I t s1 s' S n (p ++ [c]) D h
      have happ : p ++ c :: t = (p ++ [c]) ++ t := by simp
      rw [List.foldlM_cons, happ, ← ih]
      have hstep : Reader.step ⟨S, I.place (n + s.braces), s.quote, false, p, D⟩ c =
          some ⟨S, I.place (n + s1.braces), s1.quote, false, p ++ [c], D⟩ := by
        have hplain : ∀ (s : Ctl), s.mode ≠ .str → s.plain c = some s1 →
            Reader.step ⟨S, I.place (n + s.braces), none, false, p, D⟩ c =
              some ⟨S, I.place (n + s1.braces), s1.quote, false, p ++ [c], D⟩ := by
          intro s hm hp
          obtain ⟨m, dp, br⟩ := s
          unfold Ctl.plain at hp
          by_cases h1 : c = '\n' ∨ c = '\\' ∨ c = '\''
          · rw [if_pos h1] at hp; cases hp
          rw [if_neg h1] at hp
          have h1' : c ≠ '\'' := fun e => h1 (Or.inr (Or.inr e))
          by_cases h2 : c = '"'
          · rw [if_pos h2] at hp; cases hp
            subst h2
            simp [Reader.step, Ctl.quote]
          rw [if_neg h2] at hp
          by_cases h5 : c = '{'
          · subst h5
            simp at hp
            subst hp
            cases I <;> simp [Reader.step, Reader.plain, Inside.place, Ctl.quote, Nat.add_assoc]
          by_cases h6 : c = '}'
          · subst h6
            simp at hp
            obtain ⟨⟨_, hb⟩, hp⟩ := hp
            subst hp
            have e0 : n + br ≠ 0 := by omega
            have e1 : n + br - 1 = n + (br - 1) := by omega
            cases I <;> simp [Reader.step, Reader.plain, Inside.place, Ctl.quote, e1, hb]
          have hs : s1.braces = br ∧ s1.mode ≠ .str := by
            simp only [h5, h6, if_false] at hp
            repeat' split at hp
            all_goals first | (cases hp; exact ⟨rfl, by simp⟩) | cases hp
          have hq : s1.quote = none := by simp [Ctl.quote, hs.2]
          rw [hs.1, hq]
          cases I <;> simp [Reader.step, Reader.plain, Inside.place, h1', h2, h5, h6]
        obtain ⟨m, dp, br⟩ := s
        cases m with
        | code => exact hplain ⟨.code, dp, br⟩ (by simp) h1
        | slash =>
          simp only [Ctl.step] at h1
          by_cases hc : c = '/' ∨ c = '*'
          · rw [if_pos hc] at h1; cases h1
          · rw [if_neg hc] at h1
            exact hplain ⟨.slash, dp, br⟩ (by simp) h1
        | str =>
          simp only [Ctl.step] at h1
          by_cases hc : c = '"'
          · rw [if_pos hc] at h1; cases h1
            subst hc
            simp [Reader.step, Ctl.quote]
          · rw [if_neg hc] at h1
            by_cases hn : c = '\\' ∨ c = '\n'
            · rw [if_pos hn] at h1; cases h1
            · rw [if_neg hn] at h1; cases h1
              have hn' : c ≠ '\\' := fun e => hn (Or.inl e)
              simp [Reader.step, Ctl.quote, hc, hn']
      rw [hstep]
      rfl

theorem Closed.feed {t : List Char} (h : Closed t) (I : Inside) (S : List Scope) (n : Nat) (p : List Char) (D : List Decl) :
    t.foldlM Reader.step ⟨S, I.place n, none, false, p, D⟩ = some ⟨S, I.place n, none, false, p ++ t, D⟩ := by
  have := feed_ctl I t _ _ S n p D h
  simpa [Ctl.start, Ctl.quote] using this

/-! ## The statements -/

theorem takeWhile_stop {P : Char → Bool} {c : Char} (hc : P c = false) : ∀ (a r : List Char),
    (a ++ c :: r).takeWhile P = a.takeWhile P
  | [], r => by simp [hc]
  | x :: a, r => by
    simp only [List.cons_append, List.takeWhile_cons]
    rw [takeWhile_stop hc a r]

theorem control_stop {c : Char} (hc : identChar c = false) (a r : List Char) : control (a ++ c :: r) = control a := by
  unfold control
  rw [takeWhile_stop hc]

/-- The reader of statements inside a statement. -/
abbrev cr (n : Nat) (is : List Item) (p : List Char) (s : Ctl) : CodeReader := ⟨n, is, p, s.depth, s.quote, false⟩

theorem code_ctl (w : List Char) (hw : '{' ∈ w → control w = false) : ∀ (t : List Char) (s s' : Ctl) (n : Nat)
    (is : List Item) (p : List Char), p ++ t = w → (p ≠ [] ∨ ∃ c r, t = c :: r ∧ blank c = false ∧ c ≠ '{') →
    t.foldlM Ctl.step s = some s' → t.foldlM CodeReader.step (cr n is p s) = some (cr n is w s')
  | [], s, s', n, is, p, e, _, h => by
    cases h
    rw [List.append_nil] at e
    rw [e]
    rfl
  | c :: t, s, s', n, is, p, e, hp, h => by
    rw [List.foldlM_cons] at h
    cases h1 : s.step c with
    | none => rw [h1] at h; cases h
    | some s1 =>
      rw [h1] at h
      have ih := code_ctl w hw t s1 s' n is (p ++ [c]) (by rw [← e]; simp) (Or.inl (by simp)) h
      rw [List.foldlM_cons, ← ih]
      have hbl : ¬(blank c = true ∧ p = []) := by
        rintro ⟨hb, rfl⟩
        rcases hp with hp | ⟨x, r, hx, hb'⟩
        · exact hp rfl
        · cases hx; rw [hb] at hb'; exact absurd hb'.1 (by simp)
      have hstep : CodeReader.step (cr n is p s) c = some (cr n is (p ++ [c]) s1) := by
        have hplain : ∀ (s : Ctl), s.mode ≠ .str → s.plain c = some s1 →
            CodeReader.step ⟨n, is, p, s.depth, none, false⟩ c = some (cr n is (p ++ [c]) s1) := by
          intro s hm hq
          obtain ⟨m, dp, br⟩ := s
          unfold Ctl.plain at hq
          by_cases h1 : c = '\n' ∨ c = '\\' ∨ c = '\''
          · rw [if_pos h1] at hq; cases hq
          rw [if_neg h1] at hq
          have h1' : c ≠ '\'' := fun e => h1 (Or.inr (Or.inr e))
          by_cases h2 : c = '"'
          · rw [if_pos h2] at hq; cases hq
            subst h2
            simp [CodeReader.step, Ctl.quote]
          rw [if_neg h2] at hq
          by_cases h3 : c = '/'
          · subst h3
            simp at hq
            subst hq
            by_cases hd : dp = 0
            · subst hd; simp [CodeReader.step, CodeReader.plain, Ctl.quote, show blank '/' = false by decide]
            · simp [CodeReader.step, CodeReader.inner, Ctl.quote, hd]
          rw [if_neg h3] at hq
          by_cases h4 : c = '(' ∨ c = '['
          · rw [if_pos h4] at hq; cases hq
            have h5 : c ≠ '{' ∧ c ≠ '}' ∧ c ≠ ';' := by rcases h4 with rfl | rfl <;> decide
            by_cases hd : dp = 0
            · subst hd; simp [CodeReader.step, CodeReader.plain, Ctl.quote, h1', h2, h4, h5]
            · simp [CodeReader.step, CodeReader.inner, Ctl.quote, hd, h1', h2]
              rcases h4 with rfl | rfl <;> simp
          rw [if_neg h4] at hq
          have h4' : c ≠ '(' ∧ c ≠ '[' := ⟨fun e => h4 (Or.inl e), fun e => h4 (Or.inr e)⟩
          by_cases h5 : c = '{'
          · subst h5
            simp at hq
            subst hq
            by_cases hd : dp = 0
            · subst hd
              have hm : '{' ∈ w := by rw [← e]; simp
              have hc : control p = false := by
                have := hw hm
                rw [← e, control_stop (by decide)] at this
                exact this
              have hpn : p ≠ [] := by
                rintro rfl
                rcases hp with hp | ⟨x, r, hx, hb'⟩
                · exact hp rfl
                · cases hx; exact hb'.2 rfl
              simp [CodeReader.step, CodeReader.plain, Ctl.quote, hc, hpn]
            · simp [CodeReader.step, CodeReader.inner, Ctl.quote, hd]
          rw [if_neg h5] at hq
          by_cases h6 : c = ')' ∨ c = ']'
          · rw [if_pos h6] at hq
            by_cases hd : dp = 0
            · subst hd; simp at hq
            · simp [hd] at hq
              subst hq
              simp [CodeReader.step, CodeReader.inner, Ctl.quote, hd, h1', h2, h4', h5]
              rcases h6 with rfl | rfl <;> simp
          rw [if_neg h6] at hq
          have h6' : c ≠ ')' ∧ c ≠ ']' := ⟨fun e => h6 (Or.inl e), fun e => h6 (Or.inr e)⟩
          by_cases h7 : c = '}'
          · subst h7
            by_cases hd : dp = 0
            · subst hd; simp at hq
            · simp [hd] at hq
              obtain ⟨_, hq⟩ := hq
              subst hq
              simp [CodeReader.step, CodeReader.inner, Ctl.quote, hd]
          rw [if_neg h7] at hq
          by_cases h8 : c = ';'
          · subst h8
            by_cases hd : dp = 0
            · subst hd; simp at hq
            · simp [hd] at hq
              subst hq
              simp [CodeReader.step, CodeReader.inner, Ctl.quote, hd]
          rw [if_neg h8] at hq
          cases hq
          by_cases hd : dp = 0
          · subst hd
            have e0 : ¬(c = '"' ∨ c = '\'') := fun e => e.elim h2 h1'
            simp only [CodeReader.step, CodeReader.plain]
            rw [if_neg e0, if_pos True.intro, if_neg h8, if_neg h5, if_neg h7, if_neg h4, if_neg h6, if_neg hbl]
            rfl
          · simp [CodeReader.step, CodeReader.inner, Ctl.quote, hd, h1', h2, h4', h5, h6', h7]
        obtain ⟨m, dp, br⟩ := s
        cases m with
        | code => exact hplain ⟨.code, dp, br⟩ (by simp) h1
        | slash =>
          simp only [Ctl.step] at h1
          by_cases hc : c = '/' ∨ c = '*'
          · rw [if_pos hc] at h1; cases h1
          · rw [if_neg hc] at h1
            exact hplain ⟨.slash, dp, br⟩ (by simp) h1
        | str =>
          simp only [Ctl.step] at h1
          by_cases hc : c = '"'
          · rw [if_pos hc] at h1; cases h1
            subst hc
            simp [CodeReader.step, Ctl.quote]
          · rw [if_neg hc] at h1
            by_cases hn : c = '\\' ∨ c = '\n'
            · rw [if_pos hn] at h1; cases h1
            · rw [if_neg hn] at h1; cases h1
              have hn' : c ≠ '\\' := fun e => hn (Or.inl e)
              simp [CodeReader.step, Ctl.quote, hc, hn']
      rw [hstep]
      rfl

end EasyMock.CFile
