import Verif.CString.Lemmas

/-!
# Properties of the string builder (C21 – C24)
-/

namespace EasyMock.CString

/-! ## C21 – content -/

/-- C21. For every program (any number of strings, any interleaving of creations, appends of
literals or of other strings, and frees, any pattern of allocation failures) the byte machine ends in
exactly the way the specification says – normal, `exit` or undefined – and, when it ends normally,
every variable shows exactly the specified text and reports its length (as a 32-bit number). -/
theorem C21_program_refines_spec (ops : List Op) :
    match specRun [] ops with
    | .ok t => ∃ s, run Sys.init ops = .ok s ∧ s.vars.length = t.length ∧
        ∀ (i : Nat) v, t[i]? = some v → ∃ c, s.vars[i]? = some c ∧
          observe s.heap c = .ok v.text ∧ length s.heap c = .ok (v.text.length % 4294967296)
    | .exit => run Sys.init ops = .exit
    | .ub => run Sys.init ops = .ub := by
  have h := run_rel sim_init ops
  unfold ProgRel at h
  cases hy : specRun [] ops with
  | ok t =>
    rw [hy] at h
    obtain ⟨s, e, H⟩ := h
    refine ⟨s, e, H.len, ?_⟩
    intro i v hv
    have hi : i < s.vars.length := by rw [H.len]; exact (List.getElem?_eq_some_iff.mp hv).1
    have hc : s.vars[i]? = some s.vars[i] := by simp [hi]
    have r := H.rep i _ v hc hv
    obtain ⟨b, h1, h2⟩ := r.cStr
    exact ⟨_, hc, by simp [observe, h1, h2.readStr], r.length⟩
  | exit => rw [hy] at h; exact h
  | ub => rw [hy] at h; exact h

example : specRun [] [.new, .append 0 [104, 105] true, .newInit [33, 0, 33] true, .appendFrom 0 1 true]
    = .ok [⟨[104, 105, 33], none⟩, ⟨[33], none⟩] := by decide

/-- Total number of bytes shown by a list of pieces. -/
def total (parts : List (List UInt8)) : Nat := ((parts.map cut).flatten).length

theorem specRun_appends (parts : List (List UInt8)) (v : SVar) :
    (∀ c, v.big = some c → c.length + total parts < 4294967296 + (parts.getLast?.map fun p => (cut p).length).getD 0) →
    (v.big = none → v.inline.length ≤ 255) →
    (v.big = none → v.inline.length + total parts < 4294967296 + (parts.getLast?.map fun p => (cut p).length).getD 0) →
    ∃ v', specRun [v] (parts.map fun p => .append 0 p true) = .ok [v'] ∧
      v'.text = v.text ++ (parts.map cut).flatten ∧
      (v'.big = none ↔ v.big = none ∧ v.text.length + total parts ≤ 255) := by
  induction parts generalizing v with
  | nil =>
    intro _ _ _
    refine ⟨v, rfl, by simp, ?_⟩
    constructor
    · intro h
      refine ⟨h, ?_⟩
      simp [total, SVar.text, h]
      rename_i h2 _
      exact h2 h
    · exact fun h => h.1
  | cons p ps ih =>
    intro h1 h2 h3
    have hlast : ((p :: ps).getLast?.map fun p => (cut p).length).getD 0 ≤
        (if ps = [] then (cut p).length else (ps.getLast?.map fun p => (cut p).length).getD 0) := by
      cases ps with
      | nil => simp
      | cons q qs => simp [List.getLast?_cons_cons]
    have htot : total (p :: ps) = (cut p).length + total ps := by simp [total]
    have hlastle : (ps.getLast?.map fun p => (cut p).length).getD 0 ≤ total ps := by
      clear ih h1 h2 h3 hlast htot
      induction ps with
      | nil => simp
      | cons q qs ihq =>
        cases qs with
        | nil => simp [total]
        | cons r rs =>
          simp only [List.getLast?_cons_cons] at ihq ⊢
          have : total (q :: r :: rs) = (cut q).length + total (r :: rs) := by simp [total]
          omega
    simp only [List.map_cons, specRun, specStep, List.getElem?_cons_zero, List.set_cons_zero]
    have key : ∃ w, v.append true (cut p) = .ok w ∧ w.text = v.text ++ cut p ∧
        (w.big = none ↔ v.big = none ∧ v.inline.length + (cut p).length ≤ 255) ∧
        (w.big = none → w.inline.length ≤ 255) := by
      unfold SVar.append
      cases hb : v.big with
      | some c =>
        have := h1 c hb
        have hc : c.length < 4294967296 := by
          by_cases hps : ps = []
          · simp only [hps] at hlast this htot
            simp [total] at htot
            simp [hps, total] at this
            omega
          · simp only [hps, if_false] at hlast
            omega
        simp [hc, SVar.text, hb]
      | none =>
        by_cases hfit : v.inline.length + (cut p).length ≤ 255
        · simp [hfit, SVar.text, hb]
        · simp [hfit, SVar.text, hb]
    obtain ⟨w, e, ht, hn, hl⟩ := key
    rw [e]
    simp only [Res.bind_ok]
    have hlen : w.text.length = v.text.length + (cut p).length := by rw [ht]; simp
    have hlast' : ps ≠ [] → ((p :: ps).getLast?.map fun p => (cut p).length).getD 0 =
        (ps.getLast?.map fun p => (cut p).length).getD 0 := by
      intro hne
      cases ps with
      | nil => exact (hne rfl).elim
      | cons q qs => simp [List.getLast?_cons_cons]
    have bound : ps ≠ [] → w.text.length + total ps <
        4294967296 + (ps.getLast?.map fun p => (cut p).length).getD 0 := by
      intro hne
      rw [← hlast' hne]
      cases hb : v.big with
      | some c => have := h1 c hb; simp [SVar.text, hb] at hlen ⊢; omega
      | none => have := h3 hb; simp [SVar.text, hb] at hlen ⊢; omega
    by_cases hne : ps = []
    · subst hne
      refine ⟨w, rfl, by simp [ht], ?_⟩
      rw [hn]
      simp only [total, List.map_cons, List.map_nil, List.flatten_cons, List.flatten_nil, List.append_nil]
      constructor
      · rintro ⟨a, b⟩; exact ⟨a, by simp [SVar.text, a]; exact b⟩
      · rintro ⟨a, b⟩; exact ⟨a, by simpa [SVar.text, a] using b⟩
    · obtain ⟨v', e', ht', hn'⟩ := ih w
        (by intro c hc; have := bound hne; simpa [SVar.text, hc] using this)
        hl
        (by intro hc; have := bound hne; simpa [SVar.text, hc] using this)
      refine ⟨v', e', by simp [ht', ht], ?_⟩
      rw [hn', hn, hlen, htot]
      constructor
      · rintro ⟨⟨a, b⟩, c⟩; exact ⟨a, by omega⟩
      · rintro ⟨a, b⟩
        refine ⟨⟨a, ?_⟩, by omega⟩
        simp [SVar.text, a] at b
        omega

/-- C21 (single string, explicit). A new string to which any pieces are appended one after the other
shows their concatenation, and its length is the sum of their lengths, provided the total stays below
2^32 and memory is available. No write goes out of bounds (that would be the outcome `ub`). -/
theorem C21_appends_concatenate (parts : List (List UInt8)) (h : total parts < 4294967296) :
    ∃ s c, run Sys.init (.new :: parts.map fun p => .append 0 p true) = .ok s ∧ s.vars = [c] ∧
      observe s.heap c = .ok (parts.map cut).flatten ∧
      length s.heap c = .ok (parts.map fun p => (cut p).length).sum := by
  obtain ⟨v', e, ht, -⟩ := specRun_appends parts ⟨[], none⟩ (by simp) (by simp) (by simp; omega)
  have := C21_program_refines_spec (.new :: parts.map fun p => .append 0 p true)
  have e2 : specRun [] (.new :: parts.map fun p => .append 0 p true) = .ok [v'] := by
    simp [specRun, specStep, e]
  rw [e2] at this
  obtain ⟨s, hs, hl, hv⟩ := this
  obtain ⟨c, hc, ho, hln⟩ := hv 0 v' (by simp)
  refine ⟨s, c, hs, ?_, ?_, ?_⟩
  · match hvars : s.vars with
    | [] => simp [hvars] at hl
    | [d] => simp [hvars] at hc; simp [hc]
    | _ :: _ :: _ => simp [hvars] at hl
  · rw [ho, ht]; simp [SVar.text]
  · rw [hln, ht]
    have e3 : (parts.map fun p => (cut p).length).sum = total parts := by
      simp [total, List.length_flatten, List.map_map, Function.comp_def]
    rw [e3]
    simp only [SVar.text, Option.getD_none, List.nil_append]
    exact congrArg Res.ok (Nat.mod_eq_of_lt h)

example : total [[104, 105], [33]] < 4294967296 := by decide

/-- C21, limit. The bound on the length is needed: appending anything (even the empty string) to a
heap string whose text is 2^32 bytes or longer writes outside the block (line 30/62: the length is
truncated to 32 bits). -/
theorem C21_length_limit_is_real (h : Heap) (c : CStr) (v : SVar) (l arg : List UInt8)
    (r : RepVar h c v) (hb : v.big = some l) (hlive : ∀ q, (h.blocks q).isSome → q < h.next)
    (hl : 4294967296 ≤ l.length) : append true h c (litBuf arg) = .ub := by
  have := append_rel true r (litBuf_rep arg) hlive
  have hn : ¬ l.length < 4294967296 := by omega
  simpa [SVar.append, hb, OpRel, hn] using this

/-- Such strings are reachable: one append of a long enough literal produces them. -/
theorem C21_length_limit_reachable (n : Nat) (hn : 4294967296 ≤ n) :
    run Sys.init [.new, .append 0 (List.replicate n 65) true, .append 0 [] true] = .ub := by
  have := C21_program_refines_spec [.new, .append 0 (List.replicate n 65) true, .append 0 [] true]
  have hcut : ∀ k, cut (List.replicate k (65 : UInt8)) = List.replicate k 65 := by
    intro k
    induction k with
    | zero => rfl
    | succ k ih => simp [List.replicate_succ, cut, ih]
  have e : specRun [] [.new, .append 0 (List.replicate n 65) true, .append 0 [] true] = .ub := by
    simp only [specRun, specStep, Res.bind_ok, List.nil_append, List.getElem?_cons_zero, SVar.append, hcut]
    rw [if_neg (by simp; omega)]
    simp only [if_true, Res.bind_ok, List.set_cons_zero, List.getElem?_cons_zero, List.nil_append]
    rw [if_neg (by simp; omega)]
    rfl
  rw [e] at this
  exact this

/-- C21, aliasing. Appending a string to itself is defined exactly when the string is in its inline
buffer and twice its text no longer fits there (and memory is available). -/
theorem C21_self_append (a : Bool) (h : Heap) (c : CStr) (v : SVar) (r : RepVar h c v)
    (hlive : ∀ q, (h.blocks q).isSome → q < h.next) :
    (∃ h' c', appendSelf a h c = .ok (h', c') ∧ observe h' c' = .ok (v.text ++ v.text)) ↔
      (a = true ∧ c.heap = none ∧ 256 ≤ 2 * v.text.length) := by
  have hrel := appendSelf_rel a r hlive
  have hh := r.heap
  unfold SVar.appendSelf at hrel
  cases hc : c.heap with
  | none =>
    cases hb : v.big with
    | some l => simp [hc, hb] at hh
    | none =>
      simp only [hb] at hrel
      have htext : v.text = v.inline := by simp [SVar.text, hb]
      simp only [htext]
      by_cases hfit : v.inline.length + v.inline.length ≤ 255
      · rw [if_pos hfit] at hrel
        simp only [OpRel] at hrel
        simp [hrel]
        intro _; omega
      · rw [if_neg hfit] at hrel
        simp only [SVar.append, hb, hfit, if_false] at hrel
        cases a with
        | false => simp only [OpRel] at hrel; simp at hrel; simp [hrel]
        | true =>
          simp only [if_true, OpRel] at hrel
          obtain ⟨h', c', e, r', _⟩ := hrel
          constructor
          · intro _; exact ⟨rfl, trivial, by omega⟩
          · intro _
            obtain ⟨b, h1, h2⟩ := r'.cStr
            exact ⟨h', c', e, by simp [observe, h1, h2.readStr, SVar.text]⟩
  | some p =>
    cases hb : v.big with
    | none => simp [hc, hb] at hh
    | some l =>
      simp only [hb] at hrel
      cases a with
      | false => simp [OpRel] at hrel; simp [hrel]
      | true => simp [OpRel] at hrel; simp [hrel]

example : RepVar Sys.init.heap cnew ⟨[], none⟩ := cnew_rep _

/-! ## C22 – storage -/

/-- C22. After any sequence of appends to a new string (memory available, total below 2^32) the string
is in its inline array iff its text has at most 255 bytes; otherwise it is in one heap block of exactly
length + 1 bytes. -/
theorem C22_storage_boundary (parts : List (List UInt8)) (h : total parts < 4294967296) :
    ∃ s c, run Sys.init (.new :: parts.map fun p => .append 0 p true) = .ok s ∧ s.vars = [c] ∧
      (total parts ≤ 255 → c.heap = none ∧ ∀ q, s.heap.blocks q = none) ∧
      (255 < total parts → ∃ p b, c.heap = some p ∧ s.heap.blocks p = some b ∧
        b.length = total parts + 1 ∧ ∀ q, q ≠ p → s.heap.blocks q = none) := by
  obtain ⟨v', e, ht, hn⟩ := specRun_appends parts ⟨[], none⟩ (by simp) (by simp) (by simp; omega)
  have e2 : specRun [] (.new :: parts.map fun p => .append 0 p true) = .ok [v'] := by
    simp [specRun, specStep, e]
  have hr := run_rel sim_init (.new :: parts.map fun p => .append 0 p true)
  rw [e2] at hr
  obtain ⟨s, hs, H⟩ := hr
  have hl := H.len
  obtain ⟨c, hc⟩ : ∃ c, s.vars = [c] := by
    match hvars : s.vars with
    | [] => simp [hvars] at hl
    | [d] => exact ⟨d, rfl⟩
    | _ :: _ :: _ => simp [hvars] at hl
  have hr := H.rep 0 c v' (by simp [hc]) (by simp)
  have hh := hr.heap
  have htl : v'.text.length = total parts := by rw [ht]; simp [SVar.text, total]
  have only : ∀ q, (s.heap.blocks q).isSome → c.heap = some q := by
    intro q hq
    obtain ⟨_, i, d, hd, hdq⟩ := H.live q hq
    rw [hc] at hd
    cases i with
    | zero => simp at hd; subst hd; exact hdq
    | succ i => simp at hd
  refine ⟨s, c, hs, hc, ?_, ?_⟩
  · intro hle
    have hb : v'.big = none := hn.mpr ⟨rfl, by simpa [SVar.text] using hle⟩
    rw [hb] at hh
    cases hc2 : c.heap with
    | none =>
      refine ⟨rfl, fun q => ?_⟩
      cases hq : s.heap.blocks q with
      | none => rfl
      | some b => have := only q (by simp [hq]); simp [hc2] at this
    | some p => simp [hc2] at hh
  · intro hgt
    cases hb : v'.big with
    | none =>
      have := (hn.mp hb).2
      simp [SVar.text] at this
      omega
    | some l =>
      rw [hb] at hh
      cases hc2 : c.heap with
      | none => simp [hc2] at hh
      | some p =>
        simp only [hc2] at hh
        obtain ⟨b, h1, h2, h3⟩ := hh
        refine ⟨p, b, rfl, h1, ?_, ?_⟩
        · rw [h3, ← htl]; simp [SVar.text, hb]
        · intro q hne
          cases hq : s.heap.blocks q with
          | none => rfl
          | some b => have := only q (by simp [hq]); simp [hc2] at this; exact (hne this.symm).elim

example : 255 < total [List.replicate 200 65, List.replicate 56 66] ∧
    total [List.replicate 200 65, List.replicate 55 66] ≤ 255 := by
  decide +kernel

/-- C22. In every reachable state of every program, an inline string has at most 255 bytes of text and
a heap string's block is exactly one byte longer than its text. -/
theorem C22_reachable_storage (ops : List Op) (s : Sys) (hrun : run Sys.init ops = .ok s)
    (i : Nat) (c : CStr) (hi : s.vars[i]? = some c) :
    ∃ txt, observe s.heap c = .ok txt ∧
      match c.heap with
      | none => txt.length ≤ 255
      | some p => ∃ b, s.heap.blocks p = some b ∧ b.length = txt.length + 1 := by
  have h := run_rel sim_init ops
  unfold ProgRel at h
  cases hy : specRun [] ops with
  | exit => rw [hy] at h; rw [h] at hrun; simp at hrun
  | ub => rw [hy] at h; rw [h] at hrun; simp at hrun
  | ok t =>
    rw [hy] at h
    obtain ⟨s', e, H⟩ := h
    rw [e] at hrun; cases hrun
    have hlt : i < t.length := by rw [← H.len]; exact (List.getElem?_eq_some_iff.mp hi).1
    have r := H.rep i c t[i] hi (by simp [hlt])
    obtain ⟨b, h1, h2⟩ := r.cStr
    refine ⟨t[i].text, by simp [observe, h1, h2.readStr], ?_⟩
    have hh := r.heap
    cases hc : c.heap with
    | none =>
      cases hb : t[i].big with
      | some l => simp [hc, hb] at hh
      | none =>
        have := r.stack.length_lt
        rw [r.stackLen] at this
        simp [SVar.text, hb]; omega
    | some p =>
      cases hb : t[i].big with
      | none => simp [hc, hb] at hh
      | some l =>
        simp only [hc, hb] at hh
        obtain ⟨b, k1, k2, k3⟩ := hh
        exact ⟨b, k1, by simp [SVar.text, hb, k3]⟩

set_option maxRecDepth 10000 in
example : ∃ s, run Sys.init [.newInit [65] true, .free 0] = .ok s ∧ s.vars.length = 1 := ⟨_, rfl, rfl⟩

/-- C22. An append never moves a heap string back to the inline array. -/
theorem C22_append_stays_on_heap (a : Bool) (h : Heap) (c : CStr) (arg : Buf) (p : Nat)
    (hc : c.heap = some p) (h' : Heap) (c' : CStr) (e : append a h c arg = .ok (h', c')) :
    c'.heap.isSome ∧ c'.stack = c.stack := by
  unfold append at e
  simp only [hc] at e
  cases hl : length h c with
  | exit => simp [hl] at e
  | ub => simp [hl] at e
  | ok n =>
    cases hs : strlen arg with
    | exit => simp [hl, hs] at e
    | ub => simp [hl, hs] at e
    | ok m =>
      cases a with
      | false => simp [hl, hs] at e
      | true =>
        simp only [hl, hs, Res.bind_ok, if_true] at e
        cases hr : h.realloc p (n + m + 1) with
        | exit => simp [hr] at e
        | ub => simp [hr] at e
        | ok x =>
          obtain ⟨h1, p1⟩ := x
          simp only [hr, Res.bind_ok] at e
          cases hb : h1.blocks p1 with
          | none => simp [hb] at e
          | some b =>
            simp only [hb] at e
            cases hcat : strcat b arg with
            | exit => simp [hcat] at e
            | ub => simp [hcat] at e
            | ok b' => simp [hcat] at e; obtain ⟨_, rfl⟩ := e; exact ⟨rfl, rfl⟩

example : ∃ (h : Heap) (c : CStr) (h' : Heap) (c' : CStr), c.heap = some 0 ∧ append true h c (litBuf [66]) = .ok (h', c') :=
  ⟨⟨fun q => if q = 0 then some [some 65, some 0] else none, 1⟩, ⟨[], some 0⟩, _, _, rfl, rfl⟩

/-! ## C23 – memory -/

/-- C23. In every reachable state the live heap blocks are exactly the blocks owned by the string
variables, and no block is owned by two variables. In particular nothing leaks. -/
theorem C23_ownership (ops : List Op) (s : Sys) (hrun : run Sys.init ops = .ok s) :
    (∀ q, (s.heap.blocks q).isSome ↔ ∃ (i : Nat) (c : CStr), s.vars[i]? = some c ∧ c.heap = some q) ∧
    (∀ (i j : Nat) c d q, s.vars[i]? = some c → s.vars[j]? = some d →
      c.heap = some q → d.heap = some q → i = j) := by
  have h := run_rel sim_init ops
  unfold ProgRel at h
  cases hy : specRun [] ops with
  | exit => rw [hy] at h; rw [h] at hrun; simp at hrun
  | ub => rw [hy] at h; rw [h] at hrun; simp at hrun
  | ok t =>
    rw [hy] at h
    obtain ⟨s', e, H⟩ := h
    rw [e] at hrun; cases hrun
    refine ⟨fun q => ⟨fun hq => (H.live q hq).2, ?_⟩, H.inj⟩
    rintro ⟨i, c, hi, hq⟩
    exact H.owned_live hi hq

/-- C23. Freeing a string of a reachable state always succeeds (no double free, no free of a foreign
block), releases its block, leaves every other block alone, and freeing it again changes nothing. -/
theorem C23_free (ops : List Op) (s : Sys) (hrun : run Sys.init ops = .ok s)
    (i : Nat) (c : CStr) (hi : s.vars[i]? = some c) :
    ∃ h' c', free s.heap c = .ok (h', c') ∧ c'.heap = none ∧
      (∀ q, h'.blocks q = if c.heap = some q then none else s.heap.blocks q) ∧
      free h' c' = .ok (h', c') := by
  have hown := (C23_ownership ops s hrun).1
  unfold free
  cases hc : c.heap with
  | none => exact ⟨s.heap, c, rfl, hc, by simp, by simp [hc]⟩
  | some p =>
    have hlive := (hown p).mpr ⟨i, c, hi, hc⟩
    obtain ⟨b, hb⟩ := Option.isSome_iff_exists.mp hlive
    refine ⟨s.heap.set p none, { c with heap := none }, by simp [Heap.free, hb], rfl, ?_, by simp⟩
    intro q
    by_cases e : q = p
    · simp [Heap.set, e]
    · have : ¬ (p = q) := fun x => e x.symm
      simp [Heap.set, e, this]

/-- C23. A string that is freed shows again the text it had when it last fitted in the inline array,
not the empty string. -/
theorem C23_text_after_free (h : Heap) (c : CStr) (v : SVar) (r : RepVar h c v) :
    ∃ h' c', free h c = .ok (h', c') ∧ observe h' c' = .ok v.inline := by
  obtain ⟨h', c', e, r', _⟩ := free_rel r
  obtain ⟨b, h1, h2⟩ := r'.cStr
  exact ⟨h', c', e, by simp [observe, h1, h2.readStr, SVar.text]⟩

/-- C23. Failure of `realloc` (string already on the heap) terminates the process; failure of `malloc`
(string leaving the inline array) is not detected: the code writes through a null pointer. This refutes
the claim that allocation failure never causes an invalid write. -/
theorem C23_allocation_failure (h : Heap) (c : CStr) (v : SVar) (r : RepVar h c v) (arg : List UInt8)
    (hlive : ∀ q, (h.blocks q).isSome → q < h.next) :
    append false h c (litBuf arg) =
      (match c.heap with
       | some _ => .exit
       | none => if v.text.length + (cut arg).length ≤ 255 then append true h c (litBuf arg) else .ub) := by
  have h1 := append_rel false r (litBuf_rep arg) hlive
  have hh := r.heap
  have hst := r.stack
  cases hc : c.heap with
  | some p =>
    cases hb : v.big with
    | none => simp [hc, hb] at hh
    | some l => simpa [SVar.append, hb, OpRel] using h1
  | none =>
    cases hb : v.big with
    | some l => simp [hc, hb] at hh
    | none =>
      simp only [SVar.text, hb, Option.getD_none]
      by_cases hfit : v.inline.length + (cut arg).length ≤ 255
      · rw [if_pos hfit]
        have hlt := hst.length_lt
        have hstl := r.stackLen
        have hmod : v.inline.length % 2 ^ 32 = v.inline.length := Nat.mod_eq_of_lt (by omega)
        unfold append
        rw [r.length, (litBuf_rep arg).strlen]
        simp only [Res.bind_ok, hc, SVar.text, hb, Option.getD_none, hmod]
        rw [if_pos (by simp only [maxStack]; omega), if_pos (by simp only [maxStack]; omega)]
      · rw [if_neg hfit]
        simpa [SVar.append, hb, OpRel, hfit] using h1

set_option maxRecDepth 10000 in
/-- C23. The undetected failure is reachable from the public API. -/
theorem C23_malloc_failure_unchecked :
    run Sys.init [.new, .append 0 (List.replicate 256 65) false] = .ub := by
  have h := C21_program_refines_spec [.new, .append 0 (List.replicate 256 65) false]
  have e : specRun [] [.new, .append 0 (List.replicate 256 65) false] = .ub := by decide +kernel
  rw [e] at h
  exact h

/-! ## C24 – comparison -/

/-- C24. Comparing a reachable string with any C string gives 0 iff the texts are equal, and otherwise
the sign of the lexicographic order on unsigned bytes. -/
theorem C24_compare_spec (a b : List UInt8) (x y : Buf) (hx : BufRep x a) (hy : BufRep y b) :
    strcmp x y = .ok (if a = b then 0 else if a < b then -1 else 1) := by
  obtain ⟨⟨r1, rfl⟩, h1⟩ := hx
  obtain ⟨⟨r2, rfl⟩, h2⟩ := hy
  induction a generalizing b with
  | nil =>
    cases b with
    | nil => simp [strcmp]
    | cons d b =>
      have hd : d ≠ 0 := fun e => h2 (by simp [e])
      have hlt : (0 : UInt8) < d := by
        rw [UInt8.lt_iff_toNat_lt]
        have : d.toNat ≠ 0 := fun e => hd (UInt8.toNat_inj.mp (by simpa using e))
        simp; omega
      have hd' : ¬ ((0 : UInt8) = d) := fun e => hd e.symm
      simp [strcmp, hd', hlt]
  | cons c a ih =>
    have hc : c ≠ 0 := fun e => h1 (by simp [e])
    have h1' : (0 : UInt8) ∉ a := fun e => h1 (by simp [e])
    cases b with
    | nil =>
      have hlt : ¬ (c < (0 : UInt8)) := by
        rw [UInt8.lt_iff_toNat_lt]; simp
      simp [strcmp, hc]
    | cons d b =>
      have h2' : (0 : UInt8) ∉ b := fun e => h2 (by simp [e])
      have ih' := ih b h1' h2'
      by_cases e : c = d
      · subst e
        simp only [List.map_cons, List.cons_append, strcmp, if_true, hc, if_false, ih']
        simp [List.cons_lt_cons_iff]
      · simp only [List.map_cons, List.cons_append, strcmp, e, if_false]
        have : ¬ (c :: a = d :: b) := by simp [e]
        simp only [this, if_false]
        simp [List.cons_lt_cons_iff, e]

/-- C24. `cstring_compare_const_char` on a string of a reachable state. -/
theorem C24_compare_const_char (ops : List Op) (s : Sys) (hrun : run Sys.init ops = .ok s)
    (i : Nat) (c : CStr) (hi : s.vars[i]? = some c) (txt other : List UInt8)
    (ho : observe s.heap c = .ok txt) :
    compareChar s.heap c (litBuf other) =
      .ok (if txt = cut other then 0 else if txt < cut other then -1 else 1) := by
  have h := run_rel sim_init ops
  unfold ProgRel at h
  cases hy : specRun [] ops with
  | exit => rw [hy] at h; rw [h] at hrun; simp at hrun
  | ub => rw [hy] at h; rw [h] at hrun; simp at hrun
  | ok t =>
    rw [hy] at h
    obtain ⟨s', e, H⟩ := h
    rw [e] at hrun; cases hrun
    have hlt : i < t.length := by rw [← H.len]; exact (List.getElem?_eq_some_iff.mp hi).1
    have r := H.rep i c t[i] hi (by simp [hlt])
    obtain ⟨b, h1, h2⟩ := r.cStr
    have : txt = t[i].text := by
      have := ho
      simp [observe, h1, h2.readStr] at this
      exact this.symm
    subst this
    unfold compareChar
    rw [h1]
    exact C24_compare_spec _ _ _ _ h2 (litBuf_rep other)

/-- C24. `cstring_compare_const_cstring` on two strings of a reachable state. -/
theorem C24_compare_const_cstring (ops : List Op) (s : Sys) (hrun : run Sys.init ops = .ok s)
    (i j : Nat) (c d : CStr) (hi : s.vars[i]? = some c) (hj : s.vars[j]? = some d)
    (txt other : List UInt8) (ho : observe s.heap c = .ok txt) (ho' : observe s.heap d = .ok other) :
    compareCstring s.heap c d = .ok (if txt = other then 0 else if txt < other then -1 else 1) := by
  have h := run_rel sim_init ops
  unfold ProgRel at h
  cases hy : specRun [] ops with
  | exit => rw [hy] at h; rw [h] at hrun; simp at hrun
  | ub => rw [hy] at h; rw [h] at hrun; simp at hrun
  | ok t =>
    rw [hy] at h
    obtain ⟨s', e, H⟩ := h
    rw [e] at hrun; cases hrun
    have get : ∀ (i : Nat) c txt, s.vars[i]? = some c → observe s.heap c = .ok txt →
        ∃ b, cStr s.heap c = .ok b ∧ BufRep b txt := by
      intro i c txt hi ho
      have hlt : i < t.length := by rw [← H.len]; exact (List.getElem?_eq_some_iff.mp hi).1
      have r := H.rep i c t[i] hi (by simp [hlt])
      obtain ⟨b, h1, h2⟩ := r.cStr
      have : txt = t[i].text := by
        have := ho
        simp [observe, h1, h2.readStr] at this
        exact this.symm
      subst this
      exact ⟨b, h1, h2⟩
    obtain ⟨b1, k1, k2⟩ := get i c txt hi ho
    obtain ⟨b2, k3, k4⟩ := get j d other hj ho'
    unfold compareCstring compareChar
    rw [k3, Res.bind_ok, k1, Res.bind_ok]
    exact C24_compare_spec _ _ _ _ k2 k4

set_option maxRecDepth 10000 in
example : ∃ s c d, run Sys.init [.newInit [65] true, .newInit [66] true] = .ok s ∧
    s.vars[0]? = some c ∧ s.vars[1]? = some d ∧ observe s.heap c = .ok [65] ∧
    observe s.heap d = .ok [66] ∧ compareCstring s.heap c d = .ok (-1) :=
  ⟨_, _, _, rfl, rfl, rfl, rfl, rfl, rfl⟩

end EasyMock.CString
