import Verif.CString.Spec

namespace EasyMock.CString

/-- `b` starts with the C string `l`. -/
def BufRep (b : Buf) (l : List UInt8) : Prop :=
  (∃ rest, b = l.map some ++ some 0 :: rest) ∧ (0 : UInt8) ∉ l

theorem BufRep.strlen {b l} (h : BufRep b l) : strlen b = .ok l.length := by
  obtain ⟨⟨rest, rfl⟩, h0⟩ := h
  induction l with
  | nil => simp [CString.strlen]
  | cons c l ih =>
    have hc : c ≠ 0 := fun e => h0 (by simp [e])
    have := ih (fun e => h0 (by simp [e]))
    simp [CString.strlen, hc, this]

theorem BufRep.readStr {b l} (h : BufRep b l) : readStr b = .ok l := by
  obtain ⟨⟨rest, rfl⟩, h0⟩ := h
  induction l with
  | nil => simp [CString.readStr]
  | cons c l ih =>
    have hc : c ≠ 0 := fun e => h0 (by simp [e])
    have := ih (fun e => h0 (by simp [e]))
    simp [CString.readStr, hc, this]

theorem BufRep.length_lt {b l} (h : BufRep b l) : l.length < b.length := by
  obtain ⟨⟨rest, rfl⟩, h0⟩ := h
  simp

theorem litBuf_rep (bs : List UInt8) : BufRep (litBuf bs) (cut bs) := by
  induction bs with
  | nil => exact ⟨⟨[], rfl⟩, by simp [cut]⟩
  | cons c r ih =>
    obtain ⟨⟨rest, hr⟩, h0⟩ := ih
    unfold cut
    split
    · rename_i hc
      subst hc
      exact ⟨⟨litBuf r, by simp [litBuf]⟩, by simp⟩
    · rename_i hc
      refine ⟨⟨rest, ?_⟩, ?_⟩
      · simp only [litBuf, List.map_cons, List.cons_append] at hr ⊢
        rw [hr]
      · simp only [List.mem_cons, not_or]
        exact ⟨fun e => hc e.symm, h0⟩

theorem BufRep.strcat_ok {b l s m} (h : BufRep b l) (hs : BufRep s m)
    (hsz : l.length + m.length + 1 ≤ b.length) :
    ∃ b', strcat b s = .ok b' ∧ BufRep b' (l ++ m) ∧ b'.length = b.length := by
  unfold strcat
  rw [h.strlen, hs.readStr]
  simp only [Res.bind_ok, writeAt]
  rw [if_pos (by simp; omega)]
  refine ⟨_, rfl, ⟨⟨b.drop (l.length + (m.length + 1)), ?_⟩, ?_⟩, ?_⟩
  · obtain ⟨⟨rest, rfl⟩, h0⟩ := h
    rw [List.take_left' (by simp)]
    simp
  · simp only [List.mem_append, not_or]; exact ⟨h.2, hs.2⟩
  · simp; omega

theorem BufRep.strcat_ub {b l s m} (h : BufRep b l) (hs : BufRep s m)
    (hsz : b.length < l.length + m.length + 1) : strcat b s = .ub := by
  unfold strcat
  rw [h.strlen, hs.readStr]
  simp only [Res.bind_ok, writeAt]
  rw [if_neg (by simp; omega)]

/-- A buffer with no terminator: reading its length is undefined. -/
theorem strlen_ub_of_prefix (l : List UInt8) (h0 : (0 : UInt8) ∉ l) (k : Nat) :
    strlen (l.map some ++ List.replicate k none) = .ub := by
  induction l with
  | nil => cases k <;> simp [strlen, List.replicate]
  | cons c l ih =>
    have hc : c ≠ 0 := fun e => h0 (by simp [e])
    have := ih (fun e => h0 (by simp [e]))
    simp [strlen, hc, this]

/-- Concrete variable `c` in heap `h` shows the abstract variable `v`. -/
structure RepVar (h : Heap) (c : CStr) (v : SVar) : Prop where
  stackLen : c.stack.length = 256
  stack : BufRep c.stack v.inline
  heap : match c.heap, v.big with
    | none, none => True
    | some p, some l => ∃ b, h.blocks p = some b ∧ BufRep b l ∧ b.length = l.length + 1
    | _, _ => False

theorem cnew_rep (h : Heap) : RepVar h cnew ⟨[], none⟩ := by
  refine ⟨by simp only [cnew, maxStack, List.length_cons, List.length_replicate], ⟨⟨_, rfl⟩, by simp⟩, by simp only [cnew]⟩

theorem RepVar.cStr {h c v} (r : RepVar h c v) : ∃ b, cStr h c = .ok b ∧ BufRep b v.text := by
  obtain ⟨hl, hs, hh⟩ := r
  unfold CString.cStr SVar.text
  cases hc : c.heap with
  | none =>
    cases hb : v.big with
    | none => exact ⟨_, rfl, hs⟩
    | some l => simp [hc, hb] at hh
  | some p =>
    cases hb : v.big with
    | none => simp [hc, hb] at hh
    | some l =>
      simp only [hc, hb] at hh
      obtain ⟨b, h1, h2, h3⟩ := hh
      exact ⟨b, by simp [h1], h2⟩

theorem RepVar.length {h c v} (r : RepVar h c v) :
    CString.length h c = .ok (v.text.length % 2 ^ 32) := by
  obtain ⟨b, h1, h2⟩ := r.cStr
  unfold CString.length
  simp [h1, h2.strlen]

/-- Everything the other variables rely on when one variable goes from `(h, c)` to `(h', c')`. -/
structure Frame (h : Heap) (c : CStr) (h' : Heap) (c' : CStr) : Prop where
  next : h.next ≤ h'.next
  other : ∀ q, q < h.next → c.heap ≠ some q → h'.blocks q = h.blocks q
  live : ∀ q, (h'.blocks q).isSome → c'.heap = some q ∨ ((h.blocks q).isSome ∧ c.heap ≠ some q)
  own : ∀ q, c'.heap = some q → c.heap = some q ∨ h.next ≤ q
  bound : ∀ q, c'.heap = some q → q < h'.next

/-- Relates the outcome of a concrete operation on one variable to the abstract outcome. -/
def OpRel (h : Heap) (c : CStr) (x : Res (Heap × CStr)) (y : Res SVar) : Prop :=
  match y with
  | .ok v => ∃ h' c', x = .ok (h', c') ∧ RepVar h' c' v ∧ Frame h c h' c'
  | .exit => x = .exit
  | .ub => x = .ub

theorem append_rel (a : Bool) {h c v s m} (r : RepVar h c v) (hs : BufRep s m)
    (hlive : ∀ q, (h.blocks q).isSome → q < h.next) :
    OpRel h c (append a h c s) (v.append a m) := by
  have hlen := r.length
  have hst := r.stack
  have hstl := r.stackLen
  have hh := r.heap
  unfold append SVar.append
  rw [hlen, hs.strlen]
  simp only [Res.bind_ok]
  cases hc : c.heap with
  | none =>
    cases hb : v.big with
    | some l => simp [hc, hb] at hh
    | none =>
      have htext : v.text = v.inline := by simp [SVar.text, hb]
      have hlt := hst.length_lt
      have hmod : v.inline.length % 2 ^ 32 = v.inline.length := Nat.mod_eq_of_lt (by omega)
      simp only [htext, hmod]
      by_cases hfit : v.inline.length + m.length ≤ 255
      · rw [if_pos hfit, if_pos (by simp [maxStack]; omega)]
        obtain ⟨b', e, hb', hl'⟩ := hst.strcat_ok hs (by omega)
        refine ⟨h, { c with stack := b' }, by simp [e, hc], ?_, ?_⟩
        · exact ⟨by simp [hl', hstl], hb', by simp [hc, hb]⟩
        · constructor
          · exact Nat.le_refl _
          · intros; rfl
          · intro q hq; exact Or.inr ⟨hq, by simp [hc]⟩
          · intro q hq; simp [hc] at hq
          · intro q hq; simp [hc] at hq
      · rw [if_neg hfit, if_neg (by simp [maxStack]; omega)]
        cases a with
        | false => simp [OpRel]
        | true =>
          simp only [if_true, Heap.malloc]
          have hcopy : ∃ b1, strncpy (List.replicate (v.inline.length + m.length + 1) none) c.stack
              (v.inline.length + 1) = .ok b1 ∧ BufRep b1 v.inline ∧
              b1.length = v.inline.length + m.length + 1 := by
            unfold strncpy
            rw [hst.readStr]
            simp only [Res.bind_ok, writeAt]
            rw [if_pos (by simp)]
            refine ⟨_, rfl, ⟨⟨List.replicate m.length none, ?_⟩, hst.2⟩, ?_⟩
            · have e1 : v.inline.take (v.inline.length + 1) = v.inline :=
                List.take_of_length_le (by omega)
              have e2 : v.inline.length + 1 - v.inline.length = 1 := by omega
              have e3 : v.inline.length + m.length + 1 - (0 + (v.inline.length + 1)) = m.length := by omega
              rw [e1, e2]
              simp only [List.take_zero, List.nil_append, List.drop_replicate, List.length_append,
                List.length_replicate, e3, List.map_append, List.map_replicate, List.append_assoc]
              rfl
            · simp; omega
          obtain ⟨b1, e1, hb1, hl1⟩ := hcopy
          obtain ⟨b2, e2, hb2, hl2⟩ := hb1.strcat_ok hs (by omega)
          simp only [e1, Res.bind_ok, e2]
          refine ⟨_, _, rfl, ?_, ?_⟩
          · refine ⟨hstl, hst, ?_⟩
            simp only
            refine ⟨b2, by simp [Heap.set], hb2, ?_⟩
            simp; omega
          · constructor
            · simp [Heap.set]
            · intro q hq _
              simp [Heap.set, Nat.ne_of_lt hq]
            · intro q hq
              by_cases e : q = h.next
              · left; simp [e]
              · right
                simp [Heap.set, e] at hq
                exact ⟨hq, by simp [hc]⟩
            · intro q hq; right; simp at hq; omega
            · intro q hq; simp [Heap.set] at *; omega
  | some p =>
    cases hb : v.big with
    | none => simp [hc, hb] at hh
    | some l =>
      simp only [hc, hb] at hh
      obtain ⟨b, hbl, hbr, hbn⟩ := hh
      have htext : v.text = l := by simp [SVar.text, hb]
      simp only [htext]
      cases a with
      | false => simp [OpRel]
      | true =>
        simp only [if_true, Heap.realloc, hbl, Res.bind_ok]
        have hpn : p < h.next := hlive p (by simp [hbl])
        by_cases hbig : l.length < 4294967296
        · rw [if_pos hbig]
          have hmod : l.length % 2 ^ 32 = l.length := Nat.mod_eq_of_lt (by omega)
          simp only [hmod]
          have hcopy : BufRep (b.take (l.length + m.length + 1) ++
              List.replicate (l.length + m.length + 1 - b.length) none) l := by
            obtain ⟨⟨rest, hr⟩, h0⟩ := hbr
            have : rest = [] := by
              rw [hr] at hbn; simp at hbn
              exact hbn
            subst this
            refine ⟨⟨List.replicate m.length none, ?_⟩, h0⟩
            have e1 : l.length + m.length + 1 - b.length = m.length := by omega
            rw [List.take_of_length_le (by omega), e1, hr]
            simp
          obtain ⟨b2, e2, hb2, hl2⟩ := hcopy.strcat_ok hs (by simp; omega)
          simp only [e2, Res.bind_ok]
          refine ⟨_, _, rfl, ?_, ?_⟩
          · refine ⟨hstl, hst, ?_⟩
            simp only
            refine ⟨b2, by simp [Heap.set], hb2, ?_⟩
            simp [hl2]; omega
          · constructor
            · simp [Heap.set]
            · intro q hq hne
              have : q ≠ p := fun e => hne (by simp [hc, e])
              simp [Heap.set, Nat.ne_of_lt hq, this]
            · intro q hq
              by_cases e : q = h.next
              · left; simp [e]
              · right
                simp only [Heap.set, e, if_false] at hq
                by_cases e' : q = p
                · simp [e'] at hq
                · simp [e'] at hq
                  exact ⟨hq, by simp [hc]; exact fun x => e' x.symm⟩
            · intro q hq; right; simp at hq; omega
            · intro q hq; simp [Heap.set] at *; omega
        · rw [if_neg hbig]
          simp only [OpRel]
          have hm : l.length % 2 ^ 32 < l.length := Nat.lt_of_lt_of_le (Nat.mod_lt _ (by omega)) (by omega)
          have key : strcat (b.take (l.length % 2 ^ 32 + m.length + 1) ++
              List.replicate (l.length % 2 ^ 32 + m.length + 1 - b.length) none) s = .ub := by
            obtain ⟨⟨rest, hr⟩, h0⟩ := hbr
            have : rest = [] := by
              rw [hr] at hbn; simp at hbn; exact hbn
            subst this
            by_cases hk : l.length % 2 ^ 32 + m.length + 1 ≤ l.length
            · have e : b.take (l.length % 2 ^ 32 + m.length + 1) =
                  (l.take (l.length % 2 ^ 32 + m.length + 1)).map some := by
                rw [hr, List.take_append_of_le_length (by simp; omega), List.map_take]
              rw [e]
              unfold strcat
              rw [strlen_ub_of_prefix _ (fun hmem => h0 (List.mem_of_mem_take hmem))]
              rfl
            · have hrep : BufRep (b.take (l.length % 2 ^ 32 + m.length + 1) ++
                  List.replicate (l.length % 2 ^ 32 + m.length + 1 - b.length) none) l := by
                refine ⟨⟨List.replicate (l.length % 2 ^ 32 + m.length + 1 - b.length) none, ?_⟩, h0⟩
                rw [List.take_of_length_le (by omega)]
                conv => lhs; arg 1; rw [hr]
                simp
              refine hrep.strcat_ub hs ?_
              simp only [List.length_append, List.length_take, List.length_replicate]
              omega
          rw [key]
          rfl

theorem appendSelf_rel (a : Bool) {h c v} (r : RepVar h c v)
    (hlive : ∀ q, (h.blocks q).isSome → q < h.next) :
    OpRel h c (appendSelf a h c) (v.appendSelf a) := by
  have hlen := r.length
  have hh := r.heap
  unfold appendSelf SVar.appendSelf
  rw [hlen]
  simp only [Res.bind_ok]
  cases hc : c.heap with
  | none =>
    cases hb : v.big with
    | some l => simp [hc, hb] at hh
    | none =>
      have htext : v.text = v.inline := by simp [SVar.text, hb]
      have hlt := r.stack.length_lt
      have hstl := r.stackLen
      have hmod : v.inline.length % 2 ^ 32 = v.inline.length := Nat.mod_eq_of_lt (by omega)
      simp only [htext, hmod]
      by_cases hfit : v.inline.length + v.inline.length ≤ 255
      · rw [if_pos hfit, if_pos (by simp only [maxStack]; omega)]
        rfl
      · rw [if_neg hfit, if_neg (by simp only [maxStack]; omega)]
        exact append_rel a r r.stack hlive
  | some p =>
    cases hb : v.big with
    | none => simp [hc, hb] at hh
    | some l =>
      simp only [hc, hb] at hh
      obtain ⟨b, hbl, hbr, hbn⟩ := hh
      cases a <;> simp [OpRel, Heap.realloc, hbl]

theorem free_rel {h c v} (r : RepVar h c v) :
    OpRel h c (free h c) (.ok { v with big := none }) := by
  have hh := r.heap
  unfold free
  cases hc : c.heap with
  | none =>
    refine ⟨h, c, rfl, ⟨r.stackLen, r.stack, by simp [hc]⟩, ?_⟩
    constructor
    · exact Nat.le_refl _
    · intros; rfl
    · intro q hq; exact Or.inr ⟨hq, by simp [hc]⟩
    · intro q hq; exact Or.inl hq
    · intro q hq; simp [hc] at hq
  | some p =>
    cases hb : v.big with
    | none => simp [hc, hb] at hh
    | some l =>
      simp only [hc, hb] at hh
      obtain ⟨b, hbl, hbr, hbn⟩ := hh
      refine ⟨h.set p none, { c with heap := none }, by simp [Heap.free, hbl],
        ⟨r.stackLen, r.stack, by simp⟩, ?_⟩
      constructor
      · simp [Heap.set]
      · intro q _ hne
        have : q ≠ p := fun e => hne (by simp [hc, e])
        simp [Heap.set, this]
      · intro q hq
        by_cases e : q = p
        · simp [Heap.set, e] at hq
        · simp [Heap.set, e] at hq
          exact Or.inr ⟨hq, by simp [hc]; exact fun x => e x.symm⟩
      · intro q hq; simp at hq
      · intro q hq; simp at hq

/-- Simulation relation between the concrete and the abstract program state; it also says that the
live heap blocks are exactly those owned by the variables, each by one variable. -/
structure Sim (s : Sys) (t : List SVar) : Prop where
  len : s.vars.length = t.length
  rep : ∀ (i : Nat) c v, s.vars[i]? = some c → t[i]? = some v → RepVar s.heap c v
  live : ∀ q, (s.heap.blocks q).isSome → q < s.heap.next ∧ ∃ (i : Nat) (c : CStr), s.vars[i]? = some c ∧ c.heap = some q
  inj : ∀ (i j : Nat) c d q, s.vars[i]? = some c → s.vars[j]? = some d → c.heap = some q → d.heap = some q → i = j

theorem sim_init : Sim Sys.init [] := by
  constructor <;> simp [Sys.init]

theorem Sim.lt {s t} (h : Sim s t) : ∀ q, (s.heap.blocks q).isSome → q < s.heap.next :=
  fun q hq => (h.live q hq).1

theorem Sim.owned_live {s t} (h : Sim s t) {i : Nat} {c q} (hi : s.vars[i]? = some c) (hq : c.heap = some q) :
    (s.heap.blocks q).isSome := by
  have hlt : i < t.length := by
    rw [← h.len]; exact (List.getElem?_eq_some_iff.mp hi).1
  have hv : t[i]? = some t[i] := by simp [hlt]
  have := (h.rep i c _ hi hv).heap
  rw [hq] at this
  cases hb : t[i].big with
  | none => simp [hb] at this
  | some l =>
    simp only [hb] at this
    obtain ⟨b, hb, _⟩ := this
    simp [hb]

theorem RepVar.frame {h h' : Heap} {d : CStr} {v : SVar} (r : RepVar h d v)
    (e : ∀ q, d.heap = some q → h'.blocks q = h.blocks q) : RepVar h' d v := by
  refine ⟨r.stackLen, r.stack, ?_⟩
  have := r.heap
  cases hd : d.heap with
  | none =>
    simp only [hd] at this ⊢
    cases hb : v.big with
    | none => trivial
    | some l => simp [hb] at this
  | some p =>
    simp only [hd] at this ⊢
    cases hb : v.big with
    | none => simp [hb] at this
    | some l => simpa [hb, e p hd] using this

/-- Updating variable `i` preserves the simulation. -/
theorem Sim.update {s t} {i : Nat} {c h' c' v'} (H : Sim s t) (hi : s.vars[i]? = some c)
    (r : RepVar h' c' v') (f : Frame s.heap c h' c') : Sim ⟨h', s.vars.set i c'⟩ (t.set i v') := by
  have hil : i < s.vars.length := (List.getElem?_eq_some_iff.mp hi).1
  constructor
  · simp [H.len]
  · intro j d v hd hv
    by_cases e : i = j
    · subst e
      simp only [List.getElem?_set_self hil, Option.some.injEq] at hd
      rw [List.getElem?_set_self (by rw [← H.len]; exact hil)] at hv
      simp only [Option.some.injEq] at hv
      subst hd; subst hv; exact r
    · simp only [List.getElem?_set_ne e] at hd hv
      refine (H.rep j d v hd hv).frame ?_
      intro q hq
      refine f.other q (H.lt q (H.owned_live hd hq)) ?_
      intro hcq
      exact e (H.inj i j c d q hi hd hcq hq)
  · intro q hq
    rcases f.live q hq with h1 | ⟨h1, h2⟩
    · exact ⟨f.bound q h1, i, c', by simp [List.getElem?_set_self hil], h1⟩
    · obtain ⟨hlt, j, d, hj, hdq⟩ := H.live q h1
      refine ⟨Nat.lt_of_lt_of_le hlt f.next, j, d, ?_, hdq⟩
      have : i ≠ j := by
        intro e; subst e; rw [hi] at hj; cases hj; exact h2 hdq
      simpa [List.getElem?_set_ne this] using hj
  · intro j k d e q hd he hdq heq
    simp only at hd he
    have fresh : ∀ (k : Nat) e, i ≠ k → s.vars[k]? = some e → e.heap = some q → c'.heap = some q → False := by
      intro k e hne he heq hcq
      rcases f.own q hcq with h1 | h1
      · exact hne (H.inj i k c e q hi he h1 heq)
      · have := H.lt q (H.owned_live he heq); omega
    by_cases e1 : i = j
    · by_cases e2 : i = k
      · omega
      · exfalso
        subst e1
        simp only [List.getElem?_set_self hil, Option.some.injEq] at hd
        subst hd
        rw [List.getElem?_set_ne e2] at he
        exact fresh k e e2 he heq hdq
    · by_cases e2 : i = k
      · exfalso
        subst e2
        simp only [List.getElem?_set_self hil, Option.some.injEq] at he
        subst he
        rw [List.getElem?_set_ne e1] at hd
        exact fresh j d e1 hd hdq heq
      · rw [List.getElem?_set_ne e1] at hd
        rw [List.getElem?_set_ne e2] at he
        exact H.inj j k d e q hd he hdq heq

/-- Adding a variable preserves the simulation. -/
theorem Sim.push {s t h' c' v'} (H : Sim s t)
    (r : RepVar h' c' v') (f : Frame s.heap cnew h' c') : Sim ⟨h', s.vars ++ [c']⟩ (t ++ [v']) := by
  have hn : cnew.heap = none := rfl
  have get : ∀ (j : Nat) d, (s.vars ++ [c'])[j]? = some d →
      (j = s.vars.length ∧ d = c') ∨ (j < s.vars.length ∧ s.vars[j]? = some d) := by
    intro j d hd
    by_cases hj : j < s.vars.length
    · right; rw [List.getElem?_append_left hj] at hd; exact ⟨hj, hd⟩
    · left
      rw [List.getElem?_append_right (by omega)] at hd
      have : j - s.vars.length = 0 := by
        have := (List.getElem?_eq_some_iff.mp hd).1; simp at this; omega
      rw [this] at hd; simp at hd
      exact ⟨by omega, hd.symm⟩
  constructor
  · simp [H.len]
  · intro j d v hd hv
    rcases get j d hd with ⟨rfl, rfl⟩ | ⟨hj, hd'⟩
    · rw [H.len, List.getElem?_append_right (by omega)] at hv
      simp at hv; subst hv; exact r
    · rw [List.getElem?_append_left (by rw [← H.len]; exact hj)] at hv
      refine (H.rep j d v hd' hv).frame ?_
      intro q hq
      exact f.other q (H.lt q (H.owned_live hd' hq)) (by simp [hn])
  · intro q hq
    rcases f.live q hq with h1 | ⟨h1, _⟩
    · exact ⟨f.bound q h1, s.vars.length, c', by simp, h1⟩
    · obtain ⟨hlt, j, d, hj, hdq⟩ := H.live q h1
      refine ⟨Nat.lt_of_lt_of_le hlt f.next, j, d, ?_, hdq⟩
      simp only
      rw [List.getElem?_append_left (List.getElem?_eq_some_iff.mp hj).1]; exact hj
  · intro j k d e q hd he hdq heq
    have fresh : ∀ (k : Nat) e, s.vars[k]? = some e → e.heap = some q → c'.heap = some q → False := by
      intro k e he heq hcq
      rcases f.own q hcq with h1 | h1
      · simp [hn] at h1
      · have := H.lt q (H.owned_live he heq); omega
    rcases get j d hd with ⟨h1, rfl⟩ | ⟨hj, hd'⟩
    · rcases get k e he with ⟨h2, rfl⟩ | ⟨hk, he'⟩
      · omega
      · exact (fresh k e he' heq hdq).elim
    · rcases get k e he with ⟨h2, rfl⟩ | ⟨hk, he'⟩
      · exact (fresh j d hd' hdq heq).elim
      · exact H.inj j k d e q hd' he' hdq heq

/-- Relates outcomes of programs. -/
def ProgRel (x : Res Sys) (y : Res (List SVar)) : Prop :=
  match y with
  | .ok t => ∃ s, x = .ok s ∧ Sim s t
  | .exit => x = .exit
  | .ub => x = .ub

theorem step_rel {s t} (H : Sim s t) (o : Op) : ProgRel (step s o) (specStep t o) := by
  have var : ∀ (i : Nat), (∃ c v, s.vars[i]? = some c ∧ t[i]? = some v ∧ RepVar s.heap c v) ∨
      (s.vars[i]? = none ∧ t[i]? = none) := by
    intro i
    by_cases hi : i < s.vars.length
    · left
      have hj : i < t.length := by rw [← H.len]; exact hi
      exact ⟨s.vars[i], t[i], by simp [hi], by simp [hj],
        H.rep i _ _ (by simp [hi]) (by simp [hj])⟩
    · right
      exact ⟨by simp; omega, by simp; rw [← H.len]; omega⟩
  have lift : ∀ {i : Nat} {c} {x : Res (Heap × CStr)} {y : Res SVar}, s.vars[i]? = some c →
      OpRel s.heap c x y →
      ProgRel (x >>= fun (h, c') => .ok ⟨h, s.vars.set i c'⟩) (y >>= fun v' => .ok (t.set i v')) := by
    intro i c x y hi hr
    cases y with
    | ok v =>
      obtain ⟨h', c', rfl, hrep, hf⟩ := hr
      exact ⟨_, rfl, H.update hi hrep hf⟩
    | exit => simp only [OpRel] at hr; subst hr; simp [ProgRel]
    | ub => simp only [OpRel] at hr; subst hr; simp [ProgRel]
  cases o with
  | new =>
    refine ⟨_, rfl, H.push (cnew_rep _) ?_⟩
    constructor
    · exact Nat.le_refl _
    · intros; rfl
    · intro q hq; exact Or.inr ⟨hq, by simp [cnew]⟩
    · intro q hq; exact Or.inl hq
    · intro q hq; simp [cnew] at hq
  | newInit arg a =>
    have hr := append_rel a (cnew_rep s.heap) (litBuf_rep arg) H.lt
    simp only [step, specStep, newInit]
    cases hy : SVar.append a ⟨[], none⟩ (cut arg) with
    | ok v =>
      rw [hy] at hr
      obtain ⟨h', c', e, hrep, hf⟩ := hr
      rw [e]
      exact ⟨_, rfl, H.push hrep hf⟩
    | exit => rw [hy] at hr; simp only [OpRel] at hr; rw [hr]; simp [ProgRel]
    | ub => rw [hy] at hr; simp only [OpRel] at hr; rw [hr]; simp [ProgRel]
  | append i arg a =>
    simp only [step, specStep]
    rcases var i with ⟨c, v, h1, h2, h3⟩ | ⟨h1, h2⟩
    · rw [h1, h2]
      exact lift h1 (append_rel a h3 (litBuf_rep arg) H.lt)
    · rw [h1, h2]; simp [ProgRel]
  | appendFrom i j a =>
    simp only [step, specStep]
    rcases var i with ⟨c, v, h1, h2, h3⟩ | ⟨h1, h2⟩
    · rcases var j with ⟨d, w, k1, k2, k3⟩ | ⟨k1, k2⟩
      · rw [h1, h2, k1, k2]
        by_cases e : i = j
        · simp only [e, if_true]
          subst e
          exact lift h1 (appendSelf_rel a h3 H.lt)
        · simp only [e, if_false]
          obtain ⟨b, hb, hrep⟩ := k3.cStr
          rw [hb]
          exact lift h1 (append_rel a h3 hrep H.lt)
      · rw [h1, h2, k1, k2]; simp [ProgRel]
    · rw [h1, h2]; simp [ProgRel]
  | free i =>
    simp only [step, specStep]
    rcases var i with ⟨c, v, h1, h2, h3⟩ | ⟨h1, h2⟩
    · rw [h1, h2]
      exact lift h1 (free_rel h3)
    · rw [h1, h2]; simp [ProgRel]

theorem run_rel {s t} (H : Sim s t) (ops : List Op) : ProgRel (run s ops) (specRun t ops) := by
  induction ops generalizing s t with
  | nil => exact ⟨s, rfl, H⟩
  | cons o os ih =>
    have h := step_rel H o
    simp only [run, specRun]
    cases hy : specStep t o with
    | ok t' =>
      rw [hy] at h
      obtain ⟨s', e, H'⟩ := h
      rw [e]
      exact ih H'
    | exit => rw [hy] at h; simp only [ProgRel] at h; rw [h]; simp [ProgRel]
    | ub => rw [hy] at h; simp only [ProgRel] at h; rw [h]; simp [ProgRel]

end EasyMock.CString
