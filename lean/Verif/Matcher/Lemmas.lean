import Verif.Matcher.Model

/-!
# Lemmas about loading, printing and `snprintf`
-/

namespace EasyMock.Matcher

theorem loadU_lt : ∀ bs : Bytes, loadU bs < 256 ^ bs.length
  | [] => by simp [loadU]
  | b :: r => by
    have := loadU_lt r
    have hb := b.toNat_lt
    simp only [loadU, List.length_cons, Nat.pow_succ]
    omega

theorem loadU_inj : ∀ {a b : Bytes}, a.length = b.length → loadU a = loadU b → a = b
  | [], [], _, _ => rfl
  | [], _ :: _, h, _ => by simp at h
  | _ :: _, [], h, _ => by simp at h
  | x :: r, y :: t, h, e => by
    simp only [loadU] at e
    have hx := x.toNat_lt
    have hy := y.toNat_lt
    have h1 : x.toNat = y.toNat := by omega
    have h2 : loadU r = loadU t := by omega
    rw [loadU_inj (by simpa using h) h2, UInt8.toNat_inj.mp h1]

theorem pow256 (n : Nat) : 256 ^ n = 2 ^ (8 * n) := by rw [Nat.pow_mul]

theorem load_inj {sg : Bool} {n : Nat} {a b : Bytes} (ha : a.length = n) (hb : b.length = n)
    (h : load sg n a = load sg n b) : a = b := by
  have la := loadU_lt a
  have lb := loadU_lt b
  rw [ha, pow256] at la
  rw [hb, pow256] at lb
  apply loadU_inj (by omega)
  unfold load at h
  have hp : ((2 ^ (8 * n) : Nat) : Int) = (2 : Int) ^ (8 * n) := by simp
  rw [← hp] at h
  split at h <;> split at h <;> omega

theorem load_range {sg : Bool} {n : Nat} {a : Bytes} (ha : a.length = n) :
    -(2 : Int) ^ (8 * n) ≤ load sg n a ∧ load sg n a < 2 ^ (8 * n) ∧ (sg = false → 0 ≤ load sg n a) := by
  have la := loadU_lt a
  rw [ha, pow256] at la
  have hp : ((2 ^ (8 * n) : Nat) : Int) = (2 : Int) ^ (8 * n) := by simp
  unfold load
  rw [← hp]
  refine ⟨?_, ?_, fun h => ?_⟩
  · split <;> omega
  · split <;> omega
  · simp [h]

/-! ## Digits -/

theorem toDigits_inj {b : Nat} (h1 : 1 < b) (h2 : b ≤ 16) : ∀ {n m : Nat}, Nat.toDigits b n = Nat.toDigits b m → n = m := by
  have hd : ∀ x y, x < 16 → y < 16 → Nat.digitChar x = Nat.digitChar y → x = y := by
    intro x y hx hy e
    have : ∀ i : Fin 16, ∀ j : Fin 16, Nat.digitChar i.1 = Nat.digitChar j.1 → i.1 = j.1 := by decide
    exact this ⟨x, hx⟩ ⟨y, hy⟩ e
  intro n
  induction n using Nat.strongRecOn with
  | _ n ih =>
    intro m e
    rw [Nat.toDigits_eq_if h1, Nat.toDigits_eq_if (n := m) h1] at e
    have len : ∀ k, Nat.toDigits b k ≠ [] := fun k => Nat.toDigits_ne_nil
    split at e <;> split at e
    · rename_i a c
      simp only [List.cons.injEq, and_true] at e
      exact hd n m (by omega) (by omega) e
    · have := congrArg List.length e
      simp only [List.length_cons, List.length_nil, List.length_append] at this
      have := List.length_pos_iff.mpr (len (m / b))
      omega
    · have := congrArg List.length e
      simp only [List.length_cons, List.length_nil, List.length_append] at this
      have := List.length_pos_iff.mpr (len (n / b))
      omega
    · rename_i a c
      obtain ⟨e1, e2⟩ := List.append_inj' e rfl
      simp only [List.cons.injEq, and_true] at e2
      have hbn : n % b < b := Nat.mod_lt _ (by omega)
      have hbm : m % b < b := Nat.mod_lt _ (by omega)
      have r1 := hd _ _ (by omega) (by omega) e2
      have r2 := ih (n / b) (Nat.div_lt_self (by omega) h1) e1
      have := Nat.div_add_mod n b
      have := Nat.div_add_mod m b
      rw [r1, r2] at *
      omega

/-- The bytes that occur in printed numbers: digits and lower case hexadecimal letters. -/
def DigitByte (c : UInt8) : Prop := (48 ≤ c.toNat ∧ c.toNat ≤ 57) ∨ (97 ≤ c.toNat ∧ c.toNat ≤ 102)

theorem digitChar_toNat (x : Nat) (hx : x < 16) :
    (48 ≤ (Nat.digitChar x).toNat ∧ (Nat.digitChar x).toNat ≤ 57) ∨ (97 ≤ (Nat.digitChar x).toNat ∧ (Nat.digitChar x).toNat ≤ 102) := by
  have : ∀ i : Fin 16, (48 ≤ (Nat.digitChar i.1).toNat ∧ (Nat.digitChar i.1).toNat ≤ 57) ∨
    (97 ≤ (Nat.digitChar i.1).toNat ∧ (Nat.digitChar i.1).toNat ≤ 102) := by decide
  exact this ⟨x, hx⟩

theorem toDigits_chars {b : Nat} (h1 : 1 < b) (h2 : b ≤ 16) (n : Nat) :
    ∀ c ∈ Nat.toDigits b n, (48 ≤ c.toNat ∧ c.toNat ≤ 57) ∨ (97 ≤ c.toNat ∧ c.toNat ≤ 102) := by
  induction n using Nat.strongRecOn with
  | _ n ih =>
    intro c hc
    rw [Nat.toDigits_eq_if h1] at hc
    split at hc
    · simp only [List.mem_singleton] at hc
      subst hc
      exact digitChar_toNat _ (by omega)
    · rename_i hlt
      rcases List.mem_append.mp hc with hc | hc
      · exact ih _ (Nat.div_lt_self (by omega) h1) c hc
      · simp only [List.mem_singleton] at hc
        subst hc
        have : n % b < b := Nat.mod_lt _ (by omega)
        exact digitChar_toNat _ (by omega)

theorem digits_mem {b : Nat} (h1 : 1 < b) (h2 : b ≤ 16) {n : Nat} {c : UInt8} (hc : c ∈ digits b n) : DigitByte c := by
  unfold digits at hc
  obtain ⟨d, hd, rfl⟩ := List.mem_map.mp hc
  have := toDigits_chars h1 h2 n d hd
  unfold DigitByte
  have e : (UInt8.ofNat d.toNat).toNat = d.toNat := by
    rw [UInt8.toNat_ofNat']
    omega
  rw [e]
  exact this

theorem digits_inj {b : Nat} (h1 : 1 < b) (h2 : b ≤ 16) {n m : Nat} (h : digits b n = digits b m) : n = m := by
  apply toDigits_inj h1 h2
  unfold digits at h
  have key : ∀ (l k : List Char), (∀ c ∈ l, c.toNat < 256) → (∀ c ∈ k, c.toNat < 256) →
      l.map (fun c => UInt8.ofNat c.toNat) = k.map (fun c => UInt8.ofNat c.toNat) → l = k := by
    intro l
    induction l with
    | nil => intro k _ _ e; cases k with
      | nil => rfl
      | cons _ _ => simp at e
    | cons x l ih =>
      intro k hl hk e
      cases k with
      | nil => simp at e
      | cons y k =>
        simp only [List.map_cons, List.cons.injEq] at e
        have e1 := congrArg UInt8.toNat e.1
        have hx := hl x (by simp)
        have hy := hk y (by simp)
        simp only [UInt8.toNat_ofNat'] at e1
        have : x = y := Char.ext (UInt32.toNat_inj.mp (by
          have : x.toNat = y.toNat := by omega
          exact this))
        rw [this, ih k (fun c hc => hl c (List.mem_cons_of_mem _ hc)) (fun c hc => hk c (List.mem_cons_of_mem _ hc)) e.2]
  refine key _ _ (fun c hc => ?_) (fun c hc => ?_) h
  · have := toDigits_chars h1 h2 n c hc; omega
  · have := toDigits_chars h1 h2 m c hc; omega

theorem digits_ne_nil {b n : Nat} : digits b n ≠ [] := by
  unfold digits
  intro h
  exact Nat.toDigits_ne_nil (List.map_eq_nil_iff.mp h)

theorem digits_length_le {b n k : Nat} (hb : 1 < b) (hk : 0 < k) (h : n < b ^ k) : (digits b n).length ≤ k := by
  unfold digits
  rw [List.length_map]
  exact (Nat.length_toDigits_le_iff hb hk).mpr h

theorem fmtDec_inj {v w : Int} (h : fmtDec v = fmtDec w) : v = w := by
  have hm : ∀ n, ∀ c ∈ digits 10 n, c.toNat ≠ 45 := fun n c hc => by
    have := digits_mem (by omega) (by omega) hc
    unfold DigitByte at this
    omega
  have hne : ∀ n m, lit "-" ++ digits 10 n ≠ digits 10 m := fun n m e => by
    have : (45 : UInt8) ∈ digits 10 m := by rw [← e]; exact List.mem_append_left _ (by decide)
    exact hm m _ this rfl
  unfold fmtDec at h
  split at h <;> split at h
  · have := digits_inj (by omega) (by omega) (List.append_cancel_left h)
    omega
  · exact absurd h (hne _ _)
  · exact absurd h.symm (hne _ _)
  · have := digits_inj (by omega) (by omega) h
    omega

theorem fmtPtr_inj {v w : Int} (hv : 0 ≤ v) (hw : 0 ≤ w) (h : fmtPtr v = fmtPtr w) : v = w := by
  have hne : ∀ n, lit "(nil)" ≠ lit "0x" ++ digits 16 n := fun n e => by
    have h1 : (lit "(nil)").head? = some 40 := by decide
    have h2 : (lit "0x" ++ digits 16 n).head? = some 48 := rfl
    rw [e, h2] at h1
    exact absurd h1 (by decide)
  unfold fmtPtr at h
  split at h <;> split at h
  · omega
  · exact absurd h (hne _)
  · exact absurd h.symm (hne _)
  · have := digits_inj (by omega) (by omega) (List.append_cancel_left h)
    omega

/-- No quote and no NUL in a text. -/
def Clean (b : Bytes) : Prop := 39 ∉ b ∧ 0 ∉ b

theorem clean_digits {b : Nat} (h1 : 1 < b) (h2 : b ≤ 16) (n : Nat) : Clean (digits b n) := by
  constructor <;> intro h <;> have := digits_mem h1 h2 h <;> unfold DigitByte at this <;> simp at this

theorem clean_append {a b : Bytes} (ha : Clean a) (hb : Clean b) : Clean (a ++ b) := by
  unfold Clean at *
  simp only [List.mem_append, not_or]
  exact ⟨⟨ha.1, hb.1⟩, ha.2, hb.2⟩

theorem clean_fmtDec (v : Int) : Clean (fmtDec v) := by
  unfold fmtDec
  split
  · exact clean_append ⟨by decide, by decide⟩ (clean_digits (by omega) (by omega) _)
  · exact clean_digits (by omega) (by omega) _

theorem clean_fmtPtr (v : Int) : Clean (fmtPtr v) := by
  unfold fmtPtr
  split
  · exact ⟨by decide, by decide⟩
  · exact clean_append ⟨by decide, by decide⟩ (clean_digits (by omega) (by omega) _)

theorem clean_fmtHash (n : Nat) : Clean (fmtHash n) := by
  unfold fmtHash
  split
  · exact ⟨by decide, by decide⟩
  · exact clean_append ⟨by decide, by decide⟩ (clean_digits (by omega) (by omega) _)

theorem clean_fmt128 (v : Int) : Clean (fmt128 v) :=
  clean_append (clean_fmtHash _) (clean_digits (by omega) (by omega) _)

/-- The first separator is found at the same place. -/
theorem split_at_quote {A B X Y : Bytes} {q : UInt8} (hA : q ∉ A) (hB : q ∉ B) (h : A ++ q :: X = B ++ q :: Y) : A = B ∧ X = Y := by
  induction A generalizing B with
  | nil =>
    cases B with
    | nil => simp at h; exact ⟨rfl, h⟩
    | cons b B => simp only [List.nil_append, List.cons_append, List.cons.injEq] at h; exact (hB (by simp [h.1])).elim
  | cons a A ih =>
    cases B with
    | nil => simp only [List.nil_append, List.cons_append, List.cons.injEq] at h; exact (hA (by simp [h.1])).elim
    | cons b B =>
      simp only [List.cons_append, List.cons.injEq] at h
      obtain ⟨h1, h2⟩ := ih (fun hh => hA (List.mem_cons_of_mem _ hh)) (fun hh => hB (List.mem_cons_of_mem _ hh)) h.2
      rw [h.1, h1, h2]; exact ⟨rfl, rfl⟩

theorem cstr_of_no_zero {b r : Bytes} (h : 0 ∉ b) : cstr (b ++ 0 :: r) = b := by
  unfold cstr
  induction b with
  | nil => simp
  | cons x b ih =>
    have hx : x ≠ 0 := fun e => h (by simp [e])
    simp only [List.cons_append, List.takeWhile_cons]
    rw [if_pos (by simpa using hx), ih (fun hh => h (List.mem_cons_of_mem _ hh))]

theorem cstr_append_zero (b r : Bytes) : cstr (b ++ 0 :: r) = cstr (b ++ [0]) := by
  unfold cstr
  induction b with
  | nil => simp
  | cons x b ih =>
    simp only [List.cons_append, List.takeWhile_cons]
    split
    · rw [ih]
    · rfl

theorem message_parse {n n' c c' e e' : Bytes} (hn : Clean n) (hn' : Clean n') (hc : Clean c) (hc' : Clean c')
    (h : message n c e = message n' c' e') : n = n' ∧ c = c' ∧ e = e' := by
  unfold message at h
  simp only [List.append_assoc] at h
  have h1 := List.append_cancel_left h
  have q1 : lit "' has value '" = 39 :: lit " has value '" := rfl
  have q2 : lit "', was expecting '" = 39 :: lit ", was expecting '" := rfl
  rw [q1, List.cons_append, List.cons_append] at h1
  obtain ⟨e1, h2⟩ := split_at_quote hn.1 hn'.1 h1
  have h3 := List.append_cancel_left h2
  rw [q2, List.cons_append, List.cons_append] at h3
  obtain ⟨e2, h4⟩ := split_at_quote hc.1 hc'.1 h3
  have h5 := List.append_cancel_left h4
  exact ⟨e1, e2, List.append_cancel_right h5⟩

theorem message_length (n c e : Bytes) : (message n c e).length = n.length + c.length + e.length + 43 := by
  unfold message
  have l1 : (lit "Parameter '").length = 11 := rfl
  have l2 : (lit "' has value '").length = 13 := rfl
  have l3 : (lit "', was expecting '").length = 18 := rfl
  have l4 : (lit "'").length = 1 := rfl
  simp only [List.length_append, l1, l2, l3, l4]
  omega

theorem message_no_zero {n c e : Bytes} (hn : 0 ∉ n) (hc : 0 ∉ c) (he : 0 ∉ e) : 0 ∉ message n c e := by
  unfold message
  have l1 : (0 : UInt8) ∉ lit "Parameter '" := by decide
  have l2 : (0 : UInt8) ∉ lit "' has value '" := by decide
  have l3 : (0 : UInt8) ∉ lit "', was expecting '" := by decide
  have l4 : (0 : UInt8) ∉ lit "'" := by decide
  simp only [List.mem_append, not_or]
  exact ⟨⟨⟨⟨⟨⟨l1, hn⟩, l2⟩, hc⟩, l3⟩, he⟩, l4⟩

/-- `snprintf` into a buffer that is large enough. -/
theorem snprintf_ok (buf : Bytes) (text : Bytes) (h : maxCmpErr ≤ buf.length) :
    ∃ buf', snprintf buf maxCmpErr text = .ok buf' ∧ buf'.length = buf.length ∧ buf'.drop maxCmpErr = buf.drop maxCmpErr ∧
      cstr buf' = cstr (text.take (maxCmpErr - 1) ++ [0]) := by
  have hm : maxCmpErr = 256 := rfl
  unfold snprintf
  have hlen : (text.take (maxCmpErr - 1) ++ [(0 : UInt8)]).length ≤ maxCmpErr := by
    simp only [List.length_append, List.length_take, List.length_cons, List.length_nil, hm]; omega
  have hle : (text.take (maxCmpErr - 1) ++ [(0 : UInt8)]).length ≤ buf.length := by omega
  refine ⟨_, if_pos hle, ?_, ?_, ?_⟩
  · simp only [List.length_append, List.length_drop] at *
    omega
  · rw [List.drop_append]
    rw [List.drop_eq_nil_of_le hlen, List.nil_append, List.drop_drop]
    congr 1
    omega
  · rw [List.append_assoc]
    exact cstr_append_zero _ _

end EasyMock.Matcher
