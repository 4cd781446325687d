import Verif.Matcher.Lemmas
import Verif.Props.Framework3

/-!
# C25 - C27: the built-in matchers
-/

namespace EasyMock.Matcher

/-- What every C matcher promises: 0 and an untouched buffer on acceptance; -1, at most 256 bytes written and the message
(cut to 255 bytes) on rejection. -/
def Exact (r : Res (Int × Bytes)) (accept : Prop) (text : Bytes) (buf : Bytes) : Prop :=
  ∃ rv buf', r = .ok (rv, buf') ∧ (rv = 0 ↔ accept) ∧ (rv = 0 ∨ rv = -1) ∧ (rv = 0 → buf' = buf) ∧
    buf'.length = buf.length ∧ buf'.drop 256 = buf.drop 256 ∧
    (rv ≠ 0 → cstr buf' = cstr (text.take 255 ++ [0]))

theorem implementMatcher_exact {α : Type} (val : Bytes → α) (eq : α → α → Bool) (fmt : α → Bytes) (cur exp name buf : Bytes)
    (hb : 256 ≤ buf.length) :
    Exact (implementMatcher val eq fmt cur exp name buf) (eq (val cur) (val exp) = true)
      (message name (fmt (val cur)) (fmt (val exp))) buf := by
  unfold implementMatcher Exact
  by_cases h : eq (val cur) (val exp) = true
  · simp only [h, if_true]
    exact ⟨0, buf, rfl, by simp, by simp, fun _ => rfl, rfl, rfl, by simp⟩
  · obtain ⟨buf', e1, e2, e3, e4⟩ := snprintf_ok buf (message name (fmt (val cur)) (fmt (val exp))) hb
    simp only [h, Bool.false_eq_true, if_false, e1, Res.bind_ok]
    exact ⟨-1, buf', rfl, by simp, by simp, by simp, e2, e3, fun _ => e4⟩

/-! ## C25 -/

/-- C25: an integer or pointer matcher accepts exactly when the two objects hold the same value, i.e. when their bytes
are the same; it never is undefined, writes at most 256 bytes, and only when it rejects. -/
theorem C25_scalar_exact (t : Scalar) {cur exp : Bytes} (name : Bytes) {buf : Bytes} (hc : cur.length = t.size)
    (he : exp.length = t.size) (hb : 256 ≤ buf.length) :
    Exact (cmpScalar t cur exp name buf) (cur = exp)
      (message name (t.fmt (load t.signed t.size cur)) (t.fmt (load t.signed t.size exp))) buf := by
  have h := implementMatcher_exact (load t.signed t.size) (fun a b => decide (a = b)) t.fmt cur exp name buf hb
  have hiff : (decide (load t.signed t.size cur = load t.signed t.size exp) = true) ↔ cur = exp := by
    rw [decide_eq_true_iff]
    exact ⟨load_inj hc he, fun e => by rw [e]⟩
  obtain ⟨rv, buf', h1, h2, h3⟩ := h
  exact ⟨rv, buf', h1, h2.trans hiff, h3⟩

/-- C25: the value of an object: the loaded number is the little-endian two's complement reading, within the range of
the type. -/
theorem C25_value (t : Scalar) {bs : Bytes} (h : bs.length = t.size) :
    (t.signed = false → load t.signed t.size bs = loadU bs) ∧
    (t.signed = true → load t.signed t.size bs % 2 ^ (8 * t.size) = loadU bs ∧
      -(2 ^ (8 * t.size - 1)) ≤ load t.signed t.size bs ∧ load t.signed t.size bs < 2 ^ (8 * t.size - 1)) := by
  have hl := loadU_lt bs
  rw [h, pow256] at hl
  have hs : t.size ≠ 0 := by cases t <;> decide
  have hp : (2 : Nat) ^ (8 * t.size) = 2 * 2 ^ (8 * t.size - 1) := by
    rw [← Nat.pow_succ']; congr 1; omega
  have hpi : ((2 ^ (8 * t.size) : Nat) : Int) = (2 : Int) ^ (8 * t.size) := by simp
  have hpj : ((2 ^ (8 * t.size - 1) : Nat) : Int) = (2 : Int) ^ (8 * t.size - 1) := by simp
  refine ⟨fun hf => by simp [load, hf], fun ht => ?_⟩
  unfold load
  rw [← hpi, ← hpj]
  simp only [ht, true_and]
  split
  · refine ⟨?_, by omega, by omega⟩
    rw [Int.sub_emod_right, Int.emod_eq_of_lt (by omega) (by omega)]
  · refine ⟨?_, by omega, by omega⟩
    rw [Int.emod_eq_of_lt (by omega) (by omega)]

/-- Minimum, maximum and number of bytes of the C types (x86-64 Linux). -/
def cType : Scalar → Int × Int × Nat
  | .char => (-128, 127, 1)
  | .u_char => (0, 255, 1)
  | .short => (-32768, 32767, 2)
  | .u_short => (0, 65535, 2)
  | .int => (-2147483648, 2147483647, 4)
  | .u_int => (0, 4294967295, 4)
  | .long | .long_long => (-9223372036854775808, 9223372036854775807, 8)
  | .u_long | .u_long_long | .pointer => (0, 18446744073709551615, 8)

/-- The bytes of a value in memory: two's complement, little endian. -/
def store : Nat → Int → Bytes
  | 0, _ => []
  | n + 1, v => UInt8.ofNat (v % 256).toNat :: store n (v / 256)

/-- The documented text of a value: a character for the character types, an address for pointers, else decimal. -/
def valueText (t : Scalar) (v : Int) : Bytes :=
  match t with
  | .char | .u_char => [UInt8.ofNat (v % 256).toNat]
  | .pointer => if v = 0 then lit "(nil)" else lit "0x" ++ digits 16 v.toNat
  | _ => if v < 0 then lit "-" ++ digits 10 (-v).toNat else digits 10 v.toNat

theorem store_length : ∀ n v, (store n v).length = n
  | 0, _ => rfl
  | n + 1, v => by simp [store, store_length n]

theorem loadU_store : ∀ (n : Nat) (v : Int), (loadU (store n v) : Int) = v % 256 ^ n
  | 0, v => by simp [store, loadU, Int.emod_one]
  | n + 1, v => by
    have ih := loadU_store n (v / 256)
    have h1 : (UInt8.ofNat (v % 256).toNat).toNat = (v % 256).toNat := by
      rw [UInt8.toNat_ofNat']; have : (v % 256).toNat < 256 := by omega
      exact Nat.mod_eq_of_lt this
    have h2 : (((v % 256).toNat : Nat) : Int) = v % 256 := by omega
    simp only [store, loadU, h1]
    rw [Int.natCast_add, Int.natCast_mul, ih, h2, Int.pow_succ']
    show v % 256 + 256 * (v / 256 % 256 ^ n) = v % (256 * 256 ^ n)
    have hm : (0 : Int) < 256 ^ n := Int.pow_pos (by decide)
    generalize (256 : Int) ^ n = m at hm ⊢
    have e1 := Int.emod_add_mul_ediv v 256
    have e2 := Int.emod_add_mul_ediv (v / 256) m
    have b1 := Int.emod_nonneg (v / 256) (Int.ne_of_gt hm)
    have b2 := Int.emod_lt_of_pos (v / 256) hm
    have e3 : v = (v % 256 + 256 * (v / 256 % m)) + 256 * m * (v / 256 / m) := by
      rw [Int.mul_assoc, Int.add_assoc, ← Int.mul_add, e2, e1]
    have e4 : v % (256 * m) = (v % 256 + 256 * (v / 256 % m)) % (256 * m) :=
      (congrArg (· % (256 * m)) e3).trans (Int.add_mul_emod_self_left ..)
    exact (e4.trans (Int.emod_eq_of_lt (by omega) (by omega))).symm

/-- C25: every C value of the type is read back from its object. -/
theorem load_store (t : Scalar) {v : Int} (h1 : (cType t).1 ≤ v) (h2 : v ≤ (cType t).2.1) :
    load t.signed t.size (store (cType t).2.2 v) = v := by
  have h := loadU_store (cType t).2.2 v
  cases t <;> simp only [cType] at h1 h2 h ⊢ <;> simp only [load, Scalar.signed, Scalar.size] <;>
    generalize loadU _ = u at h ⊢ <;> simp only [Int.reducePow, Nat.reducePow, Nat.reduceMul, Nat.reduceSub] at h ⊢ <;>
    first
      | (simp only [Bool.false_eq_true, false_and, if_false]; omega)
      | (simp only [true_and]; split <;> omega)

/-- C25, in terms of the C values: the matcher of each type accepts exactly equal values of the type, over the whole range
of the type, and rejects with a message that shows both. -/
theorem C25_c_values (t : Scalar) {v w : Int} (name : Bytes) {buf : Bytes} (h1 : (cType t).1 ≤ v) (h2 : v ≤ (cType t).2.1)
    (h3 : (cType t).1 ≤ w) (h4 : w ≤ (cType t).2.1) (hb : 256 ≤ buf.length) :
    Exact (cmpScalar t (store (cType t).2.2 v) (store (cType t).2.2 w) name buf) (v = w)
      (message name (valueText t v) (valueText t w)) buf := by
  have hs : t.size = (cType t).2.2 := by cases t <;> rfl
  have ht : ∀ x, (cType t).1 ≤ x → t.fmt x = valueText t x := by
    intro x hx
    cases t <;> simp only [cType] at hx <;> simp only [Scalar.fmt, valueText, fmtChar, fmtPtr, fmtDec]
    all_goals
      split
      · first | rfl | (congr 2; omega)
      · congr 1 <;> first | rfl | omega | (congr 1; omega)
  have H := C25_scalar_exact t (cur := store (cType t).2.2 v) (exp := store (cType t).2.2 w) name (by rw [store_length, hs])
    (by rw [store_length, hs]) hb
  rw [load_store t h1 h2, load_store t h3 h4, ht v h1, ht w h3] at H
  obtain ⟨rv, buf', e1, e2, e3⟩ := H
  refine ⟨rv, buf', e1, e2.trans ⟨fun e => ?_, fun e => by rw [e]⟩, e3⟩
  have := load_store t h1 h2
  rw [e, load_store t h3 h4] at this
  exact this.symm

example : Exact (cmpScalar .short (store 2 (-7)) (store 2 300) (lit "s") (List.replicate 256 0)) (-7 = 300)
    (message (lit "s") (valueText .short (-7)) (valueText .short 300)) (List.replicate 256 0) :=
  C25_c_values .short (lit "s") (by decide) (by decide) (by decide) (by decide) (by rw [List.length_replicate]; decide)

/-- C25: a floating-point matcher accepts exactly when the `==` of the type holds. -/
theorem C25_float_exact {α : Type} (val : Bytes → α) (eq : α → α → Bool) (fmt : α → Bytes) (cur exp name : Bytes) {buf : Bytes}
    (hb : 256 ≤ buf.length) :
    Exact (cmpFloat val eq fmt cur exp name buf) (eq (val cur) (val exp) = true)
      (message name (fmt (val cur)) (fmt (val exp))) buf :=
  implementMatcher_exact val eq fmt cur exp name buf hb

/-- C25: a 128-bit matcher accepts exactly equal values. -/
theorem C25_int128_exact (sg : Bool) {cur exp : Bytes} (name : Bytes) {buf : Bytes} (hc : cur.length = 16)
    (he : exp.length = 16) (hb : 256 ≤ buf.length) :
    Exact (cmp128 sg cur exp name buf) (cur = exp) (message name (fmt128 (load sg 16 cur)) (fmt128 (load sg 16 exp))) buf := by
  unfold cmp128 Exact
  by_cases h : load sg 16 cur = load sg 16 exp
  · simp only [h, if_true]
    have := load_inj hc he h
    exact ⟨0, buf, rfl, by simp [this], by simp, fun _ => rfl, rfl, rfl, by simp⟩
  · obtain ⟨buf', e1, e2, e3, e4⟩ := snprintf_ok buf (message name (fmt128 (load sg 16 cur)) (fmt128 (load sg 16 exp))) hb
    simp only [h, if_false, e1, Res.bind_ok]
    refine ⟨-1, buf', rfl, ?_, by simp, by simp, e2, e3, fun _ => e4⟩
    constructor
    · intro hh; simp at hh
    · intro hh; rw [hh] at h; exact absurd rfl h

theorem readBytes_ok (m : Mem) (n a : Nat) (h : ∀ k, k < n → (m (a + k)).isSome) :
    ∃ bs, readBytes m a n = .ok bs ∧ bs.length = n ∧ ∀ k, k < n → m (a + k) = bs[k]? := by
  induction n generalizing a with
  | zero => exact ⟨[], rfl, rfl, fun k hk => by omega⟩
  | succ n ih =>
    obtain ⟨b, hb⟩ := Option.isSome_iff_exists.mp (h 0 (by omega))
    simp only [Nat.add_zero] at hb
    obtain ⟨bs, e1, e2, e3⟩ := ih (a + 1) (fun k hk => by
      have := h (k + 1) (by omega)
      rwa [show a + (k + 1) = a + 1 + k by omega] at this)
    refine ⟨b :: bs, by simp [readBytes, hb, e1], by simp [e2], fun k hk => ?_⟩
    cases k with
    | zero => simpa using hb
    | succ k =>
      have := e3 k (by omega)
      rw [show a + (k + 1) = a + 1 + k by omega, this]
      simp

/-- C25: a dereferencing matcher compares the pointed-to objects, byte by byte, whatever the addresses are. -/
theorem C25_deref_exact (m : Mem) (t : Scalar) {cur exp : Bytes} (name : Bytes) {buf : Bytes}
    (hb : 256 ≤ buf.length) (hc : ∀ k, k < t.size → (m (loadU cur + k)).isSome) (he : ∀ k, k < t.size → (m (loadU exp + k)).isSome) :
    ∃ rv buf', cmpDerefPtr m t cur exp name buf = .ok (rv, buf') ∧
      (rv = 0 ↔ ∀ k, k < t.size → m (loadU cur + k) = m (loadU exp + k)) ∧ (rv = 0 → buf' = buf) ∧
      (rv = 0 ∨ rv = -1) ∧ buf'.length = buf.length ∧ buf'.drop 256 = buf.drop 256 := by
  obtain ⟨c, c1, c2, c3⟩ := readBytes_ok m t.size (loadU cur) hc
  obtain ⟨e, e1, e2, e3⟩ := readBytes_ok m t.size (loadU exp) he
  obtain ⟨rv, buf', h1, h2, h3, h4, h5, h6, _⟩ := C25_scalar_exact t name c2 e2 hb
  refine ⟨rv, buf', by simp only [cmpDerefPtr, c1, e1, Res.bind_ok, h1], h2.trans ⟨fun h k hk => ?_, fun h => ?_⟩, h4, h3, h5, h6⟩
  · rw [c3 k hk, e3 k hk, h]
  · apply List.ext_getElem?
    intro k
    by_cases hk : k < t.size
    · rw [← c3 k hk, ← e3 k hk, h k hk]
    · rw [List.getElem?_eq_none (by omega), List.getElem?_eq_none (by omega)]

/-- C25: dereferencing an invalid pointer is undefined (the matchers do not test for `NULL`). -/
theorem C25_deref_invalid (m : Mem) (t : Scalar) (cur exp name buf : Bytes) (h : m (loadU cur) = none) :
    cmpDerefPtr m t cur exp name buf = .ub := by
  have : ∃ n, t.size = n + 1 := by cases t <;> exact ⟨_, rfl⟩
  obtain ⟨n, hn⟩ := this
  simp [cmpDerefPtr, hn, readBytes, h]

/-- C25: the C++ matcher rejects exactly when `==` does not hold, and only then writes its message. -/
theorem C25_cpp_exact {α : Type} (eq : α → α → Bool) (put : α → Bytes) (cur exp : α) (name stream : Bytes) :
    ((cmpCpp eq put cur exp name stream).1 = false ↔ eq cur exp = true) ∧
    (cmpCpp eq put cur exp name stream).2 = stream ++ (if eq cur exp then [] else
      lit "Parameter '" ++ name ++ lit "' has value '" ++ put cur ++ lit "', was expecting '" ++ put exp ++ lit "'") := by
  unfold cmpCpp message
  by_cases h : eq cur exp = true <;> simp [h]

/-- C25 in a mock: with a built-in matcher on parameter `i`, the call reports that parameter exactly when the argument's
bytes differ from the expected ones. -/
theorem C25_in_mock (t : Scalar) (mem : Mem) {cur exp : Val} (name : String) (hc : cur.length = t.size) (he : exp.length = t.size) :
    (asMatcher (cmpScalar t) mem cur exp name).isNone = true ↔ cur = exp := by
  have hb : 256 ≤ (List.replicate maxCmpErr (0 : UInt8)).length := by rw [List.length_replicate]; exact Nat.le_refl _
  obtain ⟨rv, buf', h1, h2, h3, _⟩ := C25_scalar_exact t (lit name) hc he hb
  unfold asMatcher
  rw [h1]
  simp only
  by_cases h : rv = 0
  · simp [h, h2.mp h]
  · simp [h, mt h2.mpr h]

example : (5 :: [0, 0, 0] : Bytes).length = Scalar.int.size ∧ (254 :: [255, 255, 255] : Bytes).length = Scalar.int.size ∧
    load Scalar.int.signed Scalar.int.size [254, 255, 255, 255] = -2 ∧
    (cmpScalar .int [5, 0, 0, 0] [254, 255, 255, 255] (lit "a") (List.replicate 256 7)).bind (fun r => .ok (r.1, toText (cstr r.2)))
      = .ok (-1, "Parameter 'a' has value '5', was expecting '-2'") := by
  refine ⟨rfl, rfl, by decide +kernel, by decide +kernel⟩

/-! ## C26 -/

/-- The text a rejection leaves in the buffer when it is not cut. -/
theorem shown {r : Res (Int × Bytes)} {accept : Prop} {text buf : Bytes} (h : Exact r accept text buf) (hne : ¬ accept)
    (hlen : text.length < 256) (hz : 0 ∉ text) : ∃ buf', r = .ok (-1, buf') ∧ cstr buf' = text := by
  obtain ⟨rv, buf', h1, h2, h3, _, _, _, h7⟩ := h
  have hrv : rv ≠ 0 := fun e => hne (h2.mp e)
  have : rv = -1 := h3.resolve_left hrv
  subst this
  refine ⟨buf', h1, ?_⟩
  rw [h7 hrv, List.take_of_length_le (by omega)]
  exact cstr_of_no_zero hz

/-- The formats that print numbers: everything but the character matchers. -/
def Numeric (t : Scalar) : Prop := t ≠ .char ∧ t ≠ .u_char

theorem fmt_clean {t : Scalar} (ht : Numeric t) (v : Int) : Clean (t.fmt v) := by
  cases t <;> first | exact clean_fmtDec v | exact clean_fmtPtr v | exact absurd rfl ht.1 | exact absurd rfl ht.2

theorem fmt_inj {t : Scalar} (ht : Numeric t) {a b : Bytes} (ha : a.length = t.size) (hb : b.length = t.size)
    (h : t.fmt (load t.signed t.size a) = t.fmt (load t.signed t.size b)) : a = b := by
  have ra := load_range (sg := t.signed) ha
  have rb := load_range (sg := t.signed) hb
  apply load_inj (sg := t.signed) ha hb
  cases t <;> first | exact fmtDec_inj h | exact fmtPtr_inj (ra.2.2 rfl) (rb.2.2 rfl) h | exact absurd rfl ht.1 | exact absurd rfl ht.2

theorem fmt_length (t : Scalar) {a : Bytes} (ha : a.length = t.size) : (t.fmt (load t.signed t.size a)).length ≤ 21 := by
  have hr := load_range (sg := t.signed) ha
  have hs : (8 * t.size) ≤ 64 := by cases t <;> decide
  have hp : (2 : Nat) ^ (8 * t.size) ≤ 2 ^ 64 := Nat.pow_le_pow_right (by omega) hs
  have hpi : ((2 ^ (8 * t.size) : Nat) : Int) = (2 : Int) ^ (8 * t.size) := by simp
  rw [← hpi] at hr
  generalize hv : load t.signed t.size a = v at hr
  have hn : v.natAbs < 10 ^ 20 := by omega
  have hn' : v.natAbs < 16 ^ 17 := by omega
  have hd := digits_length_le (b := 10) (by omega) (by omega) hn
  have hx := digits_length_le (b := 16) (by omega) (by omega) hn'
  have key1 : (fmtDec v).length ≤ 21 := by
    unfold fmtDec
    have : (lit "-").length = 1 := rfl
    split
    · rw [List.length_append]; omega
    · omega
  have key2 : (fmtPtr v).length ≤ 21 := by
    unfold fmtPtr
    have h1 : (lit "(nil)").length = 5 := rfl
    have h2 : (lit "0x").length = 2 := rfl
    split
    · omega
    · rw [List.length_append]; omega
  cases t <;> first | exact key1 | exact key2 | (simp [Scalar.fmt, fmtChar])

/-- C26: for the numeric matchers up to 64 bits, a rejection message that fits in the buffer (always the case for names
of up to 170 bytes) is exactly the documented text, and messages of two rejections agree only when the parameter names,
the received and the expected values agree. -/
theorem C26_message_determines (t : Scalar) (ht : Numeric t) {cur exp cur' exp' name name' buf buf' : Bytes}
    (hc : cur.length = t.size) (he : exp.length = t.size) (hc' : cur'.length = t.size) (he' : exp'.length = t.size)
    (hn : Clean name) (hn' : Clean name') (hl : name.length ≤ 170) (hl' : name'.length ≤ 170)
    (hb : 256 ≤ buf.length) (hb' : 256 ≤ buf'.length) (hne : cur ≠ exp) (hne' : cur' ≠ exp') :
    ∃ out out', cmpScalar t cur exp name buf = .ok (-1, out) ∧ cmpScalar t cur' exp' name' buf' = .ok (-1, out') ∧
      cstr out = lit "Parameter '" ++ name ++ lit "' has value '" ++ t.fmt (load t.signed t.size cur) ++
        lit "', was expecting '" ++ t.fmt (load t.signed t.size exp) ++ lit "'" ∧
      (cstr out = cstr out' → name = name' ∧ cur = cur' ∧ exp = exp') := by
  have l1 := fmt_length t hc
  have l2 := fmt_length t he
  have l3 := fmt_length t hc'
  have l4 := fmt_length t he'
  obtain ⟨o, h1, h2⟩ := shown (C25_scalar_exact t name hc he hb) hne (by rw [message_length]; omega)
    (message_no_zero hn.2 (fmt_clean ht _).2 (fmt_clean ht _).2)
  obtain ⟨o', h1', h2'⟩ := shown (C25_scalar_exact t name' hc' he' hb') hne' (by rw [message_length]; omega)
    (message_no_zero hn'.2 (fmt_clean ht _).2 (fmt_clean ht _).2)
  refine ⟨o, o', h1, h1', by rw [h2]; rfl, fun h => ?_⟩
  rw [h2, h2'] at h
  obtain ⟨e1, e2, e3⟩ := message_parse hn hn' (fmt_clean ht _) (fmt_clean ht _) h
  exact ⟨e1, fmt_inj ht hc hc' e2, fmt_inj ht he he' e3⟩

example : Numeric .int ∧ Clean (lit "a.b[3]") ∧ (lit "a.b[3]").length ≤ 170 ∧ ([1, 0, 0, 0] : Bytes) ≠ [2, 0, 0, 0] :=
  ⟨⟨by decide, by decide⟩, ⟨by decide, by decide⟩, by decide, by decide⟩

theorem fmtChar_byte (t : Scalar) (ht : t = .char ∨ t = .u_char) (x : UInt8) : t.fmt (load t.signed t.size [x]) = [x] := by
  have hx := x.toNat_lt
  have key : ∀ v : Int, v % 256 = x.toNat → fmtChar v = [x] := by
    intro v hv
    unfold fmtChar
    rw [hv]
    simp
  rcases ht with rfl | rfl
  · refine key _ ?_
    simp only [load, loadU, Scalar.signed, Scalar.size]
    split <;> omega
  · refine key _ ?_
    simp only [load, loadU, Scalar.signed, Scalar.size, Bool.false_eq_true, false_and, if_false]
    omega

/-- C26: the character matchers print the characters themselves; for non-NUL characters the message determines both. -/
theorem C26_char_determines_partial (t : Scalar) (ht : t = .char ∨ t = .u_char) {x y x' y' : UInt8} {name name' buf buf' : Bytes}
    (hn : Clean name) (hn' : Clean name') (hl : name.length ≤ 170) (hl' : name'.length ≤ 170)
    (hb : 256 ≤ buf.length) (hb' : 256 ≤ buf'.length) (hne : x ≠ y) (hne' : x' ≠ y')
    (hx : x ≠ 0) (hy : y ≠ 0) (hx' : x' ≠ 0) (hy' : y' ≠ 0) :
    ∃ out out', cmpScalar t [x] [y] name buf = .ok (-1, out) ∧ cmpScalar t [x'] [y'] name' buf' = .ok (-1, out') ∧
      (cstr out = cstr out' → name = name' ∧ x = x' ∧ y = y') := by
  have hs : ∀ z : UInt8, [z].length = t.size := by rcases ht with rfl | rfl <;> exact fun _ => rfl
  have E := C25_scalar_exact t name (hs x) (hs y) hb
  have E' := C25_scalar_exact t name' (hs x') (hs y') hb'
  rw [fmtChar_byte t ht, fmtChar_byte t ht] at E E'
  have hz : ∀ z : UInt8, z ≠ 0 → 0 ∉ [z] := fun z h => by simpa using fun e => h e.symm
  obtain ⟨o, h1, h2⟩ := shown E (by simpa using hne) (by rw [message_length]; simp; omega) (message_no_zero hn.2 (hz x hx) (hz y hy))
  obtain ⟨o', h1', h2'⟩ := shown E' (by simpa using hne') (by rw [message_length]; simp; omega)
    (message_no_zero hn'.2 (hz x' hx') (hz y' hy'))
  refine ⟨o, o', h1, h1', fun h => ?_⟩
  rw [h2, h2'] at h
  unfold message at h
  simp only [List.append_assoc] at h
  have h3 := List.append_cancel_left h
  have q1 : lit "' has value '" = 39 :: lit " has value '" := rfl
  rw [q1, List.cons_append, List.cons_append] at h3
  obtain ⟨e1, h4⟩ := split_at_quote hn.1 hn'.1 h3
  have h5 := List.append_cancel_left h4
  simp only [List.cons_append, List.nil_append, List.cons.injEq] at h5
  have h6 := List.append_cancel_left h5.2
  simp only [List.cons_append, List.nil_append, List.cons.injEq] at h6
  exact ⟨e1, h5.1, h6.1⟩

/-- C26 is false for the NUL character: the message ends there, so the expected value is lost. -/
theorem C26_char_nul_refuted : ∃ x y y' : UInt8, x ≠ y ∧ x ≠ y' ∧ y ≠ y' ∧ ∀ (name buf : Bytes), Clean name → name.length ≤ 170 → 256 ≤ buf.length →
    ∃ out out', cmpScalar .char [x] [y] name buf = .ok (-1, out) ∧ cmpScalar .char [x] [y'] name buf = .ok (-1, out') ∧
      cstr out = cstr out' := by
  refine ⟨0, 65, 66, by decide, by decide, by decide, fun name buf hn hl hb => ?_⟩
  obtain ⟨rv, b1, e1, e2, e3, _, _, _, e7⟩ := C25_scalar_exact .char (cur := [0]) (exp := [65]) name rfl rfl hb
  obtain ⟨rv', b1', e1', e2', e3', _, _, _, e7'⟩ := C25_scalar_exact .char (cur := [0]) (exp := [66]) name rfl rfl hb
  have r1 : rv ≠ 0 := fun e => absurd (e2.mp e) (by decide)
  have r1' : rv' ≠ 0 := fun e => absurd (e2'.mp e) (by decide)
  have := e3.resolve_left r1
  have := e3'.resolve_left r1'
  subst rv rv'
  refine ⟨b1, b1', e1, e1', ?_⟩
  rw [e7 r1, e7' r1', fmtChar_byte .char (.inl rfl), fmtChar_byte .char (.inl rfl), fmtChar_byte .char (.inl rfl)]
  have key : ∀ z : UInt8, cstr ((message name [0] [z]).take 255 ++ [0]) = lit "Parameter '" ++ name ++ lit "' has value '" := by
    intro z
    rw [List.take_of_length_le (by rw [message_length]; simp; omega)]
    have : message name [0] [z] ++ [0] = (lit "Parameter '" ++ name ++ lit "' has value '") ++ 0 :: (lit "', was expecting '" ++ [z] ++ lit "'" ++ [0]) := by
      simp [message, List.append_assoc]
    rw [this]
    apply cstr_of_no_zero
    have l1 : (0 : UInt8) ∉ lit "Parameter '" := by decide
    have l2 : (0 : UInt8) ∉ lit "' has value '" := by decide
    simp only [List.mem_append, not_or]
    exact ⟨⟨l1, hn.2⟩, l2⟩
  rw [key, key]

/-- C26 is false for 128-bit values: two different received values give the same message. -/
theorem C26_int128_refuted : ∃ cur cur' exp : Bytes, cur.length = 16 ∧ cur'.length = 16 ∧ exp.length = 16 ∧ cur ≠ cur' ∧
    cur ≠ exp ∧ cur' ≠ exp ∧ ∀ (sg : Bool) (name buf : Bytes), cmp128 sg cur exp name buf = cmp128 sg cur' exp name buf ∧
      ∀ b, cmp128 sg cur exp name buf ≠ .ok (0, b) := by
  -- 2^64 + 16 and 17 * 2^64 both print as 0x110
  refine ⟨[16,0,0,0,0,0,0,0,1,0,0,0,0,0,0,0], [0,0,0,0,0,0,0,0,17,0,0,0,0,0,0,0], [0,0,0,0,0,0,0,0,0,0,0,0,0,0,0,0],
    rfl, rfl, rfl, by decide, by decide, by decide, fun sg name buf => ?_⟩
  have e1 : load sg 16 [16,0,0,0,0,0,0,0,1,0,0,0,0,0,0,0] = 2 ^ 64 + 16 := by cases sg <;> decide +kernel
  have e2 : load sg 16 [0,0,0,0,0,0,0,0,17,0,0,0,0,0,0,0] = 17 * 2 ^ 64 := by cases sg <;> decide +kernel
  have e3 : load sg 16 [0,0,0,0,0,0,0,0,0,0,0,0,0,0,0,0] = 0 := by cases sg <;> decide +kernel
  have f : fmt128 (2 ^ 64 + 16) = fmt128 (17 * 2 ^ 64) := by decide +kernel
  simp only [cmp128, e1, e2, e3, f]
  refine ⟨by simp, fun b => ?_⟩
  simp only [show ¬((2 : Int) ^ 64 + 16 = 0) by decide, if_false]
  cases snprintf buf maxCmpErr (message name (fmt128 (17 * 2 ^ 64)) (fmt128 0)) <;> simp

/-- The upper and lower halves of a 128-bit value. -/
def hi64 (v : Int) : Nat := (v / 2 ^ 64 % 2 ^ 64).toNat
def lo64 (v : Int) : Nat := (v % 2 ^ 64).toNat

/-- C26, what holds for 128-bit values: the printed form determines the value among values whose lower half prints with
the same number of digits (for example among all values with an empty upper half and the same magnitude, or among all
values with a full lower half). -/
theorem C26_int128_partial {v w : Int} (hv : -(2 : Int) ^ 127 ≤ v ∧ v < 2 ^ 127) (hw : -(2 : Int) ^ 127 ≤ w ∧ w < 2 ^ 127)
    (hd : (digits 16 (lo64 v)).length = (digits 16 (lo64 w)).length) (h : fmt128 v = fmt128 w) : v = w := by
  have h' : fmtHash (hi64 v) ++ digits 16 (lo64 v) = fmtHash (hi64 w) ++ digits 16 (lo64 w) := h
  obtain ⟨e1, e2⟩ := List.append_inj' h' hd
  have l : lo64 v = lo64 w := digits_inj (by omega) (by omega) e2
  have u : hi64 v = hi64 w := by
    unfold fmtHash at e1
    have hne : ∀ n, lit "0" ≠ lit "0x" ++ digits 16 n := fun n e => by
      have := congrArg List.length e
      have h1 : (lit "0").length = 1 := rfl
      have h2 : (lit "0x").length = 2 := rfl
      simp only [List.length_append] at this
      omega
    split at e1 <;> split at e1
    · omega
    · exact absurd e1 (hne _)
    · exact absurd e1.symm (hne _)
    · exact digits_inj (by omega) (by omega) (List.append_cancel_left e1)
  unfold hi64 at u
  unfold lo64 at l
  omega

/-- C26, 128-bit values with the same upper half are always told apart. -/
theorem C26_int128_same_half_partial {v w : Int} (hv : -(2 : Int) ^ 127 ≤ v ∧ v < 2 ^ 127) (hw : -(2 : Int) ^ 127 ≤ w ∧ w < 2 ^ 127)
    (hh : hi64 v = hi64 w) (h : fmt128 v = fmt128 w) : v = w := by
  have h' : fmtHash (hi64 v) ++ digits 16 (lo64 v) = fmtHash (hi64 w) ++ digits 16 (lo64 w) := h
  rw [hh] at h'
  exact C26_int128_partial hv hw (by rw [List.append_cancel_left h']) h

example : (-(2 : Int) ^ 127 ≤ 5 ∧ (5 : Int) < 2 ^ 127) ∧ hi64 5 = hi64 77 ∧ fmt128 5 = lit "05" ∧
    (digits 16 (lo64 (2 ^ 64 + 10))).length = (digits 16 (lo64 (3 * 2 ^ 64 + 11))).length := by
  refine ⟨by decide, by decide +kernel, by decide +kernel, by decide +kernel⟩

/-! ## C27 -/

/-- The C string `s` is stored at address `a`. -/
def StrAt (m : Mem) (a : Nat) (s : Bytes) : Prop :=
  0 ∉ s ∧ (∀ k (h : k < s.length), m (a + k) = some s[k]) ∧ m (a + s.length) = some 0

theorem StrAt.cons {m : Mem} {a : Nat} {x : UInt8} {s : Bytes} (h : StrAt m a (x :: s)) : m a = some x ∧ x ≠ 0 ∧ StrAt m (a + 1) s := by
  obtain ⟨h1, h2, h3⟩ := h
  refine ⟨h2 0 (by simp), fun e => h1 (by simp [e]), fun hh => h1 (List.mem_cons_of_mem _ hh), fun k hk => ?_, ?_⟩
  · have := h2 (k + 1) (by simpa using hk)
    rw [show a + 1 + k = a + (k + 1) by omega, this]
    rfl
  · rw [show a + 1 + s.length = a + (x :: s).length by simp; omega]
    exact h3

theorem StrAt.nil {m : Mem} {a : Nat} (h : StrAt m a []) : m a = some 0 := by simpa using h.2.2

theorem strAt_ok {m : Mem} {s : Bytes} {a fuel : Nat} (h : StrAt m a s) (hf : s.length < fuel) : strAt m fuel a = .ok s := by
  induction s generalizing a fuel with
  | nil =>
    obtain ⟨n, rfl⟩ : ∃ n, fuel = n + 1 := ⟨fuel - 1, by simp at hf; omega⟩
    simp [strAt, h.nil]
  | cons x s ih =>
    obtain ⟨n, rfl⟩ : ∃ n, fuel = n + 1 := ⟨fuel - 1, by simp at hf; omega⟩
    obtain ⟨h1, h2, h3⟩ := h.cons
    simp [strAt, h1, h2, ih h3 (by simpa using hf)]

theorem strEq_ok {m : Mem} {s t : Bytes} {a b fuel : Nat} (ha : StrAt m a s) (hb : StrAt m b t) (hf : s.length < fuel)
    (hg : t.length < fuel) : strEq m fuel a b = .ok (decide (s = t)) := by
  induction s generalizing a b t fuel with
  | nil =>
    obtain ⟨n, rfl⟩ : ∃ n, fuel = n + 1 := ⟨fuel - 1, by simp at hf; omega⟩
    cases t with
    | nil => simp [strEq, ha.nil, hb.nil]
    | cons y t =>
      obtain ⟨h1, h2, _⟩ := hb.cons
      simp [strEq, ha.nil, h1, Ne.symm h2]
  | cons x s ih =>
    obtain ⟨n, rfl⟩ : ∃ n, fuel = n + 1 := ⟨fuel - 1, by simp at hf; omega⟩
    obtain ⟨h1, h2, h3⟩ := ha.cons
    cases t with
    | nil => simp [strEq, hb.nil, h1, h2]
    | cons y t =>
      obtain ⟨g1, g2, g3⟩ := hb.cons
      by_cases hxy : x = y
      · subst hxy
        simp [strEq, h1, g1, h2, ih h3 g3 (by simpa using hf) (by simpa using hg)]
      · simp [strEq, h1, g1, hxy]

/-- C27: for any two C strings in memory, at whatever addresses, `cmp_str` accepts exactly when their contents are equal,
and writes at most 256 bytes, only on rejection. -/
theorem C27_str_exact {m : Mem} {cur exp : Bytes} (name : Bytes) {buf s t : Bytes} (hc : StrAt m (loadU cur) s) (he : StrAt m (loadU exp) t)
    (hs : s.length < 2 ^ 64) (ht : t.length < 2 ^ 64) (hb : 256 ≤ buf.length) :
    Exact (cmpStr m cur exp name buf) (s = t) (message name s t) buf := by
  have e1 := strEq_ok hc he (fuel := addrSpace) hs ht
  have e2 := strAt_ok hc (fuel := addrSpace) hs
  have e3 := strAt_ok he (fuel := addrSpace) ht
  unfold cmpStr Exact
  rw [e1, e2, e3]
  simp only [Res.bind_ok]
  by_cases h : s = t
  · simp only [h, decide_true, if_true]
    exact ⟨0, buf, rfl, by simp, by simp, fun _ => rfl, rfl, rfl, by simp⟩
  · obtain ⟨buf', b1, b2, b3, b4⟩ := snprintf_ok buf (message name s t) hb
    simp only [h, decide_false, Bool.false_eq_true, if_false, b1, Res.bind_ok]
    exact ⟨-1, buf', rfl, by simp, by simp, by simp, b2, b3, fun _ => b4⟩

/-- C27: an invalid pointer (such as `NULL`) is undefined behaviour. -/
theorem C27_invalid_pointer (m : Mem) (cur exp name buf : Bytes) (h : m (loadU cur) = none ∨ m (loadU exp) = none) :
    cmpStr m cur exp name buf = .ub := by
  have : ∃ n, addrSpace = n + 1 := ⟨2 ^ 64 - 1, rfl⟩
  obtain ⟨n, hn⟩ := this
  have : strEq m addrSpace (loadU cur) (loadU exp) = .ub := by
    rw [hn]
    unfold strEq
    rcases h with h | h
    · simp [h]
    · simp only [h]; cases m (loadU cur) <;> rfl
  simp [cmpStr, this]

/-- Two equal strings at different addresses. -/
example : ∃ m : Mem, StrAt m 10 (lit "hi") ∧ StrAt m 20 (lit "hi") ∧ StrAt m 30 (lit "ho") := by
  refine ⟨fun a => ((((lit "..........hi........hi........ho.").set 12 0).set 22 0).set 32 0 )[a]?, ?_⟩
  refine ⟨⟨by decide, ?_, by decide⟩, ⟨by decide, ?_, by decide⟩, ⟨by decide, ?_, by decide⟩⟩ <;> decide

end EasyMock.Matcher
