import Verif.StructCmp.FormatText
import Verif.Props.ProgCmp
import Verif.CFile.Meaning

/-! # C97: the formats of the messages of comparators -/

namespace EasyMock.StructCmp

open EasyMock.Types
open EasyMock.Parser (CTy Q Decls FieldD Den Parsed Used Unambiguous NamedCycles Builtin unitOf qInt qRec qPtr)
open EasyMock.Printf (Prints Shows Passes textOf Arg Scalar decimal addressText Rank Conv seen)

/-- A value for which the generator has a conversion: no `__int128`, and an enumeration's value is an `int`. -/
def Printable {R : Type} (under : Nat → Bool × Rank) (c : CTy) (v : Scalar R) (a : Arg R) : Prop :=
  Passes under c v a ∧ c ≠ .builtin .int128 ∧ c ≠ .builtin .uint128 ∧
    ∀ id, c = .enum id → (under id).2 = .int ∧ ∀ n, v = .num n → n < 2 ^ 31

/-- The type of a member, or of its elements. -/
def elementType (q : Q) : CTy := match q.ty.canon with
  | .arr _ q' => q'.ty.canon
  | c => c

theorem elementType_eq (q : Q) : elementType q = elemC q.ty.canon := by
  unfold elementType elemC
  cases q.ty.canon <;> rfl

theorem member_field {D : Decls} {id : Nat} {f : FieldD} (h : MemberOf D id f) : ∃ id', f ∈ (D.records id').fields := by
  induction h with
  | here h _ => exact ⟨_, h⟩
  | anonymous _ _ _ _ _ ih => exact ih

/-- C97: in every comparator, a check with `!=` is for a member of the record as the mocked header declares it.  When the two
    values differ, the format of its message fits the arguments, and what is printed is the message: the parameter, the name of
    the member, its index in an array, and the two values.

    Missing (see the refutations): `__int128`, enumerations whose type is longer than `int`, indices which are no `int`, arrays
    of arrays. -/
theorem C97_partial {D : Decls} {roots : List Q} {ts : List Ty} (hA : Unambiguous D (Used D roots)) (hC : NamedCycles D (Used D roots))
    (hp : Parsed D roots ts) (hU : UnnamedRecords D) (hM : NoMatrix D) (hN : NoPercent D roots) (env : Env) :
    ∀ c ∈ program env (ts.map .param), ∃ id kw fs emb fwd, c.ty = .comp false (D.records id).kw (D.records id).tag fs emb fwd .nil ∧
      c.article = article kw ∧
      ∀ k ∈ c.checks, ∀ owner format cast, k.action = .neq owner format cast →
        ∃ f t, MemberOf D id f ∧ f.name = k.field ∧ Den D false true f.q t ∧ cast = f.bits.map (fun _ => fullName t) ∧
          (f.bits = none → (k.array = true ↔ ∃ n q, f.q.ty.canon = .arr n q)) ∧
          ∀ (R : Type) (real : Bool → R → List Char) (under : Nat → Bool × Rank) (p : String) (idx : Nat) (v w : Scalar R) (a b : Arg R),
            Printable under (elementType f.q) v a → Printable under (elementType f.q) w b → idx < 2 ^ 31 →
            Prints real (formatText c.article k owner format).toList (formatArgs k p.toList idx a b)
              (message (fun _ s => s) c.article owner format ⟨p, f.name, if k.array then some idx else none,
                String.ofList (textOf real (elementType f.q) v), String.ofList (textOf real (elementType f.q) w)⟩).toList := by
  obtain ⟨hlen, hden⟩ := Parser.C53_partial hA hC hp
  intro c hc
  have hd : ∀ t ∈ ts, ∃ q ∈ roots, Den D false true q t := by
    intro t ht
    obtain ⟨i, hi, rfl⟩ := List.mem_iff_getElem.1 ht
    exact ⟨roots[i]'(by omega), List.getElem_mem _, hden i _ _ (List.getElem?_eq_getElem (by omega)) (List.getElem?_eq_getElem hi)⟩
  have hfree := (steps_free (env := env) ts {} (by intro e he; cases he) (by
    intro t ht
    obtain ⟨q, hq, h⟩ := hd t ht
    exact den_free hN h (hN.roots q hq))).cmps c hc
  obtain ⟨t, ht, hR, ⟨i, kw', n, fs, emb, fwd, ms, hty⟩, ⟨kw, hart⟩, hk⟩ := steps_checks env (ts.map .param) {} c hc
  obtain ⟨t', ht', e⟩ := List.mem_map.1 ht
  injection e with e
  subst e
  obtain ⟨q, hq, h⟩ := hd t' ht'
  obtain ⟨id, fs, emb, fwd, hty, hfs⟩ := den_records h _ hR
  refine ⟨id, kw, fs, emb, fwd, hty, hart, ?_⟩
  intro k hkc owner format cast hact
  have hin := hk k hkc
  rw [hty, CheckIn] at hin
  obtain ⟨f, t, hf, hname, hden', hfmt, hcase⟩ := denFs_checked (id := id) hU hact hfs (by
    intro f hf
    split at hf
    · simp at hf
    · exact hf) hin
  obtain ⟨id', hfid⟩ := member_field hf
  refine ⟨f, t, hf, hname, hden', ?_, ?_, ?_⟩
  · rcases hcase with ⟨h1, h2, -⟩ | ⟨h1, h2, -⟩
    · rw [h1, h2]; rfl
    · obtain ⟨x, hx⟩ := Option.isSome_iff_exists.1 h1
      rw [h2, hx]; rfl
  · intro hb
    rcases hcase with ⟨-, -, -, h3, h4⟩ | ⟨h1, -⟩
    · rw [h3]
      revert h4
      cases f.q.ty.canon <;> simp
      omega
    · rw [hb] at h1; cases h1
  · intro R real under p idx v w a b hv hw hidx
    rw [elementType_eq] at hv hw ⊢
    have hff := den_format hden' (fun n q' m q'' e => hM id' f hfid n q' m q'' e)
    rw [← hfmt] at hff
    obtain ⟨F, rfl⟩ : ∃ F, format = some F := by
      have := hv.1
      revert this hff
      generalize elemC f.q.ty.canon = C
      intro hff hps
      cases hps with
      | num | wide | float | double | longDouble => obtain ⟨_, -, e⟩ := hff; exact ⟨_, e⟩
      | enum | address => exact ⟨_, hff⟩
    have shows : ∀ {v : Scalar R} {a : Arg R}, Printable under (elemC f.q.ty.canon) v a →
        ∃ k, (∀ r, Printf.conversion (F.toList ++ r) = some (k, r)) ∧ Shows real k a (textOf real (elemC f.q.ty.canon) v) := by
      intro v a h
      refine shows_value hff h.1 ?_ h.2.2.2
      intro i e
      have h1 := h.1
      rw [e] at h1
      have h2 := h.2.1
      have h3 := h.2.2.1
      revert h1 h2 h3
      generalize elemC f.q.ty.canon = C
      intro h1 h2 h3
      cases h1 with
      | wide hb => rcases hb with rfl | rfl; exact h2 rfl; exact h3 rfl
    obtain ⟨k1, hc1, hs1⟩ := shows hv
    obtain ⟨k2, hc2, hs2⟩ := shows hw
    have : k1 = k2 := by
      have := (hc1 []).symm.trans (hc2 [])
      injection this with this
      exact congrArg Prod.fst this
    subst this
    rw [hname]
    rw [hart]
    exact prints_message hc1 hs1 hs2 (article_free kw) (hfree k hkc _ _ _ hact) (hname ▸ (hN.members id' f hfid).1) hidx

/-! ## What is printed is determined, and different values are told apart -/

theorem shows_unique {R : Type} {real : Bool → R → List Char} {k : Conv} {a : Arg R} {x y : List Char} (h1 : Shows real k a x) (h2 : Shows real k a y) :
    x = y := by
  cases h1 <;> cases h2 <;> rfl

/-- C97: there is only one text which a format prints for its arguments. -/
theorem C97_unique {R : Type} {real : Bool → R → List Char} {format : List Char} {as : List (Arg R)} {x y : List Char}
    (h1 : Prints real format as x) (h2 : Prints real format as y) : x = y := by
  induction h1 generalizing y with
  | done => cases h2; rfl
  | char hc _ ih =>
    cases h2 with
    | char _ h => rw [ih h]
    | conv => exact absurd rfl hc
  | conv hk hs _ ih =>
    cases h2 with
    | char hc _ => exact absurd rfl hc
    | conv hk' hs' h =>
      rw [hk] at hk'
      cases hk'
      rw [shows_unique hs hs', ih h]

theorem decimal_inj {v w : Int} (h : decimal v = decimal w) : v = w := by
  have digits : ∀ (n : Nat) (l : List Char), Nat.toDigits 10 n ≠ '-' :: l := by
    intro n l e
    have : ('-' : Char).isDigit = true := Nat.isDigit_of_mem_toDigits (b := 10) (n := n) (by decide) (by decide) (by rw [e]; exact List.mem_cons_self)
    exact absurd this (by decide)
  unfold decimal at h
  split at h <;> split at h
  · injection h with _ h
    have := Matcher.toDigits_inj (by decide) (by decide) h
    omega
  · exact absurd h.symm (digits _ _)
  · exact absurd h (digits _ _)
  · have := Matcher.toDigits_inj (by decide) (by decide) h
    omega

theorem addressText_inj {a b : Nat} (h : addressText a = addressText b) : a = b := by
  unfold addressText at h
  split at h <;> split at h
  · omega
  · have e : "(nil)".toList = '(' :: "nil)".toList := by decide +kernel
    rw [e] at h
    injection h with h
    exact absurd h (by decide)
  · have e : "(nil)".toList = '(' :: "nil)".toList := by decide +kernel
    rw [e] at h
    injection h with h
    exact absurd h (by decide)
  · injection h with _ h
    injection h with _ h
    exact Matcher.toDigits_inj (by decide) (by decide) h

theorem char_inj {m n : Nat} (hm : m < 256) (hn : n < 256) (h : Char.ofNat m = Char.ofNat n) : m = n := by
  have val : ∀ k, k < 256 → (Char.ofNat k).toNat = k := by
    intro k hk
    have : Nat.isValidChar k := by unfold Nat.isValidChar; omega
    unfold Char.ofNat
    rw [dif_pos this]
    rfl
  rw [← val m hm, ← val n hn, h]

/-- C97: the texts of different numbers, characters, enumerators and addresses of one type are different (those of floating-point
    numbers may be equal, as `%f` rounds). -/
theorem C97_distinct {R : Type} (real : Bool → R → List Char) {under : Nat → Bool × Rank} {c : CTy} {n m : Int} {a b : Arg R}
    (h1 : Passes under c (.num n) a) (h2 : Passes under c (.num m) b) (h : n ≠ m) : textOf real c (.num n) ≠ textOf real c (.num m) := by
  intro e
  apply h
  have num : ∀ b lo hi, Printf.range b = some (lo, hi) → lo ≤ n → n < hi → lo ≤ m → m < hi →
      textOf real (.builtin b) (.num n) = textOf real (.builtin b) (.num m) → n = m := by
    intro b lo hi hr l1 u1 l2 u2 e
    have e : (if Printf.charType b then [Char.ofNat (n % 256).toNat] else decimal n) =
        (if Printf.charType b then [Char.ofNat (m % 256).toNat] else decimal m) := e
    split at e
    · rename_i hc
      injection e with e
      have := char_inj (by omega) (by omega) e
      cases b with
      | charS | schar | charU | uchar =>
        cases hr
        omega
      | _ => cases hc
    · exact decimal_inj e
  cases h1 with
  | @num b lo hi _ _ _ hr l1 u1 hp =>
    cases h2 with
    | num hr' l2 u2 =>
      rw [hr] at hr'
      cases hr'
      exact num b lo hi hr l1 u1 l2 u2 e
    | wide hb =>
      rcases hb with rfl | rfl <;> cases hp
  | @wide b lo hi _ hb hr l1 u1 =>
    cases h2 with
    | num _ _ _ hp => rcases hb with rfl | rfl <;> cases hp
    | wide _ hr' l2 u2 =>
      rw [hr] at hr'
      cases hr'
      exact num b lo hi hr l1 u1 l2 u2 e
  | enum => exact decimal_inj e
  | address =>
    cases h2 with
    | address => exact congrArg Int.ofNat (addressText_inj e)

/-- C97: the test sees the whole message when it has less than 256 characters, none of which is the null character. -/
theorem C97_seen {text : List Char} (h : text.length < 256) (h0 : '\x00' ∉ text) : seen 256 text = text := by
  unfold seen
  rw [List.take_of_length_le (by omega)]
  induction text with
  | nil => rfl
  | cons c r ih =>
    rw [List.takeWhile_cons]
    have hc : (c != '\x00') = true := by simp; exact fun e => h0 (by simp [e])
    rw [if_pos hc, ih (by simp at h; omega) (fun hm => h0 (List.mem_cons_of_mem _ hm))]

/-- C97: the call in the generated file (read back in C77) has this format, and the arguments are the name of the parameter, the
    index of an array's element, and the members of the two objects. -/
theorem C97_source (art : String) (k : Check) (owner : String) (format cast : Option String) :
    CFile.actionItems art k (.neq owner format cast) =
      CFile.blk ("if(" ++ CFile.fieldOf k "currentCall_val" ++ " != " ++ CFile.fieldOf k "expectedCall_val" ++ ")")
        [CFile.says ("easyMock_snprintf(errorMessage, 256 , \"" ++ formatText art k owner format ++ "\", paramName, " ++
           (if k.array then "idx,  " else cast.elim "" (fun t => "(" ++ t ++ ")")) ++ CFile.fieldOf k "currentCall_val" ++ ", " ++
           (if k.array then "" else cast.elim "" (fun t => "(" ++ t ++ ")")) ++ CFile.fieldOf k "expectedCall_val" ++ ")"),
         CFile.says "return -1"] := by
  have e : "\"Parameter '%s' which is a" = "\"" ++ "Parameter '%s' which is a" := by decide +kernel
  have e' : "'\"" = "'" ++ "\"" := by decide +kernel
  have e2 : "\", paramName, " = "\"" ++ ", paramName, " := by decide +kernel
  have e3 : "easyMock_snprintf(errorMessage, 256 , \"" = "easyMock_snprintf(errorMessage, 256 , " ++ "\"" := by decide +kernel
  unfold CFile.actionItems formatText
  cases k.array <;> simp only [e, e', e2, e3, if_true, Bool.false_eq_true, if_false, String.append_assoc, String.empty_append]

/-! ### Example -/

theorem cmp_unnamed : UnnamedRecords cmpUnit := by
  intro id f hf hb hn
  match id with
  | 0 =>
    simp only [cmpUnit, unitOf, List.getD_cons_zero, List.mem_cons, List.not_mem_nil, or_false] at hf
    subst hf
    exact absurd hn (by decide)
  | 1 =>
    simp only [cmpUnit, unitOf, List.getD_cons_zero, List.getD_cons_succ, List.mem_cons, List.not_mem_nil, or_false] at hf
    rcases hf with rfl | rfl | rfl | rfl | rfl
    · exact absurd hn (by decide)
    · exact absurd hn (by decide)
    · exact absurd hn (by decide)
    · cases hb
    · cases hb
  | id + 2 => simp [cmpUnit, unitOf] at hf

theorem cmp_percent : NoPercent cmpUnit cmpRoots where
  tags := by
    intro id
    match id with
    | 0 => unfold Free; decide +kernel
    | 1 => unfold Free; decide +kernel
    | id + 2 => exact free_empty
  members := by
    intro id f hf
    match id with
    | 0 =>
      simp only [cmpUnit, unitOf, List.getD_cons_zero, List.mem_cons, List.not_mem_nil, or_false] at hf
      subst hf
      exact ⟨by unfold Free; decide +kernel, trivial⟩
    | 1 =>
      simp only [cmpUnit, unitOf, List.getD_cons_zero, List.getD_cons_succ, List.mem_cons, List.not_mem_nil, or_false] at hf
      rcases hf with rfl | rfl | rfl | rfl | rfl <;> exact ⟨by unfold Free; decide +kernel, trivial⟩
    | id + 2 => simp [cmpUnit, unitOf] at hf
  roots := by
    intro q hq
    simp only [cmpRoots, List.mem_cons, List.not_mem_nil, or_false] at hq
    rcases hq with rfl | rfl <;> trivial

/-- The comparators of the example. -/
def cmpProgram : List Comparator := program ⟨fun _ => 0, ["EasyMock_all_comparators"]⟩ ([.ptr false (.const false cmpB), cmpU].map .param)

/-- C97 for the example: the element 1 of `x` in `struct B` with 5 and -7. -/
example : ∃ c ∈ cmpProgram, c.name = "struct_B" ∧ ∃ k ∈ c.checks, k.field = "x" ∧ ∃ owner format cast, k.action = .neq owner format cast ∧
    Prints (R := Nat) (fun _ _ => []) (formatText c.article k owner format).toList (formatArgs k "b".toList 1 (.num true .int 5) (.num true .int (-7)))
      "Parameter 'b' which is a struct of type 'B' has field array 'x[idx]' at idx == 1 with value '5', was expecting '-7'".toList := by
  obtain ⟨c, hc, hname, k, hk, hf, owner, format, cast, ha, harr, hart, ho, hfm⟩ : ∃ c ∈ cmpProgram, c.name = "struct_B" ∧ ∃ k ∈ c.checks, k.field = "x" ∧
      ∃ owner format cast, k.action = .neq owner format cast ∧ k.array = true ∧ c.article = " struct" ∧ owner = "B" ∧ format = some "d" :=
    ⟨_, List.mem_cons_self, rfl, ⟨"x", true, .neq "B" (some "d") none⟩, List.mem_cons_self, rfl, _, _, _, rfl, rfl, rfl, rfl, rfl⟩
  refine ⟨c, hc, hname, k, hk, hf, owner, format, cast, ha, ?_⟩
  obtain ⟨id, kw, fs, emb, fwd, -, -, h⟩ := C97_partial cmp_unambiguous cmp_named cmp_parsed cmp_unnamed cmp_matrix cmp_percent
    ⟨fun _ => 0, ["EasyMock_all_comparators"]⟩ c hc
  obtain ⟨f, t, hm, hn, -, -, -, h⟩ := h k hk owner format cast ha
  have he : elementType f.q = .builtin .int := by
    obtain ⟨j, hj⟩ := member_field hm
    rw [hf] at hn
    match j with
    | 0 =>
      simp only [cmpUnit, unitOf, List.getD_cons_zero, List.mem_cons, List.not_mem_nil, or_false] at hj
      subst hj
      rfl
    | 1 =>
      simp only [cmpUnit, unitOf, List.getD_cons_zero, List.getD_cons_succ, List.mem_cons, List.not_mem_nil, or_false] at hj
      rcases hj with rfl | rfl | rfl | rfl | rfl <;> exact absurd hn (by decide)
    | j + 2 => simp [cmpUnit, unitOf] at hj
  have ok : ∀ n : Int, -2 ^ 31 ≤ n → n < 2 ^ 31 →
      Printable (R := Nat) (fun _ => (true, .int)) (elementType f.q) (.num n) (.num true .int n) := by
    intro n h1 h2
    rw [he]
    exact ⟨.num rfl h1 h2 rfl, nofun, nofun, nofun⟩
  have := h Nat (fun _ _ => []) (fun _ => (true, .int)) "b" 1 (.num 5) (.num (-7)) _ _ (ok 5 (by decide) (by decide)) (ok (-7) (by decide) (by decide)) (by decide)
  rw [he, hn, hf, harr, ho, hart, hfm] at this
  rw [ho, hart, hfm]
  have e : (message (fun _ s => s) " struct" "B" (some "d") ⟨"b", "x", if true = true then some 1 else none,
      String.ofList (textOf (fun (_ : Bool) (_ : Nat) => []) (.builtin .int) (.num 5)),
      String.ofList (textOf (fun (_ : Bool) (_ : Nat) => []) (.builtin .int) (.num (-7)))⟩) =
      "Parameter 'b' which is a struct of type 'B' has field array 'x[idx]' at idx == 1 with value '5', was expecting '-7'" := by
    decide +kernel
  rw [← e]
  exact this

/-! ### Deviations -/

theorem prints_lit_inv {R : Type} {real : Bool → R → List Char} {r : List Char} {as : List (Arg R)} : ∀ (l : List Char) {out : List Char}, '%' ∉ l →
    Prints real (l ++ r) as out → ∃ o, Prints real r as o
  | [], out, _, h => ⟨out, h⟩
  | c :: l, out, hl, h => by
    cases h with
    | char _ h => exact prints_lit_inv l (fun hm => hl (List.mem_cons_of_mem _ hm)) h
    | conv => exact absurd List.mem_cons_self hl

/-- A message with a conversion which does not take the argument. -/
theorem prints_bad {R : Type} {real : Bool → R → List Char} (l1 l2 r : List Char) {s : List Char} {as : List (Arg R)} {a : Arg R} (h1 : '%' ∉ l1) (h2 : '%' ∉ l2)
    (hbad : ∀ k r' x, Printf.conversion r = some (k, r') → ¬ Shows real k a x) :
    ¬ ∃ out, Prints real (l1 ++ '%' :: 's' :: (l2 ++ '%' :: r)) (.string s :: a :: as) out := by
  rintro ⟨out, h⟩
  obtain ⟨o, h⟩ := prints_lit_inv l1 h1 h
  cases h with
  | char hc => exact hc rfl
  | conv hk hs h =>
    cases hk
    obtain ⟨o, h⟩ := prints_lit_inv l2 h2 h
    cases h with
    | char hc => exact hc rfl
    | conv hk hs h => exact hbad _ _ _ hk hs

/-- `struct W { __int128 v; };` -/
def wideUnit : Decls := unitOf [{ kw := .struct, tag := "W", fields := [⟨"__int128 ".toList, .mk false false (.builtin .int128), "v", none⟩] }]

/-- The generated comparator has the given check. -/
def HasCheck (t : Ty) (art : String) (k : Check) : Prop :=
  ∀ key, ∃ c ∈ program ⟨key, ["EasyMock_all_comparators"]⟩ [.param t], c.article = art ∧ k ∈ c.checks

/-- C97 does not hold for `__int128`: the format `%lf%lf` reads two `double` for each value; whatever the values are, this is
    undefined. -/
theorem C97_refuted_wide : ∃ t k owner format, Parsed wideUnit [qRec 0] [t] ∧ HasCheck t " struct" k ∧ k.field = "v" ∧ k.action = .neq owner format none ∧
    ∀ (R : Type) (real : Bool → R → List Char) (under : Nat → Bool × Rank) (p : String) (idx : Nat) (v w : Scalar R) (a b : Arg R),
      Passes under (.builtin .int128) v a → Passes under (.builtin .int128) w b →
      ¬ ∃ out, Prints real (formatText " struct" k owner format).toList (formatArgs k p.toList idx a b) out := by
  refine ⟨.comp false .struct "W" (.field "__int128" (.ctype .int128 false false) "v" (-1) .nil) false false .nil,
    ⟨"v", false, .neq "W" (some "lf%lf") none⟩, _, _, parsed_by 3 (by decide +kernel), ?_, rfl, rfl, ?_⟩
  · intro key
    exact ⟨_, List.mem_cons_self, rfl, List.mem_cons_self⟩
  · intro R real under p idx v w a b ha hb
    have e : (formatText " struct" ⟨"v", false, .neq "W" (some "lf%lf") none⟩ "W" (some "lf%lf")).toList =
        "Parameter '".toList ++ '%' :: 's' :: ("' which is a struct of type 'W' has field 'v' with value '".toList ++ '%' ::
          "lf%lf', was expecting '%lf%lf'".toList) := by decide +kernel
    rw [e]
    refine prints_bad _ _ _ (by decide +kernel) (by decide +kernel) ?_
    intro k r' x hk hs
    have e2 : Printf.conversion "lf%lf', was expecting '%lf%lf'".toList = some (.real false, "%lf', was expecting '%lf%lf'".toList) := by decide +kernel
    rw [e2] at hk
    cases hk
    cases ha with
    | num _ _ _ hp => cases hp
    | wide => cases hs

/-- `struct G { enum E e; };`, where the values of the enumeration are `long` (C++: `enum E : long { … };`). -/
def longUnit : Decls :=
  { unitOf [{ kw := .struct, tag := "G", fields := [⟨"enum E ".toList, .mk false false (.enum 0), "e", none⟩] }] with enums := fun _ => { tag := "E", values := [] } }

/-- C97 does not hold for enumerations whose type is `long`: they are printed with `%d`. -/
theorem C97_refuted_enum : ∃ t k owner format, Parsed longUnit [qRec 0] [t] ∧ HasCheck t " struct" k ∧ k.field = "e" ∧ k.action = .neq owner format none ∧
    ∀ (R : Type) (real : Bool → R → List Char) (under : Nat → Bool × Rank) (p : String) (idx : Nat) (v w : Scalar R) (a b : Arg R),
      (under 0).2 = .long → Passes under (.enum 0) v a → Passes under (.enum 0) w b →
      ¬ ∃ out, Prints real (formatText " struct" k owner format).toList (formatArgs k p.toList idx a b) out := by
  refine ⟨.comp false .struct "G" (.field "enum E" (.enum false "E" []) "e" (-1) .nil) false false .nil,
    ⟨"e", false, .neq "G" (some "d") none⟩, _, _, parsed_by 3 (by decide +kernel), ?_, rfl, rfl, ?_⟩
  · intro key
    exact ⟨_, List.mem_cons_self, rfl, List.mem_cons_self⟩
  · intro R real under p idx v w a b hu ha hb
    have e : (formatText " struct" ⟨"e", false, .neq "G" (some "d") none⟩ "G" (some "d")).toList =
        "Parameter '".toList ++ '%' :: 's' :: ("' which is a struct of type 'G' has field 'e' with value '".toList ++ '%' ::
          "d', was expecting '%d'".toList) := by decide +kernel
    rw [e]
    refine prints_bad _ _ _ (by decide +kernel) (by decide +kernel) ?_
    intro k r' x hk hs
    have e2 : Printf.conversion "d', was expecting '%d'".toList = some (.num true .int, "', was expecting '%d'".toList) := by decide +kernel
    rw [e2] at hk
    cases hk
    cases ha with
    | enum h =>
      rw [h] at hu
      cases hu
      cases hs with
      | num h => exact absurd h.1 (by decide)

/-- `struct R { int &r; };` -/
def refUnit : Decls := unitOf [{ kw := .struct, tag := "R", fields := [⟨"int &".toList, .mk false false (.ref qInt), "r", none⟩] }]

/-- C97 does not hold for members which are references: the generator does not expect them (GEN:1883-1887) and, where its
    assertions are not compiled in, leaves the conversion empty; whatever is passed, printing is undefined. -/
theorem C97_refuted_reference : ∃ t k owner format, Parsed refUnit [qRec 0] [t] ∧ HasCheck t " struct" k ∧ k.field = "r" ∧ k.action = .neq owner format none ∧
    ∀ (R : Type) (real : Bool → R → List Char) (p : String) (idx : Nat) (a b : Arg R),
      ¬ ∃ out, Prints real (formatText " struct" k owner format).toList (formatArgs k p.toList idx a b) out := by
  refine ⟨.comp false .struct "R" (.field "int" (.ref false (.ctype .int false false)) "r" (-1) .nil) false false .nil,
    ⟨"r", false, .neq "R" none none⟩, _, _, parsed_by 3 (by decide +kernel), ?_, rfl, rfl, ?_⟩
  · intro key
    exact ⟨_, List.mem_cons_self, rfl, List.mem_cons_self⟩
  · intro R real p idx a b
    have e : (formatText " struct" ⟨"r", false, .neq "R" none none⟩ "R" none).toList =
        "Parameter '".toList ++ '%' :: 's' :: ("' which is a struct of type 'R' has field 'r' with value '".toList ++ '%' ::
          "', was expecting '%'".toList) := by decide +kernel
    rw [e]
    refine prints_bad _ _ _ (by decide +kernel) (by decide +kernel) ?_
    intro k r' x hk hs
    have e2 : Printf.conversion "', was expecting '%'".toList = none := by decide +kernel
    rw [e2] at hk
    cases hk

/-- `struct H { char x[3000000000]; };` -/
def hugeUnit : Decls := unitOf [{ kw := .struct, tag := "H", fields := [⟨"char x[3000000000".toList, .mk false false (.arr (some 3000000000) (.mk false false (.builtin .charS))), "x", none⟩] }]

/-- C97 does not hold for elements behind the first 2147483648: their index, an `unsigned int`, is printed with `%d`. -/
theorem C97_refuted_index : ∃ t k owner format, Parsed hugeUnit [qRec 0] [t] ∧ HasCheck t " struct" k ∧ k.field = "x" ∧ k.action = .neq owner format none ∧
    ∀ (R : Type) (real : Bool → R → List Char) (p : String) (idx : Nat) (a b : Arg R), 2 ^ 31 ≤ idx →
      ¬ ∃ out, Prints real (formatText " struct" k owner format).toList (formatArgs k p.toList idx a b) out := by
  refine ⟨.comp false .struct "H" (.field "char" (.ctype .char true false) "x" 3000000000 .nil) false false .nil,
    ⟨"x", true, .neq "H" (some "c") none⟩, _, _, parsed_by 3 (by decide +kernel), ?_, rfl, rfl, ?_⟩
  · intro key
    exact ⟨_, List.mem_cons_self, rfl, List.mem_cons_self⟩
  · intro R real p idx a b hidx
    have e : (formatText " struct" ⟨"x", true, .neq "H" (some "c") none⟩ "H" (some "c")).toList =
        "Parameter '".toList ++ '%' :: 's' :: ("' which is a struct of type 'H' has field array 'x[idx]' at idx == ".toList ++ '%' ::
          "d with value '%c', was expecting '%c'".toList) := by decide +kernel
    rw [e]
    refine prints_bad _ _ _ (by decide +kernel) (by decide +kernel) ?_
    intro k r' x hk hs
    have e2 : Printf.conversion "d with value '%c', was expecting '%c'".toList = some (.num true .int, " with value '%c', was expecting '%c'".toList) := by
      decide +kernel
    rw [e2] at hk
    cases hk
    cases hs with
    | num h =>
      rcases h.2 with h | h
      · cases h
      · have := h.2
        simp only [Rank.bits] at this
        omega

/-- `struct C { char c; };` -/
def charUnit : Decls := unitOf [{ kw := .struct, tag := "C", fields := [⟨"char ".toList, .mk false false (.builtin .charS), "c", none⟩] }]

/-- The message is printed, but not always seen: when the value of a character is zero, or when the name of the parameter is long,
    the test sees the same text whatever value it expects. -/
theorem C97_refuted_seen : ∃ t k owner format, Parsed charUnit [qRec 0] [t] ∧ HasCheck t " struct" k ∧ k.field = "c" ∧ k.action = .neq owner format none ∧
    ∀ (R : Type) (real : Bool → R → List Char), ∃ out : String → Int → Int → List Char,
      (∀ p n m, -128 ≤ n → n < 128 → -128 ≤ m → m < 128 →
        Prints real (formatText " struct" k owner format).toList (formatArgs k p.toList 0 (.num true .int n) (.num true .int m)) (out p n m)) ∧
      (∀ m m', seen 256 (out "p" 0 m) = seen 256 (out "p" 0 m')) ∧
      ∀ n m n' m', seen 256 (out (String.ofList (List.replicate 250 'p')) n m) = seen 256 (out (String.ofList (List.replicate 250 'p')) n' m') := by
  refine ⟨.comp false .struct "C" (.field "char" (.ctype .char true false) "c" (-1) .nil) false false .nil,
    ⟨"c", false, .neq "C" (some "c") none⟩, _, _, parsed_by 3 (by decide +kernel), ?_, rfl, rfl, ?_⟩
  · intro key
    exact ⟨_, List.mem_cons_self, rfl, List.mem_cons_self⟩
  · intro R real
    have text : ∀ p (n m : Int), ∃ rest : List Char, (message (fun _ s => s) " struct" "C" (some "c")
        ⟨p, "c", none, String.ofList [Char.ofNat (n % 256).toNat], String.ofList [Char.ofNat (m % 256).toNat]⟩).toList =
        ("Parameter '" ++ p ++ "' which is a struct of type 'C' has field 'c' with value '").toList ++ Char.ofNat (n % 256).toNat :: rest := by
      intro p n m
      refine ⟨("', was expecting '" ++ String.ofList [Char.ofNat (m % 256).toNat] ++ "'").toList, ?_⟩
      have l : "' which is a struct of type 'C' has field 'c' with value '".toList =
        "' which is a".toList ++ (" struct".toList ++ (" of type '".toList ++ ("C".toList ++ ("' has field '".toList ++ ("c".toList ++ "' with value '".toList))))) := by
        decide +kernel
      simp only [message, String.toList_append, String.toList_ofList, List.append_assoc, l, List.cons_append, List.nil_append]
    refine ⟨fun p n m => (message (fun _ s => s) " struct" "C" (some "c")
        ⟨p, "c", none, String.ofList [Char.ofNat (n % 256).toNat], String.ofList [Char.ofNat (m % 256).toNat]⟩).toList, ?_, ?_, ?_⟩
    · intro p n m h1 h2 h3 h4
      exact prints_message (c := ⟨"c", false, .neq "C" (some "c") none⟩) (F := "c") (k := .char) (fun r => rfl) (.char ⟨rfl, Or.inl rfl⟩) (.char ⟨rfl, Or.inl rfl⟩)
        (by unfold Free; decide +kernel) (by unfold Free; decide +kernel) (by unfold Free; decide +kernel) (idx := 0) (by decide)
    · have cut : ∀ (l r : List Char), l.length < 255 → '\x00' ∉ l → seen 256 (l ++ Char.ofNat ((0 : Int) % 256).toNat :: r) = l := by
        intro l r h h0
        unfold seen
        rw [List.take_append, List.take_of_length_le (by omega)]
        obtain ⟨k, hk⟩ : ∃ k, 256 - 1 - l.length = k + 1 := ⟨254 - l.length, by omega⟩
        rw [hk, List.take_succ_cons, List.takeWhile_append]
        have : l.takeWhile (· != '\x00') = l := by
          have h1 := C97_seen (by omega) h0
          unfold seen at h1
          rwa [List.take_of_length_le (by omega)] at h1
        rw [this, if_pos rfl, List.takeWhile_cons]
        simp
      intro m m'
      obtain ⟨r, hr⟩ := text "p" 0 m
      obtain ⟨r', hr'⟩ := text "p" 0 m'
      simp only [hr, hr']
      rw [cut _ _ (by decide +kernel) (by decide +kernel), cut _ _ (by decide +kernel) (by decide +kernel)]
    · intro n m n' m'
      obtain ⟨r, hr⟩ := text (String.ofList (List.replicate 250 'p')) n m
      obtain ⟨r', hr'⟩ := text (String.ofList (List.replicate 250 'p')) n' m'
      simp only [hr, hr']
      unfold seen
      rw [List.take_append_of_le_length (by decide +kernel), List.take_append_of_le_length (by decide +kernel)]

end EasyMock.StructCmp
