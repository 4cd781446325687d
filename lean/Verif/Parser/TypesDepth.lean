import Verif.Parser.Types

/-! # Parser: the bound on the depth of the model does not influence the result -/

namespace EasyMock.Parser

open EasyMock.Types (Ty Fields Params)

variable {D : Decls}

/-- `h'` does what `h` does whenever `h` does not run out of depth. -/
def Extends (h h' : Handler) : Prop :=
  ∀ known emb td id c, h known emb td id c ≠ .error .deep → h' known emb td id c = h known emb td id c

mutual
theorem parseT_mono {h h' : Handler} (hh : Extends h h') (known : Known) : ∀ (ty : CTy) (emb const : Bool) (name : String) (c : Cache),
    parseT D h known emb const name ty c ≠ .error .deep →
    parseT D h' known emb const name ty c = parseT D h known emb const name ty c
  | .builtin b, emb, const, name, c, _ => by rw [parseT, parseT]
  | .ptr q, emb, const, name, c, hn => by
    rw [parseT] at hn ⊢
    rw [parseT]
    rw [parseQ_mono hh known q emb c (fun e => hn (by rw [e]))]
  | .ref q, emb, const, name, c, hn => by
    rw [parseT] at hn ⊢
    rw [parseT]
    rw [parseQ_mono hh known q emb c (fun e => hn (by rw [e]))]
  | .arr n q, emb, const, name, c, hn => by
    rw [parseT] at hn ⊢
    rw [parseT]
    exact parseQ_mono hh known q emb c hn
  | .record id, emb, const, name, c, hn => by
    rw [parseT] at hn ⊢
    rw [parseT]
    exact hh _ _ _ _ _ hn
  | .enum id, emb, const, name, c, _ => by rw [parseT, parseT]
  | .fn ret ps b, emb, const, name, c, hn => by
    rw [parseT] at hn ⊢
    rw [parseT]
    rw [parseQ_mono hh known ret false c (fun e => hn (by rw [e]))]
    cases e1 : parseQ D h known false ret c with
    | error e => rfl
    | ok r =>
      rw [e1] at hn
      simp only at hn ⊢
      rw [parseQs_mono hh known ps r.2 (fun e => hn (by rw [e]))]
  | .tdef n (.mk k vol ty), emb, const, name, c, hn => by
    rw [parseT] at hn ⊢
    rw [parseT]
    exact parseT_mono hh known ty emb _ _ c hn

theorem parseQ_mono {h h' : Handler} (hh : Extends h h') (known : Known) : ∀ (q : Q) (emb : Bool) (c : Cache),
    parseQ D h known emb q c ≠ .error .deep → parseQ D h' known emb q c = parseQ D h known emb q c
  | .mk k vol ty, emb, c, hn => by
    rw [parseQ] at hn ⊢
    rw [parseQ]
    rw [parseT_mono hh known ty emb k "" c (fun e => hn (by rw [e]))]

theorem parseQs_mono {h h' : Handler} (hh : Extends h h') (known : Known) : ∀ (qs : Qs) (c : Cache),
    parseQs D h known qs c ≠ .error .deep → parseQs D h' known qs c = parseQs D h known qs c
  | .nil, c, _ => by rw [parseQs, parseQs]
  | .cons q qs, c, hn => by
    rw [parseQs] at hn ⊢
    rw [parseQs]
    rw [parseQ_mono hh known q false c (fun e => hn (by rw [e]))]
    cases e1 : parseQ D h known false q c with
    | error e => rfl
    | ok r =>
      rw [e1] at hn
      simp only at hn ⊢
      rw [parseQs_mono hh known qs r.2 (fun e => hn (by rw [e]))]
end

theorem parseFields_mono {h h' : Handler} (hh : Extends h h') (known : Known) : ∀ (fs : List FieldD) (c : Cache),
    parseFields D h known fs c ≠ .error .deep → parseFields D h' known fs c = parseFields D h known fs c := by
  intro fs
  induction fs with
  | nil => intro c _; rw [parseFields, parseFields]
  | cons f fs ih =>
    intro c hn
    rw [parseFields] at hn ⊢
    rw [parseFields]
    rw [parseQ_mono hh known f.q true c (fun e => hn (by rw [e]))]
    cases e1 : parseQ D h known true f.q c with
    | error e => rfl
    | ok r =>
      rw [e1] at hn
      simp only at hn ⊢
      cases hw : f.bits with
      | none =>
        rw [hw] at hn
        simp only at hn ⊢
        rw [ih r.2 (fun e => hn (by rw [e]))]
      | some w =>
        rw [hw] at hn
        simp only at hn ⊢
        split
        · rename_i hb
          rw [if_pos hb] at hn
          rw [ih r.2 (fun e => hn (by rw [e]))]
        · rfl

theorem parseRecord_mono : ∀ fuel : Nat, Extends (parseRecord D fuel) (parseRecord D (fuel + 1)) := by
  intro fuel
  induction fuel with
  | zero => intro known emb td id c hn; exact absurd rfl hn
  | succ fuel ih =>
    intro known emb td id c hn
    rw [parseRecord] at hn ⊢
    rw [parseRecord]
    simp only at hn ⊢
    split
    · rfl
    rename_i h1
    rw [h1] at hn
    simp only at hn
    split
    · rfl
    rename_i h2
    rw [h2] at hn
    simp only at hn
    split
    · rfl
    rename_i h3
    rw [h3] at hn
    simp only at hn
    by_cases hi : D.ignored.contains (D.records id).tag = true
    · rw [if_pos hi, if_pos hi]
    · rw [if_neg hi] at hn
      rw [if_neg hi, if_neg hi, parseFields_mono ih _ _ c (fun e => hn (by rw [e]))]

theorem parseAll_step (fuel : Nat) : ∀ (qs : List Q) (c : Cache), parseAll D fuel qs c ≠ .error .deep →
    parseAll D (fuel + 1) qs c = parseAll D fuel qs c := by
  intro qs
  induction qs with
  | nil => intro c _; rfl
  | cons q qs ih =>
    intro c hn
    rw [parseAll] at hn ⊢
    rw [parseAll]
    rw [parseQ_mono (parseRecord_mono fuel) [] q false c (fun e => hn (by rw [e]))]
    cases e1 : parseQ D (parseRecord D fuel) [] false q c with
    | error e => rfl
    | ok r =>
      rw [e1] at hn
      simp only at hn ⊢
      rw [ih r.2 (fun e => hn (by rw [e]))]

/-- A larger bound gives the same result. -/
theorem parseAll_mono {fuel fuel' : Nat} (hf : fuel ≤ fuel') {qs : List Q} {c : Cache} (hn : parseAll D fuel qs c ≠ .error .deep) :
    parseAll D fuel' qs c = parseAll D fuel qs c := by
  obtain ⟨k, rfl⟩ := Nat.exists_eq_add_of_le hf
  clear hf
  induction k with
  | zero => rfl
  | succ k ih =>
    rw [← Nat.add_assoc, parseAll_step (fuel + k) qs c (by rw [ih]; exact hn), ih]

/-- The types of a program as the parser describes them. -/
def Parsed (D : Decls) (roots : List Q) (ts : List Ty) : Prop := ∃ fuel c, parseAll D fuel roots [] = .ok (ts, c)

/-- An assertion of the parser fails. -/
def Stops (D : Decls) (roots : List Q) : Prop := ∃ fuel, parseAll D fuel roots [] = .error .stop

theorem Parsed.unique {roots : List Q} {ts us : List Ty} (h1 : Parsed D roots ts) (h2 : Parsed D roots us) : ts = us := by
  obtain ⟨f1, c1, e1⟩ := h1
  obtain ⟨f2, c2, e2⟩ := h2
  rcases Nat.le_total f1 f2 with h | h
  · have := parseAll_mono h (by rw [e1]; simp : parseAll D f1 roots [] ≠ .error .deep)
    rw [e1, e2] at this
    simp only [Except.ok.injEq, Prod.mk.injEq] at this
    exact this.1.symm
  · have := parseAll_mono h (by rw [e2]; simp : parseAll D f2 roots [] ≠ .error .deep)
    rw [e1, e2] at this
    simp only [Except.ok.injEq, Prod.mk.injEq] at this
    exact this.1

theorem Parsed.not_stops {roots : List Q} {ts : List Ty} (h1 : Parsed D roots ts) : ¬ Stops D roots := by
  rintro ⟨f2, e2⟩
  obtain ⟨f1, c1, e1⟩ := h1
  rcases Nat.le_total f1 f2 with h | h
  · have := parseAll_mono h (by rw [e1]; simp : parseAll D f1 roots [] ≠ .error .deep)
    rw [e1, e2] at this
    cases this
  · have := parseAll_mono h (by rw [e2]; simp : parseAll D f2 roots [] ≠ .error .deep)
    rw [e1, e2] at this
    cases this

end EasyMock.Parser
