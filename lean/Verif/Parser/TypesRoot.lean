import Verif.Parser.TypesSound

/-! # Parser: outside records, records are described with their members -/

namespace EasyMock.Parser

open EasyMock.Types (Ty Fields Params Methods Kw CT CTypeObj)

mutual
/-- No forward reference outside the members of records. -/
def NoInc : Ty → Prop
  | .ctype .. | .enum .. | .comp .. => True
  | .ptr _ t | .ref _ t | .const _ t | .tdef _ _ t => NoInc t
  | .incomplete .. => False
  | .fn _ _ _ r ps => NoInc r ∧ NoIncs ps

/-- The same for parameters. -/
def NoIncs : Params → Prop
  | .nil => True
  | .cons _ t _ rest => NoInc t ∧ NoIncs rest
end

/-- The cache holds no forward references. -/
def CacheNI (c : Cache) : Prop := ∀ k t, find k c = some t → NoInc t

theorem NoInc.named {name : String} {t : Ty} (h : NoInc t) : NoInc (named name t) := by
  unfold Parser.named
  split
  · exact h
  · exact h

/-- What is proved of the conversion of records. -/
def HNI (h : Handler) : Prop :=
  ∀ known emb td id c t c', CacheNI c → h known emb td id c = .ok (t, c') → CacheNI c' ∧ (known = [] → NoInc t)

mutual
theorem parseT_ni {D : Decls} {h : Handler} (hh : HNI h) (known : Known) :
    ∀ (ty : CTy) (emb const : Bool) (name : String) (c : Cache) (t : Ty) (c' : Cache), CacheNI c →
      parseT D h known emb const name ty c = .ok (t, c') → CacheNI c' ∧ (known = [] → NoInc t)
  | .builtin b, emb, const, name, c, t, c', hc, e => by
    rw [parseT] at e
    split at e
    · cases e
    · rename_i t' hb
      obtain ⟨ct, naked, rfl, -⟩ := builtin_scalar hb
      simp only [Except.ok.injEq, Prod.mk.injEq] at e
      obtain ⟨rfl, rfl⟩ := e
      exact ⟨hc, fun _ => NoInc.named trivial⟩
  | .ptr q, emb, const, name, c, t, c', hc, e => by
    rw [parseT] at e
    split at e
    · cases e
    · rename_i t' c1 hq
      simp only [Except.ok.injEq, Prod.mk.injEq] at e
      obtain ⟨rfl, rfl⟩ := e
      obtain ⟨h1, h2⟩ := parseQ_ni hh known q emb c t' c1 hc hq
      exact ⟨h1, fun hk => NoInc.named (t := .ptr false t') (h2 hk)⟩
  | .ref q, emb, const, name, c, t, c', hc, e => by
    rw [parseT] at e
    split at e
    · cases e
    · rename_i t' c1 hq
      simp only [Except.ok.injEq, Prod.mk.injEq] at e
      obtain ⟨rfl, rfl⟩ := e
      obtain ⟨h1, h2⟩ := parseQ_ni hh known q emb c t' c1 hc hq
      exact ⟨h1, fun hk => NoInc.named (t := .ref false t') (h2 hk)⟩
  | .arr n q, emb, const, name, c, t, c', hc, e => by
    rw [parseT] at e
    exact parseQ_ni hh known q emb c t c' hc e
  | .record id, emb, const, name, c, t, c', hc, e => by
    rw [parseT] at e
    exact hh known emb name id c t c' hc e
  | .enum id, emb, const, name, c, t, c', hc, e => by
    rw [parseT] at e
    simp only [Except.ok.injEq, Prod.mk.injEq] at e
    obtain ⟨rfl, rfl⟩ := e
    exact ⟨hc, fun _ => NoInc.named trivial⟩
  | .fn ret ps b, emb, const, name, c, t, c', hc, e => by
    rw [parseT] at e
    split at e
    · cases e
    · rename_i r c1 hr
      split at e
      · cases e
      · rename_i ts c2 hp
        simp only [Except.ok.injEq, Prod.mk.injEq] at e
        obtain ⟨rfl, rfl⟩ := e
        obtain ⟨h1, h2⟩ := parseQ_ni hh known ret false c r c1 hc hr
        obtain ⟨h3, h4⟩ := parseQs_ni hh known ps c1 ts c2 h1 hp
        exact ⟨h3, fun hk => ⟨h2 hk, h4 hk⟩⟩
  | .tdef n (.mk k vol ty), emb, const, name, c, t, c', hc, e => by
    rw [parseT] at e
    exact parseT_ni hh known ty emb (const || k) _ c t c' hc e

theorem parseQ_ni {D : Decls} {h : Handler} (hh : HNI h) (known : Known) :
    ∀ (q : Q) (emb : Bool) (c : Cache) (t : Ty) (c' : Cache), CacheNI c →
      parseQ D h known emb q c = .ok (t, c') → CacheNI c' ∧ (known = [] → NoInc t)
  | .mk k vol ty, emb, c, t, c', hc, e => by
    rw [parseQ] at e
    split at e
    · cases e
    · rename_i t' c1 ht
      simp only [Except.ok.injEq, Prod.mk.injEq] at e
      obtain ⟨rfl, rfl⟩ := e
      obtain ⟨h1, h2⟩ := parseT_ni hh known ty emb k "" c t' c1 hc ht
      refine ⟨h1, fun hk => ?_⟩
      cases k with
      | false => exact h2 hk
      | true => exact h2 hk

theorem parseQs_ni {D : Decls} {h : Handler} (hh : HNI h) (known : Known) :
    ∀ (qs : Qs) (c : Cache) (ts : Params) (c' : Cache), CacheNI c →
      parseQs D h known qs c = .ok (ts, c') → CacheNI c' ∧ (known = [] → NoIncs ts)
  | .nil, c, ts, c', hc, e => by
    rw [parseQs] at e
    simp only [Except.ok.injEq, Prod.mk.injEq] at e
    obtain ⟨rfl, rfl⟩ := e
    exact ⟨hc, fun _ => trivial⟩
  | .cons q qs, c, ts, c', hc, e => by
    rw [parseQs] at e
    split at e
    · cases e
    · rename_i r c1 hr
      split at e
      · cases e
      · rename_i ts' c2 hp
        simp only [Except.ok.injEq, Prod.mk.injEq] at e
        obtain ⟨rfl, rfl⟩ := e
        obtain ⟨h1, h2⟩ := parseQ_ni hh known q false c r c1 hc hr
        obtain ⟨h3, h4⟩ := parseQs_ni hh known qs c1 ts' c2 h1 hp
        exact ⟨h3, fun hk => ⟨h2 hk, h4 hk⟩⟩
end

theorem parseFields_ni {D : Decls} {h : Handler} (hh : HNI h) (known : Known) :
    ∀ (fs : List FieldD) (c : Cache) (r : Fields) (c' : Cache), CacheNI c →
      parseFields D h known fs c = .ok (r, c') → CacheNI c'
  | [], c, r, c', hc, e => by
    rw [parseFields] at e
    simp only [Except.ok.injEq, Prod.mk.injEq] at e
    obtain ⟨-, rfl⟩ := e
    exact hc
  | f :: fs, c, r, c', hc, e => by
    rw [parseFields] at e
    split at e
    · cases e
    · rename_i t c1 ht
      have h1 := (parseQ_ni hh known f.q _ c t c1 hc ht).1
      split at e
      · split at e
        · split at e
          · cases e
          · rename_i r' c2 hr
            simp only [Except.ok.injEq, Prod.mk.injEq] at e
            obtain ⟨-, rfl⟩ := e
            exact parseFields_ni hh known fs c1 r' _ h1 hr
        · cases e
      · split at e
        · cases e
        · rename_i r' c2 hr
          simp only [Except.ok.injEq, Prod.mk.injEq] at e
          obtain ⟨-, rfl⟩ := e
          exact parseFields_ni hh known fs c1 r' _ h1 hr

theorem parseRecord_ni {D : Decls} : ∀ (fuel : Nat), HNI (parseRecord D fuel)
  | 0 => by
    intro known emb td id c t c' hc e
    rw [parseRecord] at e
    cases e
  | fuel + 1 => by
    intro known emb td id c t c' hc e
    rw [parseRecord] at e
    simp only at e
    split at e
    · rename_i t1 h1
      simp only [Except.ok.injEq, Prod.mk.injEq] at e
      obtain ⟨rfl, rfl⟩ := e
      exact ⟨hc, by rintro rfl; cases h1⟩
    · split at e
      · rename_i t1 h1
        simp only [Except.ok.injEq, Prod.mk.injEq] at e
        obtain ⟨rfl, rfl⟩ := e
        exact ⟨hc, by rintro rfl; cases h1⟩
      · split at e
        · rename_i t1 h1
          simp only [Except.ok.injEq, Prod.mk.injEq] at e
          obtain ⟨rfl, rfl⟩ := e
          refine ⟨hc, fun _ => ?_⟩
          split at h1
          · cases h1
          · exact hc _ _ h1
        · split at e
          · cases e
          · rename_i fs c1 hfs
            simp only [Except.ok.injEq, Prod.mk.injEq] at e
            obtain ⟨rfl, rfl⟩ := e
            have h1 : CacheNI c1 := by
              split at hfs
              · simp only [Except.ok.injEq, Prod.mk.injEq] at hfs
                obtain ⟨-, rfl⟩ := hfs
                exact hc
              · exact parseFields_ni (parseRecord_ni fuel) _ _ _ _ _ hc hfs
            refine ⟨?_, fun _ => NoInc.named trivial⟩
            split
            · exact h1
            · intro k u hf
              rcases find_insert hf with hf | ⟨rfl, rfl⟩
              · exact h1 k u hf
              · exact NoInc.named trivial

end EasyMock.Parser
