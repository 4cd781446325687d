import Verif.CDecl.Program

/-! # CDecl: the types of members are read like the types of the program

Inside a record the parser describes the records around it by their tags only; a type which mentions them is read like the type
of the program if it mentions them by their tags. -/

namespace EasyMock.CDecl

open EasyMock.Types (Ty Params CT Kw)
open EasyMock.Parser (CTy Q Qs Decls Builtin Den DenT DenPs Wraps)

/-- A record, or a typedef of one. -/
def CRec : CTy → Prop
  | .record _ => True
  | .tdef _ (.mk _ _ t) => CRec t
  | _ => False

mutual
/-- No typedef of a record is mentioned. -/
def ByTag : CTy → Prop
  | .builtin _ | .record _ | .enum _ => True
  | .ptr q | .ref q | .arr _ q => ByTagQ q
  | .fn r ps _ => ByTagQ r ∧ ByTagQs ps
  | .tdef _ (.mk _ _ t) => ByTag t ∧ ¬ CRec t

/-- The same for a qualified type. -/
def ByTagQ : Q → Prop
  | .mk _ _ t => ByTag t

/-- The same for parameters. -/
def ByTagQs : Qs → Prop
  | .nil => True
  | .cons q qs => ByTagQ q ∧ ByTagQs qs
end

theorem canon_rec : ∀ (c : CTy), CRec c ↔ CRec c.canon
  | .tdef _ (.mk _ _ t) => canon_rec t
  | .builtin _ | .ptr _ | .ref _ | .arr _ _ | .record _ | .enum _ | .fn .. => Iff.rfl

theorem canon_byTag : ∀ (c : CTy), ByTag c → ByTag c.canon
  | .tdef _ (.mk _ _ t), h => by
    unfold ByTag at h
    exact canon_byTag t h.1
  | .builtin _, h | .ptr _, h | .ref _, h | .arr _ _, h | .record _, h | .enum _, h | .fn .., h => h

/-- A type with a name of its own is known by that. -/
theorem denT_tag_named {D : Decls} {s v : Bool} {name : String} {c : CTy} {t : Ty} (h : DenT D s v name c t) (hc : ¬ CFn c)
    (ha : ¬ CArr c) (hi : ¬ CRec c) (hn : name ≠ "") : ∃ u, t = .tdef false name u := by
  have hw : ∀ core, Wraps name core t → ∃ u, t = .tdef false name u := by
    rintro core (⟨h, -⟩ | ⟨-, rfl⟩)
    · exact absurd h hn
    · exact ⟨_, rfl⟩
  match h with
  | .builtin _ w => exact hw _ w
  | .ptr _ w => exact hw _ w
  | .ref _ w => exact hw _ w
  | .arr h => exact absurd trivial ha
  | .enum w => exact hw _ w
  | .fn _ _ => exact absurd trivial hc
  | .record _ w _ => exact hw _ w
  | .tag _ _ => exact absurd trivial hi

mutual
/-- The reading of a type. -/
theorem den_tag_spell {D : Decls} {s : Bool} : ∀ (q : Q) (v b : Bool) (t : Ty), Den D s v q t → ByTagQ q → PlainQ D b q →
    Spellable b t ∧ semOf t = spellQ D q
  | .mk k vol c, v, b, t, h, hi, hp => by
    unfold PlainQ at hp
    unfold ByTagQ at hi
    obtain ⟨rfl, hp, hk⟩ := hp
    -- the type below the qualifier
    have key : ∀ u, DenT D s v c.outer c.canon u → Spellable b u ∧ semOf u = spell D c ∧ (¬ CFn c → ¬ IsFn u) := by
      intro u hu
      by_cases hf : CFn c
      · obtain ⟨r, ps, w, e⟩ := fn_of_cfn c hf
        have h0 : DenT D s v "" c.canon u := by
          rw [e] at hu ⊢
          match hu with
          | .fn h1 h2 => exact .fn h1 h2
        obtain ⟨h1, h2⟩ := denT_tag_spell c.canon v b u h0 (canon_byTag c hi) (canon_plain c hf hp) (canon_noTdef c)
        exact ⟨h1, by rw [h2, canon_spell c hf], fun h => absurd hf h⟩
      · by_cases ht : NoTdef c
        · rw [(canon_eq ht).1, (canon_eq ht).2] at hu
          obtain ⟨h1, h2⟩ := denT_tag_spell c v b u hu hi hp ht
          refine ⟨h1, h2, fun _ => denT_isFn hu hf ?_⟩
          intro ha
          cases c with
          | arr n q => unfold Plain at hp; exact hp
          | tdef n q => exact ht
          | _ => exact ha
        · match c, ht with
          | .tdef n (.mk k' v' c'), ht =>
            unfold Plain at hp
            rw [outer_tdef hp.1] at hu
            have hf' : ¬ CFn c' := hf
            have hcf : ¬ CFn (CTy.tdef n (.mk k' v' c')).canon := fun h => hf ((canon_fn _).2 h)
            have hca : ¬ CArr (CTy.tdef n (.mk k' v' c')).canon := fun h => hp.2.1 ((canon_arr c').2 h)
            have hcr : ¬ CRec (CTy.tdef n (.mk k' v' c')).canon := by
              unfold ByTag at hi
              exact fun h => hi.2 ((canon_rec c').2 h)
            obtain ⟨w, rfl⟩ := denT_tag_named hu hcf hca hcr hp.1.1
            refine ⟨⟨hp.1, ?_⟩, ?_, fun _ => id⟩
            · intro hb
              have := denT_noFn hu ((canon_noFn c').1 (hp.2.2.2 hf' hb))
              exact this
            · show _ = spell D (.tdef n (.mk k' v' c'))
              unfold spell semOf
              rw [if_neg hf']
          | .builtin _, ht | .ptr _, ht | .ref _, ht | .arr _ _, ht | .record _, ht | .enum _, ht | .fn .., ht => exact absurd trivial ht
    match h with
    | .plain h =>
      obtain ⟨h1, h2, -⟩ := key _ h
      exact ⟨h1, by simp [spellQ, h2]⟩
    | .const (t := u) h =>
      obtain ⟨h1, h2, h3⟩ := key u h
      exact ⟨⟨h1, h3 (hk rfl)⟩, by simp [spellQ, semOf, h2]⟩
termination_by q => sizeOf q
decreasing_by
  all_goals
    have := canon_size c
    simp only [Q.mk.sizeOf_spec]
    omega

theorem denT_tag_spell {D : Decls} {s : Bool} : ∀ (c : CTy) (v b : Bool) (t : Ty), DenT D s v "" c t → ByTag c → Plain D b c →
    NoTdef c → Spellable b t ∧ semOf t = spell D c
  | .builtin k, v, b, t, h, hi, hp, _ => by
    match h with
    | .builtin hs w =>
      obtain rfl := Wraps.bare w
      exact ⟨trivial, by unfold semOf spell; rw [scalar_words hs (by unfold Plain at hp; exact hp)]⟩
  | .ptr q, v, b, t, h, hi, hp, _ => by
    match h with
    | .ptr (u := u) h' w =>
      obtain rfl := Wraps.bare w
      unfold Plain at hp
      unfold ByTag at hi
      obtain ⟨h1, h2⟩ := den_tag_spell q false true u h' hi hp
      exact ⟨h1, by unfold semOf spell; rw [h2]⟩
  | .ref (.mk k vol c), v, b, t, h, hi, hp, _ => by
    match h with
    | .ref (u := u) h' w =>
      obtain rfl := Wraps.bare w
      unfold Plain at hp
      unfold ByTag at hi
      obtain ⟨h1, h2⟩ := den_tag_spell (.mk k vol c) false true u h' hi hp.1
      exact ⟨⟨h1, fun hb => den_noFn h' (hp.2 hb)⟩, by unfold semOf spell; rw [h2]⟩
  | .arr _ _, v, b, t, h, hi, hp, _ => by
    unfold Plain at hp
    exact hp.elim
  | .record id, v, b, t, h, hi, hp, _ => by
    unfold Plain at hp
    match h with
    | .record _ w _ =>
      obtain rfl := Wraps.bare w
      exact ⟨hp, rfl⟩
    | .tag _ _ => exact ⟨hp, rfl⟩
  | .enum id, v, b, t, h, hi, hp, _ => by
    unfold Plain at hp
    match h with
    | .enum w =>
      obtain rfl := Wraps.bare w
      exact ⟨hp, rfl⟩
  | .fn r ps w, v, b, t, h, hi, hp, _ => by
    unfold Plain at hp
    obtain ⟨hb, rfl, hr, hps⟩ := hp
    unfold ByTag at hi
    match h with
    | .fn (r := u) (ts := ts) h1 h2 =>
      obtain ⟨h3, h4⟩ := den_tag_spell r false false u h1 hi.1 hr
      obtain ⟨h5, h6⟩ := denPs_tag_spell ps ts h2 hi.2 hps
      exact ⟨⟨hb, rfl, h3, h5⟩, by unfold semOf spell; rw [h4, h6]⟩
  | .tdef .., v, b, t, h, hi, hp, ht => ht.elim
termination_by c => sizeOf c

theorem denPs_tag_spell {D : Decls} {s : Bool} : ∀ (qs : Qs) (ts : Params), DenPs D s qs ts → ByTagQs qs → PlainQs D qs →
    Spellables ts ∧ semsOf ts = spellQs D qs
  | .nil, ts, h, hi, hp => by
    match h with
    | .nil => exact ⟨trivial, rfl⟩
  | .cons q qs, ts, h, hi, hp => by
    unfold PlainQs at hp
    unfold ByTagQs at hi
    match h with
    | .cons (t := t) (ts := ts) h1 h2 =>
      obtain ⟨h3, h4⟩ := den_tag_spell q false false t h1 hi.1 hp.1
      obtain ⟨h5, h6⟩ := denPs_tag_spell qs ts h2 hi.2 hp.2
      exact ⟨⟨Or.inr rfl, h3, Or.inl rfl, h5⟩, by unfold semsOf spellQs; rw [h4, h6]⟩
termination_by qs => sizeOf qs
end

end EasyMock.CDecl
