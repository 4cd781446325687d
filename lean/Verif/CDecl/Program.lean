import Verif.CDecl.Clang
import Verif.CDecl.Proto
import Verif.Parser.TypesRoot
import Verif.Parser.Function

/-! # CDecl: the types the parser makes are read like the types of the program -/

namespace EasyMock.CDecl

open EasyMock.Types (Ty Params CT Kw)
open EasyMock.Parser (CTy Q Qs Decls Builtin Den DenT DenPs Wraps NoInc NoIncs)

/-- The type is no typedef. -/
def NoTdef : CTy → Prop
  | .tdef .. => False
  | _ => True

theorem canon_noTdef : ∀ (c : CTy), NoTdef c.canon
  | .tdef _ (.mk _ _ t) => canon_noTdef t
  | .builtin _ | .ptr _ | .ref _ | .arr _ _ | .record _ | .enum _ | .fn .. => trivial

theorem canon_eq {c : CTy} (h : NoTdef c) : c.canon = c ∧ c.outer = "" := by
  cases c with
  | tdef n q => exact h.elim
  | _ => exact ⟨rfl, rfl⟩

theorem canon_size : ∀ (c : CTy), sizeOf c.canon ≤ sizeOf c
  | .tdef _ (.mk _ _ t) => by
    have := canon_size t
    show sizeOf t.canon ≤ _
    simp only [CTy.tdef.sizeOf_spec, Q.mk.sizeOf_spec]
    omega
  | .builtin _ | .ptr _ | .ref _ | .arr _ _ | .record _ | .enum _ | .fn .. => Nat.le_refl _

theorem canon_fn : ∀ (c : CTy), CFn c ↔ CFn c.canon
  | .tdef _ (.mk _ _ t) => canon_fn t
  | .builtin _ | .ptr _ | .ref _ | .arr _ _ | .record _ | .enum _ | .fn .. => Iff.rfl

theorem fn_of_cfn : ∀ (c : CTy), CFn c → ∃ r ps v, c.canon = .fn r ps v
  | .tdef _ (.mk _ _ t), h => fn_of_cfn t h
  | .fn r ps v, _ => ⟨r, ps, v, rfl⟩

theorem canon_plain {D : Decls} {b : Bool} : ∀ (c : CTy), CFn c → Plain D b c → Plain D b c.canon
  | .tdef _ (.mk _ _ t), hf, h => by
    unfold Plain at h
    exact canon_plain t hf (h.2.2.1 hf)
  | .fn .., _, h => h

theorem canon_spell {D : Decls} : ∀ (c : CTy), CFn c → spell D c.canon = spell D c
  | .tdef n (.mk _ _ t), hf => by
    have hf' : CFn t := hf
    show spell D t.canon = _
    rw [canon_spell t hf']
    conv => rhs; unfold spell
    rw [if_pos hf']
  | .fn .., _ => rfl

theorem canon_arr : ∀ (c : CTy), CArr c ↔ CArr c.canon
  | .tdef _ (.mk _ _ t) => canon_arr t
  | .builtin _ | .ptr _ | .ref _ | .arr _ _ | .record _ | .enum _ | .fn .. => Iff.rfl

theorem canon_noFn : ∀ (c : CTy), CNoFn c ↔ CNoFn c.canon
  | .tdef _ (.mk _ _ t) => by
    show CNoFn t ↔ CNoFn t.canon
    exact canon_noFn t
  | .builtin _ | .ptr _ | .ref _ | .arr _ _ | .record _ | .enum _ | .fn .. => Iff.rfl

theorem outer_tdef {n : String} {k v : Bool} {t : CTy} (h : Word n) : (CTy.tdef n (.mk k v t)).outer = n := by
  simp [CTy.outer, h.1]

theorem Wraps.noFn {name : String} {core t : Ty} (h : Wraps name core t) (hc : NoFn core) : NoFn t := by
  rcases h with ⟨-, rfl⟩ | ⟨-, rfl⟩
  · exact hc
  · exact hc

mutual
/-- No function is made of a type without functions. -/
theorem den_noFn {D : Decls} {s v : Bool} {q : Q} {t : Ty} (h : Den D s v q t) (hn : CNoFn q.ty) : NoFn t := by
  match h with
  | .plain (c := c) h => exact denT_noFn h ((canon_noFn c).1 hn)
  | .const (c := c) (t := u) h =>
    have h1 : NoFn u := denT_noFn h ((canon_noFn c).1 hn)
    exact h1

theorem denT_noFn {D : Decls} {s v : Bool} {name : String} {c : CTy} {t : Ty} (h : DenT D s v name c t) (hn : CNoFn c) :
    NoFn t := by
  match h with
  | .builtin _ hw => exact Wraps.noFn hw trivial
  | .ptr (q := .mk _ _ c) (u := u) h hw =>
    have hc : CNoFn c := hn
    have h1 : NoFn u := den_noFn h hc
    exact Wraps.noFn hw h1
  | .ref (q := .mk _ _ c) (u := u) h hw =>
    have hc : CNoFn c := hn
    have h1 : NoFn u := den_noFn h hc
    exact Wraps.noFn hw h1
  | .arr (q := .mk _ _ c) h =>
    have hc : CNoFn c := hn
    exact den_noFn h hc
  | .enum hw => exact Wraps.noFn hw trivial
  | .fn _ _ => exact hn.elim
  | .record _ hw _ => exact Wraps.noFn hw trivial
  | .tag _ _ => trivial
end

theorem Wraps.bare {core t : Ty} (h : Wraps "" core t) : t = core := by
  rcases h with ⟨-, rfl⟩ | ⟨h, -⟩
  · rfl
  · exact absurd rfl h

theorem scalar_words {b : Bool} {k : Builtin} {c : CT} (h : Parser.scalar b k c) (hp : PlainBuiltin b k) : words c = builtinWords k := by
  cases k <;> simp only [Parser.scalar] at h <;> first
    | (subst h; rfl)
    | exact hp.elim
    | (rw [show b = _ from hp] at h; simp at h; subst h; rfl)

theorem denT_isFn {D : Decls} {s v : Bool} {name : String} {c : CTy} {t : Ty} (h : DenT D s v name c t) (hc : ¬ CFn c)
    (ha : ¬ CArr c) : ¬ IsFn t := by
  have hw : ∀ core, Wraps name core t → ¬ IsFn core → ¬ IsFn t := by
    rintro core (⟨-, rfl⟩ | ⟨-, rfl⟩) h
    · exact h
    · exact id
  match h with
  | .builtin _ w => exact hw _ w id
  | .ptr _ w => exact hw _ w id
  | .ref _ w => exact hw _ w id
  | .arr h => exact absurd trivial ha
  | .enum w => exact hw _ w id
  | .fn _ _ => exact absurd trivial hc
  | .record _ w _ => exact hw _ w id
  | .tag _ _ => exact id

/-- A type with a name of its own is known by that. -/
theorem denT_named {D : Decls} {s v : Bool} {name : String} {c : CTy} {t : Ty} (h : DenT D s v name c t) (hc : ¬ CFn c)
    (ha : ¬ CArr c) (hi : NoInc t) (hn : name ≠ "") : ∃ u, t = .tdef false name u := by
  have hw : ∀ core, Wraps name core t → ∃ u, t = .tdef false name u := by
    rintro core (⟨h, -⟩ | ⟨-, rfl⟩)
    · exact absurd h hn
    · exact ⟨_, rfl⟩
  match h with
  | .builtin _ w => exact hw _ w
  | .ptr _ w => exact hw _ w
  | .ref _ w => exact hw _ w
  | .arr h => exact absurd trivial ha
  | .enum w => exact hw _ w
  | .fn _ _ => exact absurd trivial hc
  | .record _ w _ => exact hw _ w
  | .tag _ _ => exact hi.elim

mutual
theorem den_spell {D : Decls} {s : Bool} : ∀ (q : Q) (v b : Bool) (t : Ty), Den D s v q t → NoInc t → PlainQ D b q →
    Spellable b t ∧ semOf t = spellQ D q
  | .mk k vol c, v, b, t, h, hi, hp => by
    unfold PlainQ at hp
    obtain ⟨rfl, hp, hk⟩ := hp
    -- the type below the qualifier
    have key : ∀ u, DenT D s v c.outer c.canon u → NoInc u → Spellable b u ∧ semOf u = spell D c ∧ (¬ CFn c → ¬ IsFn u) := by
      intro u hu hi
      by_cases hf : CFn c
      · obtain ⟨r, ps, w, e⟩ := fn_of_cfn c hf
        have h0 : DenT D s v "" c.canon u := by
          rw [e] at hu ⊢
          match hu with
          | .fn h1 h2 => exact .fn h1 h2
        obtain ⟨h1, h2⟩ := denT_spell c.canon v b u h0 hi (canon_plain c hf hp) (canon_noTdef c)
        exact ⟨h1, by rw [h2, canon_spell c hf], fun h => absurd hf h⟩
      · by_cases ht : NoTdef c
        · rw [(canon_eq ht).1, (canon_eq ht).2] at hu
          obtain ⟨h1, h2⟩ := denT_spell c v b u hu hi hp ht
          refine ⟨h1, h2, fun _ => denT_isFn hu hf ?_⟩
          intro ha
          cases c with
          | arr n q => unfold Plain at hp; exact hp
          | tdef n q => exact ht
          | _ => exact ha
        · match c, ht with
          | .tdef n (.mk k' v' c'), ht =>
            unfold Plain at hp
            rw [outer_tdef hp.1] at hu
            have hf' : ¬ CFn c' := hf
            have hcf : ¬ CFn (CTy.tdef n (.mk k' v' c')).canon := fun h => hf ((canon_fn _).2 h)
            have hca : ¬ CArr (CTy.tdef n (.mk k' v' c')).canon := fun h => hp.2.1 ((canon_arr c').2 h)
            obtain ⟨w, rfl⟩ := denT_named hu hcf hca hi hp.1.1
            refine ⟨⟨hp.1, ?_⟩, ?_, fun _ => id⟩
            · intro hb
              have := denT_noFn hu ((canon_noFn c').1 (hp.2.2.2 hf' hb))
              exact this
            · show _ = spell D (.tdef n (.mk k' v' c'))
              unfold spell semOf
              rw [if_neg hf']
          | .builtin _, ht | .ptr _, ht | .ref _, ht | .arr _ _, ht | .record _, ht | .enum _, ht | .fn .., ht => exact absurd trivial ht
    match h with
    | .plain h =>
      obtain ⟨h1, h2, -⟩ := key _ h hi
      exact ⟨h1, by simp [spellQ, h2]⟩
    | .const (t := u) h =>
      obtain ⟨h1, h2, h3⟩ := key u h hi
      exact ⟨⟨h1, h3 (hk rfl)⟩, by simp [spellQ, semOf, h2]⟩
termination_by q => sizeOf q
decreasing_by
  all_goals
    have := canon_size c
    simp only [Q.mk.sizeOf_spec]
    omega

theorem denT_spell {D : Decls} {s : Bool} : ∀ (c : CTy) (v b : Bool) (t : Ty), DenT D s v "" c t → NoInc t → Plain D b c →
    NoTdef c → Spellable b t ∧ semOf t = spell D c
  | .builtin k, v, b, t, h, hi, hp, _ => by
    match h with
    | .builtin hs w =>
      obtain rfl := Wraps.bare w
      exact ⟨trivial, by unfold semOf spell; rw [scalar_words hs (by unfold Plain at hp; exact hp)]⟩
  | .ptr q, v, b, t, h, hi, hp, _ => by
    match h with
    | .ptr (u := u) h' w =>
      obtain rfl := Wraps.bare w
      unfold Plain at hp
      obtain ⟨h1, h2⟩ := den_spell q false true u h' hi hp
      exact ⟨h1, by unfold semOf spell; rw [h2]⟩
  | .ref (.mk k vol c), v, b, t, h, hi, hp, _ => by
    match h with
    | .ref (u := u) h' w =>
      obtain rfl := Wraps.bare w
      unfold Plain at hp
      obtain ⟨h1, h2⟩ := den_spell (.mk k vol c) false true u h' hi hp.1
      exact ⟨⟨h1, fun hb => den_noFn h' (hp.2 hb)⟩, by unfold semOf spell; rw [h2]⟩
  | .arr _ _, v, b, t, h, hi, hp, _ => by
    unfold Plain at hp
    exact hp.elim
  | .record id, v, b, t, h, hi, hp, _ => by
    unfold Plain at hp
    match h with
    | .record _ w _ =>
      obtain rfl := Wraps.bare w
      exact ⟨hp, rfl⟩
    | .tag _ _ => exact hi.elim
  | .enum id, v, b, t, h, hi, hp, _ => by
    unfold Plain at hp
    match h with
    | .enum w =>
      obtain rfl := Wraps.bare w
      exact ⟨hp, rfl⟩
  | .fn r ps w, v, b, t, h, hi, hp, _ => by
    unfold Plain at hp
    obtain ⟨hb, rfl, hr, hps⟩ := hp
    match h with
    | .fn (r := u) (ts := ts) h1 h2 =>
      obtain ⟨h3, h4⟩ := den_spell r false false u h1 hi.1 hr
      obtain ⟨h5, h6⟩ := denPs_spell ps ts h2 hi.2 hps
      exact ⟨⟨hb, rfl, h3, h5⟩, by unfold semOf spell; rw [h4, h6]⟩
  | .tdef .., v, b, t, h, hi, hp, ht => ht.elim
termination_by c => sizeOf c

theorem denPs_spell {D : Decls} {s : Bool} : ∀ (qs : Qs) (ts : Params), DenPs D s qs ts → NoIncs ts → PlainQs D qs →
    Spellables ts ∧ semsOf ts = spellQs D qs
  | .nil, ts, h, hi, hp => by
    match h with
    | .nil => exact ⟨trivial, rfl⟩
  | .cons q qs, ts, h, hi, hp => by
    unfold PlainQs at hp
    match h with
    | .cons (t := t) (ts := ts) h1 h2 =>
      obtain ⟨h3, h4⟩ := den_spell q false false t h1 hi.1 hp.1
      obtain ⟨h5, h6⟩ := denPs_spell qs ts h2 hi.2 hp.2
      exact ⟨⟨Or.inr rfl, h3, Or.inl rfl, h5⟩, by unfold semsOf spellQs; rw [h4, h6]⟩
termination_by qs => sizeOf qs
end

end EasyMock.CDecl
