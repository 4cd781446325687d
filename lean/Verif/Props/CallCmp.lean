import Verif.Props.ProgCmp
import Verif.Props.Framework3
import Verif.StructCmp.CallModel

/-! # C96: calls with objects of records as parameters -/

namespace EasyMock.StructCmp

open EasyMock.Types
open EasyMock.Spec (loaded exps calls)
open EasyMock.Parser (CTy Q Decls Parsed Used Unambiguous NamedCycles ValueOrder qInt)

/-- The object to which a parameter with the bytes `b` leads: it consists of these bytes if the object is passed by value, and
    of the bytes in the memory `m` from the address on which `b` stands for (little endian) if a pointer is passed. -/
def objectOf {S : Type} (L : Layout S) : Passed → Nat → Mem → EasyMock.Val → Val S
  | .value, id, _, b => L id fun i => if h : i < b.length then some b[i] else none
  | .pointer, id, m, b => L id fun i => m (b.foldr (fun x a => x.toNat + 256 * a) 0 + i)

theorem object?_eq {S : Type} (L : Layout S) (how : Passed) (id : Nat) (m : Mem) (b : EasyMock.Val) : object? L how id m b = objectOf L how id m b := by
  cases how with
  | value =>
    rw [object?, objectOf]
    congr 1
    funext i
    split
    · next h => exact List.getElem?_eq_getElem h
    · next h => exact List.getElem?_eq_none (by omega)
  | pointer =>
    have h : Matcher.loadU b = b.foldr (fun x a => x.toNat + 256 * a) 0 := by
      induction b with
      | nil => rfl
      | cons x b ih => rw [Matcher.loadU, List.foldr_cons, ih]
    rw [object?, objectOf, h]

/-- The parameters `i` of an expectation and of a call lead to equal objects of the record `id`, in the memory `m`. -/
def SameObjects {S : Type} (D : Decls) (neq : S → S → Bool) (L : Layout S) (m : Mem) (e : Exp) (c : Call) (i : Nat) (how : Passed) (id : Nat) :
    Prop :=
  ∀ x v, e.params[i]? = some x → c.args[i]? = some v → SameC D neq (.record id) (objectOf L how id m v) (objectOf L how id m x.value)

/-- The name of the comparator of a record. -/
def cmpName (D : Decls) (id : Nat) : String := (D.records id).kw.str ++ "_" ++ (D.records id).tag

/-- The matchers of an expectation at the places where `kinds` says so are the generated comparators with the names `name`.  At the
    other places there is any matcher, or none (the parameter is ignored). -/
def Matched {S : Type} (name : Nat → String) (prog : List Comparator) (neq : S → S → Bool) (shown : Option String → S → String) (depth : Nat) (L : Layout S)
    (e : Exp) (kinds : List (Option (Passed × Nat))) : Prop :=
  ∀ (i : Nat) how id, kinds[i]? = some (some (how, id)) → ∀ x, e.params[i]? = some x →
    x.matcher = some (cmpMatcher prog neq shown depth L how id (name id))

/-- The matcher which is no generated comparator, if there is one, accepts the parameter `i`. -/
def Accepted (fc : FnCfg) (m : Mem) (e : Exp) (c : Call) (i : Nat) : Prop :=
  ∀ pn x v mt, fc.paramNames[i]? = some pn → e.params[i]? = some x → c.args[i]? = some v → x.matcher = some mt → mt m v x.value pn = none

/-- Where a parameter is compared, the expectation and the call lead to objects of its record (not to unmapped memory). -/
def Objects {S : Type} (D : Decls) (L : Layout S) (m : Mem) (e : Exp) (c : Call) (kinds : List (Option (Passed × Nat))) : Prop :=
  ∀ (i : Nat) how id, kinds[i]? = some (some (how, id)) → ∀ x v, e.params[i]? = some x → c.args[i]? = some v →
    FitsC D (.record id) (objectOf L how id m v) ∧ FitsC D (.record id) (objectOf L how id m x.value)

/-- Comparators of finitely many records decide within the same depth. -/
theorem decides_all {D : Decls} {name : Nat → String} {prog : List Comparator} {S : Type} (neq : S → S → Bool) :
    ∀ ids : List Nat, (∀ id ∈ ids, Decides D id prog (name id)) → ∃ k, ∀ depth, k ≤ depth → ∀ id ∈ ids, ∀ (v w : Val S) (p : String),
      FitsC D (.record id) v → FitsC D (.record id) w →
      (run prog neq depth (name id) v w p = .equal ↔ SameC D neq (.record id) v w) ∧
      (¬ SameC D neq (.record id) v w → ∃ a o f r, run prog neq depth (name id) v w p = .diff a o f r) ∧
      ∀ a o f r, run prog neq depth (name id) v w p = .diff a o f r → ∃ path : Path, r.param = showPath p path ∧
        v.follow (path ++ [(r.field, r.idx)]) = some (.scalar r.cur) ∧ w.follow (path ++ [(r.field, r.idx)]) = some (.scalar r.exp) ∧
        neq r.cur r.exp = true
  | [], _ => ⟨0, fun _ _ _ h => by simp at h⟩
  | id :: ids, h => by
    obtain ⟨k1, h1⟩ := h id List.mem_cons_self S neq
    obtain ⟨k2, h2⟩ := decides_all neq ids (fun i hi => h i (List.mem_cons_of_mem _ hi))
    refine ⟨k1 + k2, fun depth hd i hi => ?_⟩
    rcases List.mem_cons.1 hi with rfl | hi
    · exact h1 depth (by omega)
    · exact h2 depth (by omega) i hi

/-- The program of a mocked header and its comparators, see `C95_plain_partial`. -/
structure Program (D : Decls) (roots : List Q) (ts : List Ty) (env : Env) : Prop where
  unambiguous : Unambiguous D (Used D roots)
  cycles : NamedCycles D (Used D roots)
  order : ValueOrder D
  matrix : NoMatrix D
  parsed : Parsed D roots ts
  requested : "EasyMock_all_comparators" ∈ env.comparators
  keys : ∀ u t, isComposable u = true → env.key u = env.key t → isComposable t = true
  plain : ∀ t ∈ ts, Plain (rawType t) ∧ NoCompositeTypedef t
  tags : ∀ t ∈ ts, ∀ t' ∈ ts, ∀ u ∈ parts (rawType t), ∀ u' ∈ parts (rawType t'), tagName env u = tagName env u' → u = u'

/-- A parameter is, or leads to, an object of the record `id`. -/
def Led (D : Decls) (roots : List Q) (ts : List Ty) (id : Nat) : Prop :=
  (D.records id).tag ≠ "" ∧ ∃ (j : Nat) (q : Q) (t : Ty), roots[j]? = some q ∧ ts[j]? = some t ∧ Behind q.ty.canon id ∧ isComposable (rawType t) = true

/-- What C96 says about the calls of a mock with the comparators `name` of the program `prog` for the records `ids`: when a call is
    served by an expectation with these matchers, and any others for the other parameters, then it is without argument errors
    exactly if every parameter with a comparator leads to equal objects, as the mocked header declares them, in the memory at
    the time of the call, and the other matchers accept.  Every argument error carries the message of a comparator about a
    member of the parameter, with its two different values, or the message of one of the other matchers. -/
def CallsCompared (D : Decls) (prog : List Comparator) (name : Nat → String) (ids : List Nat) : Prop :=
  ∀ (S : Type) (neq : S → S → Bool) (shown : Option String → S → String) (L : Layout S),
    ∃ k, ∀ depth, k ≤ depth → ∀ (cfg : Cfg) (m0 : Mem) (past : List Op) (s : State), runRev cfg m0 past = .ok s → past.length + 1 < 2 ^ 32 →
      ∀ (f : FnId) (fc : FnCfg), cfg.fn? f = some fc → loaded f.file past = true →
      ∀ (e : Exp) (kinds : List (Option (Passed × Nat))), (exps f past)[calls f past]? = some e →
      Matched name prog neq shown depth L e kinds → (∀ (i : Nat) how id, kinds[i]? = some (some (how, id)) → id ∈ ids) →
      ∀ (c : Call), e.params.length = fc.paramNames.length → c.args.length = fc.paramNames.length → Objects D L s.mem e c kinds →
      ∀ (s' : State) (o : EasyMock.Out), step cfg s (.call f c) = .ok (s', o) →
      ((∀ x ∈ s'.errs.drop s.errs.length, ∀ k n m, x.kind ≠ .mismatch k n m) ↔
        (∀ (i : Nat) how id, kinds[i]? = some (some (how, id)) → SameObjects D neq L s.mem e c i how id) ∧
        ∀ i, (∀ k, kinds[i]? ≠ some (some k)) → Accepted fc s.mem e c i) ∧
      ∀ x ∈ s'.errs.drop s.errs.length, ∀ k n msg, x.kind = .mismatch k n msg → k = calls f past + 1 ∧ n = fc.name ∧
        ∃ (i : Nat) (pn : String) (pe : ParamExp) (v : EasyMock.Val),
          fc.paramNames[i]? = some pn ∧ e.params[i]? = some pe ∧ c.args[i]? = some v ∧
          ((∃ (how : Passed) (id : Nat) (a : String) (ow : String) (fm : Option String) (r : Report S) (path : Path),
            kinds[i]? = some (some (how, id)) ∧ msg = message shown a ow fm r ∧ r.param = showPath pn path ∧
            (objectOf L how id s.mem v).follow (path ++ [(r.field, r.idx)]) = some (.scalar r.cur) ∧
            (objectOf L how id s.mem pe.value).follow (path ++ [(r.field, r.idx)]) = some (.scalar r.exp) ∧ neq r.cur r.exp = true) ∨
          ((∀ k, kinds[i]? ≠ some (some k)) ∧ ∃ mt, pe.matcher = some mt ∧ mt s.mem v pe.value pn = some msg))

/-- Comparators which decide make calls compare objects. -/
theorem calls_compared {D : Decls} {prog : List Comparator} {name : Nat → String} {ids : List Nat}
    (hd : ∀ id ∈ ids, Decides D id prog (name id)) : CallsCompared D prog name ids := by
  intro S neq shown L
  obtain ⟨k, hk⟩ := decides_all neq ids hd
  refine ⟨k, ?_⟩
  intro depth hdepth cfg m0 past s hr hlen f fc hf hld e kinds hs hm hin c h1 h2 hobj s' o hst
  have hcmp := hk depth hdepth
  -- what it does
  have rej : ∀ (i : Nat) how id, kinds[i]? = some (some (how, id)) → ∀ pn pe v, fc.paramNames[i]? = some pn → e.params[i]? = some pe →
      c.args[i]? = some v → rejection fc s.mem e c i =
        cmpMatcher prog neq shown depth L how id (name id) s.mem v pe.value pn := by
    intro i how id hki pn pe v e1 e2 e3
    simp only [rejection, e1, e2, e3, hm i how id hki pe e2]
  have three : ∀ i, i < fc.paramNames.length → ∃ pn pe v, fc.paramNames[i]? = some pn ∧ e.params[i]? = some pe ∧ c.args[i]? = some v :=
    fun i hi => ⟨fc.paramNames[i], e.params[i]'(by omega), c.args[i]'(by omega), List.getElem?_eq_getElem _, List.getElem?_eq_getElem _, List.getElem?_eq_getElem _⟩
  constructor
  · rw [C09_no_rejection hr hlen hf hld hs h1 h2 hst]
    constructor
    · intro h
      refine ⟨?_, fun i _ pn x v mt e1 e2 e3 hmt => by
        have hrej := h i (List.getElem?_eq_some_iff.1 e1).1
        simpa only [rejection, e1, e2, e3, hmt] using hrej⟩
      intro i how id hki x v e2 e3
      have hi : i < fc.paramNames.length := by
        have := (List.getElem?_eq_some_iff.1 e2).1
        omega
      obtain ⟨pn, -, -, e1, -, -⟩ := three i hi
      have hrej := h i hi
      rw [rej i how id hki pn x v e1 e2 e3] at hrej
      obtain ⟨o1, o2⟩ := hobj i how id hki x v e2 e3
      obtain ⟨d1, d2, -⟩ := hcmp id (hin i how id hki) _ _ pn o1 o2
      rw [cmpMatcher, object?_eq, object?_eq] at hrej
      refine d1.1 ?_
      revert hrej
      cases run prog neq depth (name id) (objectOf L how id s.mem v) (objectOf L how id s.mem x.value) pn <;>
        first | (intro _; rfl) | (intro h; cases h)
    · intro h i hi
      obtain ⟨pn, pe, v, e1, e2, e3⟩ := three i hi
      by_cases hk' : ∀ k, kinds[i]? ≠ some (some k)
      · cases hmt : pe.matcher with
        | none => simp only [rejection, e1, e2, e3, hmt]
        | some mt =>
          simp only [rejection, e1, e2, e3, hmt]
          exact h.2 i hk' pn pe v mt e1 e2 e3 hmt
      · obtain ⟨⟨how, id⟩, hkd⟩ : ∃ k, kinds[i]? = some (some k) := Classical.byContradiction fun h => hk' fun k hk => h ⟨k, hk⟩
        rw [rej i how id hkd pn pe v e1 e2 e3, cmpMatcher, object?_eq, object?_eq]
        obtain ⟨o1, o2⟩ := hobj i how id hkd pe v e2 e3
        obtain ⟨d1, -, -⟩ := hcmp id (hin i how id hkd) _ _ pn o1 o2
        rw [d1.2 (h.1 i how id hkd pe v e2 e3)]
  · intro x hx k' n msg hkind
    obtain ⟨pre, post, he, hpp, -, -⟩ := C09_all_rejections_reported hr hlen hf hld hs h1 h2 hst
    rw [he, List.append_assoc, List.append_assoc, List.drop_left] at hx
    simp only [List.mem_append, List.mem_map, List.mem_filterMap, List.mem_range] at hx
    have hx : ∃ a, (∃ i, i < fc.paramNames.length ∧ rejection fc s.mem e c i = some a) ∧
        ({ kind := .mismatch (calls f past + 1) fc.name a, bt := if cfg.backtrace = true ∧ s.print = true then some c.bt else none } : Err) = x := by
      rcases hx with hx | hx | hx
      · exact absurd hkind (hpp x (by simp [hx]) k' n msg)
      · exact hx
      · exact absurd hkind (hpp x (by simp [hx]) k' n msg)
    obtain ⟨a, ⟨i, hi, hrej⟩, rfl⟩ := hx
    injection hkind with hk1 hk2 hk3
    subst hk1; subst hk2; subst hk3
    refine ⟨rfl, rfl, ?_⟩
    obtain ⟨pn, pe, v, e1, e2, e3⟩ := three i hi
    refine ⟨i, pn, pe, v, e1, e2, e3, ?_⟩
    by_cases hk' : ∀ k, kinds[i]? ≠ some (some k)
    · cases hmt : pe.matcher with
      | none => simp only [rejection, e1, e2, e3, hmt] at hrej; cases hrej
      | some mt =>
        simp only [rejection, e1, e2, e3, hmt] at hrej
        exact .inr ⟨hk', mt, rfl, hrej⟩
    · obtain ⟨⟨how, id⟩, hkd⟩ : ∃ k, kinds[i]? = some (some k) := Classical.byContradiction fun h => hk' fun k hk => h ⟨k, hk⟩
      rw [rej i how id hkd pn pe v e1 e2 e3, cmpMatcher, object?_eq, object?_eq] at hrej
      obtain ⟨o1, o2⟩ := hobj i how id hkd pe v e2 e3
      obtain ⟨d1, d2, d3⟩ := hcmp id (hin i how id hkd) _ _ pn o1 o2
      by_cases hsame : SameC D neq (.record id) (objectOf L how id s.mem v) (objectOf L how id s.mem pe.value)
      · rw [d1.2 hsame] at hrej; cases hrej
      · obtain ⟨ar, ow, fm, r, hrun⟩ := d2 hsame
        rw [hrun] at hrej
        injection hrej with hrej
        obtain ⟨path, p1, p2, p3, p4⟩ := d3 ar ow fm r hrun
        exact .inl ⟨how, id, ar, ow, fm, r, path, hkd, hrej.symm, p1, p2, p3, p4⟩

/-- C96: when a call of a mock is served by an expectation with generated comparators and other matchers, then the call is without
    argument errors exactly if every parameter with a comparator leads to equal objects, as the mocked header declares them, in
    the memory at the time of the call, and the other matchers accept.  Every argument error carries the message of a
    comparator about a member of the parameter, with its two different values, or the message of another matcher.

    Missing: the programs which C95 leaves out, and messages of more than 255 characters (see C97). -/
theorem C96_calls_partial {D : Decls} {roots : List Q} {ts : List Ty} {env : Env} (hP : Program D roots ts env) (ids : List Nat)
    (hids : ∀ id ∈ ids, Led D roots ts id) : CallsCompared D (program env (ts.map .param)) (cmpName D) ids := by
  apply calls_compared
  intro id hid
  obtain ⟨hne, j, q, t, hq, ht, hb, hc⟩ := hids id hid
  exact C95_plain_partial hP.unambiguous hP.cycles hP.order hP.matrix hP.parsed hP.requested hP.keys hP.plain hP.tags hq ht hb hc hne

/-! ## Example -/

namespace CallEx

/-- Types with members have other hashes than types without. -/
def env : Env := { key := fun t => if isComposable t then 1 else 0, comparators := ["EasyMock_all_comparators"] }

theorem prog : Program cmpUnit cmpRoots [.ptr false (.const false cmpB), cmpU] env where
  unambiguous := cmp_unambiguous
  cycles := cmp_named
  order := cmp_order
  matrix := cmp_matrix
  parsed := cmp_parsed
  requested := by simp [env]
  keys := by
    intro u t hu h
    simp only [env, hu, if_true] at h
    cases ht : isComposable t with
    | true => rfl
    | false => rw [ht] at h; simp at h
  plain := cmp_plain
  tags := cmp_tags env

/-- Three `int`, of which the lowest bytes are looked at. -/
def layout : Layout Nat := fun _ b =>
  .comp fun f => if f = "x" then some (.arr 3 fun i => .scalar (((b (4 * i)).getD 0).toNat)) else none

theorem fits (b : Nat → Option UInt8) : FitsC cmpUnit (.record 0) (layout 0 b) :=
  .record (.named rfl (fun h => h) (by decide) rfl (.array fun _ _ => .scalar trivial) .nil)

/-- `void f(const struct B *p, char c)`. -/
def fc : FnCfg := { name := "void f(const struct B *p, char c)", shortName := "f", paramNames := ["p", "c"] }

/-- The object at 100 is expected; the call has the one at 200, which differs in `x[1]`. -/
def mem : Mem := fun a => some (if a = 204 then 9 else 7)

def exp (depth : Nat) : Exp :=
  { params := [⟨[100], some (cmpMatcher (program env ([.ptr false (.const false cmpB), cmpU].map .param)) (fun a b : Nat => a != b)
      (fun _ n => toString n) depth layout .pointer 0 "struct_B")⟩, ⟨[65], some fun _ a b p => if a = b then none else some (p ++ " differs")⟩] }

/-- C96 for this call: its hypotheses hold, and the call is reported. -/
example : ∃ k, ∀ depth, k ≤ depth → ∃ s s' o, runRev { files := [[fc]] } mem [.expect ⟨0, 0⟩ (exp depth) true, .load 0] = .ok s ∧
    step { files := [[fc]] } s (.call ⟨0, 0⟩ { args := [[200], [65]] }) = .ok (s', o) ∧
    (∃ x ∈ s'.errs.drop s.errs.length, ∃ k n m, x.kind = .mismatch k n m) := by
  obtain ⟨k, hk⟩ := C96_calls_partial prog [0] (by
    intro id hid
    rw [List.mem_singleton] at hid
    subst hid
    exact ⟨by decide, 0, _, _, rfl, rfl, .ptr .record, rfl⟩) Nat (fun a b => a != b) (fun _ n => toString n) layout
  refine ⟨k, fun depth hd => ?_⟩
  obtain ⟨s, hs⟩ : ∃ s, runRev { files := [[fc]] } mem [.expect ⟨0, 0⟩ (exp depth) true, .load 0] = .ok s := ⟨_, rfl⟩
  have hmem : s.mem = mem := by
    have h2 : runRev { files := [[fc]] } mem [.expect ⟨0, 0⟩ (exp depth) true, .load 0] = .ok _ := rfl
    rw [h2] at hs
    injection hs with hs
    rw [← hs]
    rfl
  have hc := step_call_served (cfg := { files := [[fc]] }) (f := ⟨0, 0⟩) (fc := fc) (e := exp depth) hs (by simp) rfl rfl rfl
    { args := [[200], [65]] }
  obtain ⟨s', o, hst⟩ : ∃ s' o, step { files := [[fc]] } s (.call ⟨0, 0⟩ { args := [[200], [65]] }) = .ok (s', o) := by
    split at hc
    · rename_i h
      split at h
      · cases h
      · cases h
    · obtain ⟨s', h, -⟩ := hc
      exact ⟨s', _, h⟩
  refine ⟨s, s', o, hs, hst, ?_⟩
  have h := (hk depth hd { files := [[fc]] } mem _ s hs (by simp) ⟨0, 0⟩ fc rfl rfl (exp depth) [some (.pointer, 0), none] rfl
    (by
      intro i how id h x hx
      match i with
      | 0 =>
        injection h with h; injection h with h; injection h with h1 h2
        subst h1; subst h2
        injection hx with hx
        subst hx
        rfl
      | 1 => cases h
      | i + 2 => cases h)
    (by
      intro i how id h
      match i with
      | 0 => injection h with h; injection h with h; injection h with h1 h2; rw [← h2]; simp
      | 1 => cases h
      | i + 2 => cases h)
    { args := [[200], [65]] } rfl rfl
    (by
      intro i how id h x v _ _
      match i with
      | 0 =>
        injection h with h; injection h with h; injection h with h1 h2
        subst h1; subst h2
        rw [objectOf, objectOf]
        exact ⟨fits _, fits _⟩
      | 1 => cases h
      | i + 2 => cases h) s' o hst).1
  apply Classical.byContradiction
  intro hno
  have hsame := (h.1 (fun x hx k n m e => hno ⟨x, hx, k, n, m, e⟩)).1 0 .pointer 0 rfl _ _ rfl rfl
  rw [hmem] at hsame
  generalize hv : objectOf layout .pointer 0 mem _ = v at hsame
  generalize hw : objectOf layout .pointer 0 mem (ParamExp.value _) = w at hsame
  cases hsame with
  | scalar h => exact h.elim
  | record hms =>
    cases hms with
    | empty _ h => exact h.elim
    | named _ _ _ h1 h2 h3 _ =>
      injection hv with hv; injection hw with hw
      subst hv; subst hw
      injection h1 with h1; injection h2 with h2
      subst h1; subst h2
      cases h3 with
      | array h3 =>
        have h9 : SameC cmpUnit (fun a b : Nat => a != b) qInt.ty.canon (.scalar 9) (.scalar 7) := h3 1 (by decide)
        cases h9 with
        | scalar _ hne => exact absurd hne (by decide)
    | anonymous _ h => exact absurd h (by decide)
    | bit h => cases h
    | pad h => cases h

end CallEx

end EasyMock.StructCmp
