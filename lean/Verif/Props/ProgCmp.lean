import Verif.Props.StructCmp
import Verif.Props.ParserTypes
import Verif.StructCmp.ProgLemmas

/-! # C95: comparators compare the objects of the program -/

namespace EasyMock.StructCmp

open EasyMock.Types
open EasyMock.Parser (CTy Q Decls FieldD Den Parsed Used Unambiguous NamedCycles ValueOrder unitOf qRec qPtr qInt C72_partial)

/-- The comparator of the parameter `t`, called `N`, decides for all objects of the record `id` whether they are equal, and
    what it reports is a difference of the two objects. -/
def Decides (D : Decls) (id : Nat) (prog : List Comparator) (N : String) : Prop :=
  ∀ (S : Type) (neq : S → S → Bool), ∃ k, ∀ depth, k ≤ depth → ∀ (v w : Val S) (p : String),
    FitsC D (.record id) v → FitsC D (.record id) w →
    (run prog neq depth N v w p = .equal ↔ SameC D neq (.record id) v w) ∧
    (¬ SameC D neq (.record id) v w → ∃ a o f r, run prog neq depth N v w p = .diff a o f r) ∧
    ∀ a o f r, run prog neq depth N v w p = .diff a o f r → ∃ path : Path, r.param = showPath p path ∧
      v.follow (path ++ [(r.field, r.idx)]) = some (.scalar r.cur) ∧ w.follow (path ++ [(r.field, r.idx)]) = some (.scalar r.exp) ∧
      neq r.cur r.exp = true

/-- The type of a parameter and the record it leads to have the same objects and agree on equality. -/
theorem agree_of {D : Decls} {s v : Bool} {q : Q} {t : Ty} {id : Nat} (hM : NoMatrix D) (hb : Behind q.ty.canon id)
    (hs : s = true) (h : Den D s v q t) (hc : isComposable (rawType t) = true) :
    isImplicit (rawType t) = false ∧ AgreeT D (rawType t) (.record id) := by
  subst hs
  obtain ⟨fs, emb, fwd, e, hf⟩ := q_behind hb h hc
  rw [e]
  exact ⟨by generalize (D.records id).kw = kw; cases kw <;> rfl, agree_record (denFs_agree hM hf (matrix_compared hM))⟩

/-- A comparator which agrees with the list of differences decides. -/
theorem decides_of {D : Decls} {env : Env} {PN : String → Ty → Prop} {full : String → String} (hn : Naming PN full) {steps : List Step}
    (g : GenOK (env := env) (PN := PN) (full := full) {} (genSteps env {} steps).1 (program env steps)) {t : Ty} {id : Nat}
    (hc : isComposable (rawType t) = true) (ha : AgreeT D (rawType t) (.record id)) {N : String} (hN : N ∈ (genSteps env {} steps).1.done)
    (hpN : PN N (rawType t)) (hfull : full N = N) : Decides D id (program env steps) N := by
  intro S neq
  have ⟨hm, ho⟩ := holdsMembers_of_composable hc
  obtain ⟨k, hk⟩ := run_agrees neq (closed_program hn g) (rawType t) hm
  refine ⟨k, ?_⟩
  intro depth hd v w p hv hw
  obtain ⟨fv, fw, hsame⟩ := ha S neq v w hv hw
  have h := hk depth hd N (by rw [ho]; exact hpN) hN v w p fv fw
  rw [hfull] at h
  rw [← hsame, ← diffs_nil_iff neq (rawType t) v w p hm fv fw]
  cases hrun : run (program env steps) neq depth N v w p with
  | equal =>
    rw [hrun] at h
    have h' : diffs neq (rawType t) v w p = [] := h
    simp [h']
  | diff a o f r =>
    rw [hrun] at h
    have h' : (diffs neq (rawType t) v w p).head? = some r := h
    refine ⟨⟨fun h => by simp at h, fun h => by rw [h] at h'; simp at h'⟩, fun _ => ⟨a, o, f, r, rfl⟩, ?_⟩
    intro a' o' f' r' e
    injection e with _ _ _ e
    subst e
    exact diffs_real neq (rawType t) v w p hm fv fw r (List.mem_of_mem_head? h')
  | unlinked => rw [hrun] at h; exact absurd h (by simp [Agrees])
  | confused => rw [hrun] at h; exact absurd h (by simp [Agrees])
  | unfinished => rw [hrun] at h; exact absurd h (by simp [Agrees])

/-- C95, from the mocked header to the verdict: the comparator generated for a parameter which is, or points to, an object of a
    record decides whether two objects of this record, as the header declares it, are equal: all members, unions, arrays,
    bit-fields and unnamed members included, but not the members of the types named by `--ignore-field-generation-of`.

    Missing: arrays of arrays (refuted below), members which are references, and, as for C28, names which belong to two types
    and typedefs which stand for pointers to records; as for C72, records which are part of a record they refer to. -/
theorem C95_exact_partial {D : Decls} {roots : List Q} {ts : List Ty} (hA : Unambiguous D (Used D roots)) (hC : NamedCycles D (Used D roots))
    (hV : ValueOrder D) (hM : NoMatrix D) (hp : Parsed D roots ts)
    {env : Env} {PN : String → Ty → Prop} {full : String → String} (hall : "EasyMock_all_comparators" ∈ env.comparators)
    (hn : Naming PN full) (steps : List Step) (hr : RegularSteps env PN full steps)
    {i : Nat} {q : Q} {t : Ty} (hq : roots[i]? = some q) (ht : ts[i]? = some t) (hst : Step.param t ∈ steps)
    {id : Nat} (hb : Behind q.ty.canon id) (hc : isComposable (rawType t) = true) :
    ∃ N, PN N (rawType t) ∧ full N = N ∧ Decides D id (program env steps) N := by
  obtain ⟨hI, ha⟩ := agree_of hM hb rfl (C72_partial hA hC hV hp i q t hq ht) hc
  have g := genSteps_ok (requested_all hall) steps {} (regOK_nil env PN) (by simp) hr
  obtain ⟨N, hN, hpN, hfull⟩ := g.2 t hst hc hI
  exact ⟨N, hpN, hfull, decides_of hn g.1 hc ha hN hpN hfull⟩

/-- C95 for plain C programs, see C28: the comparator `<keyword>_<tag>` decides. -/
theorem C95_plain_partial {D : Decls} {roots : List Q} {ts : List Ty} (hA : Unambiguous D (Used D roots)) (hC : NamedCycles D (Used D roots))
    (hV : ValueOrder D) (hM : NoMatrix D) (hp : Parsed D roots ts)
    {env : Env} (hall : "EasyMock_all_comparators" ∈ env.comparators)
    (hkey : ∀ u t, isComposable u = true → env.key u = env.key t → isComposable t = true)
    (hplain : ∀ t ∈ ts, Plain (rawType t) ∧ NoCompositeTypedef t)
    (htags : ∀ t ∈ ts, ∀ t' ∈ ts, ∀ u ∈ parts (rawType t), ∀ u' ∈ parts (rawType t'), tagName env u = tagName env u' → u = u')
    {i : Nat} {q : Q} {t : Ty} (hq : roots[i]? = some q) (ht : ts[i]? = some t)
    {id : Nat} (hb : Behind q.ty.canon id) (hc : isComposable (rawType t) = true) (hne : (D.records id).tag ≠ "") :
    Decides D id (program env (ts.map .param)) ((D.records id).kw.str ++ "_" ++ (D.records id).tag) := by
  obtain ⟨N, ⟨-, rfl⟩, -, h⟩ := C95_exact_partial hA hC hV hM hp hall (plain_naming htags) (ts.map .param) (plain_steps hkey hplain) hq ht
    (List.mem_map_of_mem (List.mem_of_getElem? ht)) hb hc
  obtain ⟨fs, emb, fwd, e, -⟩ := q_behind hb (C72_partial hA hC hV hp i q t hq ht) hc
  rw [e, tagName] at h
  rw [show (attrs (Ty.comp false (D.records id).kw (D.records id).tag fs emb fwd .nil)).name = (D.records id).tag by
    generalize (D.records id).kw = kw; cases kw <;> rfl, if_neg hne] at h
  exact h

/-- C95 for a type named by `--ignore-field-generation-of`: its comparator finds any two objects equal. -/
theorem C95_ignored {D : Decls} {id : Nat} {prog : List Comparator} {N : String} (h : Decides D id prog N) (hi : (D.records id).tag ∈ D.ignored)
    (S : Type) (neq : S → S → Bool) : ∃ k, ∀ depth, k ≤ depth → ∀ (g h : String → Option (Val S)) (p : String),
      run prog neq depth N (.comp g) (.comp h) p = .equal := by
  obtain ⟨k, hk⟩ := h S neq
  have e : compared D id = [] := if_pos hi
  exact ⟨k, fun depth hd g h p => (hk depth hd _ _ p (.record (by rw [e]; exact .nil)) (.record (by rw [e]; exact .nil))).1.2 (.record (by rw [e]; exact .nil))⟩

/-! ### Example -/

/-- `struct B { int x[3]; }; union U { struct B b; char *s; struct B a[2]; int : 4; int n : 3; };` -/
def cmpUnit : Decls := unitOf
  [{ kw := .struct, tag := "B", fields := [⟨"int x[3".toList, .mk false false (.arr (some 3) qInt), "x", none⟩] },
   { kw := .union, tag := "U",
     fields := [⟨"struct B ".toList, qRec 0, "b", none⟩, ⟨"char *".toList, qPtr (.mk false false (.builtin .charS)), "s", none⟩,
       ⟨"struct B a[2".toList, .mk false false (.arr (some 2) (qRec 0)), "a", none⟩,
       ⟨"int ".toList, qInt, "", some 4⟩, ⟨"int n ".toList, qInt, "n", some 3⟩] }]

/-- `f(const struct B *, union U)`. -/
def cmpRoots : List Q := [qPtr (.mk true false (.record 0)), qRec 1]

/-- What the parser makes of `struct B`. -/
def cmpB : Ty := .comp false .struct "B" (.field "int" (.ctype .int false false) "x" 3 .nil) false false .nil

/-- What the parser makes of `union U`. -/
def cmpU : Ty := .comp false .union "U" (.field "struct B" cmpB "b" (-1) (.field "char *" (.ptr false (.ctype .char true false)) "s" (-1)
  (.field "struct B" cmpB "a" 2 (.bit "int" (.ctype .int false false) "" 4 (.bit "int" (.ctype .int false false) "n" 3 .nil))))) false false .nil

/-- Parsing within the given depth. -/
theorem parsed_by {D : Decls} {roots : List Q} {ts : List Ty} (n : Nat)
    (h : ((Parser.parseAll D n roots []).toOption.map fun x => decide (x.1 = ts)) = some true) : Parsed D roots ts := by
  cases e : Parser.parseAll D n roots [] with
  | error _ => rw [e] at h; cases h
  | ok x =>
    rw [e] at h
    have h' : some (decide (x.1 = ts)) = some true := h
    injection h' with h'
    exact ⟨n, x.2, by rw [e, ← of_decide_eq_true h']⟩

theorem cmp_parsed : Parsed cmpUnit cmpRoots [.ptr false (.const false cmpB), cmpU] := parsed_by 4 (by decide +kernel)

theorem cmp_fields {id : Nat} {f : FieldD} (h : f ∈ (cmpUnit.records id).fields) : (id = 0 ∧ f.q.uses true = []) ∨ (id = 1 ∧
    (f.q.uses true = [] ∨ f.q.uses true = [(0, "", true)])) := by
  match id with
  | 0 =>
    simp only [cmpUnit, unitOf, List.getD_cons_zero, List.mem_cons, List.not_mem_nil, or_false] at h
    subst h
    exact Or.inl ⟨rfl, rfl⟩
  | 1 =>
    simp only [cmpUnit, unitOf, List.getD_cons_zero, List.getD_cons_succ, List.mem_cons, List.not_mem_nil, or_false] at h
    rcases h with rfl | rfl | rfl | rfl | rfl <;> first | exact Or.inr ⟨rfl, Or.inl rfl⟩ | exact Or.inr ⟨rfl, Or.inr rfl⟩
  | id + 2 => simp [cmpUnit, unitOf] at h

theorem cmp_used {i : Nat} {n : String} (h : Used cmpUnit cmpRoots i n) : (i = 0 ∨ i = 1) ∧ n = "" := by
  rcases h with ⟨q, hq, v, h⟩ | ⟨r, f, hf, v, h⟩
  · simp only [cmpRoots, List.mem_cons, List.not_mem_nil, or_false] at hq
    rcases hq with rfl | rfl <;> simp [qPtr, qRec, Q.uses, CTy.uses] at h <;> simp [h]
  · rcases cmp_fields hf with ⟨-, e⟩ | ⟨-, e | e⟩ <;> rw [e] at h <;> simp at h
    simp [h]

theorem cmp_edge {a b : Nat} (h : Parser.Edge cmpUnit a b) : a = 1 ∧ b = 0 := by
  obtain ⟨f, hf, n, v, h⟩ := h
  rcases cmp_fields hf with ⟨-, e⟩ | ⟨ha, e | e⟩ <;> rw [e] at h <;> simp at h
  exact ⟨ha, h.1⟩

theorem cmp_path {a b : Nat} (h : Parser.Path cmpUnit a b) : a = 1 ∧ b = 0 := by
  induction h with
  | one h => exact cmp_edge h
  | more _ h ih =>
    have := cmp_edge h
    omega

theorem cmp_unambiguous : Unambiguous cmpUnit (Used cmpUnit cmpRoots) := by
  constructor
  · intro i n j m hi hj h _
    rcases (cmp_used hi).1 with rfl | rfl <;> rcases (cmp_used hj).1 with rfl | rfl <;> first | rfl | (revert h; decide)
  · intro i n j m hi hj _ hne
    exact absurd (cmp_used hi).2 hne
  · intro i n j m hi hj _ hne
    exact absurd (cmp_used hi).2 hne
  · intro i n j m hi hj h _
    have e1 := (cmp_used hi).2
    have e2 := (cmp_used hj).2
    subst e1; subst e2
    refine ⟨?_, rfl⟩
    rcases (cmp_used hi).1 with rfl | rfl <;> rcases (cmp_used hj).1 with rfl | rfl <;> first | rfl | (revert h; decide)

theorem cmp_named : NamedCycles cmpUnit (Used cmpUnit cmpRoots) := fun _ _ hi hn _ => absurd (cmp_used hi).2 hn

theorem cmp_order : ValueOrder cmpUnit := by
  rintro a b n ⟨f, hf, h⟩ _
  have := cmp_edge ⟨f, hf, n, true, h⟩
  exact ⟨fun hp => by have := cmp_path hp; omega, by omega⟩

theorem cmp_matrix : NoMatrix cmpUnit := by
  intro id f hf n q m q' e
  match id with
  | 0 =>
    simp only [cmpUnit, unitOf, List.getD_cons_zero, List.mem_cons, List.not_mem_nil, or_false] at hf
    subst hf
    injection e with _ e
    subst e
    exact CTy.noConfusion
  | 1 =>
    simp only [cmpUnit, unitOf, List.getD_cons_zero, List.getD_cons_succ, List.mem_cons, List.not_mem_nil, or_false] at hf
    rcases hf with rfl | rfl | rfl | rfl | rfl
    all_goals first
      | (injection e with _ e; subst e; exact CTy.noConfusion)
      | cases e
  | id + 2 => simp [cmpUnit, unitOf] at hf

theorem cmp_plain : ∀ t ∈ [Ty.ptr false (.const false cmpB), cmpU], Plain (rawType t) ∧ NoCompositeTypedef t := by
  intro t ht
  simp only [List.mem_cons, List.not_mem_nil, or_false] at ht
  rcases ht with rfl | rfl
  · exact ⟨⟨rfl, rfl, trivial, trivial⟩, trivial⟩
  · exact ⟨⟨rfl, rfl, ⟨rfl, rfl, trivial, trivial⟩, trivial, ⟨rfl, rfl, trivial, trivial⟩, trivial, trivial, trivial⟩, trivial⟩

theorem cmp_tags (env : Env) : ∀ t ∈ [Ty.ptr false (.const false cmpB), cmpU], ∀ t' ∈ [Ty.ptr false (.const false cmpB), cmpU],
    ∀ u ∈ parts (rawType t), ∀ u' ∈ parts (rawType t'), tagName env u = tagName env u' → u = u' := by
  have hne : tagName env cmpB ≠ tagName env cmpU := by
    show "struct_B" ≠ "union_U"
    decide
  have two : ∀ t ∈ [Ty.ptr false (.const false cmpB), cmpU], ∀ u ∈ parts (rawType t), u = cmpB ∨ u = cmpU := by
    intro t ht u hu
    simp only [List.mem_cons, List.not_mem_nil, or_false] at ht
    have hB : parts cmpB = [cmpB] := by simp [cmpB, parts, partsFields]
    rcases ht with rfl | rfl
    · have hu : u ∈ parts cmpB := hu
      rw [hB, List.mem_singleton] at hu
      exact Or.inl hu
    · have hu : u ∈ cmpU :: (parts cmpB ++ ([] ++ (parts cmpB ++ []))) := hu
      rw [hB] at hu
      simp only [List.mem_cons, List.mem_append, List.not_mem_nil, or_false, false_or] at hu
      rcases hu with h | h | h
      · exact Or.inr h
      · exact Or.inl h
      · exact Or.inl h
  intro t ht t' ht' u hu u' hu' he
  rcases two t ht u hu with rfl | rfl <;> rcases two t' ht' u' hu' with rfl | rfl
  · rfl
  · exact absurd he hne
  · exact absurd he.symm hne
  · rfl

/-- C95 for the example: both comparators decide. -/
example (env : Env) (hall : "EasyMock_all_comparators" ∈ env.comparators)
    (hkey : ∀ u t, isComposable u = true → env.key u = env.key t → isComposable t = true) :
    Decides cmpUnit 0 (program env ([.ptr false (.const false cmpB), cmpU].map .param)) "struct_B" ∧
    Decides cmpUnit 1 (program env ([.ptr false (.const false cmpB), cmpU].map .param)) "union_U" :=
  ⟨C95_plain_partial cmp_unambiguous cmp_named cmp_order cmp_matrix cmp_parsed hall hkey cmp_plain (cmp_tags env) (i := 0) rfl rfl
      (.ptr .record) rfl (by decide),
    C95_plain_partial cmp_unambiguous cmp_named cmp_order cmp_matrix cmp_parsed hall hkey cmp_plain (cmp_tags env) (i := 1) rfl rfl
      .record rfl (by decide)⟩

/-- C95 for the example with `--ignore-field-generation-of U`: the comparator of `struct B` decides, the one of `union U` finds all
    objects equal. -/
example (env : Env) (hall : "EasyMock_all_comparators" ∈ env.comparators)
    (hkey : ∀ u t, isComposable u = true → env.key u = env.key t → isComposable t = true) :
    let D := { cmpUnit with ignored := ["U"] }
    let ts := [Ty.ptr false (.const false cmpB), .comp false .union "U" .nil false false .nil]
    Decides D 0 (program env (ts.map .param)) "struct_B" ∧ ∀ (S : Type) (neq : S → S → Bool), ∃ k, ∀ depth, k ≤ depth →
      ∀ (g h : String → Option (Val S)) (p : String), run (program env (ts.map .param)) neq depth "union_U" (.comp g) (.comp h) p = .equal := by
  intro D ts
  have hp : Parsed D cmpRoots ts := parsed_by 4 (by decide +kernel)
  have hpl : ∀ t ∈ ts, Plain (rawType t) ∧ NoCompositeTypedef t := by
    intro t ht
    simp only [ts, List.mem_cons, List.not_mem_nil, or_false] at ht
    rcases ht with rfl | rfl
    · exact ⟨⟨rfl, rfl, trivial, trivial⟩, trivial⟩
    · exact ⟨⟨rfl, rfl, trivial⟩, trivial⟩
  have htag : ∀ t ∈ ts, ∀ t' ∈ ts, ∀ u ∈ parts (rawType t), ∀ u' ∈ parts (rawType t'), tagName env u = tagName env u' → u = u' := by
    have hne : "struct_B" ≠ "union_U" := by decide
    have two : ∀ t ∈ ts, ∀ u ∈ parts (rawType t), tagName env u = "struct_B" ∧ u = cmpB ∨
        tagName env u = "union_U" ∧ u = .comp false .union "U" .nil false false .nil := by
      intro t ht u hu
      simp only [ts, List.mem_cons, List.not_mem_nil, or_false] at ht
      rcases ht with rfl | rfl
      · have hu : u ∈ parts cmpB := hu
        rw [show parts cmpB = [cmpB] by simp [cmpB, parts, partsFields], List.mem_singleton] at hu
        subst hu
        exact Or.inl ⟨rfl, rfl⟩
      · have hu : u ∈ [Ty.comp false .union "U" .nil false false .nil] := hu
        rw [List.mem_singleton] at hu
        subst hu
        exact Or.inr ⟨rfl, rfl⟩
    intro t ht t' ht' u hu u' hu' he
    rcases two t ht u hu with ⟨a, rfl⟩ | ⟨a, rfl⟩ <;> rcases two t' ht' u' hu' with ⟨b, rfl⟩ | ⟨b, rfl⟩
    · rfl
    · rw [a, b] at he; exact absurd he hne
    · rw [a, b] at he; exact absurd he.symm hne
    · rfl
  have path : ∀ {a b}, Parser.Path D a b → a = 1 ∧ b = 0 := by
    intro a b h
    induction h with
    | one h => exact cmp_edge h
    | more _ h ih =>
      have := cmp_edge h
      omega
  have hA : Unambiguous D (Used D cmpRoots) := ⟨cmp_unambiguous.tags, cmp_unambiguous.names, cmp_unambiguous.apart, cmp_unambiguous.keys⟩
  have hC : NamedCycles D (Used D cmpRoots) := fun _ _ hi hn _ => absurd (cmp_used hi).2 hn
  have hV : ValueOrder D := by
    rintro a b n ⟨f, hf, h⟩ _
    have := cmp_edge ⟨f, hf, n, true, h⟩
    exact ⟨fun hp => by have := path hp; omega, by omega⟩
  have h := fun {i q t} => @C95_plain_partial D cmpRoots ts hA hC hV cmp_matrix hp env hall hkey hpl htag i q t
  exact ⟨h (i := 0) rfl rfl (.ptr .record) rfl (by decide), C95_ignored (h (i := 1) rfl rfl .record rfl (by decide)) (List.mem_singleton.2 rfl)⟩

/-- An object of `union U`. -/
def cmpValue (x s n : Nat) : Val Nat :=
  .comp fun f => if f = "b" then some (.comp fun g => if g = "x" then some (.arr 3 fun _ => .scalar x) else none)
    else if f = "s" then some (.scalar s)
    else if f = "a" then some (.arr 2 fun _ => .comp fun g => if g = "x" then some (.arr 3 fun _ => .scalar x) else none)
    else if f = "n" then some (.scalar n) else none

/-- There are such objects. -/
example : FitsC cmpUnit (.record 1) (cmpValue 1 2 3) := by
  have hB : FitsC cmpUnit (.record 0) (.comp fun g => if g = "x" then some (.arr 3 fun _ => .scalar 1) else none) :=
    .record (.named rfl (fun h => h) (by decide) rfl (.array fun _ _ => .scalar trivial) .nil)
  exact .record (.named rfl (fun h => h) (by decide) rfl hB (.named rfl (fun h => h) (by decide) rfl (.scalar trivial)
    (.named rfl (fun h => h) (by decide) rfl (.array fun _ _ => hB) (.pad rfl rfl (.bit rfl (by decide) rfl .nil)))))

/-! ### Deviation -/

/-- `struct M { int m[2][3]; };` -/
def matrixUnit : Decls := unitOf
  [{ kw := .struct, tag := "M", fields := [⟨"int m[2][3".toList, .mk false false (.arr (some 2) (.mk false false (.arr (some 3) qInt))), "m", none⟩] }]

/-- C95 does not hold for an array of arrays: the comparator for `struct M` compares the rows of `m` with `!=`, as if they were
    numbers (in C these are two addresses, which differ also if the rows are equal); no two objects are found equal. -/
theorem C95_refuted_matrix : ∃ t, Parsed matrixUnit [qRec 0] [t] ∧
    ∀ (key : Ty → Nat) (S : Type) (neq : S → S → Bool) (depth : Nat) (v w : Val S) (p : String),
      FitsC matrixUnit (.record 0) v → FitsC matrixUnit (.record 0) w →
      run (program ⟨key, ["EasyMock_all_comparators"]⟩ [.param t]) neq (depth + 1) "struct_M" v w p = .confused := by
  refine ⟨.comp false .struct "M" (.field "int" (.ctype .int false false) "m" 2 .nil) false false .nil, parsed_by 3 (by decide +kernel), ?_⟩
  intro key S neq depth v w p hv hw
  have shape : ∀ u : Val S, FitsC matrixUnit (.record 0) u → ∃ g a, u = .comp g ∧ g "m" = some (.arr 2 a) ∧ ∃ b, a 0 = .arr 3 b := by
    intro u hu
    cases hu with
    | scalar h => exact h.elim
    | record h =>
      cases h with
      | empty _ h => exact h.elim
      | named _ _ _ h1 h2 =>
        cases h2 with
        | scalar h => exact h.elim
        | @array _ _ a h2 =>
          have h3 := h2 0 (by decide)
          generalize ha : a 0 = a0 at h3
          cases h3 with
          | scalar h => exact h.elim
          | array => exact ⟨_, _, rfl, h1, _, ha⟩
      | anonymous _ h => exact absurd h (by decide)
      | bit h => cases h
      | pad h => cases h
  obtain ⟨g, a, rfl, h1, b, h2⟩ := shape v hv
  obtain ⟨g', a', rfl, h1', b', h2'⟩ := shape w hw
  have hp : ∀ key, program ⟨key, ["EasyMock_all_comparators"]⟩ [.param (.comp false .struct "M" (.field "int" (.ctype .int false false) "m" 2 .nil) false false .nil)] =
      [⟨"struct_M", " struct", [⟨"m", true, .neq "M" (some "d") none⟩], "struct M", .comp false .struct "M" (.field "int" (.ctype .int false false) "m" 2 .nil) false false .nil⟩] := by
    intro key
    rfl
  rw [hp]
  show evalChecks neq _ " struct" p (.comp g) (.comp g') [⟨"m", true, .neq "M" (some "d") none⟩] = .confused
  rw [evalChecks, evalCheck]
  simp only [Val.member, h1, h1', if_true, evalLoop, evalAction, h2, h2', evalNeq]

end EasyMock.StructCmp
