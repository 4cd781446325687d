import Verif.Props.CallCmp
import Verif.StructCmp.TypedefLemmas

/-! # C95 and C96 for structures and unions with typedefs -/

namespace EasyMock.StructCmp

open EasyMock.Types
open EasyMock.Parser (CTy Q Decls FieldD Parsed Used Unambiguous NamedCycles ValueOrder unitOf qRec qPtr qInt qDef C53_keys C72_partial)

/-- The program of a mocked header with typedefs: its names belong to one type each, its types have different hashes, and its
    structures and unions are declared at file scope. -/
structure TypedefProgram (D : Decls) (roots : List Q) (ts : List Ty) (env : Env) : Prop where
  unambiguous : Unambiguous D (Used D roots)
  cycles : NamedCycles D (Used D roots)
  order : ValueOrder D
  matrix : NoMatrix D
  parsed : Parsed D roots ts
  requested : "EasyMock_all_comparators" ∈ env.comparators
  names : ∀ N u u', NamesType env ts N u → NamesType env ts N u' → u = u'
  hashes : ∀ t ∈ ts, ∀ N t', (N, t') ∈ typedefsBehind t ++ namesIn env (rawType t) → ∀ u, NamesType env ts (tagName env u) u →
    env.key u = env.key t' → u = t'
  scope : ∀ t ∈ ts, AtFileScope true (rawType t)

/-- C95 for programs with typedefs: there is a comparator with one of the names which the program has for the type of the
    parameter, `<keyword>_<tag>` or a typedef, and all comparators with such a name decide whether two objects are equal.

    Missing: as for `C95_exact_partial`, and structures declared inside of others and used as named members. -/
theorem C95_typedef_partial {D : Decls} {roots : List Q} {ts : List Ty} {env : Env} (hP : TypedefProgram D roots ts env)
    {i : Nat} {q : Q} {t : Ty} (hq : roots[i]? = some q) (ht : ts[i]? = some t)
    {id : Nat} (hb : Behind q.ty.canon id) (hc : isComposable (rawType t) = true) :
    (∃ c ∈ program env (ts.map .param), NamesType env ts c.name (rawType t)) ∧
    ∀ c ∈ program env (ts.map .param), NamesType env ts c.name (rawType t) → Decides D id (program env (ts.map .param)) c.name := by
  obtain ⟨hI, ha⟩ := agree_of hP.matrix hb rfl (C72_partial hP.unambiguous hP.cycles hP.order hP.parsed i q t hq ht) hc
  have g := genSteps_ok (requested_all hP.requested) (ts.map .param) {} (regOK_nil env (NamesType env ts)) (by simp)
    (names_steps hP.scope hP.hashes)
  obtain ⟨new, d, nn, -⟩ := g.1.names
  have d' : (genSteps env {} (ts.map .param)).1.done = (program env (ts.map .param)).map (fun c => c.name) := by
    have nn : (program env (ts.map .param)).map (fun c => c.name) = new.map _root_.id := nn
    rw [nn, d]
    simp
  constructor
  · obtain ⟨N, hN, hpN, -⟩ := g.2 t (List.mem_map_of_mem (List.mem_of_getElem? ht)) hc hI
    rw [d'] at hN
    obtain ⟨c, hcm, rfl⟩ := List.mem_map.1 hN
    exact ⟨c, hcm, hpN⟩
  · intro c hcm hN
    exact decides_of (names_naming hP.names) g.1 hc ha (by rw [d']; exact List.mem_map_of_mem hcm) hN rfl

/-- The comparator `name id` of the program belongs to the record `id`, which a parameter is or leads to. -/
def LedByName (roots : List Q) (ts : List Ty) (env : Env) (name : Nat → String) (id : Nat) : Prop :=
  ∃ (j : Nat) (q : Q) (t : Ty), roots[j]? = some q ∧ ts[j]? = some t ∧ Behind q.ty.canon id ∧ isComposable (rawType t) = true ∧
    NamesType env ts (name id) (rawType t) ∧ ∃ c ∈ program env (ts.map .param), c.name = name id

/-- C96 for programs with typedefs.  Missing: see `C96_calls_partial`. -/
theorem C96_typedef_partial {D : Decls} {roots : List Q} {ts : List Ty} {env : Env} (hP : TypedefProgram D roots ts env)
    (name : Nat → String) (ids : List Nat) (hids : ∀ id ∈ ids, LedByName roots ts env name id) :
    CallsCompared D (program env (ts.map .param)) name ids := by
  apply calls_compared
  intro id hid
  obtain ⟨j, q, t, hq, ht, hb, hc, hN, c, hcm, e⟩ := hids id hid
  rw [← e] at hN ⊢
  exact (C95_typedef_partial hP hq ht hb hc).2 c hcm hN

/-! ## Example -/

namespace TypedefEx

/-- `typedef struct { int x; } P; typedef struct Q { P a[2]; int y; } L;` -/
def unit : Decls := unitOf
  [{ kw := .struct, tag := "", fields := [⟨"int ".toList, qInt, "x", none⟩] },
   { kw := .struct, tag := "Q",
     fields := [⟨"P a[2".toList, .mk false false (.arr (some 2) (qDef "P" 0)), "a", none⟩, ⟨"int ".toList, qInt, "y", none⟩] }]

/-- `f(P *, L)`. -/
def roots : List Q := [qPtr (qDef "P" 0), qDef "L" 1]

/-- The type behind `P`. -/
def tP : Ty := .comp false .struct "" (.field "int" (.ctype .int false false) "x" (-1) .nil) false false .nil

/-- `struct Q`. -/
def tQ : Ty := .comp false .struct "Q" (.field "P" (.tdef false "P" tP) "a" 2 (.field "int" (.ctype .int false false) "y" (-1) .nil)) false false .nil

/-- What the parser makes of the parameters. -/
def ts : List Ty := [.ptr false (.tdef false "P" tP), .tdef false "L" tQ]

/-- The two structures have different hashes. -/
def env : Env := { key := fun t => if t = tP then 1 else if t = tQ then 2 else 0, comparators := ["EasyMock_all_comparators"] }

theorem fields {id : Nat} {f : FieldD} (h : f ∈ (unit.records id).fields) :
    (f.q.uses true = [] ∨ (id = 1 ∧ f.q.uses true = [(0, "P", true)])) ∧
    ∀ n q m q', f.q.ty.canon = .arr n q → q.ty.canon ≠ .arr m q' := by
  match id with
  | 0 =>
    simp only [unit, unitOf, List.getD_cons_zero, List.mem_cons, List.not_mem_nil, or_false] at h
    subst h
    exact ⟨Or.inl rfl, fun _ _ _ _ e => by cases e⟩
  | 1 =>
    simp only [unit, unitOf, List.getD_cons_zero, List.getD_cons_succ, List.mem_cons, List.not_mem_nil, or_false] at h
    rcases h with rfl | rfl
    · refine ⟨Or.inr ⟨rfl, rfl⟩, ?_⟩
      intro n q m q' e
      injection e with _ e
      subst e
      exact CTy.noConfusion
    · exact ⟨Or.inl rfl, fun _ _ _ _ e => by cases e⟩
  | id + 2 => simp [unit, unitOf] at h

theorem used {i : Nat} {n : String} (h : Used unit roots i n) : (i = 0 ∧ n = "P") ∨ (i = 1 ∧ n = "L") := by
  rcases h with ⟨q, hq, v, h⟩ | ⟨r, f, hf, v, h⟩
  · simp only [roots, List.mem_cons, List.not_mem_nil, or_false] at hq
    rcases hq with rfl | rfl <;> simp [qDef, qPtr, qRec, Q.uses, CTy.uses] at h <;> simp [h]
  · rcases (fields hf).1 with e | ⟨-, e⟩ <;> rw [e] at h <;> simp at h
    simp [h]

theorem edge {a b : Nat} (h : Parser.Edge unit a b) : a = 1 ∧ b = 0 := by
  obtain ⟨f, hf, n, v, h⟩ := h
  rcases (fields hf).1 with e | ⟨ha, e⟩ <;> rw [e] at h <;> simp at h
  exact ⟨ha, h.1⟩

theorem path {a b : Nat} (h : Parser.Path unit a b) : a = 1 ∧ b = 0 := by
  induction h with
  | one h => exact edge h
  | more _ h ih =>
    have := edge h
    omega

/-- The names of the program. -/
theorem named {N : String} {u : Ty} (h : NamesType env ts N u) :
    (N = "P" ∧ u = tP) ∨ (N = tagName env tP ∧ u = tP) ∨ (N = "L" ∧ u = tQ) ∨ (N = "struct_Q" ∧ u = tQ) := by
  obtain ⟨-, t, ht, h⟩ := h
  have hP : namesIn env tP = [(tagName env tP, tP)] := by simp [tP, namesIn, namesInFields, typedefsBehind]
  have hQ : namesIn env tQ = [("struct_Q", tQ), ("P", tP), (tagName env tP, tP)] := by
    have : namesIn env tQ = (tagName env tQ, tQ) :: (("P", tP) :: [] ++ namesIn env tP ++ ([] ++ [] ++ [])) := rfl
    rw [this, hP]
    rfl
  simp only [ts, List.mem_cons, List.not_mem_nil, or_false] at ht
  rcases ht with rfl | rfl
  · have h : (N, u) ∈ [("P", tP)] ∨ (N, u) ∈ namesIn env tP := h
    rw [hP] at h
    simp only [List.mem_cons, List.not_mem_nil, or_false, Prod.mk.injEq] at h
    rcases h with h | h <;> simp [h]
  · have h : (N, u) ∈ [("L", tQ)] ∨ (N, u) ∈ namesIn env tQ := h
    rw [hQ] at h
    simp only [List.mem_cons, List.not_mem_nil, or_false, Prod.mk.injEq] at h
    rcases h with h | h | h | h <;> simp [h]

theorem tag_P : tagName env tP ≠ "P" ∧ tagName env tP ≠ "L" ∧ tagName env tP ≠ "struct_Q" := by decide +kernel

theorem prog : TypedefProgram unit roots ts env where
  unambiguous := by
    apply C53_keys
    · intro i n j m hi hj h hne
      rcases used hi with ⟨rfl, -⟩ | ⟨rfl, -⟩ <;> rcases used hj with ⟨rfl, -⟩ | ⟨rfl, -⟩ <;> first | rfl | (revert h hne; decide)
    · intro i n j m hi hj h hne
      rcases used hi with ⟨rfl, rfl⟩ | ⟨rfl, rfl⟩ <;> rcases used hj with ⟨rfl, rfl⟩ | ⟨rfl, rfl⟩ <;> first | rfl | (revert h; decide)
    · intro i n j m hi hj h hne
      rcases used hi with ⟨rfl, rfl⟩ | ⟨rfl, rfl⟩ <;> rcases used hj with ⟨rfl, rfl⟩ | ⟨rfl, rfl⟩ <;> first | rfl | (revert h; decide)
    · intro i n hi
      rcases used hi with ⟨rfl, -⟩ | ⟨rfl, -⟩ <;> decide +kernel
  cycles := fun id n _ _ _ hp => by
    have := path hp
    omega
  order := by
    rintro a b n ⟨f, hf, h⟩ _
    have := edge ⟨f, hf, n, true, h⟩
    exact ⟨fun hp => by have := path hp; omega, by omega⟩
  matrix := fun _ _ hf => (fields hf).2
  parsed := parsed_by 6 (by decide +kernel)
  requested := by simp [env]
  names := by
    intro N u u' h h'
    have hne : "P" ≠ "L" ∧ "P" ≠ "struct_Q" := by decide
    have ht := tag_P
    rcases named h with ⟨rfl, rfl⟩ | ⟨rfl, rfl⟩ | ⟨rfl, rfl⟩ | ⟨rfl, rfl⟩ <;> rcases named h' with ⟨e, rfl⟩ | ⟨e, rfl⟩ | ⟨e, rfl⟩ | ⟨e, rfl⟩ <;>
      first | rfl | exact absurd e (by decide) | exact absurd e ht.1 | exact absurd e ht.2.1 | exact absurd e ht.2.2 |
        exact absurd e.symm ht.2.1 | exact absurd e.symm ht.2.2
  hashes := by
    intro t ht N t' hm u hu he
    have hm' : t' = tP ∨ t' = tQ := by
      by_cases hc : isComposable t' = true
      · rcases named ⟨hc, t, ht, List.mem_append.1 hm⟩ with ⟨-, h⟩ | ⟨-, h⟩ | ⟨-, h⟩ | ⟨-, h⟩ <;> simp [h]
      · exfalso
        simp only [ts, List.mem_cons, List.not_mem_nil, or_false] at ht
        have hP : namesIn env tP = [(tagName env tP, tP)] := by simp [tP, namesIn, namesInFields, typedefsBehind]
        rcases ht with rfl | rfl
        · have hm : (N, t') ∈ [("P", tP)] ++ namesIn env tP := hm
          rw [hP] at hm
          simp only [List.mem_append, List.mem_cons, List.not_mem_nil, or_false, Prod.mk.injEq] at hm
          rcases hm with ⟨-, rfl⟩ | ⟨-, rfl⟩ <;> exact hc rfl
        · have hm : (N, t') ∈ [("L", tQ)] ++ ((tagName env tQ, tQ) :: (("P", tP) :: [] ++ namesIn env tP ++ ([] ++ [] ++ []))) := hm
          rw [hP] at hm
          simp only [List.mem_append, List.mem_cons, List.not_mem_nil, or_false, Prod.mk.injEq] at hm
          rcases hm with ⟨-, rfl⟩ | ⟨-, rfl⟩ | ⟨-, rfl⟩ | ⟨-, rfl⟩ <;> exact hc rfl
    have hu' : u = tP ∨ u = tQ := by
      rcases named hu with ⟨-, h⟩ | ⟨-, h⟩ | ⟨-, h⟩ | ⟨-, h⟩ <;> simp [h]
    have h1 : env.key tP = 1 := by decide +kernel
    have h2 : env.key tQ = 2 := by decide +kernel
    rcases hm' with rfl | rfl <;> rcases hu' with rfl | rfl <;> first | rfl | (rw [h1, h2] at he; cases he)
  scope := by
    intro t ht
    simp only [ts, List.mem_cons, List.not_mem_nil, or_false] at ht
    rcases ht with rfl | rfl
    · exact ⟨fun _ => ⟨rfl, rfl⟩, rfl, trivial, trivial⟩
    · exact ⟨fun _ => ⟨rfl, rfl⟩, rfl, ⟨fun _ => ⟨rfl, rfl⟩, rfl, trivial, trivial⟩, rfl, trivial, trivial⟩

/-- The comparators are called after the typedefs. -/
theorem prog_names : (program env (ts.map .param)).map (fun c => c.name) = ["P", "L"] := by decide +kernel

/-- C95 and C96 for the example. -/
example : Decides unit 0 (program env (ts.map .param)) "P" ∧ Decides unit 1 (program env (ts.map .param)) "L" ∧
    CallsCompared unit (program env (ts.map .param)) (fun id => if id = 0 then "P" else "L") [0, 1] := by
  have mem : ∀ N ∈ ["P", "L"], ∃ c ∈ program env (ts.map .param), c.name = N := by
    intro N h
    rw [← prog_names] at h
    obtain ⟨c, hc, e⟩ := List.mem_map.1 h
    exact ⟨c, hc, e⟩
  have nP : NamesType env ts "P" tP := ⟨rfl, _, List.mem_cons_self, Or.inl List.mem_cons_self⟩
  have nL : NamesType env ts "L" tQ := ⟨rfl, _, List.mem_cons_of_mem _ List.mem_cons_self, Or.inl List.mem_cons_self⟩
  refine ⟨?_, ?_, ?_⟩
  · obtain ⟨c, hc, e⟩ := mem "P" (by simp)
    have := (C95_typedef_partial prog (i := 0) rfl rfl (id := 0) (.ptr .record) rfl).2 c hc (by rw [e]; exact nP)
    rwa [e] at this
  · obtain ⟨c, hc, e⟩ := mem "L" (by simp)
    have := (C95_typedef_partial prog (i := 1) rfl rfl (id := 1) .record rfl).2 c hc (by rw [e]; exact nL)
    rwa [e] at this
  · apply C96_typedef_partial prog
    intro id hid
    simp only [List.mem_cons, List.not_mem_nil, or_false] at hid
    rcases hid with rfl | rfl
    · exact ⟨0, _, _, rfl, rfl, .ptr .record, rfl, nP, mem "P" (by simp)⟩
    · exact ⟨1, _, _, rfl, rfl, .record, rfl, nL, mem "L" (by simp)⟩

end TypedefEx

end EasyMock.StructCmp
