import Verif.Emit.Run
import Verif.Emit.Sound
import Verif.Types.HashLemmas

/-!
# C54: the used types are declared once and before use
-/

namespace EasyMock.Emit

open EasyMock.Types

section
variable {H : Type} [DecidableEq H] (e : Env H)

/-- C54, first half: for every program, no two sections declare types of the same hash, hence no composite type has two
    sections. -/
theorem C54_once (fs : List FunDecl) : ((emit e fs).comps.map (fun c => e.hash c.ty)).Nodup := by
  obtain ⟨_, l, hl, nl, _⟩ := grow_emit e fs
  rw [hl]
  simpa using nl

/-- For every program, every section declares the type for which it was made: its keyword, its name, its members in
    their order. -/
theorem C54_members (fs : List FunDecl) : ∀ c ∈ (emit e fs).comps, Faithful e c := by
  obtain ⟨_, l, hl, _, ml⟩ := grow_emit e fs
  intro c hc
  rw [hl] at hc
  exact (ml c (by simpa using hc)).2.2

/-- For every program, only types which occur in the functions are declared: the tags, the typedefs with their typees,
    the enumerations with their names and values and the composite types, under a guard made of their name, their generated
    name or the name of a typedef. -/
theorem C54_sound (fs : List FunDecl) :
    (∀ x ∈ (emit e fs).fwds, x.2 ≠ "" ∧ ∃ b t, Occ fs b t ∧ tagged t = some x) ∧
    (∀ x ∈ (emit e fs).tds, ∃ b i, Occ fs b (.tdef i x.1 x.2)) ∧
    (∀ x ∈ (emit e fs).ens, ∃ b i n vs, Occ fs b (.enum i n vs) ∧ x.2 = valuesOf n vs ∧ x.1 = enumName e i n vs) ∧
    ∀ c ∈ (emit e fs).comps, (∃ b, Occ fs b c.ty) ∧ guardOf e (fun t => ∃ b, Occ fs b t) c.ty c.guard := by
  have h := sound_emit e fs
  refine ⟨fun x hx => ?_, fun x hx => ?_, fun x hx => ?_, h.comps⟩
  · obtain ⟨h1, t, ⟨b, h2⟩, h3⟩ := h.fwds x hx
    exact ⟨h1, b, t, h2, h3⟩
  · obtain ⟨i, b, h1⟩ := h.tds x hx
    exact ⟨b, i, h1⟩
  · obtain ⟨i, n, vs, ⟨b, h1⟩, h2⟩ := h.ens x hx
    exact ⟨b, i, n, vs, h1, h2⟩

/-- C54, second half, for the programs of `Clean`: a compiler accepts the declarations, so that every type is
    declared before use; after them the types of the functions may be written, objects of the types which occur by
    value may be declared, and every composite type which has a definition is complete. -/
theorem C54_valid_partial (fs : List FunDecl) (h : Clean e fs) : ∃ c, headerEnv e fs = some c ∧
    (∀ f ∈ fs, ∀ t, t = f.ret ∨ t ∈ paramTypes f.params →
      nameable e c false t = true ∧ (byValue (fun _ => False) t → objectOk e c t = true)) ∧
    (∀ b i kw n fls emb ms, Occ fs b (.comp i kw n fls emb false ms) →
      (kw, tagOf e (.comp i kw n fls emb false ms)) ∈ c.complete) ∧
    (emit e fs).dangling = false ∧ (emit e fs).invalidated = false := by
  obtain ⟨hi, hv, hl, hk, hf'⟩ := emit_ok e h
  obtain ⟨c, hc, hle⟩ := header_ok e h.world (fun i n t ⟨b, hb⟩ => h.fine b _ hb) hi hl (C54_once e fs)
  refine ⟨c, hc, ?_, ?_, hi.dangling, hv⟩
  · intro f hf t ht
    have ho : Occ fs false t := by
      rcases ht with rfl | ht
      · exact .ret hf
      · exact .param hf ht
    have hkn : Known e (emit e fs) t := by
      rcases ht with rfl | ht
      · exact (hf' f hf).1
      · exact (hf' f hf).2 t ht
    have hn := nameable_mono e hle false t
      (known_nameable e (closed_main e h) hi false t ho (by simp) hkn)
    refine ⟨hn, fun hb => ?_⟩
    unfold objectOk
    rw [hn, completeIn_mono e hle t (known_complete e (closed_main e h) hi (B := fun _ => False) (by simp) t ho
      (by simp) hkn hb)]
    rfl
  · intro b i kw n fls emb ms ho
    rcases hk b _ ho with hk | hk
    · have hg : e.hash (.comp i kw n fls emb false ms) ∈ (emit e fs).gen := by
        unfold Known at hk
        exact hk.elim id (fun hk => hl _ hk.2)
      have g := hi.gen _ ⟨b, ho⟩ hg
      unfold GenOk at g
      rcases g.2 with g | g | g
      · cases g
      · cases g
      · exact hle.complete _ g.1
    · cases hk

end

/-! ## Programs

The hash is free of collisions (`freeHasher`), so that the deviations below are not due to a collision. -/

/-- A hash without collisions. -/
def free : Env HTerm := ⟨hash freeHasher, fun t => "easymock_generated_anonymous_type_hash_" ++ declPrefix t⟩

namespace Ex

def void : Ty := .ctype .void false false
def int : Ty := .ctype .int false false
def uint : Ty := .ctype .uint false false
def struct (n : String) (fs : Fields) : Ty := .comp false .struct n fs false false .nil
def mem (t : Ty) (n : String) (r : Fields) : Fields := .field "" t n (-1) r
/-- `struct n` inside its own definition. -/
def inside (n : String) : Ty := .incomplete { struct := true } .struct n
def ptr (t : Ty) : Ty := .ptr false t
def td (n : String) (t : Ty) : Ty := .tdef false n t
def enum (n : String) : Ty := .enum false n [(0, n ++ "_a")]
def fn (r : Ty) (ps : Params) : Ty := .fn false { name := "" } "" r ps
def par (t : Ty) (r : Params) : Params := .cons "" t "" r
/-- `void f(t);` -/
def f (t : Ty) : FunDecl := { info := { name := "f" }, retStr := "void", ret := void, params := par t .nil }

/-- `r g(t);` -/
def g (r t : Ty) : FunDecl := { info := { name := "g" }, retStr := "", ret := r, params := par t .nil }

/-- `struct A { int x; };` -/
def A : Ty := struct "A" (mem int "x" .nil)
/-- `struct V { struct T *p; }`, `struct T { struct U u; }`, `struct U { struct V v; }` -/
def V : Ty := struct "V" (mem (ptr (struct "T" (mem (struct "U" (mem (inside "V") "v" .nil)) "u" .nil))) "p" .nil)
/-- `struct X { struct Y *y; }`, `struct Y { struct X x; struct Z *z; }`, `struct Z { struct X x; }` -/
def X : Ty := struct "X" (mem (ptr (struct "Y" (mem (inside "X") "x"
  (mem (ptr (struct "Z" (mem (inside "X") "x" .nil))) "z" .nil)))) "y" .nil)
/-- `struct { unsigned y; }` -/
def anonymous : Ty := struct "" (mem uint "y" .nil)

/-- `struct tree { struct node root; };` inside `struct node`. -/
def tree : Ty := struct "tree" (mem (inside "node") "root" .nil)
/-- `struct node { struct tree *t; };` -/
def node : Ty := struct "node" (mem (ptr tree) "t" .nil)
/-- `A_t g(struct node, enum E);` -/
def prog : List FunDecl :=
  [{ info := { name := "g" }, retStr := "A_t", ret := td "A_t" A, params := par node (par (enum "E") .nil) }]

/-- The types which occur. -/
def types : List (Bool × Ty) :=
  [(false, td "A_t" A), (false, A), (false, int), (false, node), (false, ptr tree), (false, tree),
   (true, inside "node"), (false, enum "E")]

theorem occ_types : ∀ b t, Occ prog b t → (b, t) ∈ types := by
  intro b t h
  induction h with
  | ret h => simp [prog] at h; subst h; simp [types]
  | param h ht =>
    simp [prog] at h; subst h
    simp [par, paramTypes] at ht
    rcases ht with rfl | rfl <;> simp [types]
  | child h hu ih =>
    simp only [types, List.mem_cons, Prod.mk.injEq, List.not_mem_nil, or_false] at ih
    rcases ih with ⟨rfl, rfl⟩ | ⟨rfl, rfl⟩ | ⟨rfl, rfl⟩ | ⟨rfl, rfl⟩ | ⟨rfl, rfl⟩ | ⟨rfl, rfl⟩ | ⟨rfl, rfl⟩ | ⟨rfl, rfl⟩ <;>
      simp [td, A, int, node, ptr, tree, inside, enum, struct, mem, children, fieldTypes, bitTypes] at hu <;>
      (subst hu; simp [types, td, A, int, node, ptr, tree, inside, enum, struct, mem, isLate, whole, enclosing, fieldTypes, bitTypes])

theorem inj_of_nodup {α β : Type} (f : α → β) : ∀ {l : List α}, (l.map f).Nodup → ∀ x ∈ l, ∀ y ∈ l, f x = f y → x = y
  | [], _, x, hx, _, _, _ => by cases hx
  | a :: l, hn, x, hx, y, hy, h => by
    simp only [List.map_cons, List.nodup_cons, List.mem_map, not_exists, not_and] at hn
    rcases List.mem_cons.1 hx with hx | hx <;> rcases List.mem_cons.1 hy with hy | hy
    · rw [hx, hy]
    · exact absurd (hx ▸ h.symm) (hn.1 y hy)
    · exact absurd (hy ▸ h) (hn.1 x hx)
    · exact inj_of_nodup f hn.2 x hx y hy h

/-- The guards of the declarations. -/
def guards : List (String × Label) :=
  [("EASYMOCK_struct_A_FORWARD_GENERATED", .fwd .struct "A"),
   ("EASYMOCK_struct_node_FORWARD_GENERATED", .fwd .struct "node"),
   ("EASYMOCK_struct_tree_FORWARD_GENERATED", .fwd .struct "tree"), ("EASYMOCK_A_t_GENERATED", .td "A_t"),
   ("EASYMOCK_E_GENERATED", .en "E"), ("EASYMOCK_structA_GENERATED", .comp .struct "A"),
   ("EASYMOCK_structnode_GENERATED", .comp .struct "node"), ("EASYMOCK_structtree_GENERATED", .comp .struct "tree")]

theorem guards_prog (m : String) (l : Label) (h : Guards free (fun t => ∃ b, Occ prog b t) m l) : (m, l) ∈ guards := by
  have key : ∀ t, (∃ b, Occ prog b t) → t = td "A_t" A ∨ t = A ∨ t = int ∨ t = node ∨ t = ptr tree ∨ t = tree ∨
      t = inside "node" ∨ t = enum "E" := by
    intro t ⟨b, h⟩
    have := occ_types b t h
    simp only [types, List.mem_cons, Prod.mk.injEq, List.not_mem_nil, or_false] at this
    rcases this with h | h | h | h | h | h | h | h <;> simp [h.2]
  cases h with
  | fwd hq h =>
    rcases key _ hq with rfl | rfl | rfl | rfl | rfl | rfl | rfl | rfl <;> cases h <;> decide +kernel
  | td hq =>
    rcases key _ hq with h | h | h | h | h | h | h | h <;> cases h; decide +kernel
  | en hq =>
    rcases key _ hq with h | h | h | h | h | h | h | h <;> cases h; decide +kernel
  | comp hq hg =>
    rcases key _ hq with h | h | h | h | h | h | h | h <;> cases h <;> cases hg with
    | named h hn => cases h; decide +kernel
    | typedef h _ => simp [tagged] at h
    | anon h => simp [tagged] at h

theorem clean_prog : Clean free prog := by
  have hmem : ∀ t, (∃ b, Occ prog b t) → t ∈ types.map (·.2) := fun t ⟨b, h⟩ => List.mem_map.2 ⟨_, occ_types b t h, rfl⟩
  refine ⟨⟨?_, ?_, ?_, ?_⟩, ?_, ?_, ?_⟩
  · intro t u ht hu h
    exact inj_of_nodup free.hash (l := types.map (·.2)) (by decide +kernel) t (hmem t ht) u (hmem u hu) h
  · intro t _ h
    simp [free] at h
  · intro t u kw kw' ht hu h
    have := hmem t ht
    simp only [types, List.map_cons, List.map_nil, List.mem_cons, List.not_mem_nil, or_false] at this
    rcases this with rfl | rfl | rfl | rfl | rfl | rfl | rfl | rfl <;>
      simp [td, A, int, node, ptr, tree, inside, enum, struct, tagged] at h
  · intro m l l' h h'
    have key : ∀ x ∈ guards, ∀ y ∈ guards, x.1 = y.1 → x.2 = y.2 := by decide +kernel
    exact key _ (guards_prog m l h) _ (guards_prog m l' h') rfl
  · intro b t h
    have := hmem t ⟨b, h⟩
    simp only [types, List.map_cons, List.map_nil, List.mem_cons, List.not_mem_nil, or_false] at this
    rcases this with rfl | rfl | rfl | rfl | rfl | rfl | rfl | rfl <;>
      simp [td, A, int, node, ptr, tree, inside, enum, struct, mem, fine, simple, fieldTypes, bitTypes, whole, enclosing, byValue]
  · intro t h
    have := occ_types _ _ h
    simp [types] at this
    subst this
    rfl
  · intro i kw n fls emb fwd ms h hc
    have := occ_types _ _ h
    simp only [types, td, A, int, node, ptr, tree, inside, enum, struct, List.mem_cons, Prod.mk.injEq, List.not_mem_nil,
      or_false, true_and, false_and, reduceCtorEq, false_or, Bool.false_eq_true, Ty.comp.injEq] at this
    rcases this with ⟨rfl, rfl, rfl, rfl, rfl, rfl, rfl⟩ | ⟨rfl, rfl, rfl, rfl, rfl, rfl, rfl⟩ |
      ⟨rfl, rfl, rfl, rfl, rfl, rfl, rfl⟩
    · simp [mem, whole, enclosing, fieldTypes, bitTypes] at hc
    · simp [mem, whole, enclosing, fieldTypes, bitTypes] at hc
    · refine ⟨rfl, ?_⟩
      intro u hu
      simp [mem, fieldTypes] at hu
      subst hu
      refine ⟨false, mem (ptr tree) "t" .nil, false, .nil, by decide, rfl, ?_⟩
      exact Occ.param (f := prog.head (by simp [prog])) (by simp [prog]) (by simp [prog, par, paramTypes, node, struct])

end Ex

open Ex

/-- The hypothesis of `C54_valid_partial` holds for `struct node { struct tree *t; };`,
    `struct tree { struct node root; };`, `enum E { E_a };`, `typedef struct A { int x; } A_t;` and
    `A_t g(struct node, enum E);`: all three types are complete at the end. -/
example : ∃ c, headerEnv free prog = some c ∧ (.struct, "node") ∈ c.complete ∧ (.struct, "tree") ∈ c.complete ∧
    objectOk free c (td "A_t" A) = true := by
  obtain ⟨c, h1, h2, h3, _⟩ := C54_valid_partial free prog clean_prog
  refine ⟨c, h1, h3 false false .struct "node" (mem (ptr tree) "t" .nil) false .nil ?_,
    h3 false false .struct "tree" (mem (inside "node") "root" .nil) false .nil ?_, ?_⟩
  · exact Occ.param (f := prog.head (by simp [prog])) (by simp [prog]) (by simp [prog, par, paramTypes, node, struct])
  · have h : Occ prog false node :=
      Occ.param (f := prog.head (by simp [prog])) (by simp [prog]) (by simp [prog, par, paramTypes])
    have h' : Occ prog false (ptr tree) := Occ.child h (by simp [node, struct, mem, children, fieldTypes])
    exact Occ.child h' (by simp [ptr, children, tree, struct])
  · exact (h2 _ (by simp [prog]; rfl) _ (Or.inl rfl)).2 (by simp [td, A, struct, mem, byValue, whole, enclosing,
      fieldTypes, bitTypes, int])

/-- The sections of the same program: `struct A`, `struct node`, `struct tree`. -/
example : (emit free prog).comps.map (fun c => tag free c.ty) = ["A", "node", "tree"] := by decide +kernel

/-- C54 fails for `typedef struct A A_t; typedef A_t *PA; void f(PA);`: `PA` is printed before `A_t`. -/
theorem C54_refuted_typedef_of_typedef : headerEnv free [f (td "PA" (ptr (td "A_t" A)))] = none := by decide +kernel

/-- C54 fails for `typedef void (*cb_t)(uint32_t);`: `cb_t` is printed before `uint32_t`. -/
theorem C54_refuted_callback :
    headerEnv free [f (td "cb_t" (ptr (fn void (par (td "uint32_t" uint) .nil))))] = none := by decide +kernel

/-- C54 fails for `typedef enum E { E_a } E_t;`: typedefs are printed before enumerations. -/
theorem C54_refuted_typedef_of_enum : headerEnv free [f (td "E_t" (enum "E"))] = none := by decide +kernel

/-- C54 fails for a `const` bit-field of a typedef: the typedef is never declared. -/
theorem C54_refuted_const_bit_field :
    headerEnv free [f (struct "S" (.bit "" (.const false (td "u8" uint)) "b" 3 .nil))] = none := by decide +kernel

/-- C54 fails for a type which contains, through another type, an enclosing type by value. -/
theorem C54_refuted_enclosing : headerEnv free [f V] = none := by decide +kernel

/-- C54 fails for `typedef struct { unsigned y; } A; struct A { int x; }; A g(struct A);`: both have the guard
    `EASYMOCK_structA_GENERATED`, so that `struct A` is never defined. -/
theorem C54_refuted_guard : ∃ c, headerEnv free [g (td "A" anonymous) A] = some c ∧ (.struct, "A") ∉ c.complete :=
  ⟨_, rfl, by decide +kernel⟩

/-- C54 fails for `typedef int structA; struct A { int x; }; structA g(struct A);` for the same reason. -/
theorem C54_refuted_guard_typedef :
    ∃ c, headerEnv free [g (td "structA" int) A] = some c ∧ (.struct, "A") ∉ c.complete :=
  ⟨_, rfl, by decide +kernel⟩

/-- C54 fails for a reference: the type is used and never declared. -/
theorem C54_refuted_reference : ∃ c, headerEnv free [f (.ref false A)] = some c ∧ (.struct, "A") ∉ c.complete :=
  ⟨_, rfl, by decide +kernel⟩

/-- For a late type inside a late type the vector is extended while it is iterated: undefined behaviour. -/
theorem C54_refuted_iteration : (emit free [f X]).invalidated = true := by decide +kernel

/-- For an enumeration without values a pointer to a local variable is kept: undefined behaviour at the next
    comparison. -/
theorem C54_refuted_empty_enum : (emit free [f (.enum false "E" [])]).dangling = true := by decide +kernel

end EasyMock.Emit
