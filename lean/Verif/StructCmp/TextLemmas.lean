import Verif.StructCmp.OnceLemmas

/-! # StructCmp: the texts of generated comparators -/

namespace EasyMock.StructCmp

open EasyMock.Types

/-! ## Families of types -/

/-- Members of arithmetic type: name, type, and the width of a bit-field. -/
def flatFields : List (String × CT × Option Nat) → Fields
  | [] => .nil
  | (f, c, none) :: rest => .field "" (.ctype c false false) f (-1) (flatFields rest)
  | (f, c, some b) :: rest => .bit "" (.ctype c false false) f b (flatFields rest)

/-- A type declared outside other types with members of arithmetic type, with or without a
    typedef. -/
def flat (kw : Kw) (tag : String) (fs : List (String × CT × Option Nat)) : Option String → Ty
  | none => .comp false kw tag (flatFields fs) false false .nil
  | some T => .tdef false T (.comp false kw tag (flatFields fs) false false .nil)

/-- Types declared one inside the other: the innermost has the member `int x`. -/
def nest (emb : Bool) (n : String) : List String → Ty
  | [] => .comp false .struct n (.field "" (.ctype .int false false) "x" (-1) .nil) emb false .nil
  | m :: ms => .comp false .struct n (.field "" (nest true m ms) "f" (-1) .nil) emb false .nil

/-- A name with the names of the types it is declared in, as in `A::B::C`. -/
def scopedName (n : String) : List String → String
  | [] => n
  | m :: ms => n ++ "::" ++ scopedName m ms

/-- `k + 1` anonymous members one inside the other: the innermost has the member `int x`. -/
def anonymousNest : Nat → Ty
  | 0 => .comp false .struct "" (.field "" (.ctype .int false false) "x" (-1) .nil) true false .nil
  | k + 1 => .comp false .struct "" (.field "" (anonymousNest k) "" (-1) .nil) true false .nil

/-! ## Flat types -/

/-- The check of one member of a flat type. -/
def flatCheck (owner : String) (x : String × CT × Option Nat) : Check :=
  ⟨x.1, false, .neq owner (some (printfFormat x.2.1)) (x.2.2.map (fun _ => x.2.1.str))⟩

theorem rawFlat (kw tag fs td) :
    rawType (flat kw tag fs td) = .comp false kw tag (flatFields fs) false false .nil := by
  cases td <;> rfl

theorem formatOf_ctype (c : CT) : formatOf (.ctype c false false) = some (printfFormat c) := rfl

theorem fullName_ctype (c : CT) : fullName (.ctype c false false) = c.str := by
  cases c <;> decide +kernel

theorem genFields_flat (env : Env) (owner : Ty) (hemb : embedded owner = false) (prep decl : String)
    (σ : St) : ∀ fs : List (String × CT × Option Nat), (∀ x ∈ fs, x.1 ≠ "") →
    genFields env owner prep decl σ (flatFields fs) = (σ, fs.map (flatCheck (mostDefinedName env σ.reg owner)), [])
  | [], _ => rfl
  | (f, c, none) :: rest, h => by
    have ih := genFields_flat env owner hemb prep decl σ rest
      (fun x hx => h x (List.mem_cons_of_mem _ hx))
    have hf : f ≠ "" := h _ List.mem_cons_self
    unfold flatFields genFields
    have hcmp : comparedAsComposite (.ctype c false false) = false := rfl
    have e1 : ((-1 : Int) == 0 || decide ((-1 : Int) > 0) && !nonZeroSize (.ctype c false false))
        = false := rfl
    have e2 : ¬ ((-1 : Int) > 0) := by decide
    simp only [e1, hcmp, if_neg e2, Bool.false_eq_true, if_false, registerRaw, ih, formatOf_ctype,
      ownerText, hemb, Bool.not_false, if_true, List.map_cons, Option.map_none,
      List.cons_append, List.nil_append, flatCheck]
    rfl
  | (f, c, some b) :: rest, h => by
    have ih := genFields_flat env owner hemb prep decl σ rest
      (fun x hx => h x (List.mem_cons_of_mem _ hx))
    have hf : f ≠ "" := h _ List.mem_cons_self
    unfold flatFields genFields
    simp only [isEmpty_false hf, Bool.false_eq_true, if_false, registerRaw, ih, formatOf_ctype,
      ownerText, hemb, Bool.not_false, if_true, List.map_cons, Option.map_some,
      List.cons_append, List.nil_append, flatCheck, fullName_ctype]

/-- Evaluation of the checks of a flat type up to the first difference. -/
theorem evalChecks_flat {S : Type} (neq : S → S → Bool)
    (callee : String → Val S → Val S → String → Out S) (art owner p : String)
    (g g' : String → Option (Val S)) (f : String) (c : CT) (b : Option Nat) (a e : S)
    (post : List (String × CT × Option Nat)) (ha : g f = some (.scalar a))
    (he : g' f = some (.scalar e)) (hne : neq a e = true) : ∀ pre : List (String × CT × Option Nat),
    (∀ x ∈ pre, ∃ a e, g x.1 = some (.scalar a) ∧ g' x.1 = some (.scalar e) ∧ neq a e = false) →
    evalChecks neq callee art p (.comp g) (.comp g') ((pre ++ (f, c, b) :: post).map (flatCheck owner))
    = .diff art owner (some (printfFormat c)) { param := p, field := f, idx := none, cur := a, exp := e }
  | [], _ => by
    simp [flatCheck, evalChecks, evalCheck, Val.member, ha, he, evalAction, evalNeq, hne]
  | x :: pre, h => by
    obtain ⟨a', e', h1, h2, h3⟩ := h x List.mem_cons_self
    have ih := evalChecks_flat neq callee art owner p g g' f c b a e post ha he hne pre
      (fun y hy => h y (List.mem_cons_of_mem _ hy))
    rw [List.cons_append, List.map_cons]
    unfold evalChecks
    have : evalCheck neq callee art p (.comp g) (.comp g')
        (flatCheck owner x) = .equal := by
      simp [flatCheck, evalCheck, Val.member, h1, h2, evalAction, evalNeq, h3]
    rw [this]
    exact ih

theorem filter_flat (owner : String) (fs : List (String × CT × Option Nat)) :
    (fs.map (flatCheck owner)).filter (fun x => !x.array) ++
      (fs.map (flatCheck owner)).filter (fun x => x.array) = fs.map (flatCheck owner) := by
  induction fs with
  | nil => rfl
  | cons x xs ih =>
    simp only [List.map_cons, List.filter_cons, flatCheck, Bool.not_false, if_true,
      Bool.false_eq_true, if_false, List.cons_append]
    exact congrArg _ ih

/-! ## Types declared inside other types -/

theorem nest_raw (emb : Bool) (n : String) (ms : List String) : rawType (nest emb n ms) = nest emb n ms ∧
    isComposable (nest emb n ms) = true ∧ (attrs (nest emb n ms)).name = n ∧
    keyword (nest emb n ms) = "struct" ∧ comparedAsComposite (nest emb n ms) = true ∧
    ∀ env reg, registerRaw env reg (nest emb n ms) = reg := by
  cases ms <;> refine ⟨rfl, rfl, rfl, rfl, rfl, fun _ _ => rfl⟩

theorem comparatorName_nest (env : Env) (emb : Bool) (n : String) (ms : List String) (hn : n ≠ "") :
    comparatorName env [] (nest emb n ms) = "struct_" ++ n ∧
    mostDefinedName env [] (nest emb n ms) = n := by
  have h := nest_raw emb n ms
  unfold comparatorName mostDefinedName typedefName
  simp only [List.find?_nil, empty_isEmpty, if_true, h.2.2.1, isEmpty_false hn, Bool.false_eq_true,
    if_false, h.2.2.2.1, and_true]
  rfl

theorem genSection_nest (env : Env) (hreq : ∀ N, requested env N = true) : ∀ (ms : List String)
    (n prep decl : String) (emb : Bool) (done : List String),
    (∀ m ∈ n :: ms, m ≠ "" ∧ "struct_" ++ m ∉ done) → (n :: ms).Nodup →
    (emb = false → ms = [] → decl = "") →
    (genSection env prep decl { reg := [], done := done } (nest emb n ms)).1 =
      { reg := [], done := done ++ (n :: ms).map ("struct_" ++ ·) } ∧
    ∃ c, (genSection env prep decl { reg := [], done := done } (nest emb n ms)).2.getLast? = some c ∧
      c.checks = [⟨"x", false, .neq (decl ++ scopedName n ms) (some "d") none⟩]
  | [], n, prep, decl, emb, done, h, _, hdecl => by
    have hn := h n List.mem_cons_self
    have hc := comparatorName_nest env emb n [] hn.1
    simp only [nest] at hc ⊢
    unfold genSection
    have hd : done.contains ("struct_" ++ n) = false := by simpa using hn.2
    simp only [hc.1, hc.2, hreq, hd, Bool.not_true, Bool.or_false, Bool.false_eq_true, if_false]
    unfold genFields genFields
    have hcmp : comparedAsComposite (.ctype .int false false) = false := rfl
    have e1 : ((-1 : Int) == 0 || decide ((-1 : Int) > 0) && !nonZeroSize (.ctype .int false false))
        = false := by decide
    have e2 : ¬ ((-1 : Int) > 0) := by decide
    simp only [e1, hcmp, if_neg e2, Bool.false_eq_true, if_false, registerRaw, formatOf_ctype]
    refine ⟨by simp, _, rfl, ?_⟩
    simp only [List.append_nil, decide_false, ownerText, embedded, e2, printfFormat]
    cases emb with
    | true =>
      have : ((attrs (.comp false .struct n
          (.field "" (.ctype .int false false) "x" (-1) .nil) true false .nil)).name.isEmpty) = false :=
        isEmpty_false hn.1
      simp [this, scopedName]
    | false =>
      have := hdecl rfl rfl
      subst this
      simp [hc.2, scopedName]
  | m :: ms, n, prep, decl, emb, done, h, hnd, hdecl => by
    have hn := h n List.mem_cons_self
    have hc := comparatorName_nest env emb n (m :: ms) hn.1
    simp only [nest] at hc ⊢
    unfold genSection
    have hd : done.contains ("struct_" ++ n) = false := by simpa using hn.2
    simp only [hc.1, hc.2, hreq, hd, Bool.not_true, Bool.or_false, Bool.false_eq_true, if_false]
    have hr := nest_raw true m ms
    have hinj : ∀ a b : String, "struct_" ++ a = "struct_" ++ b → a = b := by
      intro a b hab
      have := congrArg String.toList hab
      rw [String.toList_append, String.toList_append] at this
      exact String.toList_inj.mp (List.append_cancel_left this)
    have ih := genSection_nest env hreq ms m (prep ++ "_") (decl ++ n ++ "::") true
      (done ++ ["struct_" ++ n]) (by
        intro k hk
        have hk' := h k (List.mem_cons_of_mem _ hk)
        refine ⟨hk'.1, ?_⟩
        intro hmem
        rcases List.mem_append.mp hmem with hmem | hmem
        · exact hk'.2 hmem
        · simp only [List.mem_singleton] at hmem
          have := hinj _ _ hmem
          subst this
          exact (List.nodup_cons.mp hnd).1 hk) (List.nodup_cons.mp hnd).2 (by simp)
    unfold genFields genFields
    have e1 : ((-1 : Int) == 0 || decide ((-1 : Int) > 0) && !nonZeroSize (nest true m ms))
        = false := by
      have : decide ((-1 : Int) > 0) = false := by decide
      rw [this]
      rfl
    have e2 : ¬ ((-1 : Int) > 0) := by decide
    have em : ("f" : String).isEmpty = false := isEmpty_false (by decide)
    simp only [e1, if_neg e2, hr.2.2.2.2.1, hr.2.2.2.2.2, em, if_true, Bool.false_eq_true, if_false]
    obtain ⟨ih1, c, ih2, ih3⟩ := ih
    refine ⟨?_, c, ?_, ?_⟩
    · rw [ih1]; simp
    · simp only [List.append_nil]
      rw [List.getLast?_cons, ih2]
      rfl
    · rw [ih3]
      simp [scopedName, String.append_assoc]

/-! ## Anonymous members -/

/-- `k` times `::<anonymous>`. -/
def anonymousPath : Nat → String
  | 0 => ""
  | k + 1 => "::<anonymous>" ++ anonymousPath k

theorem genAnonymous_nest (env : Env) (σ : St) : ∀ (k : Nat) (prep decl : String),
    decl.toList.getLast? = some ':' →
    genAnonymous env prep decl σ (anonymousNest k) =
      (σ, [⟨"x", false, .neq (decl ++ "<anonymous>" ++ anonymousPath k) (some "d") none⟩], [])
  | 0, prep, decl, _ => by
    unfold anonymousNest genAnonymous genFields genFields
    have hcmp : comparedAsComposite (.ctype .int false false) = false := rfl
    have e1 : ((-1 : Int) == 0 || decide ((-1 : Int) > 0) && !nonZeroSize (.ctype .int false false))
        = false := by decide
    have e2 : ¬ ((-1 : Int) > 0) := by decide
    have e3 : ∀ f, (attrs (.comp false .struct "" f true false .nil)).name.isEmpty = true :=
      fun _ => rfl
    simp only [e1, hcmp, if_neg e2, Bool.false_eq_true, if_false, registerRaw, formatOf_ctype,
      ownerText, embedded, Bool.not_true, e3, if_true, anonymousPath, String.append_empty]
    rfl
  | k + 1, prep, decl, hd => by
    have hl : (anonymousDecl decl).toList.getLast? = some ':' := by
      unfold anonymousDecl
      rw [String.toList_append]
      simp
    have ih := genAnonymous_nest env σ k (prep ++ "_") (anonymousDecl decl) hl
    unfold anonymousNest genAnonymous genFields genFields
    have hcmp : comparedAsComposite (anonymousNest k) = true := by cases k <;> rfl
    have hraw : ∀ reg, registerRaw env reg (anonymousNest k) = reg := by
      intro reg; cases k <;> rfl
    have e1 : ((-1 : Int) == 0 || decide ((-1 : Int) > 0) && !nonZeroSize (anonymousNest k))
        = false := by
      have : decide ((-1 : Int) > 0) = false := by decide
      rw [this]
      rfl
    have e2 : ¬ ((-1 : Int) > 0) := by decide
    simp only [e1, hcmp, if_neg e2, Bool.false_eq_true, if_false, hraw, empty_isEmpty, if_true, ih]
    have : anonymousDecl decl = decl ++ "<anonymous>" ++ "::" := by
      unfold anonymousDecl
      rw [hd]
      rfl
    rw [this]
    simp [anonymousPath, String.append_assoc]
    rfl

end EasyMock.StructCmp
