import Verif.CFile.Define

/-! # CFile: the bodies of the generated functions -/

namespace EasyMock.CFile

open EasyMock.Gen

/-- The texts of the member of a parameter. -/
def MemberOk (p : (String × String × Gen.Out × XDecl) × MemberType) : Prop :=
  match p.2 with
  | .regular type => TypeText (type ++ " " ++ p.1.2.1 ++ p.1.2.2.2.text).toList
  | .reference raw deref => TypeText raw.toList ∧ TypeText deref.toList

/-- The texts of the result. -/
def ResultOk (f : SrcFun) : Prop :=
  match f.result with
  | .regular type => (∀ n : String, Ident n.toList → TypeText (type ++ " " ++ n ++ f.sec.retExtra.text).toList) ∧
      (∀ n : String, Ident n.toList → TypeText (type ++ " " ++ n ++ f.sec.topExtra.text).toList)
  | .reference raw deref => TypeText raw.toList ∧ TypeText deref.toList ∧ f.sec.retExtra.text = ""

/-- What the generated source must be able to say about a function. -/
structure SrcOk (c : Config) (f : SrcFun) : Prop where
  base : FunOk c f.toFun
  cls : ∀ k ∈ f.sec.cls, Ident k.toList
  names : ∀ e ∈ f.sec.params.entries, Ident e.2.1.toList
  members : f.members.length = f.sec.params.entries.length
  member : ∀ p ∈ f.params, MemberOk p
  matcher : c.cpp = true → ∀ e ∈ f.sec.params.entries, TypeText e.1.toList
  result : f.sec.hasReturn = true → ResultOk f
  plainResult : c.cpp = true → f.sec.hasReturn = true → f.sec.retExtra.text = "" ∧ TypeText f.result.raw.toList
  outs : ∀ e ∈ f.sec.outs, TypeText e.1.toList
  sig : TypeText (mockSignature f.sec).toList
  word : (words (mockSignature f.sec).toList).head? ≠ some kwNamespace

theorem Ident.append {a b : String} (ha : Ident a.toList) (hb : ∀ c ∈ b.toList, identChar c = true) : Ident (a ++ b).toList := by
  rw [String.toList_append]
  refine ⟨by simp [ha.1], fun c hc => ?_⟩
  rcases List.mem_append.mp hc with h | h
  · exact ha.2 c h
  · exact hb c h

theorem Ident.after {a b : String} (ha : ∀ c ∈ a.toList, identChar c = true) (hb : Ident b.toList) : Ident (a ++ b).toList := by
  rw [String.toList_append]
  refine ⟨by simp [hb.1], fun c hc => ?_⟩
  rcases List.mem_append.mp hc with h | h
  · exact ha c h
  · exact hb.2 c h

variable {c : Config} {f : SrcFun}

theorem SrcOk.prefix (h : SrcOk c f) : Ident (dataPrefix f.sec).toList := by
  unfold dataPrefix
  refine Ident.after ?_ h.base.name
  intro x hx
  rw [String.toList_append] at hx
  rcases List.mem_append.mp hx with hx | hx
  · cases hk : f.sec.cls with
    | none => rw [hk] at hx; cases hx
    | some k => rw [hk] at hx; exact (h.cls k (by rw [hk]; rfl)).2 x hx
  · have : ∀ y ∈ "_".toList, identChar y = true := by decide +kernel
    exact this x hx

theorem bodyOk (L : List Line) (h : LinesOk L) (hc : closes 0 L = some 0) : BodyOk L := ⟨h, hc⟩

theorem outs_mem {s : FunSection} {e : String × String × Gen.Out × XDecl} (h : e ∈ s.outs) : e ∈ s.params.entries :=
  (List.mem_filter.mp h).1

theorem params_mem {p : (String × String × Gen.Out × XDecl) × MemberType} (h : p ∈ f.params) : p.1 ∈ f.sec.params.entries :=
  (List.of_mem_zip h).1

/-! ## The mock -/

theorem check_ok (h : SrcOk c f) {e : String × String × Gen.Out × XDecl} (he : e ∈ f.sec.params.entries) :
    BodyOk (checkLines c f.sec e) := by
  have h1 := h.base.name.sim
  have h2 := h.prefix.sim
  have h3 := (h.names e he).sim
  unfold checkLines
  cases hc : c.cpp with
  | true =>
    refine bodyOk _ ?_ rfl
    simp only [if_true]
    simp only [List.cons_append, List.nil_append]
    each_line
  | false =>
    refine bodyOk _ ?_ rfl
    simp only [Bool.false_eq_true, if_false]
    simp only [List.cons_append, List.nil_append]
    each_line

theorem copy_ok (h : SrcOk c f) {e : String × String × Gen.Out × XDecl} (he : e ∈ f.sec.outs) : BodyOk (copyLines e) := by
  have h3 := (h.names e (outs_mem he)).sim
  unfold copyLines
  cases hs : (e.2.2.1 == Gen.Out.sized) with
  | true =>
    simp only [if_true]
    refine bodyOk _ ?_ rfl
    each_line
  | false =>
    simp only [Bool.false_eq_true, if_false]
    refine bodyOk _ ?_ rfl
    each_line

theorem return_ok (s : FunSection) : LineOk (returnLine s) := by
  unfold returnLine
  cases s.hasReturn with
  | true => simp only [if_true]; each_line
  | false => simp only [Bool.false_eq_true, if_false]; each_line

theorem returnLine_stmt (s : FunSection) : ∃ t, returnLine s = line t := ⟨_, rfl⟩

theorem closes_return (s : FunSection) (n : Nat) (L : List Line) : closes n (returnLine s :: L) = closes n L := rfl

theorem default_res : Ident "default_res".toList := ⟨by decide +kernel, by decide +kernel⟩

theorem default_ok (h : SrcOk c f) : BodyOk (defaultLines f) := by
  have h1 := h.base.name.sim
  unfold defaultLines
  cases hr : f.sec.hasReturn with
  | false => exact BodyOk.nil
  | true =>
    have hk := h.result hr
    unfold ResultOk at hk
    simp only [if_true]
    cases hm : f.result with
    | regular t =>
      rw [hm] at hk
      have h2 := (hk.2 "default_res" default_res).sim
      have e : t ++ " default_res" ++ f.sec.topExtra.text = t ++ " " ++ "default_res" ++ f.sec.topExtra.text := by
        rw [sassoc t " " "default_res"]; rfl
      refine bodyOk _ ?_ rfl
      simp only [List.cons_append, List.nil_append]
      rw [e]
      each_line
    | reference raw deref =>
      rw [hm] at hk
      have h2 := hk.2.1.sim
      refine bodyOk _ ?_ rfl
      simp only [List.cons_append, List.nil_append]
      each_line

theorem front_ok (h : SrcOk c f) : BodyOk (mockFront f) := by
  have h1 := h.base.name.sim
  have h2 := h.prefix.sim
  unfold mockFront
  refine (BodyOk.append (bodyOk _ (by each_line) rfl) (default_ok h)).append ?_
  unfold srcDataType
  cases hr : f.sec.hasReturn with
  | true =>
    simp only [if_true]
    refine bodyOk _ ?_ rfl
    repeat' first
      | with_reducible exact return_ok f.sec
      | each_line
  | false =>
    simp only [Bool.false_eq_true, if_false]
    refine bodyOk _ ?_ rfl
    repeat' first
      | with_reducible exact return_ok f.sec
      | each_line

theorem instance_ok (h : SrcOk c f) : BodyOk (instanceLines f.sec) := by
  have h1 := h.base.name.sim
  unfold instanceLines
  refine BodyOk.append ?_ (bodyOk _ (by each_line) rfl)
  cases f.sec.cls.isSome with
  | false => exact BodyOk.nil
  | true =>
    simp only [if_true]
    refine bodyOk _ ?_ rfl
    each_line

theorem back_ok (h : SrcOk c f) : BodyOk (mockBack f.sec) := by
  have h1 := h.base.name.sim
  have h2 := h.prefix.sim
  unfold mockBack
  refine BodyOk.append (BodyOk.append (BodyOk.append ?_ ?_) ?_) ?_
  · cases f.sec.hasReturn with
    | false => exact BodyOk.nil
    | true => simp only [if_true]; refine bodyOk _ ?_ rfl; each_line
  · refine bodyOk _ ?_ rfl
    repeat' first
      | with_reducible exact return_ok f.sec
      | each_line
  · refine BodyOk.flatten ?_
    intro L hL
    obtain ⟨e, he, rfl⟩ := List.mem_map.mp hL
    exact copy_ok h he
  · cases f.sec.hasReturn with
    | false => exact BodyOk.nil
    | true => simp only [if_true]; refine bodyOk _ ?_ rfl; each_line

theorem mock_ok (h : SrcOk c f) : BodyOk (mockLines c f) := by
  unfold mockLines
  refine ((front_ok h).append (instance_ok h)).append ?_ |>.append (back_ok h)
  refine BodyOk.flatten ?_
  intro L hL
  obtain ⟨e, he, rfl⟩ := List.mem_map.mp hL
  exact check_ok h he

/-! ## The data structure -/

theorem reference_ok {raw deref name comment : String} (h1 : Sim raw.toList ['x']) (h2 : Sim deref.toList ['x'])
    (h3 : Sim name.toList ['x']) (hk : comment.toList.all (fun c => c != '\n' && c != '\\') = true) :
    BodyOk (referenceLines raw deref name comment) := by
  unfold referenceLines
  refine bodyOk _ (ok_cons (by each_line) (ok_cons ?_ ok_nil)) rfl
  simp only [List.all_eq_true, Bool.and_eq_true, bne_iff_ne] at hk
  refine ⟨StmText.of_brace (u := _) (by sim) (by decide +kernel) ?_, fun hm => (hk _ hm).1 rfl, fun hm => (hk _ hm).2 rfl⟩
  exact (show Starts _ false by starts).control

theorem param_ok (h : SrcOk c f) {p : (String × String × Gen.Out × XDecl) × MemberType} (hp : p ∈ f.params) :
    BodyOk (paramLines c f.sec p) := by
  have h1 := h.prefix.sim
  have h2 := (h.names p.1 (params_mem hp)).sim
  have hm := h.member p hp
  unfold paramLines
  refine BodyOk.append ?_ ?_
  · unfold MemberOk at hm
    cases he : p.2 with
    | regular t =>
      rw [he] at hm
      have h3 := hm.sim
      refine bodyOk _ ?_ rfl
      each_line
    | reference raw deref =>
      rw [he] at hm
      exact reference_ok hm.1.sim hm.2.sim h2 (by decide +kernel)
  · cases hc : c.cpp with
    | true =>
      have h3 := (h.matcher hc p.1 (params_mem hp)).sim
      simp only [if_true]
      refine bodyOk _ ?_ rfl
      each_line
    | false =>
      simp only [Bool.false_eq_true, if_false]
      refine bodyOk _ ?_ rfl
      each_line

theorem result_name (h : SrcOk c f) : Ident (dataPrefix f.sec ++ "_returnValue").toList := h.prefix.append (by decide +kernel)

theorem result_ok (h : SrcOk c f) : BodyOk (resultLines f) := by
  unfold resultLines
  cases hr : f.sec.hasReturn with
  | false => exact BodyOk.nil
  | true =>
    have hk := h.result hr
    have hn := result_name h
    unfold ResultOk at hk
    simp only [if_true]
    cases hm : f.result with
    | regular t =>
      rw [hm] at hk
      have h2 := (hk.1 _ hn).sim
      have e : t ++ " " ++ dataPrefix f.sec ++ "_returnValue" ++ f.sec.retExtra.text =
          t ++ " " ++ (dataPrefix f.sec ++ "_returnValue") ++ f.sec.retExtra.text := by rw [sassoc (t ++ " ")]
      simp only
      rw [e]
      refine bodyOk _ ?_ rfl
      each_line
    | reference raw deref =>
      rw [hm] at hk
      exact reference_ok hk.1.sim hk.2.1.sim hn.sim (by decide +kernel)

theorem out_ok (h : SrcOk c f) {e : String × String × Gen.Out × XDecl} (he : e ∈ f.sec.outs) : BodyOk (outLines e) := by
  have h1 := (h.names e (outs_mem he)).sim
  have h2 := (h.outs e he).sim
  unfold outLines
  cases e.2.2.1 == Gen.Out.sized with
  | true => simp only [if_true]; refine bodyOk _ ?_ rfl; each_line
  | false => simp only [Bool.false_eq_true, if_false]; refine bodyOk _ ?_ rfl; each_line

theorem data_ok (h : SrcOk c f) : BodyOk (dataLines c f) := by
  unfold dataLines
  refine BodyOk.append (BodyOk.append (BodyOk.append ?_ ?_) (result_ok h)) ?_
  · cases hk : f.sec.cls with
    | none => exact BodyOk.nil
    | some k =>
      have h1 := (h.cls k (by rw [hk]; rfl)).sim
      refine bodyOk _ ?_ rfl
      each_line
  · refine BodyOk.flatten ?_
    intro L hL
    obtain ⟨e, he, rfl⟩ := List.mem_map.mp hL
    exact param_ok h he
  · refine BodyOk.flatten ?_
    intro L hL
    obtain ⟨e, he, rfl⟩ := List.mem_map.mp hL
    exact out_ok h he

/-! ## The common function -/

theorem store_ok (h : SrcOk c f) {p : (String × String × Gen.Out × XDecl) × MemberType} (hp : p ∈ f.params) :
    BodyOk (storeLines f.sec p) := by
  have h1 := h.prefix.sim
  have h2 := (h.names p.1 (params_mem hp)).sim
  unfold storeLines
  cases p.2 with
  | regular t => refine bodyOk _ ?_ rfl; each_line
  | reference raw deref => refine bodyOk _ ?_ rfl; each_line

theorem storeOut_ok (h : SrcOk c f) {e : String × String × Gen.Out × XDecl} (he : e ∈ f.sec.outs) : BodyOk (storeOutLines e) := by
  have h1 := (h.names e (outs_mem he)).sim
  unfold storeOutLines
  refine BodyOk.append ?_ (bodyOk _ (by each_line) rfl)
  cases e.2.2.1 == Gen.Out.sized with
  | true => simp only [if_true]; refine bodyOk _ ?_ rfl; each_line
  | false => exact BodyOk.nil

theorem common_ok (h : SrcOk c f) : BodyOk (commonLines f) := by
  have h1 := h.base.name.sim
  have h2 := h.prefix.sim
  unfold commonLines srcDataType
  refine BodyOk.append (BodyOk.append (BodyOk.append (BodyOk.append (BodyOk.append ?_ ?_) ?_) ?_) ?_) ?_
  · refine bodyOk _ ?_ rfl; each_line
  · cases f.sec.cls.isSome with
    | false => exact BodyOk.nil
    | true => simp only [if_true]; refine bodyOk _ ?_ rfl; each_line
  · refine BodyOk.flatten ?_
    intro L hL
    obtain ⟨e, he, rfl⟩ := List.mem_map.mp hL
    exact store_ok h he
  · refine BodyOk.flatten ?_
    intro L hL
    obtain ⟨e, he, rfl⟩ := List.mem_map.mp hL
    exact storeOut_ok h he
  · cases f.sec.hasReturn with
    | false => exact BodyOk.nil
    | true => simp only [if_true]; refine bodyOk _ ?_ rfl; each_line
  · refine bodyOk _ ?_ rfl; each_line

/-! ## The functions of the file -/

theorem map_ok {α : Type} {g : α → Line} {l : List α} (h : ∀ x ∈ l, LineOk (g x) ∧ ∃ t k, g x = .stmt t k) : BodyOk (l.map g) := by
  have e : l.map g = (l.map (fun x => [g x])).flatten := by
    induction l with
    | nil => rfl
    | cons x l ih => simp only [List.map_cons, List.flatten_cons, List.cons_append, List.nil_append]; rw [← ih fun y hy => h y (List.mem_cons_of_mem _ hy)]
  rw [e]
  refine BodyOk.flatten ?_
  intro L hL
  obtain ⟨x, hx, rfl⟩ := List.mem_map.mp hL
  obtain ⟨h1, t, k, e⟩ := h x hx
  exact bodyOk _ (ok_cons h1 ok_nil) (by rw [e]; rfl)

theorem reset_ok {fs : List SrcFun} (h : ∀ f ∈ fs, SrcOk c f) : BodyOk (resetLines fs) := by
  unfold resetLines
  refine map_ok fun f hf => ⟨?_, _, _, rfl⟩
  have h1 := (h f hf).base.name.sim
  each_line

theorem init_ok {fs : List SrcFun} (h : ∀ f ∈ fs, SrcOk c f) : BodyOk (initLines fs) := by
  unfold initLines
  refine map_ok fun f hf => ⟨?_, _, _, rfl⟩
  have h1 := (h f hf).base.name.sim
  have h2 := (h f hf).prefix.sim
  have h3 := (h f hf).sig.sim
  unfold srcDataType
  each_line

theorem verify_ok {fs : List SrcFun} (h : ∀ f ∈ fs, SrcOk c f) : BodyOk (verifyLines fs) := by
  unfold verifyLines
  refine BodyOk.append (BodyOk.append (bodyOk _ (by each_line) rfl) (BodyOk.flatten ?_)) (bodyOk _ (by each_line) rfl)
  intro L hL
  obtain ⟨f, hf, rfl⟩ := List.mem_map.mp hL
  have h1 := (h f hf).base.name.sim
  refine bodyOk _ ?_ rfl
  each_line

end EasyMock.CFile
