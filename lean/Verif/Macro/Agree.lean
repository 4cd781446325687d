import Verif.Macro.Expand

/-! # The expansion depends only on the macros which can be met -/

namespace EasyMock.Macro

/-- The names of the parameters in the replacement list. -/
def Formals.all (f : Formals) : List (List Char) :=
  f.names ++ (match f.variadic with
    | .no => []
    | .dots => ["__VA_ARGS__".toList]
    | .named n => [n])

/-- The identifiers of a list of tokens are in `W`. -/
def Within (W : List Char → Prop) (l : List Hidden) : Prop := ∀ t ∈ l, isIdent t.text = true → W t.text

/-- What the macros of `W` are replaced by is in `W`. -/
def Closed (W : List Char → Prop) (T : List Char → Option Meaning) : Prop :=
  ∀ w m, W w → T w = some m → ∀ b ∈ m.2, isIdent b = true → (∀ f, m.1 = some f → b ∉ f.all) → W b

variable {W : List Char → Prop}

theorem within_nil : Within W [] := by intro t h; simp at h

theorem within_cons {t : Hidden} {l : List Hidden} : Within W (t :: l) ↔ (isIdent t.text = true → W t.text) ∧ Within W l := by
  simp [Within]

theorem within_append {a b : List Hidden} : Within W (a ++ b) ↔ Within W a ∧ Within W b := by
  constructor
  · intro h
    exact ⟨fun t ht => h t (List.mem_append_left _ ht), fun t ht => h t (List.mem_append_right _ ht)⟩
  · rintro ⟨h1, h2⟩ t ht
    rcases List.mem_append.mp ht with ht | ht
    · exact h1 t ht
    · exact h2 t ht

theorem within_hideIn {hs : List (List Char)} {l : List Hidden} (h : Within W l) : Within W (hideIn hs l) := by
  intro t ht
  obtain ⟨x, hx, rfl⟩ := List.mem_map.mp ht
  exact h x hx

theorem arguments_within : ∀ (r : List Hidden) (depth : Nat) (cur : List Hidden) x, arguments depth cur r = some x →
    Within W cur → Within W r → (∀ a ∈ x.1, Within W a) ∧ Within W x.2.2
  | [], _, _, _, h, _, _ => by simp [arguments] at h
  | t :: r, depth, cur, x, h, hc, hr => by
    rw [within_cons] at hr
    have hct : Within W (cur ++ [t]) := within_append.mpr ⟨hc, within_cons.mpr ⟨hr.1, within_nil⟩⟩
    simp only [arguments] at h
    split at h
    · exact arguments_within r _ _ x h hct hr.2
    · split at h
      · split at h
        · simp only [Option.some.injEq] at h
          subst h
          exact ⟨by intro a ha; simp at ha; subst ha; exact hc, hr.2⟩
        · exact arguments_within r _ _ x h hct hr.2
      · split at h
        · simp only [Option.map_eq_some_iff] at h
          obtain ⟨y, hy, rfl⟩ := h
          have := arguments_within r _ _ y hy within_nil hr.2
          refine ⟨?_, this.2⟩
          intro a ha
          rcases List.mem_cons.mp ha with rfl | ha
          · exact hc
          · exact this.1 a ha
        · exact arguments_within r _ _ x h hct hr.2

theorem joined_within : ∀ (as : List (List Hidden)), (∀ a ∈ as, Within W a) → Within W (joined as)
  | [], _ => within_nil
  | [a], h => h a List.mem_cons_self
  | a :: b :: r, h => by
    simp only [joined]
    refine within_append.mpr ⟨h a List.mem_cons_self, within_cons.mpr ⟨?_, ?_⟩⟩
    · intro hc; exact absurd hc (by decide)
    · exact joined_within (b :: r) (fun x hx => h x (List.mem_cons_of_mem _ hx))

theorem bindNames_within (v : Variadic) : ∀ (ns : List (List Char)) (as : List (List Hidden)) args,
    bindNames v ns as = some args → (∀ a ∈ as, Within W a) →
    (∀ a ∈ args, Within W a.2) ∧ args.map (·.1) = (Formals.all ⟨ns, v⟩)
  | n :: ns, a :: as, args, h, hw => by
    simp only [bindNames, Option.map_eq_some_iff] at h
    obtain ⟨y, hy, rfl⟩ := h
    have ih := bindNames_within v ns as y hy (fun x hx => hw x (List.mem_cons_of_mem _ hx))
    refine ⟨?_, ?_⟩
    · intro b hb
      rcases List.mem_cons.mp hb with rfl | hb
      · exact hw _ List.mem_cons_self
      · exact ih.1 b hb
    · simp only [List.map_cons, ih.2]
      simp [Formals.all]
  | _ :: _, [], args, h, _ => by simp [bindNames] at h
  | [], as, args, h, hw => by
    simp only [bindNames] at h
    cases v with
    | no =>
      simp only at h
      split at h
      · simp only [Option.some.injEq] at h
        subst h
        exact ⟨by simp, rfl⟩
      · cases h
    | dots =>
      simp only [Option.some.injEq] at h
      subst h
      exact ⟨by intro a ha; simp at ha; subst ha; exact joined_within as hw, rfl⟩
    | named n =>
      simp only [Option.some.injEq] at h
      subst h
      exact ⟨by intro a ha; simp at ha; subst ha; exact joined_within as hw, rfl⟩

theorem bindArgs_within {f : Formals} {as : List (List Hidden)} {args} (h : bindArgs f as = some args)
    (hw : ∀ a ∈ as, Within W a) : (∀ a ∈ args, Within W a.2) ∧ args.map (·.1) = f.all := by
  unfold bindArgs at h
  split at h
  · rename_i hf
    split at h
    · simp only [Option.some.injEq] at h
      subst h
      refine ⟨by simp, ?_⟩
      simp [Formals.all, hf.1, hf.2]
    · cases h
  · exact bindNames_within _ _ _ _ h hw

theorem substitute_within {args : List (List Char × List Hidden)} {body : List (List Char)} (ha : ∀ a ∈ args, Within W a.2)
    (hb : ∀ b ∈ body, isIdent b = true → b ∉ args.map (·.1) → W b) : Within W (substitute args body) := by
  intro t ht
  simp only [substitute, List.mem_flatten, List.mem_map] at ht
  obtain ⟨l, ⟨b, hbm, rfl⟩, ht⟩ := ht
  split at ht
  · rename_i a hf
    exact ha a (List.mem_of_find?_eq_some hf) t ht
  · rename_i hf
    simp only [List.mem_singleton] at ht
    subst ht
    intro hi
    refine hb b hbm hi ?_
    intro hm
    obtain ⟨a, ham, rfl⟩ := List.mem_map.mp hm
    rw [List.find?_eq_none] at hf
    exact hf a ham (by simp)

theorem mapM_within {f g : List Hidden → Option (List Hidden)} : ∀ (args : List (List Char × List Hidden)),
    (∀ a ∈ args, f a.2 = g a.2 ∧ ∀ o, f a.2 = some o → Within W o) →
    args.mapM (fun a => (f a.2).map (a.1, ·)) = args.mapM (fun a => (g a.2).map (a.1, ·)) ∧
    ∀ out, args.mapM (fun a => (f a.2).map (a.1, ·)) = some out →
      (∀ a ∈ out, Within W a.2) ∧ out.map (·.1) = args.map (·.1)
  | [], _ => ⟨rfl, by
      intro out h
      simp only [List.mapM_nil, Option.pure_def, Option.some.injEq] at h
      subst h
      simp⟩
  | a :: args, h => by
    have ih := mapM_within args (fun x hx => h x (List.mem_cons_of_mem _ hx))
    have ha := h a List.mem_cons_self
    refine ⟨?_, ?_⟩
    · rw [List.mapM_cons, List.mapM_cons, ha.1, ih.1]
    · intro out ho
      rw [List.mapM_cons] at ho
      cases hf : f a.2 with
      | none => rw [hf] at ho; simp at ho
      | some o =>
        cases hm : args.mapM (fun a => (f a.2).map (a.1, ·)) with
        | none => rw [hf, hm] at ho; simp at ho
        | some os =>
          rw [hf, hm] at ho
          simp only [Option.map_some, Option.bind_eq_bind, Option.bind_some, Option.pure_def, Option.some.injEq] at ho
          subst ho
          have := ih.2 os hm
          refine ⟨?_, ?_⟩
          · intro x hx
            rcases List.mem_cons.mp hx with rfl | hx
            · exact ha.2 o hf
            · exact this.1 x hx
          · simp [this.2]

/-- Two tables which agree on a closed set expand the texts over it alike. -/
theorem expand_agree {T T' : List Char → Option Meaning} (hc : Closed W T) (he : ∀ w, W w → T' w = T w) :
    ∀ (fuel : Nat) (l : List Hidden), Within W l → expand T' fuel l = expand T fuel l ∧
      ∀ o, expand T fuel l = some o → Within W o
  | 0, l, _ => ⟨rfl, by intro o h; simp [expand] at h⟩
  | fuel + 1, [], _ => ⟨rfl, by intro o h; simp [expand] at h; subst h; exact within_nil⟩
  | fuel + 1, t :: r, hl => by
    rw [within_cons] at hl
    have ihr := expand_agree hc he fuel r hl.2
    have keep : ∀ (l : List Hidden), Within W l → ∀ o, (expand T fuel l).map (t :: ·) = some o → Within W o := by
      intro l hl' o ho
      simp only [Option.map_eq_some_iff] at ho
      obtain ⟨y, hy, rfl⟩ := ho
      exact within_cons.mpr ⟨hl.1, (expand_agree hc he fuel l hl').2 y hy⟩
    cases hi : isIdent t.text with
    | false =>
      simp only [expand, hi, Bool.not_false, Bool.true_or, if_true]
      exact ⟨by rw [ihr.1], keep r hl.2⟩
    | true =>
      have hW := hl.1 hi
      cases hh : t.hide.contains t.text with
      | true =>
        simp only [expand, hi, hh, Bool.not_true, Bool.or_true, if_true]
        exact ⟨by rw [ihr.1], keep r hl.2⟩
      | false =>
        have e : T' t.text = T t.text := he _ hW
        simp only [expand, hi, hh, Bool.not_true, Bool.or_false, Bool.false_eq_true, if_false, e]
        cases hT : T t.text with
        | none =>
          simp only
          exact ⟨by rw [ihr.1], keep r hl.2⟩
        | some m =>
          obtain ⟨fo, body⟩ := m
          have hbody := hc _ _ hW hT
          cases fo with
          | none =>
            simp only
            split
            · exact ⟨rfl, by intro o h; cases h⟩
            · have hb : Within W (hideIn (t.text :: t.hide) (body.map (⟨·, []⟩)) ++ r) := by
                refine within_append.mpr ⟨within_hideIn ?_, hl.2⟩
                intro x hx
                obtain ⟨b, hbm, rfl⟩ := List.mem_map.mp hx
                intro hib
                exact hbody b hbm hib (by intro f hf; cases hf)
              exact expand_agree hc he fuel _ hb
          | some f =>
            cases r with
            | nil =>
              simp only
              refine ⟨trivial, ?_⟩
              intro o h
              simp only [Option.some.injEq] at h
              subst h
              exact within_cons.mpr ⟨hl.1, within_nil⟩
            | cons p r' =>
              simp only
              split
              · split
                · exact ⟨rfl, by intro o h; cases h⟩
                · have hr' := (within_cons.mp hl.2).2
                  cases ha : arguments 0 [] r' with
                  | none => exact ⟨rfl, by intro o h; simp at h⟩
                  | some x =>
                    have hx := arguments_within r' 0 [] x ha within_nil hr'
                    simp only [Option.bind_eq_bind, Option.bind_some]
                    cases hb : bindArgs f x.1 with
                    | none => exact ⟨rfl, by intro o h; simp at h⟩
                    | some args =>
                      have hargs := bindArgs_within hb hx.1
                      have hmm := mapM_within (f := expand T fuel) (g := expand T' fuel) args (fun a ham =>
                        have h1 := expand_agree hc he fuel a.2 (hargs.1 a ham)
                        ⟨h1.1.symm, h1.2⟩)
                      simp only [Option.bind_some]
                      rw [← hmm.1]
                      cases hm : args.mapM (fun a => (expand T fuel a.2).map (a.1, ·)) with
                      | none => exact ⟨rfl, by intro o h; simp at h⟩
                      | some args' =>
                        have hargs' := hmm.2 args' hm
                        simp only [Option.bind_some]
                        refine expand_agree hc he fuel _ (within_append.mpr ⟨within_hideIn (substitute_within hargs'.1 ?_), hx.2⟩)
                        intro b hbm hib hnot
                        refine hbody b hbm hib ?_
                        intro f' hf'
                        cases hf'
                        rw [hargs'.2, hargs.2] at hnot
                        exact hnot
              · exact ⟨by rw [ihr.1], keep _ hl.2⟩

end EasyMock.Macro
