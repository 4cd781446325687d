import Verif.Emit.Main

/-!
# The text of the header

Auxiliary lemmas for `Verif.Props.Emit`: from the invariant of the last state to the validity of the text.
-/

namespace EasyMock.Emit

open EasyMock.Types

set_option linter.unusedSectionVars false

section
variable {H : Type} [DecidableEq H] (e : Env H)

/-- The entity has been declared. -/
def has (c : CEnv) : Label → Prop
  | .fwd k n => (k, n) ∈ c.declared
  | .td n => n ∈ c.tds
  | .en n => n ∈ c.enums
  | .comp k n => (k, n) ∈ c.complete

theorem has_mono {c d : CEnv} (h : c.Le d) : ∀ l : Label, has c l → has d l
  | .fwd .., hl => h.declared _ hl
  | .td .., hl => h.tds _ hl
  | .en .., hl => h.enums _ hl
  | .comp .., hl => h.complete _ hl

/-- The macros defined so far are those of the entities declared so far. -/
structure Sync (Q : Ty → Prop) (d : List String) (c : CEnv) : Prop where
  guards : ∀ m ∈ d, ∃ l, Guards e Q m l ∧ has c l
  tds : ∀ n ∈ c.tds, "EASYMOCK_" ++ n ++ "_GENERATED" ∈ d
  enums : ∀ n ∈ c.enums, "EASYMOCK_" ++ n ++ "_GENERATED" ∈ d

theorem Sync.hidden {Q : Ty → Prop} (hw : World e Q) {d : List String} {c : CEnv} (hs : Sync e Q d c) {m : String}
    {l : Label} (hg : Guards e Q m l) (hm : m ∈ d) : has c l := by
  obtain ⟨l', hg', h⟩ := hs.guards m hm
  rw [hw.guards m l l' hg hg']
  exact h

theorem visible_hidden {d : List String} {x : Item} {xs : List Item} (h : x.macro ∈ d) :
    visible d (x :: xs) = visible d xs := by
  simp [visible, h]

theorem visible_shown {d : List String} {x : Item} {xs : List Item} (h : x.macro ∉ d) :
    visible d (x :: xs) = x :: visible (x.macro :: d) xs := by
  simp [visible, h]

theorem check_cons {c c' : CEnv} {x : Item} {xs : List Item} (h : itemOk e c x = some c') :
    check e c (x :: xs) = check e c' xs := by
  conv => lhs; unfold check
  rw [h]

theorem sec_fwd {Q : Ty → Prop} (hw : World e Q) : ∀ (l : List (Kw × String)) (d : List String) (c : CEnv),
    (∀ x ∈ l, ∃ t, Q t ∧ tagged t = some x) → Sync e Q d c →
    ∃ d' c', (∀ rest, check e c (visible d (l.map (fun x => Item.fwd x.1 x.2) ++ rest)) =
      check e c' (visible d' rest)) ∧ Sync e Q d' c' ∧ c.Le c' ∧ (∀ x ∈ l, x ∈ c'.declared) ∧
      c'.complete = c.complete
  | [], d, c, _, hs => ⟨d, c, fun _ => rfl, hs, .refl c, by simp, rfl⟩
  | (k, n) :: l, d, c, hl, hs => by
    obtain ⟨t, hq, ht⟩ := hl (k, n) (by simp)
    have hg : Guards e Q (Item.fwd k n).macro (.fwd k n) := .fwd hq ht
    by_cases hm : (Item.fwd k n).macro ∈ d
    · obtain ⟨d', c', h1, h2, h3, h4, h5⟩ := sec_fwd hw l d c (fun x hx => hl x (by simp [hx])) hs
      refine ⟨d', c', fun rest => ?_, h2, h3, ?_, h5⟩
      · simp only [List.map_cons, List.cons_append]
        rw [visible_hidden hm]
        exact h1 rest
      · intro x hx
        rcases List.mem_cons.1 hx with rfl | hx
        · exact h3.declared _ (hs.hidden e hw hg hm)
        · exact h4 x hx
    · have hle : c.Le { c with declared := (k, n) :: c.declared } :=
        ⟨fun x hx => List.mem_cons_of_mem _ hx, fun _ h => h, fun _ h => h, fun _ h => h⟩
      have hs' : Sync e Q ((Item.fwd k n).macro :: d) { c with declared := (k, n) :: c.declared } := by
        refine ⟨?_, fun n h => List.mem_cons_of_mem _ (hs.tds n h), fun n h => List.mem_cons_of_mem _ (hs.enums n h)⟩
        intro m hm'
        rcases List.mem_cons.1 hm' with rfl | hm'
        · exact ⟨_, hg, List.mem_cons_self⟩
        · obtain ⟨l', hg', h⟩ := hs.guards m hm'
          exact ⟨l', hg', has_mono hle l' h⟩
      obtain ⟨d', c', h1, h2, h3, h4, h5⟩ := sec_fwd hw l _ _ (fun x hx => hl x (by simp [hx])) hs'
      refine ⟨d', c', fun rest => ?_, h2, ⟨fun x hx => h3.declared _ (hle.declared _ hx),
        fun x hx => h3.complete _ hx, fun x hx => h3.tds _ hx, fun x hx => h3.enums _ hx⟩, ?_, h5⟩
      · simp only [List.map_cons, List.cons_append]
        rw [visible_shown hm]
        exact h1 rest
      · intro x hx
        rcases List.mem_cons.1 hx with rfl | hx
        · exact h3.declared _ List.mem_cons_self
        · exact h4 x hx

theorem sec_td {Q : Ty → Prop} (hw : World e Q) : ∀ (l : List (String × Ty)) (d : List String) (c : CEnv),
    (∀ x ∈ l, ∃ i, Q (.tdef i x.1 x.2) ∧ nameable e c false x.2 = true) → Sync e Q d c →
    ∃ d' c', (∀ rest, check e c (visible d (l.map (fun x => Item.td x.1 x.2) ++ rest)) =
      check e c' (visible d' rest)) ∧ Sync e Q d' c' ∧ c.Le c' ∧ (∀ x ∈ l, x.1 ∈ c'.tds) ∧
      c'.complete = c.complete
  | [], d, c, _, hs => ⟨d, c, fun _ => rfl, hs, .refl c, by simp, rfl⟩
  | (n, t) :: l, d, c, hl, hs => by
    obtain ⟨i, hq, ht⟩ := hl (n, t) (by simp)
    have hg : Guards e Q (Item.td n t).macro (.td n) := .td hq
    by_cases hm : (Item.td n t).macro ∈ d
    · obtain ⟨d', c', h1, h2, h3, h4, h5⟩ := sec_td hw l d c (fun x hx => hl x (by simp [hx])) hs
      refine ⟨d', c', fun rest => ?_, h2, h3, ?_, h5⟩
      · simp only [List.map_cons, List.cons_append]
        rw [visible_hidden hm]
        exact h1 rest
      · intro x hx
        rcases List.mem_cons.1 hx with rfl | hx
        · exact h3.tds _ (hs.hidden e hw hg hm)
        · exact h4 x hx
    · have hle : c.Le { c with tds := n :: c.tds } :=
        ⟨fun _ h => h, fun _ h => h, fun x hx => List.mem_cons_of_mem _ hx, fun _ h => h⟩
      have hs' : Sync e Q ((Item.td n t).macro :: d) { c with tds := n :: c.tds } := by
        refine ⟨?_, ?_, fun n h => List.mem_cons_of_mem _ (hs.enums n h)⟩
        · intro m hm'
          rcases List.mem_cons.1 hm' with rfl | hm'
          · exact ⟨_, hg, List.mem_cons_self⟩
          · obtain ⟨l', hg', h⟩ := hs.guards m hm'
            exact ⟨l', hg', has_mono hle l' h⟩
        · intro m hm'
          rcases List.mem_cons.1 hm' with rfl | hm'
          · exact List.mem_cons_self
          · exact List.mem_cons_of_mem _ (hs.tds m hm')
      obtain ⟨d', c', h1, h2, h3, h4, h5⟩ := sec_td hw l _ _ (fun x hx => by
        obtain ⟨j, a, b⟩ := hl x (by simp [hx])
        exact ⟨j, a, nameable_mono e hle _ _ b⟩) hs'
      refine ⟨d', c', fun rest => ?_, h2, ⟨fun x hx => h3.declared _ hx,
        fun x hx => h3.complete _ hx, fun x hx => h3.tds _ (hle.tds _ hx), fun x hx => h3.enums _ hx⟩, ?_, h5⟩
      · simp only [List.map_cons, List.cons_append]
        rw [visible_shown hm]
        have hnot : n ∉ c.tds := fun h => hm (hs.tds n h)
        have hok : itemOk e c (.td n t) = some { c with tds := n :: c.tds } := by
          simp [itemOk, ht, hnot]
        rw [check_cons e hok]
        exact h1 rest
      · intro x hx
        rcases List.mem_cons.1 hx with rfl | hx
        · exact h3.tds _ List.mem_cons_self
        · exact h4 x hx

theorem sec_en {Q : Ty → Prop} (hw : World e Q) : ∀ (l : List (String × List (Nat × String))) (d : List String)
    (c : CEnv), (∀ x ∈ l, ∃ i n vs, Q (.enum i n vs) ∧ x.1 = tagOf e (.enum i n vs)) → Sync e Q d c →
    ∃ d' c', (∀ rest, check e c (visible d (l.map (fun x => Item.en x.1 x.2) ++ rest)) =
      check e c' (visible d' rest)) ∧ Sync e Q d' c' ∧ c.Le c' ∧ (∀ x ∈ l, x.1 ∈ c'.enums) ∧
      c'.complete = c.complete
  | [], d, c, _, hs => ⟨d, c, fun _ => rfl, hs, .refl c, by simp, rfl⟩
  | (n, vs) :: l, d, c, hl, hs => by
    obtain ⟨i, n', vs', hq, ht⟩ := hl (n, vs) (by simp)
    dsimp only at ht
    have hg : Guards e Q (Item.en n vs).macro (.en n) := by
      rw [ht]
      exact .en hq
    by_cases hm : (Item.en n vs).macro ∈ d
    · obtain ⟨d', c', h1, h2, h3, h4, h5⟩ := sec_en hw l d c (fun x hx => hl x (by simp [hx])) hs
      refine ⟨d', c', fun rest => ?_, h2, h3, ?_, h5⟩
      · simp only [List.map_cons, List.cons_append]
        rw [visible_hidden hm]
        exact h1 rest
      · intro x hx
        rcases List.mem_cons.1 hx with rfl | hx
        · exact h3.enums _ (hs.hidden e hw hg hm)
        · exact h4 x hx
    · have hle : c.Le { c with enums := n :: c.enums } :=
        ⟨fun _ h => h, fun _ h => h, fun _ h => h, fun x hx => List.mem_cons_of_mem _ hx⟩
      have hs' : Sync e Q ((Item.en n vs).macro :: d) { c with enums := n :: c.enums } := by
        refine ⟨?_, fun n h => List.mem_cons_of_mem _ (hs.tds n h), ?_⟩
        · intro m hm'
          rcases List.mem_cons.1 hm' with rfl | hm'
          · exact ⟨_, hg, List.mem_cons_self⟩
          · obtain ⟨l', hg', h⟩ := hs.guards m hm'
            exact ⟨l', hg', has_mono hle l' h⟩
        · intro m hm'
          rcases List.mem_cons.1 hm' with rfl | hm'
          · exact List.mem_cons_self
          · exact List.mem_cons_of_mem _ (hs.enums m hm')
      obtain ⟨d', c', h1, h2, h3, h4, h5⟩ := sec_en hw l _ _ (fun x hx => hl x (by simp [hx])) hs'
      refine ⟨d', c', fun rest => ?_, h2, ⟨fun x hx => h3.declared _ hx,
        fun x hx => h3.complete _ hx, fun x hx => h3.tds _ hx, fun x hx => h3.enums _ (hle.enums _ hx)⟩, ?_, h5⟩
      · simp only [List.map_cons, List.cons_append]
        rw [visible_shown hm]
        have hnot : n ∉ c.enums := fun h => hm (hs.enums n h)
        have hok : itemOk e c (.en n vs) = some { c with enums := n :: c.enums } := by
          simp [itemOk, hnot]
        rw [check_cons e hok]
        exact h1 rest
      · intro x hx
        rcases List.mem_cons.1 hx with rfl | hx
        · exact h3.enums _ List.mem_cons_self
        · exact h4 x hx

/-- What is known of the sections which have been read. -/
structure Done (Q : Ty → Prop) (d : List String) (c : CEnv) (done : List Comp) : Prop where
  /-- a complete tag was completed by one of them -/
  from_ : ∀ x ∈ c.complete, ∃ y ∈ done, label e y.ty = x
  /-- all have been completed -/
  into : ∀ y ∈ done, label e y.ty ∈ c.complete
  guard : ∀ y ∈ done, (Item.comp y.guard y.decl).macro ∈ d ∧ Q y.ty ∧ CompGuard e Q y.ty y.guard ∧
    ∃ i kw n fs emb fwd ms, y.ty = .comp i kw n fs emb fwd ms

theorem compGuard_named {Q : Ty → Prop} {t : Ty} {kw : Kw} {n g : String} (ht : tagged t = some (kw, n)) (hn : n ≠ "")
    (h : CompGuard e Q t g) : g = kw.str ++ n := by
  cases h with
  | named h' _ => rw [ht] at h'; cases h'; rfl
  | typedef h' _ => rw [ht] at h'; cases h'; exact absurd rfl hn
  | anon h' => rw [ht] at h'; cases h'; exact absurd rfl hn

theorem sec_comp {Q : Ty → Prop} (hw : World e Q) : ∀ (l : List Comp) (done : List Comp) (d : List String)
    (c b : CEnv), SeqOk e Q b (done.map (fun x => label e x.ty)) l →
    (∀ x ∈ b.declared, x ∈ c.declared) → (∀ x ∈ b.tds, x ∈ c.tds) → (∀ x ∈ b.enums, x ∈ c.enums) →
    ((done ++ l).map (fun c => e.hash c.ty)).Nodup → Sync e Q d c → Done e Q d c done →
    ∃ c', check e c (visible d (l.map (fun x => Item.comp x.guard x.decl))) = some c' ∧ c.Le c' ∧
      ∀ x ∈ l, label e x.ty ∈ c'.complete
  | [], _, d, c, b, _, _, _, _, _, _, _ => ⟨c, rfl, .refl c, by simp⟩
  | x :: l, done, d, c, b, hl, h1, h2, h3, hnd, hs, hd => by
    obtain ⟨hx, hrest⟩ := hl
    obtain ⟨i, kw, n, fs, emb, fwd, ms, mem, hty, hq, hg, hdecl, hbody⟩ := hx
    have hlab : label e x.ty = (kw, tagOf e x.ty) := by rw [hty]; rfl
    have hguards : Guards e Q (Item.comp x.guard x.decl).macro (.comp kw (tagOf e x.ty)) := by
      show Guards e Q ("EASYMOCK_" ++ x.guard ++ "_GENERATED") _
      rw [hty] at hq hg ⊢
      exact .comp hq hg
    have hnd' : (((done ++ [x]) ++ l).map (fun c => e.hash c.ty)).Nodup := by simpa using hnd
    have hdone : done.map (fun y => label e y.ty) ++ [label e x.ty] = (done ++ [x]).map (fun y => label e y.ty) := by simp
    rw [hdone] at hrest
    simp only [List.map_cons]
    by_cases hm : (Item.comp x.guard x.decl).macro ∈ d
    · have hhas : (kw, tagOf e x.ty) ∈ c.complete := hs.hidden e hw hguards hm
      have hd' : Done e Q d c (done ++ [x]) := by
        refine ⟨?_, ?_, ?_⟩
        · intro y hy
          obtain ⟨z, hz, hzy⟩ := hd.from_ y hy
          exact ⟨z, List.mem_append_left _ hz, hzy⟩
        · intro y hy
          rcases List.mem_append.1 hy with hy | hy
          · exact hd.into y hy
          · rw [List.mem_singleton.1 hy, hlab]; exact hhas
        · intro y hy
          rcases List.mem_append.1 hy with hy | hy
          · exact hd.guard y hy
          · rw [List.mem_singleton.1 hy]
            exact ⟨hm, hq, hg, i, kw, n, fs, emb, fwd, ms, hty⟩
      obtain ⟨c', a1, a2, a3⟩ := sec_comp hw l (done ++ [x]) d c b hrest h1 h2 h3 hnd' hs hd'
      refine ⟨c', ?_, a2, ?_⟩
      · rw [visible_hidden hm]; exact a1
      · intro y hy
        rcases List.mem_cons.1 hy with rfl | hy
        · rw [hlab]; exact a2.complete _ hhas
        · exact a3 y hy
    · have hbody' : bodyGood e c mem := by
        refine bodyGood_mono e (c := { b with complete := done.map (fun x => label e x.ty) }) ⟨h1, ?_, h2, h3⟩ mem hbody
        intro y hy
        obtain ⟨z, hz, rfl⟩ := List.mem_map.1 hy
        exact hd.into z hz
      have htag : tagOf e x.ty ≠ "" := by
        unfold tagOf
        split
        · exact hw.anon _ hq
        · rename_i h
          simpa using h
      have hnew : (kw, tagOf e x.ty) ∉ c.complete := by
        intro hin
        obtain ⟨y, hy, hyl⟩ := hd.from_ _ hin
        obtain ⟨ym, yq, yg, i', kw', n', fs', emb', fwd', ms', hyty⟩ := hd.guard y hy
        have hyl' : label e y.ty = (kw', tagOf e y.ty) := by rw [hyty]; rfl
        rw [hyl'] at hyl
        have hkw : kw' = kw := congrArg Prod.fst hyl
        have htg : tagOf e y.ty = tagOf e x.ty := congrArg Prod.snd hyl
        have tx : tagged x.ty = some (kw, (attrs x.ty).name) := by rw [hty, attrs_comp_name]; rfl
        have ty' : tagged y.ty = some (kw', (attrs y.ty).name) := by rw [hyty, attrs_comp_name]; rfl
        have hne : x.ty ≠ y.ty := by
          intro heq
          rw [List.map_append, List.nodup_append] at hnd
          exact hnd.2.2 _ (List.mem_map.2 ⟨y, hy, rfl⟩) _ (List.mem_map.2 ⟨x, by simp, rfl⟩) (by rw [heq])
        by_cases hxn : (attrs x.ty).name = ""
        · exact hne (hw.tags x.ty y.ty kw kw' hq yq (by rw [tx, hxn]) ty' htg.symm)
        · by_cases hyn : (attrs y.ty).name = ""
          · exact hne (hw.tags y.ty x.ty kw' kw yq hq (by rw [ty', hyn]) tx htg).symm
          · have e1 := compGuard_named e tx hxn hg
            have e2 := compGuard_named e ty' hyn yg
            have hxt : tagOf e x.ty = (attrs x.ty).name := by simp [tagOf, hxn]
            have hyt : tagOf e y.ty = (attrs y.ty).name := by simp [tagOf, hyn]
            have : y.guard = x.guard := by rw [e1, e2, ← hxt, ← hyt, htg, hkw]
            apply hm
            show "EASYMOCK_" ++ x.guard ++ "_GENERATED" ∈ d
            rw [← this]
            exact ym
      have hok : itemOk e c (.comp x.guard x.decl) = some { c with
          complete := (kw, tagOf e x.ty) :: c.complete, declared := (kw, tagOf e x.ty) :: c.declared } := by
        rw [hdecl]
        show declOk e c (.mk kw (tagOf e x.ty) true mem) = _
        unfold declOk
        rw [membersOk_good e mem hbody']
        simp [htag, hnew]
      have hle : c.Le { c with
          complete := (kw, tagOf e x.ty) :: c.complete, declared := (kw, tagOf e x.ty) :: c.declared } :=
        ⟨fun _ h => List.mem_cons_of_mem _ h, fun _ h => List.mem_cons_of_mem _ h, fun _ h => h, fun _ h => h⟩
      have hs' : Sync e Q ((Item.comp x.guard x.decl).macro :: d) { c with
          complete := (kw, tagOf e x.ty) :: c.complete, declared := (kw, tagOf e x.ty) :: c.declared } := by
        refine ⟨?_, fun n h => List.mem_cons_of_mem _ (hs.tds n h), fun n h => List.mem_cons_of_mem _ (hs.enums n h)⟩
        intro m hm'
        rcases List.mem_cons.1 hm' with rfl | hm'
        · exact ⟨_, hguards, List.mem_cons_self⟩
        · obtain ⟨l', hg', h⟩ := hs.guards m hm'
          exact ⟨l', hg', has_mono hle l' h⟩
      have hd' : Done e Q ((Item.comp x.guard x.decl).macro :: d) { c with
          complete := (kw, tagOf e x.ty) :: c.complete, declared := (kw, tagOf e x.ty) :: c.declared } (done ++ [x]) := by
        refine ⟨?_, ?_, ?_⟩
        · intro y hy
          rcases List.mem_cons.1 hy with rfl | hy
          · exact ⟨x, by simp, hlab⟩
          · obtain ⟨z, hz, hzy⟩ := hd.from_ y hy
            exact ⟨z, List.mem_append_left _ hz, hzy⟩
        · intro y hy
          rcases List.mem_append.1 hy with hy | hy
          · exact List.mem_cons_of_mem _ (hd.into y hy)
          · rw [List.mem_singleton.1 hy, hlab]; exact List.mem_cons_self
        · intro y hy
          rcases List.mem_append.1 hy with hy | hy
          · obtain ⟨a, b⟩ := hd.guard y hy
            exact ⟨List.mem_cons_of_mem _ a, b⟩
          · rw [List.mem_singleton.1 hy]
            exact ⟨List.mem_cons_self, hq, hg, i, kw, n, fs, emb, fwd, ms, hty⟩
      obtain ⟨c', a1, a2, a3⟩ := sec_comp hw l (done ++ [x]) _ { c with
          complete := (kw, tagOf e x.ty) :: c.complete, declared := (kw, tagOf e x.ty) :: c.declared } b hrest
        (fun y hy => List.mem_cons_of_mem _ (h1 y hy)) h2 h3 hnd' hs' hd'
      refine ⟨c', ?_, ⟨fun y hy => a2.declared _ (hle.declared _ hy), fun y hy => a2.complete _ (hle.complete _ hy),
        fun y hy => a2.tds _ hy, fun y hy => a2.enums _ hy⟩, ?_⟩
      · rw [visible_shown hm]
        rw [check_cons e hok]
        exact a1
      · intro y hy
        rcases List.mem_cons.1 hy with rfl | hy
        · rw [hlab]; exact a2.complete _ List.mem_cons_self
        · exact a3 y hy

mutual
theorem simple_nameable {c d : CEnv} (h : ∀ x ∈ c.declared, x ∈ d.declared) : ∀ (ip : Bool) (t : Ty),
    simple t = true → nameable e c ip t = true → nameable e d ip t = true
  | _, .ctype .., _, _ => by unfold nameable; rfl
  | ip, .ptr _ t, hs, ht => by unfold nameable at ht ⊢; exact simple_nameable h ip t (by unfold simple at hs; exact hs) ht
  | ip, .const _ t, hs, ht => by
    unfold nameable at ht ⊢; exact simple_nameable h ip t (by unfold simple at hs; exact hs) ht
  | ip, .ref _ t, hs, _ => by unfold simple at hs; cases hs
  | _, .tdef _ n _, hs, _ => by unfold simple at hs; cases hs
  | _, .enum i n vs, hs, _ => by unfold simple at hs; cases hs
  | ip, .comp i kw n fs emb fwd ms, _, ht => by
    unfold nameable at ht ⊢
    simp only [List.contains_iff_mem, Bool.or_eq_true] at ht ⊢
    exact ht.imp id (h _)
  | ip, .incomplete _ k n, _, ht => by
    unfold nameable at ht ⊢
    simp only [List.contains_iff_mem, Bool.or_eq_true] at ht ⊢
    exact ht.imp id (h _)
  | ip, .fn _ _ _ r ps, hs, ht => by
    unfold simple at hs
    unfold nameable at ht ⊢
    simp only [Bool.and_eq_true] at ht hs ⊢
    exact ⟨simple_nameable h ip r hs.1 ht.1, simple_paramsNameable h ps hs.2 ht.2⟩

theorem simple_paramsNameable {c d : CEnv} (h : ∀ x ∈ c.declared, x ∈ d.declared) : ∀ (ps : Params),
    simpleParams ps = true → paramsNameable e c ps = true → paramsNameable e d ps = true
  | .nil, _, _ => by unfold paramsNameable; rfl
  | .cons _ t _ rest, hs, ht => by
    unfold simpleParams at hs
    unfold paramsNameable at ht ⊢
    simp only [Bool.and_eq_true] at ht hs ⊢
    exact ⟨simple_nameable h true t hs.1 ht.1, simple_paramsNameable h rest hs.2 ht.2⟩
end

/-- From the invariant of the last state to the text. -/
theorem header_ok {Q : Ty → Prop} (hw : World e Q) (hsimple : ∀ i n t, Q (.tdef i n t) → simple t = true) {s : St H} (hi : Inv e Q [] s)
    (hlate : ∀ t ∈ s.late, e.hash t ∈ s.gen) (hnd : (s.comps.map (fun c => e.hash c.ty)).Nodup) :
    ∃ c, check e {} (visible [] (items s)) = some c ∧ (envOf e s).Le c := by
  have htags : ∀ x ∈ lateTags s.late, x ∈ s.fwds := by
    intro x hx
    obtain ⟨t, ht, hx⟩ := List.mem_filterMap.1 hx
    have hq := hi.late t ht
    cases t with
    | comp i kw n fs emb fwd ms =>
      have g := hi.gen _ hq.1 (hlate _ ht)
      unfold GenOk at g
      simp only [tagged] at hx
      split at hx
      · cases hx
      · rename_i hn
        cases hx
        exact g.1 hn
    | _ => cases hq.2
  obtain ⟨d1, c1, a1, b1, l1, f1, e1⟩ := sec_fwd e hw s.fwds [] {} hi.fwds ⟨by simp, by simp, by simp⟩
  have hdecl : ∀ x ∈ (envOf e s).declared, x ∈ c1.declared := by
    intro x hx
    rcases List.mem_append.1 hx with hx | hx
    · exact f1 x hx
    · exact f1 x (htags x hx)
  obtain ⟨d2, c2, a2, b2, l2, f2, e2⟩ := sec_td e hw s.tds d1 c1 (by
    intro x hx
    obtain ⟨i, hq, h⟩ := hi.tds x hx
    exact ⟨i, hq, simple_nameable e hdecl false _ (hsimple _ _ _ hq) (h.elim (fun h => by cases h) id)⟩) b1
  obtain ⟨d3, c3, a3, b3, l3, f3, e3⟩ := sec_en e hw s.ens d2 c2 hi.ens b2
  have hempty : c3.complete = [] := by rw [e3, e2, e1]
  have ht3 : ∀ x ∈ (envOf e s).tds, x ∈ c3.tds := by
    intro x hx
    obtain ⟨y, hy, rfl⟩ := List.mem_map.1 hx
    exact l3.tds _ (f2 y hy)
  have he3 : ∀ x ∈ (envOf e s).enums, x ∈ c3.enums := by
    intro x hx
    obtain ⟨y, hy, rfl⟩ := List.mem_map.1 hx
    exact f3 y hy
  obtain ⟨c4, a4, l4, f4⟩ := sec_comp e hw s.comps [] d3 c3 (envOf e s) hi.comps
    (fun x hx => l3.declared _ (l2.declared _ (hdecl x hx))) ht3 he3 (by simpa using hnd) b3
    ⟨by rw [hempty]; simp, by simp, by simp⟩
  refine ⟨c4, ?_, ⟨fun x hx => l4.declared _ (l3.declared _ (l2.declared _ (hdecl x hx))), ?_,
    fun x hx => l4.tds _ (ht3 x hx), fun x hx => l4.enums _ (he3 x hx)⟩⟩
  · unfold items
    rw [List.append_assoc, List.append_assoc, a1, a2, a3]
    exact a4
  · intro x hx
    obtain ⟨y, hy, rfl⟩ := List.mem_map.1 hx
    exact f4 y hy

end

end EasyMock.Emit
