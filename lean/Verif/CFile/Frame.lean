import Verif.CFile.Lemmas

/-! # CFile: a block of text inside another file -/

namespace EasyMock.CFile

/-- The declaration inside further scopes. -/
def Decl.under (S : List Scope) (d : Decl) : Decl := { d with scopes := S ++ d.scopes }

/-- The reader which has read other text before. -/
def Reader.behind (r0 r : Reader) : Reader :=
  ⟨r0.scopes ++ r.scopes, r.place, r.quote, r.escaped, r.piece, r0.decls ++ r.decls.map (Decl.under r0.scopes)⟩

theorem plain_behind {r0 r r' : Reader} {c : Char} (h : r.plain c = some r') :
    (Reader.behind r0 r).plain c = some (Reader.behind r0 r') := by
  obtain ⟨S, pl, q, e, p, D⟩ := r
  cases pl with
  | top =>
    simp only [Reader.plain, Reader.behind] at h ⊢
    by_cases h1 : c = '{'
    · simp only [h1, if_true] at h ⊢
      cases ho : opens p <;> simp only [ho] at h ⊢
      · cases h; simp [List.append_assoc]
      · cases h; rfl
      · cases h; rfl
      · cases h
    · simp only [h1, if_false] at h ⊢
      by_cases h2 : c = '}'
      · simp only [h2, if_true] at h ⊢
        split at h
        · cases h
        · rename_i hn
          simp only [not_or] at hn
          cases h
          simp [hn]
      · simp only [h2, if_false] at h ⊢
        by_cases h3 : c = ';'
        · simp only [h3, if_true] at h ⊢
          by_cases h4 : trim p = []
          · simp only [h4, if_true] at h ⊢
            cases h; rfl
          · simp only [h4, if_false] at h ⊢
            cases h
            simp [Decl.under]
        · simp only [h3, if_false] at h ⊢
          split at h
          · rename_i h4
            cases h
            simp [h4]
          · rename_i h4
            cases h
            simp only [h4, if_false]
  | inPart n =>
    simp only [Reader.plain, Reader.behind] at h ⊢
    by_cases h1 : c = '{'
    · simp only [h1, if_true] at h ⊢; cases h; rfl
    · simp only [h1, if_false] at h ⊢
      by_cases h2 : c = '}'
      · simp only [h2, if_true] at h ⊢; cases h; rfl
      · simp only [h2, if_false] at h ⊢; cases h; rfl
  | inBody t n =>
    simp only [Reader.plain, Reader.behind] at h ⊢
    by_cases h0 : c = '}' ∧ n = 0
    · simp only [h0, and_self, if_true] at h ⊢
      cases h
      simp [Decl.under]
    · simp only [h0, if_false] at h ⊢
      by_cases h1 : c = '{'
      · simp only [h1, if_true] at h ⊢; cases h; rfl
      · simp only [h1, if_false] at h ⊢
        by_cases h2 : c = '}'
        · simp only [h2, if_true] at h ⊢; cases h; rfl
        · simp only [h2, if_false] at h ⊢; cases h; rfl

theorem step_behind {r0 r r' : Reader} {c : Char} (h : r.step c = some r') :
    (Reader.behind r0 r).step c = some (Reader.behind r0 r') := by
  cases hq : r.quote with
  | none =>
    simp only [Reader.step, hq] at h
    have hq' : (Reader.behind r0 r).quote = none := hq
    simp only [Reader.step, hq']
    split at h
    · rename_i h1
      cases h
      rw [if_pos h1]
      rfl
    · rename_i h1
      rw [if_neg h1]
      exact plain_behind h
  | some q =>
    simp only [Reader.step, hq] at h
    have hq' : (Reader.behind r0 r).quote = some q := hq
    simp only [Reader.step, hq']
    have he : (Reader.behind r0 r).escaped = r.escaped := rfl
    rw [he]
    by_cases h1 : r.escaped = true
    · simp only [h1, if_true] at h ⊢; cases h; simp [Reader.behind, hq]
    · simp only [h1, if_false, Bool.false_eq_true] at h ⊢
      by_cases h2 : c = '\\'
      · simp only [h2, if_true] at h ⊢; cases h; simp [Reader.behind, hq]
      · simp only [h2, if_false] at h ⊢
        by_cases h3 : c = q
        · simp only [h3, if_true] at h ⊢; cases h; rfl
        · simp only [h3, if_false] at h ⊢; cases h; simp [Reader.behind, hq]

theorem feed_behind {r0 : Reader} : ∀ {l : List Char} {r r' : Reader}, l.foldlM Reader.step r = some r' →
    l.foldlM Reader.step (Reader.behind r0 r) = some (Reader.behind r0 r')
  | [], r, r', h => by cases h; rfl
  | c :: l, r, r', h => by
    rw [List.foldlM_cons] at h ⊢
    cases hs : r.step c with
    | none => rw [hs] at h; cases h
    | some r1 =>
      rw [hs] at h
      rw [step_behind hs]
      exact feed_behind (l := l) h

/-- The file which has read other text before. -/
def File.behind (f0 f : File) : File :=
  ⟨f.macros, f.conds ++ f0.conds, f0.includes ++ f.includes, Reader.behind f0.reader f.reader⟩

theorem active_behind {f0 f : File} (h : f0.active = true) : (File.behind f0 f).active = f.active := by
  simp only [File.active, File.behind, List.all_append] at h ⊢
  rw [h, Bool.and_true]

theorem directive_behind {f0 f f' : File} {n t : List Char} (ha : f0.active = true) (h : f.directive n t = some f') :
    (File.behind f0 f).directive n t = some (File.behind f0 f') := by
  unfold File.directive at h ⊢
  simp only [active_behind ha] at h ⊢
  by_cases h1 : n = kwIfndef
  · simp only [h1, if_true] at h ⊢; cases h; rfl
  · simp only [h1, if_false] at h ⊢
    by_cases h2 : n = kwIfdef
    · simp only [h2, if_true] at h ⊢; cases h; rfl
    · simp only [h2, if_false] at h ⊢
      by_cases h3 : n = kwEndif
      · simp only [h3, if_true] at h ⊢
        obtain ⟨m, cs, is, r⟩ := f
        cases cs with
        | nil => cases h
        | cons b cs => cases h; rfl
      · simp only [h3, if_false] at h ⊢
        by_cases h4 : n = kwDefine
        · simp only [h4, if_true] at h ⊢
          cases h
          split <;> rfl
        · simp only [h4, if_false] at h ⊢
          by_cases h5 : n = kwInclude
          · simp only [h5, if_true] at h ⊢
            cases h
            split
            · simp [File.behind, List.append_assoc]
            · rfl
          · simp only [h5, if_false] at h; cases h

theorem line_behind {f0 f f' : File} {l : List Char} (ha : f0.active = true) (h : f.line l = some f') :
    (File.behind f0 f).line l = some (File.behind f0 f') := by
  unfold File.line at h ⊢
  split at h
  · exact directive_behind ha h
  · rw [active_behind ha]
    by_cases hf : f.active = true
    · rw [if_pos hf] at h ⊢
      cases he : (l ++ ['\n']).foldlM Reader.step f.reader with
      | none => rw [he] at h; cases h
      | some r =>
        rw [he] at h
        have : (File.behind f0 f).reader = Reader.behind f0.reader f.reader := rfl
        rw [this, feed_behind he]
        cases h
        rfl
    · rw [if_neg hf] at h ⊢
      cases h
      rfl

theorem lines_behind {f0 : File} (ha : f0.active = true) : ∀ {ls : List (List Char)} {f f' : File},
    ls.foldlM File.line f = some f' → ls.foldlM File.line (File.behind f0 f) = some (File.behind f0 f')
  | [], f, f', h => by cases h; rfl
  | l :: ls, f, f', h => by
    rw [List.foldlM_cons] at h ⊢
    cases hs : f.line l with
    | none => rw [hs] at h; cases h
    | some f1 =>
      rw [hs] at h
      rw [line_behind ha hs]
      exact lines_behind ha h

/-! ## Text that does not count -/

theorem directive_off {f f' : File} {g : File} {cs : List Bool} {n t : List Char} (ha : g.active = false)
    (hl : cs.length = f.conds.length) (h : f.directive n t = some f') :
    ∃ cs', cs'.length = f'.conds.length ∧
      File.directive { g with conds := cs ++ g.conds } n t = some { g with conds := cs' ++ g.conds } := by
  have hoff : File.active { g with conds := cs ++ g.conds } = false := by
    simp only [File.active] at ha ⊢
    rw [List.all_append, ha, Bool.and_false]
  unfold File.directive at h ⊢
  simp only [hoff] at h ⊢
  by_cases h1 : n = kwIfndef
  · simp only [h1, if_true] at h ⊢; cases h; exact ⟨_ :: cs, by simp [hl], rfl⟩
  · simp only [h1, if_false] at h ⊢
    by_cases h2 : n = kwIfdef
    · simp only [h2, if_true] at h ⊢; cases h; exact ⟨_ :: cs, by simp [hl], rfl⟩
    · simp only [h2, if_false] at h ⊢
      by_cases h3 : n = kwEndif
      · simp only [h3, if_true] at h ⊢
        obtain ⟨m, ds, is, r⟩ := f
        cases ds with
        | nil => cases h
        | cons b ds =>
          cases h
          cases cs with
          | nil => simp at hl
          | cons b' cs => exact ⟨cs, by simpa using hl, rfl⟩
      · simp only [h3, if_false] at h ⊢
        by_cases h4 : n = kwDefine
        · simp only [h4, if_true] at h ⊢
          refine ⟨cs, ?_, by simp⟩
          cases h
          split <;> exact hl
        · simp only [h4, if_false] at h ⊢
          by_cases h5 : n = kwInclude
          · simp only [h5, if_true] at h ⊢
            refine ⟨cs, ?_, by simp⟩
            cases h
            split <;> exact hl
          · simp only [h5, if_false] at h; cases h

theorem line_off {f f' : File} {g : File} {cs : List Bool} {l : List Char} (ha : g.active = false)
    (hl : cs.length = f.conds.length) (h : f.line l = some f') :
    ∃ cs', cs'.length = f'.conds.length ∧
      File.line { g with conds := cs ++ g.conds } l = some { g with conds := cs' ++ g.conds } := by
  have hoff : File.active { g with conds := cs ++ g.conds } = false := by
    simp only [File.active] at ha ⊢
    rw [List.all_append, ha, Bool.and_false]
  unfold File.line at h ⊢
  split at h
  · exact directive_off ha hl h
  · refine ⟨cs, ?_, by simp [hoff]⟩
    by_cases hf : f.active = true
    · rw [if_pos hf] at h
      cases he : (l ++ ['\n']).foldlM Reader.step f.reader with
      | none => rw [he] at h; cases h
      | some r => rw [he] at h; cases h; exact hl
    · rw [if_neg hf] at h; cases h; exact hl

theorem lines_off {g : File} (ha : g.active = false) : ∀ {ls : List (List Char)} {f f' : File} {cs : List Bool},
    cs.length = f.conds.length → ls.foldlM File.line f = some f' →
    ∃ cs', cs'.length = f'.conds.length ∧
      ls.foldlM File.line { g with conds := cs ++ g.conds } = some { g with conds := cs' ++ g.conds }
  | [], f, f', cs, hl, h => by cases h; exact ⟨cs, hl, rfl⟩
  | l :: ls, f, f', cs, hl, h => by
    rw [List.foldlM_cons] at h
    cases hs : f.line l with
    | none => rw [hs] at h; cases h
    | some f1 =>
      rw [hs] at h
      obtain ⟨cs1, hl1, e1⟩ := line_off ha hl hs
      obtain ⟨cs2, hl2, e2⟩ := lines_off ha hl1 h
      exact ⟨cs2, hl2, by rw [List.foldlM_cons, e1]; exact e2⟩

/-! ## Blocks -/

theorem scans_of_lines {t : List Char} {ls : List (List Char)} (h0 : '\\' ∉ t) (h : linesOf t = some ls) : Scans t ls := by
  refine Scans.of h0 ?_
  unfold linesOf at h
  rw [join_id h0] at h
  split at h
  · rename_i e; cases h; exact e
  · cases h

theorem readFile_inv {m : List (List Char)} {t : String} {s : Seen} (h : readFile m t = some s) :
    ∃ ls, linesOf t.toList = some ls ∧ ls.foldlM File.line ⟨m, [], [], Reader.start⟩ =
      some ⟨s.macros, [], s.includes, ⟨[], .top, none, false, [], s.decls⟩⟩ := by
  unfold readFile at h
  cases hl : linesOf t.toList with
  | none => rw [hl] at h; cases h
  | some ls =>
    rw [hl] at h
    simp only at h
    refine ⟨ls, rfl, ?_⟩
    split at h
    · rename_i e; cases h; exact e
    · cases h

/-- A text which is a file of its own, inside another one. -/
theorem Runs.block {f : File} {t : String} {s : Seen} (h0 : '\\' ∉ t.toList) (h : readFile f.macros t = some s)
    (hr : AtTop f.reader) (ha : f.active = true) :
    Runs f t.toList ⟨s.macros, f.conds, f.includes ++ s.includes,
      { f.reader with decls := f.reader.decls ++ s.decls.map (Decl.under f.reader.scopes) }⟩ := by
  obtain ⟨ls, hl, e⟩ := readFile_inv h
  refine ⟨ls, scans_of_lines h0 hl, ?_⟩
  have := lines_behind ha e
  have e1 : File.behind f ⟨f.macros, [], [], Reader.start⟩ = f := by
    obtain ⟨m, cs, is, ⟨S, pl, q, es, p, D⟩⟩ := f
    obtain ⟨h1, h2, h3, h4⟩ := hr
    simp only at h1 h2 h3 h4
    subst h1 h2 h3 h4
    simp [File.behind, Reader.behind, Reader.start]
  rw [e1] at this
  rw [this]
  obtain ⟨m, cs, is, ⟨S, pl, q, es, p, D⟩⟩ := f
  obtain ⟨h1, h2, h3, h4⟩ := hr
  simp only at h1 h2 h3 h4
  subst h1 h2 h3 h4
  simp [File.behind, Reader.behind]

/-- The same text where it does not count. -/
theorem Runs.blockOff {f : File} {m : List (List Char)} {t : String} {s : Seen} (h0 : '\\' ∉ t.toList)
    (h : readFile m t = some s) (ha : f.active = false) : Runs f t.toList f := by
  obtain ⟨ls, hl, e⟩ := readFile_inv h
  refine ⟨ls, scans_of_lines h0 hl, ?_⟩
  obtain ⟨cs', hl', e'⟩ := lines_off ha (cs := []) rfl e
  have : cs' = [] := by simpa using hl'
  subst this
  simpa using e'

end EasyMock.CFile
