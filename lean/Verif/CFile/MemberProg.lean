import Verif.CFile.MemberText
import Verif.CFile.TypesFile
import Verif.Emit.Good

/-! # CFile: every composite type of the functions is a record of the program, and its text defines that record -/

namespace EasyMock.CFile.TypeDecl

open EasyMock.Types (Ty Fields Params Kw FunDecl)
open EasyMock.CFile.Txt (CName)
open EasyMock.Emit (tagOf Faithful children fieldTypes bitTypes paramTypes Occ)
open EasyMock.Parser (CTy Q Decls FieldD Den DenT DenFs DenPs Wraps)

/-- `t` describes a type of the program, perhaps the one behind the name of a typedef. -/
def Desc (D : Decls) (s : Bool) (t : Ty) : Prop := (∃ v q, Den D s v q t) ∨ ∃ v n c, DenT D s v n c t

theorem den_desc {D : Decls} {s v : Bool} {q : Q} {t : Ty} (h : Den D s v q t) : Desc D s t := Or.inl ⟨v, q, h⟩

theorem denFs_desc {D : Decls} {s : Bool} : ∀ {l : List FieldD} {fs : Fields}, DenFs D s l fs → ∀ u ∈ fieldTypes fs ++ bitTypes fs, Desc D s u
  | _, _, .nil, u, hu => by simp [fieldTypes, bitTypes] at hu
  | _, _, .field _ hd hr _, u, hu => by
    rw [fieldTypes, bitTypes] at hu
    rcases List.mem_cons.1 hu with rfl | hu
    · exact den_desc hd
    · exact denFs_desc hr u hu
  | _, _, .bit _ hd hr, u, hu => by
    rw [fieldTypes, bitTypes] at hu
    rcases List.mem_append.1 hu with hu | hu
    · exact denFs_desc hr u (List.mem_append_left _ hu)
    · rcases List.mem_cons.1 hu with rfl | hu
      · exact den_desc hd
      · exact denFs_desc hr u (List.mem_append_right _ hu)

theorem denPs_desc {D : Decls} {s : Bool} : ∀ {qs : Parser.Qs} {ps : Params}, DenPs D s qs ps → ∀ u ∈ paramTypes ps, Desc D s u
  | _, _, .nil, u, hu => by simp [paramTypes] at hu
  | _, _, .cons hd hr, u, hu => by
    rw [paramTypes] at hu
    rcases List.mem_cons.1 hu with rfl | hu
    · exact den_desc hd
    · exact denPs_desc hr u hu

/-- What a typedef stands for. -/
theorem wraps_child {D : Decls} {s : Bool} {name : String} {core t u : Ty} (w : Wraps name core t) (hc : Desc D s core)
    (hk : ∀ u ∈ children core, Desc D s u) (hu : u ∈ children t) : Desc D s u := by
  rcases w with ⟨-, rfl⟩ | ⟨-, rfl⟩
  · exact hk u hu
  · rw [children, List.mem_singleton] at hu
    exact hu ▸ hc

mutual
theorem den_child {D : Decls} {s : Bool} : ∀ {v : Bool} {q : Q} {t u : Ty}, Den D s v q t → u ∈ children t → Desc D s u
  | _, _, _, _, .plain h, hu => denT_child h hu
  | _, _, _, _, .const h, hu => by
    rw [children, List.mem_singleton] at hu
    exact hu ▸ Or.inr ⟨_, _, _, h⟩

theorem denT_child {D : Decls} {s : Bool} : ∀ {v : Bool} {n : String} {c : CTy} {t u : Ty}, DenT D s v n c t → u ∈ children t → Desc D s u
  | v, _, _, _, _, .builtin hs w, hu => wraps_child w (Or.inr ⟨v, "", _, .builtin hs (Or.inl ⟨rfl, rfl⟩)⟩) (fun u hu => by simp [children] at hu) hu
  | v, _, _, _, _, .ptr h w, hu => wraps_child w (Or.inr ⟨v, "", _, .ptr h (Or.inl ⟨rfl, rfl⟩)⟩)
      (fun u hu => by rw [children, List.mem_singleton] at hu; exact hu ▸ den_desc h) hu
  | v, _, _, _, _, .ref h w, hu => wraps_child w (Or.inr ⟨v, "", _, .ref h (Or.inl ⟨rfl, rfl⟩)⟩)
      (fun u hu => by rw [children, List.mem_singleton] at hu; exact hu ▸ den_desc h) hu
  | _, _, _, _, _, .arr h, hu => den_child h hu
  | v, _, _, _, _, .enum w, hu => wraps_child w (Or.inr ⟨v, "", _, .enum (Or.inl ⟨rfl, rfl⟩)⟩) (fun u hu => by simp [children] at hu) hu
  | _, _, _, _, _, .fn h hp, hu => by
    rw [children] at hu
    rcases List.mem_cons.1 hu with rfl | hu
    · exact den_desc h
    · exact denPs_desc hp _ hu
  | v, _, _, _, _, .record h w he, hu => wraps_child w (Or.inr ⟨v, "", _, .record h (Or.inl ⟨rfl, rfl⟩) (fun h => ⟨rfl, (he h).2⟩)⟩)
      (fun u hu => by rw [children] at hu; exact denFs_desc h u hu) hu
  | _, _, _, _, _, .tag _ _, hu => by simp [children] at hu
end

/-- `t` is what the parser makes of the record `id`. -/
def OfRecord (D : Decls) (s : Bool) (id : Nat) : Ty → Prop
  | .comp _ kw n fs _ _ _ => kw = (D.records id).kw ∧ n = (D.records id).tag ∧ DenFs D s (writtenMembers D id) fs
  | _ => False

/-- A composite type with its members. -/
def IsComp : Ty → Prop
  | .comp .. => True
  | _ => False

theorem wraps_comp {name : String} {core t : Ty} (w : Wraps name core t) (h : IsComp t) : t = core := by
  rcases w with ⟨-, rfl⟩ | ⟨-, rfl⟩
  · rfl
  · exact h.elim

mutual
theorem den_comp {D : Decls} {s : Bool} : ∀ {v : Bool} {q : Q} {t : Ty}, Den D s v q t → IsComp t → ∃ id, OfRecord D s id t
  | _, _, _, .plain h, hc => denT_comp h hc
  | _, _, _, .const _, hc => hc.elim

theorem denT_comp {D : Decls} {s : Bool} :
    ∀ {v : Bool} {n : String} {c : CTy} {t : Ty}, DenT D s v n c t → IsComp t → ∃ id, OfRecord D s id t
  | _, _, _, _, .builtin _ w, hc | _, _, _, _, .ptr _ w, hc | _, _, _, _, .ref _ w, hc | _, _, _, _, .enum w, hc => by
    have := wraps_comp w hc
    subst this
    exact hc.elim
  | _, _, _, _, .arr h, hc => den_comp h hc
  | _, _, _, _, .fn .., hc => hc.elim
  | _, _, _, _, @DenT.record _ _ _ _ id _ _ _ h w _, hc => by
    have := wraps_comp w hc
    subst this
    exact ⟨id, rfl, rfl, h⟩
  | _, _, _, _, .tag .., hc => hc.elim
end

/-- A composite type describes a record. -/
theorem desc_comp {D : Decls} {s : Bool} {t : Ty} (h : Desc D s t) (hc : IsComp t) : ∃ id, OfRecord D s id t := by
  rcases h with ⟨v, q, h⟩ | ⟨v, m, c, h⟩
  · exact den_comp h hc
  · exact denT_comp h hc

theorem desc_child {D : Decls} {s : Bool} {t u : Ty} (h : Desc D s t) (hu : u ∈ children t) : Desc D s u := by
  rcases h with ⟨v, q, h⟩ | ⟨v, m, c, h⟩
  · exact den_child h hu
  · exact denT_child h hu

theorem paramsOf_desc {D : Decls} : ∀ {ds : List Parser.ParamD} {ps : Params}, CDecl.ParamsOf D ds ps → ∀ u ∈ paramTypes ps, Desc D false u
  | _, _, .nil, u, hu => by simp [paramTypes] at hu
  | _, _, .cons hd _ _ _ hr, u, hu => by
    rw [paramTypes] at hu
    rcases List.mem_cons.1 hu with rfl | hu
    · exact den_desc hd
    · exact paramsOf_desc hr u hu

/-- Every type of the functions of a file describes a type of the program. -/
theorem occ_desc {D : Decls} {ms : Parser.MacroInfo} {ds : List Parser.FnD} {fs : List FunDecl} (hp : CDecl.ParsedFile D ms ds fs)
    (hA : Parser.Unambiguous D (Parser.Used D (ds.flatMap CDecl.typesOf))) (hC : Parser.NamedCycles D (Parser.Used D (ds.flatMap CDecl.typesOf)))
    {b : Bool} {t : Ty} (h : Occ fs b t) : Desc D false t := by
  obtain ⟨hl, hf⟩ := CDecl.parsed_ok hp hA hC
  have key : ∀ f ∈ fs, ∃ d, CDecl.FnOf D ms d f := by
    intro f hm
    obtain ⟨i, hi⟩ := List.mem_iff_getElem?.mp hm
    have hlt : i < ds.length := by
      rw [← hl]
      exact (List.getElem?_eq_some_iff.1 hi).1
    exact ⟨ds[i], hf i ds[i] f (List.getElem?_eq_getElem hlt) hi⟩
  induction h with
  | ret hm =>
    obtain ⟨d, hd⟩ := key _ hm
    exact den_desc hd.ret
  | param hm ht =>
    obtain ⟨d, hd⟩ := key _ hm
    exact paramsOf_desc hd.params _ ht
  | child _ hu ih => exact desc_child ih hu

/-- The text of a composite type defines the record. -/
theorem comp_prog {H : Type} (e : Emit.Env H) {num : Ty → String → Nat} {D : Decls} {s : Bool} {id : Nat} {g : String} {c : Emit.Comp} (hf : Faithful e c)
    (hn : CName (tagOf e c.ty)) (hD : ∀ id, ∀ f ∈ writtenMembers D id, MemberOk D f) (ho : OfRecord D s id c.ty) :
    ∃ T, Body (itemBody e num (.comp g c.decl)).toList T ∧ RecordOf D T id (tagOf e c.ty) := by
  obtain ⟨t, gd, d⟩ := c
  obtain ⟨kw', n', body, ds⟩ := d
  cases t with
  | comp i kw n fs emb fwd ms =>
    obtain ⟨h0, rfl, rfl, rfl, hm⟩ := hf
    obtain ⟨o1, o2, o3⟩ := ho
    obtain ⟨ts, h1, h2, h3, h4⟩ := members_prog e num hD fs ds _ hm o3 (hD id)
    obtain ⟨T, head, body, tail, eT, p, hB, hw, ht, hH⟩ := record_piece (num := num) (kw := kw') (field := "") (Or.inr hn)
      (by decide +kernel) (by decide +kernel) (by decide +kernel) h1 h2 h3
    refine ⟨T, ?_, head, body, tail, ts, hB, ?_, by rw [ht]; rfl, hH, h4⟩
    · show Body ("//GENERATED_TYPE_SECTION\n" ++ recordText num "" _ ++ "\n").toList T
      rw [String.toList_append, String.toList_append]
      refine Body.behind (Body.front ?_ section_scans (by simp)) newline_scans (by simp)
      rw [eT]
      exact p.block.body
    · rw [hw, if_neg hn.word.1, ← o1]
  | ctype => exact hf.elim
  | ptr => exact hf.elim
  | ref => exact hf.elim
  | const => exact hf.elim
  | tdef => exact hf.elim
  | enum => exact hf.elim
  | incomplete => exact hf.elim
  | fn => exact hf.elim

end EasyMock.CFile.TypeDecl
