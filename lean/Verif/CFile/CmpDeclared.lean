import Verif.CFile.SourceRead
import Verif.CDecl.Lists

/-!
# CFile: the declarations of comparators

The signatures of the comparators (`CodeGeneratorCTemplate.cpp` 444-448) read as declarations.
-/

namespace EasyMock.CFile

open EasyMock.CDecl

/-- `int (const void *, const void *, const char *, char *)`: the type of a matcher, `easyMock.h`. -/
def matcherSem : Sem :=
  .fn (.named ["int".toList])
    (.cons (.ptr (.qual "const".toList (.named ["void".toList]))) (.cons (.ptr (.qual "const".toList (.named ["void".toList])))
      (.cons (.ptr (.qual "const".toList (.named ["char".toList]))) (.cons (.ptr (.named ["char".toList])) .nil)))) false

/-- What is declared for a comparator. -/
def cmpDeclared (n : String) : List (List Char × Sem) :=
  [(("cmp_" ++ n).toList, matcherSem), (("cmp_deref_ptr_" ++ n).toList, matcherSem)]

theorem ident_wordChar {c : Char} (h : identChar c = true) : wordChar c = true := by
  unfold identChar at h
  unfold wordChar
  rw [h]; rfl

theorem cmp_word {n : String} (h : Ident n.toList) : Word ("cmp_" ++ n) ∧ Word ("cmp_deref_ptr_" ++ n) := by
  have c : ∀ p : String, (∀ c ∈ p.toList, wordChar c = true) → p.toList.take 2 = ['c', 'm'] → Word (p ++ n) := by
    intro p hp hc
    have hl : ∃ r, p.toList = 'c' :: 'm' :: r := ⟨p.toList.drop 2, by rw [← List.take_append_drop 2 p.toList, hc]; simp⟩
    obtain ⟨r, hr⟩ := hl
    refine ⟨?_, ?_, ?_⟩
    · intro e
      have := congrArg String.toList e
      rw [String.toList_append, hr] at this
      cases this
    · intro c hc
      rw [String.toList_append] at hc
      rcases List.mem_append.mp hc with hc | hc
      · exact hp c hc
      · exact ident_wordChar (h.2 c hc)
    · rw [String.toList_append, hr, List.cons_append, List.cons_append]
      have q : ∀ w : String, (∀ s, w.toList ≠ 'c' :: 'm' :: s) → ('c' :: 'm' :: (r ++ n.toList) == w.toList) = false := by
        intro w hw
        rw [beq_eq_false_iff_ne]
        exact fun e => hw _ e.symm
      have d : ∀ w : String, w.toList.take 2 ≠ ['c', 'm'] → ∀ s, w.toList ≠ 'c' :: 'm' :: s := by
        intro w hw s e
        rw [e] at hw
        exact hw rfl
      unfold isQual
      show (('c' :: 'm' :: (r ++ n.toList) == _) || _ || _ || _) = false
      rw [q "const" (d _ (by decide)), q "volatile" (d _ (by decide)), q "restrict" (d _ (by decide)), q "__restrict" (d _ (by decide))]
      rfl
  exact ⟨c _ (by decide +kernel) (by decide +kernel), c _ (by decide +kernel) (by decide +kernel)⟩

theorem read_cmp {n : String} (h : Word n) :
    read ("int " ++ n ++ "(const void *currentCall_ptr, const void *expectedCall_ptr, const char *paramName, char *errorMessage )") =
      some (n.toList, matcherSem) := by
  have e : ("int " ++ n ++ "(const void *currentCall_ptr, const void *expectedCall_ptr, const char *paramName, char *errorMessage )").toList =
      "int".toList ++ ' ' :: (n.toList ++ '(' ::
        ("const void *currentCall_ptr, const void *expectedCall_ptr, const char *paramName, char *errorMessage ".toList ++ ')' :: [])) := by
    have a : "int ".toList = "int".toList ++ [' '] := by decide +kernel
    have b : "(const void *currentCall_ptr, const void *expectedCall_ptr, const char *paramName, char *errorMessage )".toList =
        '(' :: ("const void *currentCall_ptr, const void *expectedCall_ptr, const char *paramName, char *errorMessage ".toList ++ [')']) := by
      decide +kernel
    rw [String.toList_append, String.toList_append, a, b]
    simp only [List.append_assoc, List.cons_append, List.nil_append]
  have t : toks "const void *currentCall_ptr, const void *expectedCall_ptr, const char *paramName, char *errorMessage ".toList =
      [.word "const".toList, .word "void".toList, .star, .word "currentCall_ptr".toList, .comma,
       .word "const".toList, .word "void".toList, .star, .word "expectedCall_ptr".toList, .comma,
       .word "const".toList, .word "char".toList, .star, .word "paramName".toList, .comma,
       .word "char".toList, .star, .word "errorMessage".toList] := by decide +kernel
  rw [read_eq, e, sig_toks _ h, t, show toks "int".toList = [.word "int".toList] from by decide +kernel, show toks [] = [] from rfl]
  have hq : isQual n.toList = false := h.2.2
  have s1 : run (some (.spec [], [])) ([.word "int".toList] ++ ([.word n.toList] ++ ([Tok.open] ++ ([Tok.word "const".toList] : List Tok)))) =
      some (.spec ["const".toList], [{ name := n.toList, ws := ["int".toList], l := [], ls := [], params := .nil }]) := by
    show CDecl.step (some (.pend ["int".toList, n.toList], [])) (.word "const".toList) = _
    unfold CDecl.step
    have f : (["int".toList].filter (fun w => !isQual w)) = ["int".toList] := by decide
    simp only [List.getLast?_cons_cons, List.getLast?_singleton]
    rw [show ["int".toList, n.toList].dropLast = ["int".toList] from rfl, f, hq]
    simp only [Bool.false_eq_true, or_false, if_neg (List.cons_ne_nil _ _)]
    rfl
  generalize hw : "const".toList = cw at *
  have s2 : ∀ ts, run (some (.spec [], [])) ([.word "int".toList] ++ ([.word n.toList] ++ ([Tok.open] ++ ((Tok.word cw :: ts) ++ [.close] ++ [])))) =
      run (some (.spec [cw], [{ name := n.toList, ws := ["int".toList], l := [], ls := [], params := .nil }])) (ts ++ [.close]) := by
    intro ts
    have : ([.word "int".toList] ++ ([.word n.toList] ++ ([Tok.open] ++ ((Tok.word cw :: ts) ++ [.close] ++ [])))) =
        ([.word "int".toList] ++ ([.word n.toList] ++ ([Tok.open] ++ [Tok.word cw]))) ++ (ts ++ [.close]) := by simp
    rw [this, run_append, s1]
  rw [s2]
  subst hw
  rfl

/-- The declarations of a comparator. -/
theorem cmps_read {n : String} (h : Ident n.toList) :
    [cmpSignature n, cmpDerefSignature n].map read = (cmpDeclared n).map some := by
  have e1 : cmpSignature n = "int " ++ ("cmp_" ++ n) ++
      "(const void *currentCall_ptr, const void *expectedCall_ptr, const char *paramName, char *errorMessage )" := by
    have : "int cmp_" = "int " ++ "cmp_" := by decide +kernel
    unfold cmpSignature; rw [this]; simp only [sassoc]
  have e2 : cmpDerefSignature n = "int " ++ ("cmp_deref_ptr_" ++ n) ++
      "(const void *currentCall_ptr, const void *expectedCall_ptr, const char *paramName, char *errorMessage )" := by
    have : "int cmp_deref_ptr_" = "int " ++ "cmp_deref_ptr_" := by decide +kernel
    unfold cmpDerefSignature; rw [this]; simp only [sassoc]
  show [read _, read _] = [some _, some _]
  rw [e1, e2, read_cmp (cmp_word h).1, read_cmp (cmp_word h).2]

end EasyMock.CFile
