import Verif.CFile.Meaning
import Verif.CFile.SourceRead

/-! # CFile: the lines of the generated source are the statements of the abstract syntax -/

namespace EasyMock.CFile

open EasyMock.Gen

variable {c : Config} {f : SrcFun}

theorem items_flatten : ∀ (l : List (List Line)), items l.flatten = (l.map items).flatten
  | [] => rfl
  | a :: l => by rw [List.flatten_cons, items_append, items_flatten l, List.map_cons, List.flatten_cons]

theorem items_map {α : Type} (g : α → List Line) (h : α → List Item) (l : List α) (e : ∀ x ∈ l, items (g x) = h x) :
    items (l.map g).flatten = (l.map h).flatten := by
  rw [items_flatten, List.map_map]
  congr 1
  exact List.map_congr_left e

/-- The item of a line with another text. -/
theorem stm_eq {a b : String} (h : a = b) : Item.stmt a.toList = Item.stmt b.toList := by rw [h]

/-! ## The mock -/

theorem leaves_eq (s : FunSection) (r : List Line) : items (returnLine s :: r) = leaves s :: items r := rfl

theorem default_items (f : SrcFun) (a b : String) :
    items (.stmt a "" :: .stmt b "" :: .empty :: defaultLines f) = [says a, says b] ++ items (defaultLines f) := rfl

theorem prelude_items (f : SrcFun) :
    items ([line "easyMock_bool printCallStack = easyMock_printCallStack()",
      line "easyMock_bool checkCallsOrder = easyMock_checkCallsOrder()", .empty] ++ defaultLines f) = preludeItems f := by
  unfold preludeItems defaultLines
  cases f.sec.hasReturn with
  | false => rfl
  | true => cases f.result <;> rfl

theorem unexpected_text (n : String) :
    "easyMock_addError(printCallStack, \"Error : unexpected call of '%s'. " ++ n ++
       " is returning a random value.\", MockedFunction_getName(&mocked_" ++ n ++ "))" =
    "easyMock_addError(printCallStack, \"Error : unexpected call of '%s'." ++ (" " ++ n ++ " is returning a random value.") ++
      "\", MockedFunction_getName(&mocked_" ++ n ++ "))" := by
  have e1 : "easyMock_addError(printCallStack, \"Error : unexpected call of '%s'. " =
    "easyMock_addError(printCallStack, \"Error : unexpected call of '%s'." ++ " " := by decide +kernel
  have e2 : " is returning a random value.\", MockedFunction_getName(&mocked_" =
    " is returning a random value." ++ "\", MockedFunction_getName(&mocked_" := by decide +kernel
  rw [e1, e2]; simp only [sassoc]

theorem unexpected_void (n : String) :
    "easyMock_addError(printCallStack, \"Error : unexpected call of '%s'.\", MockedFunction_getName(&mocked_" ++ n ++ "))" =
    "easyMock_addError(printCallStack, \"Error : unexpected call of '%s'." ++ "" ++
      "\", MockedFunction_getName(&mocked_" ++ n ++ "))" := by
  have e1 : "easyMock_addError(printCallStack, \"Error : unexpected call of '%s'.\", MockedFunction_getName(&mocked_" =
    "easyMock_addError(printCallStack, \"Error : unexpected call of '%s'." ++ "" ++ "\", MockedFunction_getName(&mocked_" := by
    decide +kernel
  rw [e1]

theorem first_items (f : SrcFun) : items ([.enter ("if(!MockedFunction_addActualCall(&mocked_" ++ f.sec.name ++ "))"),
   (if f.sec.hasReturn then
     line ("easyMock_addError(printCallStack, \"Error : unexpected call of '%s'. " ++ f.sec.name ++
       " is returning a random value.\", MockedFunction_getName(&mocked_" ++ f.sec.name ++ "))")
    else
     line ("easyMock_addError(printCallStack, \"Error : unexpected call of '%s'.\", MockedFunction_getName(&mocked_" ++
       f.sec.name ++ "))")),
   returnLine f.sec,
   .leave, .empty,
   line (srcDataType f.sec ++ " currentDataCall"),
   .enter ("if (!MockedFunction_getCurrentCallParam(&mocked_" ++ f.sec.name ++ ", &currentDataCall))"),
   line "easyMock_addError(printCallStack, \"BUG IN EASYMOCK: CONTACT THE DEVELOPER TO FIX THIS\")",
   returnLine f.sec,
   .leave, .empty]) = stmtItems c f.sec .addActualCall ++ stmtItems c f.sec .getCurrentCallParam := by
  unfold stmtItems leaves returnLine
  cases f.sec.hasReturn with
  | false =>
    simp only [Bool.false_eq_true, if_false]
    rw [← unexpected_void]
    rfl
  | true =>
    simp only [if_true]
    rw [← unexpected_text]
    rfl

theorem differs_text (n : String) (e t : String) (h : t = "), " ++ e ++ ")") :
    "easyMock_addError(printCallStack, \"Error : at call %d of '%s': %s\", MockedFunction_getNbActualCall(&mocked_" ++ n ++
      "), MockedFunction_getName(&mocked_" ++ n ++ t =
    "easyMock_addError(printCallStack, \"Error : at call %d of '%s': %s\", MockedFunction_getNbActualCall(&mocked_" ++ n ++
      "), MockedFunction_getName(&mocked_" ++ n ++ "), " ++ e ++ ")" := by
  rw [h]; simp only [sassoc]

theorem instance_items (s : FunSection) :
    items (instanceLines s) = ((if s.cls.isSome then [MockCode.Stmt.checkInstance "instance"] else []).map (stmtItems c s)).flatten := by
  unfold instanceLines
  cases s.cls.isSome with
  | false => rfl
  | true =>
    simp only [if_true, List.map_cons, List.map_nil, List.flatten_cons, List.flatten_nil, List.append_nil]
    unfold stmtItems differs
    rw [← differs_text s.name "errorMessage.str().c_str()" "), errorMessage.str().c_str())" (by decide +kernel)]
    have e1 : "if(currentDataCall." ++ "instance" ++ " && currentDataCall." ++ "instance" ++ " != this)" =
      "if(currentDataCall.instance && currentDataCall.instance != this)" := by decide +kernel
    have e2 : "errorMessage << \"Expecting this object being \" << currentDataCall." ++ "instance" ++
      " << \", got this = \" << this << std::endl" =
      "errorMessage << \"Expecting this object being \" << currentDataCall.instance << \", got this = \" << this << " ++ "std::endl" := by
      decide +kernel
    simp only
    rw [e1, e2]
    rfl

theorem check_items (s : FunSection) (e : String × String × Gen.Out × XDecl) :
    items (checkLines c s e) = stmtItems c s (.check (MockCode.matchMember s e.2.1) e.2.1 e.2.1 e.2.1) := by
  have m2 : ∀ a : String, a ++ dataPrefix s ++ "_match_" ++ e.2.1 = a ++ MockCode.matchMember s e.2.1 := by
    intro a; unfold MockCode.matchMember; simp only [sassoc]
  unfold checkLines stmtItems differs
  simp only [m2]
  cases c.cpp with
  | true =>
    simp only [if_true]
    rw [← differs_text s.name "errorMessage.str().c_str()" "), errorMessage.str().c_str())" (by decide +kernel)]
    rfl
  | false =>
    simp only [Bool.false_eq_true, if_false]
    rw [← differs_text s.name "errorMessage" "), errorMessage)" (by decide +kernel)]
    rfl

theorem copy_items (s : FunSection) (e : String × String × Gen.Out × XDecl) (i : Nat) :
    items (copyLines e) = stmtItems c s (.copyOut ("out_" ++ e.2.1) e.2.1
      (if e.2.2.1 == .sized then .inl ("out_" ++ e.2.1 ++ "_size") else .inr i)) := by
  have e1 : "if(currentDataCall.out_" = "if(currentDataCall." ++ "out_" := by decide +kernel
  have e2 : ", (void*)currentDataCall.out_" = ", (void*)currentDataCall." ++ "out_" := by decide +kernel
  have e3 : ", currentDataCall.out_" = ", " ++ "currentDataCall." ++ "out_" := by decide +kernel
  have e4 : "_size)" = "_size" ++ ")" := by decide +kernel
  have e5 : ", sizeof(*" = ", " ++ "sizeof(*" := by decide +kernel
  have e6 : "))" = ")" ++ ")" := by decide +kernel
  unfold copyLines
  rw [e1, e2]
  cases h : (e.2.2.1 == Gen.Out.sized) with
  | true =>
    simp only [if_true]
    unfold stmtItems blk
    simp only
    rw [e3, e4]
    show [Item.enter _, Item.stmt _, Item.leave] = [Item.enter _, Item.stmt _, Item.leave]
    simp only [sassoc]
  | false =>
    simp only [Bool.false_eq_true, if_false]
    unfold stmtItems blk
    simp only
    rw [e5, e6]
    show [Item.enter _, Item.stmt _, Item.leave] = [Item.enter _, Item.stmt _, Item.leave]
    simp only [sassoc]

theorem result_items (s : FunSection) :
    items (if s.hasReturn then [line ("default_res = currentDataCall." ++ dataPrefix s ++ "_returnValue")] else []) =
      ((if s.hasReturn then [MockCode.Stmt.setResult (MockCode.retMember s)] else []).map (stmtItems c s)).flatten := by
  cases s.hasReturn with
  | false => rfl
  | true =>
    show [Item.stmt _] = [Item.stmt _]
    unfold MockCode.retMember
    rw [sassoc]

theorem order_items (s : FunSection) :
    items [.empty,
       line "CSTRING_AUTOCLEAN(currentCall) = easyMock_popCurrentCall()",
       .enter "if(checkCallsOrder)",
       line ("const char* curFuncCall = MockedFunction_getName(&mocked_" ++ s.name ++ ")"),
       .enter "if(cstring_compare_const_char(&currentCall, curFuncCall) != 0)",
       line ("easyMock_addError(printCallStack, \"Error : got call to '%s',  but was expecting call to '%s'\", " ++
         "MockedFunction_getName(&mocked_" ++ s.name ++ "), cstring_c_str(&currentCall))"),
       returnLine s,
       .leave, .leave] = stmtItems c s .checkOrder := rfl

theorem copies_items (s : FunSection) : ∀ (l : List (String × String × Gen.Out × XDecl)) (i : Nat),
    items (l.map copyLines).flatten = (((l.zipIdx i).map (fun e => MockCode.Stmt.copyOut ("out_" ++ e.1.2.1) e.1.2.1
      (if e.1.2.2.1 == .sized then .inl ("out_" ++ e.1.2.1 ++ "_size") else .inr e.2))).map (stmtItems c s)).flatten
  | [], _ => rfl
  | e :: l, i => by
    rw [List.map_cons, List.flatten_cons, items_append, copies_items s l (i + 1), List.zipIdx_cons, List.map_cons, List.map_cons,
      List.flatten_cons, copy_items (c := c) s e i]

theorem return_items (s : FunSection) :
    items (if s.hasReturn then [.empty, line "return default_res"] else []) = stmtItems c s .ret := by
  unfold stmtItems
  cases s.hasReturn <;> rfl

theorem mock_items (c : Config) (f : SrcFun) : items (mockLines c f) = mockItems c f := by
  have hc := items_map (checkLines c f.sec)
    (fun e => stmtItems c f.sec (.check (MockCode.matchMember f.sec e.2.1) e.2.1 e.2.1 e.2.1)) f.sec.params.entries
    (fun e _ => check_items f.sec e)
  unfold mockLines mockFront mockBack mockItems MockCode.mockBody
  rw [items_append, items_append, items_append, items_append, prelude_items, first_items (c := c), instance_items (c := c),
    items_append, items_append, items_append, result_items (c := c), order_items (c := c), copies_items (c := c) f.sec _ 0,
    return_items (c := c)]
  rw [hc]
  simp only [List.map_append, List.flatten_append, List.map_cons, List.map_nil, List.flatten_cons, List.flatten_nil, List.append_nil,
    List.append_assoc, List.map_map, Function.comp_def]

/-! ## The data structure and the Expect functions -/

theorem member_items (type : MemberType) (name behind cm1 cm2 : String) :
    items (match type with
      | .reference raw deref => referenceLines raw deref name cm1
      | .regular t => [.stmt (t ++ " " ++ name ++ behind) cm2]) = memberItems type name behind := by
  cases type with
  | regular t => rfl
  | reference raw deref =>
    have e1 : " default_" = " " ++ "default_" := by decide +kernel
    have e2 : "> " = ">" ++ " " := by decide +kernel
    unfold memberItems referenceLines declares
    simp only
    rw [e1, e2]
    show [Item.stmt _, Item.stmt _] = [Item.stmt _, Item.stmt _]
    simp only [sassoc, String.append_empty]

theorem param_items (p : (String × String × Gen.Out × XDecl) × MemberType) (s : FunSection) :
    items (paramLines c s p) = memberItems p.2 p.1.2.1 p.1.2.2.2.text ++
      [declares (if c.cpp then "::EasyMock::EasyMock_Matcher_Cpp<" ++ p.1.1 ++ ">" else "EasyMock_Matcher")
        (MockCode.matchMember s p.1.2.1) ""] := by
  unfold paramLines
  rw [items_append]
  congr 1
  · rw [← member_items p.2 p.1.2.1 p.1.2.2.2.text "Reference member section" "Regular member section"]
    cases p.2 <;> rfl
  unfold declares MockCode.matchMember
  cases c.cpp with
  | true =>
    have e2 : "> " = ">" ++ " " := by decide +kernel
    simp only [if_true]
    rw [e2]
    show [Item.stmt _] = [Item.stmt _]
    simp only [sassoc, String.append_empty]
  | false =>
    have e2 : "EasyMock_Matcher " = "EasyMock_Matcher" ++ " " := by decide +kernel
    simp only [Bool.false_eq_true, if_false]
    rw [e2]
    show [Item.stmt _] = [Item.stmt _]
    simp only [sassoc, String.append_empty]

theorem out_items (e : String × String × Gen.Out × XDecl) :
    items (outLines e) = declares e.1 ("out_" ++ e.2.1) "" ::
      (if e.2.2.1 == .sized then [declares "easyMock_size_t" ("out_" ++ e.2.1 ++ "_size") ""] else []) := by
  have e1 : " out_" = " " ++ "out_" := by decide +kernel
  have e2 : "easyMock_size_t out_" = "easyMock_size_t" ++ " " ++ "out_" := by decide +kernel
  unfold outLines declares
  rw [e1, e2]
  cases e.2.2.1 == Gen.Out.sized with
  | true =>
    show [Item.stmt _, Item.stmt _] = [Item.stmt _, Item.stmt _]
    simp only [sassoc, String.append_empty]
  | false =>
    show [Item.stmt _] = [Item.stmt _]
    simp only [sassoc, String.append_empty]

theorem data_items (c : Config) (f : SrcFun) : items (dataLines c f) = dataItems c f := by
  unfold dataLines dataItems
  rw [items_append, items_append, items_append]
  congr 1
  · congr 1
    · congr 1
      · cases f.sec.cls with
        | none => rfl
        | some k =>
          have e : "* instance" = "*" ++ " " ++ "instance" := by decide +kernel
          show [Item.stmt _] = [Item.stmt _]
          rw [e]
          simp only [sassoc, String.append_empty]
      · exact items_map _ _ _ (fun p _ => param_items p f.sec)
    · unfold resultLines
      cases f.sec.hasReturn with
      | false => rfl
      | true =>
        simp only [if_true]
        rw [← member_items f.result (MockCode.retMember f.sec) f.sec.retExtra.text "Reference return section" "Regular return section"]
        unfold MockCode.retMember
        simp only [sassoc]
        cases f.result <;> rfl
  · exact items_map _ _ _ (fun e _ => out_items e)

theorem store_items (s : FunSection) (p : (String × String × Gen.Out × XDecl) × MemberType) :
    items (storeLines s p) = [match p.2 with
     | .regular _ => copies p.1.2.1 p.1.2.1
     | .reference _ _ => assigns p.1.2.1 p.1.2.1,
     assigns (MockCode.matchMember s p.1.2.1) ("easyMock_match_" ++ p.1.2.1)] := by
  have e : " = easyMock_match_" = " = " ++ "easyMock_match_" := by decide +kernel
  unfold storeLines copies assigns MockCode.matchMember
  rw [e]
  cases p.2 with
  | regular t =>
    show [Item.stmt _, Item.stmt _] = [Item.stmt _, Item.stmt _]
    simp only [sassoc]
  | reference a b =>
    show [Item.stmt _, Item.stmt _] = [Item.stmt _, Item.stmt _]
    simp only [sassoc]

theorem storeOut_items (e : String × String × Gen.Out × XDecl) : items (storeOutLines e) =
    (if e.2.2.1 == .sized then [assigns ("out_" ++ e.2.1 ++ "_size") ("out_" ++ e.2.1 ++ "_size")] else []) ++
    [copies ("out_" ++ e.2.1) ("out_" ++ e.2.1)] := by
  have e1 : "mockedData.out_" = "mockedData." ++ "out_" := by decide +kernel
  have e2 : "_size = out_" = "_size" ++ (" = " ++ "out_") := by decide +kernel
  have e3 : "easyMock_memcpy((void*)&mockedData.out_" = "easyMock_memcpy((void*)&mockedData." ++ "out_" := by decide +kernel
  have e4 : ", (void*)&out_" = ", (void*)&" ++ "out_" := by decide +kernel
  have e5 : ", sizeof(mockedData.out_" = ", sizeof(mockedData." ++ "out_" := by decide +kernel
  unfold storeOutLines copies assigns
  rw [e1, e2, e3, e4, e5]
  cases e.2.2.1 == Gen.Out.sized with
  | true =>
    show [Item.stmt _, Item.stmt _] = [Item.stmt _, Item.stmt _]
    simp only [sassoc]
  | false =>
    show [Item.stmt _] = [Item.stmt _]
    simp only [sassoc]

theorem common_items (f : SrcFun) : items (commonLines f) = commonItems f := by
  unfold commonLines commonItems
  rw [items_append, items_append, items_append, items_append, items_append]
  congr 1
  congr 1
  · congr 1
    · congr 1
      · congr 1
        cases f.sec.cls.isSome with
        | false => rfl
        | true =>
          have e : "mockedData.instance = instance" = "mockedData." ++ "instance" ++ " = " ++ "instance" := by decide +kernel
          simp only [if_true]
          unfold assigns
          rw [← e]
          rfl
      · exact items_map _ _ _ (fun p _ => store_items f.sec p)
    · exact items_map _ _ _ (fun e _ => storeOut_items e)
  · cases f.sec.hasReturn with
    | false => rfl
    | true =>
      have e : "_returnValue = to_return" = "_returnValue" ++ (" = " ++ "to_return") := by decide +kernel
      simp only [if_true]
      unfold assigns MockCode.retMember
      rw [e]
      show [Item.stmt _] = [Item.stmt _]
      simp only [sassoc]

/-! ## The functions of the file -/

theorem mocked_text (a b : String) (s : FunSection) (t : String) (h : a = b ++ "mocked_") :
    a ++ s.name ++ t = b ++ MockCode.mockedName s ++ t := by
  rw [h]; unfold MockCode.mockedName; simp only [sassoc]

theorem reset_items (fs : List SrcFun) : items (resetLines fs) = ((MockCode.resetAll (genFile fs)).map fileItems).flatten := by
  unfold resetLines MockCode.resetAll genFile
  induction fs with
  | nil => rfl
  | cons f fs ih =>
    rw [List.map_cons, List.map_cons, List.map_cons, List.map_cons, List.flatten_cons, ← ih,
      mocked_text "MockedFunction_reset(&mocked_" "MockedFunction_reset(&" _ _ (by decide +kernel)]
    rfl

theorem init_items (fs : List SrcFun) : items (initLines fs) = ((MockCode.initAll (genFile fs)).map fileItems).flatten := by
  unfold initLines MockCode.initAll genFile
  induction fs with
  | nil => rfl
  | cons f fs ih =>
    rw [List.map_cons, List.map_cons, List.map_cons, List.map_cons, List.flatten_cons, ← ih,
      mocked_text "MockedFunction_init(&mocked_" "MockedFunction_init(&" _ _ (by decide +kernel)]
    rfl

theorem verify_items (fs : List SrcFun) : items (verifyLines fs) =
    [says "easyMock_bool rv = easyMock_true"] ++ ((MockCode.verifyAll (genFile fs)).map fileItems).flatten ++ [says "return rv"] := by
  unfold verifyLines
  rw [items_append, items_append]
  have h : items (fs.map (fun f => [Line.enter ("if(!MockedFunction_verify(&mocked_" ++ f.sec.name ++ "))"),
      line "rv = easyMock_false", .leave])).flatten = ((MockCode.verifyAll (genFile fs)).map fileItems).flatten := by
    unfold MockCode.verifyAll genFile
    rw [items_map _ (fun f => fileItems (.verify (MockCode.mockedName f.sec))) fs (by
      intro f _
      rw [mocked_text "if(!MockedFunction_verify(&mocked_" "if(!MockedFunction_verify(&" _ _ (by decide +kernel)]
      rfl)]
    simp only [List.map_map]
    rfl
  rw [h]
  rfl

/-! ## Comparators -/

theorem cast_text (o : Option String) : castText o = o.elim "" (fun t => "(" ++ t ++ ")") := by cases o <;> rfl

theorem action_items (article : String) (k : StructCmp.Check) :
    items (preIfLines k ++ [.enter ("if(" ++ conditionText k ++ ")")] ++ messageLines article k ++ [line "return -1", .leave]) =
      actionItems article k k.action := by
  unfold preIfLines conditionText messageLines actionItems
  cases hk : k.action with
  | call name =>
    have e : "\"" ++ "." = "\"." := by decide +kernel
    have e2 : "_parameter), errorMessage))" = "_parameter), errorMessage)" ++ ")" := by decide +kernel
    have e3 : "if(cmp_" = "if(" ++ "cmp_" := by decide +kernel
    have e4 : "_parameter, \"." = "_parameter, \"" ++ "." := by decide +kernel
    simp only
    rw [e2, e3, e4]
    unfold fieldText fieldOf
    show [Item.stmt _, Item.stmt _, Item.enter _, Item.stmt _, Item.leave] = [Item.stmt _, Item.stmt _, Item.enter _, Item.stmt _, Item.leave]
    simp only [sassoc]
  | neq owner format cast =>
    simp only
    rw [cast_text]
    unfold fieldText fieldOf
    cases k.array with
    | true =>
      have e1 : "easyMock_snprintf(errorMessage, 256 , \"Parameter '%s' which is a" =
        "easyMock_snprintf(errorMessage, 256 , " ++ "\"Parameter '%s' which is a" := by decide +kernel
      have e2 : "' has field array '" = "' has field " ++ ("array " ++ "'") := by decide +kernel
      have e3 : "[idx]' at idx == %d with value '%" = "[idx]' at idx == %d" ++ " with value '%" := by decide +kernel
      have e4 : "'\", paramName, idx,  currentCall_val->" = "'\"" ++ (", paramName, " ++ ("idx,  " ++ ("" ++ ("currentCall_val" ++ "->")))) := by
        decide +kernel
      have e5 : "[idx], expectedCall_val->" = "[idx]" ++ (", " ++ ("" ++ ("expectedCall_val" ++ "->"))) := by decide +kernel
      have e6 : "[idx])" = "[idx]" ++ ")" := by decide +kernel
      simp only [if_true]
      rw [e1, e2, e3, e4, e5, e6]
      show [Item.enter _, Item.stmt _, Item.stmt _, Item.leave] = [Item.enter _, Item.stmt _, Item.stmt _, Item.leave]
      simp only [sassoc]
    | false =>
      have e1 : "easyMock_snprintf(errorMessage, 256 , \"Parameter '%s' which is a" =
        "easyMock_snprintf(errorMessage, 256 , " ++ "\"Parameter '%s' which is a" := by decide +kernel
      have e2 : "' has field '" = "' has field " ++ ("" ++ "'") := by decide +kernel
      have e3 : "' with value '%" = "'" ++ " with value '%" := by decide +kernel
      have e4 : "'\", paramName, " = "'\"" ++ (", paramName, " ++ "") := by
        decide +kernel
      have e5 : "currentCall_val->" = "currentCall_val" ++ "->" := by decide +kernel
      have e6 : "expectedCall_val->" = "expectedCall_val" ++ "->" := by decide +kernel
      simp only [Bool.false_eq_true, if_false]
      rw [e1, e2, e3, e4, e5, e6]
      show [Item.enter _, Item.stmt _, Item.stmt _, Item.leave] = [Item.enter _, Item.stmt _, Item.stmt _, Item.leave]
      simp only [sassoc, String.empty_append, String.append_empty]

theorem field_items (article : String) (k : StructCmp.Check) : items (fieldLines article k) = checkItems article k := by
  unfold fieldLines checkItems
  have h := action_items article k
  cases k.array with
  | true =>
    simp only [if_true]
    rw [items_append, List.append_assoc, List.append_assoc, List.append_assoc, items_append, ← List.append_assoc, ← List.append_assoc, h]
    rfl
  | false =>
    simp only [Bool.false_eq_true, if_false, List.nil_append, List.append_nil]
    exact h

theorem cmp_items (k : SrcCmp) : items (cmpLines k) = cmpItems k := by
  unfold cmpLines cmpItems
  rw [items_append, items_append, items_append, items_map _ _ _ (fun x _ => field_items k.cmp.article x),
    items_map _ _ _ (fun x _ => field_items k.cmp.article x), List.map_append, List.flatten_append, ← List.append_assoc]
  unfold innerItems
  by_cases hi : k.inner = ""
  · rw [if_pos hi, if_pos hi]; rfl
  · rw [if_neg hi, if_neg hi]; rfl

theorem cmpDeref_items (k : SrcCmp) : items (cmpDerefLines k) = cmpDerefItems k := rfl

/-! ## Declarations -/

theorem static_word (r : String) : ("static " ++ r).toList.takeWhile identChar = "static".toList := by
  have e : "static ".toList = "static".toList ++ [' '] := by decide +kernel
  rw [String.toList_append, e, List.append_assoc]
  exact takeWhile_until _ (by decide +kernel) (by decide)

theorem entry_static {S : List Scope} {t r : String} (e : t = "static " ++ r) : Decl.entry ⟨S, t.toList, none⟩ = ⟨S, t.toList, none⟩ := by
  apply entry_plain
  right
  rw [e, static_word]
  decide +kernel

theorem cmp_entries {k : SrcCmp} (h : CmpOk k) : (cmpDefs k).map Decl.entry = cmpEntries k := by
  unfold cmpDefs
  rw [List.map_cons, List.map_cons, List.map_nil, entry_definition (cmp_ok h), entry_definition (cmpDeref_ok h), cmp_items]
  rfl

theorem data_entry (h : SrcOk c f) : (dataDecl c f).entry = dataEntry c f := by
  have hp := h.data.plain
  unfold dataDecl dataEntry
  cases hc : c.cpp with
  | true =>
    simp only [if_true]
    rw [entry_struct (data_ok h) (data_part h).plain (by simp) (w := "struct".toList) (b := ' ') (r := (srcDataType f.sec ++ " ").toList) (by
        rw [sassoc, ta, show "struct ".toList = "struct".toList ++ [' '] from by decide +kernel, List.append_assoc]; rfl)
      (by decide +kernel) (by decide) (by decide +kernel), data_items]
    have e : " {}".toList = " ".toList ++ ['{', '}'] := by decide +kernel
    have : ("struct " ++ MockCode.dataType f.sec ++ " {}").toList = ("struct " ++ srcDataType f.sec ++ " ").toList ++ ['{', '}'] := by
      rw [ta, ta, ta, ta, e, List.append_assoc, List.append_assoc, List.append_assoc]; rfl
    rw [this]
  | false =>
    simp only [Bool.false_eq_true, if_false]
    rw [entry_struct (data_ok h) (by decide +kernel) (by
        rw [ta]
        intro x hx
        rcases List.mem_append.mp hx with hx | hx
        · exact (show ∀ x ∈ " ".toList, plainChar x = true by decide +kernel) x hx
        · exact hp x hx) (w := "typedef".toList) (b := ' ') (r := "struct  ".toList) (by decide +kernel)
      (by decide +kernel) (by decide) (by decide +kernel), data_items]
    have e : "typedef struct  {} ".toList = "typedef struct  ".toList ++ ('{' :: '}' :: " ".toList) := by decide +kernel
    have : ("typedef struct  {} " ++ MockCode.dataType f.sec).toList =
        "typedef struct  ".toList ++ ('{' :: '}' :: (" " ++ srcDataType f.sec).toList) := by
      rw [ta, ta, e, List.append_assoc]; rfl
    rw [this]

theorem object_entries (c : Config) (f : SrcFun) : (objectDecls c f).map Decl.entry = objectEntries c f := by
  have e0 : "static void " = "static " ++ "void " := by decide +kernel
  have e1 : "static MockedCppFunction<" = "static " ++ "MockedCppFunction<" := by decide +kernel
  have e2 : "static MockedFunction mocked_" = "static " ++ "MockedFunction mocked_" := by decide +kernel
  have e3 : "> mocked_" = "> " ++ "mocked_" := by decide +kernel
  have e4 : "static MockedFunction mocked_" = "static MockedFunction " ++ "mocked_" := by decide +kernel
  unfold objectDecls objectEntries names MockCode.mockedName
  rw [List.map_append]
  congr 1
  · rw [List.map_cons, List.map_cons, List.map_nil, entry_static (r := "void " ++ commonName f.sec ++ "(" ++ expectOutputParams c f.sec ++ ")")
      (by rw [e0]; simp only [sassoc])]
    congr 2
    cases c.cpp with
    | true =>
      simp only [if_true]
      rw [entry_static (r := "MockedCppFunction<" ++ srcDataType f.sec ++ "> mocked_" ++ f.sec.name) (by rw [e1]; simp only [sassoc]), e3]
      simp only [sassoc]
      rfl
    | false =>
      simp only [Bool.false_eq_true, if_false]
      rw [entry_static (r := "MockedFunction mocked_" ++ f.sec.name) (by rw [e2]; simp only [sassoc]), e4]
      simp only [sassoc]
  · cases f.sec.hasReturn with
    | false => rfl
    | true =>
      simp only [if_true, List.map_cons, List.map_nil]
      cases c.cpp with
      | true =>
        simp only [if_true]
        rw [entry_static (r := f.result.raw ++ " dummyRes_" ++ f.sec.name ++ f.sec.retExtra.text ++ "{}") (by simp only [sassoc])]
      | false =>
        simp only [Bool.false_eq_true, if_false, String.append_empty]
        rw [entry_static (r := f.result.raw ++ " dummyRes_" ++ f.sec.name ++ f.sec.retExtra.text) (by simp only [sassoc])]

theorem definition_entries (h : SrcOk c f) : (definitionDecls c f).map Decl.entry = publicEntries c f ++
    [defines [] ("static void " ++ commonName f.sec ++ "(" ++ expectOutputParams c f.sec ++ ")") (commonItems f)] := by
  have e3 : "_" ++ ("ExpectAndReturn" ++ "(") = "_" ++ "ExpectAndReturn(" := by decide +kernel
  have e4 : "_" ++ ("ExpectReturnAndOutput" ++ "(") = "_" ++ "ExpectReturnAndOutput(" := by decide +kernel
  have e5 : "ExpectAndReturn" ++ "(" = "" ++ "ExpectAndReturn(" := by decide +kernel
  have e6 : "ExpectReturnAndOutput" ++ "(" = "" ++ "ExpectReturnAndOutput(" := by decide +kernel
  have n1 : "void " ++ expectName c f.sec ++ "(" ++ expectParams c f.sec ++ ")" =
      "void " ++ (if c.cpp then "" else f.sec.name ++ "_") ++ "ExpectAndReturn(" ++ expectParams c f.sec ++ ")" := by
    unfold expectName
    cases c.cpp with
    | true => simp only [if_true, sassoc, String.empty_append]; rw [← sassoc "ExpectAndReturn", e5, String.empty_append]
    | false => simp only [Bool.false_eq_true, if_false, sassoc]; rw [← sassoc "ExpectAndReturn", ← sassoc "_", e3, sassoc "_"]
  have n2 : "void " ++ expectOutputName c f.sec ++ "(" ++ expectOutputParams c f.sec ++ ")" =
      "void " ++ (if c.cpp then "" else f.sec.name ++ "_") ++ "ExpectReturnAndOutput(" ++ expectOutputParams c f.sec ++ ")" := by
    unfold expectOutputName
    cases c.cpp with
    | true => simp only [if_true, sassoc, String.empty_append]; rw [← sassoc "ExpectReturnAndOutput", e6, String.empty_append]
    | false => simp only [Bool.false_eq_true, if_false, sassoc]; rw [← sassoc "ExpectReturnAndOutput", ← sassoc "_", e4, sassoc "_"]
  have hs : expectScopes c f.sec =
      (if c.cpp then "EasyMock" :: (f.sec.ns ++ f.sec.cls.toList ++ [f.sec.name]) else []).map (fun n => Scope.space n.toList) := by
    unfold expectScopes
    cases c.cpp <;> rfl
  have hm : (if c.cpp then spaces f.sec.ns else []) = (if c.cpp then f.sec.ns else []).map (fun n => Scope.space n.toList) := by
    cases c.cpp <;> rfl
  unfold definitionDecls publicEntries
  simp only [List.map_append, List.map_cons, List.map_nil]
  rw [entry_definition (mock_ok h), entry_definition (expect_ok h), entry_definition (common_ok h), mock_items, common_items, n1, n2,
    hs, hm]
  cases ho : f.sec.outs with
  | nil => rfl
  | cons o os =>
    have ho' : f.sec.outs ≠ [] := by rw [ho]; simp
    simp only [List.isEmpty_cons, Bool.false_eq_true, if_false, List.map_cons, List.map_nil, reduceCtorEq]
    rw [entry_definition (expectOutput_ok h)]
    rfl

theorem source_entries (h : SrcOk c f) : (sourceDecls c f).map Decl.entry = funEntries c f := by
  unfold sourceDecls funEntries
  rw [List.map_append, List.map_append, object_entries, definition_entries h, List.map_cons, List.map_nil, data_entry h]
  simp only [List.append_assoc, List.cons_append, List.nil_append]

theorem front_entries : frontDecls.map Decl.entry = frontEntries := by decide +kernel

theorem back_entries {path : String} {fs : List SrcFun} (h : ∀ f ∈ fs, SrcOk c f) :
    (backDecls path fs).map Decl.entry = backEntries path fs := by
  unfold backDecls
  simp only [List.map_append, List.map_cons, List.map_nil]
  rw [entry_definition (reset_ok h), entry_definition (init_ok h), entry_definition (verify_ok h), entry_definition register_ok,
    entry_definition unregister_ok, reset_items, init_items, verify_items,
    entry_static (r := "easyMock_mockedFileRegister_t mockedRegister = {\"" ++ fileName path ++
      "\", &easyMock_resetAllMocksInThisHeader, &easyMock_verifyAllMocksInThisHeader }") (by
      have e : "static easyMock_mockedFileRegister_t mockedRegister = {\"" = "static " ++ "easyMock_mockedFileRegister_t mockedRegister = {\"" := by
        decide +kernel
      rw [e]; simp only [sassoc])]
  rfl

end EasyMock.CFile
