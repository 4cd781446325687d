import Verif.Framework.Backtrace
import Verif.Props.Framework1

/-!
# C87: the call stack in an error message
-/

namespace EasyMock.Backtrace

open EasyMock

/-- A call that is active: the return address, the function, the file with its directory, the line. -/
structure Place where
  ip : Nat
  function : String
  dir : String
  file : String
  line : Nat

/-- The debug information knows the place; the address asked for lies in the call, before the address it returns to. -/
structure Known (info : Nat → Info) (p : Place) : Prop where
  addr : 4 ≤ p.ip ∧ p.ip < 2 ^ 64
  known : ∃ name, info (p.ip - 4) = .module ⟨some p.function, some (some (p.dir ++ "/" ++ p.file), p.line), name⟩
  file : '/' ∉ p.file.toList

/-- How a place is shown. -/
def Place.text (p : Place) : String := "\tat " ++ p.function ++ "(" ++ p.file ++ ":" ++ toString p.line ++ ")\n"

/-- The places, one after the other. -/
def shown : List Place → String
  | [] => ""
  | p :: ps => p.text ++ shown ps

/-- The frames of places. -/
def framesOf (ps : List Place) : List Frame := ps.map (fun p => .at p.ip)

/-- The last part of a path. -/
theorem afterSlash_join (d f : String) (h : '/' ∉ f.toList) : afterSlash (some (d ++ "/" ++ f)) = some f := by
  have e : (d ++ "/" ++ f).toList = d.toList ++ '/' :: f.toList := by
    rw [String.toList_append, String.toList_append, List.append_assoc]; rfl
  have hm : '/' ∈ (d ++ "/" ++ f).toList := by
    rw [e]; exact List.mem_append_right _ List.mem_cons_self
  unfold afterSlash
  simp only [if_pos hm]
  rw [e, List.reverse_append, List.reverse_cons, List.append_assoc,
    List.takeWhile_append_of_pos (by
      intro x hx
      have : x ≠ '/' := fun hh => h (by rw [← hh]; exact List.mem_reverse.mp hx)
      exact decide_eq_true this)]
  have e2 : List.takeWhile (fun x => decide (x ≠ '/')) (['/'] ++ d.toList.reverse) = [] := rfl
  rw [e2, List.append_nil, List.reverse_reverse, String.ofList_toList]

theorem callSite_eq {ip : Nat} (h : 4 ≤ ip ∧ ip < 2 ^ 64) : callSite ip = ip - 4 := by
  unfold callSite
  omega

/-- A known place is shown, and the walk goes on. -/
theorem walk_known {info : Nat → Info} {p : Place} (h : Known info p) (acc : String) (rest : List Frame) :
    walk info acc (.at p.ip :: rest) = walk info (acc ++ p.text) rest := by
  obtain ⟨name, hi⟩ := h.known
  have hd : debugInfo (info (callSite p.ip)) = .ok (p.function ++ "(" ++ (p.file ++ ":" ++ toString p.line), true) := by
    rw [callSite_eq h.addr, hi]
    simp only [debugInfo, lineText, afterSlash_join _ _ h.file, Bool.and_self]
  simp only [walk]
  rw [hd]
  simp only
  congr 1
  unfold Place.text
  simp only [String.append_assoc]

theorem walk_places {info : Nat → Info} : ∀ (ps : List Place), (∀ p ∈ ps, Known info p) → ∀ (acc : String) (rest : List Frame),
    walk info acc (framesOf ps ++ rest) = walk info (acc ++ shown ps) rest
  | [], _, acc, rest => by
    show walk info acc rest = walk info (acc ++ "") rest
    rw [String.append_empty]
  | p :: ps, h, acc, rest => by
    have e : framesOf (p :: ps) ++ rest = .at p.ip :: (framesOf ps ++ rest) := rfl
    rw [e, walk_known (h p List.mem_cons_self), walk_places ps (fun q hq => h q (List.mem_cons_of_mem _ hq))]
    show walk info (acc ++ p.text ++ shown ps) rest = walk info (acc ++ (p.text ++ shown ps)) rest
    rw [String.append_assoc]

/-- C87 (partial: all places are known).  An error with call stack shows the message, then every active call from the innermost one
    outwards, with function, file without directory, and line. -/
theorem C87_lines_partial (info : Nat → Info) (ps : List Place) (h : ∀ p ∈ ps, Known info p) (error : String) :
    errorText info (.frames (framesOf ps)) error true = .ok (error ++ "\n\r" ++ shown ps) := by
  have := walk_places ps h (error ++ "\n\r") []
  rw [List.append_nil] at this
  exact this

/-- C87: without call stack an error is its message. -/
theorem C87_off (info : Nat → Info) (u : Unwind) (error : String) : errorText info u error false = .ok error := rfl

/-- Why a frame ends the call stack, and what is shown instead. -/
inductive Ends (info : Nat → Info) : Frame → String → Prop where
  | register (e : Int) :
      Ends info (.failed e) ("<Backtrace unavailable: Couldn't get the register (errcode: " ++ toString e ++ "). Backtrace won't work>\n")
  | session (ip : Nat) (h : 4 ≤ ip ∧ ip < 2 ^ 64) : info (ip - 4) = .noSession →
      Ends info (.at ip) "\tat <Backtrace unavailable: No callback available>"
  | module (ip : Nat) (h : 4 ≤ ip ∧ ip < 2 ^ 64) : info (ip - 4) = .noModule →
      Ends info (.at ip) "\tat <Backtrace unavailable: No module available>"
  | function (ip : Nat) (h : 4 ≤ ip ∧ ip < 2 ^ 64) (d f : String) (n : Nat) (name : Option String) : '/' ∉ f.toList →
      info (ip - 4) = .module ⟨none, some (some (d ++ "/" ++ f), n), name⟩ →
      Ends info (.at ip) ("\tat <Backtrace unavailable: Unkown function name>" ++ f ++ ":" ++ toString n)
  | line (ip : Nat) (h : 4 ≤ ip ∧ ip < 2 ^ 64) (fn m : String) : info (ip - 4) = .module ⟨some fn, none, some m⟩ →
      Ends info (.at ip) ("\tat " ++ fn ++ "(in <Backtrace unavailable: " ++ m ++ ">")
  | nothing (ip : Nat) (h : 4 ≤ ip ∧ ip < 2 ^ 64) (fn : String) : info (ip - 4) = .module ⟨some fn, none, none⟩ →
      Ends info (.at ip) ("\tat " ++ fn ++ "(in <Backtrace unavailable: unkown_module>")
  | neither (ip : Nat) (h : 4 ≤ ip ∧ ip < 2 ^ 64) (m : String) : info (ip - 4) = .module ⟨none, none, some m⟩ →
      Ends info (.at ip) ("\tat <Backtrace unavailable: Unkown function name>in <Backtrace unavailable: " ++ m ++ ">")
  | neitherNothing (ip : Nat) (h : 4 ≤ ip ∧ ip < 2 ^ 64) : info (ip - 4) = .module ⟨none, none, none⟩ →
      Ends info (.at ip) "\tat <Backtrace unavailable: Unkown function name>in <Backtrace unavailable: unkown_module>"

theorem walk_ends {info : Nat → Info} {fr : Frame} {t : String} (h : Ends info fr t) (acc : String) (rest : List Frame) :
    walk info acc (fr :: rest) = .ok (acc ++ t) := by
  cases h with
  | register e => simp only [walk, String.append_assoc]
  | session ip h hi => simp only [walk, callSite_eq h, hi, debugInfo, String.append_assoc]; rfl
  | module ip h hi => simp only [walk, callSite_eq h, hi, debugInfo, String.append_assoc]; rfl
  | function ip h d f n name hf hi =>
    simp only [walk, callSite_eq h, hi, debugInfo, lineText, afterSlash_join _ _ hf, Bool.false_and]
    have e : "\tat <Backtrace unavailable: Unkown function name>" = "\tat " ++ "<Backtrace unavailable: Unkown function name>" := rfl
    rw [e]
    simp only [String.append_assoc]
  | line ip h fn m hi =>
    simp only [walk, callSite_eq h, hi, debugInfo, lineText, Bool.and_false, String.append_assoc]; rfl
  | nothing ip h fn hi =>
    simp only [walk, callSite_eq h, hi, debugInfo, lineText, Bool.and_false, String.append_assoc]; rfl
  | neither ip h m hi =>
    simp only [walk, callSite_eq h, hi, debugInfo, lineText, Bool.and_false, String.append_assoc]; rfl
  | neitherNothing ip h hi =>
    simp only [walk, callSite_eq h, hi, debugInfo, lineText, Bool.and_false, String.append_assoc]; rfl

/-- C87: the call stack ends at the first frame something of which is not known, with the reason; whatever lies further out is not shown. -/
theorem C87_ends (info : Nat → Info) (ps : List Place) (h : ∀ p ∈ ps, Known info p) (fr : Frame) (t : String) (hf : Ends info fr t)
    (rest : List Frame) (error : String) :
    errorText info (.frames (framesOf ps ++ fr :: rest)) error true = .ok (error ++ "\n\r" ++ shown ps ++ t) := by
  show walk info (error ++ "\n\r") _ = _
  rw [walk_places ps h, walk_ends hf]

/-- C87: if libunwind cannot start, the message is kept and followed by the reason. -/
theorem C87_unavailable (info : Nat → Info) (error : String) (e : Int) :
    errorText info .noContext error true = .ok (error ++ "\n\r" ++ "<Backtrace unavailable: no context>\n") ∧
    errorText info (.noCursor e) error true = .ok (error ++ "\n\r" ++
      ("<Backtrace unavailable: Couldn't initialise local curser (errcode: " ++ toString e ++ "). Backtrace won't work>\n")) :=
  ⟨rfl, by show Res.ok _ = Res.ok _; simp only [String.append_assoc]⟩

/-- The debug information names a file without any directory, or no file at all. -/
def Bare (i : Info) : Prop := ∃ fn f n name, i = .module ⟨fn, some (f, n), name⟩ ∧ ∀ s, f = some s → '/' ∉ s.toList

/-- A file name with a slash is a directory, a slash and a name. -/
theorem split_slash (s : List Char) (h : '/' ∈ s) : ∃ d f : List Char, s = d ++ '/' :: f ∧ '/' ∉ f := by
  induction s with
  | nil => cases h
  | cons c s ih =>
    by_cases hs : '/' ∈ s
    · obtain ⟨d, f, h1, h2⟩ := ih hs
      exact ⟨c :: d, f, by rw [h1]; rfl, h2⟩
    · rcases List.mem_cons.mp h with e | e
      · exact ⟨[], s, by rw [← e]; rfl, hs⟩
      · exact absurd e hs

/-- Every frame is known, ends the call stack, ends the process, or has a bare file name. -/
theorem frame_cases (info : Nat → Info) (fr : Frame) (hr : ∀ ip, fr = .at ip → 4 ≤ ip ∧ ip < 2 ^ 64) :
    (∃ p, Known info p ∧ fr = .at p.ip) ∨ (∃ t, Ends info fr t) ∨ (∃ ip, fr = .at ip ∧ info (ip - 4) = .noReport) ∨
    (∃ ip, fr = .at ip ∧ Bare (info (ip - 4))) := by
  cases fr with
  | failed e => exact Or.inr (Or.inl ⟨_, .register e⟩)
  | «at» ip =>
    have h := hr ip rfl
    cases hi : info (ip - 4) with
    | noSession => exact Or.inr (Or.inl ⟨_, .session ip h hi⟩)
    | noReport => exact Or.inr (Or.inr (Or.inl ⟨ip, rfl, hi⟩))
    | noModule => exact Or.inr (Or.inl ⟨_, .module ip h hi⟩)
    | module m =>
      obtain ⟨fn, line, name⟩ := m
      cases line with
      | none =>
        cases fn with
        | none =>
          cases name with
          | none => exact Or.inr (Or.inl ⟨_, .neitherNothing ip h hi⟩)
          | some m => exact Or.inr (Or.inl ⟨_, .neither ip h m hi⟩)
        | some fn =>
          cases name with
          | none => exact Or.inr (Or.inl ⟨_, .nothing ip h fn hi⟩)
          | some m => exact Or.inr (Or.inl ⟨_, .line ip h fn m hi⟩)
      | some l =>
        obtain ⟨f, n⟩ := l
        cases f with
        | none => exact Or.inr (Or.inr (Or.inr ⟨ip, rfl, fn, none, n, name, hi, fun s hs => by cases hs⟩))
        | some f =>
          by_cases hs : '/' ∈ f.toList
          · obtain ⟨d, b, h1, h2⟩ := split_slash _ hs
            have e : f = String.ofList d ++ "/" ++ String.ofList b := by
              apply String.toList_inj.mp
              rw [String.toList_append, String.toList_append, String.toList_ofList, String.toList_ofList, List.append_assoc, h1]
              rw [show (String.ofList b).toList = b from String.toList_ofList]; rfl
            have hb : '/' ∉ (String.ofList b).toList := by rw [String.toList_ofList]; exact h2
            cases fn with
            | none => exact Or.inr (Or.inl ⟨_, .function ip h (String.ofList d) (String.ofList b) n name hb (by rw [← e]; exact hi)⟩)
            | some fn =>
              exact Or.inl ⟨⟨ip, fn, String.ofList d, String.ofList b, n⟩, ⟨h, ⟨name, by rw [← e]; exact hi⟩, hb⟩, rfl⟩
          · exact Or.inr (Or.inr (Or.inr ⟨ip, rfl, fn, some f, n, name, hi, fun s hx => by
              injection hx with hx; rw [← hx]; exact hs⟩))

theorem debugInfo_bare {i : Info} (h : Bare i) : debugInfo i = .ub := by
  obtain ⟨fn, f, n, name, rfl, hf⟩ := h
  have : afterSlash f = none := by
    cases f with
    | none => rfl
    | some s => simp only [afterSlash, if_neg (hf s rfl)]
  simp only [debugInfo, lineText, this]

/-- How the walk ends: all frames are places, or the first one that is not ends it. -/
theorem frames_cases (info : Nat → Info) : ∀ (fs : List Frame), (∀ ip, Frame.at ip ∈ fs → 4 ≤ ip ∧ ip < 2 ^ 64) →
    (∃ ps, (∀ p ∈ ps, Known info p) ∧ fs = framesOf ps) ∨
    ∃ ps fr rest, (∀ p ∈ ps, Known info p) ∧ fs = framesOf ps ++ fr :: rest ∧
      ((∃ t, Ends info fr t) ∨ (∃ ip, fr = .at ip ∧ info (ip - 4) = .noReport) ∨ ∃ ip, fr = .at ip ∧ Bare (info (ip - 4)))
  | [], _ => Or.inl ⟨[], by simp, rfl⟩
  | fr :: fs, hr => by
    rcases frame_cases info fr (fun ip h => hr ip (by rw [h]; exact List.mem_cons_self)) with ⟨p, hp, e⟩ | h
    · rcases frames_cases info fs (fun ip h => hr ip (List.mem_cons_of_mem _ h)) with ⟨ps, h1, h2⟩ | ⟨ps, fr', rest, h1, h2, h3⟩
      · refine Or.inl ⟨p :: ps, ?_, by rw [e, h2]; rfl⟩
        intro q hq
        rcases List.mem_cons.mp hq with hq | hq
        · rw [hq]; exact hp
        · exact h1 q hq
      · refine Or.inr ⟨p :: ps, fr', rest, ?_, by rw [e, h2]; rfl, h3⟩
        intro q hq
        rcases List.mem_cons.mp hq with hq | hq
        · rw [hq]; exact hp
        · exact h1 q hq
    · exact Or.inr ⟨[], fr, fs, by simp, rfl, h⟩

/-- C87: showing the call stack is undefined behaviour exactly if the debug information of one of the calls, all calls further in being
    known, names a file without directory, or none; it ends the process exactly if libdwfl cannot report the process. -/
theorem C87_unsafe_iff (info : Nat → Info) (fs : List Frame) (hr : ∀ ip, Frame.at ip ∈ fs → 4 ≤ ip ∧ ip < 2 ^ 64) (error : String) :
    (errorText info (.frames fs) error true = .ub ↔
      ∃ ps ip rest, (∀ p ∈ ps, Known info p) ∧ fs = framesOf ps ++ .at ip :: rest ∧ Bare (info (ip - 4))) ∧
    (errorText info (.frames fs) error true = .exit ↔
      ∃ ps ip rest, (∀ p ∈ ps, Known info p) ∧ fs = framesOf ps ++ .at ip :: rest ∧ info (ip - 4) = .noReport) := by
  have hbare : ∀ (ps : List Place) ip rest, (∀ p ∈ ps, Known info p) → fs = framesOf ps ++ .at ip :: rest → Bare (info (ip - 4)) →
      errorText info (.frames fs) error true = .ub := by
    intro ps ip rest h1 h2 h3
    have hip := hr ip (by rw [h2]; exact List.mem_append_right _ List.mem_cons_self)
    show walk info (error ++ "\n\r") fs = .ub
    rw [h2, walk_places ps h1]
    simp only [walk, callSite_eq hip, debugInfo_bare h3]
  have hrep : ∀ (ps : List Place) ip rest, (∀ p ∈ ps, Known info p) → fs = framesOf ps ++ .at ip :: rest → info (ip - 4) = .noReport →
      errorText info (.frames fs) error true = .exit := by
    intro ps ip rest h1 h2 h3
    have hip := hr ip (by rw [h2]; exact List.mem_append_right _ List.mem_cons_self)
    show walk info (error ++ "\n\r") fs = .exit
    rw [h2, walk_places ps h1]
    simp only [walk, callSite_eq hip, h3, debugInfo]
  rcases frames_cases info fs hr with ⟨ps, h1, h2⟩ | ⟨ps, fr, rest, h1, h2, ⟨t, ht⟩ | ⟨ip, e, hi⟩ | ⟨ip, e, hi⟩⟩
  · have h := C87_lines_partial info ps h1 error
    rw [← h2] at h
    constructor
    · exact ⟨fun hh => (by rw [h] at hh; cases hh), fun ⟨ps, ip, rest, a, b, c⟩ => hbare ps ip rest a b c⟩
    · exact ⟨fun hh => (by rw [h] at hh; cases hh), fun ⟨ps, ip, rest, a, b, c⟩ => hrep ps ip rest a b c⟩
  · have h := C87_ends info ps h1 fr t ht rest error
    rw [← h2] at h
    constructor
    · exact ⟨fun hh => (by rw [h] at hh; cases hh), fun ⟨ps, ip, rest, a, b, c⟩ => hbare ps ip rest a b c⟩
    · exact ⟨fun hh => (by rw [h] at hh; cases hh), fun ⟨ps, ip, rest, a, b, c⟩ => hrep ps ip rest a b c⟩
  · subst e
    have h := hrep ps ip rest h1 h2 hi
    constructor
    · exact ⟨fun hh => (by rw [h] at hh; cases hh), fun ⟨ps, ip, rest, a, b, c⟩ => hbare ps ip rest a b c⟩
    · exact ⟨fun _ => ⟨ps, ip, rest, h1, h2, hi⟩, fun _ => h⟩
  · subst e
    have h := hbare ps ip rest h1 h2 hi
    constructor
    · exact ⟨fun _ => ⟨ps, ip, rest, h1, h2, hi⟩, fun _ => h⟩
    · exact ⟨fun hh => (by rw [h] at hh; cases hh), fun ⟨ps, ip, rest, a, b, c⟩ => hrep ps ip rest a b c⟩

/-- C87 does not hold if the debug information names a file without directory: showing the call stack is undefined behaviour. -/
theorem C87_refuted_file : ∃ (info : Nat → Info) (fs : List Frame), errorText info (.frames fs) "Error" true = .ub :=
  ⟨fun _ => .module ⟨some "main", some (some "test.c", 12), some "a.out"⟩, [.at 100], by decide +kernel⟩

/-- C87 does not hold if the process cannot be inspected: it is ended instead of reporting the error. -/
theorem C87_refuted_report : ∃ (info : Nat → Info) (fs : List Frame), errorText info (.frames fs) "Error" true = .exit :=
  ⟨fun _ => .noReport, [.at 100], rfl⟩

/-- C87: in a process, the error of an unexpected call with call stacks switched on ends in the active calls, innermost first; this is
    the text the getters return. -/
theorem C87_unexpected_partial {cfg : Cfg} {m0 : Mem} {past : List Op} {s : State} (hr : runRev cfg m0 past = .ok s)
    (hlen : past.length + 1 < 2 ^ 32) {f : FnId} {fc : FnCfg} (hf : cfg.fn? f = some fc) (hld : Spec.loaded f.file past = true)
    (hk : (Spec.exps f past).length ≤ Spec.calls f past) (hb : cfg.backtrace = true) (hs : s.print = true)
    (info : Nat → Info) (ps : List Place) (h : ∀ p ∈ ps, Known info p) (c : Call)
    (hc : appendBacktrace info "" (.frames (framesOf ps)) = .ok c.bt) :
    ∃ s' v, step cfg s (.call f c) = .ok (s', v) ∧
      s'.errs.map Err.render = s.errs.map Err.render ++ ["Error : unexpected call of '" ++ fc.name ++ "'." ++
        (match fc.ret with | some _ => " " ++ fc.shortName ++ " is returning a random value." | none => "") ++ "\n\r" ++ shown ps] := by
  obtain ⟨s', h1, h2, -⟩ := C02_unexpected_call hr hlen hf hld hk c
  have hbt : c.bt = shown ps := by
    have := walk_places ps h "" []
    rw [List.append_nil] at this
    have h3 : appendBacktrace info "" (.frames (framesOf ps)) = .ok ("" ++ shown ps) := this
    rw [h3] at hc
    injection hc with hc
    rw [← hc, String.empty_append]
  refine ⟨s', _, h1, ?_⟩
  rw [h2, List.map_append, List.map_cons, List.map_nil, if_pos ⟨hb, hs⟩, hbt]
  congr 2
  cases fc.ret <;> rfl

/-- Two known calls. -/
def exInfo : Nat → Info := fun a =>
  if a = 96 then .module ⟨some "mock(int)", some (some "/src/mock.c", 7), none⟩
  else if a = 196 then .module ⟨some "main", some (some "/src/test/main.c", 12), none⟩
  else .noModule

theorem exKnown : ∀ p ∈ [(⟨100, "mock(int)", "/src", "mock.c", 7⟩ : Place), ⟨200, "main", "/src/test", "main.c", 12⟩], Known exInfo p := by
  intro p hp
  rcases List.mem_cons.mp hp with rfl | hp
  · exact ⟨by decide, ⟨none, by decide +kernel⟩, by decide +kernel⟩
  · rw [List.mem_singleton] at hp
    subst hp
    exact ⟨by decide, ⟨none, by decide +kernel⟩, by decide +kernel⟩

example : errorText exInfo (.frames [.at 100, .at 200]) "Error" true =
    .ok ("Error" ++ "\n\r" ++ "\tat mock(int)(mock.c:7)\n\tat main(main.c:12)\n") := by
  rw [show ([.at 100, .at 200] : List Frame) = framesOf [⟨100, "mock(int)", "/src", "mock.c", 7⟩, ⟨200, "main", "/src/test", "main.c", 12⟩] from rfl,
    C87_lines_partial exInfo _ exKnown]
  decide +kernel

example : errorText exInfo (.frames [.at 100, .at 200, .at 300, .at 400]) "Error" true =
    .ok ("Error" ++ "\n\r" ++ "\tat mock(int)(mock.c:7)\n\tat main(main.c:12)\n" ++ "\tat <Backtrace unavailable: No module available>") := by
  have := C87_ends exInfo _ exKnown (.at 300) _ (.module 300 (by decide) (by decide +kernel)) [.at 400] "Error"
  exact this.trans (by decide +kernel)

end EasyMock.Backtrace
