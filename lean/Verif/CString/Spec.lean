import Verif.CString.Model

/-!
# Specification of the string builder

Written without reference to buffers, blocks or the functions of the model: a string variable is the
text it shows, plus the text that its inline array still holds when it has moved to the heap (it
becomes visible again after a `free`).
-/

namespace EasyMock.CString

/-- What a user knows about a string variable. -/
structure SVar where
  /-- text held by the inline array -/
  inline : List UInt8
  /-- text on the heap, if the string has outgrown the inline array -/
  big : Option (List UInt8)
  deriving DecidableEq, Repr

/-- The text of the string. -/
def SVar.text (v : SVar) : List UInt8 := v.big.getD v.inline

/-- What a reader of a byte array sees: everything before the first NUL. -/
def cut : List UInt8 → List UInt8
  | [] => []
  | c :: r => if c = 0 then [] else c :: cut r

/-- Appending `bs` to a variable; `alloc` tells whether memory can be obtained. -/
def SVar.append (alloc : Bool) (v : SVar) (bs : List UInt8) : Res SVar :=
  match v.big with
  | some c =>
    if alloc then
      if c.length < 4294967296 then .ok { v with big := some (c ++ bs) } else .ub
    else .exit
  | none =>
    if v.inline.length + bs.length ≤ 255 then .ok { v with inline := v.inline ++ bs }
    else if alloc then .ok { v with big := some (v.inline ++ bs) }
    else .ub

/-- Appending a variable to itself. -/
def SVar.appendSelf (alloc : Bool) (v : SVar) : Res SVar :=
  match v.big with
  | some _ => if alloc then .ub else .exit
  | none => if v.inline.length + v.inline.length ≤ 255 then .ub else v.append alloc v.inline

/-- Abstract program step. -/
def specStep (t : List SVar) : Op → Res (List SVar)
  | .new => .ok (t ++ [⟨[], none⟩])
  | .newInit arg a => SVar.append a ⟨[], none⟩ (cut arg) >>= fun v => .ok (t ++ [v])
  | .append i arg a =>
    match t[i]? with
    | none => .ub
    | some v => v.append a (cut arg) >>= fun v' => .ok (t.set i v')
  | .appendFrom i j a =>
    match t[i]?, t[j]? with
    | some v, some w =>
      if i = j then v.appendSelf a >>= fun v' => .ok (t.set i v')
      else v.append a w.text >>= fun v' => .ok (t.set i v')
    | _, _ => .ub
  | .free i =>
    match t[i]? with
    | none => .ub
    | some v => .ok (t.set i { v with big := none })

/-- Abstract program. -/
def specRun (t : List SVar) : List Op → Res (List SVar)
  | [] => .ok t
  | o :: os => specStep t o >>= fun t' => specRun t' os

/-- What can be observed of a concrete string: its text. -/
def observe (h : Heap) (c : CStr) : Res (List UInt8) := cStr h c >>= readStr

end EasyMock.CString
