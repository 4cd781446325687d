import Verif.Parser.Function

/-!
# Parser: which classes are still there when the code is generated

A function refers to its class by a `std::weak_ptr` (include/Function.h:232); `getParentData` and `isMemberClass` ask whether
the class is still there (Function.cpp:148-156).  When the parser returns, the visitor and its `m_cachedStruct` (PARSER:232) are
gone, and a record object is still there only if it is held by the type of a parameter or of a result of one of the functions
(include/Declarator.h:151), by a member of a record which is still there (include/ComposableType.h), or by
`globalListOfClasses` (PARSER:79-87).  Model of `UniqueStdSharePtrObjectSet::addObject`, PARSER:48-59, its use at 872-877, and
of `std::weak_ptr::lock`.

Simplifications.
* Objects with the same tag and the same typedef name are one object: that is how `m_cachedStruct` finds them, up to the
  collisions of its keys (C53).  Records without any name are not shared.
* Hashes are equal only if the hashed data are equal (ComposableType.cpp:35-53, TypeItf.cpp:438-456).  A new object has no
  members, is not forward declared and has no member functions when it is compared (874-875); the objects in the list are
  compared as they are when they are finished, as an unfinished one has another tag (827-830) or no name.
* Member functions (202-205) do not enter into the hash here: they are added only to objects without typedef name, so that they
  could only make a difference for an object with typedef name, created later, of a class without members; that one holds nothing.
  They hold nothing else, since they are functions of the file themselves.
-/

namespace EasyMock.Parser

open EasyMock.Types (Ty Fields Params Methods Kw FunDecl)

/-- An object of a record: keyword, tag, the name of the `TypedefType` around it, whether it has no members, the flags
    `m_is_declaration_embedded_in_other_type` and `m_is_forward_declared`, and the objects which its members hold. -/
structure Obj where
  kw : Kw
  tag : String
  td : String
  empty : Bool
  emb : Bool
  fwd : Bool
  inside : List (String × String)

/-- What tells the object from others, PARSER:833. -/
def Obj.key (o : Obj) : String × String := (o.tag, o.td)

/-- `m_elem.empty()` -/
def noFields : Fields → Bool
  | .nil => true
  | _ => false

mutual
/-- The record objects which a type holds, in the order in which they are created; `td`: the name of the typedef around it. -/
def objs (td : String) : Ty → List Obj
  | .ctype _ _ _ | .enum _ _ _ | .incomplete _ _ _ => []
  | .ptr _ t | .ref _ t | .const _ t => objs "" t
  | .tdef _ n t => objs n t
  | .comp _ kw tag fs emb fwd _ => ⟨kw, tag, td, noFields fs, emb, fwd, (objsF fs).map Obj.key⟩ :: objsF fs
  | .fn _ _ _ r ps => objs "" r ++ objsP ps

/-- The same for members. -/
def objsF : Fields → List Obj
  | .nil => []
  | .field _ t _ _ r | .bit _ t _ _ r => objs "" t ++ objsF r

/-- The same for parameters. -/
def objsP : Params → List Obj
  | .nil => []
  | .cons _ t _ r => objs "" t ++ objsP r
end

/-- What a function holds: its result and its parameters, not its class. -/
def heldBy (f : FunDecl) : List Obj := objs "" f.ret ++ objsP f.params

/-- What is created for a function, PARSER:161-173. -/
def created (f : FunDecl) : List Obj := heldBy f ++ (f.parent.map (objs "")).getD []

/-- The new class object `o` has the hash of `o'`, PARSER:50-53. -/
def sameHash (o o' : Obj) : Bool := o'.tag == o.tag && o'.empty && !o'.fwd && o'.emb == o.emb

/-- `globalListOfClasses` after the objects `os`: a class which is new is added unless one with the same hash is there,
    PARSER:48-59, 872-877. -/
def keepClasses : List Obj → List (String × String) → List Obj → List Obj
  | [], _, kept => kept
  | o :: os, seen, kept =>
    if o.key != ("", "") && seen.contains o.key then keepClasses os seen kept
    else if o.kw == .cls && !kept.any (sameHash o) then keepClasses os (o.key :: seen) (kept ++ [o])
    else keepClasses os (o.key :: seen) kept

/-- The record `p`, the class of a function, is still there after the functions `fs` have been parsed. -/
def alive (fs : List FunDecl) : Ty → Bool
  | .comp _ _ tag _ _ _ _ =>
    (keepClasses (fs.flatMap created) [] []).any (fun o => o.key == (tag, "") || o.inside.contains (tag, "")) ||
    fs.any (fun f => (heldBy f).any (fun o => o.key == (tag, "")))
  | _ => false

/-- The functions as the generator sees them: `lock` gives the class if it is still there, Function.cpp:148-156. -/
def lockParents (fs : List FunDecl) : List FunDecl :=
  fs.map (fun f => { f with parent := f.parent.filter (alive fs) })

/-- `LLVMParser::getElementToMockContext`, PARSER:1281-1319, on the functions which are not left out (C44). -/
def parseUnit (D : Decls) (ms : MacroInfo) (fuel : Nat) (ds : List FnD) : Except Err (List FunDecl) :=
  match parseFile D ms fuel ds [] with
  | .error e => .error e
  | .ok (fs, _) => .ok (lockParents fs)

end EasyMock.Parser
