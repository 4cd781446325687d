import Verif.Basic

/-!
# Model of `src/easyMockFramework/src/cstring.c`

Byte-accurate model: a buffer is a list of cells, a cell is either an initialised byte or
indeterminate. Heap blocks live in a heap indexed by block number; block numbers are never reused.
Simplifications: the address of a block is its number (pointer arithmetic inside a block is an
offset); messages printed before `exit(1)` are not modelled.
-/

namespace EasyMock.CString

/-- A byte of memory: `none` is an indeterminate value. -/
abbrev Cell := Option UInt8
abbrev Buf := List Cell

/-- `CSTRING_MAX_STACK_SIZE`, cstring.h:20-22. -/
def maxStack : Nat := 256

/-- `strlen` (libc) on the memory that starts at the beginning of `b`: undefined when it reads an
indeterminate byte or runs off the end. -/
def strlen : Buf → Res Nat
  | [] => .ub
  | none :: _ => .ub
  | some c :: r => if c = 0 then .ok 0 else strlen r >>= fun n => .ok (n + 1)

/-- Bytes of the C string stored at the beginning of `b` (what a reader such as `strcmp`,
`printf("%s")` or `std::string(const char*)` sees). -/
def readStr : Buf → Res (List UInt8)
  | [] => .ub
  | none :: _ => .ub
  | some c :: r => if c = 0 then .ok [] else readStr r >>= fun l => .ok (c :: l)

/-- Store the bytes `bs` at offset `off`; undefined when one of them is out of bounds. -/
def writeAt (b : Buf) (off : Nat) (bs : List UInt8) : Res Buf :=
  if off + bs.length ≤ b.length then
    .ok (b.take off ++ bs.map some ++ b.drop (off + bs.length))
  else .ub

/-- `strcat(dst, src)` (libc) for a source that does not overlap the destination. -/
def strcat (dst src : Buf) : Res Buf := do
  let n ← strlen dst
  let s ← readStr src
  writeAt dst n (s ++ [0])

/-- `strncpy(dst, src, n)` (libc): at most `n` bytes of the string, padded with NUL up to `n`. -/
def strncpy (dst src : Buf) (n : Nat) : Res Buf := do
  let s ← readStr src
  writeAt dst 0 (s.take n ++ List.replicate (n - s.length) 0)

/-- The process heap. -/
structure Heap where
  blocks : Nat → Option Buf
  next : Nat

/-- Replace the content of block `p`. -/
def Heap.set (h : Heap) (p : Nat) (b : Option Buf) : Heap :=
  { h with blocks := fun q => if q = p then b else h.blocks q }

/-- `malloc(n)` when it succeeds: a new block with indeterminate content. -/
def Heap.malloc (h : Heap) (n : Nat) : Heap × Nat :=
  ({ blocks := fun q => if q = h.next then some (List.replicate n none) else h.blocks q,
     next := h.next + 1 }, h.next)

/-- `free(p)`: undefined unless `p` is live. -/
def Heap.free (h : Heap) (p : Nat) : Res Heap :=
  match h.blocks p with
  | none => .ub
  | some _ => .ok (h.set p none)

/-- `realloc(p, n)` when it succeeds: the common prefix is preserved, the old block is released. -/
def Heap.realloc (h : Heap) (p n : Nat) : Res (Heap × Nat) :=
  match h.blocks p with
  | none => .ub
  | some b =>
    let h' := h.set p none
    .ok ({ blocks := fun q => if q = h.next then some (b.take n ++ List.replicate (n - b.length) none)
                              else h'.blocks q,
           next := h.next + 1 }, h.next)

/-- The struct `cstring`, cstring.h:27-31. `heap` is `NULL` or a block number. -/
structure CStr where
  stack : Buf
  heap : Option Nat

/-- `cstring_new`, cstring.c:8-15. Only the first byte of the array is initialised. -/
def cnew : CStr := ⟨some 0 :: List.replicate (maxStack - 1) none, none⟩

/-- `cstring_c_str`, cstring.c:38-48: the memory the returned pointer designates. -/
def cStr (h : Heap) (s : CStr) : Res Buf :=
  match s.heap with
  | some p => match h.blocks p with
    | some b => .ok b
    | none => .ub
  | none => .ok s.stack

/-- `cstring_length`, cstring.c:26-36. The result type `easyMock_size_t` is a 32-bit `unsigned`
(easyMock_glueStdlib.h:26), hence the reduction. -/
def length (h : Heap) (s : CStr) : Res Nat := do
  let b ← cStr h s
  let n ← strlen b
  .ok (n % 2 ^ 32)

/-- The memory of a `const char*` argument that is foreign to the library: an array that contains the
bytes and a terminator (the string a reader sees ends at the first NUL among them). -/
def litBuf (bytes : List UInt8) : Buf := bytes.map some ++ [some 0]

/-- `cstring_append`, cstring.c:60-90, for an argument that does not point into the string itself.
`alloc` says whether `malloc`/`realloc` succeeds. The 64-bit `size_t` sum of line 64 cannot wrap
because both strings lie in a 64-bit address space, so it is a natural number here. -/
def append (alloc : Bool) (h : Heap) (s : CStr) (arg : Buf) : Res (Heap × CStr) := do
  let currentSize ← length h s                                   -- line 62
  let sizeToAppend ← strlen arg                                  -- line 63
  let newSize := currentSize + sizeToAppend + 1                 -- line 64
  match s.heap with
  | some p =>                                                    -- lines 66-75
    if alloc then
      let (h1, p1) ← h.realloc p newSize
      match h1.blocks p1 with
      | none => .ub
      | some b =>
        let b' ← strcat b arg                                    -- line 89
        .ok (h1.set p1 (some b'), { s with heap := some p1 })
    else .exit                                                   -- lines 69-73
  | none =>
    if newSize ≤ maxStack then                                   -- lines 78-81
      let st ← strcat s.stack arg                                -- line 89
      .ok (h, { s with stack := st })
    else if alloc then                                           -- lines 84-86
      let (h1, p1) := h.malloc newSize
      match h1.blocks p1 with
      | none => .ub
      | some b =>
        let b1 ← strncpy b s.stack (currentSize + 1)
        let b2 ← strcat b1 arg                                   -- line 89
        .ok (h1.set p1 (some b2), { s with heap := some p1 })
    else .ub                                                     -- strncpy to NULL, line 85

/-- `cstring_append(s, cstring_c_str(s))`: the argument is the string's own buffer.
On the heap the argument dangles after `realloc` (line 68); in the inline buffer `strcat` overlaps
(line 89); only the switch from inline to heap reads an untouched array. -/
def appendSelf (alloc : Bool) (h : Heap) (s : CStr) : Res (Heap × CStr) := do
  let currentSize ← length h s
  let newSize := currentSize + currentSize + 1
  match s.heap with
  | some p =>
    if alloc then
      let (_, _) ← h.realloc p newSize
      .ub
    else .exit
  | none =>
    if newSize ≤ maxStack then .ub
    else append alloc h s s.stack

/-- `cstring_new_init`, cstring.c:17-24. -/
def newInit (alloc : Bool) (h : Heap) (arg : Buf) : Res (Heap × CStr) := append alloc h cnew arg

/-- `cstring_free`, cstring.c:92-99. -/
def free (h : Heap) (s : CStr) : Res (Heap × CStr) :=
  match s.heap with
  | none => .ok (h, s)
  | some p => do
    let h' ← h.free p
    .ok (h', { s with heap := none })

/-- `strcmp` (libc) as the sign of its result. -/
def strcmp : Buf → Buf → Res Int
  | some a :: r, some b :: t =>
    if a = b then (if a = 0 then .ok 0 else strcmp r t)
    else .ok (if a < b then -1 else 1)
  | _, _ => .ub

/-- `cstring_compare_const_char`, cstring.c:50-53. -/
def compareChar (h : Heap) (s : CStr) (other : Buf) : Res Int := do
  let b ← cStr h s
  strcmp b other

/-- `cstring_compare_const_cstring`, cstring.c:55-58. -/
def compareCstring (h : Heap) (s t : CStr) : Res Int := do
  let b ← cStr h t
  compareChar h s b

/-! ## A program using several strings -/

/-- State of a program that owns some `cstring` variables. -/
structure Sys where
  heap : Heap
  vars : List CStr

/-- One API call of such a program; variables are designated by their index. -/
inductive Op where
  | new
  | newInit (arg : List UInt8) (alloc : Bool)
  | append (v : Nat) (arg : List UInt8) (alloc : Bool)
  | appendFrom (v w : Nat) (alloc : Bool)
  | free (v : Nat)
  deriving DecidableEq, Repr

def Sys.init : Sys := ⟨⟨fun _ => none, 0⟩, []⟩

/-- One step. Naming a variable that does not exist is undefined. -/
def step (s : Sys) : Op → Res Sys
  | .new => .ok { s with vars := s.vars ++ [cnew] }
  | .newInit arg a => do
    let (h, c) ← newInit a s.heap (litBuf arg)
    .ok ⟨h, s.vars ++ [c]⟩
  | .append v arg a =>
    match s.vars[v]? with
    | none => .ub
    | some c => do
      let (h, c') ← append a s.heap c (litBuf arg)
      .ok ⟨h, s.vars.set v c'⟩
  | .appendFrom v w a =>
    match s.vars[v]?, s.vars[w]? with
    | some c, some d =>
      if v = w then do
        let (h, c') ← appendSelf a s.heap c
        .ok ⟨h, s.vars.set v c'⟩
      else do
        let b ← cStr s.heap d
        let (h, c') ← append a s.heap c b
        .ok ⟨h, s.vars.set v c'⟩
    | _, _ => .ub
  | .free v =>
    match s.vars[v]? with
    | none => .ub
    | some c => do
      let (h, c') ← free s.heap c
      .ok ⟨h, s.vars.set v c'⟩

/-- A whole program. -/
def run (s : Sys) : List Op → Res Sys
  | [] => .ok s
  | o :: os => step s o >>= fun s' => run s' os

end EasyMock.CString
