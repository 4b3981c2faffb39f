import Verif.Model.WriteStream

/-!
# Write streams in memory (ISD_MemoryWriteStream.h)

`Model.WriteStream` treats the buffer of a stream as part of the stream. Here the buffers live on a heap and the stream objects hold
pointers, so that sharing between streams, dangling pointers, double frees and leaks can be seen. `Data` pointers are known to the user
(`GetData`), who may hand them to `Write`.
-/

namespace ISD
namespace SHeap

/-- The members of a `MemoryWriteStream` (ISD_MemoryWriteStream.h 27-34); `none` is the null pointer. -/
structure Obj where
  data : Option Nat
  dataSize : Nat
  pos : Nat
  reserved : Nat
  flip : Bool
  deriving DecidableEq

/-- The program's memory: the living stream objects, the blocks that `VirtualAlloc` gave out and that are not released, and the number of calls of
`VirtualAlloc` so far. -/
structure World where
  vars : Nat → Option Obj
  heap : Nat → Option Bytes
  n : Nat

/-- Replace one entry. -/
def upd {α : Type} (f : Nat → α) (i : Nat) (x : α) : Nat → α := fun k => if k = i then x else f k

/-- `VirtualAlloc`: which calls succeed (for the n-th call and the size asked for), and at which address. An address in use is not given out as
long as there are others. -/
structure Allocator where
  allocOk : Nat → Nat → Bool
  pick : (Nat → Option Bytes) → Nat
  free : ∀ heap : Nat → Option Bytes, (∃ bound, ∀ a, bound ≤ a → heap a = none) → heap (pick heap) = none

/-- The members of the stream object; using an object that does not exist is undefined behaviour. -/
def getVar (i : Nat) : Prog World Obj := fun w =>
  match w.vars i with
  | none => .ub
  | some o => .ok o w

/-- Assignment to members of the object. -/
def modVar (i : Nat) (f : Obj → Obj) : Prog World Unit := fun w =>
  match w.vars i with
  | none => .ub
  | some o => .ok () { w with vars := upd w.vars i (some (f o)) }

/-- `VirtualAlloc( nullptr, size, … )` (line 110): a zeroed block, or null; zero bytes cannot be allocated. -/
def virtualAlloc (al : Allocator) (size : Nat) : Prog World (Option Nat) := fun w =>
  if al.allocOk w.n size = false ∨ size = 0 then .ok none { w with n := w.n + 1 }
  else .ok (some (al.pick w.heap)) { w with heap := upd w.heap (al.pick w.heap) (some (List.replicate size 0)), n := w.n + 1 }

/-- `VirtualFree( p, 0, MEM_RELEASE )` (lines 121, 131). For an address that is not (or no longer) the start of a block the call fails; the code does not look at the result. -/
def virtualFree (a : Nat) : Prog World Unit := Prog.modify fun w => { w with heap := upd w.heap a none }

/-- Where the bytes of a `Write` come from: memory that has nothing to do with streams, or a pointer into a block (from `GetData`, line 55). -/
inductive Source where
  | bytes (bs : Bytes)
  | block (p : Option Nat) (off len : Nat)

/-- The number of bytes. -/
def Source.length : Source → Nat
  | .bytes bs => bs.length
  | .block _ _ len => len

/-- Read the source: a read outside a block (or in a block that was released) is an access violation. -/
def Source.load : Source → Prog World Bytes
  | .bytes bs => Pure.pure bs
  | .block none _ _ => Prog.ub
  | .block (some a) off len => fun w =>
    match w.heap a with
    | none => .ub
    | some m => if m.length < off + len then .ub else .ok ((m.drop off).take len) w

/-- Do the source and the `n` bytes at offset `off` of block `a` share bytes? (`memcpy` of overlapping areas is undefined.) -/
def Source.overlaps (a off n : Nat) : Source → Prop
  | .bytes _ => False
  | .block p soff _ => p = some a ∧ 0 < n ∧ soff < off + n ∧ off < soff + n

instance (a off n : Nat) (s : Source) : Decidable (s.overlaps a off n) := by
  cases s <;> simp only [Source.overlaps] <;> infer_instance

/-- Overwrite bytes of a block. -/
def poke (p : Option Nat) (off : Nat) (bs : Bytes) : Prog World Unit := fun w =>
  match p with
  | none => .ub
  | some a =>
    match w.heap a with
    | none => .ub
    | some m => if m.length < off + bs.length then .ub
      else .ok () { w with heap := upd w.heap a (some (m.take off ++ bs ++ m.drop (off + bs.length))) }

/-- `memcpy( &p[off], src, src.length )`. -/
def memcpy (p : Option Nat) (off : Nat) (src : Source) : Prog World Unit := do
  let bs ← src.load
  match p with
  | none => Prog.ub
  | some a => if src.overlaps a off src.length then Prog.ub else poke (some a) off bs

/-- "if there is an old area, copy the data and free the old area" (lines 118-122). -/
def takeOver (p : Nat) (old : Option Nat) (size : Nat) : Prog World Unit :=
  match old with
  | none => Pure.pure ()
  | some a => do
    memcpy (some p) 0 (.block (some a) 0 size)
    virtualFree a

/-- `ReserveForSize` (lines 98-125). -/
def reserveForSize (al : Allocator) (i n : Nat) : Prog World Unit := do
  let o ← getVar i
  let r0 := wrap64 (o.reserved * 2)
  let r := if r0 < n then n else r0
  modVar i fun o => { o with reserved := r }
  let p ← virtualAlloc al r
  match p with
  | none => Prog.throw
  | some p =>
    takeOver p o.data o.dataSize
    modVar i fun o => { o with data := some p }

/-- `Resize` (lines 136-144). -/
def resize (al : Allocator) (i n : Nat) : Prog World Unit := do
  let o ← getVar i
  Prog.when (n > o.reserved) (reserveForSize al i n)
  modVar i fun o => { o with dataSize := n }

/-- `WriteRawData` (lines 146-158). -/
def writeRaw (al : Allocator) (i : Nat) (src : Source) : Prog World Unit := do
  let o ← getVar i
  let e := wrap64 (o.pos + src.length)
  Prog.when (e > o.dataSize) (resize al i e)
  let o1 ← getVar i
  memcpy o1.data o1.pos src
  modVar i fun o => { o with pos := e }

/-- The in-place `swap_byte_order<T>( (T*)(&this->Data[pos]), count )` (line 167). -/
def swapAt (i k p count : Nat) : Prog World Unit := do
  let o ← getVar i
  let bs ← (Source.block o.data p (count * k)).load
  poke o.data p (swapByteOrder k bs count)

/-- `WriteValues<T>` for 2, 4 and 8 byte words (lines 160-174). -/
def writeWords (al : Allocator) (i : Nat) {k : Nat} (ws : List (Word k)) : Prog World Unit := do
  let o ← getVar i
  if o.flip then do
    writeRaw al i (.bytes (ws.flatMap Word.image))
    swapAt i k o.pos ws.length
  else writeRaw al i (.bytes (ws.flatMap Word.image))

/-- `Write( const uuid *src, u64 count )` (lines 243-261). -/
def writeUUIDs (al : Allocator) (i : Nat) : List UUID → Prog World Unit
  | [] => pure ()
  | u :: us => do
    writeRaw al i (.bytes (beFromValue32 u.d1 ++ beFromValue16 u.d2 ++ beFromValue16 u.d3 ++ u.d4.toList))
    writeUUIDs al i us

/-- `Write( const T *src, u64 count )` for every scalar kind (lines 225-272), from memory that has nothing to do with streams. -/
def writeItems (al : Allocator) (i : Nat) : (sc : Sc) → List sc.Val → Prog World Unit
  | .w1, ws => writeRaw al i (.bytes (List.flatMap (Word.image (k := 1)) ws))
  | .w2, ws => writeWords al i (k := 2) ws
  | .w4, ws => writeWords al i (k := 4) ws
  | .w8, ws => writeWords al i (k := 8) ws
  | .uuid, us => writeUUIDs al i us
  | .hash, hs => writeRaw al i (.bytes (List.flatMap (fun h : Hash => h.digest.toList) hs))

/-- `SetPosition` (lines 191-198). -/
def setPosition (al : Allocator) (i n : Nat) : Prog World Unit := do
  let o ← getVar i
  Prog.when (n > o.dataSize) (resize al i n)
  modVar i fun o => { o with pos := n }

/-- `SetFlipByteOrder` (lines 205-208). -/
def setFlip (i : Nat) (b : Bool) : Prog World Unit := modVar i fun o => { o with flip := b }

/-- The constructor (line 51) in place `i`. When it throws there is no object (and the destructor does not run). -/
def construct (al : Allocator) (i n : Nat) : Prog World Unit := fun w =>
  match w.vars i with
  | some _ => .ub
  | none =>
    match reserveForSize al i n { w with vars := upd w.vars i (some ⟨none, 0, 0, 0, false⟩) } with
    | .ok () w' => .ok () w'
    | .throw w' => .throw { w' with vars := upd w'.vars i none }
    | .ub => .ub

/-- `FreeAllocation` (lines 127-133). -/
def freeAllocation (p : Option Nat) : Prog World Unit :=
  match p with
  | none => Pure.pure ()
  | some a => virtualFree a

/-- The destructor (line 52). -/
def destroy (i : Nat) : Prog World Unit := do
  let o ← getVar i
  freeAllocation o.data
  Prog.modify fun w => { w with vars := upd w.vars i none }

/-- The implicit copy constructor: all members are copied, the pointer too. -/
def copyConstruct (i j : Nat) : Prog World Unit := fun w =>
  match w.vars i with
  | some _ => .ub
  | none =>
    match w.vars j with
    | none => .ub
    | some o => .ok () { w with vars := upd w.vars i (some o) }

/-- The implicit copy assignment. -/
def copyAssign (i j : Nat) : Prog World Unit := do
  let o ← getVar j
  modVar i fun _ => o

/-- A call of a program on the streams it has. -/
inductive Call where
  | construct (i n : Nat)
  | destroy (i : Nat)
  | items (i : Nat) (sc : Sc) (l : List sc.Val)
  | raw (i : Nat) (bs : Bytes)
  /-- `streams[i].Write( (const u8*)streams[j].GetData() + off, len )`: the pointer is taken before the call. -/
  | append (i j off len : Nat)
  | seek (i n : Nat)
  | flip (i : Nat) (b : Bool)
  | copyConstruct (i j : Nat)
  | copyAssign (i j : Nat)

/-- Run the call. -/
def Call.run (al : Allocator) : Call → Prog World Unit
  | .construct i n => SHeap.construct al i n
  | .destroy i => SHeap.destroy i
  | .items i sc l => writeItems al i sc l
  | .raw i bs => writeRaw al i (.bytes bs)
  | .append i j off len => do
    let o ← getVar j
    writeRaw al i (.block o.data off len)
  | .seek i n => setPosition al i n
  | .flip i b => setFlip i b
  | .copyConstruct i j => SHeap.copyConstruct i j
  | .copyAssign i j => SHeap.copyAssign i j

/-- A program: the calls one after another; exceptions are caught and the program goes on. `none`: undefined behaviour. -/
def runAll (al : Allocator) : List Call → World → Option World
  | [], w => some w
  | c :: cs, w =>
    match c.run al w with
    | .ok () w' => runAll al cs w'
    | .throw w' => runAll al cs w'
    | .ub => none

/-- The program starts without streams. -/
def start : World := ⟨fun _ => none, fun _ => none, 0⟩

end SHeap
end ISD
