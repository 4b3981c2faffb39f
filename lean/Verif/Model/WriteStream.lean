import Verif.Model.Endian

/-!
# `MemoryWriteStream` (ISD_MemoryWriteStream.h)

The stream object, with the complete contents of the allocation behind `Data`.  Whether the n-th `VirtualAlloc`
succeeds for a given size is decided by the oracle `allocOk`, over which every theorem quantifies.
-/

namespace ISD

/-- The stored scalar kinds of the stream overload set: 1, 2, 4, 8 byte words (signed, unsigned, float alike),
uuid and hash (ISD_MemoryWriteStream.h 83-94, ISD_MemoryReadStream.h 70-81). -/
inductive Sc where
  | w1 | w2 | w4 | w8 | uuid | hash
  deriving DecidableEq, Repr

/-- The C++ object of each scalar kind. -/
@[reducible] def Sc.Val : Sc → Type
  | .w1 => Word 1
  | .w2 => Word 2
  | .w4 => Word 4
  | .w8 => Word 8
  | .uuid => UUID
  | .hash => Hash

instance (sc : Sc) : DecidableEq sc.Val := by
  cases sc <;> simp only [Sc.Val] <;> infer_instance

/-- `sizeof` of the scalar. -/
def Sc.size : Sc → Nat
  | .w1 => 1
  | .w2 => 2
  | .w4 => 4
  | .w8 => 8
  | .uuid => 16
  | .hash => 32

/-- Zero initialised scalar (`T dest = 0` / `= {}`; ISD_MemoryReadStream.h 161-172). -/
def Sc.zero : (sc : Sc) → sc.Val
  | .w1 => (0 : Word 1)
  | .w2 => (0 : Word 2)
  | .w4 => (0 : Word 4)
  | .w8 => (0 : Word 8)
  | .uuid => (⟨0, 0, 0, Vector.replicate 8 0⟩ : UUID)
  | .hash => (⟨Vector.replicate 32 0⟩ : Hash)

/-- `class MemoryWriteStream` (ISD_MemoryWriteStream.h 22-34). `mem` is the memory block at `Data` (`[]` for the null
pointer); `PageSize` is never used by the code and is left out. `VirtualAlloc` rounds up to whole pages: the model
gives the stream only the bytes it asked for. -/
structure WStream where
  mem : Bytes
  dataSize : Nat
  pos : Nat
  reserved : Nat
  flip : Bool
  allocOk : Nat → Nat → Bool
  allocNo : Nat

namespace WStream

/-- The bytes a user sees: the first `GetSize()` bytes at `GetData()` (ISD_MemoryWriteStream.h 55, 58). -/
def content (s : WStream) : Bytes := s.mem.take s.dataSize

/-- `ReserveForSize` (ISD_MemoryWriteStream.h 98-125). The reserved size is updated before the allocation is attempted.
A `VirtualAlloc` of zero bytes fails. New memory is zeroed. -/
def reserveForSize (n : Nat) : Prog WStream Unit := do
  let s ← Prog.get
  let r0 := wrap64 (s.reserved * 2)
  let r := if r0 < n then n else r0
  Prog.set { s with reserved := r, allocNo := s.allocNo + 1 }
  if s.allocOk s.allocNo r = false ∨ r = 0 then Prog.throw
  else if s.mem.length < s.dataSize ∨ r < s.dataSize then Prog.ub
  else Prog.modify fun t => { t with mem := s.mem.take s.dataSize ++ List.replicate (r - s.dataSize) 0 }

/-- `Resize` (ISD_MemoryWriteStream.h 136-144). -/
def resize (n : Nat) : Prog WStream Unit := do
  let s ← Prog.get
  Prog.when (n > s.reserved) (reserveForSize n)
  Prog.modify fun t => { t with dataSize := n }

/-- The constructor `MemoryWriteStream( u64 _InitialAllocationSize )` (ISD_MemoryWriteStream.h 51). -/
def create (allocOk : Nat → Nat → Bool) (n : Nat) : Res WStream Unit :=
  reserveForSize n { mem := [], dataSize := 0, pos := 0, reserved := 0, flip := false, allocOk, allocNo := 0 }

/-- `WriteRawData` (ISD_MemoryWriteStream.h 146-158). `src`/`count` are the byte list; the `memcpy` outside the
allocation is undefined behaviour. -/
def writeRaw (src : Bytes) : Prog WStream Unit := do
  let s ← Prog.get
  let e := wrap64 (s.pos + src.length)
  Prog.when (e > s.dataSize) (resize e)
  let s1 ← Prog.get
  if s1.mem.length < s1.pos + src.length then Prog.ub
  else Prog.set { s1 with
    mem := s1.mem.take s1.pos ++ src ++ s1.mem.drop (s1.pos + src.length)
    pos := e }

/-- The in-place `swap_byte_order<T>( (T*)(&this->Data[pos]), count )` (ISD_MemoryWriteStream.h 167). -/
def swapAt (k p count : Nat) : Prog WStream Unit := do
  let s ← Prog.get
  if s.mem.length < p + count * k then Prog.ub
  else Prog.set { s with mem := s.mem.take p ++ swapByteOrder k (s.mem.drop p) count }

/-- `WriteValues<T>` for 2, 4 and 8 byte words (ISD_MemoryWriteStream.h 160-174). -/
def writeWords {k : Nat} (ws : List (Word k)) : Prog WStream Unit := do
  let s ← Prog.get
  if s.flip then do
    writeRaw (ws.flatMap Word.image)
    swapAt k s.pos ws.length
  else writeRaw (ws.flatMap Word.image)

/-- `Write( const uuid *src, u64 count )` (ISD_MemoryWriteStream.h 243-261). -/
def writeUUIDs : List UUID → Prog WStream Unit
  | [] => pure ()
  | u :: us => do
    writeRaw (beFromValue32 u.d1 ++ beFromValue16 u.d2 ++ beFromValue16 u.d3 ++ u.d4.toList)
    writeUUIDs us

/-- `Write( const T *src, u64 count )` for every scalar kind (ISD_MemoryWriteStream.h 225-272). -/
def writeItems : (sc : Sc) → List sc.Val → Prog WStream Unit
  | .w1, ws => writeRaw (List.flatMap (Word.image (k := 1)) ws)
  | .w2, ws => writeWords (k := 2) ws
  | .w4, ws => writeWords (k := 4) ws
  | .w8, ws => writeWords (k := 8) ws
  | .uuid, us => writeUUIDs us
  | .hash, hs => writeRaw (List.flatMap (fun h : Hash => h.digest.toList) hs)

/-- `Write( const T &src )`: one item (ISD_MemoryWriteStream.h 211-222). -/
def writeOne (sc : Sc) (v : sc.Val) : Prog WStream Unit := writeItems sc [v]

/-- `SetPosition` (ISD_MemoryWriteStream.h 191-198). -/
def setPosition (n : Nat) : Prog WStream Unit := do
  let s ← Prog.get
  Prog.when (n > s.dataSize) (resize n)
  Prog.modify fun t => { t with pos := n }

/-- `SetFlipByteOrder` (ISD_MemoryWriteStream.h 205-208). -/
def setFlip (b : Bool) : Prog WStream Unit := Prog.modify fun t => { t with flip := b }

/-- `Write( const u8& )` of a number. -/
def writeU8 (n : Nat) : Prog WStream Unit := writeOne .w1 (BitVec.ofNat 8 n : Word 1)
/-- `Write( const u16& )` of a number. -/
def writeU16 (n : Nat) : Prog WStream Unit := writeOne .w2 (BitVec.ofNat 16 n : Word 2)
/-- `Write( const u64& )` of a number. -/
def writeU64 (n : Nat) : Prog WStream Unit := writeOne .w8 (BitVec.ofNat 64 n : Word 8)
/-- `Write( const u8*, count )` / `Write( const i8*, count )` of raw bytes (keys, string contents). -/
def writeBytes (bs : Bytes) : Prog WStream Unit := writeRaw bs

end WStream
end ISD
