import Verif.Model.StreamHeap
import Verif.Model.ReadStream

/-!
# Read streams over the memory of write streams (ISD_MemoryReadStream.h)

`MemoryReadStream( stream.GetData(), stream.GetSize() )` is how everything written is read back without a copy. `Model.ReadStream` gives
the read stream its bytes as a value; here it has a pointer into the heap of `Model.StreamHeap`.
-/

namespace ISD
namespace SHeap

/-- The members of a `MemoryReadStream` (ISD_MemoryReadStream.h 22-24). The byte order is used only after the bytes are copied (lines 108-117). -/
structure View where
  data : Option Nat
  size : Nat
  pos : Nat
  deriving DecidableEq

/-- `MemoryReadStream( streams[i].GetData(), streams[i].GetSize() )` (ISD_MemoryReadStream.h 36, ISD_MemoryWriteStream.h 55, 58). -/
def viewOf (i : Nat) : Prog World View := do
  let o ← getVar i
  return ⟨o.data, o.dataSize, 0⟩

/-- `ReadRawData( dest, count )` into memory of the program with room for `count` bytes (ISD_MemoryReadStream.h 92-106); every `Read` gets its bytes
here and nowhere else. Result: the bytes and the view afterwards. A `memcpy` of no bytes touches nothing, whatever the pointer. -/
def View.readRaw (v : View) (count : Nat) : Prog World (Bytes × View) := do
  let e0 := wrap64 (v.pos + count)
  let e := if e0 > v.size then v.size else e0
  let n := if e0 > v.size then sub64 v.size v.pos else count
  if n = 0 then return ([], { v with pos := e })
  else do
    let bs ← (Source.block v.data v.pos n).load
    return (bs, { v with pos := e })

/-- `Peek` (ISD_MemoryReadStream.h 84-90). -/
def View.peek (v : View) : Prog World Byte :=
  if v.pos ≥ v.size then return 0
  else do
    let bs ← (Source.block v.data v.pos 1).load
    return bs.headD 0

/-- `SetPosition` (ISD_MemoryReadStream.h 134-142). -/
def View.setPosition (v : View) (n : Nat) : Bool × View :=
  if n > v.size then (false, v) else (true, { v with pos := n })

end SHeap
end ISD
