import Verif.Model.WriteStream

/-! # `MemoryReadStream` (ISD_MemoryReadStream.h) -/

namespace ISD

/-- Wrap-around subtraction of `u64`. -/
def sub64 (a b : Nat) : Nat := (a + 2 ^ 64 - b) % 2 ^ 64

/-- `class MemoryReadStream` (ISD_MemoryReadStream.h 19-25); `DataSize` is the length of `data`. -/
structure RStream where
  data : Bytes
  pos : Nat
  flip : Bool
  deriving DecidableEq, Repr

/-- Cut an image in `n` words of `k` bytes (viewing raw memory as `T[n]`). -/
def wordsOf (k : Nat) : Nat → Bytes → List (Word k)
  | 0, _ => []
  | n + 1, bs => Word.ofImage k (bs.take k) :: wordsOf k n (bs.drop k)

namespace RStream

/-- `GetSize` (ISD_MemoryReadStream.h 124-127). -/
def size (s : RStream) : Nat := s.data.length

/-- `Peek` (ISD_MemoryReadStream.h 84-90). -/
def peek (s : RStream) : Byte := if s.pos ≥ s.size then 0 else s.data.getD s.pos 0

/-- `IsEOF` (ISD_MemoryReadStream.h 144-147). -/
def isEOF (s : RStream) : Bool := s.pos ≥ s.size

/-- `ReadRawData( dest, count )` (ISD_MemoryReadStream.h 92-106) into a destination of `cap` bytes. The result is the
list of bytes copied. Copying outside the source or destination is undefined behaviour. -/
def readRaw (count cap : Nat) : Prog RStream Bytes := do
  let s ← Prog.get
  let e0 := wrap64 (s.pos + count)
  let e := if e0 > s.size then s.size else e0
  let n := if e0 > s.size then sub64 s.size s.pos else count
  if cap < n ∨ s.size < s.pos + n then Prog.ub
  else do
    Prog.set { s with pos := e }
    return (s.data.drop s.pos).take n

/-- `ReadValues<T>( T *dest, u64 count )` for 2, 4, 8 byte words (ISD_MemoryReadStream.h 108-117). `dest` is the
previous content of the destination array; the result is the returned count and the new content. -/
def readWords {k : Nat} (count : Nat) (dest : List (Word k)) : Prog RStream (Nat × List (Word k)) := do
  let s ← Prog.get
  let image := dest.flatMap Word.image
  let bs ← readRaw (wrap64 (count * k)) image.length
  let image1 := bs ++ image.drop bs.length
  if s.flip then
    if image1.length < count * k then Prog.ub
    else return (bs.length / k, wordsOf k dest.length (swapByteOrder k image1 count))
  else return (bs.length / k, wordsOf k dest.length image1)

/-- `ReadValues<u8>` (ISD_MemoryReadStream.h 119-122). -/
def readByteWords (count : Nat) (dest : List (Word 1)) : Prog RStream (Nat × List (Word 1)) := do
  let image := dest.flatMap Word.image
  let bs ← readRaw count image.length
  return (bs.length, wordsOf 1 dest.length (bs ++ image.drop bs.length))

/-- `Read( uuid *dest, u64 count )` (ISD_MemoryReadStream.h 193-212): element `i` onwards, `count` still to go. -/
def readUUIDs : (i count : Nat) → List UUID → Prog RStream (Nat × List UUID)
  | i, 0, dest => return (i, dest)
  | i, count + 1, dest => do
    let bs ← readRaw 16 16
    if bs.length ≠ 16 then return (i, dest)
    else if dest.length ≤ i then Prog.ub
    else readUUIDs (i + 1) count (dest.set i
      { d1 := valueFromBE32 bs
        d2 := valueFromBE16 (bs.drop 4)
        d3 := valueFromBE16 (bs.drop 6)
        d4 := takeVec 8 (bs.drop 8) })

/-- View raw memory as `hash[n]`. -/
def hashesOf : Nat → Bytes → List Hash
  | 0, _ => []
  | n + 1, bs => ⟨takeVec 32 bs⟩ :: hashesOf n (bs.drop 32)

/-- `Read( hash *dest, u64 count )` (ISD_MemoryReadStream.h 215-224). -/
def readHashes (count : Nat) (dest : List Hash) : Prog RStream (Nat × List Hash) := do
  let image := dest.flatMap fun h => h.digest.toList
  let bs ← readRaw (wrap64 (32 * count)) image.length
  return (bs.length / 32, hashesOf dest.length (bs ++ image.drop bs.length))

/-- `Read( T *dest, u64 count )` for every scalar kind (ISD_MemoryReadStream.h 175-224). -/
def readItems : (sc : Sc) → (count : Nat) → List sc.Val → Prog RStream (Nat × List sc.Val)
  | .w1, count, dest => readByteWords count dest
  | .w2, count, dest => readWords (k := 2) count dest
  | .w4, count, dest => readWords (k := 4) count dest
  | .w8, count, dest => readWords (k := 8) count dest
  | .uuid, count, dest => readUUIDs 0 count dest
  | .hash, count, dest => readHashes count dest

/-- `T Read<T>()` (ISD_MemoryReadStream.h 161-172): zero initialised destination, the returned count is dropped. -/
def readOne (sc : Sc) : Prog RStream sc.Val := do
  let r ← readItems sc 1 [sc.zero]
  return r.2.headD sc.zero

/-- `SetPosition` (ISD_MemoryReadStream.h 134-142). -/
def setPosition (n : Nat) : Prog RStream Bool := do
  let s ← Prog.get
  if n > s.size then return false
  else do
    Prog.set { s with pos := n }
    return true

/-- `SetFlipByteOrder` (ISD_MemoryReadStream.h 154-157). -/
def setFlip (b : Bool) : Prog RStream Unit := Prog.modify fun s => { s with flip := b }

/-- `Read<u8>()` as a number. -/
def readU8 : Prog RStream Nat := do
  let w ← readOne .w1
  return BitVec.toNat (w := 8) w
/-- `Read<u16>()` as a number. -/
def readU16 : Prog RStream Nat := do
  let w ← readOne .w2
  return BitVec.toNat (w := 16) w
/-- `Read<u64>()` as a number. -/
def readU64 : Prog RStream Nat := do
  let w ← readOne .w8
  return BitVec.toNat (w := 64) w

end RStream
end ISD
