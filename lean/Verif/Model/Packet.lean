import Verif.Model.ReadStream
import Verif.Model.Loader

/-
`PacketSerializer::FromMemoryStream` (ISD_PacketSerializer.cpp 44-89).  `ToMemoryStream` (lines 91-94) does nothing and the
packet that is returned is always null.
-/

namespace ISD
namespace Packet

/-- `this_system_is_big_endian` (lines 10-14) on x64. -/
def systemIsBigEndian : Bool := false

/-- The bytes of an array that was `old` after a read that delivered `got`: the rest keeps what was there. -/
def over (got old : Bytes) : Bytes := got ++ old.drop got.length

/-- Lines 69-73: flip the byte order if that of the file is not that of the system. -/
def checkByteOrder (flags : Nat) : Prog RStream Unit :=
  if decide (flags &&& 1 ≠ 0) ≠ systemIsBigEndian then RStream.setFlip true else pure ()

/-- `FromMemoryStream`.  `junk` is what the uninitialised `header.Magic` and `header._padding` (line 50) hold before. -/
def fromMemoryStream (junk junkPad : Bytes) : Prog RStream Status := do
  -- lines 51-54
  let m ← RStream.readRaw 3 junk.length
  let magic := over m junk
  let _version ← RStream.readU8
  let flags ← RStream.readU8
  let _pad ← RStream.readRaw 3 junkPad.length
  -- lines 59-62
  if magic ≠ [0x49, 0x53, 0x44] then return .eInvalid
  else do
    -- lines 69-73
    checkByteOrder flags
    -- lines 76-80
    let dataSize ← RStream.readU64
    let s ← Prog.get
    if wrap64 (s.pos + dataSize) > s.size then return .eInvalid
    else do
      -- lines 83-84
      let _entityId ← RStream.readOne .uuid
      let _entityTypeId ← RStream.readOne .uuid
      return .ok

end Packet
end ISD
