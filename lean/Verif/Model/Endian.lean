import Verif.Model.Basic

/-!
# Byte order helpers and hex printing (ISD_Types.h, ISD_Types.cpp)
-/

namespace ISD

/-- A `uuid` (rpc.h `UUID`): `Data1` u32, `Data2`/`Data3` u16, `Data4` 8 bytes. sizeof == 16
(ISD_MemoryWriteStream.h 245). -/
structure UUID where
  d1 : Word 4
  d2 : Word 2
  d3 : Word 2
  d4 : Vector Byte 8
  deriving DecidableEq, Repr

/-- A `hash`: 32 digest bytes (uuid_hash_header.inl; sizeof == 32, ISD_MemoryWriteStream.h 266). -/
structure Hash where
  digest : Vector Byte 32
  deriving DecidableEq, Repr

/-- `value_from_bigendian<u16>`: `(u16(src[0]) << 8) | u16(src[1])` (ISD_Types.h 162).
A shorter list (reading outside the array) is not modelled: missing bytes count as 0. -/
def valueFromBE16 (src : Bytes) : Word 2 :=
  ((src.getD 0 0).toBitVec.setWidth 16 <<< 8) ||| (src.getD 1 0).toBitVec.setWidth 16
/-- `value_from_bigendian<u32>` (ISD_Types.h 163). -/
def valueFromBE32 (src : Bytes) : Word 4 :=
  ((valueFromBE16 src).setWidth 32 <<< 16) ||| (valueFromBE16 (src.drop 2)).setWidth 32
/-- `value_from_bigendian<u64>` (ISD_Types.h 164). -/
def valueFromBE64 (src : Bytes) : Word 8 :=
  ((valueFromBE32 src).setWidth 64 <<< 32) ||| (valueFromBE32 (src.drop 4)).setWidth 64

/-- `bigendian_from_value<u16>`: `dst[0]=(value>>8)&0xff; dst[1]=value&0xff` (ISD_Types.h 168). -/
def beFromValue16 (v : Word 2) : Bytes :=
  [UInt8.ofBitVec ((v >>> 8 &&& 0xff#16).setWidth 8), UInt8.ofBitVec ((v &&& 0xff#16).setWidth 8)]
/-- `bigendian_from_value<u32>` (ISD_Types.h 169). -/
def beFromValue32 (v : Word 4) : Bytes :=
  beFromValue16 ((v >>> 16 &&& 0xffff#32).setWidth 16) ++ beFromValue16 ((v &&& 0xffff#32).setWidth 16)
/-- `bigendian_from_value<u64>` (ISD_Types.h 170). -/
def beFromValue64 (v : Word 8) : Bytes :=
  beFromValue32 ((v >>> 32 &&& 0xffffffff#64).setWidth 32) ++ beFromValue32 ((v &&& 0xffffffff#64).setWidth 32)

/-- `swap_bytes( &p[i], &p[j] )` (ISD_Types.h 186-191). -/
def swapBytes (m : Bytes) (i j : Nat) : Bytes :=
  (m.set i (m.getD j 0)).set j (m.getD i 0)

/-- `swap_byte_order<T>( T *dest )` for one word of `k` bytes at the start of the memory `m`
(ISD_Types.h 194-209). Widths other than 2, 4, 8 are rejected at compile time in C++; the model leaves the memory alone. -/
def swapWord (k : Nat) (m : Bytes) : Bytes :=
  match k with
  | 2 => swapBytes m 0 1
  | 4 => swapBytes (swapBytes m 0 3) 1 2
  | 8 => swapBytes (swapBytes (swapBytes (swapBytes m 0 7) 1 6) 2 5) 3 4
  | _ => m

/-- `swap_byte_order<T>( T *dest, size_t count )` on the memory `m` starting at `dest`
(ISD_Types.h 211-238): swap the first word, advance `dest` by one word, repeat. -/
def swapByteOrder (k : Nat) (m : Bytes) : Nat → Bytes
  | 0 => m
  | count + 1 =>
    let m' := swapWord k m
    m'.take k ++ swapByteOrder k (m'.drop k) count

/-- `hexchars[16]` (ISD_Types.cpp 39). -/
def hexChar (n : Nat) : Char :=
  ['0','1','2','3','4','5','6','7','8','9','a','b','c','d','e','f'].getD n '0'

/-- `bytes_to_hex_string` (ISD_Types.cpp 37-50): high nibble then low nibble of each byte. -/
def bytesToHex : Bytes → List Char
  | [] => []
  | b :: bs => hexChar ((b >>> 4 &&& 0xf).toNat) :: hexChar ((b &&& 0xf).toNat) :: bytesToHex bs

/-- `value_to_hex_string<u8>` (ISD_Types.cpp 52-55). -/
def hexU8 (v : Byte) : List Char := bytesToHex [v]
/-- `value_to_hex_string<u16>` (ISD_Types.cpp 57-61): the object is overwritten by its big-endian bytes, then printed. -/
def hexU16 (v : Word 2) : List Char := bytesToHex (beFromValue16 v)
/-- `value_to_hex_string<u32>` (ISD_Types.cpp 63-67). -/
def hexU32 (v : Word 4) : List Char := bytesToHex (beFromValue32 v)
/-- `value_to_hex_string<u64>` (ISD_Types.cpp 69-73). -/
def hexU64 (v : Word 8) : List Char := bytesToHex (beFromValue64 v)
/-- `value_to_hex_string<uuid>` (ISD_Types.cpp 75-90). -/
def hexUUID (v : UUID) : List Char :=
  hexU32 v.d1 ++ ['-'] ++ hexU16 v.d2 ++ ['-'] ++ hexU16 v.d3 ++ ['-'] ++
    bytesToHex (v.d4.toList.take 2) ++ ['-'] ++ bytesToHex (v.d4.toList.drop 2)
/-- `value_to_hex_string<hash>` (ISD_Types.cpp 92-96). -/
def hexHash (v : Hash) : List Char := bytesToHex v.digest.toList

/-- The 16 bytes that the streams store for a uuid (ISD_MemoryWriteStream.h 249-256). -/
def UUID.wire (u : UUID) : Bytes :=
  beFromValue32 u.d1 ++ beFromValue16 u.d2 ++ beFromValue16 u.d3 ++ u.d4.toList

/-- A `Vector` of the given size from the first bytes of a list (memcpy of a fixed size array; missing bytes are 0). -/
def takeVec (n : Nat) (bs : Bytes) : Vector Byte n := Vector.ofFn (fun i => bs.getD i.val 0)

/-- The uuid assembled from 16 raw bytes (ISD_MemoryReadStream.h 205-208). -/
def UUID.ofWire (bs : Bytes) : UUID where
  d1 := valueFromBE32 bs
  d2 := valueFromBE16 (bs.drop 4)
  d3 := valueFromBE16 (bs.drop 6)
  d4 := takeVec 8 (bs.drop 8)

end ISD
