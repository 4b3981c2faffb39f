import Verif.Model.ReadStream

/-!
# Specification: plain byte files and the wire format

Independent of the stream model: a byte file with a cursor, and the byte layout documented in ISD_Types.h 63-86.
-/

namespace ISD.Spec

/-- A plain byte file with a cursor and the byte order setting. -/
structure File where
  content : Bytes
  pos : Nat
  flip : Bool
  deriving DecidableEq, Repr

/-- Overwrite at the cursor, extending the file when the data reaches past its end. -/
def File.write (f : File) (bs : Bytes) : File :=
  { f with
    content := f.content.take f.pos ++ bs ++ f.content.drop (f.pos + bs.length)
    pos := f.pos + bs.length }

/-- Move the cursor; a position past the end extends the file with zero bytes. -/
def File.seek (f : File) (n : Nat) : File :=
  { f with content := f.content ++ List.replicate (n - f.content.length) 0, pos := n }

/-- The `k` bytes of a number, least significant first. -/
def lsbFirst (k n : Nat) : Bytes := (List.range k).map fun i => UInt8.ofNat (n / 256 ^ i)

/-- The `k` bytes of a number, most significant first. -/
def msbFirst (k n : Nat) : Bytes := (lsbFirst k n).reverse

/-- A number of `k` bytes on the wire: least significant byte first, or most significant first when byte order is flipped. -/
def number (flip : Bool) (k n : Nat) : Bytes := if flip then msbFirst k n else lsbFirst k n

/-- A uuid on the wire: its hex digits in printed order. -/
def uuid (u : UUID) : Bytes :=
  msbFirst 4 u.d1.toNat ++ msbFirst 2 u.d2.toNat ++ msbFirst 2 u.d3.toNat ++ u.d4.toList

/-- One stored scalar on the wire. -/
def scalar (flip : Bool) : (sc : Sc) → sc.Val → Bytes
  | .w1, w => number flip 1 (BitVec.toNat (w := 8) w)
  | .w2, w => number flip 2 (BitVec.toNat (w := 16) w)
  | .w4, w => number flip 4 (BitVec.toNat (w := 32) w)
  | .w8, w => number flip 8 (BitVec.toNat (w := 64) w)
  | .uuid, u => uuid u
  | .hash, h => h.digest.toList

/-- An array of scalars on the wire. -/
def scalars (flip : Bool) (sc : Sc) (l : List sc.Val) : Bytes := l.flatMap (scalar flip sc)

end ISD.Spec
