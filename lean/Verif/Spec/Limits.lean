import Verif.Model.DataTypes
import Verif.Model.Order

/-!
# Specification: the order of the values of each type

Every value is a list of parts: the numbers of a vector, a matrix or a quaternion, the one number of a scalar, the bytes of a uuid, a hash
or a string. How two parts compare depends only on the type's name.
-/

namespace ISD.Spec

/-- How C++ compares two parts. -/
inductive PartOrder where
  | unsigned | signed | ieee | bytes
  deriving DecidableEq, Repr

/-- The order of the parts of a type, by the type's name. -/
def partOrder (name : String) : PartOrder :=
  if name ∈ ["i8", "i16", "i32", "i64", "i8vec2", "i16vec2", "i32vec2", "i64vec2", "i8vec3", "i16vec3", "i32vec3", "i64vec3",
      "i8vec4", "i16vec4", "i32vec4", "i64vec4"] then .signed
  else if name ∈ ["float", "double", "fvec2", "dvec2", "fvec3", "dvec3", "fvec4", "dvec4", "fmat2", "dmat2", "fmat3", "dmat3",
      "fmat4", "dmat4", "fquat", "dquat"] then .ieee
  else if name ∈ ["uuid", "entity_ref", "hash", "package_ref", "string"] then .bytes
  else .unsigned

/-- How many parts a value of a type has, by the type's name. -/
def partCount (name : String) : Nat :=
  if name ∈ ["fvec2", "dvec2", "i8vec2", "i16vec2", "i32vec2", "i64vec2", "u8vec2", "u16vec2", "u32vec2", "u64vec2"] then 2
  else if name ∈ ["fvec3", "dvec3", "i8vec3", "i16vec3", "i32vec3", "i64vec3", "u8vec3", "u16vec3", "u32vec3", "u64vec3"] then 3
  else if name ∈ ["fvec4", "dvec4", "i8vec4", "i16vec4", "i32vec4", "i64vec4", "u8vec4", "u16vec4", "u32vec4", "u64vec4",
      "fmat2", "dmat2", "fquat", "dquat"] then 4
  else if name ∈ ["fmat3", "dmat3"] then 9
  else if name ∈ ["fmat4", "dmat4"] then 16
  else 1

/-- One part: `w` bits, read as an unsigned number, or bytes. -/
inductive Part where
  | word (w : Nat) (n : Nat)
  | bytes (l : List Nat)
  deriving DecidableEq, Repr

/-- A scalar as a part. -/
def part : (sc : Sc) → sc.Val → Part
  | .w1, v => .word 8 (BitVec.toNat v)
  | .w2, v => .word 16 (BitVec.toNat v)
  | .w4, v => .word 32 (BitVec.toNat v)
  | .w8, v => .word 64 (BitVec.toNat v)
  | .uuid, v => .bytes ((UUID.image v).map fun b => b.toNat)
  | .hash, v => .bytes ((Hash.digest v).toList.map fun b => b.toNat)

/-- The parts of a value. -/
def parts : (k : Kind) → k.Val → List Part
  | .bool, b => [.word 8 (if b then 1 else 0)]
  | .items sc _ _, v => v.toList.map (part sc)
  | .string, s => [.bytes (List.map (fun (b : Byte) => b.toNat) s)]

/-- Two's complement. -/
def twos (w n : Nat) : Int := if 2 * n < 2 ^ w then (n : Int) else (n : Int) - (2 : Int) ^ w

/-- The bits of an infinite magnitude: the exponent all ones, the fraction zero (IEEE 754, 32 and 64 bits). -/
def infinite (w : Nat) : Nat := if w = 32 then 0x7f800000 else 0x7ff0000000000000

/-- The bits below the sign. -/
def magnitude (w n : Nat) : Nat := n % 2 ^ (w - 1)

/-- Not a number. -/
def isNaN (w n : Nat) : Bool := infinite w < magnitude w n

/-- The position of a number that is not NaN on the line: magnitudes are ordered like their bits; `-0` and `0` are equal. -/
def ieeeKey (w n : Nat) : Int := if n < 2 ^ (w - 1) then (magnitude w n : Int) else -(magnitude w n : Int)

/-- `a < b` in C++. -/
def Less : PartOrder → Part → Part → Prop
  | .unsigned, .word _ a, .word _ b => a < b
  | .signed, .word w a, .word _ b => twos w a < twos w b
  | .ieee, .word w a, .word _ b => isNaN w a = false ∧ isNaN w b = false ∧ ieeeKey w a < ieeeKey w b
  | .bytes, .bytes a, .bytes b => a < b
  | _, _, _ => False

/-- Minus infinity. -/
def MinusInfinity : PartOrder → Part → Prop
  | .ieee, .word w a => a = 2 ^ (w - 1) + infinite w
  | _, _ => False

/-- Plus infinity. -/
def PlusInfinity : PartOrder → Part → Prop
  | .ieee, .word w a => a = infinite w
  | _, _ => False

/-- The part is zero: no bit is set, no byte is other than zero. -/
def AllZero : Part → Prop
  | .word _ n => n = 0
  | .bytes l => ∀ b ∈ l, b = 0

end ISD.Spec
