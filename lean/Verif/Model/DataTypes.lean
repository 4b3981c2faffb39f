import Verif.Model.ReadStream

/-!
# The data types and containers (CodeGeneratorHelpers.py 27-74, ISD_Types.h 89-155)
-/

namespace ISD

/-- How a data type is stored: one bool, `n` scalars of one kind (`fl` = IEEE floating point), or a string. -/
inductive Kind where
  | bool
  | items (sc : Sc) (n : Nat) (fl : Bool)
  | string
  deriving DecidableEq, Repr

/-- The C++ value of a data type. `glm` vectors, matrices and quaternions are their `value_ptr` array
(ISD_DataTypes.py 320-376); `entity_ref`/`package_ref` are the wrapped uuid/hash. -/
@[reducible] def Kind.Val : Kind → Type
  | .bool => Bool
  | .items sc n _ => Vector sc.Val n
  | .string => Bytes

instance (k : Kind) : DecidableEq k.Val := by
  cases k with
  | bool => exact (inferInstance : DecidableEq Bool)
  | items sc n fl => exact (inferInstance : DecidableEq (Vector sc.Val n))
  | string => exact (inferInstance : DecidableEq Bytes)

/-- One entry of the data type table: C++ name, value type code of a single value and of an array
(ISD_Types.h 95-143), storage, and whether it is stored through another type (`overrides_type`). -/
structure DataType where
  name : String
  vt : Nat
  avt : Nat
  kind : Kind
  overrides : Bool
  deriving DecidableEq, Repr

/-- The C++ value of a data type. -/
abbrev DataType.Val (t : DataType) : Type := t.kind.Val

/-- The base types with their variants, in the order of the generator (CodeGeneratorHelpers.py 27-67); value type codes from
ISD_Types.h 95-143. -/
def baseTypes : List (List DataType) :=
  let num (vt : Nat) (name : String) (sc : Sc) (n : Nat) (fl : Bool) : DataType :=
    ⟨name, vt, vt + 0x40, .items sc n fl, false⟩
  let ints (vt : Nat) (p s : String) (n : Nat) : List DataType :=
    [num vt (p ++ "8" ++ s) .w1 n false, num vt (p ++ "16" ++ s) .w2 n false,
     num vt (p ++ "32" ++ s) .w4 n false, num vt (p ++ "64" ++ s) .w8 n false]
  let flts (vt : Nat) (s : String) (n : Nat) : List DataType :=
    [num vt ("f" ++ s) .w4 n true, num vt ("d" ++ s) .w8 n true]
  [ [⟨"bool", 0x01, 0x41, .bool, false⟩],
    ints 0x02 "i" "" 1,
    ints 0x03 "u" "" 1,
    [num 0x04 "float" .w4 1 true, num 0x04 "double" .w8 1 true],
    flts 0x05 "vec2" 2,
    flts 0x06 "vec3" 3,
    flts 0x07 "vec4" 4,
    ints 0x08 "i" "vec2" 2,
    ints 0x09 "i" "vec3" 3,
    ints 0x0a "i" "vec4" 4,
    ints 0x0b "u" "vec2" 2,
    ints 0x0c "u" "vec3" 3,
    ints 0x0d "u" "vec4" 4,
    flts 0x0e "mat2" 4,
    flts 0x0f "mat3" 9,
    flts 0x10 "mat4" 16,
    flts 0x11 "quat" 4,
    [num 0x12 "uuid" .uuid 1 false, ⟨"entity_ref", 0x12, 0x52, .items .uuid 1 false, true⟩],
    [num 0x13 "hash" .hash 1 false, ⟨"package_ref", 0x13, 0x53, .items .hash 1 false, true⟩],
    [⟨"string", 0xe0, 0xe1, .string, false⟩] ]

/-- All data types. -/
def allTypes : List DataType := baseTypes.flatten

/-- `idx_vector<T>` (ISD_idx_vector.h): values and a 32 bit index. -/
structure IdxVec (α : Type) where
  values : List α
  index : List (Word 4)
  deriving DecidableEq, Repr

/-- The container types (CodeGeneratorHelpers.py 69-74). -/
inductive Container where
  | none | optionalValue | vector | optionalVector | idxVector | optionalIdxVector
  deriving DecidableEq, Repr

/-- The value a container object presents to its user (an absent optional presents nothing else). -/
@[reducible] def Container.Val (c : Container) (α : Type) : Type :=
  match c with
  | .none => α
  | .optionalValue => Option α
  | .vector => List α
  | .optionalVector => Option (List α)
  | .idxVector => IdxVec α
  | .optionalIdxVector => Option (IdxVec α)

instance (c : Container) (α : Type) [DecidableEq α] : DecidableEq (c.Val α) := by
  cases c <;> simp only [Container.Val] <;> infer_instance

end ISD
