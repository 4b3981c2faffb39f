/-!
# Specification: the documented value types

The table of ISD_Types.h 95-143 (codes and sizes) with the C++ type names of the documentation, as plain numbers.
-/

namespace ISD.Spec

/-- One C++ type: its name, the code of a value, the code of an array, and the bytes of one value (0: strings have no fixed size). -/
structure TypeRow where
  name : String
  code : Nat
  arrayCode : Nat
  bytes : Nat
  deriving DecidableEq, Repr

/-- ISD_Types.h 95-143. -/
def typeTable : List TypeRow := [
  ⟨"bool", 0x01, 0x41, 1⟩,
  ⟨"i8", 0x02, 0x42, 1⟩, ⟨"i16", 0x02, 0x42, 2⟩, ⟨"i32", 0x02, 0x42, 4⟩, ⟨"i64", 0x02, 0x42, 8⟩,
  ⟨"u8", 0x03, 0x43, 1⟩, ⟨"u16", 0x03, 0x43, 2⟩, ⟨"u32", 0x03, 0x43, 4⟩, ⟨"u64", 0x03, 0x43, 8⟩,
  ⟨"float", 0x04, 0x44, 4⟩, ⟨"double", 0x04, 0x44, 8⟩,
  ⟨"fvec2", 0x05, 0x45, 8⟩, ⟨"dvec2", 0x05, 0x45, 16⟩,
  ⟨"fvec3", 0x06, 0x46, 12⟩, ⟨"dvec3", 0x06, 0x46, 24⟩,
  ⟨"fvec4", 0x07, 0x47, 16⟩, ⟨"dvec4", 0x07, 0x47, 32⟩,
  ⟨"i8vec2", 0x08, 0x48, 2⟩, ⟨"i16vec2", 0x08, 0x48, 4⟩, ⟨"i32vec2", 0x08, 0x48, 8⟩, ⟨"i64vec2", 0x08, 0x48, 16⟩,
  ⟨"i8vec3", 0x09, 0x49, 3⟩, ⟨"i16vec3", 0x09, 0x49, 6⟩, ⟨"i32vec3", 0x09, 0x49, 12⟩, ⟨"i64vec3", 0x09, 0x49, 24⟩,
  ⟨"i8vec4", 0x0a, 0x4a, 4⟩, ⟨"i16vec4", 0x0a, 0x4a, 8⟩, ⟨"i32vec4", 0x0a, 0x4a, 16⟩, ⟨"i64vec4", 0x0a, 0x4a, 32⟩,
  ⟨"u8vec2", 0x0b, 0x4b, 2⟩, ⟨"u16vec2", 0x0b, 0x4b, 4⟩, ⟨"u32vec2", 0x0b, 0x4b, 8⟩, ⟨"u64vec2", 0x0b, 0x4b, 16⟩,
  ⟨"u8vec3", 0x0c, 0x4c, 3⟩, ⟨"u16vec3", 0x0c, 0x4c, 6⟩, ⟨"u32vec3", 0x0c, 0x4c, 12⟩, ⟨"u64vec3", 0x0c, 0x4c, 24⟩,
  ⟨"u8vec4", 0x0d, 0x4d, 4⟩, ⟨"u16vec4", 0x0d, 0x4d, 8⟩, ⟨"u32vec4", 0x0d, 0x4d, 16⟩, ⟨"u64vec4", 0x0d, 0x4d, 32⟩,
  ⟨"fmat2", 0x0e, 0x4e, 16⟩, ⟨"dmat2", 0x0e, 0x4e, 32⟩,
  ⟨"fmat3", 0x0f, 0x4f, 36⟩, ⟨"dmat3", 0x0f, 0x4f, 72⟩,
  ⟨"fmat4", 0x10, 0x50, 64⟩, ⟨"dmat4", 0x10, 0x50, 128⟩,
  ⟨"fquat", 0x11, 0x51, 16⟩, ⟨"dquat", 0x11, 0x51, 32⟩,
  ⟨"uuid", 0x12, 0x52, 16⟩, ⟨"entity_ref", 0x12, 0x52, 16⟩,
  ⟨"hash", 0x13, 0x53, 32⟩, ⟨"package_ref", 0x13, 0x53, 32⟩,
  ⟨"string", 0xe0, 0xe1, 0⟩ ]

/-- The pairs of types that a file does not tell apart: a reference is stored as what it refers by. -/
def Alias (a b : String) : Prop :=
  (a = "uuid" ∧ b = "entity_ref") ∨ (a = "entity_ref" ∧ b = "uuid") ∨ (a = "hash" ∧ b = "package_ref") ∨ (a = "package_ref" ∧ b = "hash")

instance (a b : String) : Decidable (Alias a b) := by unfold Alias; infer_instance

end ISD.Spec
