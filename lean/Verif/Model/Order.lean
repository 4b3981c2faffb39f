import Verif.Model.Endian
import Verif.Model.Graph

/-!
# Order, equality and hashing of identifiers (uuid_hash_header.inl, ISD_entity_ref.inl, ISD_package_ref.inl)
-/

namespace ISD

/-- `memcmp` of two objects of the same size: the sign of the first difference, bytes being unsigned. -/
def memcmp : Bytes → Bytes → Int
  | a :: as, b :: bs => if a.toNat < b.toNat then -1 else if b.toNat < a.toNat then 1 else memcmp as bs
  | _, _ => 0

/-- Memory of a `UUID` on the (little endian) host. -/
def UUID.image (u : UUID) : Bytes := u.d1.image ++ u.d2.image ++ u.d3.image ++ u.d4.toList

/-- The `i`-th word of `k` bytes of an object, as reading it through a pointer to such words gives it. -/
def wordAt (k : Nat) (m : Bytes) (i : Nat) : Nat := fromLE ((m.drop (i * k)).take k)

/-- `operator<( UUID, UUID )` (uuid_hash_header.inl 17-20). -/
def UUID.less (a b : UUID) : Bool := decide (memcmp a.image b.image < 0)

/-- `operator==( GUID, GUID )` of guiddef.h with `__INLINE_ISEQUAL_GUID` (uuid_hash_header.inl 3): four 32 bit words are compared. -/
def UUID.equal (a b : UUID) : Bool :=
  wordAt 4 a.image 0 = wordAt 4 b.image 0 && wordAt 4 a.image 1 = wordAt 4 b.image 1 &&
  wordAt 4 a.image 2 = wordAt 4 b.image 2 && wordAt 4 a.image 3 = wordAt 4 b.image 3

/-- `std::hash<UUID>` (uuid_hash_header.inl 24-34). -/
def UUID.hashCode (a : UUID) : Nat := wordAt 8 a.image 0 ^^^ wordAt 8 a.image 1

/-- `operator<( HASH, HASH )` (uuid_hash_header.inl 51-54). -/
def Hash.less (a b : Hash) : Bool := decide (memcmp a.digest.toList b.digest.toList < 0)

/-- `operator==( HASH, HASH )` (uuid_hash_header.inl 56-62). -/
def Hash.equal (a b : Hash) : Bool :=
  wordAt 8 a.digest.toList 0 = wordAt 8 b.digest.toList 0 && wordAt 8 a.digest.toList 1 = wordAt 8 b.digest.toList 1 &&
  wordAt 8 a.digest.toList 2 = wordAt 8 b.digest.toList 2 && wordAt 8 a.digest.toList 3 = wordAt 8 b.digest.toList 3

/-- `operator!=( HASH, HASH )` (uuid_hash_header.inl 64-70). -/
def Hash.notEqual (a b : Hash) : Bool :=
  wordAt 8 a.digest.toList 0 ≠ wordAt 8 b.digest.toList 0 || wordAt 8 a.digest.toList 1 ≠ wordAt 8 b.digest.toList 1 ||
  wordAt 8 a.digest.toList 2 ≠ wordAt 8 b.digest.toList 2 || wordAt 8 a.digest.toList 3 ≠ wordAt 8 b.digest.toList 3

/-- `std::hash<HASH>` (uuid_hash_header.inl 75-86). -/
def Hash.hashCode (a : Hash) : Nat :=
  wordAt 8 a.digest.toList 0 ^^^ wordAt 8 a.digest.toList 1 ^^^ wordAt 8 a.digest.toList 2 ^^^ wordAt 8 a.digest.toList 3

/-- `uuid_zero`, `uuid_inf` (ISD_DataTypes.py 82-83). -/
def UUID.zero : UUID := ⟨0, 0, 0, Vector.replicate 8 0⟩
/-- `uuid_sup` (ISD_DataTypes.py 84). -/
def UUID.sup : UUID := ⟨BitVec.allOnes 32, BitVec.allOnes 16, BitVec.allOnes 16, Vector.replicate 8 0xff⟩
/-- `hash_zero`, `hash_inf` (ISD_DataTypes.py 86-87). -/
def Hash.zero : Hash := ⟨Vector.replicate 32 0⟩
/-- `hash_sup` (ISD_DataTypes.py 88). -/
def Hash.sup : Hash := ⟨Vector.replicate 32 0xff⟩

/-- `entity_ref` (ISD_entity_ref.inl 3-39): the comparison operators are those of the uuid. -/
structure EntityRef where
  id : UUID
  deriving DecidableEq, Repr

namespace EntityRef
/-- Default construction and `null()` (lines 14, 34). -/
def null : EntityRef := ⟨UUID.zero⟩
/-- `operator==` (line 25). -/
def equal (a b : EntityRef) : Bool := UUID.equal a.id b.id
/-- `operator<` (line 27). -/
def less (a b : EntityRef) : Bool := UUID.less a.id b.id
/-- `operator bool` (line 30). -/
def toBool (a : EntityRef) : Bool := !UUID.equal a.id UUID.zero
/-- `std::hash<entity_ref>` (ISD_DataTypes.py 212-218). -/
def hashCode (a : EntityRef) : Nat := UUID.hashCode a.id
/-- Move assignment (line 18): what the destination and the source hold afterwards; `same` says that they are one object. -/
def moveAssign (same : Bool) (src : EntityRef) : EntityRef × EntityRef := if same then (null, null) else (src, null)
end EntityRef

/-- `package_ref` (ISD_package_ref.inl 2-28). -/
structure PackageRef where
  h : Hash
  deriving DecidableEq, Repr

namespace PackageRef
/-- Default construction and `null()` (lines 9, 27). -/
def null : PackageRef := ⟨Hash.zero⟩
/-- `operator==` (line 18). -/
def equal (a b : PackageRef) : Bool := Hash.equal a.h b.h
/-- `operator<` (line 20). -/
def less (a b : PackageRef) : Bool := Hash.less a.h b.h
/-- `operator bool` (line 23). -/
def toBool (a : PackageRef) : Bool := Hash.notEqual a.h Hash.zero
/-- `std::hash<package_ref>` (ISD_DataTypes.py 221-227). -/
def hashCode (a : PackageRef) : Nat := Hash.hashCode a.h
end PackageRef

/-- `u8`…`u64` as node types: `inf` 0, `sup` all ones (ISD_DataTypes.py 67-70). -/
structure Unsigned (k : Nat) where
  w : Word k
  deriving DecidableEq, Repr

/-- `operator<` of an unsigned integer. -/
def Unsigned.less {k : Nat} (a b : Unsigned k) : Bool := a.w.ult b.w

/-- `i8`…`i64` as node types: `inf` INTn_MIN, `sup` INTn_MAX (ISD_DataTypes.py 63-66). -/
structure Signed (k : Nat) where
  w : Word k
  deriving DecidableEq, Repr

/-- `operator<` of a signed integer. -/
def Signed.less {k : Nat} (a b : Signed k) : Bool := a.w.slt b.w

end ISD
