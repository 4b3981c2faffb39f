import Verif.Model.Reader
import Verif.Model.Graph

/-!
# Types chosen at run time (ISD_DynamicTypes.py, the generator of ISD_DynamicTypes.cpp)
-/

namespace ISD

/-- The container ids (CodeGeneratorHelpers.py 69-74). -/
def Container.id : Container → Nat
  | .none => 0x00
  | .optionalValue => 0x01
  | .vector => 0x10
  | .optionalVector => 0x11
  | .idxVector => 0x20
  | .optionalIdxVector => 0x21

/-- `container_types` in the order of the generator (CodeGeneratorHelpers.py 69-74). -/
def allContainers : List Container := [.none, .optionalValue, .vector, .optionalVector, .idxVector, .optionalIdxVector]

/-- The data types with their `data_type_index` (ISD_DataTypes.py 137-146, ISD_DynamicTypes.py 33): `(base + 1) << 4` plus
`variant + 1`. -/
def typeIds : List (Nat × DataType) :=
  baseTypes.zipIdx.flatMap fun (variants, base) => variants.zipIdx.map fun (t, variant) => (((base + 1) <<< 4) + (variant + 1), t)

/-- One `_dynamicTypeClass` object: what `Type()` returns, and the C++ type it handles (ISD_DynamicTypes.py 86-108). -/
structure DynClass where
  dt : Nat
  ct : Nat
  t : DataType
  c : Container
  deriving DecidableEq, Repr

/-- All of them, in the order of insertion (ISD_DynamicTypes.py 28-35). -/
def DynClass.all : List DynClass :=
  typeIds.flatMap fun (id, t) => allContainers.map fun c => ⟨id, c.id, t, c⟩

/-- `AllocatorHashTable.hash_function` (lines 8-9, 23-25): a Python integer, no wrap-around. -/
def dynHash (dt ct : Nat) : Nat := (dt * 109 + ct * 991) % 577

/-- The search for the first empty slot (lines 15-18), at most `fuel` turns. -/
def firstEmpty {α : Type} (table : List (Option α)) : Nat → Nat → Option Nat
  | 0, _ => none
  | fuel + 1, h =>
    match table.getD h none with
    | none => some h
    | some _ => firstEmpty table fuel (if h + 1 ≥ table.length then 0 else h + 1)

/-- `insert_into_table` (lines 11-20). The generator would not end on a full table; the model then leaves the table alone. -/
def insertInto {α : Type} (table : List (Option α)) (h : Nat) (x : α) : List (Option α) :=
  match firstEmpty table table.length h with
  | none => table
  | some i => table.set i (some x)

/-- `_dynamicTypeClassHashTable` (lines 22-35, 110-118). -/
def dynTable : List (Option DynClass) :=
  DynClass.all.foldl (fun table cl => insertInto table (dynHash cl.dt cl.ct) cl) (List.replicate 577 none)

/-- `(size_t)` of an `int` enumeration value. -/
def sizeOfEnum (x : Word 4) : Nat := (x.signExtend 64).toNat

/-- The start slot in `_findTypeClass` (lines 120-134), in `size_t` arithmetic. -/
def findStart (dt ct : Word 4) : Nat := wrap64 (wrap64 (sizeOfEnum dt * 109) + wrap64 (sizeOfEnum ct * 991)) % 577

/-- One turn of the loop of `_findTypeClass` (lines 120-134) over the given table. Enumeration values are compared as the `int`s they
are. -/
def findStep (table : List (Option DynClass)) (dt ct : Word 4) (h : Nat) : Graph.Step Nat (Option DynClass) :=
  match table.getD h none with
  | none => .done none
  | some cl =>
    if BitVec.ofNat 32 cl.dt = dt ∧ BitVec.ofNat 32 cl.ct = ct then .done (some cl)
    else .next (if h + 1 ≥ 577 then 0 else h + 1)

/-- The loop, at most `fuel` turns. -/
def findLoop (table : List (Option DynClass)) (dt ct : Word 4) : Nat → Nat → Option DynClass
  | 0, _ => none
  | fuel + 1, h =>
    match findStep table dt ct h with
    | .done r => r
    | .next h => findLoop table dt ct fuel h

/-- `_findTypeClass` (lines 120-134). The bound of 577 turns is never reached (C38). -/
def findTypeClass (dt ct : Word 4) : Option DynClass := findLoop dynTable dt ct 577 (findStart dt ct)

end ISD
