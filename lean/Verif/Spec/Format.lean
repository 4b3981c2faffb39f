import Verif.Spec.File
import Verif.Model.DataTypes

/-!
# Specification: the ISD file format

The layout of every block, as documented in ISD_Types.h 63-143, written without reference to the writer or the reader.
-/

namespace ISD.Spec

/-- A small block (value types below 0x40): type, one size byte, value, key. The size counts value and key. -/
def smallBlock (vt : Nat) (value key : Bytes) : Bytes :=
  [UInt8.ofNat vt, UInt8.ofNat (value.length + key.length)] ++ value ++ key

/-- A large block (value types from 0x40): type, 8 byte size of all that follows, key length, key, payload. -/
def largeBlock (fl : Bool) (vt : Nat) (key payload : Bytes) : Bytes :=
  [UInt8.ofNat vt] ++ number fl 8 (1 + key.length + payload.length) ++ [UInt8.ofNat key.length] ++ key ++ payload

/-- Head of an array payload: size per item with the index flag 0x100, item count, and the index with its length. -/
def arrayHeader (fl : Bool) (itemSize count : Nat) (index : Option (List (Word 4))) : Bytes :=
  number fl 2 (itemSize + if index.isSome then 0x100 else 0) ++ number fl 8 count ++
    match index with
    | none => []
    | some idx => number fl 8 idx.length ++ idx.flatMap fun w => number fl 4 w.toNat

/-- A string with its length in front. -/
def sizedString (fl : Bool) (s : Bytes) : Bytes := number fl 8 s.length ++ s

/-- Byte `j` of a packed bool array: bit `i` is element `8j+i`. -/
def packedByte (l : List Bool) (j : Nat) : Byte :=
  UInt8.ofNat (((List.range 8).map fun i => if l.getD (8 * j + i) false then 2 ^ i else 0).sum)

/-- Bools packed eight to a byte. -/
def packBools (l : List Bool) : Bytes := (List.range ((l.length + 7) / 8)).map (packedByte l)

/-- A single (possibly absent) value under a key. -/
def single (fl : Bool) (t : DataType) (key : Bytes) (v : Option t.Val) : Bytes :=
  match t, v with
  | ⟨_, vt, _, .bool, _⟩, v => smallBlock vt (v.elim [] fun b => [if b then 1 else 0]) key
  | ⟨_, vt, _, .items sc _ _, _⟩, v => smallBlock vt (v.elim [] fun x => scalars fl sc x.toList) key
  | ⟨_, vt, _, .string, _⟩, v => largeBlock fl vt key (v.elim [] (sizedString fl))

/-- A (possibly absent) array under a key, with an optional index. -/
def array (fl : Bool) (t : DataType) (key : Bytes) (items : Option (List t.Val)) (index : Option (List (Word 4))) : Bytes :=
  match t, items with
  | ⟨_, _, avt, .bool, _⟩, items => largeBlock fl avt key
      (items.elim [] fun l => arrayHeader fl 0 l.length index ++ packBools l)
  | ⟨_, _, avt, .items sc n _, _⟩, items => largeBlock fl avt key
      (items.elim [] fun l => arrayHeader fl sc.size (l.length * n) index ++ scalars fl sc (l.flatMap Vector.toList))
  | ⟨_, _, avt, .string, _⟩, items => largeBlock fl avt key
      (items.elim [] fun l => arrayHeader fl 0 l.length index ++ l.flatMap (sizedString fl))

/-- The block of a value of any data type in any container. -/
def typed (fl : Bool) (t : DataType) : (c : Container) → (key : Bytes) → c.Val t.Val → Bytes
  | .none, key, v => single fl t key (some v)
  | .optionalValue, key, v => single fl t key v
  | .vector, key, v => array fl t key (some v) none
  | .optionalVector, key, v => array fl t key v none
  | .idxVector, key, v => array fl t key (some v.values) (some v.index)
  | .optionalIdxVector, key, v => array fl t key (Option.map IdxVec.values v) (Option.map IdxVec.index v)

/-- The block of a section with the given contents (a null section has none). -/
def sect (fl : Bool) (key body : Bytes) : Bytes := largeBlock fl 0xd0 key body

/-- One element of an array of sections: its size and its contents (none for a null element). -/
def element (fl : Bool) (body : Bytes) : Bytes := number fl 8 body.length ++ body

/-- The block of an array of sections with the given element contents; `none` is the null array. -/
def sectArray (fl : Bool) (key : Bytes) (bodies : Option (List Bytes)) (index : Option (List (Word 4))) : Bytes :=
  largeBlock fl 0xd1 key
    (bodies.elim [] fun l => arrayHeader fl 0 l.length index ++ l.flatMap (element fl))

end ISD.Spec
