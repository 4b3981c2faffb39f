import Verif.Spec.Format

/-!
# Specification: what blocks stand for, including the details a reader does not look at

The documented layout (ISD_Types.h 63-143) as a relation between bytes and values. It differs from `Spec.typed` in what a reader
ignores: any non-zero byte is `true`, unused bits of the last byte of a bool array, unused flag bits of arrays, and the item size of
bool and string arrays.
-/

namespace ISD.Spec

/-- Head of an array payload with explicit flags. -/
def looseHeader (fl : Bool) (flags count : Nat) (index : Option (List (Word 4))) : Bytes :=
  number fl 2 flags ++ number fl 8 count ++
    match index with
    | none => []
    | some idx => number fl 8 idx.length ++ idx.flatMap fun w => number fl 4 w.toNat

/-- `block` is a block holding the single value `v` under `key` (`none`: holding no value). -/
def SingleBlock (fl : Bool) (t : DataType) (key : Bytes) (v : Option t.Val) (block : Bytes) : Prop :=
  match t, v with
  | ⟨_, vt, _, .bool, _⟩, some b => ∃ x : Byte, (x ≠ 0 ↔ b = true) ∧ block = smallBlock vt [x] key
  | t, v => block = single fl t key v

/-- `body` holds the items `l`, whose stored count is `count`. -/
def ArrayBody (fl : Bool) (t : DataType) (l : List t.Val) (count : Nat) (body : Bytes) : Prop :=
  match t, l with
  | ⟨_, _, _, .bool, _⟩, l => count = l.length ∧ body.length = (count + 7) / 8 ∧
      ∀ i, i < count → l[i]? = some ((body.getD (i / 8) 0).toNat.testBit (i % 8))
  | ⟨_, _, _, .items sc n _, _⟩, l => count = l.length * n ∧ body = scalars fl sc (l.flatMap Vector.toList)
  | ⟨_, _, _, .string, _⟩, l => count = l.length ∧ body = l.flatMap (sizedString fl)

/-- Size per item an array of the type must declare, if the reader looks at it. -/
def itemSizeOk (t : DataType) (flags : Nat) : Prop :=
  match t.kind with
  | .items sc _ _ => flags % 256 = sc.size
  | _ => True

/-- `block` is a block holding the items and the index (both absent for the first case). -/
def ArrayBlock (fl : Bool) (t : DataType) (key : Bytes) (items : Option (List t.Val)) (index : Option (List (Word 4)))
    (block : Bytes) : Prop :=
  match items with
  | none => block = largeBlock fl t.avt key []
  | some l => ∃ flags count body, flags < 2 ^ 16 ∧ flags.testBit 9 = false ∧ flags.testBit 8 = index.isSome ∧ itemSizeOk t flags ∧
      count < 2 ^ 64 ∧ ArrayBody fl t l count body ∧ block = largeBlock fl t.avt key (looseHeader fl flags count index ++ body)

/-- `block` is a block holding `v` of type `t` in container `c` under `key`. -/
def TypedBlock (fl : Bool) (t : DataType) : (c : Container) → (key : Bytes) → c.Val t.Val → Bytes → Prop
  | .none, key, v, block => SingleBlock fl t key (some v) block
  | .optionalValue, key, v, block => SingleBlock fl t key v block
  | .vector, key, v, block => ArrayBlock fl t key (some v) none block
  | .optionalVector, key, v, block => ArrayBlock fl t key v none block
  | .idxVector, key, v, block => ArrayBlock fl t key (some v.values) (some v.index) block
  | .optionalIdxVector, key, v, block => ArrayBlock fl t key (Option.map IdxVec.values v) (Option.map IdxVec.index v) block

end ISD.Spec
