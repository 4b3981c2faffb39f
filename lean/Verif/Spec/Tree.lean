import Verif.Model.Reader
import Verif.Spec.Format

/-!
# Trees of named values and sections, and the client programs that write and read them through the section calls

The client programs make the calls in the way the generated entities, tables and graphs make them
(EntityGenerator.py 199-269, EntityTable.h 153-256): `Begin`, work on the returned subsection object, `End`.
-/

namespace ISD

mutual
  /-- One named item: a value, a section, a null section, an array of sections, or a null array. -/
  inductive Node where
    | value (t : DataType) (c : Container) (key : Bytes) (v : c.Val t.Val)
    | sect (key : Bytes) (body : Nodes)
    | nullSect (key : Bytes)
    | array (key : Bytes) (index : Option (List (Word 4))) (elems : Elems)
    | nullArray (key : Bytes)
  /-- The contents of a section. -/
  inductive Nodes where
    | nil
    | cons (n : Node) (ns : Nodes)
  /-- The elements of an array of sections; `Nodes.nil` is a null element. -/
  inductive Elems where
    | nil
    | cons (body : Nodes) (es : Elems)
end

/-- Number of elements. -/
def Elems.length : Elems → Nat
  | .nil => 0
  | .cons _ es => es.length + 1

/-- Element `i` (null when out of range). -/
def Elems.get : Elems → Nat → Nodes
  | .nil, _ => .nil
  | .cons b _, 0 => b
  | .cons _ es, i + 1 => es.get i

mutual
  /-- The block of an item according to the documented layout. -/
  def Node.bytes (fl : Bool) : Node → Bytes
    | .value t c key v => Spec.typed fl t c key v
    | .sect key body => Spec.sect fl key (body.bytes fl)
    | .nullSect key => Spec.sect fl key []
    | .array key index elems => Spec.sectArray fl key (some (elems.bodies fl)) index
    | .nullArray key => Spec.sectArray fl key none none
  /-- The blocks of a section's contents. -/
  def Nodes.bytes (fl : Bool) : Nodes → Bytes
    | .nil => []
    | .cons n ns => n.bytes fl ++ ns.bytes fl
  /-- The contents of the elements. -/
  def Elems.bodies (fl : Bool) : Elems → List Bytes
    | .nil => []
    | .cons b es => b.bytes fl :: es.bodies fl
end

mutual
  /-- Client program: write an item. `fresh` gives the addresses of new subsection objects. -/
  def Node.write (fresh : Bytes → Nat) : Node → Prog WSt Bool
    | .value t c key v => EWriter.write t c key v
    | .sect key body => do
      match ← beginWriteSection (fresh key) key with
      | none => return false
      | some p =>
        if !(← inSubsection (body.write fresh)) then return false
        endWriteSection (some p)
    | .nullSect key => writeNullSection (fresh key) key
    | .array key index elems => do
      match ← beginWriteSectionsArray (fresh key) key elems.length index with
      | none => return false
      | some p =>
        if !(← elems.write fresh p 0) then return false
        endWriteSectionsArray (some p)
    | .nullArray key => writeNullSectionsArray (fresh key) key
  /-- Client program: write the contents of a section. -/
  def Nodes.write (fresh : Bytes → Nat) : Nodes → Prog WSt Bool
    | .nil => return true
    | .cons n ns => do
      if !(← n.write fresh) then return false
      ns.write fresh
  /-- Client program: write the elements from index `i` on. -/
  def Elems.write (fresh : Bytes → Nat) (p : Nat) : Nat → Elems → Prog WSt Bool
    | _, .nil => return true
    | i, .cons b es => do
      if !(← beginWriteSectionInArray (some p) i) then return false
      if !(← inSubsection (b.write fresh)) then return false
      if !(← endWriteSectionInArray (some p) i) then return false
      es.write fresh p (i + 1)
end

mutual
  /-- What a reading client knows beforehand: keys, types, where sections and arrays are, and whether an array has an index — not
  the values, not which sections are null, not the number of elements. `dest` is the destination object with its previous value. -/
  inductive Shape where
    | value (t : DataType) (c : Container) (key : Bytes) (dest : c.Val t.Val)
    | sect (key : Bytes) (body : Shapes)
    | array (key : Bytes) (wantIndex : Bool) (elem : Nat → Shapes)
  /-- Shape of the contents of a section. -/
  inductive Shapes where
    | nil
    | cons (s : Shape) (ss : Shapes)
end

/-- Client program: the loop over the elements, `f i` reading the contents of element `i`. -/
def readElems (f : Nat → Prog RSt (Option Nodes)) (p : Nat) : (i count : Nat) → Prog RSt (Option Elems)
  | _, 0 => return some .nil
  | i, count + 1 => do
    let (ok, hasData) ← beginReadSectionInArray (some p) i true
    if !ok then return none
    let body ← (if hasData then inRSubsection (f i) else pure (some .nil) : Prog RSt (Option Nodes))
    match body with
    | none => return none
    | some b =>
      if !(← endReadSectionInArray (some p) i) then return none
      match ← readElems f p (i + 1) count with
      | none => return none
      | some es => return some (.cons b es)

mutual
  /-- Client program: read an item. -/
  def Shape.read (env : REnv) (fresh : Bytes → Nat) : Shape → Prog RSt (Option Node)
    | .value t c key dest => do
      match ← EReader.read env t c key dest with
      | none => return none
      | some v => return some (.value t c key v)
    | .sect key body => do
      match ← beginReadSection env (fresh key) key true with
      | (_, false) => return none
      | (none, true) => return some (.nullSect key)
      | (some p, true) =>
        match ← inRSubsection (body.read env fresh) with
        | none => return none
        | some b =>
          if !(← endReadSection (some p)) then return none
          return some (.sect key b)
    | .array key wantIndex elem => do
      match ← beginReadSectionsArray env (fresh key) key true wantIndex with
      | (_, _, false, _) => return none
      | (none, _, true, _) => return some (.nullArray key)
      | (some p, count, true, idx) =>
        match ← readElems (fun i => (elem i).read env fresh) p 0 count with
        | none => return none
        | some es =>
          if !(← endReadSectionsArray (some p)) then return none
          return some (.array key (if wantIndex then some idx else none) es)
  /-- Client program: read the contents of a section. -/
  def Shapes.read (env : REnv) (fresh : Bytes → Nat) : Shapes → Prog RSt (Option Nodes)
    | .nil => return some .nil
    | .cons s ss => do
      match ← s.read env fresh with
      | none => return none
      | some n =>
        match ← ss.read env fresh with
        | none => return none
        | some ns => return some (.cons n ns)
end

/-- The destination of an appending read (C43) must not already hold elements. -/
def DestOk (t : DataType) : (c : Container) → c.Val t.Val → Prop
  | .vector, dest => t.overrides = true → dest = []
  | .idxVector, dest => t.overrides = true → dest.values = []
  | _, _ => True

mutual
  /-- The tree is one the writer can store faithfully and the shape asks for it: same keys, types and structure; keys of at most 40
  bytes; a section that is not null has contents. -/
  inductive FitsNode : Shape → Node → Prop where
    | value (t c key dest v) (ht : t ∈ allTypes) (hk : key.length ≤ 40) (hd : DestOk t c dest) :
        FitsNode (.value t c key dest) (.value t c key v)
    | sect (key body s ss n ns) (hk : key.length ≤ 40) (h : FitsAll (.cons s ss) (.cons n ns)) (hb : body = .cons s ss) :
        FitsNode (.sect key body) (.sect key (.cons n ns))
    | nullSect (key body) (hk : key.length ≤ 40) : FitsNode (.sect key body) (.nullSect key)
    | array (key wi elem index elems) (hk : key.length ≤ 40) (hi : wi = index.isSome)
        (h : FitsElems elem 0 elems) : FitsNode (.array key wi elem) (.array key index elems)
    | nullArray (key wi elem) (hk : key.length ≤ 40) : FitsNode (.array key wi elem) (.nullArray key)
  /-- The same for section contents. -/
  inductive FitsAll : Shapes → Nodes → Prop where
    | nil : FitsAll .nil .nil
    | cons (s ss n ns) (h : FitsNode s n) (hs : FitsAll ss ns) : FitsAll (.cons s ss) (.cons n ns)
  /-- The same for array elements from index `i` on: null, or fitting the shape of their index. -/
  inductive FitsElems : (Nat → Shapes) → Nat → Elems → Prop where
    | nil (elem i) : FitsElems elem i .nil
    | null (elem i es) (hs : FitsElems elem (i + 1) es) : FitsElems elem i (.cons .nil es)
    | cons (elem i b es) (h : FitsAll (elem i) b) (hs : FitsElems elem (i + 1) es) : FitsElems elem i (.cons b es)
end

end ISD
