import Verif.Model.Dynamic
import Verif.Model.Order

/-!
# Managed classes: graphs, tables, indexed vectors, Varying and the generated entities

Every such class has a nested class `MF` with the functions Clear, DeepCopy, Equals, Write, Read and Validate. `Managed V` is that class
for objects with contents `V`; the constructions below follow the source class by class.

`read` gives the contents of an object on which `Read` returned true; `readInPlace` is the same function working on the object itself, and so
also tells what is left in the object when `Read` returns false or throws.

Simplifications: what a failed read of a base value leaves in the variable is arbitrary (`Leftover`);
`new` always succeeds here (allocation failures of the containers of a value being read are in the reader model); log output is left out.
-/

namespace ISD

/-! ## Equality of base values -/

/-- IEEE 754 equality of two `float`/`double` bit patterns with `e` exponent bits and `m` mantissa bits. -/
def ieeeEq (e m : Nat) (a b : Nat) : Bool :=
  let nan (x : Nat) := (x / 2 ^ m) % 2 ^ e == 2 ^ e - 1 && x % 2 ^ m != 0
  let zero (x : Nat) := x % 2 ^ (e + m) == 0
  !nan a && !nan b && (a == b || (zero a && zero b))

/-- C++ `==` of two scalars; `fl` says that 4 and 8 byte words are `float` and `double`. UUIDs and hashes: uuid_hash_header.inl. -/
def Sc.equal (fl : Bool) : (sc : Sc) → sc.Val → sc.Val → Bool
  | .w1, a, b => a == b
  | .w2, a, b => a == b
  | .w4, a, b => if fl then ieeeEq 8 23 a.toNat b.toNat else a == b
  | .w8, a, b => if fl then ieeeEq 11 52 a.toNat b.toNat else a == b
  | .uuid, a, b => UUID.equal a b
  | .hash, a, b => Hash.equal a b

/-- C++ `==` of two base values: componentwise for vectors, matrices and quaternions (glm), `std::string` by content. -/
def DataType.equal (t : DataType) (a b : t.Val) : Bool :=
  go t.kind a b
where
  go : (k : Kind) → k.Val → k.Val → Bool
    | .bool, a, b => a == b
    | .items sc _ fl, a, b => (a.toList.zip b.toList).all fun p => Sc.equal fl sc p.1 p.2
    | .string, a, b => a == b

/-- `std::vector` `==`. -/
def listEqual {α : Type} (eq : α → α → Bool) : List α → List α → Bool
  | [], [] => true
  | a :: as, b :: bs => eq a b && listEqual eq as bs
  | _, _ => false

/-- `idx_vector` `==` (ISD_idx_vector.h 47-52). -/
def IdxVec.equal {α : Type} (eq : α → α → Bool) (a b : IdxVec α) : Bool := listEqual eq a.values b.values && a.index == b.index

/-- `==` of the optional containers (ISD_optional_value.h 56-71, ISD_optional_vector.h 53-68, ISD_optional_idx_vector.h 54-69). -/
def optionEqual {α : Type} (eq : α → α → Bool) : Option α → Option α → Bool
  | none, none => true
  | some a, some b => eq a b
  | _, _ => false

/-- C++ `==` of a container of base values. -/
def Container.equal {α : Type} (eq : α → α → Bool) : (c : Container) → c.Val α → c.Val α → Bool
  | .none => eq
  | .optionalValue => optionEqual eq
  | .vector => listEqual eq
  | .optionalVector => optionEqual (listEqual eq)
  | .idxVector => IdxVec.equal eq
  | .optionalIdxVector => optionEqual (IdxVec.equal eq)

/-- The zero of a data type (`data_type_information<T>::zero`, ISD_DataTypes.py 59-90 and 232-247), also what `T v = {}` and `new T()`
give. (For quaternions the latter is taken to be zero as well; glm may be configured to give the identity.) -/
def DataType.zero (t : DataType) : t.Val :=
  go t.kind
where
  go : (k : Kind) → k.Val
    | .bool => false
    | .items sc n _ => Vector.replicate n sc.zero
    | .string => []

/-- A default constructed container, and what `clear()`/`reset()` leave (ISD_CombinedTypes.py 59-66, EntityGenerator.py 135-138). -/
def Container.zero {α : Type} (zero : α) : (c : Container) → c.Val α
  | .none => zero
  | .optionalValue => Option.none
  | .vector => []
  | .optionalVector => Option.none
  | .idxVector => ⟨[], []⟩
  | .optionalIdxVector => Option.none

/-! ## The interface -/

/-- A source pointer of `DeepCopy`: null, the destination itself, or another object with these contents. -/
inductive Src (V : Type) where
  | null
  | self
  | other (v : V)

/-- What reads of base values that fail leave in the variable: anything, depending on type, container, name and state. -/
structure Leftover where
  val : (t : DataType) → (c : Container) → Bytes → RSt → c.Val t.Val → c.Val t.Val

/-- What is left in the variable: types that override another one are read through a temporary variable, so the variable keeps its value
(ISD_EntityReader.py 113-232). -/
def Leftover.of (L : Leftover) (t : DataType) (c : Container) (key : Bytes) (st : RSt) (v : c.Val t.Val) : c.Val t.Val :=
  if t.overrides then v else L.val t c key st v

/-- `EntityReader::Read` of a base value (ISD_EntityReader.py 107-290) into the variable. -/
def readBaseInPlace (L : Leftover) (env : REnv) (t : DataType) (c : Container) (key : Bytes) : Prog (RSt × c.Val t.Val) Bool := fun s =>
  match EReader.read env t c key s.2 s.1 with
  | .ok (some v) st => .ok true (st, v)
  | .ok none st => .ok false (st, L.of t c key s.1 s.2)
  | .throw st => .throw (st, L.of t c key s.1 s.2)
  | .ub => .ub

/-- A step of the reader, while working on an object. -/
def withReader {V α : Type} (p : Prog RSt α) : Prog (RSt × V) α := fun s =>
  match p s.1 with
  | .ok a st => .ok a (st, s.2)
  | .throw st => .throw (st, s.2)
  | .ub => .ub

/-- A step on the object alone. -/
def withObject {V α : Type} (p : Prog V α) : Prog (RSt × V) α := fun s =>
  match p s.2 with
  | .ok a v => .ok a (s.1, v)
  | .throw v => .throw (s.1, v)
  | .ub => .ub

/-- A step with the subsection reader (see `inRSubsection`). -/
def inSubInPlace {V α : Type} (p : Prog (RSt × V) α) : Prog (RSt × V) α := fun s =>
  match s.1.1.activeSubsection with
  | none => .ub
  | some r =>
    match p ((r, s.1.2), s.2) with
    | .ok a ((r', st), v) => .ok a (({ s.1.1 with activeSubsection := some r' }, st), v)
    | .throw ((r', st), v) => .throw (({ s.1.1 with activeSubsection := some r' }, st), v)
    | .ub => .ub

/-- A step on the part `v` of an object; `put` makes the object from the new part. -/
def onPart {V W α : Type} (v : V) (put : V → W) (p : Prog (RSt × V) α) : Prog (RSt × W) α := fun s =>
  match p (s.1, v) with
  | .ok a (st, v) => .ok a (st, put v)
  | .throw (st, v) => .throw (st, put v)
  | .ub => .ub

/-- How a copy ends for which there is not enough memory: `std::bad_alloc` is thrown and the destination has these contents, or the program
is terminated because the exception would leave a `noexcept` function. -/
inductive CopyEnd (V : Type) where
  | thrown (left : V)
  | terminated

/-- The same end of a copy of an object of which the copied one is a part. -/
def CopyEnd.map {V W : Type} (f : V → W) : CopyEnd V → CopyEnd W
  | .thrown v => .thrown (f v)
  | .terminated => .terminated

/-- Copy assignment of a base value `s` over `d` can run out of memory and leave `l`.
* One value: only strings allocate, and `std::string` keeps its contents then.
* `optional_value` (ISD_optional_value.h 20): the new object is made before the old one is replaced.
* `std::vector`: the standard promises a valid vector only.
* `optional_vector` (ISD_optional_vector.h 31): `has_value` is assigned before the vector.
* `idx_vector` (ISD_idx_vector.h 31): the values, then the index.
* `optional_idx_vector` (ISD_optional_idx_vector.h 31): `has_value` is assigned after the vector. Contents it keeps while `has_value` is false
  cannot be seen and are not modelled.
Nothing is allocated for a source without contents. -/
def AssignFails (t : DataType) : (c : Container) → (d s l : c.Val t.Val) → Prop
  | .none, d, _, l => t.kind = .string ∧ l = d
  | .optionalValue, d, s, l => s.isSome = true ∧ l = d
  | .vector, _, s, _ => s ≠ []
  | .optionalVector, _, s, l => (∃ xs, s = some xs ∧ xs ≠ []) ∧ l.isSome = true
  | .idxVector, d, s, l => (s.values ≠ [] ∧ l.index = d.index) ∨ (s.index ≠ [] ∧ l.values = s.values)
  | .optionalIdxVector, none, s, l => (∃ x, s = some x ∧ (x.values ≠ [] ∨ x.index ≠ [])) ∧ l = none
  | .optionalIdxVector, some d, s, l => ∃ x y, s = some x ∧ l = some y ∧
      ((x.values ≠ [] ∧ y.index = d.index) ∨ (x.index ≠ [] ∧ y.values = x.values))

/-- The nested class `MF` of a class with contents `V`. -/
structure Managed (V : Type) where
  /-- Default construction. -/
  init : V
  /-- `MF::Clear`, on the object. -/
  clear : Prog V Unit
  /-- `MF::DeepCopy`, on the destination. -/
  copy : Src V → Prog V Unit
  /-- Copy construction, on the new (default) object. -/
  construct : V → Prog V Unit
  /-- `MF::DeepCopy` over an object with the first contents from one with the second can run out of memory and end so. -/
  copyFails : V → V → CopyEnd V → Prop
  /-- Copy construction can run out of memory and end so; there is no new object then. -/
  constructFails : V → CopyEnd Unit → Prop
  /-- `MF::Equals` of two different objects; `none` is undefined behaviour. -/
  equals : V → V → Option Bool
  /-- `MF::Write`; `fresh` gives the addresses of subsection writers. -/
  write : (Bytes → Nat) → V → Prog WSt Bool
  /-- `MF::Read` into an object: `none` is the result false, `some v` the result true with the new contents. -/
  read : REnv → (Bytes → Nat) → V → Prog RSt (Option V)
  /-- `MF::Read`, working on the object. -/
  readInPlace : Leftover → REnv → (Bytes → Nat) → Prog (RSt × V) Bool
  /-- `MF::Validate`: it can end with these reports (in order) and this result. -/
  validate : V → List Nat → Bool → Prop

/-- `MF::Equals` on pointers (ISD_EntityTable.h 108-114, ISD_IndexedVector.h 70-76, ISD_Varying.cpp 135-143, EntityGenerator.py 350-358,
ISD_DirectedGraph.h 140-146): `same` says that the pointers are equal, `none` is the null pointer. -/
def Managed.equalsPtr {V : Type} (M : Managed V) (same : Bool) (l r : Option V) : Option Bool :=
  if same then some true
  else
    match l, r with
    | some l, some r => M.equals l r
    | _, _ => some false

/-! ## Keys that are stored as base values -/

/-- A key or node class stored as the data type `ty`. -/
structure Stored (K : Type) where
  ty : DataType
  toVal : K → ty.Val
  ofVal : ty.Val → K
  zero : K

/-- The data type named in the table (CodeGeneratorHelpers.py 27-67). -/
def entityRefType : DataType := ⟨"entity_ref", 0x12, 0x52, .items .uuid 1 false, true⟩
/-- See `entityRefType`. -/
def packageRefType : DataType := ⟨"package_ref", 0x13, 0x53, .items .hash 1 false, true⟩
/-- See `entityRefType`. -/
def u16Type : DataType := ⟨"u16", 0x03, 0x43, .items .w2 1 false, false⟩
/-- See `entityRefType`. -/
def stringTy : DataType := ⟨"string", 0xe0, 0xe1, .string, false⟩
/-- See `entityRefType`. -/
def fvec2Type : DataType := ⟨"fvec2", 0x05, 0x45, .items .w4 2 true, false⟩
/-- See `entityRefType`. -/
def fvec3Type : DataType := ⟨"fvec3", 0x06, 0x46, .items .w4 3 true, false⟩
/-- See `entityRefType`. -/
def fvec4Type : DataType := ⟨"fvec4", 0x07, 0x47, .items .w4 4 true, false⟩

/-- `entity_ref` as key (ISD_entity_ref.inl 3-39). -/
def entityRefStored : Stored EntityRef :=
  ⟨entityRefType, fun k => (#v[k.id] : Vector UUID 1), fun v => ⟨Vector.get (α := UUID) (n := 1) v 0⟩, EntityRef.null⟩

/-- `package_ref` as key (ISD_package_ref.inl 2-28). -/
def packageRefStored : Stored PackageRef :=
  ⟨packageRefType, fun k => (#v[k.h] : Vector Hash 1), fun v => ⟨Vector.get (α := Hash) (n := 1) v 0⟩, PackageRef.null⟩

/-- A `u16` as the value of its data type. -/
def u16Val (w : Word 2) : u16Type.Val := (Vector.replicate 1 w : Vector (Word 2) 1)
/-- The `u16` in a value of the data type. -/
def u16Of (v : u16Type.Val) : Word 2 := Vector.get (v : Vector (Word 2) 1) 0

/-- The bytes of a key literal (`ISDKeyMacro`, ISD_Types.h). All literals are ASCII, one byte per character. -/
def key (s : String) : Bytes := s.toList.map fun c => UInt8.ofNat c.toNat

/-! ## DirectedGraph (ISD_DirectedGraph.h) -/

/-- `InsertEdge` for the pairs at positions `0,1`, `2,3`, … (lines 219-226). A last odd element is dropped. -/
def insertPairs {α : Type} [NodeType α] (g : Graph α) : List α → Graph α
  | a :: b :: rest => insertPairs (g.insertEdge a b) rest
  | _ => g

/-- `MF` of `DirectedGraph<T, flags>` (lines 107-430). -/
def graphMF {α : Type} [NodeType α] (st : Stored α) (acyclic rooted singleRoot : Bool) : Managed (Graph α) where
  init := Graph.empty
  clear := Prog.set Graph.empty
  copy src := fun g =>
    match src with
    | .null => .ok () (Graph.deepCopy none)
    | .self => .ok () (Graph.deepCopy (some g))
    | .other s => .ok () (Graph.deepCopy (some s))
  construct s := fun _ => .ok () (Graph.deepCopy (some s))
  -- each set is built before it replaces the one of the destination (lines 133-135)
  copyFails d s e := e = .thrown d ∨ e = .thrown ⟨(Graph.deepCopy (some s)).roots, d.edges⟩
  constructFails _ e := e = .thrown ()
  equals l r := some (Graph.equals false (some l) (some r))
  write _ g := do
    if !(← EWriter.write st.ty .vector (key "Roots") (g.roots.map st.toVal)) then return false
    if !(← EWriter.write st.ty .vector (key "Edges") (g.edges.flatMap fun e => [st.toVal e.1, st.toVal e.2])) then return false
    return true
  read env _ g := do
    match ← EReader.read env st.ty .vector (key "Roots") [] with
    | none => return none
    | some roots =>
      let g := { g with roots := OrdSet.ofList (roots.map st.ofVal) }
      match ← EReader.read env st.ty .vector (key "Edges") [] with
      | none => return none
      | some pairs => return some (insertPairs { g with edges := [] } (pairs.map st.ofVal))
  readInPlace _ env _ := do
    match ← withReader (EReader.read env st.ty .vector (key "Roots") []) with
    | none => return false
    | some roots =>
      withObject (Prog.modify fun g => { g with roots := OrdSet.ofList (roots.map st.ofVal) })
      match ← withReader (EReader.read env st.ty .vector (key "Edges") []) with
      | none => return false
      | some pairs =>
        withObject (Prog.modify fun g => insertPairs { g with edges := [] } (pairs.map st.ofVal))
        return true
  validate g reports ok := Graph.Validates acyclic rooted singleRoot g reports ∧ ok = true

/-! ## EntityTable (ISD_EntityTable.h) -/

/-- Where `std::unordered_map` puts a new element in its iteration order (it may also rehash): any order at all. -/
structure TableOrder (E : Type) where
  place : List E → E → List E
  perm : ∀ l e, (place l e).Perm (e :: l)

/-- Contents of an `EntityTable` in iteration order; a null value is `none`. -/
abbrev Table (K V : Type) := List (K × Option V)

/-- `find` of the map: the value found. -/
def Table.find {K V : Type} [DecidableEq K] (t : Table K V) (k : K) : Option (Option V) := t.lookup k

/-- `emplace` of the map: an existing entry stays. -/
def Table.emplace {K V : Type} [DecidableEq K] (ord : TableOrder (K × Option V)) (t : Table K V) (k : K) (v : Option V) : Table K V × Bool :=
  if (t.find k).isSome then (t, false) else (ord.place t (k, v), true)

/-- `Insert( key )` (line 62): the result is the object the returned reference names; dereferencing null is undefined behaviour. -/
def Table.insertKey {K V : Type} [DecidableEq K] (M : Managed V) (ord : TableOrder (K × Option V)) (k : K) : Prog (Table K V) V := fun t =>
  let t := (t.emplace ord k (some M.init)).1
  match t.find k with
  | some (some v) => .ok v t
  | _ => .ub

/-- `operator[]` (lines 58-59): the map's own `operator[]` creates a missing entry with a null value. -/
def Table.index {K V : Type} [DecidableEq K] (ord : TableOrder (K × Option V)) (k : K) : Prog (Table K V) V := fun t =>
  let t := (t.emplace ord k none).1
  match t.find k with
  | some (some v) => .ok v t
  | _ => .ub

/-- `new _Ty( *ent.second )` (line 101), while working on something else. -/
def newCopy {σ V : Type} (M : Managed V) (v : V) : Prog σ V := fun s =>
  match M.construct v M.init with
  | .ok () v' => .ok v' s
  | .throw _ => .throw s
  | .ub => .ub

/-- The loop of `MF::DeepCopy` (lines 98-102) over the source entries, on the destination. -/
def tableCopyLoop {K V : Type} [DecidableEq K] (M : Managed V) (ord : TableOrder (K × Option V)) : Table K V → Prog (Table K V) Unit
  | [] => return ()
  | (k, none) :: rest => do
    Prog.modify fun t => (t.emplace ord k none).1
    tableCopyLoop M ord rest
  | (k, some v) :: rest => do
    let v' ← newCopy M v
    Prog.modify fun t => (t.emplace ord k (some v')).1
    tableCopyLoop M ord rest

/-- There is not enough memory for the entry number `i` of the loop of `MF::DeepCopy` (lines 98-102) over the entries `s`: the entries before
it are there. Making the copy of its object may also terminate the program. -/
def TableCopyFails {K V : Type} [DecidableEq K] (M : Managed V) (ord : TableOrder (K × Option V)) (s : Table K V) (e : CopyEnd (Table K V)) :
    Prop :=
  ∃ i k x l, s[i]? = some (k, x) ∧ tableCopyLoop M ord (s.take i) [] = .ok () l ∧
    (e = .thrown l ∨ ∃ v, x = some v ∧ M.constructFails v .terminated ∧ e = .terminated)

/-- The loop of `MF::Equals` (lines 121-148). -/
def tableEqualsLoop {K V : Type} [DecidableEq K] (M : Managed V) (r : Table K V) : Table K V → Option Bool
  | [] => some true
  | (k, lv) :: rest =>
    match r.find k with
    | none => some false
    | some rv =>
      match lv, rv with
      | none, none => tableEqualsLoop M r rest
      | some a, some b =>
        match M.equals a b with
        | none => none
        | some false => some false
        | some true => tableEqualsLoop M r rest
      | _, _ => some false

/-- The loop of `MF::Write` (lines 173-185). -/
def tableWriteLoop {K V : Type} (M : Managed V) (fresh : Bytes → Nat) (p : Nat) : Nat → Table K V → Prog WSt Bool
  | _, [] => return true
  | i, (_, v) :: rest => do
    if !(← beginWriteSectionInArray (some p) i) then return false
    match v with
    | none => pure ()
    | some v => if !(← inSubsection (M.write fresh v)) then return false
    if !(← endWriteSectionInArray (some p) i) then return false
    tableWriteLoop M fresh p (i + 1) rest

/-- The loop of `MF::Read` (lines 221-248) over the keys from index `i` on. `it->second` is read in place: the entry just made holds the
new default object until it has been read. -/
def tableReadLoop {K V : Type} [DecidableEq K] (M : Managed V) (ord : TableOrder (K × Option V)) (env : REnv) (fresh : Bytes → Nat) (p : Option Nat) :
    Nat → List K → Table K V → Prog RSt (Option (Table K V))
  | _, [], t => return some t
  | i, k :: ks, t => do
    let (ok, hasData) ← beginReadSectionInArray p i true
    if !ok then return none
    if (t.find k).isSome then return none
    if hasData then
      match ← inRSubsection (M.read env fresh M.init) with
      | none => return none
      | some v =>
        if !(← endReadSectionInArray p i) then return none
        tableReadLoop M ord env fresh p (i + 1) ks (t.emplace ord k (some v)).1
    else
      if !(← endReadSectionInArray p i) then return none
      tableReadLoop M ord env fresh p (i + 1) ks (t.emplace ord k none).1

/-- The loop of `MF::Read` (lines 221-248) on the table itself: the entry is made first and its object read in place. -/
def tableReadInPlaceLoop {K V : Type} [DecidableEq K] (M : Managed V) (ord : TableOrder (K × Option V)) (L : Leftover) (env : REnv)
    (fresh : Bytes → Nat) (p : Option Nat) : Nat → List K → Prog (RSt × Table K V) Bool
  | _, [] => return true
  | i, k :: ks => do
    let (ok, hasData) ← withReader (beginReadSectionInArray p i true)
    if !ok then return false
    let s ← Prog.get
    if (s.2.find k).isSome then return false
    if hasData then
      if !(← onPart M.init (fun v => (s.2.emplace ord k (some v)).1) (inSubInPlace (M.readInPlace L env fresh))) then return false
      if !(← withReader (endReadSectionInArray p i)) then return false
      tableReadInPlaceLoop M ord L env fresh p (i + 1) ks
    else
      withObject (Prog.set (s.2.emplace ord k none).1)
      if !(← withReader (endReadSectionInArray p i)) then return false
      tableReadInPlaceLoop M ord L env fresh p (i + 1) ks

/-- The loop of `MF::Validate` (lines 269-283). -/
inductive TableValidates {K V : Type} (M : Managed V) (noNull : Bool) : Table K V → List Nat → Bool → Prop where
  | nil : TableValidates M noNull [] [] true
  | null (k rest rs b) (h : TableValidates M noNull rest rs b) :
      TableValidates M noNull ((k, none) :: rest) ((if noNull then [Graph.nullNotAllowed] else []) ++ rs) b
  | value (k v rest rv rs b) (hv : M.validate v rv true) (h : TableValidates M noNull rest rs b) :
      TableValidates M noNull ((k, some v) :: rest) (rv ++ rs) b
  | fail (k v rest rv) (hv : M.validate v rv false) : TableValidates M noNull ((k, some v) :: rest) rv false

/-- `MF` of `EntityTable<K, V, flags>` (lines 64-285). `ord` is the iteration order of the map of the destination of a copy or read. -/
def tableMF {K V : Type} [DecidableEq K] (st : Stored K) (M : Managed V) (zeroKeys nullEntities : Bool) (ord : TableOrder (K × Option V)) :
    Managed (Table K V) where
  init := []
  clear := Prog.set []
  copy src := do
    Prog.set []
    match src with
    | .null => return ()
    | .self => tableCopyLoop M ord (← Prog.get)
    | .other s => tableCopyLoop M ord s
  construct s := do
    Prog.set []
    tableCopyLoop M ord s
  copyFails _ s e := TableCopyFails M ord s e
  constructFails s e := ∃ e', TableCopyFails M ord s e' ∧ e = e'.map fun _ => ()
  equals l r := if l.length ≠ r.length then some false else tableEqualsLoop M r l
  write fresh t := do
    if !(← EWriter.write st.ty .vector (key "IDs") (t.map fun e => st.toVal e.1)) then return false
    match ← beginWriteSectionsArray (fresh (key "Entities")) (key "Entities") t.length none with
    | none => return false
    | some p =>
      if !(← tableWriteLoop M fresh p 0 t) then return false
      if !(← endWriteSectionsArray (some p)) then return false
      return true
  read env fresh _ := do
    match ← EReader.read env st.ty .vector (key "IDs") [] with
    | none => return none
    | some keys =>
      match ← beginReadSectionsArray env (fresh (key "Entities")) (key "Entities") false false with
      | (_, _, false, _) => return none
      | (p, count, true, _) =>
        if count ≠ keys.length then return none
        match ← tableReadLoop M ord env fresh p 0 (keys.map st.ofVal) [] with
        | none => return none
        | some t =>
          if !(← endReadSectionsArray p) then return none
          return some t
  readInPlace L env fresh := do
    match ← withReader (EReader.read env st.ty .vector (key "IDs") []) with
    | none => return false
    | some keys =>
      match ← withReader (beginReadSectionsArray env (fresh (key "Entities")) (key "Entities") false false) with
      | (_, _, false, _) => return false
      | (p, count, true, _) =>
        if count ≠ keys.length then return false
        withObject (Prog.set [])
        if !(← tableReadInPlaceLoop M ord L env fresh p 0 (keys.map st.ofVal)) then return false
        if !(← withReader (endReadSectionsArray p)) then return false
        return true
  validate t reports ok :=
    ∃ rs, TableValidates M (!nullEntities) t rs ok ∧
      reports = (if !zeroKeys && (t.find st.zero).isSome then [Graph.nullNotAllowed] else []) ++ rs

/-! ## IndexedVector (ISD_IndexedVector.h) -/

/-- The largest `i32` (`i32_sup`). -/
def i32Sup : Nat := 2 ^ 31 - 1

/-- The loop of `MF::Validate` (lines 112-118): the reports for the index entries, compared as `u32`. -/
def idxValidateLoop (valuesCount : Word 4) : List (Word 4) → List Nat
  | [] => []
  | i :: rest => (if i.toNat ≥ valuesCount.toNat then [Graph.invalidValue] else []) ++ idxValidateLoop valuesCount rest

/-- `MF` of `IndexedVector<T>` (lines 36-121). Copy construction and assignment are the default ones of `idx_vector` (lines 20-23). -/
def idxMF (t : DataType) : Managed (IdxVec t.Val) where
  init := ⟨[], []⟩
  clear := Prog.set ⟨[], []⟩
  copy src := do
    Prog.set ⟨[], []⟩
    match src with
    | .null => return ()
    | .self => Prog.set (← Prog.get)
    | .other s => Prog.set s
  construct s := Prog.set s
  -- the destination is cleared first (line 61)
  copyFails _ s e := ∃ l, AssignFails t .idxVector ⟨[], []⟩ s l ∧ e = .thrown l
  -- the copy constructor of idx_vector is noexcept (ISD_idx_vector.h 30)
  constructFails s e := (s.values ≠ [] ∨ s.index ≠ []) ∧ e = .terminated
  equals l r := some (IdxVec.equal t.equal l r)
  write _ v := do
    if !(← EWriter.write t .idxVector (key "Values") v) then return false
    return true
  read env _ v := do
    match ← EReader.read env t .idxVector (key "Values") v with
    | none => return none
    | some v => return some v
  readInPlace L env _ := do
    if !(← readBaseInPlace L env t .idxVector (key "Values")) then return false
    return true
  validate v reports ok :=
    reports = (if v.values.length > i32Sup then [Graph.invalidCount] else []) ++
      idxValidateLoop (BitVec.ofNat 32 (min v.values.length i32Sup)) v.index ∧ ok = true

/-! ## Varying (ISD_Varying.cpp, ISD_Varying.h) -/

/-- A heap object made by `new_type`, with the C++ type it was made with. -/
structure DynObj where
  t : DataType
  c : Container
  v : c.Val t.Val

/-- `Varying` (ISD_Varying.h 29-31): `type_m`, `container_type_m`, and the object `data_m` points to. -/
structure Varying where
  ty : Word 4
  ct : Word 4
  data : Option DynObj

/-- `dynamic_types::new_type` (ISD_DynamicTypes.py 136-143). -/
def newType (dt ct : Word 4) : Option DynObj := (findTypeClass dt ct).map fun cl => ⟨cl.t, cl.c, cl.c.zero cl.t.zero⟩

/-- The class found for a pair of numbers is used on an object: it must be the class the object was made with, or the access through the
wrong type is undefined behaviour. -/
def DynObj.madeBy (o : DynObj) (cl : DynClass) : Bool := decide (o.t = cl.t ∧ o.c = cl.c)

/-- `==` of two objects of the same C++ type. -/
def DynObj.equal (a b : DynObj) : Bool :=
  if h : a.t = b.t ∧ a.c = b.c then
    Container.equal a.t.equal a.c a.v (cast (by rw [h.1, h.2]) b.v)
  else false

/-- Run `f` on the object through the class found for the types of a Varying; false for the null pointer and for unknown types
(ISD_DynamicTypes.py 145-224). -/
def Varying.dynamic {σ : Type} (v : Varying) (f : DynObj → Prog σ Bool) : Prog σ Bool :=
  match v.data with
  | none => return false
  | some o =>
    match findTypeClass v.ty v.ct with
    | none => return false
    | some cl => if o.madeBy cl then f o else Prog.ub

/-- `Deinitialize` (ISD_Varying.cpp 69-88): `delete_type` and the members set to zero. -/
def Varying.deinitialize : Prog Varying Bool := do
  let v ← Prog.get
  if v.data.isSome then
    if !(← v.dynamic fun _ => return true) then return false
    Prog.set ⟨0, 0, none⟩
  return true

/-- `MF::SetType` (lines 217-235). -/
def Varying.setType (dt ct : Word 4) : Prog Varying Bool := do
  if !(← Varying.deinitialize) then return false
  Prog.set ⟨dt, ct, newType dt ct⟩
  return (newType dt ct).isSome

/-- `MF::Clear` (lines 106-112). The type is kept. `ISDRuntimeCheck` throws. -/
def Varying.clear : Prog Varying Unit := do
  let v ← Prog.get
  if v.data.isNone then return ()
  let ok ← v.dynamic fun o => do
    Prog.set { v with data := some ⟨o.t, o.c, o.c.zero o.t.zero⟩ }
    return true
  if !ok then Prog.throw

/-- The part of `MF::DeepCopy` after the destination was deinitialised, for a source with these contents (lines 123-133). -/
def Varying.copyFrom (s : Varying) : Prog Varying Unit := do
  if s.data.isNone then return ()
  if !(← Varying.setType s.ty s.ct) then Prog.throw
  let d ← Prog.get
  match d.data, s.data with
  | some dst, some src =>
    match findTypeClass d.ty d.ct with
    | none => Prog.throw
    | some cl => if dst.madeBy cl && src.madeBy cl then Prog.set { d with data := some src } else Prog.ub
  | _, _ => Prog.throw

/-- `MF::DeepCopy` (lines 114-133). When source and destination are the same object the source has just been deinitialised. -/
def Varying.copy (src : Src Varying) : Prog Varying Unit := do
  if !(← Varying.deinitialize) then Prog.throw
  match src with
  | .null => return ()
  | .self => Varying.copyFrom (← Prog.get)
  | .other s => Varying.copyFrom s

/-- `MF::Equals` of two different objects (lines 145-152). -/
def Varying.equals (l r : Varying) : Option Bool :=
  if l.ty ≠ r.ty then some false
  else if l.ct ≠ r.ct then some false
  else
    match l.data, r.data with
    | some a, some b =>
      match findTypeClass l.ty l.ct with
      | none => some false
      | some cl => if a.madeBy cl && b.madeBy cl then some (a.equal b) else none
    | _, _ => some false

/-- `MF::Write` (lines 155-176). The type numbers are truncated to 16 bits. -/
def Varying.write (v : Varying) : Prog WSt Bool := do
  if v.data.isNone then return false
  if !(← EWriter.write u16Type .none (key "Type") (u16Val (v.ty.setWidth 16))) then return false
  if !(← EWriter.write u16Type .none (key "ContainerType") (u16Val (v.ct.setWidth 16))) then return false
  v.dynamic fun o => EWriter.write o.t o.c (key "Data") o.v

/-- Run a routine of the object while reading. -/
def onVarying (v : Varying) (p : Prog Varying Bool) : Prog RSt (Bool × Varying) := fun st =>
  match p v with
  | .ok b v' => .ok (b, v') st
  | .throw _ => .throw st
  | .ub => .ub

/-- `MF::Read` (lines 178-203). -/
def Varying.read (env : REnv) (v : Varying) : Prog RSt (Option Varying) := do
  let (_, v) ← onVarying v Varying.deinitialize
  match ← EReader.read env u16Type .none (key "Type") (u16Val 0) with
  | none => return none
  | some ty =>
    match ← EReader.read env u16Type .none (key "ContainerType") (u16Val 0) with
    | none => return none
    | some ct =>
      let (ok, v) ← onVarying v (Varying.setType ((u16Of ty).setWidth 32) ((u16Of ct).setWidth 32))
      if !ok then return none
      match v.data with
      | none => return none
      | some o =>
        match findTypeClass v.ty v.ct with
        | none => return none
        | some cl =>
          if o.madeBy cl then
            match ← EReader.read env o.t o.c (key "Data") o.v with
            | none => return none
            | some x => return some { v with data := some ⟨o.t, o.c, x⟩ }
          else Prog.ub

/-- `MF::Read` (lines 178-203) on the object itself. -/
def Varying.readInPlace (L : Leftover) (env : REnv) : Prog (RSt × Varying) Bool := do
  let _ ← withObject Varying.deinitialize
  match ← withReader (EReader.read env u16Type .none (key "Type") (u16Val 0)) with
  | none => return false
  | some ty =>
    match ← withReader (EReader.read env u16Type .none (key "ContainerType") (u16Val 0)) with
    | none => return false
    | some ct =>
      if !(← withObject (Varying.setType ((u16Of ty).setWidth 32) ((u16Of ct).setWidth 32))) then return false
      let s ← Prog.get
      match s.2.data with
      | none => return false
      | some o =>
        match findTypeClass s.2.ty s.2.ct with
        | none => return false
        | some cl =>
          if o.madeBy cl then onPart o.v (fun x => { s.2 with data := some ⟨o.t, o.c, x⟩ }) (readBaseInPlace L env o.t o.c (key "Data"))
          else Prog.ub

/-- `MF::DeepCopy` (lines 114-133) runs out of memory: in `new_type`, when the type numbers are set and the object is not (lines 230-233), or
while copying into the new object. -/
def Varying.CopyFails (s : Varying) (e : CopyEnd Varying) : Prop :=
  ∃ src, s.data = some src ∧ (e = .thrown ⟨s.ty, s.ct, none⟩ ∨
    ∃ x, AssignFails src.t src.c (src.c.zero src.t.zero) src.v x ∧ e = .thrown ⟨s.ty, s.ct, some ⟨src.t, src.c, x⟩⟩)

/-- `MF` of `Varying`. -/
def varyingMF : Managed Varying where
  init := ⟨0, 0, none⟩
  clear := Varying.clear
  copy := Varying.copy
  construct s := Varying.copy (.other s)
  copyFails _ s e := Varying.CopyFails s e
  constructFails s e := ∃ e', Varying.CopyFails s e' ∧ e = e'.map fun _ => ()
  equals := Varying.equals
  write _ := Varying.write
  read env _ := Varying.read env
  readInPlace L env _ := Varying.readInPlace L env
  validate v reports ok := reports = (if v.data.isNone then [Graph.nullNotAllowed] else []) ∧ ok = true

/-! ## Generated entities (EntityGenerator.py) -/

/-- A variable of an entity: a base type (with its container), or another managed class. (No entity in the repository has an optional
variable of a managed class; the code generated for one would not compile.) -/
inductive Field : Type 1 where
  | base (key : Bytes) (t : DataType) (c : Container)
  | sub (key : Bytes) (V : Type) (M : Managed V)

/-- Contents of a variable. -/
def Field.Val : Field → Type
  | .base _ t c => c.Val t.Val
  | .sub _ V _ => V

/-- Contents of the variables in order. -/
def FieldsVal : List Field → Type
  | [] => Unit
  | f :: fs => f.Val × FieldsVal fs

/-- Default construction (EntityGenerator.py 44, 60-64). -/
def fieldsInit : (fs : List Field) → FieldsVal fs
  | [] => ()
  | .base _ t c :: fs => (c.zero t.zero, fieldsInit fs)
  | .sub _ _ M :: fs => (M.init, fieldsInit fs)

/-- Run a routine on the first variable, then one on the others. -/
def onFields {A B : Type} (p : Prog A Unit) (q : Prog B Unit) : Prog (A × B) Unit := fun s =>
  match p s.1 with
  | .ok () a =>
    match q s.2 with
    | .ok () b => .ok () (a, b)
    | .throw b => .throw (a, b)
    | .ub => .ub
  | .throw a => .throw (a, s.2)
  | .ub => .ub

/-- `MF::Clear` (lines 125-142). -/
def fieldsClear : (fs : List Field) → Prog (FieldsVal fs) Unit
  | [] => fun s => .ok () s
  | .base _ t c :: fs => onFields (A := c.Val t.Val) (Prog.set (c.zero t.zero)) (fieldsClear fs)
  | .sub _ V M :: fs => onFields (A := V) M.clear (fieldsClear fs)

/-- The calls of `MF::DeepCopy` for a source that is the destination itself (lines 144-171). -/
def fieldsCopySelf : (fs : List Field) → Prog (FieldsVal fs) Unit
  | [] => fun s => .ok () s
  | .base _ t c :: fs => onFields (A := c.Val t.Val) (do Prog.set (← Prog.get)) (fieldsCopySelf fs)
  | .sub _ V M :: fs => onFields (A := V) (M.copy .self) (fieldsCopySelf fs)

/-- The calls of `MF::DeepCopy` for another object (lines 144-171). -/
def fieldsCopy : (fs : List Field) → FieldsVal fs → Prog (FieldsVal fs) Unit
  | [], _ => fun s => .ok () s
  | .base _ t c :: fs, v => onFields (A := c.Val t.Val) (Prog.set v.1) (fieldsCopy fs v.2)
  | .sub _ V M :: fs, v => onFields (A := V) (M.copy (.other v.1)) (fieldsCopy fs v.2)

/-- The calls of `MF::DeepCopy` for another object (lines 144-171) run out of memory: in one of the variables, when those before it are copied
and those behind it are not. -/
def fieldsCopyFails : (fs : List Field) → FieldsVal fs → FieldsVal fs → CopyEnd (FieldsVal fs) → Prop
  | [], _, _, _ => False
  | .base _ t c :: fs, d, s, e =>
    (∃ l, AssignFails t c d.1 s.1 l ∧ e = .thrown (l, d.2)) ∨
    ∃ e', fieldsCopyFails fs d.2 s.2 e' ∧ e = e'.map fun r => (s.1, r)
  | .sub _ _ M :: fs, d, s, e =>
    (∃ e', M.copyFails d.1 s.1 e' ∧ e = e'.map fun l => (l, d.2)) ∨
    ∃ c e', M.copy (.other s.1) d.1 = .ok () c ∧ fieldsCopyFails fs d.2 s.2 e' ∧ e = e'.map fun r => (c, r)

/-- The calls of `MF::Equals` (lines 173-197). `!=` of base values is taken to be the negation of `==`. -/
def fieldsEquals : (fs : List Field) → FieldsVal fs → FieldsVal fs → Option Bool
  | [], _, _ => some true
  | .base _ t c :: fs, a, b => if !Container.equal t.equal c a.1 b.1 then some false else fieldsEquals fs a.2 b.2
  | .sub _ _ M :: fs, a, b =>
    match M.equals a.1 b.1 with
    | none => none
    | some false => some false
    | some true => fieldsEquals fs a.2 b.2

/-- The calls of `MF::Write` (lines 199-229). The result of `EndWriteSection` is ignored. -/
def fieldsWrite (fresh : Bytes → Nat) : (fs : List Field) → FieldsVal fs → Prog WSt Bool
  | [], _ => return true
  | .base k t c :: fs, v => do
    if !(← EWriter.write t c k v.1) then return false
    fieldsWrite fresh fs v.2
  | .sub k _ M :: fs, v => do
    match ← beginWriteSection (fresh k) k with
    | none => return false
    | some p =>
      if !(← inSubsection (M.write fresh v.1)) then return false
      let _ ← endWriteSection (some p)
      fieldsWrite fresh fs v.2

/-- The calls of `MF::Read` (lines 231-269). The result of `EndReadSection` is ignored. `BeginReadSection` is called with null not allowed,
so a success comes with a section. -/
def fieldsRead (env : REnv) (fresh : Bytes → Nat) : (fs : List Field) → FieldsVal fs → Prog RSt (Option (FieldsVal fs))
  | [], _ => return some ()
  | .base k t c :: fs, v => do
    match ← EReader.read env t c k v.1 with
    | none => return none
    | some x =>
      match ← fieldsRead env fresh fs v.2 with
      | none => return none
      | some rest => return some (x, rest)
  | .sub k _ M :: fs, v => do
    match ← beginReadSection env (fresh k) k false with
    | (_, false) => return none
    | (none, true) =>
      match ← fieldsRead env fresh fs v.2 with
      | none => return none
      | some rest => return some (v.1, rest)
    | (some p, true) =>
      match ← inRSubsection (M.read env fresh v.1) with
      | none => return none
      | some x =>
        let _ ← endReadSection (some p)
        match ← fieldsRead env fresh fs v.2 with
        | none => return none
        | some rest => return some (x, rest)

/-- Run a routine on the first variable. -/
def onFirst {A B α : Type} (p : Prog (RSt × A) α) : Prog (RSt × (A × B)) α := fun s => onPart s.2.1 (fun a => (a, s.2.2)) p s

/-- Run a routine on the other variables. -/
def onOthers {A B α : Type} (p : Prog (RSt × B) α) : Prog (RSt × (A × B)) α := fun s => onPart s.2.2 (fun b => (s.2.1, b)) p s

/-- `MF::Read` (lines 232-269) on the object itself. -/
def fieldsReadInPlace (L : Leftover) (env : REnv) (fresh : Bytes → Nat) : (fs : List Field) → Prog (RSt × FieldsVal fs) Bool
  | [] => return true
  | .base k t c :: fs => do
    if !(← onFirst (A := c.Val t.Val) (B := FieldsVal fs) (readBaseInPlace L env t c k)) then return false
    onOthers (A := c.Val t.Val) (fieldsReadInPlace L env fresh fs)
  | .sub k V M :: fs => do
    match ← withReader (V := V × FieldsVal fs) (beginReadSection env (fresh k) k false) with
    | (_, false) => return false
    | (none, true) => onOthers (A := V) (fieldsReadInPlace L env fresh fs)
    | (some p, true) =>
      if !(← onFirst (A := V) (B := FieldsVal fs) (inSubInPlace (M.readInPlace L env fresh))) then return false
      let _ ← withReader (V := V × FieldsVal fs) (endReadSection (some p))
      onOthers (A := V) (fieldsReadInPlace L env fresh fs)

/-- The calls of `MF::Validate` (lines 271-290). Base values are not validated. -/
def fieldsValidate : (fs : List Field) → FieldsVal fs → List Nat → Bool → Prop
  | [], _, reports, ok => reports = [] ∧ ok = true
  | .base _ _ _ :: fs, v, reports, ok => fieldsValidate fs v.2 reports ok
  | .sub _ _ M :: fs, v, reports, ok =>
    (M.validate v.1 reports false ∧ ok = false) ∨
    ∃ r1 r2, M.validate v.1 r1 true ∧ fieldsValidate fs v.2 r2 ok ∧ reports = r1 ++ r2

/-- `MF` of a generated entity with these variables (EntityGenerator.py 325-400). -/
def entityMF (fs : List Field) : Managed (FieldsVal fs) where
  init := fieldsInit fs
  clear := fieldsClear fs
  copy src :=
    match src with
    | .null => fieldsClear fs
    | .self => fieldsCopySelf fs
    | .other v => fieldsCopy fs v
  construct v := fieldsCopy fs v
  copyFails := fieldsCopyFails fs
  constructFails s e := ∃ e', fieldsCopyFails fs (fieldsInit fs) s e' ∧ e = e'.map fun _ => ()
  equals := fieldsEquals fs
  write fresh := fieldsWrite fresh fs
  read env fresh := fieldsRead env fresh fs
  readInPlace L env fresh := fieldsReadInPlace L env fresh fs
  validate := fieldsValidate fs

end ISD
