import Verif.Model.DataTypes

/-!
# The optional and indexed containers

Objects are named by numbers; an operation names its destination and its source, which may be the same object. The heap of the program is
modelled only for `optional_value`, the one class that owns a heap cell by itself; `std::vector` is a list (its storage is not shared).
-/

namespace ISD

/-- Update of one entry. -/
def upd {α : Type} (f : Nat → α) (i : Nat) (x : α) : Nat → α := fun j => if j = i then x else f j

/-! ## optional_value (ISD_optional_value.h 11-88) -/

/-- All `optional_value` objects of a program: `ptr` is the member `value_m` (line 14), `heap` the cells it points to. -/
structure OValWorld (T : Type) where
  heap : Nat → Option T
  next : Nat
  ptr : Nat → Option Nat

namespace OValWorld

variable {T : Type}

/-- All objects default constructed (line 17). -/
def start : OValWorld T := ⟨fun _ => none, 0, fun _ => none⟩

/-- `make_unique<T>(x)`: a new cell. -/
def alloc (w : OValWorld T) (x : T) : Nat × OValWorld T := (w.next, { w with heap := upd w.heap w.next (some x), next := w.next + 1 })

/-- `unique_ptr` move assignment `value_m = p`: the old cell is deleted after the pointer is replaced. -/
def assignPtr (w : OValWorld T) (d : Nat) (p : Option Nat) : OValWorld T :=
  let old := w.ptr d
  let w := { w with ptr := upd w.ptr d p }
  match old with
  | none => w
  | some a => { w with heap := upd w.heap a none }

/-- `*value_m`; `none` is undefined behaviour (null or deleted). -/
def deref (w : OValWorld T) (i : Nat) : Option T := (w.ptr i).bind w.heap

/-- Copy constructor and copy assignment (lines 19-20). `none` is undefined behaviour. -/
def copy (w : OValWorld T) (d s : Nat) : Option (OValWorld T) :=
  match w.ptr s with
  | none => some (w.assignPtr d none)
  | some _ =>
    match w.deref s with
    | none => none
    | some x => let (a, w1) := w.alloc x; some (w1.assignPtr d (some a))

/-- Move constructor and move assignment (lines 21-22): `unique_ptr` assignment is `reset(other.release())`. -/
def move (w : OValWorld T) (d s : Nat) : OValWorld T :=
  let p := w.ptr s
  { w with ptr := upd w.ptr s none }.assignPtr d p

/-- `reset()` (line 29). -/
def reset (w : OValWorld T) (d : Nat) : OValWorld T := w.assignPtr d none

/-- `set(value)` (line 30). -/
def set (w : OValWorld T) (d : Nat) (x : T) : OValWorld T := let (a, w1) := w.alloc x; w1.assignPtr d (some a)

/-- `has_value()` (line 31). -/
def hasValue (w : OValWorld T) (i : Nat) : Bool := (w.ptr i).isSome

/-- Assignment through `value()` or the reference conversion (lines 33-37). `none` is undefined behaviour: no value, or a deleted cell. -/
def put (w : OValWorld T) (i : Nat) (x : T) : Option (OValWorld T) :=
  match w.ptr i with
  | none => none
  | some a => if (w.heap a).isSome then some { w with heap := upd w.heap a (some x) } else none

/-- `operator==(const T&)` (lines 40-46). -/
def eqVal [BEq T] (w : OValWorld T) (i : Nat) (x : T) : Option Bool :=
  match w.ptr i with
  | none => some false
  | some _ => (w.deref i).map (· == x)

/-- `operator!=(const T&)` (lines 48-54); `!=` of the values is taken to be the negation of `==`. -/
def neVal [BEq T] (w : OValWorld T) (i : Nat) (x : T) : Option Bool :=
  match w.ptr i with
  | none => some true
  | some _ => (w.deref i).map (· != x)

/-- `operator==(const optional_value&)` (lines 56-71). -/
def eq [BEq T] (w : OValWorld T) (i j : Nat) : Option Bool :=
  match w.ptr i with
  | some _ =>
    match w.ptr j with
    | some _ => (w.deref i).bind fun x => (w.deref j).map fun y => x == y
    | none => some false
  | none =>
    match w.ptr j with
    | some _ => some false
    | none => some true

/-- `operator!=(const optional_value&)` (lines 73-88). -/
def ne [BEq T] (w : OValWorld T) (i j : Nat) : Option Bool :=
  match w.ptr i with
  | some _ =>
    match w.ptr j with
    | some _ => (w.deref i).bind fun x => (w.deref j).map fun y => x != y
    | none => some true
  | none =>
    match w.ptr j with
    | some _ => some true
    | none => some false

end OValWorld

/-! ## optional_vector (ISD_optional_vector.h 12-85) and optional_idx_vector (ISD_optional_idx_vector.h 12-86)

Both are a container with a flag; `C` is `std::vector<T>` (a list) or `idx_vector<T>` and `cleared` what `clear()` leaves. -/

/-- An `optional_vector` or `optional_idx_vector` object: `vector_m` and `has_value_m` (ISD_optional_vector.h 25-26). -/
structure OCont (C : Type) where
  vec : C
  has : Bool

namespace OCont

variable {C : Type}

/-- Default constructor (line 29): an empty container and `false`. -/
def start (cleared : C) : OCont C := ⟨cleared, false⟩

/-- Copy construction and copy assignment (lines 30-31). -/
def copy (w : Nat → OCont C) (d s : Nat) : Nat → OCont C :=
  let w1 := upd w d { w d with has := (w s).has }
  upd w1 d { w1 d with vec := (w1 s).vec }

/-- Move construction and move assignment (lines 32-33). `residue` is what the standard library leaves in the source container (also
after a self move). -/
def move (w : Nat → OCont C) (d s : Nat) (residue : C) : Nat → OCont C :=
  let w1 := upd w d { w d with has := (w s).has }
  let c := (w1 s).vec
  let w2 := upd w1 d { w1 d with vec := c }
  let w3 := upd w2 s { w2 s with vec := residue }
  upd w3 s { w3 s with has := false }

/-- `reset()` (line 38). -/
def reset (cleared : C) (w : Nat → OCont C) (d : Nat) : Nat → OCont C := upd w d ⟨cleared, false⟩

/-- `set()` (line 39). -/
def set (cleared : C) (w : Nat → OCont C) (d : Nat) : Nat → OCont C := upd w d ⟨cleared, true⟩

/-- `set(values)` (line 40; ISD_optional_idx_vector.h 40-41, both overloads). -/
def setTo (w : Nat → OCont C) (d : Nat) (c : C) : Nat → OCont C := upd w d ⟨c, true⟩

/-- Change through the reference returned by `vector()`, `values()` or `index()` (lines 43-50). In a release build this is not checked,
so it also happens to the hidden container of an absent object. -/
def change (w : Nat → OCont C) (d : Nat) (f : C → C) : Nat → OCont C := upd w d { w d with vec := f (w d).vec }

/-- `operator==` (lines 53-68). -/
def eq [BEq C] (a b : OCont C) : Bool :=
  if a.has then
    if b.has then a.vec == b.vec else false
  else
    if b.has then false else true

/-- `operator!=` (lines 70-85). -/
def ne [BEq C] (a b : OCont C) : Bool :=
  if a.has then
    if b.has then a.vec != b.vec else true
  else
    if b.has then true else false

end OCont

namespace IdxVec

variable {T : Type}

/-- `operator==` (ISD_idx_vector.h 47-52). -/
def eq [BEq T] (a b : IdxVec T) : Bool := a.values == b.values && a.index == b.index

/-- `operator!=` (ISD_idx_vector.h 54-59). -/
def ne [BEq T] (a b : IdxVec T) : Bool := a.values != b.values || a.index != b.index

/-- The comparison of `idx_vector` as used by `optional_idx_vector`. -/
@[reducible] def beq (T : Type) [BEq T] : BEq (IdxVec T) := ⟨IdxVec.eq⟩

/-- `clear()` and the default constructor (ISD_idx_vector.h 27, 36). -/
def cleared : IdxVec T := ⟨[], []⟩

/-- Copy construction and assignment (ISD_idx_vector.h 30-31), member by member. -/
def copy (w : Nat → IdxVec T) (d s : Nat) : Nat → IdxVec T :=
  let w1 := upd w d { w d with values := (w s).values }
  upd w1 d { w1 d with index := (w1 s).index }

/-- Change through the references `values()` and `index()` (ISD_idx_vector.h 40-44). -/
def change (w : Nat → IdxVec T) (d : Nat) (f : IdxVec T → IdxVec T) : Nat → IdxVec T := upd w d (f (w d))

end IdxVec

end ISD
