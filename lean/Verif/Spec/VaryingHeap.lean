import Verif.Model.VaryingHeap

/-!
# What a program with Varying variables does, without pointers

A living variable is uninitialised (`none`) or holds an object of one C++ type by value.
-/

namespace ISD
namespace Spec
namespace VarProg

open VHeap (Op Out upd)

/-- The variables and the number of allocations asked for. -/
structure State where
  vars : Nat → Option (Option DynObj)
  n : Nat

/-- What a living variable holds. -/
def State.held (s : State) (i : Nat) : Option DynObj := (s.vars i).join

/-- The variable lives and holds this. -/
def State.set (s : State) (i : Nat) (h : Option DynObj) : State := { s with vars := upd s.vars i (some h) }

/-- One more allocation was asked for. -/
def State.tick (s : State) : State := { s with n := s.n + 1 }

/-- The registered type with these numbers. -/
def registered (dt ct : Word 4) : Option DynClass :=
  DynClass.all.find? fun cl => BitVec.ofNat 32 cl.dt == dt && BitVec.ofNat 32 cl.ct == ct

/-- The default object of a type. -/
def defaultOf (t : DataType) (c : Container) : DynObj := ⟨t, c, c.zero t.zero⟩

/-- The object has exactly this C++ type. -/
def hasType (o : DynObj) (T : VHeap.CppType) : Bool := decide (o.t = T.cl.t ∧ o.c = T.cl.c)

/-- The variable gets a new object, if the memory for it can be had; otherwise an exception, and it holds nothing. -/
def make (ok : Nat → Bool) (s : State) (i : Nat) (o : DynObj) (out : Out) : Out × State :=
  if ok s.n then (out, (s.set i (some o)).tick) else (.threw, (s.set i none).tick)

/-- What is seen of a call that ends so. -/
def ended : VHeap.Ending → Out
  | .returns b => .bool b
  | .throws => .threw

/-- A statement: what is seen, and the state after it. -/
def step (ok : Nat → Bool) : Op → State → Out × State
  | .declare i, s => (.done, s.set i none)
  | .copyConstruct i j, s =>
    match s.held j with
    | none => (.done, s.set i none)
    | some o => if ok s.n then (.done, (s.set i (some o)).tick) else (.threw, s.tick)
  | .moveConstruct i j, s => (.done, (s.set i (s.held j)).set j none)
  | .assign i j, s =>
    if i = j then (.done, s.set i none)   -- self assignment loses the contents
    else
      match s.held j with
      | none => (.done, s.set i none)
      | some o => make ok s i o .done
  | .moveAssign i j, s => (.done, (s.set i (s.held j)).set j none)
  | .destroy i, s => (.done, { s with vars := upd s.vars i none })
  | .initialize_ i dt ct, s =>
    match registered dt ct with
    | none => (.bool false, s.set i none)
    | some cl => make ok s i (defaultOf cl.t cl.c) (.bool true)
  | .isInitialized i, s => (.bool (s.held i).isSome, s)
  | .holds i T, s => (.bool ((s.held i).any fun o => hasType o T), s)
  | .get i T, s =>
    match s.held i with
    | some o => if hasType o T then (.value o, s) else (.threw, s)
    | none => (.threw, s)
  | .put i T x, s =>
    match s.held i with
    | some o => if hasType o T then (.done, s.set i (some ⟨T.cl.t, T.cl.c, x⟩)) else (.threw, s)
    | none => (.threw, s)
  | .clear i, s =>
    match s.held i with
    | some o => (.done, s.set i (some (defaultOf o.t o.c)))
    | none => (.done, s)
  | .equals i j, s =>
    (.bool (i == j ||
      match s.held i, s.held j with
      | some a, some b => a.equal b
      | _, _ => false), s)
  | .read i (.noTypes thrown), s => (if thrown then .threw else .bool false, s.set i none)
  | .read i (.types ty ct value ending), s =>
    match registered (ty.setWidth 32) (ct.setWidth 32) with
    | none => (.bool false, s.set i none)
    | some cl =>  make ok s i ⟨cl.t, cl.c, value cl.t cl.c⟩ (ended ending)

/-- A list of statements. -/
def run (ok : Nat → Bool) : List Op → State → List Out × State
  | [], s => ([], s)
  | op :: ops, s =>
    if op.scoped fun i => (s.vars i).isSome then
      let r := run ok ops (step ok op s).2
      ((step ok op s).1 :: r.1, r.2)
    else
      let r := run ok ops s
      (.notACall :: r.1, r.2)

/-- How many objects a list of statements abandons: one for each move assignment to a variable that holds one. -/
def abandoned (ok : Nat → Bool) : List Op → State → Nat
  | [], _ => 0
  | op :: ops, s =>
    if op.scoped fun i => (s.vars i).isSome then
      (match op with
        | .moveAssign i _ => if (s.held i).isSome then 1 else 0
        | _ => 0) + abandoned ok ops (step ok op s).2
    else abandoned ok ops s

/-- What a variable in memory holds: nothing if it is not alive, nothing in it if it has no data, or the object its pointer points to. -/
def contents (w : VHeap.World) (i : Nat) : Option (Option DynObj) :=
  (w.vars i).map fun v => v.data.bind w.heap

/-- The address belongs to a living variable. -/
def owned (w : VHeap.World) (a : Nat) : Prop := ∃ i v, w.vars i = some v ∧ v.data = some a

/-- No variables. -/
def State.start : State := ⟨fun _ => none, 0⟩

end VarProg
end Spec
end ISD
