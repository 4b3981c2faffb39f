import Verif.Model.Managed

/-!
# Varying objects in memory (ISD_Varying.h, ISD_Varying.cpp)

`Model.Managed` treats a Varying as a value. Here the objects that `new_type` makes live on a heap and the variables hold pointers, so that
dangling pointers, double deletes, sharing between variables and leaks can be seen.

Simplifications: `new T()` may fail (as the oracle `allocOk` says for the n-th allocation), copying the contents of a vector or string into an
existing object does not.
-/

namespace ISD
namespace VHeap

/-- The members of a `Varying` (ISD_Varying.h 29-31). -/
structure Obj where
  ty : Word 4
  ct : Word 4
  data : Option Nat

/-- The program's memory: the living Varying variables, the objects on the heap, and the number of allocations so far. -/
structure World where
  vars : Nat → Option Obj
  heap : Nat → Option DynObj
  n : Nat

/-- Replace one entry. -/
def upd {α : Type} (f : Nat → α) (i : Nat) (x : α) : Nat → α := fun k => if k = i then x else f k

/-- What `new` does: which allocations succeed, and at which address. An address in use is never given out (while there are free ones). -/
structure Allocator where
  allocOk : Nat → Bool
  pick : (Nat → Option DynObj) → Nat
  free : ∀ heap : Nat → Option DynObj, (∃ bound, ∀ a, bound ≤ a → heap a = none) → heap (pick heap) = none

/-- The members of the variable; using a variable that does not exist is undefined behaviour. -/
def getVar (i : Nat) : Prog World Obj := fun w =>
  match w.vars i with
  | none => .ub
  | some v => .ok v w

/-- Assignment to members of the variable. -/
def modVar (i : Nat) (f : Obj → Obj) : Prog World Unit := fun w =>
  match w.vars i with
  | none => .ub
  | some v => .ok () { w with vars := upd w.vars i (some (f v)) }

/-- Access through a pointer to an object of the C++ type of the class: undefined behaviour if there is no object, or one of another type. -/
def deref (a : Nat) (cl : DynClass) : Prog World DynObj := fun w =>
  match w.heap a with
  | none => .ub
  | some o => if o.madeBy cl then .ok o w else .ub

/-- Overwrite an object on the heap. -/
def store (a : Nat) (o : DynObj) : Prog World Unit := fun w => .ok () { w with heap := upd w.heap a (some o) }

/-- `delete` of an object of that type. -/
def delete (a : Nat) (cl : DynClass) : Prog World Unit := do
  let _ ← deref a cl
  Prog.modify fun w => { w with heap := upd w.heap a none }

/-- `New()` of the class. -/
def new (al : Allocator) (cl : DynClass) : Prog World Nat := fun w =>
  if al.allocOk w.n then
    .ok (al.pick w.heap) { w with heap := upd w.heap (al.pick w.heap) (some ⟨cl.t, cl.c, cl.c.zero cl.t.zero⟩), n := w.n + 1 }
  else .throw { w with n := w.n + 1 }

/-- The start of every routine of `dynamic_types`: without a class for the numbers the call fails (ISD_DynamicTypes.py 136-224). -/
def withClass {α : Type} (found : Option DynClass) (fail : α) (f : DynClass → Prog World α) : Prog World α :=
  match found with
  | none => return fail
  | some cl => f cl

/-- `dynamic_types::new_type` (ISD_DynamicTypes.py 136-143). -/
def newType (al : Allocator) (dt ct : Word 4) : Prog World (Option Nat) :=
  withClass (findTypeClass dt ct) none fun cl => do return some (← new al cl)

/-- `dynamic_types::delete_type` (ISD_DynamicTypes.py 145-157). -/
def deleteType (dt ct : Word 4) (data : Option Nat) : Prog World Bool :=
  match data with
  | none => return false
  | some a => withClass (findTypeClass dt ct) false fun cl => do
    delete a cl
    return true

/-- `dynamic_types::clear` (ISD_DynamicTypes.py 159-171). -/
def clearType (dt ct : Word 4) (data : Option Nat) : Prog World Bool :=
  match data with
  | none => return false
  | some a => withClass (findTypeClass dt ct) false fun cl => do
    let o ← deref a cl
    store a ⟨o.t, o.c, o.c.zero o.t.zero⟩
    return true

/-- `dynamic_types::copy` (ISD_DynamicTypes.py 199-211). -/
def copyType (dt ct : Word 4) (dest src : Option Nat) : Prog World Bool :=
  match dest, src with
  | some a, some b => withClass (findTypeClass dt ct) false fun cl => do
    let _ ← deref a cl
    let o ← deref b cl
    store a o
    return true
  | _, _ => return false

/-- `dynamic_types::equals` (ISD_DynamicTypes.py 213-224). -/
def equalsType (dt ct : Word 4) (dataA dataB : Option Nat) : Prog World Bool :=
  match dataA, dataB with
  | some a, some b => withClass (findTypeClass dt ct) false fun cl => do
    let x ← deref a cl
    let y ← deref b cl
    return x.equal y
  | _, _ => return false

/-- `Deinitialize` (ISD_Varying.cpp 69-88). -/
def deinitialize (i : Nat) : Prog World Bool := do
  let v ← getVar i
  if v.data.isSome then
    if !(← deleteType v.ty v.ct v.data) then return false
    modVar i fun _ => ⟨0, 0, none⟩
    return true
  else return true

/-- `MF::SetType` (ISD_Varying.cpp 217-235); `Initialize` (90-93) is the same. When `new` throws, the type is set and the data still null. -/
def setType (al : Allocator) (i : Nat) (dt ct : Word 4) : Prog World Bool := do
  if !(← deinitialize i) then return false
  modVar i fun v => { v with ty := dt }
  modVar i fun v => { v with ct := ct }
  let v ← getVar i
  let p ← newType al v.ty v.ct
  modVar i fun v => { v with data := p }
  return p.isSome

/-- `MF::Clear` (ISD_Varying.cpp 106-112). `ISDRuntimeCheck` throws. -/
def clear (i : Nat) : Prog World Unit := do
  let v ← getVar i
  if v.data.isNone then return ()
  if !(← clearType v.ty v.ct v.data) then Prog.throw

/-- `MF::DeepCopy` from another or the same variable (ISD_Varying.cpp 114-133). -/
def deepCopy (al : Allocator) (i j : Nat) : Prog World Unit := do
  if !(← deinitialize i) then Prog.throw
  let s ← getVar j
  if s.data.isNone then return ()
  if !(← setType al i s.ty s.ct) then Prog.throw
  let d ← getVar i
  let s ← getVar j
  if !(← copyType d.ty d.ct d.data s.data) then Prog.throw

/-- The copy constructor (ISD_Varying.cpp 13-20). When it throws there is no variable. -/
def copyConstruct (al : Allocator) (i j : Nat) : Prog World Unit := fun w =>
  match deepCopy al i j { w with vars := upd w.vars i (some ⟨0, 0, none⟩) } with
  | .ok () w' => .ok () w'
  | .throw w' => .throw { w' with vars := upd w'.vars i none }
  | .ub => .ub

/-- The member by member moves of the move constructor and the move assignment (ISD_Varying.cpp 28-38, 40-52). -/
def moveMembers (i j : Nat) : Prog World Unit := do
  let r ← getVar j
  modVar i fun v => { v with ty := r.ty }
  modVar j fun v => { v with ty := 0 }
  let r ← getVar j
  modVar i fun v => { v with ct := r.ct }
  modVar j fun v => { v with ct := 0 }
  let r ← getVar j
  modVar i fun v => { v with data := r.data }
  modVar j fun v => { v with data := none }

/-- The move constructor (ISD_Varying.cpp 28-38). -/
def moveConstruct (i j : Nat) : Prog World Unit := do
  Prog.modify fun w => { w with vars := upd w.vars i (some ⟨0, 0, none⟩) }
  moveMembers i j

/-- The destructor (ISD_Varying.cpp 54-57). -/
def destroy (i : Nat) : Prog World Unit := do
  let _ ← deinitialize i
  Prog.modify fun w => { w with vars := upd w.vars i none }

/-- `MF::Equals` (ISD_Varying.cpp 135-153). -/
def equals (i j : Nat) : Prog World Bool := do
  if i = j then return true
  let l ← getVar i
  let r ← getVar j
  if l.ty ≠ r.ty then return false
  if l.ct ≠ r.ct then return false
  equalsType l.ty l.ct l.data r.data

/-- The C++ types that can be used as the template argument: those with a `combined_type_information`, which are the registered ones
(ISD_CombinedTypes.py 29-40). -/
structure CppType where
  cl : DynClass
  mem : cl ∈ DynClass.all

/-- `IsA<T>` (ISD_Varying.h 83-87). -/
def Obj.isA (v : Obj) (T : CppType) : Bool := v.ty == BitVec.ofNat 32 T.cl.dt && v.ct == BitVec.ofNat 32 T.cl.ct

/-- `Data<T>` (ISD_Varying.h 90-103): the address. -/
def data (i : Nat) (T : CppType) : Prog World Nat := do
  let v ← getVar i
  match v.data with
  | none => Prog.throw
  | some a => if v.isA T then return a else Prog.throw

/-- How a call of the reader ends: it returns, or throws. -/
inductive Ending where
  | returns (b : Bool)
  | throws

/-- Pass on how a call ended. -/
def Ending.exit : Ending → Prog World Bool
  | .returns b => return b
  | .throws => Prog.throw

/-- What the reader delivers to `MF::Read`, whatever the stream holds: a failure to read one of the two numbers (`false` or an exception); or
the numbers, the value stored into the object (of whatever type that is) and how the call that did so ended. -/
inductive Delivery where
  | noTypes (thrown : Bool)
  | types (ty ct : Word 2) (value : (t : DataType) → (c : Container) → c.Val t.Val) (ending : Ending)

/-- `MF::Read` (ISD_Varying.cpp 178-203). A failed read of the data may have changed the object. -/
def read (al : Allocator) (i : Nat) (d : Delivery) : Prog World Bool := do
  let _ ← deinitialize i
  match d with
  | .noTypes thrown => (if thrown then Ending.throws else .returns false).exit
  | .types ty ct value ending =>
    if !(← setType al i (ty.setWidth 32) (ct.setWidth 32)) then return false
    let v ← getVar i
    match v.data with
    | none => return false
    | some a => withClass (findTypeClass v.ty v.ct) false fun cl => do
      let o ← deref a cl
      store a ⟨o.t, o.c, value o.t o.c⟩
      ending.exit

/-- A statement about Varying variables in a program. -/
inductive Op where
  | declare (i : Nat)
  | copyConstruct (i j : Nat)
  | moveConstruct (i j : Nat)
  | assign (i j : Nat)
  | moveAssign (i j : Nat)
  | destroy (i : Nat)
  | initialize_ (i : Nat) (dt ct : Word 4)
  | isInitialized (i : Nat)
  | holds (i : Nat) (T : CppType)
  | get (i : Nat) (T : CppType)
  | put (i : Nat) (T : CppType) (x : T.cl.c.Val T.cl.t.Val)
  | clear (i : Nat)
  | equals (i j : Nat)
  | read (i : Nat) (d : Delivery)

/-- What the program sees of a statement. -/
inductive Out where
  | notACall
  | done
  | bool (b : Bool)
  | value (o : DynObj)
  | threw

/-- The variables the statement makes and those it uses. -/
def Op.makes : Op → Option Nat
  | .declare i | .copyConstruct i _ | .moveConstruct i _ => some i
  | _ => none

/-- See `makes`. -/
def Op.uses : Op → List Nat
  | .declare _ => []
  | .copyConstruct _ j | .moveConstruct _ j => [j]
  | .assign i j | .moveAssign i j | .equals i j => [i, j]
  | .destroy i | .initialize_ i _ _ | .isInitialized i | .holds i _ | .get i _ | .put i _ _ | .clear i | .read i _ => [i]

/-- The language sees to it that a statement uses living variables and makes new ones; other statements are no calls at all. -/
def Op.scoped (op : Op) (alive : Nat → Bool) : Bool := op.uses.all alive && op.makes.all fun i => !alive i

/-- The statement. `holds` is `IsInitialized() && IsA<T>()`; `get` copies `Data<T>()`, `put` assigns to it. -/
def Op.exec (al : Allocator) : Op → Prog World Out
  | .declare i => do
    Prog.modify fun w => { w with vars := upd w.vars i (some ⟨0, 0, none⟩) }
    return .done
  | .copyConstruct i j => do VHeap.copyConstruct al i j; return .done
  | .moveConstruct i j => do VHeap.moveConstruct i j; return .done
  | .assign i j => do deepCopy al i j; return .done
  | .moveAssign i j => do moveMembers i j; return .done
  | .destroy i => do VHeap.destroy i; return .done
  | .initialize_ i dt ct => do return .bool (← setType al i dt ct)
  | .isInitialized i => do return .bool (← getVar i).data.isSome
  | .holds i T => do
    let v ← getVar i
    return .bool (v.data.isSome && v.isA T)
  | .get i T => do
    let a ← VHeap.data i T
    return .value (← deref a T.cl)
  | .put i T x => do
    let a ← VHeap.data i T
    let _ ← deref a T.cl
    store a ⟨T.cl.t, T.cl.c, x⟩
    return .done
  | .clear i => do VHeap.clear i; return .done
  | .equals i j => do return .bool (← VHeap.equals i j)
  | .read i d => do return .bool (← VHeap.read al i d)

/-- The heap objects a statement leaves without owner: those of variables that are move-assigned. (Recorded for the statements of C57 only.) -/
def Op.overwrites (op : Op) (w : World) : List Nat :=
  match op with
  | .moveAssign i _ => ((w.vars i).bind Obj.data).toList
  | _ => []

/-- Run statements one after the other, catching exceptions; `none` is undefined behaviour. Results: what was seen, the memory, and the
objects overwritten by moves. -/
def run (al : Allocator) : List Op → World → Option (List Out × World × List Nat)
  | [], w => some ([], w, [])
  | op :: ops, w =>
    if op.scoped fun i => (w.vars i).isSome then
      match op.exec al w with
      | .ok out w' => (run al ops w').map fun r => (out :: r.1, r.2.1, op.overwrites w ++ r.2.2)
      | .throw w' => (run al ops w').map fun r => (.threw :: r.1, r.2.1, op.overwrites w ++ r.2.2)
      | .ub => none
    else (run al ops w).map fun r => (.notACall :: r.1, r.2)

/-- The start: no variables, nothing on the heap. -/
def World.start : World := ⟨fun _ => none, fun _ => none, 0⟩

end VHeap
end ISD
