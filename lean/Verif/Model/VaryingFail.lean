import Verif.Model.VaryingHeap

/-!
# Varying objects whose contents cannot be copied (ISD_Varying.cpp)

`Model/VaryingHeap` lets `new T()` fail, but not the assignment of the contents that `dynamic_types::copy` makes. That assignment allocates too (strings, vectors), and throws when there is no memory.
Here it throws; what it leaves in the destination is any object of the type (`Left`).
-/

namespace ISD
namespace VHeap

/-- The object that an assignment of the C++ type leaves in its destination when it throws. -/
abbrev Left := (t : DataType) → (c : Container) → c.Val t.Val

/-- `dynamic_types::copy` (ISD_DynamicTypes.py 199-211, and the `Copy` of a class, 76-81), when the assignment throws. -/
def copyTypeFails (left : Left) (dt ct : Word 4) (dest src : Option Nat) : Prog World Bool :=
  match dest, src with
  | some a, some b => withClass (findTypeClass dt ct) false fun cl => do
    let _ ← deref a cl
    let _ ← deref b cl
    store a ⟨cl.t, cl.c, left cl.t cl.c⟩
    Prog.throw
  | _, _ => return false

/-- `MF::DeepCopy` (ISD_Varying.cpp 114-133), with a copy that throws. -/
def deepCopyFails (al : Allocator) (left : Left) (i j : Nat) : Prog World Unit := do
  if !(← deinitialize i) then Prog.throw
  let s ← getVar j
  if s.data.isNone then return ()
  if !(← setType al i s.ty s.ct) then Prog.throw
  let d ← getVar i
  let s ← getVar j
  if !(← copyTypeFails left d.ty d.ct d.data s.data) then Prog.throw

/-- The copy constructor (ISD_Varying.cpp 13-20) with a copy that throws. When it throws there is no variable, and no destructor runs. -/
def copyConstructFails (al : Allocator) (left : Left) (i j : Nat) : Prog World Unit := fun w =>
  match deepCopyFails al left i j { w with vars := upd w.vars i (some ⟨0, 0, none⟩) } with
  | .ok () w' => .ok () w'
  | .throw w' => .throw { w' with vars := upd w'.vars i none }
  | .ub => .ub

/-- A statement, or one in which the contents cannot be copied. -/
inductive FOp where
  | stmt (op : Op)
  | copyFails (i j : Nat) (left : Left)
  | assignFails (i j : Nat) (left : Left)

/-- The statement as it is written. -/
def FOp.op : FOp → Op
  | .stmt op => op
  | .copyFails i j _ => .copyConstruct i j
  | .assignFails i j _ => .assign i j

/-- What the statement does. -/
def FOp.exec (al : Allocator) : FOp → Prog World Out
  | .stmt op => op.exec al
  | .copyFails i j left => do copyConstructFails al left i j; return .done
  | .assignFails i j left => do deepCopyFails al left i j; return .done

/-- The heap objects that a statement leaves without owner: those of variables that are move-assigned, and what a variable held of which the construction was given up. (Recorded for the statements
of C97 only.) -/
def FOp.leaves (al : Allocator) (op : FOp) (w : World) : List Nat :=
  match op with
  | .stmt op => op.overwrites w
  | .copyFails i j left =>
    match deepCopyFails al left i j { w with vars := upd w.vars i (some ⟨0, 0, none⟩) } with
    | .throw w' => ((w'.vars i).bind Obj.data).toList
    | _ => []
  | .assignFails .. => []

/-- Run statements one after the other, as `run` does. -/
def runF (al : Allocator) : List FOp → World → Option (List Out × World × List Nat)
  | [], w => some ([], w, [])
  | op :: ops, w =>
    if op.op.scoped fun i => (w.vars i).isSome then
      match op.exec al w with
      | .ok out w' => (runF al ops w').map fun r => (out :: r.1, r.2.1, op.leaves al w ++ r.2.2)
      | .throw w' => (runF al ops w').map fun r => (.threw :: r.1, r.2.1, op.leaves al w ++ r.2.2)
      | .ub => none
    else (runF al ops w).map fun r => (.notACall :: r.1, r.2)

end VHeap
end ISD
