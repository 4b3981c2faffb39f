import Verif.Model.VaryingFail
import Verif.Spec.VaryingHeap

/-!
# What a program with Varying variables does when contents cannot be copied, without pointers
-/

namespace ISD
namespace Spec
namespace VarProg

open VHeap (FOp Out)

/-- A statement: what is seen, and the state after it. A copy that fails makes no variable; an assignment that fails leaves the destination with the type of the source and the contents that were left in it. -/
def stepF (ok : Nat → Bool) : FOp → State → Out × State
  | .stmt op, s => step ok op s
  | .copyFails i j _, s =>
    match s.held j with
    | none => (.done, s.set i none)
    | some _ => (.threw, s.tick)
  | .assignFails i j left, s =>
    if i = j then (.done, s.set i none)
    else
      match s.held j with
      | none => (.done, s.set i none)
      | some o => make ok s i ⟨o.t, o.c, left o.t o.c⟩ .threw

/-- A list of statements. -/
def runF (ok : Nat → Bool) : List FOp → State → List Out × State
  | [], s => ([], s)
  | op :: ops, s =>
    if op.op.scoped fun i => (s.vars i).isSome then
      let r := runF ok ops (stepF ok op s).2
      ((stepF ok op s).1 :: r.1, r.2)
    else
      let r := runF ok ops s
      (.notACall :: r.1, r.2)

/-- How many objects a statement abandons: one for a move assignment to a variable that holds one, and one for a copy construction of which the contents cannot be copied after memory for the object
has been had. -/
def leak (ok : Nat → Bool) : FOp → State → Nat
  | .stmt (.moveAssign i _), s => if (s.held i).isSome then 1 else 0
  | .copyFails _ j _, s => if (s.held j).isSome ∧ ok s.n = true then 1 else 0
  | _, _ => 0

/-- How many a list of statements abandons. -/
def abandonedF (ok : Nat → Bool) : List FOp → State → Nat
  | [], _ => 0
  | op :: ops, s =>
    if op.op.scoped fun i => (s.vars i).isSome then leak ok op s + abandonedF ok ops (stepF ok op s).2 else abandonedF ok ops s

end VarProg
end Spec
end ISD
