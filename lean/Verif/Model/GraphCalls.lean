import Verif.Model.Managed

/-!
# What clients do with a graph (ISD_DirectedGraph.h 38-69)

The calls on `DirectedGraph` and, through `Edges()` and `Roots()` (lines 63-68), on the two `std::set`s inside.
-/

namespace ISD

variable {α : Type} [NodeType α]

/-- A call on a graph. -/
inductive GraphCall (α : Type) where
  /-- `InsertEdge( key, value )` (lines 71-75). -/
  | insertEdge (a b : α)
  /-- `Edges().emplace( key, value )` (line 63). -/
  | edgesEmplace (a b : α)
  /-- `Edges().erase( pair )`. -/
  | edgesErase (a b : α)
  /-- `Edges().clear()`. -/
  | edgesClear
  /-- `Roots().insert( node )` (line 67). -/
  | rootsInsert (n : α)
  /-- `Roots().erase( node )`. -/
  | rootsErase (n : α)
  /-- `Roots().clear()`. -/
  | rootsClear
  /-- `MF::Clear` (lines 119-123). -/
  | clear
  /-- `MF::DeepCopy` with a null source (lines 127-131). -/
  | copyNull
  /-- `MF::DeepCopy` from another graph (lines 133-135). -/
  | copyFrom (s : Graph α)
  /-- `MF::DeepCopy` of the graph to itself: both sets are replaced by sets built from their own elements (lines 133-135). -/
  | copySelf
  /-- The default assignment and move assignment from another graph (lines 42, 44): memberwise. -/
  | assignFrom (s : Graph α)
  /-- The default assignment of the graph to itself (line 42): memberwise self assignment of `std::set`, which keeps the elements. -/
  | assignSelf

/-- The effect of a call. -/
def GraphCall.run : GraphCall α → Graph α → Graph α
  | .insertEdge a b, g => g.insertEdge a b
  | .edgesEmplace a b, g => { g with edges := OrdSet.insert (a, b) g.edges }
  | .edgesErase a b, g => { g with edges := OrdSet.erase (a, b) g.edges }
  | .edgesClear, g => { g with edges := [] }
  | .rootsInsert n, g => { g with roots := OrdSet.insert n g.roots }
  | .rootsErase n, g => { g with roots := OrdSet.erase n g.roots }
  | .rootsClear, g => { g with roots := [] }
  | .clear, _ => Graph.empty
  | .copyNull, _ => Graph.deepCopy none
  | .copyFrom s, _ => Graph.deepCopy (some s)
  | .copySelf, g => Graph.deepCopy (some g)
  | .assignFrom s, _ => s
  | .assignSelf, g => g

/-- The calls of a history, one after the other. -/
def GraphCall.runAll : List (GraphCall α) → Graph α → Graph α
  | [], g => g
  | c :: cs, g => GraphCall.runAll cs (c.run g)

end ISD
