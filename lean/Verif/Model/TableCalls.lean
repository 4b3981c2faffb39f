import Verif.Model.Managed

/-!
# What clients do with a table (ISD_EntityTable.h 34-62)

The calls on `EntityTable` and, through `Entries()` (lines 54-55), on the `std::unordered_map` inside.
-/

namespace ISD

variable {K V : Type} [DecidableEq K]

/-- Assignment through a reference to the object of an entry, or to its pointer: the entry keeps its place in the iteration order. -/
def Table.assign (t : Table K V) (k : K) (v : Option V) : Table K V := t.map fun e => if e.1 = k then (k, v) else e

/-- `erase( key )` of the map: the other entries keep their order. -/
def Table.erase (t : Table K V) (k : K) : Table K V := t.filter fun e => decide (e.1 ≠ k)

/-- A call on a table. -/
inductive TableCall (K V : Type) where
  /-- `Insert( key )` (line 62), then a change to the object through the returned reference. -/
  | insert (k : K) (change : V → V)
  /-- `operator[]( key )` (line 58), then a change to the object through the returned reference. -/
  | index (k : K) (change : V → V)
  /-- `Entries().emplace( key, pointer )`. -/
  | emplace (k : K) (v : Option V)
  /-- `Entries()[key] = pointer`. -/
  | put (k : K) (v : Option V)
  /-- `Entries().erase( key )`. -/
  | erase (k : K)
  /-- `MF::Clear` (lines 85-88). -/
  | clear
  /-- `operator=` or `MF::DeepCopy` from another table (lines 36, 90-103). -/
  | copyFrom (s : Table K V)
  /-- `MF::DeepCopy` with a null source (lines 94-95). -/
  | copyNull
  /-- Assignment of the table to itself (lines 36, 90-103). -/
  | copySelf

/-- The effect of a call. -/
def TableCall.run (st : Stored K) (M : Managed V) (zk ne : Bool) (ord : TableOrder (K × Option V)) : TableCall K V → Prog (Table K V) Unit
  | .insert k f => do
    let v ← Table.insertKey M ord k
    Prog.modify fun t => t.assign k (some (f v))
  | .index k f => do
    let v ← Table.index ord k
    Prog.modify fun t => t.assign k (some (f v))
  | .emplace k v => Prog.modify fun t => (t.emplace ord k v).1
  | .put k v => Prog.modify fun t => ((t.emplace ord k none).1).assign k v
  | .erase k => Prog.modify fun t => t.erase k
  | .clear => (tableMF st M zk ne ord).clear
  | .copyFrom s => (tableMF st M zk ne ord).copy (.other s)
  | .copyNull => (tableMF st M zk ne ord).copy .null
  | .copySelf => (tableMF st M zk ne ord).copy .self

/-- A sequence of calls. -/
def TableCall.runAll (st : Stored K) (M : Managed V) (zk ne : Bool) (ord : TableOrder (K × Option V)) : List (TableCall K V) → Prog (Table K V) Unit
  | [] => return ()
  | c :: cs => do
    c.run st M zk ne ord
    TableCall.runAll st M zk ne ord cs

end ISD
