import Verif.Model.TableCalls

/-!
# Tables and the objects they own (ISD_EntityTable.h 34-62)

An `EntityTable` keeps its objects behind `std::unique_ptr` in a `std::unordered_map`. `Insert` and `operator[]` return references to the
objects. Here objects have addresses, so that references, copies and moves can be told apart. Calls that no program can make (on a table
that does not exist, or with an address that the allocator cannot return) are `throw`.
-/

namespace ISD.TableHeap

variable {K V : Type} [DecidableEq K]

/-- Objects by address, and tables by name with their entries in iteration order: a key and a pointer (`none` is null). -/
structure World (K V : Type) where
  heap : Nat → Option V
  tables : Nat → Option (Table K Nat)

/-- Nothing exists. -/
def World.start : World K V := ⟨fun _ => none, fun _ => none⟩

/-- One value changed. -/
def update {α : Type} (f : Nat → Option α) (i : Nat) (x : Option α) : Nat → Option α := fun j => if j = i then x else f j

/-- The table of this name. -/
def World.table (t : Nat) : Prog (World K V) (Table K Nat) := fun w =>
  match w.tables t with
  | some e => .ok e w
  | none => .throw w

/-- New entries for a table. -/
def World.setTable (t : Nat) (e : Option (Table K Nat)) : Prog (World K V) Unit := fun w => .ok () { w with tables := update w.tables t e }

/-- `new`: the allocator returns the address `a`, which is not in use. -/
def World.new (a : Nat) (v : V) : Prog (World K V) Unit := fun w =>
  match w.heap a with
  | some _ => .throw w
  | none => .ok () { w with heap := update w.heap a (some v) }

/-- `delete`, by `std::unique_ptr`: deleting what is not an object is undefined. -/
def World.delete (a : Nat) : Prog (World K V) Unit := fun w =>
  match w.heap a with
  | none => .ub
  | some _ => .ok () { w with heap := update w.heap a none }

/-- The destruction of the pointers of these entries. -/
def World.deleteAll : Table K Nat → Prog (World K V) Unit
  | [] => return ()
  | (_, none) :: es => World.deleteAll es
  | (_, some a) :: es => do
    World.delete a
    World.deleteAll es

/-- The use of a reference to an object. -/
def World.deref (a : Nat) : Prog (World K V) V := fun w =>
  match w.heap a with
  | none => .ub
  | some v => .ok v w

/-- `*(v_Entries[key].get())` (lines 58, 62): a missing entry is made, with a null pointer; dereferencing null is undefined. The result is
the address of the object. -/
def World.at (ord : TableOrder (K × Option Nat)) (t : Nat) (k : K) : Prog (World K V) Nat := do
  let e ← World.table t
  let e := (e.emplace ord k none).1
  World.setTable t (some e)
  match e.find k with
  | some (some a) => return a
  | _ => Prog.ub

/-- The loop of `MF::DeepCopy` (lines 98-102): the addresses of the new objects are those of `as`. -/
def World.copyLoop (M : Managed V) (ord : TableOrder (K × Option Nat)) (d : Nat) : Table K Nat → List Nat → Prog (World K V) Unit
  | [], _ => return ()
  | (k, none) :: es, as => do
    let e ← World.table d
    World.setTable d (some (e.emplace ord k none).1)
    World.copyLoop M ord d es as
  | (_, some _) :: _, [] => Prog.throw
  | (k, some b) :: es, a :: as => do
    let v ← World.deref b
    let v' ← newCopy M v
    World.new a v'
    let e ← World.table d
    let r := e.emplace ord k (some a)
    World.setTable d (some r.1)
    -- the key is not there: the keys of the source differ
    if !r.2 then World.delete a
    World.copyLoop M ord d es as

/-- Calls of a program on its tables, and uses of references. -/
inductive Call (K V : Type) where
  /-- Definition of a table (line 35). -/
  | declare (t : Nat)
  /-- Its end (line 40). -/
  | destroy (t : Nat)
  /-- `Insert( key )` (line 62); `a` is the address of the object it makes. -/
  | insert (t : Nat) (k : K) (a : Nat)
  /-- `operator[]( key )` (line 58). -/
  | index (t : Nat) (k : K)
  /-- `Entries()[key] = std::make_unique<V>( v )`. -/
  | put (t : Nat) (k : K) (a : Nat) (v : V)
  /-- `Entries()[key] = nullptr`. -/
  | putNull (t : Nat) (k : K)
  /-- `Entries().erase( key )`. -/
  | erase (t : Nat) (k : K)
  /-- `MF::Clear` (lines 85-88). -/
  | clear (t : Nat)
  /-- `operator=` or `MF::DeepCopy` (lines 37, 90-103). -/
  | copy (d s : Nat) (as : List Nat)
  /-- The copy constructor (line 36). -/
  | copyConstruct (d s : Nat) (as : List Nat)
  /-- The move constructor (line 38). -/
  | moveConstruct (d s : Nat)
  /-- Move assignment (line 39) from another table. -/
  | moveAssign (d s : Nat)
  /-- A change of an object through a reference. -/
  | change (a : Nat) (f : V → V)

/-- A new name. -/
def World.makeTable (t : Nat) : Prog (World K V) Unit := fun w =>
  match w.tables t with
  | some _ => .throw w
  | none => .ok () { w with tables := update w.tables t (some []) }

/-- The destruction of all entries of a table. -/
def World.clearTable (t : Nat) : Prog (World K V) Unit := do
  let e ← World.table t
  World.setTable t (some [])
  World.deleteAll e

/-- The entries of a table get another owner; the map they were taken from is empty. -/
def World.take (d s : Nat) : Prog (World K V) Unit := do
  let e ← World.table s
  World.setTable s (some [])
  World.setTable d (some e)

/-- A pointer of the map is replaced, then the object it pointed to is deleted. -/
def World.replace (ord : TableOrder (K × Option Nat)) (t : Nat) (k : K) (p : Option Nat) : Prog (World K V) Unit := do
  let e ← World.table t
  let e := (e.emplace ord k none).1
  World.setTable t (some (e.assign k p))
  match e.find k with
  | some (some b) => World.delete b
  | _ => return ()

/-- The effect of a call. The result is the address of the object of a returned reference. -/
def Call.run (M : Managed V) (ord : TableOrder (K × Option Nat)) : Call K V → Prog (World K V) (Option Nat)
  | .declare t => do
    World.makeTable t
    return none
  | .destroy t => do
    World.clearTable t
    World.setTable t none
    return none
  | .insert t k a => do
    World.new a M.init
    let e ← World.table t
    let r := e.emplace ord k (some a)
    World.setTable t (some r.1)
    if !r.2 then World.delete a
    return some (← World.at ord t k)
  | .index t k => do
    return some (← World.at ord t k)
  | .put t k a v => do
    World.new a v
    World.replace ord t k (some a)
    return none
  | .putNull t k => do
    World.replace ord t k none
    return none
  | .erase t k => do
    let e ← World.table t
    World.setTable t (some (e.erase k))
    World.deleteAll (e.filter fun x => decide (x.1 = k))
    return none
  | .clear t => do
    World.clearTable t
    return none
  | .copy d s as => do
    -- when both are the same table, its entries are gone before the loop
    World.clearTable d
    let e ← World.table s
    World.copyLoop M ord d e as
    return none
  | .copyConstruct d s as => do
    let e ← World.table s
    World.makeTable d
    World.copyLoop M ord d e as
    return none
  | .moveConstruct d s => do
    let _ ← World.table s
    World.makeTable d
    World.take d s
    return none
  | .moveAssign d s => do
    World.clearTable d
    World.take d s
    return none
  | .change a f => fun w =>
    match w.heap a with
    | none => .ub
    | some v => .ok none { w with heap := update w.heap a (some (f v)) }

/-- A sequence of calls. -/
def runCalls (M : Managed V) (ord : TableOrder (K × Option Nat)) : List (Call K V) → Prog (World K V) Unit
  | [] => return ()
  | c :: cs => do
    let _ ← c.run M ord
    runCalls M ord cs

end ISD.TableHeap
