import Verif.Model.Order

/-!
# The life of `entity_ref` objects (ISD_entity_ref.inl, ISD_Types.cpp 114-126)

A program holds references in variables. It can only change them through the public members of the class: default
construction, copying, moving, `make_ref` and a read by an `EntityReader` (the only friend).
-/

namespace ISD

/-- An object of type `entity_ref` that a program can name: its own variables, and the statics behind `_inf()` and `_sup()`, which are handed out
as non-const references (ISD_entity_ref.inl 37-38). -/
inductive RefObj where
  | var (n : Nat)
  | infStatic
  | supStatic
  deriving DecidableEq, Repr

/-- What can be copied from: any object, and the constants `entity_ref_zero`, `entity_ref_inf`, `entity_ref_sup`
(ISD_entity_ref.inl 46-48) and `null()` (line 34), which the language does not let anyone change. -/
inductive RefSource where
  | obj (o : RefObj)
  | zeroConst
  | infConst
  | supConst
  deriving DecidableEq, Repr

/-- The references a program holds. Simplification: one type `RefObj` for all variables, which all exist from the start (as null). -/
abbrev RefWorld := RefObj → EntityRef

namespace RefWorld

/-- At the start: all variables default constructed (line 14), the statics with their values (lines 37-38; `uuid_inf` is all zeros,
ISD_DataTypes.py 83). -/
def start : RefWorld
  | .var _ => EntityRef.null
  | .infStatic => ⟨UUID.zero⟩
  | .supStatic => ⟨UUID.sup⟩

/-- Store a value in one object. -/
def put (w : RefWorld) (o : RefObj) (v : EntityRef) : RefWorld := fun p => if p = o then v else w p

/-- The value that copying from `s` gives (lines 15-16); the constants were initialised from the statics before they could change. -/
def look (w : RefWorld) : RefSource → EntityRef
  | .obj o => w o
  | .zeroConst => EntityRef.null
  | .infConst => ⟨UUID.zero⟩
  | .supConst => ⟨UUID.sup⟩

end RefWorld

/-- The calls a program can make. -/
inductive RefCall where
  /-- Destroy the object and default construct a new one in its place (lines 14, 19). -/
  | construct (d : RefObj)
  /-- Copy construction or copy assignment (lines 15-16). -/
  | copy (d : RefObj) (s : RefSource)
  /-- Move construction or move assignment (lines 17-18). -/
  | move (d s : RefObj)
  /-- `d = entity_ref::make_ref()`; `ok` and `id` are what `UuidCreate` answers (ISD_Types.cpp 114-126). -/
  | make (d : RefObj) (ok : Bool) (id : UUID)
  /-- An `EntityReader` has read the uuid `id` from a stream into `d` (ISD_EntityReader.py 104-205, which uses the private constructor of line 9). -/
  | read (d : RefObj) (id : UUID)

namespace RefCall

/-- `entity_ref::make_ref` (ISD_Types.cpp 114-126): throws (`none`) if `UuidCreate` failed or gave the zero uuid. -/
def makeRef (ok : Bool) (id : UUID) : Option EntityRef :=
  if !ok || UUID.equal id UUID.zero then none else some ⟨id⟩

/-- One call: what the program holds afterwards, and whether the call returned (`false`: it threw). -/
def run (w : RefWorld) : RefCall → RefWorld × Bool
  | construct d => (w.put d EntityRef.null, true)
  | copy d s => (w.put d (w.look s), true)
  -- `this->id_m = other.id_m; other.id_m = uuid_zero;` in this order, also when both are one object
  | move d s => ((w.put d (w s)).put s EntityRef.null, true)
  | make d ok id =>
    match makeRef ok id with
    | none => (w, false)
    -- the result is a temporary that is moved (or constructed in place) into the destination
    | some r => (w.put d r, true)
  | read d id => (w.put d ⟨id⟩, true)

/-- A whole history; an exception of `make_ref` is caught and the program goes on. -/
def runAll (w : RefWorld) : List RefCall → RefWorld
  | [] => w
  | c :: cs => runAll (run w c).1 cs

end RefCall
end ISD
