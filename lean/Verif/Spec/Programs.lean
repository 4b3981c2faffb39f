import Verif.Model.Debug

/-!
# Programs that use the entity reader and writer

A program over `EntityReader` (or `EntityWriter`) is a tree of calls: what it does next may depend on everything the calls have returned.
-/

namespace ISD

/-- Whether `_DEBUG` is defined (ISD_Types.h 24). -/
inductive Build where
  | release
  | debug

/-- The calls of an `EntityReader` (ISD_EntityReader.py), with their results. -/
inductive ReaderOp : Type → Type 1 where
  | read (t : DataType) (c : Container) (key : Bytes) (dest : c.Val t.Val) : ReaderOp (Option (c.Val t.Val))
  | beginSection (fresh : Nat) (key : Bytes) (nullAllowed : Bool) : ReaderOp (Option Nat × Bool)
  | endSection (ptr : Option Nat) : ReaderOp Bool
  | beginArray (fresh : Nat) (key : Bytes) (nullAllowed wantIndex : Bool) : ReaderOp (Option Nat × Nat × Bool × List (Word 4))
  | beginElement (ptr : Option Nat) (i : Nat) (wantHasData : Bool) : ReaderOp (Bool × Bool)
  | endElement (ptr : Option Nat) (i : Nat) : ReaderOp Bool
  | endArray (ptr : Option Nat) : ReaderOp Bool

/-- The call in either build. -/
def ReaderOp.run (b : Build) (env : REnv) {α : Type} : ReaderOp α → Prog RSt α
  | .read t c key dest =>
    match b with
    | .release => onRStream (readTyped env t c key dest)
    | .debug => onRStream (Debug.readTyped env t c key dest)
  | .beginSection fresh key na =>
    match b with
    | .release => beginReadSection env fresh key na
    | .debug => Debug.beginReadSection env fresh key na
  | .endSection ptr => endReadSection ptr
  | .beginArray fresh key na wi =>
    match b with
    | .release => beginReadSectionsArray env fresh key na wi
    | .debug => Debug.beginReadSectionsArray env fresh key na wi
  | .beginElement ptr i w => beginReadSectionInArray ptr i w
  | .endElement ptr i => endReadSectionInArray ptr i
  | .endArray ptr => endReadSectionsArray ptr

/-- A computation of the program itself, which does not touch reader, writer or stream. -/
def ownStep {σ α : Type} (p : Prog Unit α) : Prog σ α := fun s =>
  match p () with
  | .ok a _ => .ok a s
  | .throw _ => .throw s
  | .ub => .ub

/-- A program over an `EntityReader`. `inner` works through the pointer to the open subsection. -/
inductive ReaderProgram : Type → Type 1 where
  | done {α : Type} (a : α) : ReaderProgram α
  | call {α β : Type} (op : ReaderOp β) (next : β → ReaderProgram α) : ReaderProgram α
  | inner {α β : Type} (body : ReaderProgram β) (next : β → ReaderProgram α) : ReaderProgram α
  | own {α β : Type} (step : Prog Unit β) (next : β → ReaderProgram α) : ReaderProgram α

/-- The program in either build. -/
def ReaderProgram.run (b : Build) (env : REnv) {α : Type} : ReaderProgram α → Prog RSt α
  | .done a => pure a
  | .call op next => op.run b env >>= fun r => (next r).run b env
  | .inner body next => inRSubsection (body.run b env) >>= fun r => (next r).run b env
  | .own step next => ownStep step >>= fun r => (next r).run b env

/-- Data types of the library, keys of at most `EntityMaxKeyLength` bytes. -/
def ReaderOp.Ok {α : Type} : ReaderOp α → Prop
  | .read t _ key _ => t ∈ allTypes ∧ key.length ≤ 40
  | .beginSection _ key _ => key.length ≤ 40
  | .beginArray _ key _ _ => key.length ≤ 40
  | _ => True

/-- Every call the program can make is in order. -/
def ReaderProgram.Ok {α : Type} : ReaderProgram α → Prop
  | .done _ => True
  | .call op next => op.Ok ∧ ∀ r, (next r).Ok
  | .inner body next => body.Ok ∧ ∀ r, (next r).Ok
  | .own _ next => ∀ r, (next r).Ok

/-- No index is asked for, and optional values have a name. -/
def ReaderOp.Plain {α : Type} : ReaderOp α → Prop
  | .read _ c key _ => c ≠ .idxVector ∧ c ≠ .optionalIdxVector ∧ (c = .optionalValue → key ≠ [])
  | .beginArray _ _ _ wi => wi = false
  | _ => True

/-- Every call the program can make is plain. -/
def ReaderProgram.Plain {α : Type} : ReaderProgram α → Prop
  | .done _ => True
  | .call op next => op.Plain ∧ ∀ r, (next r).Plain
  | .inner body next => body.Plain ∧ ∀ r, (next r).Plain
  | .own _ next => ∀ r, (next r).Plain

/-- The calls of an `EntityWriter` (ISD_EntityWriter.py), with their results. -/
inductive WriterOp : Type → Type 1 where
  | write (t : DataType) (c : Container) (key : Bytes) (v : c.Val t.Val) : WriterOp Bool
  | beginSection (fresh : Nat) (key : Bytes) : WriterOp (Option Nat)
  | endSection (ptr : Option Nat) : WriterOp Bool
  | nullSection (fresh : Nat) (key : Bytes) : WriterOp Bool
  | beginArray (fresh : Nat) (key : Bytes) (size : Nat) (index : Option (List (Word 4))) : WriterOp (Option Nat)
  | beginElement (ptr : Option Nat) (i : Nat) : WriterOp Bool
  | endElement (ptr : Option Nat) (i : Nat) : WriterOp Bool
  | endArray (ptr : Option Nat) : WriterOp Bool

/-- The call in either build. -/
def WriterOp.run (b : Build) {α : Type} : WriterOp α → Prog WSt α
  | .write t c key v =>
    match b with
    | .release => onStream (writeTyped t c key v)
    | .debug => onStream (Debug.writeTyped t c key v)
  | .beginSection fresh key =>
    match b with
    | .release => beginWriteSection fresh key
    | .debug => Debug.beginWriteSection fresh key
  | .endSection ptr => endWriteSection ptr
  | .nullSection fresh key =>
    match b with
    | .release => writeNullSection fresh key
    | .debug => Debug.writeNullSection fresh key
  | .beginArray fresh key size index =>
    match b with
    | .release => beginWriteSectionsArray fresh key size index
    | .debug => Debug.beginWriteSectionsArray fresh key size index
  | .beginElement ptr i => beginWriteSectionInArray ptr i
  | .endElement ptr i => endWriteSectionInArray ptr i
  | .endArray ptr => endWriteSectionsArray ptr

/-- A program over an `EntityWriter`. -/
inductive WriterProgram : Type → Type 1 where
  | done {α : Type} (a : α) : WriterProgram α
  | call {α β : Type} (op : WriterOp β) (next : β → WriterProgram α) : WriterProgram α
  | inner {α β : Type} (body : WriterProgram β) (next : β → WriterProgram α) : WriterProgram α
  | own {α β : Type} (step : Prog Unit β) (next : β → WriterProgram α) : WriterProgram α

/-- The program in either build. -/
def WriterProgram.run (b : Build) {α : Type} : WriterProgram α → Prog WSt α
  | .done a => pure a
  | .call op next => op.run b >>= fun r => (next r).run b
  | .inner body next => inSubsection (body.run b) >>= fun r => (next r).run b
  | .own step next => ownStep step >>= fun r => (next r).run b

/-- Data types of the library, keys of at most `EntityMaxKeyLength` bytes. -/
def WriterOp.Ok {α : Type} : WriterOp α → Prop
  | .write t _ key _ => t ∈ allTypes ∧ key.length ≤ 40
  | .beginSection _ key => key.length ≤ 40
  | .nullSection _ key => key.length ≤ 40
  | .beginArray _ key _ _ => key.length ≤ 40
  | _ => True

/-- Every call the program can make is in order. -/
def WriterProgram.Ok {α : Type} : WriterProgram α → Prop
  | .done _ => True
  | .call op next => op.Ok ∧ ∀ r, (next r).Ok
  | .inner body next => body.Ok ∧ ∀ r, (next r).Ok
  | .own _ next => ∀ r, (next r).Ok

end ISD
