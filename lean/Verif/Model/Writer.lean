import Verif.Model.DataTypes

/-!
# `EntityWriter` (ISD_EntityWriterTemplates.inl, ISD_EntityWriter.py)

Release build: the `ISDSanityCheck...` macros expand to nothing (ISD_Types.h 28-29).
A key is the pair (pointer, `u8` length) of the C++ call, so it has at most 255 bytes.
-/

namespace ISD

open WStream

/-- `ValueType::VT_Subsection`, `VT_Array_Subsection`, `VT_String`, `VT_Array_String` (ISD_Types.h 140-143). -/
def vtSubsection : Nat := 0xd0
/-- See `vtSubsection`. -/
def vtArraySubsection : Nat := 0xd1
/-- See `vtSubsection`. -/
def vtString : Nat := 0xe0
/-- See `vtSubsection`. -/
def vtArrayString : Nat := 0xe1

/-- `MAXINT64` (basetsd.h), the stand-in size (ISD_EntityWriterTemplates.inl 27, 493). -/
def maxInt64 : Nat := 2 ^ 63 - 1

/-- `begin_write_large_block` (ISD_EntityWriterTemplates.inl 14-34). -/
def beginWriteLargeBlock (vt : Nat) (key : Bytes) : Prog WStream Bool := do
  let s ← Prog.get
  let expectedEnd := wrap64 (s.pos + key.length + 10)
  writeU8 vt
  writeU64 maxInt64
  writeU8 key.length
  writeBytes key
  let s1 ← Prog.get
  return s1.pos == expectedEnd

/-- `end_write_large_block` (ISD_EntityWriterTemplates.inl 38-46). -/
def endWriteLargeBlock (startPos : Nat) : Prog WStream Bool := do
  let s ← Prog.get
  let endPos := s.pos
  let blockSize := sub64 (sub64 endPos startPos) 9
  setPosition (wrap64 (startPos + 1))
  writeU64 blockSize
  setPosition endPos
  return decide (endPos > startPos)

/-- `write_single_value<VT,T>` (ISD_EntityWriterTemplates.inl 50-78) for a type of `n` scalars. -/
def writeSingleItems (vt : Nat) (sc : Sc) (n : Nat) (key : Bytes) (data : Option (Vector sc.Val n)) :
    Prog WStream Bool := do
  let dataSize := if data.isSome then sc.size * n else 0
  let blockSize := dataSize + key.length
  let s ← Prog.get
  let expectedEnd := wrap64 (s.pos + 2 + blockSize)
  writeU8 vt
  writeU8 (blockSize % 256)
  Prog.when (dataSize > 0) (writeItems sc (data.elim [] Vector.toList))
  writeBytes key
  let s1 ← Prog.get
  return s1.pos == expectedEnd

/-- `write_single_value<VT_Bool,bool>` (ISD_EntityWriterTemplates.inl 81-87): converted to a `u8`. -/
def writeSingleBool (key : Bytes) (data : Option Bool) : Prog WStream Bool :=
  writeSingleItems 0x01 .w1 1 key (data.map fun b => (#v[if b then 1#8 else 0#8] : Vector (Word 1) 1))

/-- `write_single_value<VT_String,string>` (ISD_EntityWriterTemplates.inl 90-147). -/
def writeSingleString (key : Bytes) (data : Option Bytes) : Prog WStream Bool := do
  let s ← Prog.get
  let startPos := s.pos
  if !(← beginWriteLargeBlock vtString key) then return false
  let s1 ← Prog.get
  let dataStart := s1.pos
  match data with
  | none =>
    if !(← endWriteLargeBlock startPos) then return false
    return true
  | some str =>
    let count := str.length
    writeU64 count
    Prog.when (count > 0) (writeBytes str)
    let expectedEnd := wrap64 (dataStart + wrap64 (count + 8))
    if !(← endWriteLargeBlock startPos) then return false
    let s2 ← Prog.get
    if s2.pos != expectedEnd then return false
    return true

/-- `write_array_metadata_and_index` (ISD_EntityWriterTemplates.inl 150-192). -/
def writeArrayMetadataAndIndex (perItemSize itemCount : Nat) (index : Option (List (Word 4))) :
    Prog WStream Bool := do
  let s ← Prog.get
  let startPos := s.pos
  writeU16 ((if index.isSome then 0x100 else 0) ||| perItemSize)
  writeU64 itemCount
  match index with
  | some idx =>
    writeU64 idx.length
    writeItems .w4 idx
    let s1 ← Prog.get
    return s1.pos == wrap64 (startPos + 2 + 8 + (idx.length * 4 + 8))
  | none =>
    let s1 ← Prog.get
    return s1.pos == wrap64 (startPos + 2 + 8 + 0)

/-- `write_array<VT,T>` (ISD_EntityWriterTemplates.inl 197-251) for a type of `n` scalars. -/
def writeArrayItems (vt : Nat) (sc : Sc) (n : Nat) (key : Bytes) (items : Option (List (Vector sc.Val n)))
    (index : Option (List (Word 4))) : Prog WStream Bool := do
  let s ← Prog.get
  let startPos := s.pos
  if !(← beginWriteLargeBlock vt key) then return false
  match items with
  | some l =>
    let valuesCount := wrap64 (l.length * n)
    if !(← writeArrayMetadataAndIndex sc.size valuesCount index) then return false
    if valuesCount > 0 then
      let s1 ← Prog.get
      let expectedEnd := wrap64 (s1.pos + valuesCount * sc.size)
      writeItems sc (l.flatMap fun v => v.toList)
      let s2 ← Prog.get
      if s2.pos != expectedEnd then return false
      if !(← endWriteLargeBlock startPos) then return false
      return true
    else
      if !(← endWriteLargeBlock startPos) then return false
      return true
  | none =>
    if !(← endWriteLargeBlock startPos) then return false
    return true

/-- The packing loop of `write_array<VT_Array_Bool,bool>` (ISD_EntityWriterTemplates.inl 282-290): element `i` onwards. An index
outside `packed_vec` is undefined behaviour. -/
def packLoop : (i : Nat) → List Bool → Bytes → Prog WStream Bytes
  | _, [], packed => return packed
  | i, b :: bs, packed =>
    if b then
      if packed.length ≤ i >>> 3 then Prog.ub
      else packLoop (i + 1) bs (packed.modify (i >>> 3) (· ||| (1 : UInt8) <<< UInt8.ofNat (i &&& 7)))
    else packLoop (i + 1) bs packed

/-- `write_array<VT_Array_Bool,bool>` (ISD_EntityWriterTemplates.inl 254-315). -/
def writeArrayBool (key : Bytes) (items : Option (List Bool)) (index : Option (List (Word 4))) :
    Prog WStream Bool := do
  let s ← Prog.get
  let startPos := s.pos
  if !(← beginWriteLargeBlock 0x41 key) then return false
  match items with
  | some l =>
    if !(← writeArrayMetadataAndIndex 0 l.length index) then return false
    if l.length > 0 then
      let packedCount := (l.length + 7) / 8
      let packed ← packLoop 0 l (List.replicate packedCount 0)
      let s1 ← Prog.get
      let expectedEnd := wrap64 (s1.pos + packedCount)
      writeBytes packed
      let s2 ← Prog.get
      if s2.pos != expectedEnd then return false
      if !(← endWriteLargeBlock startPos) then return false
      return true
    else
      if !(← endWriteLargeBlock startPos) then return false
      return true
  | none =>
    if !(← endWriteLargeBlock startPos) then return false
    return true

/-- The string loop of `write_array<VT_Array_String,string>` (ISD_EntityWriterTemplates.inl 347-359); returns the sum of the string
lengths added to `values_size`. -/
def writeStrings : List Bytes → Nat → Prog WStream Nat
  | [], size => return size
  | str :: strs, size => do
    writeU64 str.length
    Prog.when (str.length > 0) (writeBytes str)
    writeStrings strs (if str.length > 0 then wrap64 (size + str.length) else size)

/-- `write_array<VT_Array_String,string>` (ISD_EntityWriterTemplates.inl 318-383). -/
def writeArrayString (key : Bytes) (items : Option (List Bytes)) (index : Option (List (Word 4))) :
    Prog WStream Bool := do
  let s ← Prog.get
  let startPos := s.pos
  if !(← beginWriteLargeBlock vtArrayString key) then return false
  match items with
  | some l =>
    if !(← writeArrayMetadataAndIndex 0 l.length index) then return false
    if l.length > 0 then
      let s1 ← Prog.get
      let valuesSize ← writeStrings l (wrap64 (8 * l.length))
      let expectedEnd := wrap64 (s1.pos + valuesSize)
      let s2 ← Prog.get
      if s2.pos != expectedEnd then return false
      if !(← endWriteLargeBlock startPos) then return false
      return true
    else
      if !(← endWriteLargeBlock startPos) then return false
      return true
  | none =>
    if !(← endWriteLargeBlock startPos) then return false
    return true

/-- Template selection of `write_single_value<VT_x,T>` by data type (ISD_EntityWriter.py 183-195). Types stored through another type
(`entity_ref`, `package_ref`) copy into a temporary of that type and take the same path (ISD_EntityWriter.py 108-124). -/
def writeSingle (t : DataType) (key : Bytes) (data : Option t.Val) : Prog WStream Bool :=
  match t, data with
  | ⟨_, _, _, .bool, _⟩, d => writeSingleBool key d
  | ⟨_, vt, _, .items sc n _, _⟩, d => writeSingleItems vt sc n key d
  | ⟨_, _, _, .string, _⟩, d => writeSingleString key d

/-- Template selection of `write_array<VT_Array_x,T>` by data type (ISD_EntityWriter.py 198-227, 127-177). -/
def writeArray (t : DataType) (key : Bytes) (items : Option (List t.Val)) (index : Option (List (Word 4))) :
    Prog WStream Bool :=
  match t, items with
  | ⟨_, _, _, .bool, _⟩, l => writeArrayBool key l index
  | ⟨_, _, avt, .items sc n _, _⟩, l => writeArrayItems avt sc n key l index
  | ⟨_, _, _, .string, _⟩, l => writeArrayString key l index

/-- `EntityWriter::Write<T>` for every data type and container (ISD_EntityWriter.py 100-227). -/
def writeTyped (t : DataType) : (c : Container) → (key : Bytes) → c.Val t.Val → Prog WStream Bool
  | .none, key, v => writeSingle t key (some v)
  | .optionalValue, key, v => writeSingle t key v
  | .vector, key, v => writeArray t key (some v) none
  | .optionalVector, key, v => writeArray t key v none
  | .idxVector, key, v => writeArray t key (some v.values) (some v.index)
  | .optionalIdxVector, key, v =>
    writeArray t key (Option.map IdxVec.values v) (Option.map IdxVec.index v)

/-! ## Sections -/

/-- `~0` converted to `size_t`. -/
def sizeMax : Nat := 2 ^ 64 - 1

/-- `class EntityWriter` (ISD_EntityWriter.py 19-29). `addr` is the address of the object. The stream, shared by all writers, is kept
apart. -/
structure EWriter where
  addr : Nat
  startPosition : Nat
  activeSubsection : Option EWriter
  activeArraySize : Nat
  activeArrayIndex : Nat
  activeArrayIndexStart : Nat

/-- The constructor `EntityWriter( MemoryWriteStream& )` (ISD_EntityWriter.py 96) for an object placed at `addr`. -/
def EWriter.create (addr pos : Nat) : EWriter := ⟨addr, pos, none, 0, sizeMax, 0⟩

/-- `this->active_subsection.get()`: the address, or `none` for the null pointer. -/
def EWriter.subPtr (w : EWriter) : Option Nat := w.activeSubsection.map EWriter.addr

/-- State of the section calls: this writer and the shared stream. -/
abbrev WSt := EWriter × WStream

/-- Run a stream level routine. -/
def onStream {α : Type} (p : Prog WStream α) : Prog WSt α := fun st =>
  match p st.2 with
  | .ok a s => .ok a (st.1, s)
  | .throw s => .throw (st.1, s)
  | .ub => .ub

/-- Run a routine on the writer that `active_subsection` owns (what the caller does through the pointer returned by `Begin…`). -/
def inSubsection {α : Type} (p : Prog WSt α) : Prog WSt α := fun st =>
  match st.1.activeSubsection with
  | none => .ub
  | some w =>
    match p (w, st.2) with
    | .ok a (w', s) => .ok a ({ st.1 with activeSubsection := some w' }, s)
    | .throw (w', s) => .throw ({ st.1 with activeSubsection := some w' }, s)
    | .ub => .ub

/-- `EntityWriter::BeginWriteSection` (ISD_EntityWriterTemplates.inl 386-404). `fresh` is the address `new` returns. The result is the
returned pointer. -/
def beginWriteSection (fresh : Nat) (key : Bytes) : Prog WSt (Option Nat) := do
  let st ← Prog.get
  if st.1.activeSubsection.isSome then return none
  Prog.modify fun st => ({ st.1 with activeSubsection := some (EWriter.create fresh st.2.pos) }, st.2)
  if !(← onStream (beginWriteLargeBlock vtSubsection key)) then return none
  return some fresh

/-- `EntityWriter::EndWriteSection` (ISD_EntityWriterTemplates.inl 406-422). With no open subsection a null argument passes the pointer
test and `active_subsection->start_position` dereferences null. -/
def endWriteSection (ptr : Option Nat) : Prog WSt Bool := do
  let st ← Prog.get
  if st.1.subPtr ≠ ptr then return false
  match st.1.activeSubsection with
  | none => Prog.ub
  | some sub =>
    if !(← onStream (endWriteLargeBlock sub.startPosition)) then return false
    Prog.modify fun st => ({ st.1 with activeSubsection := none }, st.2)
    return true

/-- `EntityWriter::WriteNullSection` (ISD_EntityWriterTemplates.inl 424-432). -/
def writeNullSection (fresh : Nat) (key : Bytes) : Prog WSt Bool := do
  match ← beginWriteSection fresh key with
  | none => return false
  | some p => endWriteSection (some p)

/-- `EntityWriter::BeginWriteSectionsArray` (ISD_EntityWriterTemplates.inl 434-469). -/
def beginWriteSectionsArray (fresh : Nat) (key : Bytes) (arraySize : Nat) (index : Option (List (Word 4))) :
    Prog WSt (Option Nat) := do
  let st ← Prog.get
  if st.1.activeSubsection.isSome then return none
  Prog.modify fun st => ({ st.1 with activeSubsection := some (EWriter.create fresh st.2.pos) }, st.2)
  if !(← onStream (beginWriteLargeBlock vtArraySubsection key)) then return none
  if arraySize = sizeMax then
    Prog.modify fun st => ({ st.1 with activeArraySize := 0 }, st.2)
    return some fresh
  if !(← onStream (writeArrayMetadataAndIndex 0 arraySize index)) then return none
  Prog.modify fun st => ({ st.1 with
    activeArraySize := arraySize, activeArrayIndex := sizeMax, activeArrayIndexStart := 0 }, st.2)
  return some fresh

/-- `EntityWriter::BeginWriteSectionInArray` (ISD_EntityWriterTemplates.inl 471-496). -/
def beginWriteSectionInArray (ptr : Option Nat) (sectionIndex : Nat) : Prog WSt Bool := do
  let st ← Prog.get
  if st.1.subPtr ≠ ptr then return false
  if wrap64 (st.1.activeArrayIndex + 1) ≠ sectionIndex then return false
  if sectionIndex ≥ st.1.activeArraySize then return false
  Prog.modify fun st => ({ st.1 with
    activeArrayIndex := sectionIndex, activeArrayIndexStart := st.2.pos }, st.2)
  onStream (writeU64 maxInt64)
  let st1 ← Prog.get
  return st1.2.pos == wrap64 (st1.1.activeArrayIndexStart + 8)

/-- `EntityWriter::EndWriteSectionInArray` (ISD_EntityWriterTemplates.inl 498-512). -/
def endWriteSectionInArray (ptr : Option Nat) (sectionIndex : Nat) : Prog WSt Bool := do
  let st ← Prog.get
  if st.1.subPtr ≠ ptr ∨ st.1.activeArrayIndex ≠ sectionIndex then return false
  let endPos := st.2.pos
  let start := st.1.activeArrayIndexStart
  let blockSize := sub64 (sub64 endPos start) 8
  onStream (setPosition start)
  onStream (writeU64 blockSize)
  onStream (setPosition endPos)
  return decide (endPos > start)

/-- `EntityWriter::EndWriteSectionsArray` (ISD_EntityWriterTemplates.inl 514-539). -/
def endWriteSectionsArray (ptr : Option Nat) : Prog WSt Bool := do
  let st ← Prog.get
  if st.1.subPtr ≠ ptr then return false
  if wrap64 (st.1.activeArrayIndex + 1) ≠ st.1.activeArraySize then return false
  match st.1.activeSubsection with
  | none => Prog.ub
  | some sub =>
    if !(← onStream (endWriteLargeBlock sub.startPosition)) then return false
    Prog.modify fun st => ({ st.1 with
      activeSubsection := none, activeArraySize := 0, activeArrayIndex := sizeMax, activeArrayIndexStart := 0 }, st.2)
    return true

/-- `EntityWriter::WriteNullSectionsArray` (ISD_EntityWriterTemplates.inl 541-549). -/
def writeNullSectionsArray (fresh : Nat) (key : Bytes) : Prog WSt Bool := do
  match ← beginWriteSectionsArray fresh key sizeMax none with
  | none => return false
  | some p => endWriteSectionsArray (some p)

/-- `EntityWriter::Write<T>` on a writer object. -/
def EWriter.write (t : DataType) (c : Container) (key : Bytes) (v : c.Val t.Val) : Prog WSt Bool :=
  onStream (writeTyped t c key v)

end ISD
