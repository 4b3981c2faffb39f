import Verif.Model.Reader

/-!
# The debug build

With `_DEBUG` defined, `ISDSanityCheckDebugMacro` and `ISDSanityCheckCoreDebugMacro` throw a `std::exception` when their condition does not
hold (ISD_Types.h 24-26). Below are the routines of ISD_EntityWriterTemplates.inl and ISD_EntityReaderTemplates.inl that contain such a
check, or call a routine that does, with the checks in place. The checks of pointers to local objects (ISD_EntityReaderTemplates.inl 190,
361, 424, 487) always hold and are left out. The other routines are the same in both builds (Model/Writer.lean, Model/Reader.lean).
-/

namespace ISD

/-- `ISDSanityCheckDebugMacro( c )`, `ISDSanityCheckCoreDebugMacro( c )` in a debug build (ISD_Types.h 25-26). -/
def sanityCheck {σ : Type} (c : Prop) [Decidable c] : Prog σ Unit := if c then pure () else Prog.throw

namespace Debug

/-! ## Writer -/

section writer
open WStream

/-- `begin_write_large_block` (ISD_EntityWriterTemplates.inl 14-34); checks in lines 18, 32. -/
def beginWriteLargeBlock (vt : Nat) (key : Bytes) : Prog WStream Bool := do
  let s ← Prog.get
  sanityCheck (key.length ≤ 40)
  let expectedEnd := wrap64 (s.pos + key.length + 10)
  writeU8 vt
  writeU64 maxInt64
  writeU8 key.length
  writeBytes key
  let s1 ← Prog.get
  sanityCheck (s1.pos = expectedEnd)
  return s1.pos == expectedEnd

/-- `write_single_value<VT,T>` (ISD_EntityWriterTemplates.inl 50-78); checks in lines 59, 60, 76. -/
def writeSingleItems (vt : Nat) (sc : Sc) (n : Nat) (key : Bytes) (data : Option (Vector sc.Val n)) : Prog WStream Bool := do
  let dataSize := if data.isSome then sc.size * n else 0
  let blockSize := dataSize + key.length
  sanityCheck (key.length ≤ 40)
  sanityCheck (blockSize < 256)
  let s ← Prog.get
  let expectedEnd := wrap64 (s.pos + 2 + blockSize)
  writeU8 vt
  writeU8 (blockSize % 256)
  Prog.when (dataSize > 0) (writeItems sc (data.elim [] Vector.toList))
  writeBytes key
  let s1 ← Prog.get
  sanityCheck (s1.pos = expectedEnd)
  return s1.pos == expectedEnd

/-- `write_single_value<VT_Bool,bool>` (ISD_EntityWriterTemplates.inl 81-87). -/
def writeSingleBool (key : Bytes) (data : Option Bool) : Prog WStream Bool :=
  writeSingleItems 0x01 .w1 1 key (data.map fun b => (#v[if b then 1#8 else 0#8] : Vector (Word 1) 1))

/-- `write_single_value<VT_String,string>` (ISD_EntityWriterTemplates.inl 90-147). -/
def writeSingleString (key : Bytes) (data : Option Bytes) : Prog WStream Bool := do
  let s ← Prog.get
  let startPos := s.pos
  if !(← beginWriteLargeBlock vtString key) then return false
  let s1 ← Prog.get
  let dataStart := s1.pos
  match data with
  | none =>
    if !(← endWriteLargeBlock startPos) then return false
    return true
  | some str =>
    let count := str.length
    writeU64 count
    Prog.when (count > 0) (writeBytes str)
    let expectedEnd := wrap64 (dataStart + wrap64 (count + 8))
    if !(← endWriteLargeBlock startPos) then return false
    let s2 ← Prog.get
    if s2.pos != expectedEnd then return false
    return true

/-- `write_array_metadata_and_index` (ISD_EntityWriterTemplates.inl 150-192); check in line 153. -/
def writeArrayMetadataAndIndex (perItemSize itemCount : Nat) (index : Option (List (Word 4))) : Prog WStream Bool := do
  sanityCheck (perItemSize ≤ 0xff)
  ISD.writeArrayMetadataAndIndex perItemSize itemCount index

/-- `write_array<VT,T>` (ISD_EntityWriterTemplates.inl 197-251). -/
def writeArrayItems (vt : Nat) (sc : Sc) (n : Nat) (key : Bytes) (items : Option (List (Vector sc.Val n)))
    (index : Option (List (Word 4))) : Prog WStream Bool := do
  let s ← Prog.get
  let startPos := s.pos
  if !(← beginWriteLargeBlock vt key) then return false
  match items with
  | some l =>
    let valuesCount := wrap64 (l.length * n)
    if !(← writeArrayMetadataAndIndex sc.size valuesCount index) then return false
    if valuesCount > 0 then
      let s1 ← Prog.get
      let expectedEnd := wrap64 (s1.pos + valuesCount * sc.size)
      writeItems sc (l.flatMap fun v => v.toList)
      let s2 ← Prog.get
      if s2.pos != expectedEnd then return false
      if !(← endWriteLargeBlock startPos) then return false
      return true
    else
      if !(← endWriteLargeBlock startPos) then return false
      return true
  | none =>
    if !(← endWriteLargeBlock startPos) then return false
    return true

/-- `write_array<VT_Array_Bool,bool>` (ISD_EntityWriterTemplates.inl 254-315). -/
def writeArrayBool (key : Bytes) (items : Option (List Bool)) (index : Option (List (Word 4))) : Prog WStream Bool := do
  let s ← Prog.get
  let startPos := s.pos
  if !(← beginWriteLargeBlock 0x41 key) then return false
  match items with
  | some l =>
    if !(← writeArrayMetadataAndIndex 0 l.length index) then return false
    if l.length > 0 then
      let packedCount := (l.length + 7) / 8
      let packed ← packLoop 0 l (List.replicate packedCount 0)
      let s1 ← Prog.get
      let expectedEnd := wrap64 (s1.pos + packedCount)
      writeBytes packed
      let s2 ← Prog.get
      if s2.pos != expectedEnd then return false
      if !(← endWriteLargeBlock startPos) then return false
      return true
    else
      if !(← endWriteLargeBlock startPos) then return false
      return true
  | none =>
    if !(← endWriteLargeBlock startPos) then return false
    return true

/-- `write_array<VT_Array_String,string>` (ISD_EntityWriterTemplates.inl 318-383). -/
def writeArrayString (key : Bytes) (items : Option (List Bytes)) (index : Option (List (Word 4))) : Prog WStream Bool := do
  let s ← Prog.get
  let startPos := s.pos
  if !(← beginWriteLargeBlock vtArrayString key) then return false
  match items with
  | some l =>
    if !(← writeArrayMetadataAndIndex 0 l.length index) then return false
    if l.length > 0 then
      let s1 ← Prog.get
      let valuesSize ← writeStrings l (wrap64 (8 * l.length))
      let expectedEnd := wrap64 (s1.pos + valuesSize)
      let s2 ← Prog.get
      if s2.pos != expectedEnd then return false
      if !(← endWriteLargeBlock startPos) then return false
      return true
    else
      if !(← endWriteLargeBlock startPos) then return false
      return true
  | none =>
    if !(← endWriteLargeBlock startPos) then return false
    return true

/-- Template selection by data type (ISD_EntityWriter.py 183-195, 108-124). -/
def writeSingle (t : DataType) (key : Bytes) (data : Option t.Val) : Prog WStream Bool :=
  match t, data with
  | ⟨_, _, _, .bool, _⟩, d => writeSingleBool key d
  | ⟨_, vt, _, .items sc n _, _⟩, d => writeSingleItems vt sc n key d
  | ⟨_, _, _, .string, _⟩, d => writeSingleString key d

/-- Template selection by data type (ISD_EntityWriter.py 198-227, 127-177). -/
def writeArray (t : DataType) (key : Bytes) (items : Option (List t.Val)) (index : Option (List (Word 4))) : Prog WStream Bool :=
  match t, items with
  | ⟨_, _, _, .bool, _⟩, l => writeArrayBool key l index
  | ⟨_, _, avt, .items sc n _, _⟩, l => writeArrayItems avt sc n key l index
  | ⟨_, _, _, .string, _⟩, l => writeArrayString key l index

/-- `EntityWriter::Write<T>` (ISD_EntityWriter.py 100-227). -/
def writeTyped (t : DataType) : (c : Container) → (key : Bytes) → c.Val t.Val → Prog WStream Bool
  | .none, key, v => writeSingle t key (some v)
  | .optionalValue, key, v => writeSingle t key v
  | .vector, key, v => writeArray t key (some v) none
  | .optionalVector, key, v => writeArray t key v none
  | .idxVector, key, v => writeArray t key (some v.values) (some v.index)
  | .optionalIdxVector, key, v => writeArray t key (Option.map IdxVec.values v) (Option.map IdxVec.index v)

/-- `EntityWriter::BeginWriteSection` (ISD_EntityWriterTemplates.inl 386-404). -/
def beginWriteSection (fresh : Nat) (key : Bytes) : Prog WSt (Option Nat) := do
  let st ← Prog.get
  if st.1.activeSubsection.isSome then return none
  Prog.modify fun st => ({ st.1 with activeSubsection := some (EWriter.create fresh st.2.pos) }, st.2)
  if !(← onStream (beginWriteLargeBlock vtSubsection key)) then return none
  return some fresh

/-- `EntityWriter::WriteNullSection` (ISD_EntityWriterTemplates.inl 424-432). -/
def writeNullSection (fresh : Nat) (key : Bytes) : Prog WSt Bool := do
  match ← beginWriteSection fresh key with
  | none => return false
  | some p => endWriteSection (some p)

/-- `EntityWriter::BeginWriteSectionsArray` (ISD_EntityWriterTemplates.inl 434-469). -/
def beginWriteSectionsArray (fresh : Nat) (key : Bytes) (arraySize : Nat) (index : Option (List (Word 4))) : Prog WSt (Option Nat) := do
  let st ← Prog.get
  if st.1.activeSubsection.isSome then return none
  Prog.modify fun st => ({ st.1 with activeSubsection := some (EWriter.create fresh st.2.pos) }, st.2)
  if !(← onStream (beginWriteLargeBlock vtArraySubsection key)) then return none
  if arraySize = sizeMax then
    Prog.modify fun st => ({ st.1 with activeArraySize := 0 }, st.2)
    return some fresh
  if !(← onStream (writeArrayMetadataAndIndex 0 arraySize index)) then return none
  Prog.modify fun st => ({ st.1 with
    activeArraySize := arraySize, activeArrayIndex := sizeMax, activeArrayIndexStart := 0 }, st.2)
  return some fresh

end writer

/-! ## Reader -/

section reader
open RStream

/-- `begin_read_large_block` (ISD_EntityReaderTemplates.inl 26-72); check in line 29. -/
def beginReadLargeBlock (env : REnv) (vt : Nat) (key : Bytes) : Prog RStream Nat := do
  sanityCheck (key.length ≤ 40)
  ISD.beginReadLargeBlock env vt key

/-- `read_single_item<VT,T>` (ISD_EntityReaderTemplates.inl 83-170); checks in lines 107, 108, 159. -/
def readSingleItems (env : REnv) (vt : Nat) (sc : Sc) (n : Nat) (key : Bytes) (emptyAllowed : Bool) :
    Prog RStream (RStatus (List sc.Val)) := do
  let s ← Prog.get
  let startPos := s.pos
  let valueType ← readU8
  if valueType ≠ vt then return .fail
  let expectedIfEmpty := key.length
  let expected := sc.size * n + expectedIfEmpty
  sanityCheck (key.length ≤ 40)
  sanityCheck (expected < 256)
  let blockSize ← readU8
  if blockSize ≠ expected then
    if !emptyAllowed then return .fail
    if blockSize ≠ expectedIfEmpty then return .fail
    let (cnt, buf) ← readKey env key.length
    if cnt ≠ key.length ∨ key ≠ buf.take key.length then return .fail
    let s1 ← Prog.get
    sanityCheck (s1.pos = wrap64 (startPos + 2 + expectedIfEmpty))
    if s1.pos ≠ wrap64 (startPos + 2 + expectedIfEmpty) then return .fail
    return .successEmpty
  else
    let (readCount, vals) ← readItems sc n (List.replicate n sc.zero)
    if readCount ≠ n then return .fail
    let (cnt, buf) ← readKey env key.length
    if cnt ≠ key.length ∨ key ≠ buf.take key.length then return .fail
    let s1 ← Prog.get
    sanityCheck (s1.pos = wrap64 (startPos + 2 + expected))
    if s1.pos ≠ wrap64 (startPos + 2 + expected) then return .fail
    return .success vals

/-- `read_single_item<VT_Bool,bool>` (ISD_EntityReaderTemplates.inl 173-182). -/
def readSingleBool (env : REnv) (key : Bytes) (emptyAllowed : Bool) : Prog RStream (RStatus Bool) := do
  match ← readSingleItems env 0x01 .w1 1 key emptyAllowed with
  | .fail => return .fail
  | .successEmpty => return .successEmpty
  | .success vals => return .success ((vals.headD (0#8 : Word 1) : Word 1) != 0#8)

/-- `read_single_item<VT_String,string>` (ISD_EntityReaderTemplates.inl 186-258). -/
def readSingleString (env : REnv) (key : Bytes) (emptyAllowed : Bool) : Prog RStream (RStatus Bytes) := do
  let expectedEnd ← beginReadLargeBlock env vtString key
  if expectedEnd = 0 then return .fail
  let s ← Prog.get
  if s.pos = expectedEnd then
    if emptyAllowed then
      if !(← endReadLargeBlock expectedEnd) then return .fail
      return .successEmpty
    else return .fail
  else
    let stringSize ← readU64
    let s1 ← Prog.get
    if stringSize > sub64 expectedEnd s1.pos then return .fail
    resizeTo env stringSize 1
    let bs ← readRaw stringSize stringSize
    if stringSize > 0 ∧ bs.length ≠ stringSize then return .fail
    if !(← endReadLargeBlock expectedEnd) then return .fail
    return .success bs

/-- `read_array_metadata_and_index` (ISD_EntityReaderTemplates.inl 284-353); check in line 317. -/
def readArrayMetadataAndIndex (env : REnv) (blockEnd : Nat) (wantIndex : Bool) :
    Prog RStream (Option (Nat × Nat × List (Word 4))) := do
  let s ← Prog.get
  let expectedEnd := s.pos + 2 + 8
  let flags ← readU16
  let perItem := flags &&& 0xff
  if flags &&& 0x200 ≠ 0 then return none
  let itemCount ← readU64
  if flags &&& 0x100 ≠ 0 then
    if !wantIndex then return none
    let s0 ← Prog.get
    sanityCheck (blockEnd ≥ s0.pos)
    let indexCount ← readU64
    let s1 ← Prog.get
    if indexCount > sub64 blockEnd s1.pos / 4 then return none
    resizeTo env indexCount 4
    let (_, idx) ← readItems .w4 indexCount (List.replicate indexCount (Sc.zero .w4))
    let s2 ← Prog.get
    if wrap64 (expectedEnd + 8 + indexCount * 4) ≠ s2.pos then return none
    return some (perItem, itemCount, idx)
  else
    if wantIndex then return none
    let s2 ← Prog.get
    if wrap64 expectedEnd ≠ s2.pos then return none
    return some (perItem, itemCount, [])

/-- `read_array<VT,T>` (ISD_EntityReaderTemplates.inl 355-419). -/
def readArrayItems (env : REnv) (vt : Nat) (sc : Sc) (n : Nat) (key : Bytes) (emptyAllowed wantIndex : Bool) :
    Prog RStream (RStatus (List (Vector sc.Val n) × List (Word 4))) := do
  let blockEnd ← beginReadLargeBlock env vt key
  if blockEnd = 0 then return .fail
  let s ← Prog.get
  if blockEnd = s.pos then endReadEmptyLargeBlock emptyAllowed blockEnd
  else
    match ← readArrayMetadataAndIndex env blockEnd wantIndex with
    | none => return .fail
    | some (perItem, itemCount, idx) =>
      if sc.size ≠ perItem then return .fail
      let s1 ← Prog.get
      if itemCount > sub64 blockEnd s1.pos / sc.size then return .fail
      let typeCount := itemCount / n
      resizeTo env typeCount (sc.size * n)
      let (readCount, vals) ← readItems sc itemCount (List.replicate (typeCount * n) sc.zero)
      if readCount ≠ itemCount then return .fail
      if !(← endReadLargeBlock blockEnd) then return .fail
      return .success (groupVals n sc.zero typeCount vals, idx)

/-- `read_array<VT_Array_Bool,bool>` (ISD_EntityReaderTemplates.inl 422-481). -/
def readArrayBool (env : REnv) (key : Bytes) (emptyAllowed wantIndex : Bool) :
    Prog RStream (RStatus (List Bool × List (Word 4))) := do
  let blockEnd ← beginReadLargeBlock env 0x41 key
  if blockEnd = 0 then return .fail
  let s ← Prog.get
  if blockEnd = s.pos then endReadEmptyLargeBlock emptyAllowed blockEnd
  else
    match ← readArrayMetadataAndIndex env blockEnd wantIndex with
    | none => return .fail
    | some (_, boolCount, idx) =>
      let packedCount := wrap64 (boolCount + 7) / 8
      let s1 ← Prog.get
      if packedCount > sub64 blockEnd s1.pos then return .fail
      resizeBool env boolCount
      resizeTo env packedCount 1
      let bs ← readRaw packedCount packedCount
      let packed := bs ++ List.replicate (packedCount - bs.length) 0
      let vals ← unpackLoop packed 0 boolCount
      if !(← endReadLargeBlock blockEnd) then return .fail
      return .success (vals, idx)

/-- `read_array<VT_Array_String,string>` (ISD_EntityReaderTemplates.inl 483-558). -/
def readArrayString (env : REnv) (key : Bytes) (emptyAllowed wantIndex : Bool) :
    Prog RStream (RStatus (List Bytes × List (Word 4))) := do
  let blockEnd ← beginReadLargeBlock env vtArrayString key
  if blockEnd = 0 then return .fail
  let s ← Prog.get
  if blockEnd = s.pos then endReadEmptyLargeBlock emptyAllowed blockEnd
  else
    match ← readArrayMetadataAndIndex env blockEnd wantIndex with
    | none => return .fail
    | some (_, stringCount, idx) =>
      let s1 ← Prog.get
      if stringCount > sub64 blockEnd s1.pos / 8 then return .fail
      resizeTo env stringCount 32
      match ← readStrings env blockEnd stringCount with
      | none => return .fail
      | some strs =>
        if !(← endReadLargeBlock blockEnd) then return .fail
        return .success (strs, idx)

/-- Template selection by data type (ISD_EntityReader.py 236-252). -/
def readSingle (env : REnv) (t : DataType) (key : Bytes) (emptyAllowed : Bool) : Prog RStream (RStatus t.Val) :=
  match t with
  | ⟨_, _, _, .bool, _⟩ => readSingleBool env key emptyAllowed
  | ⟨_, vt, _, .items sc n _, _⟩ => do
    match ← readSingleItems env vt sc n key emptyAllowed with
    | .fail => return .fail
    | .successEmpty => return .successEmpty
    | .success vals => return .success (Vector.ofFn fun i => vals.getD i.val sc.zero)
  | ⟨_, _, _, .string, _⟩ => readSingleString env key emptyAllowed

/-- Template selection by data type (ISD_EntityReader.py 255-291). -/
def readArray (env : REnv) (t : DataType) (key : Bytes) (emptyAllowed wantIndex : Bool) :
    Prog RStream (RStatus (List t.Val × List (Word 4))) :=
  match t with
  | ⟨_, _, _, .bool, _⟩ => readArrayBool env key emptyAllowed wantIndex
  | ⟨_, _, avt, .items sc n _, _⟩ => readArrayItems env avt sc n key emptyAllowed wantIndex
  | ⟨_, _, _, .string, _⟩ => readArrayString env key emptyAllowed wantIndex

/-- `EntityReader::Read<T>( key, dest )` (ISD_EntityReader.py 108-291). -/
def readTyped (env : REnv) (t : DataType) :
    (c : Container) → (key : Bytes) → (dest : c.Val t.Val) → Prog RStream (Option (c.Val t.Val))
  | .none, key, _ => do
    match ← readSingle env t key false with
    | .success v => return some v
    | _ => return none
  | .optionalValue, key, _ => do
    match ← readSingle env t key true with
    | .success v => return some (some v)
    | .successEmpty => return some none
    | .fail => return none
  | .vector, key, dest => do
    match ← readArray env t key false false with
    | .success (l, _) => return some (if t.overrides then List.append dest l else l)
    | _ => return none
  | .optionalVector, key, _ => do
    match ← readArray env t key true false with
    | .success (l, _) => return some (some l)
    | .successEmpty => return some none
    | .fail => return none
  | .idxVector, key, dest => do
    match ← readArray env t key false true with
    | .success (l, idx) => return some (if t.overrides then ⟨dest.values ++ l, idx⟩ else ⟨l, idx⟩)
    | _ => return none
  | .optionalIdxVector, key, _ => do
    match ← readArray env t key true true with
    | .success (l, idx) => return some (some ⟨l, idx⟩)
    | .successEmpty => return some none
    | .fail => return none

/-- `EntityReader::BeginReadSection` (ISD_EntityReaderTemplates.inl 563-590). -/
def beginReadSection (env : REnv) (fresh : Nat) (key : Bytes) (nullAllowed : Bool) : Prog RSt (Option Nat × Bool) := do
  let st ← Prog.get
  if st.1.activeSubsection.isSome then return (none, false)
  let e ← onRStream (beginReadLargeBlock env vtSubsection key)
  if e = 0 then return (none, false)
  let st1 ← Prog.get
  if e = st1.2.pos then
    match ← onRStream (endReadEmptyLargeBlock (α := Unit) nullAllowed e) with
    | .fail => return (none, false)
    | _ => return (none, true)
  else
    Prog.modify fun st => ({ st.1 with activeSubsection := some (EReader.create fresh e) }, st.2)
    return (some fresh, true)

/-- `read_array_metadata_and_index` with the member `active_subsection_array_size` as `out_item_count` (ISD_EntityReaderTemplates.inl 639). -/
def readSectionsMetadata (env : REnv) (blockEnd : Nat) (wantIndex : Bool) : Prog RSt (Option (Nat × Nat × List (Word 4))) := fun st =>
  let rd := { st.1 with activeArraySize := (metadataCount st.2).getD st.1.activeArraySize }
  match readArrayMetadataAndIndex env blockEnd wantIndex st.2 with
  | .ok x s => .ok x (rd, s)
  | .throw s => .throw (rd, s)
  | .ub => .ub

/-- `EntityReader::BeginReadSectionsArray` (ISD_EntityReaderTemplates.inl 614-649). -/
def beginReadSectionsArray (env : REnv) (fresh : Nat) (key : Bytes) (nullAllowed wantIndex : Bool) :
    Prog RSt (Option Nat × Nat × Bool × List (Word 4)) := do
  let st ← Prog.get
  if st.1.activeSubsection.isSome then return (none, 0, false, [])
  let e ← onRStream (beginReadLargeBlock env vtArraySubsection key)
  if e = 0 then return (none, 0, false, [])
  let st1 ← Prog.get
  if e = st1.2.pos then
    match ← onRStream (endReadEmptyLargeBlock (α := Unit) nullAllowed e) with
    | .fail => return (none, 0, false, [])
    | _ => return (none, 0, true, [])
  else
    match ← readSectionsMetadata env e wantIndex with
    | none => return (none, 0, false, [])
    | some (_, _, idx) =>
      Prog.modify fun st => ({ st.1 with activeIndex := sizeMax, activeSubsection := some (EReader.create fresh e) }, st.2)
      let st2 ← Prog.get
      return (some fresh, st2.1.activeArraySize, true, idx)

end reader

end Debug

end ISD
