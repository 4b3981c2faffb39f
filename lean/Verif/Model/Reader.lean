import Verif.Model.Writer

/-!
# `EntityReader` (ISD_EntityReaderTemplates.inl, ISD_EntityReader.py)

Release build. The contents of a destination after a *failed* read are not modelled; on success every element of the destination has
been overwritten, so the previous contents of resized vectors do not appear either (they do for the types of
ISD_EntityReader.py 147-160, 188-204, which append).
-/

namespace ISD

open RStream

/-- What the reader takes from its surroundings: which allocations succeed (by size in bytes), and the previous contents of the
uninitialised local `read_key` (ISD_EntityReaderTemplates.inl 61, 145). (The uninitialised `u8val` of line 175 is copied only into an
optional that is reset right after, so it is never observable.) -/
structure REnv where
  allocOk : Nat → Bool
  junkKey : Vector Byte 40

/-- `reader_status` (ISD_EntityReaderTemplates.inl 16-21) with the value read. -/
inductive RStatus (α : Type) where
  | fail
  | successEmpty
  | success (a : α)
  deriving DecidableEq, Repr

/-- `std::vector<T>::resize( n )` / `std::string::resize( n )` with `elem` bytes per element: throws above `max_size()` or when the
allocation fails. -/
def resizeTo (env : REnv) (n elem : Nat) : Prog RStream Unit :=
  if n * elem ≥ 2 ^ 63 ∨ env.allocOk (n * elem) = false then Prog.throw else pure ()

/-- `std::vector<bool>::resize( n )`: `max_size()` is `2^63-1`, one bit per element. -/
def resizeBool (env : REnv) (n : Nat) : Prog RStream Unit :=
  if n ≥ 2 ^ 63 ∨ env.allocOk ((n + 31) / 32 * 4) = false then Prog.throw else pure ()

/-- Read into the local `char read_key[EntityMaxKeyLength]`: the bytes read and the buffer after it
(ISD_EntityReaderTemplates.inl 61-62, 145-146). -/
def readKey (env : REnv) (len : Nat) : Prog RStream (Nat × Bytes) := do
  let bs ← readRaw len 40
  return (bs.length, bs ++ env.junkKey.toList.drop bs.length)

/-- `begin_read_large_block` (ISD_EntityReaderTemplates.inl 26-72); 0 is failure. The number of key bytes read is not checked. -/
def beginReadLargeBlock (env : REnv) (vt : Nat) (key : Bytes) : Prog RStream Nat := do
  let valueType ← readU8
  if valueType ≠ vt then return 0
  let blockSize ← readU64
  let s ← Prog.get
  let expectedEnd := wrap64 (s.pos + blockSize)
  if expectedEnd > s.size then return 0
  let keyLen ← readU8
  if keyLen ≠ key.length then return 0
  let (_, readKeyBuf) ← readKey env key.length
  if key ≠ readKeyBuf.take key.length then return 0
  return expectedEnd

/-- `end_read_large_block` (ISD_EntityReaderTemplates.inl 75-79). -/
def endReadLargeBlock (expectedEnd : Nat) : Prog RStream Bool := do
  let s ← Prog.get
  return s.pos == expectedEnd

/-- `read_single_item<VT,T>` (ISD_EntityReaderTemplates.inl 83-170) for a type of `n` scalars. -/
def readSingleItems (env : REnv) (vt : Nat) (sc : Sc) (n : Nat) (key : Bytes) (emptyAllowed : Bool) :
    Prog RStream (RStatus (List sc.Val)) := do
  let s ← Prog.get
  let startPos := s.pos
  let valueType ← readU8
  if valueType ≠ vt then return .fail
  let expectedIfEmpty := key.length
  let expected := sc.size * n + expectedIfEmpty
  let blockSize ← readU8
  if blockSize ≠ expected then
    -- empty value
    if !emptyAllowed then return .fail
    if blockSize ≠ expectedIfEmpty then return .fail
    let (cnt, buf) ← readKey env key.length
    if cnt ≠ key.length ∨ key ≠ buf.take key.length then return .fail
    let s1 ← Prog.get
    if s1.pos ≠ wrap64 (startPos + 2 + expectedIfEmpty) then return .fail
    return .successEmpty
  else
    let (readCount, vals) ← readItems sc n (List.replicate n sc.zero)
    if readCount ≠ n then return .fail
    let (cnt, buf) ← readKey env key.length
    if cnt ≠ key.length ∨ key ≠ buf.take key.length then return .fail
    let s1 ← Prog.get
    if s1.pos ≠ wrap64 (startPos + 2 + expected) then return .fail
    return .success vals

/-- `read_single_item<VT_Bool,bool>` (ISD_EntityReaderTemplates.inl 173-182). -/
def readSingleBool (env : REnv) (key : Bytes) (emptyAllowed : Bool) : Prog RStream (RStatus Bool) := do
  match ← readSingleItems env 0x01 .w1 1 key emptyAllowed with
  | .fail => return .fail
  | .successEmpty => return .successEmpty
  | .success vals => return .success ((vals.headD (0#8 : Word 1) : Word 1) != 0#8)

/-- `read_single_item<VT_String,string>` (ISD_EntityReaderTemplates.inl 186-258). The read of an empty string is skipped in C++ (239);
the model reads 0 bytes, which has no effect. -/
def readSingleString (env : REnv) (key : Bytes) (emptyAllowed : Bool) : Prog RStream (RStatus Bytes) := do
  let expectedEnd ← beginReadLargeBlock env vtString key
  if expectedEnd = 0 then return .fail
  let s ← Prog.get
  if s.pos = expectedEnd then
    if emptyAllowed then
      if !(← endReadLargeBlock expectedEnd) then return .fail
      return .successEmpty
    else return .fail
  else
    let stringSize ← readU64
    let s1 ← Prog.get
    if stringSize > sub64 expectedEnd s1.pos then return .fail
    resizeTo env stringSize 1
    let bs ← readRaw stringSize stringSize
    if stringSize > 0 ∧ bs.length ≠ stringSize then return .fail
    if !(← endReadLargeBlock expectedEnd) then return .fail
    return .success bs

/-- `end_read_empty_large_block` (ISD_EntityReaderTemplates.inl 260-281). -/
def endReadEmptyLargeBlock {α : Type} (emptyAllowed : Bool) (expectedEnd : Nat) : Prog RStream (RStatus α) := do
  if emptyAllowed then
    if !(← endReadLargeBlock expectedEnd) then return .fail
    return .successEmpty
  else return .fail

/-- `read_array_metadata_and_index` (ISD_EntityReaderTemplates.inl 284-353). `wantIndex` tells whether `dest_index` is non-null. The
result is `none` for `false`, else (per item size, item count, index). -/
def readArrayMetadataAndIndex (env : REnv) (blockEnd : Nat) (wantIndex : Bool) :
    Prog RStream (Option (Nat × Nat × List (Word 4))) := do
  let s ← Prog.get
  let expectedEnd := s.pos + 2 + 8
  let flags ← readU16
  let perItem := flags &&& 0xff
  if flags &&& 0x200 ≠ 0 then return none
  let itemCount ← readU64
  if flags &&& 0x100 ≠ 0 then
    if !wantIndex then return none
    let indexCount ← readU64
    let s1 ← Prog.get
    if indexCount > sub64 blockEnd s1.pos / 4 then return none
    resizeTo env indexCount 4
    let (_, idx) ← readItems .w4 indexCount (List.replicate indexCount (Sc.zero .w4))
    let s2 ← Prog.get
    if wrap64 (expectedEnd + 8 + indexCount * 4) ≠ s2.pos then return none
    return some (perItem, itemCount, idx)
  else
    if wantIndex then return none
    let s2 ← Prog.get
    if wrap64 expectedEnd ≠ s2.pos then return none
    return some (perItem, itemCount, [])

/-- View a flat scalar array as objects of `n` scalars. -/
def groupVals {α : Type} (n : Nat) (z : α) : Nat → List α → List (Vector α n)
  | 0, _ => []
  | m + 1, l => Vector.ofFn (fun i => l.getD i.val z) :: groupVals n z m (l.drop n)

/-- `read_array<VT,T>` (ISD_EntityReaderTemplates.inl 355-419) for a type of `n` scalars. The destination holds
`item_count / n` objects, that is `(item_count / n) * n` scalars, but `item_count` scalars are read into it.
(Taking `value_ptr( *p_data )` of an empty vector is not counted as undefined behaviour: no access happens.) -/
def readArrayItems (env : REnv) (vt : Nat) (sc : Sc) (n : Nat) (key : Bytes) (emptyAllowed wantIndex : Bool) :
    Prog RStream (RStatus (List (Vector sc.Val n) × List (Word 4))) := do
  let blockEnd ← beginReadLargeBlock env vt key
  if blockEnd = 0 then return .fail
  let s ← Prog.get
  if blockEnd = s.pos then endReadEmptyLargeBlock emptyAllowed blockEnd
  else
    match ← readArrayMetadataAndIndex env blockEnd wantIndex with
    | none => return .fail
    | some (perItem, itemCount, idx) =>
      if sc.size ≠ perItem then return .fail
      let s1 ← Prog.get
      if itemCount > sub64 blockEnd s1.pos / sc.size then return .fail
      let typeCount := itemCount / n
      resizeTo env typeCount (sc.size * n)
      let (readCount, vals) ← readItems sc itemCount (List.replicate (typeCount * n) sc.zero)
      if readCount ≠ itemCount then return .fail
      if !(← endReadLargeBlock blockEnd) then return .fail
      return .success (groupVals n sc.zero typeCount vals, idx)

/-- The unpacking loop of `read_array<VT_Array_Bool,bool>` (ISD_EntityReaderTemplates.inl 466-471): `count` elements from element `i`. -/
def unpackLoop (packed : Bytes) : (i count : Nat) → Prog RStream (List Bool)
  | _, 0 => return []
  | i, count + 1 =>
    if packed.length ≤ i >>> 3 then Prog.ub
    else do
      let b := (packed.getD (i >>> 3) 0 &&& (1 : UInt8) <<< UInt8.ofNat (i &&& 7)) != 0
      let rest ← unpackLoop packed (i + 1) count
      return b :: rest

/-- `read_array<VT_Array_Bool,bool>` (ISD_EntityReaderTemplates.inl 422-481). -/
def readArrayBool (env : REnv) (key : Bytes) (emptyAllowed wantIndex : Bool) :
    Prog RStream (RStatus (List Bool × List (Word 4))) := do
  let blockEnd ← beginReadLargeBlock env 0x41 key
  if blockEnd = 0 then return .fail
  let s ← Prog.get
  if blockEnd = s.pos then endReadEmptyLargeBlock emptyAllowed blockEnd
  else
    match ← readArrayMetadataAndIndex env blockEnd wantIndex with
    | none => return .fail
    | some (_, boolCount, idx) =>
      let packedCount := wrap64 (boolCount + 7) / 8
      let s1 ← Prog.get
      if packedCount > sub64 blockEnd s1.pos then return .fail
      resizeBool env boolCount
      resizeTo env packedCount 1
      let bs ← readRaw packedCount packedCount
      let packed := bs ++ List.replicate (packedCount - bs.length) 0
      let vals ← unpackLoop packed 0 boolCount
      if !(← endReadLargeBlock blockEnd) then return .fail
      return .success (vals, idx)

/-- The string loop of `read_array<VT_Array_String,string>` (ISD_EntityReaderTemplates.inl 522-548); `none` is failure. -/
def readStrings (env : REnv) (blockEnd : Nat) : Nat → Prog RStream (Option (List Bytes))
  | 0 => return some []
  | count + 1 => do
    let stringSize ← readU64
    let s ← Prog.get
    if stringSize > sub64 blockEnd s.pos then return none
    resizeTo env stringSize 1
    let bs ← readRaw stringSize stringSize
    if stringSize > 0 ∧ bs.length ≠ stringSize then return none
    match ← readStrings env blockEnd count with
    | none => return none
    | some rest => return some (bs :: rest)

/-- `read_array<VT_Array_String,string>` (ISD_EntityReaderTemplates.inl 483-558). `sizeof(std::string)` is 32 (MSVC x64). -/
def readArrayString (env : REnv) (key : Bytes) (emptyAllowed wantIndex : Bool) :
    Prog RStream (RStatus (List Bytes × List (Word 4))) := do
  let blockEnd ← beginReadLargeBlock env vtArrayString key
  if blockEnd = 0 then return .fail
  let s ← Prog.get
  if blockEnd = s.pos then endReadEmptyLargeBlock emptyAllowed blockEnd
  else
    match ← readArrayMetadataAndIndex env blockEnd wantIndex with
    | none => return .fail
    | some (_, stringCount, idx) =>
      let s1 ← Prog.get
      if stringCount > sub64 blockEnd s1.pos / 8 then return .fail
      resizeTo env stringCount 32
      match ← readStrings env blockEnd stringCount with
      | none => return .fail
      | some strs =>
        if !(← endReadLargeBlock blockEnd) then return .fail
        return .success (strs, idx)

/-- Template selection of `read_single_item<VT_x,T>` by data type (ISD_EntityReader.py 236-252). -/
def readSingle (env : REnv) (t : DataType) (key : Bytes) (emptyAllowed : Bool) : Prog RStream (RStatus t.Val) :=
  match t with
  | ⟨_, _, _, .bool, _⟩ => readSingleBool env key emptyAllowed
  | ⟨_, vt, _, .items sc n _, _⟩ => do
    match ← readSingleItems env vt sc n key emptyAllowed with
    | .fail => return .fail
    | .successEmpty => return .successEmpty
    | .success vals => return .success (Vector.ofFn fun i => vals.getD i.val sc.zero)
  | ⟨_, _, _, .string, _⟩ => readSingleString env key emptyAllowed

/-- Template selection of `read_array<VT_Array_x,T>` by data type (ISD_EntityReader.py 255-291). -/
def readArray (env : REnv) (t : DataType) (key : Bytes) (emptyAllowed wantIndex : Bool) :
    Prog RStream (RStatus (List t.Val × List (Word 4))) :=
  match t with
  | ⟨_, _, _, .bool, _⟩ => readArrayBool env key emptyAllowed wantIndex
  | ⟨_, _, avt, .items sc n _, _⟩ => readArrayItems env avt sc n key emptyAllowed wantIndex
  | ⟨_, _, _, .string, _⟩ => readArrayString env key emptyAllowed wantIndex

/-- `EntityReader::Read<T>( key, dest )` for every data type and container (ISD_EntityReader.py 108-291). `dest` is the previous value
of the destination. `none` is the return value `false`, `some v` is `true` with the destination now holding `v`.
For the types stored through another type the vector and idx_vector overloads append to the destination
(ISD_EntityReader.py 155-157, 199-201); their index is replaced (196). -/
def readTyped (env : REnv) (t : DataType) :
    (c : Container) → (key : Bytes) → (dest : c.Val t.Val) → Prog RStream (Option (c.Val t.Val))
  | .none, key, _ => do
    match ← readSingle env t key false with
    | .success v => return some v
    | _ => return none
  | .optionalValue, key, _ => do
    match ← readSingle env t key true with
    | .success v => return some (some v)
    | .successEmpty => return some none
    | .fail => return none
  | .vector, key, dest => do
    match ← readArray env t key false false with
    | .success (l, _) => return some (if t.overrides then List.append dest l else l)
    | _ => return none
  | .optionalVector, key, _ => do
    match ← readArray env t key true false with
    | .success (l, _) => return some (some l)
    | .successEmpty => return some none
    | .fail => return none
  | .idxVector, key, dest => do
    match ← readArray env t key false true with
    | .success (l, idx) => return some (if t.overrides then ⟨dest.values ++ l, idx⟩ else ⟨l, idx⟩)
    | _ => return none
  | .optionalIdxVector, key, _ => do
    match ← readArray env t key true true with
    | .success (l, idx) => return some (some ⟨l, idx⟩)
    | .successEmpty => return some none
    | .fail => return none

/-! ## Sections -/

/-- `class EntityReader` (ISD_EntityReader.py 19-28). -/
structure EReader where
  addr : Nat
  endPosition : Nat
  activeSubsection : Option EReader
  activeArraySize : Nat
  activeIndex : Nat
  activeEndPos : Nat

/-- The constructors (ISD_EntityReader.py 98-104). -/
def EReader.create (addr endPos : Nat) : EReader := ⟨addr, endPos, none, 0, sizeMax, 0⟩

/-- `this->active_subsection.get()`. -/
def EReader.subPtr (r : EReader) : Option Nat := r.activeSubsection.map EReader.addr

/-- State of the section calls: this reader and the shared stream. -/
abbrev RSt := EReader × RStream

/-- Run a stream level routine. -/
def onRStream {α : Type} (p : Prog RStream α) : Prog RSt α := fun st =>
  match p st.2 with
  | .ok a s => .ok a (st.1, s)
  | .throw s => .throw (st.1, s)
  | .ub => .ub

/-- Run a routine on the reader that `active_subsection` owns. -/
def inRSubsection {α : Type} (p : Prog RSt α) : Prog RSt α := fun st =>
  match st.1.activeSubsection with
  | none => .ub
  | some r =>
    match p (r, st.2) with
    | .ok a (r', s) => .ok a ({ st.1 with activeSubsection := some r' }, s)
    | .throw (r', s) => .throw ({ st.1 with activeSubsection := some r' }, s)
    | .ub => .ub

/-- `EntityReader::BeginReadSection` (ISD_EntityReaderTemplates.inl 563-590): (returned pointer, success). -/
def beginReadSection (env : REnv) (fresh : Nat) (key : Bytes) (nullAllowed : Bool) :
    Prog RSt (Option Nat × Bool) := do
  let st ← Prog.get
  if st.1.activeSubsection.isSome then return (none, false)
  let e ← onRStream (beginReadLargeBlock env vtSubsection key)
  if e = 0 then return (none, false)
  let st1 ← Prog.get
  if e = st1.2.pos then
    match ← onRStream (endReadEmptyLargeBlock (α := Unit) nullAllowed e) with
    | .fail => return (none, false)
    | _ => return (none, true)
  else
    Prog.modify fun st => ({ st.1 with activeSubsection := some (EReader.create fresh e) }, st.2)
    return (some fresh, true)

/-- `EntityReader::EndReadSection` (ISD_EntityReaderTemplates.inl 592-609). -/
def endReadSection (ptr : Option Nat) : Prog RSt Bool := do
  let st ← Prog.get
  if ptr ≠ st.1.subPtr then return false
  match st.1.activeSubsection with
  | none => Prog.ub
  | some sub =>
    if !(← onRStream (endReadLargeBlock sub.endPosition)) then return false
    Prog.modify fun st => ({ st.1 with activeSubsection := none, activeEndPos := 0 }, st.2)
    return true

/-- What `read_array_metadata_and_index` stores through `out_item_count` when it is called on a stream in state `s`, whether or not it succeeds in the
end (ISD_EntityReaderTemplates.inl 291-304): nothing if the 64 bit index flag is set. -/
def metadataCount (s : RStream) : Option Nat :=
  match (do
    let flags ← readU16
    if flags &&& 0x200 ≠ 0 then return none
    let itemCount ← readU64
    return some itemCount : Prog RStream (Option Nat)) s with
  | .ok count _ => count
  | _ => none

/-- `read_array_metadata_and_index` with the member `active_subsection_array_size` as `out_item_count` (ISD_EntityReaderTemplates.inl 639): the member
is overwritten also when the call fails later on, or the index cannot be allocated. -/
def readSectionsMetadata (env : REnv) (blockEnd : Nat) (wantIndex : Bool) : Prog RSt (Option (Nat × Nat × List (Word 4))) := fun st =>
  let rd := { st.1 with activeArraySize := (metadataCount st.2).getD st.1.activeArraySize }
  match readArrayMetadataAndIndex env blockEnd wantIndex st.2 with
  | .ok x s => .ok x (rd, s)
  | .throw s => .throw (rd, s)
  | .ub => .ub

/-- `EntityReader::BeginReadSectionsArray` (ISD_EntityReaderTemplates.inl 614-649): (pointer, array size, success) and the index read. -/
def beginReadSectionsArray (env : REnv) (fresh : Nat) (key : Bytes) (nullAllowed wantIndex : Bool) :
    Prog RSt (Option Nat × Nat × Bool × List (Word 4)) := do
  let st ← Prog.get
  if st.1.activeSubsection.isSome then return (none, 0, false, [])
  let e ← onRStream (beginReadLargeBlock env vtArraySubsection key)
  if e = 0 then return (none, 0, false, [])
  let st1 ← Prog.get
  if e = st1.2.pos then
    match ← onRStream (endReadEmptyLargeBlock (α := Unit) nullAllowed e) with
    | .fail => return (none, 0, false, [])
    | _ => return (none, 0, true, [])
  else
    match ← readSectionsMetadata env e wantIndex with
    | none => return (none, 0, false, [])
    | some (_, _, idx) =>
      Prog.modify fun st => ({ st.1 with activeIndex := sizeMax, activeSubsection := some (EReader.create fresh e) }, st.2)
      let st2 ← Prog.get
      return (some fresh, st2.1.activeArraySize, true, idx)

/-- `EntityReader::BeginReadSectionInArray` (ISD_EntityReaderTemplates.inl 651-688). `wantHasData` tells whether
`dest_section_has_data` is non-null; the second result is what is stored there. -/
def beginReadSectionInArray (ptr : Option Nat) (sectionIndex : Nat) (wantHasData : Bool) : Prog RSt (Bool × Bool) := do
  let st ← Prog.get
  if st.1.subPtr ≠ ptr then return (false, false)
  if wrap64 (st.1.activeIndex + 1) ≠ sectionIndex then return (false, false)
  if sectionIndex ≥ st.1.activeArraySize then return (false, false)
  let sectionSize ← onRStream readU64
  Prog.modify fun st => ({ st.1 with
    activeIndex := sectionIndex, activeEndPos := wrap64 (st.2.pos + sectionSize) }, st.2)
  if !wantHasData then
    if sectionSize = 0 then return (false, false)
    return (true, false)
  else return (true, sectionSize != 0)

/-- `EntityReader::EndReadSectionInArray` (ISD_EntityReaderTemplates.inl 690-707). -/
def endReadSectionInArray (ptr : Option Nat) (sectionIndex : Nat) : Prog RSt Bool := do
  let st ← Prog.get
  if st.1.subPtr ≠ ptr ∨ st.1.activeIndex ≠ sectionIndex then return false
  if st.2.pos ≠ st.1.activeEndPos then return false
  return true

/-- `EntityReader::EndReadSectionsArray` (ISD_EntityReaderTemplates.inl 709-733). -/
def endReadSectionsArray (ptr : Option Nat) : Prog RSt Bool := do
  let st ← Prog.get
  if st.1.subPtr ≠ ptr then return false
  if wrap64 (st.1.activeIndex + 1) ≠ st.1.activeArraySize then return false
  match st.1.activeSubsection with
  | none => Prog.ub
  | some sub =>
    if !(← onRStream (endReadLargeBlock sub.endPosition)) then return false
    Prog.modify fun st => ({ st.1 with
      activeSubsection := none, activeArraySize := 0, activeIndex := sizeMax, activeEndPos := 0 }, st.2)
    return true

/-- `EntityReader::Read<T>` on a reader object. -/
def EReader.read (env : REnv) (t : DataType) (c : Container) (key : Bytes) (dest : c.Val t.Val) :
    Prog RSt (Option (c.Val t.Val)) :=
  onRStream (readTyped env t c key dest)

end ISD
