import Verif.Model.Endian
import Verif.Model.ReadStream
import Verif.Model.Sha

/-
The entity loader (ISD.cpp).

The operating system is nondeterministic: whether a file opens, whether its size can be had, whether memory can be had,
and what each `ReadFile` call gives.  The file is opened with `FILE_SHARE_READ` only, so its contents stay the same while
it is read.
-/

namespace ISD

/-- `enum class Status` (ISD_Types.h 49-61). -/
inductive Status where
  | ok | eUndefined | eParam | eNotInitialized | eAlreadyInitialized | eCantAllocate | eCantOpen | eCantRead
  | eCorrupted | eInvalid
  deriving DecidableEq, Repr

namespace Loader

/-- The path that is opened (ISD.cpp 63-64).  `dir_name` (line 62) is not used by the code. `widen` (ISD_Types.cpp 13-33)
is the identity on the ASCII characters of the name. -/
def filePath (path : List Char) (u : UUID) : List Char := path ++ ['\\'] ++ (hexUUID u ++ ['.', 'd', 'a', 't'])

/-- What one `ReadFile` call gave (line 110). -/
inductive ReadRes where
  | failed
  | got (n : Nat)

/-- What the read loop ends with. -/
inductive LoopRes where
  /-- `ReadFile` could write outside the buffer -/
  | ub
  /-- line 113 -/
  | cantRead
  /-- the loop condition failed; the contents of the buffer -/
  | full (buffer : Bytes)

/-- How many bytes are asked for (lines 103-106): `u32`, `UINT_MAX` or what is left. -/
def toRead (total bytesRead : Nat) : Nat :=
  if total - bytesRead < 2 ^ 32 - 1 then (total - bytesRead) % 2 ^ 32 else 2 ^ 32 - 1

/-- The loop of lines 99-118 from `bytes_read`, with the file position `pos`, and the results of the `ReadFile` calls made.
`ReadFile` may write up to the asked number of bytes at `&buffer[bytes_read]`, so that number has to fit; it gives at most
that many, and at most what is left in the file. -/
inductive ReadLoop (file : Bytes) (total : Nat) : (bytesRead pos : Nat) → (buffer : Bytes) → List ReadRes → LoopRes → Prop
    where
  | done {bytesRead pos : Nat} {buffer : Bytes} (h : ¬ bytesRead < total) :
      ReadLoop file total bytesRead pos buffer [] (.full buffer)
  | outside {bytesRead pos : Nat} {buffer : Bytes} (h : bytesRead < total)
      (hb : buffer.length < bytesRead + toRead total bytesRead) : ReadLoop file total bytesRead pos buffer [] .ub
  | failed {bytesRead pos : Nat} {buffer : Bytes} (h : bytesRead < total)
      (hb : ¬ buffer.length < bytesRead + toRead total bytesRead) :
      ReadLoop file total bytesRead pos buffer [.failed] .cantRead
  | got {bytesRead pos : Nat} {buffer : Bytes} {n : Nat} {rs : List ReadRes} {r : LoopRes} (h : bytesRead < total)
      (hb : ¬ buffer.length < bytesRead + toRead total bytesRead)
      (hn : n ≤ toRead total bytesRead) (hf : n ≤ file.length - pos)
      (next : ReadLoop file total (bytesRead + n) (pos + n)
        (buffer.take bytesRead ++ (file.drop pos).take n ++ buffer.drop (bytesRead + n)) rs r) :
      ReadLoop file total bytesRead pos buffer (.got n :: rs) r

/-- What a run of the thread ends with. -/
inductive Outcome where
  /-- the thread returns this status -/
  | status (s : Status)
  /-- an exception leaves the thread procedure (`resize`, line 91, throws; the check of line 92 cannot fail) -/
  | throws
  | ub

/-- What follows the read loop (lines 120-148): the digest of the first `total - 32` bytes against the last 32. -/
def finish (c : HashCore) (total : Nat) : LoopRes → Outcome
  | .ub => .ub
  | .cantRead => .status .eCantRead
  | .full buffer =>
    let dataSize := total - 32
    if Sha.getDigest c (Sha.construct c (some (buffer.take dataSize))) ≠ (buffer.drop dataSize).take 32 then
      .status .eCorrupted
    else .status .ok

/-- The state of the system the thread runs in. -/
structure OS where
  /-- the contents of the file of that name, if it can be opened -/
  file : List Char → Option Bytes
  /-- whether `GetFileSizeEx` succeeds -/
  sizeOk : Bool
  /-- whether the buffer can be allocated -/
  allocOk : Bool

/-- A run of `LoadThreadProcedure` (lines 50-149) with the results of its `ReadFile` calls, its outcome, and whether it
leaves the file handle open. -/
inductive Loads (c : HashCore) (os : OS) (path : List Char) (u : UUID) : List ReadRes → Outcome → (leaks : Bool) → Prop where
  /-- lines 68-72 -/
  | noFile (h : os.file (filePath path u) = none) : Loads c os path u [] (.status .eCantOpen) false
  /-- lines 76-80 -/
  | noSize {f : Bytes} (h : os.file (filePath path u) = some f) (hs : os.sizeOk = false) :
      Loads c os path u [] (.status .eCantOpen) true
  /-- lines 84-87 -/
  | tooSmall {f : Bytes} (h : os.file (filePath path u) = some f) (hs : os.sizeOk = true) (hl : f.length < 32) :
      Loads c os path u [] (.status .eCorrupted) true
  /-- line 91 -/
  | noMemory {f : Bytes} (h : os.file (filePath path u) = some f) (hs : os.sizeOk = true) (hl : ¬ f.length < 32)
      (ha : os.allocOk = false) : Loads c os path u [] .throws true
  /-- lines 97-148; the handle is closed (line 120) if the loop ends normally -/
  | reads {f : Bytes} {rs : List ReadRes} {r : LoopRes} (h : os.file (filePath path u) = some f)
      (hs : os.sizeOk = true) (hl : ¬ f.length < 32) (ha : os.allocOk = true)
      (hr : ReadLoop f f.length 0 0 (List.replicate f.length 0) rs r) :
      Loads c os path u rs (finish c f.length r) (match r with | .full _ => false | _ => true)

/-- A run of `LoadThreadProcedure` that reaches line 134, with the stream it sets up there on the data it read:
`MemoryReadStream is( buffer, data_size, false )`. -/
inductive SetsUp (c : HashCore) (os : OS) (path : List Char) (u : UUID) : List ReadRes → RStream → Prop where
  | stream {f : Bytes} {rs : List ReadRes} {buffer : Bytes} (h : os.file (filePath path u) = some f)
      (hs : os.sizeOk = true) (hl : ¬ f.length < 32) (ha : os.allocOk = true)
      (hr : ReadLoop f f.length 0 0 (List.replicate f.length 0) rs (.full buffer))
      (hd : finish c f.length (.full buffer) = .status .ok) :
      SetsUp c os path u rs ⟨buffer.take (f.length - 32), 0, false⟩

/-! ## `EntityLoader` itself -/

/-- `FILE_ATTRIBUTE_DIRECTORY`. -/
def fileAttributeDirectory : Nat := 0x10

/-- `EntityLoader::Initialize` (lines 20-42; `initialize` is a Lean keyword) on the member `Path`, with the system's `full_path` (ISD_Types.cpp 99-112) and
`GetFileAttributesW`. -/
def initLoader (fullPath : List Char → List Char) (attributes : List Char → Nat) (path : List Char) (arg : List Char) :
    List Char × Status :=
  if path ≠ [] then (path, .eAlreadyInitialized)
  else
    let wpath := fullPath arg
    if attributes wpath ≠ fileAttributeDirectory then (path, .eParam)
    else (wpath, .ok)

end Loader
end ISD
