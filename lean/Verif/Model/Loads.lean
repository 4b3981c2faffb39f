import Verif.Model.Loader

/-
Concurrent loads (ISD.cpp 45-182): the loader object, the threads it started and the files, interleaved in any order.

`params->path = this->Path` (line 159) assigns a `std::wstring` in memory from `malloc`, where no string was constructed: formally
undefined. The model gives it the meaning intended, the copy of the path.
-/

namespace ISD
namespace Loader

/-- Where a thread is in `LoadThreadProcedure`. `f` is the contents of the open file, which cannot change while it is open (it is opened with
`FILE_SHARE_READ` only, line 67). -/
inductive Phase where
  /-- before line 67 -/
  | started
  /-- before line 76 -/
  | opened (f : Bytes)
  /-- at the condition of the loop, line 100 -/
  | reading (f : Bytes) (bytesRead pos : Nat) (buffer : Bytes)
  | ended (o : Outcome)

/-- A thread with its own copy of the parameters (lines 55-57). -/
structure Thread where
  id : UUID
  path : List Char
  phase : Phase

/-- One step of a thread (lines 50-149), with the files as they are at that time. The steps between two system calls touch only memory of the
thread. -/
inductive ThreadStep (c : HashCore) (files : List Char → Option Bytes) (t : Thread) : Phase → Prop where
  /-- lines 67-72 -/
  | cantOpen (hp : t.phase = .started) (h : files (filePath t.path t.id) = none) : ThreadStep c files t (.ended (.status .eCantOpen))
  /-- line 67 -/
  | opens {f : Bytes} (hp : t.phase = .started) (h : files (filePath t.path t.id) = some f) : ThreadStep c files t (.opened f)
  /-- lines 76-80 -/
  | noSize {f : Bytes} (hp : t.phase = .opened f) : ThreadStep c files t (.ended (.status .eCantOpen))
  /-- lines 84-87 -/
  | tooSmall {f : Bytes} (hp : t.phase = .opened f) (h : f.length < 32) : ThreadStep c files t (.ended (.status .eCorrupted))
  /-- line 91 -/
  | noMemory {f : Bytes} (hp : t.phase = .opened f) (h : ¬ f.length < 32) : ThreadStep c files t (.ended .throws)
  /-- lines 90-99 -/
  | allocates {f : Bytes} (hp : t.phase = .opened f) (h : ¬ f.length < 32) :
      ThreadStep c files t (.reading f 0 0 (List.replicate f.length 0))
  /-- lines 103-110, outside the buffer -/
  | outside {f : Bytes} {b p : Nat} {buffer : Bytes} (hp : t.phase = .reading f b p buffer) (h : b < f.length)
      (hb : buffer.length < b + toRead f.length b) : ThreadStep c files t (.ended .ub)
  /-- lines 110-114 -/
  | cantRead {f : Bytes} {b p : Nat} {buffer : Bytes} (hp : t.phase = .reading f b p buffer) (h : b < f.length)
      (hb : ¬ buffer.length < b + toRead f.length b) : ThreadStep c files t (.ended (.status .eCantRead))
  /-- lines 103-118 -/
  | reads {f : Bytes} {b p n : Nat} {buffer : Bytes} (hp : t.phase = .reading f b p buffer) (h : b < f.length)
      (hb : ¬ buffer.length < b + toRead f.length b) (hn : n ≤ toRead f.length b) (hf : n ≤ f.length - p) :
      ThreadStep c files t (.reading f (b + n) (p + n) (buffer.take b ++ (f.drop p).take n ++ buffer.drop (b + n)))
  /-- lines 120-148 -/
  | finishes {f : Bytes} {b p : Nat} {buffer : Bytes} (hp : t.phase = .reading f b p buffer) (h : ¬ b < f.length) :
      ThreadStep c files t (.ended (finish c f.length (.full buffer)))

/-- The member `Path` of a loader (ISD.h 22), the files, and the threads in the order they were started. `LoadedEntities` and `ActiveThreads` (ISD.h
24-25) are used nowhere. -/
structure World where
  path : List Char
  files : List Char → Option Bytes
  threads : List Thread

/-- A call on the loader (ISD.h 28-32). -/
inductive Call where
  | initLoader (arg : List Char)
  | asyncLoadEntity (id : UUID)
  | isEntityLoaded (id : UUID)
  | getLoadedEntity (id : UUID)

/-- What a call returns: a status, alone or in a pair with a flag or a pointer. -/
inductive Answer where
  | status (s : Status)
  | loaded (b : Bool) (s : Status)
  | entity (pointer : Option Nat) (s : Status)

/-- One step of the whole: a call that returns, a step of some thread, or a change to the files by somebody else. -/
inductive Step (c : HashCore) : World → Option (Call × Answer) → World → Prop where
  /-- `Initialize` (lines 20-42) -/
  | init (w : World) (fullPath : List Char → List Char) (attributes : List Char → Nat) (arg : List Char) :
      Step c w (some (.initLoader arg, .status (initLoader fullPath attributes w.path arg).2))
        { w with path := (initLoader fullPath attributes w.path arg).1 }
  /-- `AsyncLoadEntity`, `malloc` failed (lines 153-157) -/
  | noParams (w : World) (u : UUID) : Step c w (some (.asyncLoadEntity u, .status .eCantAllocate)) w
  /-- `AsyncLoadEntity`, `CreateThread` failed (lines 163-167) -/
  | noThread (w : World) (u : UUID) : Step c w (some (.asyncLoadEntity u, .status .eCantAllocate)) w
  /-- `AsyncLoadEntity` (lines 151-170): the thread gets a copy of the id and of the path -/
  | load (w : World) (u : UUID) :
      Step c w (some (.asyncLoadEntity u, .status .ok)) { w with threads := w.threads ++ [⟨u, w.path, .started⟩] }
  /-- `IsEntityLoaded` (lines 172-175) -/
  | isLoaded (w : World) (u : UUID) : Step c w (some (.isEntityLoaded u, .loaded false .ok)) w
  /-- `GetLoadedEntity` (lines 177-181) -/
  | getLoaded (w : World) (u : UUID) : Step c w (some (.getLoadedEntity u, .entity none .ok)) w
  /-- a step of thread `i` -/
  | thread (w : World) (i : Nat) (t : Thread) (p : Phase) (hi : w.threads[i]? = some t) (h : ThreadStep c w.files t p) :
      Step c w none { w with threads := w.threads.set i { t with phase := p } }
  /-- the files change -/
  | files (w : World) (fs : List Char → Option Bytes) : Step c w none { w with files := fs }

/-- Any number of steps. -/
inductive Steps (c : HashCore) : World → List (Option (Call × Answer)) → World → Prop where
  | nil (w : World) : Steps c w [] w
  | snoc {w w1 w2 : World} {es : List (Option (Call × Answer))} {e : Option (Call × Answer)} (h : Steps c w es w1) (s : Step c w1 e w2) :
      Steps c w (es ++ [e]) w2

/-- A new loader. -/
def newWorld (files : List Char → Option Bytes) : World := ⟨[], files, []⟩

end Loader
end ISD
