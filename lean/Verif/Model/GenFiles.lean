import Mathlib.Data.List.Basic
/-!
# Files written by the code generator (CodeGenerator/CodeGeneratorHelpers.py 129-173)

The generator writes the sources of the library. The model is the file system as seen by Python's `os` and text files; a text is a list of characters.
-/
namespace ISD.Gen

abbrev Text := List Char

/-- What a file is on disk: its characters as stored, and whether its owner may read and write it. -/
structure File where
  stored : Text
  readable : Bool
  writable : Bool
deriving DecidableEq

/-- The files by their path. -/
abbrev Disk := String → Option File

/-- One file replaced or removed. -/
def Disk.with (d : Disk) (path : String) (f : Option File) : Disk := fun p => if p = path then f else d p

/-- `open( path, 'r' ).read()`: with universal newlines, Python reads CR LF and a lone CR as a newline. -/
def decode : Text → Text
  | [] => []
  | '\r' :: '\n' :: l => '\n' :: decode l
  | '\r' :: l => '\n' :: decode l
  | c :: l => c :: decode l

/-- `open( path, 'w' ).write( text )`: on Windows a newline is stored as CR LF. -/
def encode (windows : Bool) (text : Text) : Text :=
  if windows then text.flatMap fun c => if c = '\n' then ['\r', '\n'] else [c] else text

/-- Where a call stands: the disk, and how it ended if it did. `raised` is an exception. -/
inductive End
  | written
  | skipped
  | raised
deriving DecidableEq

/-- `write_lines_to_file` (CodeGeneratorHelpers.py 144-173), up to where a file is opened for writing: the disks it goes through, and the end if it ends here. `chmod( S_IWUSR )` takes
the right to read from the owner, except on Windows, where there is none to take. -/
def writeLinesHead (windows : Bool) (path : String) (newText : Text) (d : Disk) : List Disk × Disk × Option End :=
  match d path with
  | none => ([d], d, none)
  | some f =>
    if !f.readable then ([d], d, some .raised)
    else if newText = decode f.stored then ([d], d, some .skipped)
    else
      let d1 := d.with path (some { f with readable := windows, writable := true })
      let d2 := d1.with path none
      ([d, d1, d2], d2, none)

/-- The disks while a new file is written: created, any part of the text stored, all of it, and made read only. -/
def writeLinesTail (windows : Bool) (path : String) (newText : Text) (d : Disk) : List Disk × Disk :=
  let stored := encode windows newText
  let last := d.with path (some ⟨stored, true, false⟩)
  ((List.range (stored.length + 1)).map (fun n => d.with path (some ⟨stored.take n, true, true⟩)) ++ [last], last)

/-- `write_lines_to_file( path, lines )` (CodeGeneratorHelpers.py 144-173): every disk at which it may be interrupted, the disk it leaves and how it ends. The text is made of the lines,
each with a newline. Reading, `chmod`, `remove` and creating a file are single steps; the text may be stored in any portions. Not modelled: a full disk, characters without encoding, files
in use by others, and rights on the directory. -/
def writeLines (windows : Bool) (path : String) (lines : List Text) (d : Disk) : List Disk × Disk × End :=
  let newText := lines.flatMap fun l => l ++ ['\n']
  match writeLinesHead windows path newText d with
  | (trace, d', some e) => (trace, d', e)
  | (trace, d', none) =>
    let (trace', d'') := writeLinesTail windows path newText d'
    (trace ++ trace', d'', .written)

/-- A run of the generator (CodeGenerator.py 7-12, each `run()` of Generators): the files one after the other; an exception ends it. -/
def generate (windows : Bool) : List (String × List Text) → Disk → List Disk × Disk × Bool
  | [], d => ([d], d, true)
  | (path, lines) :: more, d =>
    match writeLines windows path lines d with
    | (trace, d', .raised) => (trace, d', false)
    | (trace, d', _) =>
      let (trace', d'', ok) := generate windows more d'
      (trace ++ trace', d'', ok)

/-- White space that `rstrip()` takes away, as far as ASCII. -/
def isSpace (c : Char) : Bool := c ∈ [' ', '\t', '\n', '\r', '\x0b', '\x0c', '\x1c', '\x1d', '\x1e', '\x1f']

/-- `str.rstrip()`. -/
def rstrip (l : Text) : Text := (l.reverse.dropWhile isSpace).reverse

/-- `readlines()`: the lines with their newlines. -/
def readlines : Text → List Text
  | [] => []
  | c :: l => if c = '\n' then [c] :: readlines l else
    match readlines l with
    | [] => [[c]]
    | x :: xs => (c :: x) :: xs

/-- `inline_file` (CodeGeneratorHelpers.py 130-137), on what is stored in the file. -/
def inlineFile (stored : Text) : List Text := (readlines (decode stored)).map rstrip

end ISD.Gen
