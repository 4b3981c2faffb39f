import Verif.Spec.Overloads
import Verif.Spec.DynText

/-!
# What the declarations of the entity writer and reader mean

A parser and a meaning for the C++ of ISD_EntityWriter.h and ISD_EntityReader.h; the lexer is that of `Spec/Cpp`, after comments have been taken out (these headers have one of the kind
that `Spec/Cpp` does not know). Text outside the part of C++ used there has no meaning. Nothing here refers to the generator.
-/

namespace ISD.Head

open Cpp (Name Raw)
open DynText (w y expect pWord)
open Cpp (Ty)

/-! ## Comments -/

/-- Where a comment, a string or neither is being read. -/
inductive Mode where
  | code | slash | line | block | star | str

/-- One character: what is kept. -/
def Mode.step : Mode → Char → Mode × List Char
  | .code, c => if c = '/' then (.slash, []) else if c = '"' then (.str, ['"']) else (.code, [c])
  | .slash, c => if c = '/' then (.line, []) else if c = '*' then (.block, []) else if c = '"' then (.str, ['/', '"']) else (.code, ['/', c])
  | .line, c => if c = '\n' then (.code, ['\n']) else (.line, [])
  | .block, c => if c = '*' then (.star, []) else (.block, [])
  | .star, c => if c = '/' then (.code, [' ']) else if c = '*' then (.star, []) else (.block, [])
  | .str, c => if c = '"' then (.code, ['"']) else (.str, [c])

/-- The text without its comments. -/
def strip : Mode → List Char → List Char
  | _, [] => []
  | m, c :: cs =>
    match m.step c with
    | (m, kept) => kept ++ strip m cs

/-- The tokens of a text. -/
def tokens (text : List Char) : List Raw := DynText.tokens (strip .code text)

/-! ## Syntax -/

/-- A member: a reference, a constant or a pointer that owns; or a number, with the value that a new object has. -/
inductive Member where
  | reference (type x : Name) | constant (x : Name) | owner (type x : Name) | number (x : Name) (zero : Bool)

/-- A declared specialisation of `Write` or `Read`: its argument, the type of its last parameter, and whether that is constant. -/
structure Decl where
  ty : Ty
  par : Ty
  isConst : Bool
  deriving DecidableEq

/-- A header: the members and the specialisations of its class. -/
structure Header where
  members : List Member
  decls : List Decl

/-! ## Parser -/

/-- A container template of ISD. -/
def template (x : Name) : Option Container :=
  if x = "optional_value".toList then some .optionalValue
  else if x = "optional_vector".toList then some .optionalVector
  else if x = "idx_vector".toList then some .idxVector
  else if x = "optional_idx_vector".toList then some .optionalIdxVector
  else none

/-- A type. -/
def pTy : List Raw → Option (Ty × List Raw)
  | .word s :: .sym ':' :: .sym ':' :: .word v :: .sym '<' :: .word t :: .sym '>' :: ts =>
    if s = "std".toList ∧ v = "vector".toList then some ((.vector, t), ts) else none
  | .word c :: .sym '<' :: .word t :: .sym '>' :: ts => (template c).map fun c => ((c, t), ts)
  | .word t :: ts => some ((.none, t), ts)
  | _ => none

/-- Members up to `public:`. -/
def pMembers : Nat → List Raw → Option (List Member × List Raw)
  | 0, _ => none
  | n + 1, ts =>
    match ts with
    | .word p :: .sym ':' :: .word q :: ts =>
      if p = "public".toList then some ([], .word q :: ts) else none
    | .word t :: .sym '&' :: .word x :: .sym ';' :: ts => do
      let (l, ts) ← pMembers n ts
      return (.reference t x :: l, ts)
    | .word a :: .word b :: .word x :: .sym ';' :: ts =>
      if a = "const".toList ∧ b = "u64".toList then do
        let (l, ts) ← pMembers n ts
        return (.constant x :: l, ts)
      else none
    | .word a :: .sym ':' :: .sym ':' :: .word b :: .sym '<' :: .word t :: .sym '>' :: .word x :: .sym ';' :: ts =>
      if a = "std".toList ∧ b = "unique_ptr".toList then do
        let (l, ts) ← pMembers n ts
        return (.owner t x :: l, ts)
      else none
    | .word a :: .word x :: .sym '=' :: .word z :: .sym ';' :: ts =>
      if (a = "size_t".toList ∨ a = "u64".toList) ∧ z = "0".toList then do
        let (l, ts) ← pMembers n ts
        return (.number x true :: l, ts)
      else none
    | .word a :: .word x :: .sym '=' :: .sym '~' :: .word z :: .sym ';' :: ts =>
      if (a = "size_t".toList ∨ a = "u64".toList) ∧ z = "0".toList then do
        let (l, ts) ← pMembers n ts
        return (.number x false :: l, ts)
      else none
    | _ => none

/-- The tokens of `( const char *key, const u8 key_length, `. -/
def parameters : List Raw := [y '(', w "const", w "char", y '*', w "key", y ',', w "const", w "u8", w "key_length", y ',']

/-- A declared specialisation of a method with this name. -/
def pDecl (name : String) (ts : List Raw) : Option (Decl × List Raw) := do
  let ts ← expect [w "template", y '<', y '>', w "bool", w name, y '<'] ts
  let (t, ts) ← pTy ts
  let ts ← expect ([y '>'] ++ parameters) ts
  let (c, ts) := match expect [w "const"] ts with
    | some ts => (true, ts)
    | none => (false, ts)
  let (u, ts) ← pTy ts
  let ts ← expect [y '&', w "value", y ')', y ';'] ts
  return (⟨t, u, c⟩, ts)

/-- Declarations up to the end of the class. -/
def pDecls (name : String) : Nat → List Raw → Option (List Decl × List Raw)
  | 0, _ => none
  | _ + 1, .sym '}' :: .sym ';' :: ts => some ([], ts)
  | n + 1, ts => do
    let (d, ts) ← pDecl name ts
    let (l, ts) ← pDecls name n ts
    return (d :: l, ts)

/-- The part of a header that is the same in all texts with a meaning: the tokens before the members, the other methods, and the tokens after the class. -/
structure Frame where
  name : String
  before : List Raw
  methods : List Raw
  after : List Raw

/-- A header. -/
def parse (f : Frame) (ts : List Raw) : Option Header := do
  let n := ts.length
  let ts ← expect f.before ts
  let (ms, ts) ← pMembers n ts
  let ts ← expect f.methods ts
  let (ds, ts) ← pDecls f.name n ts
  let ts ← expect f.after ts
  match ts with
  | [] => return ⟨ms, ds⟩
  | _ => none

/-- ISD_EntityWriter.h. The template itself, for all types without a declaration of their own, does not compile when it is used. -/
def writerFrame : Frame where
  name := "Write"
  before := [w "namespace", w "ISD", y '{', w "class", w "MemoryWriteStream", y ';', w "class", w "EntityWriter", y '{', w "private", y ':']
  methods := [w "EntityWriter", y '(', w "MemoryWriteStream", y '&', w "_dstream", y ')', y ';',
    w "EntityWriter", y '*', w "BeginWriteSection", y '(', w "const", w "char", y '*', w "key", y ',', w "const", w "u8", w "key_length", y ')', y ';',
    w "bool", w "EndWriteSection", y '(', w "const", w "EntityWriter", y '*', w "section_writer", y ')', y ';',
    w "bool", w "WriteNullSection", y '(', w "const", w "char", y '*', w "key", y ',', w "const", w "u8", w "key_length", y ')', y ';',
    w "EntityWriter", y '*', w "BeginWriteSectionsArray", y '(', w "const", w "char", y '*', w "key", y ',', w "const", w "u8", w "key_length", y ',',
      w "const", w "size_t", w "array_size", y ',', w "const", w "std", y ':', y ':', w "vector", y '<', w "i32", y '>', y '*', w "index", y '=', w "nullptr", y ')', y ';',
    w "bool", w "BeginWriteSectionInArray", y '(', w "const", w "EntityWriter", y '*', w "sections_array_writer", y ',', w "const", w "size_t", w "section_index", y ')', y ';',
    w "bool", w "EndWriteSectionInArray", y '(', w "const", w "EntityWriter", y '*', w "sections_array_writer", y ',', w "const", w "size_t", w "section_index", y ')', y ';',
    w "bool", w "EndWriteSectionsArray", y '(', w "const", w "EntityWriter", y '*', w "sections_array_writer", y ')', y ';',
    w "bool", w "WriteNullSectionsArray", y '(', w "const", w "char", y '*', w "key", y ',', w "const", w "u8", w "key_length", y ')', y ';',
    w "template", y '<', w "class", w "T", y '>', w "bool", w "Write"] ++ parameters ++ [w "const", w "T", y '&', w "value", y ')', y ';']
  after := [w "template", y '<', w "class", w "T", y '>', w "bool", w "EntityWriter", y ':', y ':', w "Write"] ++ parameters ++ [w "const", w "T", y '&', w "value", y ')',
    y '{', w "static_assert", y '(', w "false", y ',', .str "Error: EntityWriter::Write template: The value type T cannot be serialized.".toList, y ')', y ';', y '}', y '}', y ';']

/-- ISD_EntityReader.h. -/
def readerFrame : Frame where
  name := "Read"
  before := [w "namespace", w "ISD", y '{', w "class", w "MemoryReadStream", y ';', w "class", w "EntityReader", y '{', w "private", y ':']
  methods := [w "EntityReader", y '(', w "MemoryReadStream", y '&', w "_sstream", y ')', y ';',
    w "EntityReader", y '(', w "MemoryReadStream", y '&', w "_sstream", y ',', w "const", w "u64", w "_end_position", y ')', y ';',
    w "std", y ':', y ':', w "tuple", y '<', w "EntityReader", y '*', y ',', w "bool", y '>', w "BeginReadSection", y '(', w "const", w "char", y '*', w "key", y ',',
      w "const", w "u8", w "key_length", y ',', w "const", w "bool", w "null_object_is_allowed", y ')', y ';',
    w "bool", w "EndReadSection", y '(', w "const", w "EntityReader", y '*', w "section_reader", y ')', y ';',
    w "std", y ':', y ':', w "tuple", y '<', w "EntityReader", y '*', y ',', w "size_t", y ',', w "bool", y '>', w "BeginReadSectionsArray", y '(', w "const", w "char", y '*',
      w "key", y ',', w "const", w "u8", w "key_length", y ',', w "const", w "bool", w "null_object_is_allowed", y ',',
      w "std", y ':', y ':', w "vector", y '<', w "i32", y '>', y '*', w "dest_index", y '=', w "nullptr", y ')', y ';',
    w "bool", w "BeginReadSectionInArray", y '(', w "const", w "EntityReader", y '*', w "sections_array_reader", y ',', w "const", w "size_t", w "section_index", y ',',
      w "bool", y '*', w "dest_section_has_data", y '=', w "nullptr", y ')', y ';',
    w "bool", w "EndReadSectionInArray", y '(', w "const", w "EntityReader", y '*', w "sections_array_reader", y ',', w "const", w "size_t", w "section_index", y ')', y ';',
    w "bool", w "EndReadSectionsArray", y '(', w "const", w "EntityReader", y '*', w "sections_array_reader", y ')', y ';',
    w "template", y '<', w "class", w "T", y '>', w "bool", w "Read"] ++ parameters ++ [w "T", y '&', w "value", y ')', y ';']
  after := [w "template", y '<', w "class", w "T", y '>', w "bool", w "EntityReader", y ':', y ':', w "Read"] ++ parameters ++ [w "T", y '&', w "value", y ')',
    y '{', w "static_assert", y '(', w "false", y ',', .str "Error: EntityReader::Read template: The value type T cannot be serialized.".toList, y ')', y ';', y '}', y '}', y ';']

/-! ## Meaning -/

/-- A type is declared: exactly one declaration has it as its argument, and that takes a value of this type, constant or not. -/
def Header.declares (h : Header) (isConst : Bool) (ty : Ty) : Bool :=
  match h.decls.filter fun d => d.ty == ty with
  | [d] => d.par == ty && d.isConst == isConst
  | _ => false

/-- `writer.Write( key, length, x )` with an object of a type, with the header and the source file: nothing if that does not compile or does not link, otherwise what it does. The depth is that of the
calls of one overload by another. -/
def write (header source : List Char) (key : Bytes) (depth : Nat) {K : Kind} (ty : Ty) (x : Over.Obj K) : Option (Prog WStream Bool) := do
  let h ← parse writerFrame (tokens header)
  let fns ← Over.parse Over.writerCtor source
  if h.declares true ty ∧ ∃ f ∈ fns, f.ty = ty then return Over.writeText fns key depth ty x else none

/-- `reader.Read( key, length, x )`, likewise. -/
def read (header source : List Char) (env : REnv) (key : Bytes) (depth : Nat) {K : Kind} (ty : Ty) (x : Over.Obj K) :
    Option (Prog RStream (Option (Over.Obj K))) := do
  let h ← parse readerFrame (tokens header)
  let fns ← Over.parse Over.readerCtors source
  if h.declares false ty ∧ ∃ f ∈ fns, f.ty = ty then return Over.readText fns env key depth ty x else none

/-- The value of a number in a new object: 0, or the `int` `~0` as a `size_t`. -/
def Header.number (h : Header) (x : String) : Option Nat :=
  h.members.findSome? fun m =>
    match m with
    | .number n zero => if n = x.toList then some (if zero then 0 else ((~~~ (0 : BitVec 32)).signExtend 64).toNat) else none
    | _ => none

/-- There is a pointer with this name; it is null in a new object. -/
def Header.hasOwner (h : Header) (type x : String) : Bool :=
  h.members.any fun m =>
    match m with
    | .owner t n => t == type.toList && n == x.toList
    | _ => false

/-- There is a constant with this name. -/
def Header.hasConstant (h : Header) (x : String) : Bool :=
  h.members.any fun m =>
    match m with
    | .constant n => n == x.toList
    | _ => false

/-- A new writer at an address, for a stream at a position (which the constructor of the source file stores). -/
def newWriter (header : List Char) (addr position : Nat) : Option EWriter := do
  let h ← parse writerFrame (tokens header)
  if h.hasConstant "start_position" ∧ h.hasOwner "EntityWriter" "active_subsection" then
    return ⟨addr, position, none, ← h.number "active_array_size", ← h.number "active_array_index", ← h.number "active_array_index_start_position"⟩
  else none

/-- A new reader at an address, with an end of its data. -/
def newReader (header : List Char) (addr stop : Nat) : Option EReader := do
  let h ← parse readerFrame (tokens header)
  if h.hasConstant "end_position" ∧ h.hasOwner "EntityReader" "active_subsection" then
    return ⟨addr, stop, none, ← h.number "active_subsection_array_size", ← h.number "active_subsection_index", ← h.number "active_subsection_end_pos"⟩
  else none

end ISD.Head
