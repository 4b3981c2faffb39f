import Verif.Spec.Cpp
import Verif.Model.Writer
import Verif.Model.Reader

/-!
# What the text of the overloads of `Write` and `Read` means

A parser and a meaning for the C++ of ISD_EntityWriter.cpp and ISD_EntityReader.cpp; the lexer is that of `Spec/Cpp`. Text outside the part of C++ used there has no
meaning: it does not parse, or it runs into `ub`. Nothing here refers to the generator.

The function templates that the overloads call (`write_single_value`, `write_array`, `read_single_item`, `read_array`) mean what `Model/Writer` and `Model/Reader` say of
them. Not modelled: an exception for want of memory while a temporary is filled. `reserve` has no effect.
-/

namespace ISD.Over

open Cpp (Name Raw Ty)

/-! ## Tokens -/

/-- Tokens. Names of types, variables and value types are `id`. -/
inductive Tok where
  | id (s : Name) | bad
  | lpar | rpar | lbrace | rbrace | semi | comma | lt | gt | colon | dot | assign | bang | amp | star | minus | quest | lbrack | rbrack | plus
  | template_ | const_ | return_ | if_ | else_ | for_ | this_ | nullptr_ | true_ | false_ | namespace_
  | std_ | vector | copy | begin_ | end_ | backInserter | move | reserve | size | emplaceBack
  | optionalValue | optionalVector | idxVector | optionalIdxVector | hasValue | value | values | index | set | reset
  | entityWriter | entityReader | write | read | writeSingleValue | writeArray | readSingleItem | readArray | valueType | readerStatus
  deriving DecidableEq

/-- The words with a meaning of their own. -/
def words : List (String × Tok) :=
  [("template", .template_), ("const", .const_), ("return", .return_), ("if", .if_), ("else", .else_), ("for", .for_), ("this", .this_),
   ("nullptr", .nullptr_), ("true", .true_), ("false", .false_), ("namespace", .namespace_), ("std", .std_), ("vector", .vector),
   ("copy", .copy), ("begin", .begin_), ("end", .end_), ("back_inserter", .backInserter), ("move", .move), ("reserve", .reserve),
   ("size", .size), ("emplace_back", .emplaceBack), ("optional_value", .optionalValue), ("optional_vector", .optionalVector),
   ("idx_vector", .idxVector), ("optional_idx_vector", .optionalIdxVector), ("has_value", .hasValue), ("value", .value), ("values", .values),
   ("index", .index), ("set", .set), ("reset", .reset), ("EntityWriter", .entityWriter), ("EntityReader", .entityReader), ("Write", .write),
   ("Read", .read), ("write_single_value", .writeSingleValue), ("write_array", .writeArray), ("read_single_item", .readSingleItem),
   ("read_array", .readArray), ("ValueType", .valueType), ("reader_status", .readerStatus)]

/-- The token of a word. -/
def word (s : Name) : Tok :=
  match words.find? fun w => w.1.toList == s with
  | some w => w.2
  | none => .id s

/-- The token of a symbol. -/
def symbol (c : Char) : Tok :=
  if c = '(' then .lpar else if c = ')' then .rpar else if c = '{' then .lbrace else if c = '}' then .rbrace
  else if c = ';' then .semi else if c = ',' then .comma else if c = '<' then .lt else if c = '>' then .gt
  else if c = ':' then .colon else if c = '.' then .dot else if c = '=' then .assign else if c = '!' then .bang
  else if c = '&' then .amp else if c = '*' then .star else if c = '-' then .minus else if c = '?' then .quest
  else if c = '[' then .lbrack else if c = ']' then .rbrack else if c = '+' then .plus else .bad

/-- The token. -/
def classify : Raw → Tok
  | .word s => word s
  | .str _ => .bad
  | .sym c => symbol c

/-- The tokens of a text that ends with the end of a line. -/
def tokens (text : List Char) : List Tok := (Cpp.run .space text).2.map classify

/-- A word that is an identifier and has no meaning of its own. -/
structure Plain (s : String) : Prop where
  nonempty : s.toList ≠ []
  chars : ∀ c ∈ s.toList, Cpp.isId c
  word : word s.toList = .id s.toList

/-! ## Syntax -/

/-- What is taken of a variable: `x`, `x.value()`, `x.values()`, `x.index()`. -/
inductive Sel where
  | self | value | values | index
  deriving DecidableEq

/-- A place. -/
structure Path where
  var : Name
  sel : Sel
  deriving DecidableEq

/-- A pointer: `&P` or `&(P)`, `nullptr`, `p`. -/
inductive Ptr where
  | addr (p : Path) | null | var (n : Name)

/-- What is returned. -/
inductive Ret where
  | true_ | false_
  /-- `status != reader_status::fail` -/
  | notFail
  /-- `this->Write<T>( key, key_length, x )` -/
  | write (ty : Ty) (x : Name)
  /-- `write_single_value<ValueType::V,T>( this->dstream, key, key_length, P )` -/
  | single (vt t : Name) (p : Ptr)
  /-- `write_array<ValueType::V,T>( this->dstream, key, key_length, P , Q )` -/
  | array (vt t : Name) (p q : Ptr)

/-- Statements without a condition. -/
inductive Simple where
  /-- `const T x = y;` -/
  | declCopy (ty : Ty) (x y : Name)
  /-- `T x;` -/
  | decl (ty : Ty) (x : Name)
  /-- `const T *x = (y.has_value()) ? &(P) : nullptr;` -/
  | declPtr (ty : Ty) (x y : Name) (p : Path)
  /-- `x.set( P );` -/
  | setTo (x : Name) (p : Path)
  /-- `x.set();` -/
  | set (x : Name)
  /-- `x.reset();` -/
  | reset (x : Name)
  /-- `P.reserve( Q.size() );` -/
  | reserve (p q : Path)
  /-- `std::copy( P.begin(), Q.end(), std::back_inserter(R) );` -/
  | copy (p q r : Path)
  /-- `x = T( y );` -/
  | convert (x t y : Name)
  /-- `P = std::move( Q );` -/
  | move (p q : Path)
  /-- `for( size_t i = 0; j < P.size(); ++k ) Q.emplace_back( T(R[l]) );` -/
  | loop (i j k l : Name) (p q r : Path) (t : Name)
  /-- `reader_status status = read_single_item<ValueType::V,T>(this->sstream, key, key_length, b, P );` -/
  | single (vt t : Name) (emptyAllowed : Bool) (p : Ptr)
  /-- `reader_status status = read_array<ValueType::V,T>(this->sstream, key, key_length, b, P, Q );` -/
  | array (vt t : Name) (emptyAllowed : Bool) (p q : Ptr)
  /-- `return …;` -/
  | ret (r : Ret)

/-- Conditions. -/
inductive Cond where
  /-- `x.has_value()` -/
  | has (x : Name)
  /-- `status == reader_status::success_empty` -/
  | isEmpty
  /-- `!this->Read<T>( key, key_length , x )` -/
  | notRead (ty : Ty) (x : Name)

/-- Statements: a condition chooses between two lists of simple ones. -/
inductive Stmt where
  | simple (s : Simple) | cond (c : Cond) (a b : List Simple)

/-- A specialisation: `template <> bool EntityWriter::Write<T>( const char *key, const u8 key_length, const U &x ) { … }`, and the same with `EntityReader::Read` and
`U &x`. -/
structure Fn where
  isWrite : Bool
  ty : Ty
  paramTy : Ty
  param : Name
  body : List Stmt

/-! ## Parser -/

/-- The rest of the tokens after the given ones. -/
def expect : List Tok → List Tok → Option (List Tok)
  | [], ts => some ts
  | e :: es, t :: ts => if e = t then expect es ts else none
  | _ :: _, [] => none

/-- An identifier spelled as given. -/
def kw (s : String) : Tok := .id s.toList

/-- A type. -/
def pTy : List Tok → Option (Ty × List Tok)
  | .id t :: ts => some ((.none, t), ts)
  | .optionalValue :: .lt :: .id t :: .gt :: ts => some ((.optionalValue, t), ts)
  | .std_ :: .colon :: .colon :: .vector :: .lt :: .id t :: .gt :: ts => some ((.vector, t), ts)
  | .optionalVector :: .lt :: .id t :: .gt :: ts => some ((.optionalVector, t), ts)
  | .idxVector :: .lt :: .id t :: .gt :: ts => some ((.idxVector, t), ts)
  | .optionalIdxVector :: .lt :: .id t :: .gt :: ts => some ((.optionalIdxVector, t), ts)
  | _ => none

/-- A place. -/
def pPath : List Tok → Option (Path × List Tok)
  | .id x :: .dot :: .value :: .lpar :: .rpar :: ts => some (⟨x, .value⟩, ts)
  | .id x :: .dot :: .values :: .lpar :: .rpar :: ts => some (⟨x, .values⟩, ts)
  | .id x :: .dot :: .index :: .lpar :: .rpar :: ts => some (⟨x, .index⟩, ts)
  | .id x :: ts => some (⟨x, .self⟩, ts)
  | _ => none

/-- A pointer. -/
def pPtr : List Tok → Option (Ptr × List Tok)
  | .nullptr_ :: ts => some (.null, ts)
  | .id x :: ts => some (.var x, ts)
  | .amp :: .lpar :: ts => do
    let (p, ts) ← pPath ts
    let ts ← expect [.rpar] ts
    return (.addr p, ts)
  | .amp :: ts => do
    let (p, ts) ← pPath ts
    return (.addr p, ts)
  | _ => none

/-- An identifier. -/
def pId : List Tok → Option (Name × List Tok)
  | .id x :: ts => some (x, ts)
  | _ => none

/-- `true` or `false`. -/
def pBool : List Tok → Option (Bool × List Tok)
  | .true_ :: ts => some (true, ts)
  | .false_ :: ts => some (false, ts)
  | _ => none

/-- `<ValueType::V,T>`. -/
def pTypes (ts : List Tok) : Option ((Name × Name) × List Tok) := do
  let ts ← expect [.lt, .valueType, .colon, .colon] ts
  let (v, ts) ← pId ts
  let ts ← expect [.comma] ts
  let (t, ts) ← pId ts
  let ts ← expect [.gt] ts
  return ((v, t), ts)

/-- `(this->s, key, key_length,`. -/
def pStream (s : String) (ts : List Tok) : Option (List Tok) :=
  expect [.lpar, .this_, .minus, .gt, kw s, .comma, kw "key", .comma, kw "key_length", .comma] ts

/-- What follows `return`. -/
def pRet : List Tok → Option (Ret × List Tok)
  | .true_ :: .semi :: ts => some (.true_, ts)
  | .false_ :: .semi :: ts => some (.false_, ts)
  | .this_ :: ts => do
    let ts ← expect [.minus, .gt, .write, .lt] ts
    let (ty, ts) ← pTy ts
    let ts ← expect [.gt, .lpar, kw "key", .comma, kw "key_length", .comma] ts
    let (x, ts) ← pId ts
    let ts ← expect [.rpar, .semi] ts
    return (.write ty x, ts)
  | .writeSingleValue :: ts => do
    let ((v, t), ts) ← pTypes ts
    let ts ← pStream "dstream" ts
    let (p, ts) ← pPtr ts
    let ts ← expect [.rpar, .semi] ts
    return (.single v t p, ts)
  | .writeArray :: ts => do
    let ((v, t), ts) ← pTypes ts
    let ts ← pStream "dstream" ts
    let (p, ts) ← pPtr ts
    let ts ← expect [.comma] ts
    let (q, ts) ← pPtr ts
    let ts ← expect [.rpar, .semi] ts
    return (.array v t p q, ts)
  | .id s :: ts => do
    let ts ← expect [kw "status", .bang, .assign, .readerStatus, .colon, .colon, kw "fail", .semi] (.id s :: ts)
    return (.notFail, ts)
  | _ => none

/-- What follows a place at the start of a statement. -/
def pAfterPath (p : Path) : List Tok → Option (Simple × List Tok)
  | .dot :: .set :: .lpar :: .rpar :: .semi :: ts => if p.sel = .self then some (.set p.var, ts) else none
  | .dot :: .set :: .lpar :: ts => do
    let (q, ts) ← pPath ts
    let ts ← expect [.rpar, .semi] ts
    if p.sel = .self then some (.setTo p.var q, ts) else none
  | .dot :: .reset :: .lpar :: .rpar :: .semi :: ts => if p.sel = .self then some (.reset p.var, ts) else none
  | .dot :: .reserve :: .lpar :: ts => do
    let (q, ts) ← pPath ts
    let ts ← expect [.dot, .size, .lpar, .rpar, .rpar, .semi] ts
    return (.reserve p q, ts)
  | .assign :: .std_ :: .colon :: .colon :: .move :: .lpar :: ts => do
    let (q, ts) ← pPath ts
    let ts ← expect [.rpar, .semi] ts
    return (.move p q, ts)
  | .assign :: .id t :: .lpar :: .id y :: .rpar :: .semi :: ts => if p.sel = .self then some (.convert p.var t y, ts) else none
  | _ => none

/-- `const T x = y;` or `const T *x = (y.has_value()) ? &(P) : nullptr;`, after `const`. -/
def pConst (ts : List Tok) : Option (Simple × List Tok) := do
  let (ty, ts) ← pTy ts
  match ts with
  | .id x :: .assign :: .id y :: .semi :: ts => return (.declCopy ty x y, ts)
  | .star :: .id x :: .assign :: .lpar :: .id y :: ts =>
    let ts ← expect [.dot, .hasValue, .lpar, .rpar, .rpar, .quest, .amp, .lpar] ts
    let (p, ts) ← pPath ts
    let ts ← expect [.rpar, .colon, .nullptr_, .semi] ts
    return (.declPtr ty x y p, ts)
  | _ => none

/-- `std::copy( P.begin(), Q.end(), std::back_inserter(R) );`, after `std::copy`. -/
def pCopy (ts : List Tok) : Option (Simple × List Tok) := do
  let ts ← expect [.lpar] ts
  let (p, ts) ← pPath ts
  let ts ← expect [.dot, .begin_, .lpar, .rpar, .comma] ts
  let (q, ts) ← pPath ts
  let ts ← expect [.dot, .end_, .lpar, .rpar, .comma, .std_, .colon, .colon, .backInserter, .lpar] ts
  let (r, ts) ← pPath ts
  let ts ← expect [.rpar, .rpar, .semi] ts
  return (.copy p q r, ts)

/-- A loop, after `for`. -/
def pFor (ts : List Tok) : Option (Simple × List Tok) := do
  let ts ← expect [.lpar, kw "size_t"] ts
  let (i, ts) ← pId ts
  let ts ← expect [.assign, kw "0", .semi] ts
  let (j, ts) ← pId ts
  let ts ← expect [.lt] ts
  let (p, ts) ← pPath ts
  let ts ← expect [.dot, .size, .lpar, .rpar, .semi, .plus, .plus] ts
  let (k, ts) ← pId ts
  let ts ← expect [.rpar] ts
  let (q, ts) ← pPath ts
  let ts ← expect [.dot, .emplaceBack, .lpar] ts
  let (t, ts) ← pId ts
  let ts ← expect [.lpar] ts
  let (r, ts) ← pPath ts
  let ts ← expect [.lbrack] ts
  let (l, ts) ← pId ts
  let ts ← expect [.rbrack, .rpar, .rpar, .semi] ts
  return (.loop i j k l p q r t, ts)

/-- A reading, after `reader_status`. -/
def pStatus (ts : List Tok) : Option (Simple × List Tok) := do
  let ts ← expect [kw "status", .assign] ts
  match ts with
  | .readSingleItem :: ts =>
    let ((v, t), ts) ← pTypes ts
    let ts ← pStream "sstream" ts
    let (b, ts) ← pBool ts
    let ts ← expect [.comma] ts
    let (p, ts) ← pPtr ts
    let ts ← expect [.rpar, .semi] ts
    return (.single v t b p, ts)
  | .readArray :: ts =>
    let ((v, t), ts) ← pTypes ts
    let ts ← pStream "sstream" ts
    let (b, ts) ← pBool ts
    let ts ← expect [.comma] ts
    let (p, ts) ← pPtr ts
    let ts ← expect [.comma] ts
    let (q, ts) ← pPtr ts
    let ts ← expect [.rpar, .semi] ts
    return (.array v t b p q, ts)
  | _ => none

/-- A simple statement. -/
def pSimple : List Tok → Option (Simple × List Tok)
  | .return_ :: ts => do
    let (r, ts) ← pRet ts
    return (.ret r, ts)
  | .const_ :: ts => pConst ts
  | .std_ :: .colon :: .colon :: .copy :: ts => pCopy ts
  | .for_ :: ts => pFor ts
  | .readerStatus :: ts => pStatus ts
  | .id t :: .id x :: .semi :: ts => some (.decl (.none, t) x, ts)
  | .id x :: ts => do
    let (p, ts) ← pPath (.id x :: ts)
    pAfterPath p ts
  | ts => do
    let (ty, ts) ← pTy ts
    let (x, ts) ← pId ts
    let ts ← expect [.semi] ts
    return (.decl ty x, ts)

/-- Simple statements up to a closing brace. -/
def pSimples : Nat → List Tok → Option (List Simple × List Tok)
  | _, .rbrace :: ts => some ([], ts)
  | n + 1, ts => do
    let (s, ts) ← pSimple ts
    let (l, ts) ← pSimples n ts
    return (s :: l, ts)
  | 0, _ => none

/-- A simple statement, or some in braces. -/
def pBlock (n : Nat) : List Tok → Option (List Simple × List Tok)
  | .lbrace :: ts => pSimples n ts
  | ts => do
    let (s, ts) ← pSimple ts
    return ([s], ts)

/-- A condition, after the opening parenthesis. -/
def pCond : List Tok → Option (Cond × List Tok)
  | .bang :: ts => do
    let ts ← expect [.this_, .minus, .gt, .read, .lt] ts
    let (ty, ts) ← pTy ts
    let ts ← expect [.gt, .lpar, kw "key", .comma, kw "key_length", .comma] ts
    let (x, ts) ← pId ts
    let ts ← expect [.rpar, .rpar] ts
    return (.notRead ty x, ts)
  | .id x :: .dot :: ts => do
    let ts ← expect [.hasValue, .lpar, .rpar, .rpar] ts
    return (.has x, ts)
  | ts => do
    let ts ← expect [kw "status", .assign, .assign, .readerStatus, .colon, .colon, kw "success_empty", .rpar] ts
    return (.isEmpty, ts)

/-- The other branch, if there is one. -/
def pElse (n : Nat) : List Tok → Option (List Simple × List Tok)
  | .else_ :: ts => pBlock n ts
  | ts => some ([], ts)

/-- A statement. `n` bounds the number of statements in a block. -/
def pStmt (n : Nat) : List Tok → Option (Stmt × List Tok)
  | .if_ :: .lpar :: ts => do
    let (c, ts) ← pCond ts
    let (a, ts) ← pBlock n ts
    let (b, ts) ← pElse n ts
    return (.cond c a b, ts)
  | ts => do
    let (s, ts) ← pSimple ts
    return (.simple s, ts)

/-- Statements up to a closing brace. -/
def pBody : Nat → List Tok → Option (List Stmt × List Tok)
  | _, .rbrace :: ts => some ([], ts)
  | n + 1, ts => do
    let (s, ts) ← pStmt n ts
    let (l, ts) ← pBody n ts
    return (s :: l, ts)
  | 0, _ => none

/-- The parameters up to the last one. -/
def params : List Tok :=
  [.gt, .lpar, .const_, kw "char", .star, kw "key", .comma, .const_, kw "u8", kw "key_length", .comma]

/-- The last parameter and the body. -/
def pRest (n : Nat) (isWrite : Bool) (ty : Ty) (ts : List Tok) : Option (Fn × List Tok) := do
  let (pty, ts) ← pTy ts
  let ts ← expect [.amp] ts
  let (x, ts) ← pId ts
  let ts ← expect [.rpar, .lbrace] ts
  let (body, ts) ← pBody n ts
  return (⟨isWrite, ty, pty, x, body⟩, ts)

/-- A specialisation. -/
def pFn (n : Nat) (ts : List Tok) : Option (Fn × List Tok) := do
  let ts ← expect [.template_, .lt, .gt, kw "bool"] ts
  match ts with
  | .entityWriter :: ts =>
    let ts ← expect [.colon, .colon, .write, .lt] ts
    let (ty, ts) ← pTy ts
    let ts ← expect (params ++ [.const_]) ts
    pRest n true ty ts
  | .entityReader :: ts =>
    let ts ← expect [.colon, .colon, .read, .lt] ts
    let (ty, ts) ← pTy ts
    let ts ← expect params ts
    pRest n false ty ts
  | _ => none

/-- `EntityWriter::EntityWriter( MemoryWriteStream &_dstream ) : dstream( _dstream ) , start_position( _dstream.GetPosition() ) {}` -/
def writerCtor : List Tok :=
  [.entityWriter, .colon, .colon, .entityWriter, .lpar, kw "MemoryWriteStream", .amp, kw "_dstream", .rpar, .colon, kw "dstream", .lpar, kw "_dstream",
   .rpar, .comma, kw "start_position", .lpar, kw "_dstream", .dot, kw "GetPosition", .lpar, .rpar, .rpar, .lbrace, .rbrace]

/-- `EntityReader::EntityReader( MemoryReadStream &_sstream ) : sstream( _sstream ) , end_position( _sstream.GetSize() ) {}` and
`EntityReader::EntityReader( MemoryReadStream &_sstream , const u64 _end_position ) : sstream( _sstream ) , end_position( _end_position ) {}` -/
def readerCtors : List Tok :=
  [.entityReader, .colon, .colon, .entityReader, .lpar, kw "MemoryReadStream", .amp, kw "_sstream", .rpar, .colon, kw "sstream", .lpar, kw "_sstream",
   .rpar, .comma, kw "end_position", .lpar, kw "_sstream", .dot, kw "GetSize", .lpar, .rpar, .rpar, .lbrace, .rbrace,
   .entityReader, .colon, .colon, .entityReader, .lpar, kw "MemoryReadStream", .amp, kw "_sstream", .comma, .const_, kw "u64", kw "_end_position", .rpar,
   .colon, kw "sstream", .lpar, kw "_sstream", .rpar, .comma, kw "end_position", .lpar, kw "_end_position", .rpar, .lbrace, .rbrace]

/-- Specialisations up to the end of the namespace and of the file. -/
def pFns : Nat → List Tok → Option (List Fn)
  | _, [.rbrace, .semi] => some []
  | n + 1, ts => do
    let (f, ts) ← pFn 100 ts
    let l ← pFns n ts
    return f :: l
  | 0, _ => none

/-- A file: the given constructors, then specialisations. A body has at most 100 statements, a file at most 1000 specialisations. -/
def parse (ctors : List Tok) (text : List Char) : Option (List Fn) := do
  let ts ← expect ([.namespace_, kw "ISD", .lbrace] ++ ctors) (tokens text)
  pFns 1000 ts

/-! ## Types -/

/-- The names of `enum class ValueType` (ISD_Types.h 95-143). -/
def valueTypes : List (String × Nat) :=
  [("VT_Bool", 0x01), ("VT_Int", 0x02), ("VT_UInt", 0x03), ("VT_Float", 0x04), ("VT_Vec2", 0x05), ("VT_Vec3", 0x06), ("VT_Vec4", 0x07),
   ("VT_IVec2", 0x08), ("VT_IVec3", 0x09), ("VT_IVec4", 0x0a), ("VT_UVec2", 0x0b), ("VT_UVec3", 0x0c), ("VT_UVec4", 0x0d), ("VT_Mat2", 0x0e),
   ("VT_Mat3", 0x0f), ("VT_Mat4", 0x10), ("VT_Quat", 0x11), ("VT_Uuid", 0x12), ("VT_Hash", 0x13), ("VT_Array_Bool", 0x41), ("VT_Array_Int", 0x42),
   ("VT_Array_UInt", 0x43), ("VT_Array_Float", 0x44), ("VT_Array_Vec2", 0x45), ("VT_Array_Vec3", 0x46), ("VT_Array_Vec4", 0x47), ("VT_Array_IVec2", 0x48),
   ("VT_Array_IVec3", 0x49), ("VT_Array_IVec4", 0x4a), ("VT_Array_UVec2", 0x4b), ("VT_Array_UVec3", 0x4c), ("VT_Array_UVec4", 0x4d),
   ("VT_Array_Mat2", 0x4e), ("VT_Array_Mat3", 0x4f), ("VT_Array_Mat4", 0x50), ("VT_Array_Quat", 0x51), ("VT_Array_Uuid", 0x52), ("VT_Array_Hash", 0x53),
   ("VT_Subsection", 0xd0), ("VT_Array_Subsection", 0xd1), ("VT_String", 0xe0), ("VT_Array_String", 0xe1)]

/-- The number of a value type. -/
def codeNamed (n : Name) : Option Nat := (valueTypes.find? fun r => r.1.toList == n).map Prod.snd

/-- How the values of the type with a name are stored (`data_type_information`, ISD_DataTypes.py). -/
def kindNamed (n : Name) : Option Kind := (allTypes.find? fun t => t.name.toList == n).map DataType.kind

/-! ## Variables -/

variable {K : Kind}

/-- A variable whose type is a container of items stored as `K`; `none` if it has not been initialised. A reference (`entity_ref`, `package_ref`) is the uuid or hash it
wraps, so the conversions between a type and the type it is stored through keep the value. -/
structure Obj (K : Kind) where
  c : Container
  v : Option (c.Val K.Val)

/-- A variable with a value. -/
def Obj.of (c : Container) (v : c.Val K.Val) : Obj K := ⟨c, some v⟩

/-- The three values of `reader_status`. -/
inductive Status where
  | fail | success | successEmpty
  deriving DecidableEq

/-- The variables of a function: objects, pointers and `status`. -/
structure Env (K : Kind) where
  objs : Name → Option (Obj K)
  ptrs : Name → Option (Option Path)
  status : Option Status

/-- An object gets a value. -/
def Env.put (e : Env K) (x : Name) (o : Obj K) : Env K := { e with objs := fun y => if y = x then some o else e.objs y }

/-- The vector of items at a place. The place must exist: `values()` of an empty optional has no meaning. -/
def Env.vec (e : Env K) (p : Path) : Option (List K.Val) :=
  match e.objs p.var, p.sel with
  | some ⟨.vector, some l⟩, .self => some l
  | some ⟨.optionalVector, some (some l)⟩, .values => some l
  | some ⟨.idxVector, some v⟩, .values => some v.values
  | some ⟨.optionalIdxVector, some (some v)⟩, .values => some v.values
  | _, _ => none

/-- Replace it. -/
def Env.setVec (e : Env K) (p : Path) (l : List K.Val) : Option (Env K) :=
  match e.objs p.var, p.sel with
  | some ⟨.vector, some _⟩, .self => some (e.put p.var (.of .vector l))
  | some ⟨.optionalVector, some (some _)⟩, .values => some (e.put p.var (.of .optionalVector (some l)))
  | some ⟨.idxVector, some v⟩, .values => some (e.put p.var (.of .idxVector ⟨l, v.index⟩))
  | some ⟨.optionalIdxVector, some (some v)⟩, .values => some (e.put p.var (.of .optionalIdxVector (some ⟨l, v.index⟩)))
  | _, _ => none

/-- The index at a place. -/
def Env.idx (e : Env K) (p : Path) : Option (List (Word 4)) :=
  match e.objs p.var, p.sel with
  | some ⟨.idxVector, some v⟩, .index => some v.index
  | some ⟨.optionalIdxVector, some (some v)⟩, .index => some v.index
  | _, _ => none

/-- Replace it. -/
def Env.setIdx (e : Env K) (p : Path) (l : List (Word 4)) : Option (Env K) :=
  match e.objs p.var, p.sel with
  | some ⟨.idxVector, some v⟩, .index => some (e.put p.var (.of .idxVector ⟨v.values, l⟩))
  | some ⟨.optionalIdxVector, some (some v)⟩, .index => some (e.put p.var (.of .optionalIdxVector (some ⟨v.values, l⟩)))
  | _, _ => none

/-- The item at a place. -/
def Env.one (e : Env K) (p : Path) : Option K.Val :=
  match e.objs p.var, p.sel with
  | some ⟨.none, some a⟩, .self => some a
  | some ⟨.optionalValue, some (some a)⟩, .value => some a
  | _, _ => none

/-- Replace it. A variable that has not been initialised may be assigned to. -/
def Env.setOne (e : Env K) (p : Path) (a : K.Val) : Option (Env K) :=
  match e.objs p.var, p.sel with
  | some ⟨.none, _⟩, .self => some (e.put p.var (.of .none a))
  | some ⟨.optionalValue, some (some _)⟩, .value => some (e.put p.var (.of .optionalValue (some a)))
  | _, _ => none

/-- `has_value()`. -/
def Env.has (e : Env K) (x : Name) : Option Bool :=
  match e.objs x with
  | some ⟨.optionalValue, some o⟩ => some o.isSome
  | some ⟨.optionalVector, some o⟩ => some o.isSome
  | some ⟨.optionalIdxVector, some o⟩ => some o.isSome
  | _ => none

/-- The item that `{}` is. -/
def zero : (K : Kind) → K.Val
  | .bool => false
  | .items sc n _ => Vector.replicate n sc.zero
  | .string => []

/-- A variable declared without a value (the constructors of the containers make them empty). -/
def Obj.default : Container → Obj K
  | .none => ⟨.none, none⟩
  | .optionalValue => .of .optionalValue none
  | .vector => .of .vector []
  | .optionalVector => .of .optionalVector none
  | .idxVector => .of .idxVector ⟨[], []⟩
  | .optionalIdxVector => .of .optionalIdxVector none

/-- `x.set();` (ISD_optional_value.h 30, ISD_optional_vector.h 39, ISD_optional_idx_vector.h 39): present and empty. -/
def Obj.set : Obj K → Option (Obj K)
  | ⟨.optionalValue, some _⟩ => some (.of .optionalValue (some (zero K)))
  | ⟨.optionalVector, some _⟩ => some (.of .optionalVector (some []))
  | ⟨.optionalIdxVector, some _⟩ => some (.of .optionalIdxVector (some ⟨[], []⟩))
  | _ => none

/-- `x.reset();` (ISD_optional_value.h 29, ISD_optional_vector.h 38, ISD_optional_idx_vector.h 38). -/
def Obj.reset : Obj K → Option (Obj K)
  | ⟨.optionalValue, some _⟩ => some (.of .optionalValue none)
  | ⟨.optionalVector, some _⟩ => some (.of .optionalVector none)
  | ⟨.optionalIdxVector, some _⟩ => some (.of .optionalIdxVector none)
  | _ => none

/-- A type whose items are stored as `K`. -/
def isType (K : Kind) (t : Name) : Bool := kindNamed t == some K

/-- `const T *` may point to what is selected. -/
def pointsTo (K : Kind) : Container → Name → Sel → Bool
  | .none, t, .value => isType K t
  | .vector, t, .values => isType K t
  | .vector, t, .index => t == "i32".toList
  | _, _, _ => false

/-- The loop `for( i = 0; i < n; ++i )` with what it does to a vector that gets an item a turn. -/
def turns (src : List K.Val) : Nat → List K.Val → Option (List K.Val)
  | 0, dest => some dest
  | n + 1, dest =>
    match src[src.length - (n + 1)]? with
    | some a => turns src n (dest ++ [a])
    | none => none

/-- A statement that does not use the stream. `none`: it has no meaning. -/
def pureStep (e : Env K) : Simple → Option (Env K)
  | .declCopy (.none, t) x y => do
    guard (isType K t)
    let a ← e.one ⟨y, .self⟩
    return e.put x (.of .none a)
  | .decl (c, t) x => do
    guard (isType K t)
    return e.put x (.default c)
  | .declPtr (c, t) x y p => do
    let h ← e.has y
    guard (pointsTo K c t p.sel)
    return { e with ptrs := fun z => if z = x then some (if h then some p else none) else e.ptrs z }
  | .setTo x p => do
    let a ← e.one p
    match e.objs x with
    | some ⟨.optionalValue, some _⟩ => return e.put x (.of .optionalValue (some a))
    | _ => none
  | .set x => do
    let o ← e.objs x
    let o ← o.set
    return e.put x o
  | .reset x => do
    let o ← e.objs x
    let o ← o.reset
    return e.put x o
  | .reserve p q => do
    guard (((e.vec p).isSome ∧ (e.vec q).isSome) ∨ ((e.idx p).isSome ∧ (e.idx q).isSome))
    return e
  | .copy p q r => do
    guard (p = q ∧ p.var ≠ r.var)
    match e.vec p, e.vec r, e.idx p, e.idx r with
    | some l, some m, _, _ => e.setVec r (m ++ l)
    | _, _, some l, some m => e.setIdx r (m ++ l)
    | _, _, _, _ => none
  | .convert x t y => do
    guard (isType K t)
    let a ← e.one ⟨y, .self⟩
    e.setOne ⟨x, .self⟩ a
  | .move p q => do
    guard (p.var ≠ q.var)
    let l ← e.idx q
    let e' ← e.setIdx q []
    e'.setIdx p l
  | .loop i j k l p q r t => do
    guard (isType K t ∧ i = j ∧ i = k ∧ i = l ∧ p = r ∧ p.var ≠ q.var)
    let src ← e.vec p
    let dest ← e.vec q
    let m ← turns src src.length dest
    e.setVec q m
  | _ => none

/-- What a pointer points to. -/
def Env.ptr (e : Env K) : Ptr → Option (Option Path)
  | .addr p => some (some p)
  | .null => some none
  | .var n => e.ptrs n

/-- The item a pointer points to. The pointer must be good. -/
def Env.onePtr (e : Env K) (p : Ptr) : Option (Option K.Val) :=
  match e.ptr p with
  | some (some q) => (e.one q).map some
  | some none => some none
  | none => none

/-- The vector of items a pointer points to. -/
def Env.vecPtr (e : Env K) (p : Ptr) : Option (Option (List K.Val)) :=
  match e.ptr p with
  | some (some q) => (e.vec q).map some
  | some none => some none
  | none => none

/-- The index a pointer points to. -/
def Env.idxPtr (e : Env K) (p : Ptr) : Option (Option (List (Word 4))) :=
  match e.ptr p with
  | some (some q) => (e.idx q).map some
  | some none => some none
  | none => none

/-- The variables when a function is entered. -/
def Env.entry (x : Name) (o : Obj K) : Env K := ⟨fun y => if y = x then some o else none, fun _ => none, none⟩

/-! ## Writing -/

/-- `write_single_value<VT,T>` with the number of `VT` (ISD_EntityWriterTemplates.inl 21-147: the template, and its specialisations for `bool` and `string`). -/
def writeSingleText : (K : Kind) → (code : Nat) → Bytes → Option K.Val → Prog WStream Bool
  | .bool, code, key, d => if code = 0x01 then writeSingleBool key d else Prog.ub
  | .items sc n _, code, key, d => writeSingleItems code sc n key d
  | .string, code, key, d => if code = 0xe0 then writeSingleString key d else Prog.ub

/-- `write_array<VT,T>` (ISD_EntityWriterTemplates.inl 193-383). -/
def writeArrayText : (K : Kind) → (code : Nat) → Bytes → Option (List K.Val) → Option (List (Word 4)) → Prog WStream Bool
  | .bool, code, key, d, i => if code = 0x41 then writeArrayBool key d i else Prog.ub
  | .items sc n _, code, key, d, i => writeArrayItems code sc n key d i
  | .string, code, key, d, i => if code = 0xe1 then writeArrayString key d i else Prog.ub

/-- Statements of a `Write`, and what follows them. `call` is the meaning of the other overloads. -/
def execSimpleW (call : Ty → Obj K → Prog WStream Bool) (key : Bytes) :
    List Simple → Env K → (Env K → Prog WStream Bool) → Prog WStream Bool
  | [], e, k => k e
  | .ret r :: _, e, _ =>
    match r with
    | .true_ => return true
    | .false_ => return false
    | .notFail => Prog.ub
    | .write ty x =>
      match e.objs x with
      | some o => call ty o
      | none => Prog.ub
    | .single vt t p =>
      match codeNamed vt, isType K t, e.onePtr p with
      | some code, true, some d => writeSingleText K code key d
      | _, _, _ => Prog.ub
    | .array vt t p q =>
      match codeNamed vt, isType K t, e.vecPtr p, e.idxPtr q with
      | some code, true, some d, some i => writeArrayText K code key d i
      | _, _, _, _ => Prog.ub
  | s :: l, e, k =>
    match pureStep e s with
    | some e' => execSimpleW call key l e' k
    | none => Prog.ub

/-- The body of a `Write`. -/
def execW (call : Ty → Obj K → Prog WStream Bool) (key : Bytes) : List Stmt → Env K → Prog WStream Bool
  | [], _ => Prog.ub
  | .simple s :: l, e => execSimpleW call key [s] e (execW call key l)
  | .cond (.has x) a b :: l, e =>
    match e.has x with
    | some h => execSimpleW call key (if h then a else b) e (execW call key l)
    | none => Prog.ub
  | .cond _ _ _ :: _, _ => Prog.ub

/-- `this->Write<T>( key, key_length, x )` in a program with the given specialisations; calls nest at most `n` deep. -/
def writeText (file : List Fn) (key : Bytes) : Nat → Ty → Obj K → Prog WStream Bool
  | 0, _, _ => Prog.ub
  | n + 1, ty, o =>
    match file.find? fun f => decide (f.ty = ty) with
    | some f =>
      if f.isWrite ∧ f.paramTy = ty ∧ o.c = ty.1 ∧ isType K ty.2 then
        execW (writeText file key n) key f.body (Env.entry f.param o)
      else Prog.ub
    | none => Prog.ub

/-! ## Reading -/

/-- `read_single_item<VT,T>` with the number of `VT` (ISD_EntityReaderTemplates.inl 21-199). -/
def readSingleText (env : REnv) : (K : Kind) → (code : Nat) → Bytes → Bool → Prog RStream (RStatus K.Val)
  | .bool, code, key, b => if code = 0x01 then readSingleBool env key b else Prog.ub
  | .items sc n _, code, key, b => do
    match ← readSingleItems env code sc n key b with
    | .fail => return .fail
    | .successEmpty => return .successEmpty
    | .success vals => return .success (Vector.ofFn fun i => vals.getD i.val sc.zero)
  | .string, code, key, b => if code = 0xe0 then readSingleString env key b else Prog.ub

/-- `read_array<VT,T>` (ISD_EntityReaderTemplates.inl 308-558). -/
def readArrayText (env : REnv) :
    (K : Kind) → (code : Nat) → Bytes → Bool → (wantIndex : Bool) → Prog RStream (RStatus (List K.Val × List (Word 4)))
  | .bool, code, key, b, i => if code = 0x41 then readArrayBool env key b i else Prog.ub
  | .items sc n _, code, key, b, i => readArrayItems env code sc n key b i
  | .string, code, key, b, i => if code = 0xe1 then readArrayString env key b i else Prog.ub

/-- What a reading of one item does to the variables. After a failure nothing is said of the destination. -/
def Env.afterSingle (e : Env K) (p : Path) : RStatus K.Val → Option (Env K)
  | .fail => some { e with status := some .fail }
  | .successEmpty => some { e with status := some .successEmpty }
  | .success a => (e.setOne p a).map fun e' => { e' with status := some .success }

/-- What a reading of an array does to the variables; the index is stored if a pointer to one is given. -/
def Env.afterArray (e : Env K) (p : Path) (q : Option Path) : RStatus (List K.Val × List (Word 4)) → Option (Env K)
  | .fail => some { e with status := some .fail }
  | .successEmpty => some { e with status := some .successEmpty }
  | .success (l, i) => do
    let e ← e.setVec p l
    let e ← match q with
      | some q => e.setIdx q i
      | none => some e
    return { e with status := some .success }

/-- Statements of a `Read`, and what follows them. The result is `none` for `false` and the object of the parameter for `true`. -/
def execSimpleR (env : REnv) (key : Bytes) (param : Name) :
    List Simple → Env K → (Env K → Prog RStream (Option (Obj K))) → Prog RStream (Option (Obj K))
  | [], e, k => k e
  | .ret r :: _, e, _ =>
    match r, e.status, e.objs param with
    | .true_, _, some o => return some o
    | .false_, _, _ => return none
    | .notFail, some s, some o => return (if s = .fail then none else some o)
    | _, _, _ => Prog.ub
  | .single vt t b p :: l, e, k =>
    match codeNamed vt, isType K t, e.ptr p with
    | some code, true, some (some p) => do
      match e.afterSingle p (← readSingleText env K code key b) with
      | some e' => execSimpleR env key param l e' k
      | none => Prog.ub
    | _, _, _ => Prog.ub
  | .array vt t b p q :: l, e, k =>
    match codeNamed vt, isType K t, e.ptr p, e.ptr q with
    | some code, true, some (some p), some q => do
      match e.afterArray p q (← readArrayText env K code key b q.isSome) with
      | some e' => execSimpleR env key param l e' k
      | none => Prog.ub
    | _, _, _, _ => Prog.ub
  | s :: l, e, k =>
    match pureStep e s with
    | some e' => execSimpleR env key param l e' k
    | none => Prog.ub

/-- The body of a `Read`. -/
def execR (env : REnv) (call : Ty → Obj K → Prog RStream (Option (Obj K))) (key : Bytes) (param : Name) :
    List Stmt → Env K → Prog RStream (Option (Obj K))
  | [], _ => Prog.ub
  | .simple s :: l, e => execSimpleR env key param [s] e (execR env call key param l)
  | .cond (.has x) a b :: l, e =>
    match e.has x with
    | some h => execSimpleR env key param (if h then a else b) e (execR env call key param l)
    | none => Prog.ub
  | .cond .isEmpty a b :: l, e =>
    match e.status with
    | some s => execSimpleR env key param (if s = .successEmpty then a else b) e (execR env call key param l)
    | none => Prog.ub
  | .cond (.notRead ty x) a b :: l, e =>
    match e.objs x with
    | some o => do
      match ← call ty o with
      -- the variable is not used after a failure
      | none => execSimpleR env key param a { e with objs := fun y => if y = x then none else e.objs y } (execR env call key param l)
      | some o' => execSimpleR env key param b (e.put x o') (execR env call key param l)
    | none => Prog.ub

/-- `this->Read<T>( key, key_length, x )` in a program with the given specialisations; calls nest at most `n` deep. -/
def readText (file : List Fn) (env : REnv) (key : Bytes) : Nat → Ty → Obj K → Prog RStream (Option (Obj K))
  | 0, _, _ => Prog.ub
  | n + 1, ty, o =>
    match file.find? fun f => decide (f.ty = ty) with
    | some f =>
      if ¬ f.isWrite ∧ f.paramTy = ty ∧ o.c = ty.1 ∧ isType K ty.2 then
        execR env (readText file env key n) key f.param f.body (Env.entry f.param o)
      else Prog.ub
    | none => Prog.ub

end ISD.Over
