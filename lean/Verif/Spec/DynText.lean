import Verif.Spec.Cpp
import Verif.Model.VaryingHeap

/-!
# What the text of the functions for types chosen at run time means

A parser and a meaning for the C++ of ISD_DynamicTypes.cpp; the lexer is that of `Spec/Cpp`. Text outside the part of C++ used there has no meaning: it does not parse, or
it runs into `ub`. Nothing here refers to the generator.

The memory is that of `Model/VaryingHeap`: objects on a heap that know the type they were made with, and an allocator that may fail. `EntityWriter::Write<T>`,
`EntityReader::Read<T>`, `clear_combined_type<T>`, `==` and `=` of a type are those of `Model/Managed`. An exception while the contents of an object are copied is not
modelled. What is written to the log has no effect.
-/

namespace ISD.DynText

open Cpp (Name Raw)

/-! ## Tokens -/

/-- The tokens of a text that ends with the end of a line. -/
def tokens (text : List Char) : List Raw := (Cpp.run .space text).2

/-- A word. -/
def w (s : String) : Raw := .word s.toList

/-- A symbol. -/
def y (c : Char) : Raw := .sym c

/-! ## Syntax -/

/-- A type: a container and the name of a data type. -/
abbrev Ty := Container × Name

/-- `*((T*)x)`, `*((const T*)x)`. -/
structure Deref where
  ty : Ty
  var : Name

/-- A class with its one object. -/
structure Class where
  name : Name
  object : Name
  /-- `Type()`: `{ combined_type_information<A>::type_index , combined_type_information<B>::container_index }` -/
  typeIndex : Ty
  containerIndex : Ty
  /-- `New()`: `new T()` -/
  new : Ty
  /-- `Delete( void *data )`: `delete ((T*)(x));` -/
  delete : Deref
  /-- `Clear( void *data )`: `clear_combined_type(*((T*)x));` -/
  clear : Deref
  /-- `Write( …, const void *data )`: `writer.Write<T>( key , key_length , *((const U*)x) )` -/
  write : Ty × Deref
  /-- `Read( …, void *data )`: `reader.Read<T>( key , key_length , *((U*)x) )` -/
  read : Ty × Deref
  /-- `Copy( void *dest , const void *src )`: `*((T*)x) = *((const U*)y);` -/
  copy : Deref × Deref
  /-- `Equals( const void *dataA , const void *dataB )`: `*((const T*)x) == *((const U*)y)` -/
  equals : Deref × Deref

/-- The numbers in `_findTypeClass`: `(data_type * mul1 + container_type * mul2) % mod`, and `if( hashValue >= bound ) hashValue = first`. -/
structure Find where
  mul1 : Nat
  mul2 : Nat
  mod : Nat
  bound : Nat
  first : Nat

/-- Statements without a condition. -/
inductive Simple where
  /-- `void* x = {};` -/
  | declNull (x : Name)
  /-- `const _dynamicTypeClass *x = _findTypeClass( { a, b } );` -/
  | find (x a b : Name)
  /-- `x = y->New();` -/
  | new (x y : Name)
  /-- `ISDErrorLog << "…" << ISDErrorLogEnd;` -/
  | log
  /-- `x->M( args );` -/
  | call (x m : Name) (args : List Name)
  /-- `return x->M( args );` -/
  | retCall (x m : Name) (args : List Name)
  /-- `return std::tuple<void*, bool>(x, y != nullptr);` -/
  | retPair (x y : Name)
  | retTrue | retFalse

/-- Conditions. -/
inductive Cond where
  /-- `x` -/
  | good (x : Name)
  /-- `!x` -/
  | null (x : Name)
  /-- `!x || !y` -/
  | anyNull (x y : Name)

/-- Statements. -/
inductive Stmt where
  | simple (s : Simple) | cond (c : Cond) (body : List Simple)

/-- Parameters. -/
inductive Param where
  | dataType (x : Name) | containerType (x : Name) | pointer (x : Name) | key (x : Name) | keyLength (x : Name) | writer (x : Name) | reader (x : Name)

/-- A function. -/
structure Fn where
  name : Name
  params : List Param
  body : List Stmt

/-- The file. -/
structure File where
  classes : List Class
  tableSize : Nat
  table : List (Option Name)
  find : Find
  fns : List Fn

/-! ## Parser -/

/-- The rest of the tokens after the given ones. -/
def expect : List Raw → List Raw → Option (List Raw)
  | [], ts => some ts
  | e :: es, t :: ts => if e = t then expect es ts else none
  | _ :: _, [] => none

/-- A word. -/
def pWord : List Raw → Option (Name × List Raw)
  | .word x :: ts => some (x, ts)
  | _ => none

/-- A decimal number. -/
def number (x : Name) : Option Nat :=
  if x ≠ [] ∧ x.all Char.isDigit then some (x.foldl (fun n c => n * 10 + (c.toNat - '0'.toNat)) 0) else none

/-- A decimal number. -/
def pNum (ts : List Raw) : Option (Nat × List Raw) := do
  let (x, ts) ← pWord ts
  return (← number x, ts)

/-- The container template of a name. -/
def template (x : Name) : Option Container :=
  if x = "optional_value".toList then some .optionalValue
  else if x = "vector".toList then some .vector
  else if x = "optional_vector".toList then some .optionalVector
  else if x = "idx_vector".toList then some .idxVector
  else if x = "optional_idx_vector".toList then some .optionalIdxVector
  else none

/-- A type. -/
def pTy : List Raw → Option (Ty × List Raw)
  | .word c :: .sym '<' :: .word t :: .sym '>' :: ts => (template c).map fun c => ((c, t), ts)
  | .word t :: ts => some ((.none, t), ts)
  | _ => none

/-- `*((T*)x` or `*((const T*)x`; the last parenthesis is left. -/
def pDeref (isConst : Bool) (ts : List Raw) : Option (Deref × List Raw) := do
  let ts ← expect (if isConst then [y '*', y '(', y '(', w "const"] else [y '*', y '(', y '(']) ts
  let (t, ts) ← pTy ts
  let ts ← expect [y '*', y ')'] ts
  let (x, ts) ← pWord ts
  return (⟨t, x⟩, ts)

/-- The tokens between the holes of a class. -/
def clA : List Raw := [w "static", w "const", w "class"]
/-- More tokens. -/
def clB : List Raw := [y ':', w "public", w "_dynamicTypeClass", y '{', w "public", y ':']
/-- More tokens. -/
def clType1 : List Raw := [w "virtual", w "type_combo", w "Type", y '(', y ')', w "const", y '{', w "return", y '{', w "combined_type_information", y '<']
/-- More tokens. -/
def clType2 : List Raw := [y '>', y ':', y ':', w "type_index", y ',', w "combined_type_information", y '<']
/-- More tokens. -/
def clType3 : List Raw := [y '>', y ':', y ':', w "container_index", y '}', y ';', y '}']
/-- More tokens. -/
def clNew1 : List Raw := [w "virtual", w "void", y '*', w "New", y '(', y ')', w "const", y '{', w "return", w "new"]
/-- More tokens. -/
def clNew2 : List Raw := [y '(', y ')', y ';', y '}']
/-- More tokens. -/
def clDelete1 : List Raw := [w "virtual", w "void", w "Delete", y '(', w "void", y '*', w "data", y ')', w "const", y '{', w "delete", y '(', y '(']
/-- More tokens. -/
def clDelete2 : List Raw := [y '*', y ')', y '(']
/-- More tokens. -/
def clDelete3 : List Raw := [y ')', y ')', y ';', y '}']
/-- More tokens. -/
def clClear1 : List Raw := [w "virtual", w "void", w "Clear", y '(', w "void", y '*', w "data", y ')', w "const", y '{', w "clear_combined_type", y '(']
/-- More tokens. -/
def clClear2 : List Raw := [y ')', y ')', y ';', y '}']
/-- More tokens. -/
def clWrite1 : List Raw := [w "virtual", w "bool", w "Write", y '(', w "const", w "char", y '*', w "key", y ',', w "const", w "u8", w "key_length", y ',',
    w "EntityWriter", y '&', w "writer", y ',', w "const", w "void", y '*', w "data", y ')', w "const", y '{', w "return", w "writer", y '.', w "Write", y '<']
/-- More tokens. -/
def clWrite2 : List Raw := [y '>', y '(', w "key", y ',', w "key_length", y ',']
/-- More tokens. -/
def clWrite3 : List Raw := [y ')', y ')', y ';', y '}']
/-- More tokens. -/
def clRead1 : List Raw := [w "virtual", w "bool", w "Read", y '(', w "const", w "char", y '*', w "key", y ',', w "const", w "u8", w "key_length", y ',',
    w "EntityReader", y '&', w "reader", y ',', w "void", y '*', w "data", y ')', w "const", y '{', w "return", w "reader", y '.', w "Read", y '<']
/-- More tokens. -/
def clCopy1 : List Raw := [w "virtual", w "void", w "Copy", y '(', w "void", y '*', w "dest", y ',', w "const", w "void", y '*', w "src", y ')', w "const", y '{']
/-- More tokens. -/
def clCopy2 : List Raw := [y ')', y '=']
/-- More tokens. -/
def clCopy3 : List Raw := [y ')', y ';', y '}']
/-- More tokens. -/
def clEquals1 : List Raw := [w "virtual", w "bool", w "Equals", y '(', w "const", w "void", y '*', w "dataA", y ',', w "const", w "void", y '*', w "dataB", y ')',
    w "const", y '{', w "return"]
/-- More tokens. -/
def clEquals2 : List Raw := [y ')', y '=', y '=']
/-- More tokens. -/
def clEnd : List Raw := [y '}']

/-- A class with its object. -/
def pClass (ts : List Raw) : Option (Class × List Raw) := do
  let ts ← expect clA ts
  let (name, ts) ← pWord ts
  let ts ← expect clB ts
  let ts ← expect clType1 ts
  let (a, ts) ← pTy ts
  let ts ← expect clType2 ts
  let (b, ts) ← pTy ts
  let ts ← expect clType3 ts
  let ts ← expect clNew1 ts
  let (new, ts) ← pTy ts
  let ts ← expect clNew2 ts
  let ts ← expect clDelete1 ts
  let (t, ts) ← pTy ts
  let ts ← expect clDelete2 ts
  let (x, ts) ← pWord ts
  let ts ← expect clDelete3 ts
  let ts ← expect clClear1 ts
  let (clear, ts) ← pDeref false ts
  let ts ← expect clClear2 ts
  let ts ← expect clWrite1 ts
  let (wt, ts) ← pTy ts
  let ts ← expect clWrite2 ts
  let (wd, ts) ← pDeref true ts
  let ts ← expect clWrite3 ts
  let ts ← expect clRead1 ts
  let (rt, ts) ← pTy ts
  let ts ← expect clWrite2 ts
  let (rd, ts) ← pDeref false ts
  let ts ← expect clWrite3 ts
  let ts ← expect clCopy1 ts
  let (cd, ts) ← pDeref false ts
  let ts ← expect clCopy2 ts
  let (cs, ts) ← pDeref true ts
  let ts ← expect clCopy3 ts
  let ts ← expect clEquals1 ts
  let (ea, ts) ← pDeref true ts
  let ts ← expect clEquals2 ts
  let (eb, ts) ← pDeref true ts
  let ts ← expect clCopy3 ts
  let ts ← expect clEnd ts
  let (object, ts) ← pWord ts
  let ts ← expect [y ';'] ts
  return (⟨name, object, a, b, new, ⟨t, x⟩, clear, (wt, wd), (rt, rd), (cd, cs), (ea, eb)⟩, ts)

/-- Classes, as long as there are any. -/
def pClasses : Nat → List Raw → Option (List Class × List Raw)
  | 0, _ => none
  | fuel + 1, ts =>
    match expect clA ts with
    | none => some ([], ts)
    | some _ => do
      let (c, ts) ← pClass ts
      let (cs, ts) ← pClasses fuel ts
      return (c :: cs, ts)

/-- The entries of the table: `nullptr,` and `&object,`, to the closing brace. -/
def pTable : List Raw → Option (List (Option Name) × List Raw)
  | .word x :: .sym ',' :: ts => if x = "nullptr".toList then (pTable ts).map fun r => (none :: r.1, r.2) else none
  | .sym '&' :: .word x :: .sym ',' :: ts => (pTable ts).map fun r => (some x :: r.1, r.2)
  | .sym '}' :: .sym ';' :: ts => some ([], ts)
  | _ => none

/-- The tokens before the classes: what a pair of types is, when two are equal, and the methods of the base class. -/
def fileHead : List Raw := [w "namespace", w "ISD", y '{', w "namespace", w "dynamic_types", y '{', w "struct", w "type_combo", y '{', w "data_type_index",
    w "data_type", y '=', y '{', y '}', y ';', w "container_type_index", w "container_type", y '=', y '{', y '}', y ';', w "bool", w "operator", y '=', y '=',
    y '(', w "const", w "type_combo", y '&', w "other", y ')', w "const", y '{', w "return", w "other", y '.', w "data_type", y '=', y '=', w "this", y '-', y '>',
    w "data_type", y '&', y '&', w "other", y '.', w "container_type", y '=', y '=', w "this", y '-', y '>', w "container_type", y ';', y '}', y '}', y ';',
    w "class", w "_dynamicTypeClass", y '{', w "public", y ':', w "virtual", w "type_combo", w "Type", y '(', y ')', w "const", y '=', w "0", y ';', w "virtual",
    w "void", y '*', w "New", y '(', y ')', w "const", y '=', w "0", y ';', w "virtual", w "void", w "Delete", y '(', w "void", y '*', w "data", y ')', w "const",
    y '=', w "0", y ';', w "virtual", w "void", w "Clear", y '(', w "void", y '*', w "data", y ')', w "const", y '=', w "0", y ';', w "virtual", w "bool",
    w "Write", y '(', w "const", w "char", y '*', w "key", y ',', w "const", w "u8", w "key_length", y ',', w "EntityWriter", y '&', w "writer", y ',', w "const",
    w "void", y '*', w "data", y ')', w "const", y '=', w "0", y ';', w "virtual", w "bool", w "Read", y '(', w "const", w "char", y '*', w "key", y ',', w "const",
    w "u8", w "key_length", y ',', w "EntityReader", y '&', w "reader", y ',', w "void", y '*', w "data", y ')', w "const", y '=', w "0", y ';', w "virtual",
    w "void", w "Copy", y '(', w "void", y '*', w "dest", y ',', w "const", w "void", y '*', w "src", y ')', w "const", y '=', w "0", y ';', w "virtual", w "bool",
    w "Equals", y '(', w "const", w "void", y '*', w "dataA", y ',', w "const", w "void", y '*', w "dataB", y ')', w "const", y '=', w "0", y ';', y '}', y ';']

/-- The tokens before and after the size of the table. -/
def tbA : List Raw := [w "static", w "const", w "_dynamicTypeClass", y '*', w "_dynamicTypeClassHashTable", y '[']
/-- More tokens. -/
def tbB : List Raw := [y ']', y '=', y '{']

/-- The tokens of `_findTypeClass` between its numbers. -/
def fd1 : List Raw := [w "static", w "const", w "_dynamicTypeClass", y '*', w "_findTypeClass", y '(', w "type_combo", w "typeCombo", y ')', y '{', w "size_t",
    w "hashValue", y '=', y '(', y '(', y '(', y '(', w "size_t", y ')', w "typeCombo", y '.', w "data_type", y ')', y '*']
/-- More tokens. -/
def fd2 : List Raw := [y ')', y '+', y '(', y '(', y '(', w "size_t", y ')', w "typeCombo", y '.', w "container_type", y ')', y '*']
/-- More tokens. -/
def fd3 : List Raw := [y ')', y ')', y '%']
/-- More tokens. -/
def fd4 : List Raw := [y ';', w "while", y '(', w "_dynamicTypeClassHashTable", y '[', w "hashValue", y ']', y '!', y '=', w "nullptr", y ')', y '{',
    w "type_combo", w "type", y '=', w "_dynamicTypeClassHashTable", y '[', w "hashValue", y ']', y '-', y '>', w "Type", y '(', y ')', y ';', w "if", y '(',
    w "type", y '=', y '=', w "typeCombo", y ')', w "return", w "_dynamicTypeClassHashTable", y '[', w "hashValue", y ']', y ';', y '+', y '+', w "hashValue",
    y ';', w "if", y '(', w "hashValue", y '>', y '=']
/-- More tokens. -/
def fd5 : List Raw := [y ')', w "hashValue", y '=']
/-- More tokens. -/
def fd6 : List Raw := [y ';', y '}', w "ISDErrorLog", y '<', y '<', .str "Invalid typeCombo parameter { ".toList, y '<', y '<', y '(', w "int", y ')',
    w "typeCombo", y '.', w "data_type", y '<', y '<', .str " , ".toList, y '<', y '<', y '(', w "int", y ')', w "typeCombo", y '.', w "container_type", y '<',
    y '<', .str " } ".toList, y '<', y '<', w "ISDErrorLogEnd", y ';', w "return", w "nullptr", y ';', y '}']

/-- `_findTypeClass`. -/
def pFind (ts : List Raw) : Option (Find × List Raw) := do
  let ts ← expect fd1 ts
  let (mul1, ts) ← pNum ts
  let ts ← expect fd2 ts
  let (mul2, ts) ← pNum ts
  let ts ← expect fd3 ts
  let (mod, ts) ← pNum ts
  let ts ← expect fd4 ts
  let (bound, ts) ← pNum ts
  let ts ← expect fd5 ts
  let (first, ts) ← pNum ts
  let ts ← expect fd6 ts
  return (⟨mul1, mul2, mod, bound, first⟩, ts)

/-- Words, separated by commas, up to a parenthesis. -/
def pArgs : List Raw → Option (List Name × List Raw)
  | .word x :: .sym ',' :: ts => (pArgs ts).map fun r => (x :: r.1, r.2)
  | .word x :: .sym ')' :: ts => some ([x], ts)
  | .sym ')' :: ts => some ([], ts)
  | _ => none

/-- A statement without a condition. -/
def pSimple : List Raw → Option (Simple × List Raw)
  | .word a :: .word b :: ts =>
    if a = "const".toList ∧ b = "_dynamicTypeClass".toList then do
      let ts ← expect [y '*'] ts
      let (x, ts) ← pWord ts
      let ts ← expect [y '=', w "_findTypeClass", y '(', y '{'] ts
      let (p, ts) ← pWord ts
      let ts ← expect [y ','] ts
      let (q, ts) ← pWord ts
      let ts ← expect [y '}', y ')', y ';'] ts
      return (.find x p q, ts)
    else if a = "return".toList ∧ b = "true".toList then do
      let ts ← expect [y ';'] ts
      return (.retTrue, ts)
    else if a = "return".toList ∧ b = "false".toList then do
      let ts ← expect [y ';'] ts
      return (.retFalse, ts)
    else if a = "return".toList ∧ b = "std".toList then do
      let ts ← expect [y ':', y ':', w "tuple", y '<', w "void", y '*', y ',', w "bool", y '>', y '('] ts
      let (x, ts) ← pWord ts
      let ts ← expect [y ','] ts
      let (z, ts) ← pWord ts
      let ts ← expect [y '!', y '=', w "nullptr", y ')', y ';'] ts
      return (.retPair x z, ts)
    else if a = "return".toList then do
      let ts ← expect [y '-', y '>'] ts
      let (m, ts) ← pWord ts
      let ts ← expect [y '('] ts
      let (args, ts) ← pArgs ts
      let ts ← expect [y ';'] ts
      return (.retCall b m args, ts)
    else none
  | .word a :: .sym '*' :: ts =>
    if a = "void".toList then do
      let (x, ts) ← pWord ts
      let ts ← expect [y '=', y '{', y '}', y ';'] ts
      return (.declNull x, ts)
    else none
  | .word a :: .sym '<' :: .sym '<' :: .str _ :: ts =>
    if a = "ISDErrorLog".toList then do
      let ts ← expect [y '<', y '<', w "ISDErrorLogEnd", y ';'] ts
      return (.log, ts)
    else none
  | .word x :: .sym '=' :: ts => do
    let (z, ts) ← pWord ts
    let ts ← expect [y '-', y '>', w "New", y '(', y ')', y ';'] ts
    return (.new x z, ts)
  | .word x :: .sym '-' :: ts => do
    let ts ← expect [y '>'] ts
    let (m, ts) ← pWord ts
    let ts ← expect [y '('] ts
    let (args, ts) ← pArgs ts
    let ts ← expect [y ';'] ts
    return (.call x m args, ts)
  | _ => none

/-- Statements up to a closing brace. -/
def pBlock : Nat → List Raw → Option (List Simple × List Raw)
  | 0, _ => none
  | _ + 1, .sym '}' :: ts => some ([], ts)
  | fuel + 1, ts => do
    let (s, ts) ← pSimple ts
    let (ss, ts) ← pBlock fuel ts
    return (s :: ss, ts)

/-- A condition and its closing parenthesis. -/
def pCond : List Raw → Option (Cond × List Raw)
  | .word x :: .sym ')' :: ts => some (.good x, ts)
  | .sym '!' :: .word x :: .sym ')' :: ts => some (.null x, ts)
  | .sym '!' :: .word x :: .sym '|' :: .sym '|' :: .sym '!' :: .word z :: .sym ')' :: ts => some (.anyNull x z, ts)
  | _ => none

/-- A block, or one statement. -/
def pBody : List Raw → Option (List Simple × List Raw)
  | .sym '{' :: ts => pBlock ts.length ts
  | ts => do
    let (s, ts) ← pSimple ts
    return ([s], ts)

/-- A statement. -/
def pStmt : List Raw → Option (Stmt × List Raw)
  | .word a :: .sym '(' :: ts =>
    if a = "if".toList then do
      let (c, ts) ← pCond ts
      let (b, ts) ← pBody ts
      return (.cond c b, ts)
    else none
  | ts => do
    let (s, ts) ← pSimple ts
    return (.simple s, ts)

/-- Statements up to a closing brace. -/
def pStmts : Nat → List Raw → Option (List Stmt × List Raw)
  | 0, _ => none
  | _ + 1, .sym '}' :: ts => some ([], ts)
  | fuel + 1, ts => do
    let (s, ts) ← pStmt ts
    let (ss, ts) ← pStmts fuel ts
    return (s :: ss, ts)

/-- A parameter. -/
def pParam : List Raw → Option (Param × List Raw)
  | .word a :: .word b :: .sym '*' :: .word x :: ts =>
    if a = "const".toList ∧ b = "char".toList then some (.key x, ts)
    else if a = "const".toList ∧ b = "void".toList then some (.pointer x, ts)
    else none
  | .word a :: .word b :: .word x :: ts =>
    if a = "const".toList ∧ b = "u8".toList then some (.keyLength x, ts) else none
  | .word a :: .word x :: ts =>
    if a = "data_type_index".toList then some (.dataType x, ts)
    else if a = "container_type_index".toList then some (.containerType x, ts)
    else none
  | .word a :: .sym '*' :: .word x :: ts => if a = "void".toList then some (.pointer x, ts) else none
  | .word a :: .sym '&' :: .word x :: ts =>
    if a = "EntityWriter".toList then some (.writer x, ts)
    else if a = "EntityReader".toList then some (.reader x, ts)
    else none
  | _ => none

/-- Parameters up to a parenthesis. -/
def pParams : Nat → List Raw → Option (List Param × List Raw)
  | 0, _ => none
  | fuel + 1, ts => do
    let (p, ts) ← pParam ts
    match ts with
    | .sym ',' :: ts => do
      let (ps, ts) ← pParams fuel ts
      return (p :: ps, ts)
    | .sym ')' :: ts => return ([p], ts)
    | _ => none

/-- What a function returns: `bool`, or `std::tuple<void*, bool>`. -/
def pResult : List Raw → Option (List Raw)
  | .word a :: ts => if a = "bool".toList then some ts else if a = "std".toList then expect [y ':', y ':', w "tuple", y '<', w "void", y '*', y ',', w "bool",
    y '>'] ts else none
  | _ => none

/-- A function. -/
def pFn (ts : List Raw) : Option (Fn × List Raw) := do
  let ts ← pResult ts
  let (name, ts) ← pWord ts
  let ts ← expect [y '('] ts
  let (ps, ts) ← pParams ts.length ts
  let ts ← expect [y '{'] ts
  let (b, ts) ← pStmts ts.length ts
  return (⟨name, ps, b⟩, ts)

/-- Functions up to the end of the namespaces. -/
def pFns : Nat → List Raw → Option (List Fn)
  | 0, _ => none
  | _ + 1, [.sym '}', .sym ';', .sym '}', .sym ';'] => some []
  | fuel + 1, ts => do
    let (f, ts) ← pFn ts
    let fs ← pFns fuel ts
    return f :: fs

/-- The file. -/
def parse (ts : List Raw) : Option File := do
  let n := ts.length
  let ts ← expect fileHead ts
  let (classes, ts) ← pClasses n ts
  let ts ← expect tbA ts
  let (size, ts) ← pNum ts
  let ts ← expect tbB ts
  let (table, ts) ← pTable ts
  let (find, ts) ← pFind ts
  let fns ← pFns n ts
  return ⟨classes, size, table, find, fns⟩

/-! ## Meaning -/

/-- The memory: the heap, a writer and a reader. -/
structure Mem where
  world : VHeap.World
  out : WSt
  inp : RSt

/-- What does not change from call to call: the allocator, what the reader depends on besides its stream, and what a failed read leaves behind. -/
structure Outside where
  al : VHeap.Allocator
  env : REnv
  left : Leftover

/-- Values of variables. A pointer is null or an address. -/
inductive Val where
  | dataType (x : Word 4) | containerType (x : Word 4) | ptr (p : Option Nat) | cls (c : Option Class)
  | key (k : Bytes) | len (n : Nat) | writer | reader

/-- What a call gives. -/
inductive Out where
  | void | bool (b : Bool) | ptr (p : Option Nat) | pair (p : Option Nat) (b : Bool)

/-- The variables. -/
abbrev Env := List (Name × Val)

/-- The value of a variable. -/
def Env.get (e : Env) (x : Name) : Option Val := (e.find? fun p => p.1 == x).map fun p => p.2

/-- The data type of a name. -/
def typeNamed (n : Name) : Option DataType := allTypes.find? fun t => t.name.toList == n

/-- `data_type_index` of a name. -/
def indexNamed (n : Name) : Option Nat := (typeIds.find? fun p => p.2.name.toList == n).map fun p => p.1

/-- The object of the type at an address; undefined behaviour if there is none, or one of another type. -/
def object (ty : Ty) (a : Nat) : Prog Mem DynObj := fun m =>
  match m.world.heap a, typeNamed ty.2 with
  | some o, some t => if o.t = t ∧ o.c = ty.1 then .ok o m else .ub
  | _, _ => .ub

/-- Replace what is at an address. -/
def put (a : Nat) (o : Option DynObj) : Prog Mem Unit := fun m => .ok () { m with world := { m.world with heap := VHeap.upd m.world.heap a o } }

/-- The address and the object that `*((T*)x)` is. -/
def target (e : Env) (d : Deref) : Prog Mem (Nat × DynObj) :=
  match e.get d.var with
  | some (.ptr (some a)) => do
    let o ← object d.ty a
    return (a, o)
  | _ => Prog.ub

/-- `new T()`. -/
def newObject (al : VHeap.Allocator) (ty : Ty) : Prog Mem Nat := fun m =>
  match typeNamed ty.2 with
  | none => .ub
  | some t =>
    if al.allocOk m.world.n then
      .ok (al.pick m.world.heap)
        { m with world := { m.world with heap := VHeap.upd m.world.heap (al.pick m.world.heap) (some ⟨t, ty.1, ty.1.zero t.zero⟩), n := m.world.n + 1 } }
    else .throw { m with world := { m.world with n := m.world.n + 1 } }

/-- `writer.Write<T>( key , key_length , o )`. -/
def writeObject (k : Bytes) (o : DynObj) : Prog Mem Bool := fun m =>
  match EWriter.write o.t o.c k o.v m.out with
  | .ok b s => .ok b { m with out := s }
  | .throw s => .throw { m with out := s }
  | .ub => .ub

/-- `reader.Read<T>( key , key_length , o )` with the object at the address. -/
def readObject (x : Outside) (k : Bytes) (a : Nat) (o : DynObj) : Prog Mem Bool := fun m =>
  match readBaseInPlace x.left x.env o.t o.c k (m.inp, o.v) with
  | .ok b (s, v) => .ok b { m with inp := s, world := { m.world with heap := VHeap.upd m.world.heap a (some ⟨o.t, o.c, v⟩) } }
  | .throw (s, v) => .throw { m with inp := s, world := { m.world with heap := VHeap.upd m.world.heap a (some ⟨o.t, o.c, v⟩) } }
  | .ub => .ub

/-- A call of a virtual method of an object. The names of the parameters are those of the declarations. -/
def method (x : Outside) (cl : Class) (m : Name) (args : List Val) : Prog Mem Out :=
  if m = "New".toList then
    match args with
    | [] => do return .ptr (some (← newObject x.al cl.new))
    | _ => Prog.ub
  else if m = "Delete".toList then
    match args with
    | [p] => do
      let (a, _) ← target [("data".toList, p)] cl.delete
      put a none
      return .void
    | _ => Prog.ub
  else if m = "Clear".toList then
    match args with
    | [p] => do
      let (a, o) ← target [("data".toList, p)] cl.clear
      put a (some ⟨o.t, o.c, o.c.zero o.t.zero⟩)
      return .void
    | _ => Prog.ub
  else if m = "Write".toList then
    match args with
    | [.key k, .len n, .writer, p] => do
      let (_, o) ← target [("data".toList, p)] cl.write.2
      if n = k.length ∧ cl.write.1 = cl.write.2.ty then return .bool (← writeObject k o) else Prog.ub
    | _ => Prog.ub
  else if m = "Read".toList then
    match args with
    | [.key k, .len n, .reader, p] => do
      let (a, o) ← target [("data".toList, p)] cl.read.2
      if n = k.length ∧ cl.read.1 = cl.read.2.ty then return .bool (← readObject x k a o) else Prog.ub
    | _ => Prog.ub
  else if m = "Copy".toList then
    match args with
    | [p, q] => do
      let e : Env := [("dest".toList, p), ("src".toList, q)]
      let (a, _) ← target e cl.copy.1
      let (_, o) ← target e cl.copy.2
      if cl.copy.1.ty = cl.copy.2.ty then
        put a (some o)
        return .void
      else Prog.ub
    | _ => Prog.ub
  else if m = "Equals".toList then
    match args with
    | [p, q] => do
      let e : Env := [("dataA".toList, p), ("dataB".toList, q)]
      let (_, o) ← target e cl.equals.1
      let (_, o') ← target e cl.equals.2
      if cl.equals.1.ty = cl.equals.2.ty then return .bool (o.equal o') else Prog.ub
    | _ => Prog.ub
  else Prog.ub

/-- The class of the object that an entry of the table points to; `none` inside for `nullptr`, outside for an entry that is not there or a name that is not declared. -/
def File.entry (f : File) (h : Nat) : Option (Option Class) :=
  if f.table.length = f.tableSize then
    match f.table[h]? with
    | none => none
    | some none => some none
    | some (some n) => (f.classes.find? fun c => c.object == n).map some
  else none

/-- What `Type()` returns. -/
def Class.type (c : Class) : Option (Nat × Nat) := (indexNamed c.typeIndex.2).map fun i => (i, c.containerIndex.1.id)

/-- The loop of `_findTypeClass`. A search with more turns than the table has entries never ends. -/
def File.search (f : File) (dt ct : Word 4) : Nat → Nat → Option (Option Class)
  | 0, _ => none
  | fuel + 1, h =>
    match f.entry h with
    | none => none
    | some none => some none
    | some (some c) =>
      match c.type with
      | none => none
      | some (i, j) =>
        if BitVec.ofNat 32 i = dt ∧ BitVec.ofNat 32 j = ct then some (some c)
        else f.search dt ct fuel (if h + 1 ≥ f.find.bound then f.find.first else h + 1)

/-- `_findTypeClass`, in `size_t` arithmetic. -/
def File.lookup (f : File) (dt ct : Word 4) : Option (Option Class) :=
  if f.find.mod = 0 then none
  else f.search dt ct f.table.length
    (wrap64 (wrap64 (sizeOfEnum dt * f.find.mul1) + wrap64 (sizeOfEnum ct * f.find.mul2)) % f.find.mod)

/-- The values of some variables. -/
def Env.all (e : Env) : List Name → Option (List Val)
  | [] => some []
  | x :: xs =>
    match e.get x, e.all xs with
    | some v, some vs => some (v :: vs)
    | _, _ => none

/-- A call through a variable. -/
def through (x : Outside) (e : Env) (v m : Name) (args : List Name) : Prog Mem Out :=
  match e.get v, e.all args with
  | some (.cls (some c)), some vs => method x c m vs
  | _, _ => Prog.ub

/-- A statement without a condition: the variables after it, or the result. -/
def simple (x : Outside) (f : File) (e : Env) : Simple → Prog Mem (Env ⊕ Out)
  | .declNull v => return .inl ((v, .ptr none) :: e)
  | .find v a b =>
    match e.get a, e.get b with
    | some (.dataType dt), some (.containerType ct) =>
      match f.lookup dt ct with
      | some c => return .inl ((v, .cls c) :: e)
      | none => Prog.ub
    | _, _ => Prog.ub
  | .new v c => do
    match ← through x e c "New".toList [], e.get v with
    | .ptr p, some (.ptr _) => return .inl ((v, .ptr p) :: e)
    | _, _ => Prog.ub
  | .log => return .inl e
  | .call v m args => do
    let _ ← through x e v m args
    return .inl e
  | .retCall v m args => do
    match ← through x e v m args with
    | .bool b => return .inr (.bool b)
    | _ => Prog.ub
  | .retPair a b =>
    match e.get a, e.get b with
    | some (.ptr p), some (.ptr q) => return .inr (.pair p q.isSome)
    | _, _ => Prog.ub
  | .retTrue => return .inr (.bool true)
  | .retFalse => return .inr (.bool false)

/-- A variable as a condition. -/
def Env.isGood (e : Env) (x : Name) : Option Bool :=
  match e.get x with
  | some (.ptr p) => some p.isSome
  | some (.cls c) => some c.isSome
  | _ => none

/-- A condition. -/
def cond (e : Env) : Cond → Option Bool
  | .good x => e.isGood x
  | .null x => (e.isGood x).map (!·)
  | .anyNull x z =>
    match e.isGood x, e.isGood z with
    | some a, some b => some (!a || !b)
    | _, _ => none

/-- Statements without a condition, one after the other. -/
def block (x : Outside) (f : File) : Env → List Simple → Prog Mem (Env ⊕ Out)
  | e, [] => return .inl e
  | e, s :: ss => do
    match ← simple x f e s with
    | .inl e => block x f e ss
    | .inr o => return .inr o

/-- Statements. A function whose end is reached without a result has none. -/
def stmts (x : Outside) (f : File) : Env → List Stmt → Prog Mem Out
  | _, [] => Prog.ub
  | e, .simple s :: ss => do
    match ← simple x f e s with
    | .inl e => stmts x f e ss
    | .inr o => return o
  | e, .cond c b :: ss =>
    match cond e c with
    | none => Prog.ub
    | some false => stmts x f e ss
    | some true => do
      match ← block x f e b with
      | .inl e => stmts x f e ss
      | .inr o => return o

/-- The parameters with their values. -/
def enter : List Param → List Val → Option Env
  | [], [] => some []
  | .dataType n :: ps, .dataType v :: vs => (enter ps vs).map fun e => (n, .dataType v) :: e
  | .containerType n :: ps, .containerType v :: vs => (enter ps vs).map fun e => (n, .containerType v) :: e
  | .pointer n :: ps, .ptr v :: vs => (enter ps vs).map fun e => (n, .ptr v) :: e
  | .key n :: ps, .key v :: vs => (enter ps vs).map fun e => (n, .key v) :: e
  | .keyLength n :: ps, .len v :: vs => (enter ps vs).map fun e => (n, .len v) :: e
  | .writer n :: ps, .writer :: vs => (enter ps vs).map fun e => (n, .writer) :: e
  | .reader n :: ps, .reader :: vs => (enter ps vs).map fun e => (n, .reader) :: e
  | _, _ => none

/-- A call of a function of the file. -/
def File.call (f : File) (x : Outside) (name : String) (args : List Val) : Prog Mem Out :=
  match f.fns.find? fun g => g.name == name.toList with
  | none => Prog.ub
  | some g =>
    match enter g.params args with
    | none => Prog.ub
    | some e => stmts x f e g.body

/-- A call of a function of a file with this text. -/
def call (text : List Char) (x : Outside) (name : String) (args : List Val) : Prog Mem Out :=
  match parse (tokens text) with
  | none => Prog.ub
  | some f => f.call x name args

end ISD.DynText
