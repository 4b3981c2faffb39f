import Verif.Model.Managed

/-!
# What the generated C++ text means

A lexer, a parser and a meaning for the part of C++ that the code generator uses. Text outside that part means nothing here (`none`), so a
statement that some text means something says that the text is in that part. Nothing here refers to the generator.

Simplifications: preprocessor lines are skipped; a symbol of two characters (`==`, `->`) is the same with a space inside.
-/

namespace ISD.Cpp

/-- An identifier. -/
abbrev Name := List Char

/-! ## Lexer -/

/-- Words, strings and symbols. -/
inductive Raw where
  | word (s : Name) | str (s : List Char) | sym (c : Char)
  deriving DecidableEq

/-- What the lexer is in the middle of. -/
inductive St where
  | space | word (a : Name) | str (a : List Char) | slash | skip
  deriving DecidableEq

/-- The characters of identifiers. -/
def isId (c : Char) : Bool := c.isAlphanum || c == '_'

/-- A character outside words, strings and comments. -/
def start (c : Char) : St × List Raw :=
  if isId c then (.word [c], [])
  else if c = ' ' then (.space, [])
  else if c = '\t' then (.space, [])
  else if c = '\n' then (.space, [])
  else if c = '/' then (.slash, [])
  else if c = '#' then (.skip, [])
  else if c = '"' then (.str [], [])
  else (.space, [.sym c])

/-- One character. -/
def step : St → Char → St × List Raw
  | .space, c => start c
  | .word a, c => if isId c then (.word (a ++ [c]), []) else ((start c).1, .word a :: (start c).2)
  | .str a, c => if c = '"' then (.space, [.str a]) else if c = '\n' then (.space, [.sym '"']) else (.str (a ++ [c]), [])
  | .slash, c => if c = '/' then (.skip, []) else if c = '\n' then (.space, [.sym '/']) else (.skip, [.sym '/'])
  | .skip, c => if c = '\n' then (.space, []) else (.skip, [])

/-- The lexer. -/
def run : St → List Char → St × List Raw
  | s, [] => (s, [])
  | s, c :: cs => ((run (step s c).1 cs).1, (step s c).2 ++ (run (step s c).1 cs).2)

/-- Tokens. `mem n` is the word `v_n`. -/
inductive Tok where
  | id (s : Name) | mem (s : Name) | str (s : List Char) | bad
  -- symbols
  | lpar | rpar | lbrace | rbrace | semi | comma | lt | gt | colon | dot | assign | bang | amp | star | pipe | minus | tilde
  -- words of the language and its library
  | namespace_ | class_ | public_ | protected_ | using_ | friend_ | static_ | inline_ | const_ | return_ | if_ | void_ | true_ | false_
  | nullptr_ | default_ | operator_ | this_ | std_ | tie | vector
  -- words of the ISD library
  | optionalValue | optionalVector | idxVector | optionalIdxVector | isd | entityWriter | entityReader | entityValidator | keyMacro
  | reset | beginWriteSection | endWriteSection | beginReadSection | endReadSection
  -- words of the generated classes
  | mf | clear | deepCopy | equals | write | read | validate
  | obj | dest | source | lvar | rvar | rval | writer | reader | validator | success | sectionWriter | sectionReader
  deriving DecidableEq

/-- The words with a meaning of their own. -/
def words : List (String × Tok) :=
  [("namespace", .namespace_), ("class", .class_), ("public", .public_), ("protected", .protected_), ("using", .using_),
   ("friend", .friend_), ("static", .static_), ("inline", .inline_), ("const", .const_), ("return", .return_), ("if", .if_),
   ("void", .void_), ("true", .true_), ("false", .false_), ("nullptr", .nullptr_), ("default", .default_), ("operator", .operator_),
   ("this", .this_), ("std", .std_), ("tie", .tie), ("vector", .vector), ("optional_value", .optionalValue),
   ("optional_vector", .optionalVector), ("idx_vector", .idxVector), ("optional_idx_vector", .optionalIdxVector), ("ISD", .isd),
   ("EntityWriter", .entityWriter), ("EntityReader", .entityReader), ("EntityValidator", .entityValidator), ("ISDKeyMacro", .keyMacro),
   ("reset", .reset), ("BeginWriteSection", .beginWriteSection), ("EndWriteSection", .endWriteSection),
   ("BeginReadSection", .beginReadSection), ("EndReadSection", .endReadSection), ("MF", .mf), ("Clear", .clear),
   ("DeepCopy", .deepCopy), ("Equals", .equals), ("Write", .write), ("Read", .read), ("Validate", .validate), ("obj", .obj),
   ("dest", .dest), ("source", .source), ("lvar", .lvar), ("rvar", .rvar), ("rval", .rval), ("writer", .writer), ("reader", .reader),
   ("validator", .validator), ("success", .success), ("section_writer", .sectionWriter), ("section_reader", .sectionReader)]

/-- The token of a word. -/
def word (s : Name) : Tok :=
  match words.find? fun w => w.1.toList == s with
  | some w => w.2
  | none =>
    match s with
    | 'v' :: '_' :: n => .mem n
    | _ => .id s

/-- A word that is an identifier and has no meaning of its own. -/
structure Plain (s : String) : Prop where
  nonempty : s.toList ≠ []
  chars : ∀ c ∈ s.toList, isId c
  word : word s.toList = .id s.toList

/-- The token of a symbol. -/
def symbol (c : Char) : Tok :=
  if c = '(' then .lpar else if c = ')' then .rpar else if c = '{' then .lbrace else if c = '}' then .rbrace
  else if c = ';' then .semi else if c = ',' then .comma else if c = '<' then .lt else if c = '>' then .gt
  else if c = ':' then .colon else if c = '.' then .dot else if c = '=' then .assign else if c = '!' then .bang
  else if c = '&' then .amp else if c = '*' then .star else if c = '|' then .pipe else if c = '-' then .minus
  else if c = '~' then .tilde else .bad

/-- The token. -/
def classify : Raw → Tok
  | .word s => word s
  | .str s => .str s
  | .sym c => symbol c

/-- The tokens of a text that ends with the end of a line. -/
def tokens (text : List Char) : List Tok := (run .space text).2.map classify

/-! ## Parser -/

/-- A type: `T`, or a container of `T`. -/
abbrev Ty := Container × Name

/-- Simple statements. Names are given without `v_`. -/
inductive Act where
  /-- `obj.v_n.reset();` -/
  | reset (n : Name)
  /-- `obj.v_n = {};` -/
  | assignDefault (n : Name)
  /-- `T::MF::Clear( obj.v_n );` -/
  | clear (t n : Name)
  /-- `MF::Clear( dest );` -/
  | clearDest
  /-- `dest.v_n = source->v_m;` -/
  | copy (n m : Name)
  /-- `T::MF::DeepCopy( dest.v_n , &(source->v_m) );` -/
  | deepCopy (t n m : Name)
  /-- `success = writer.Write<T>( ISDKeyMacro("k") , obj.v_n );` -/
  | writeBase (ty : Ty) (k : List Char) (n : Name)
  /-- `success = (section_writer = writer.BeginWriteSection( ISDKeyMacro("k") ));` -/
  | beginWrite (k : List Char)
  /-- `writer.EndWriteSection( section_writer );` -/
  | endWrite
  /-- `section_writer = nullptr;` -/
  | dropWriter
  /-- `success = reader.Read<T>( ISDKeyMacro("k") , obj.v_n );` -/
  | readBase (ty : Ty) (k : List Char) (n : Name)
  /-- `std::tie(section_reader,success) = reader.BeginReadSection( ISDKeyMacro("k") , false );` -/
  | beginRead (k : List Char) (nullAllowed : Bool)
  /-- `reader.EndReadSection( section_reader );` -/
  | endRead
  /-- `section_reader = nullptr;` -/
  | dropReader
  /-- `success = T::MF::Validate( obj.v_n , validator );` -/
  | validate (t n : Name)

/-- Conditions. -/
inductive Cond where
  /-- `!source` -/
  | notSource
  /-- `lvar == rvar` -/
  | samePointer
  /-- `!lvar || !rvar` -/
  | anyNull
  /-- `lvar->v_n != rvar->v_m` -/
  | differ (n m : Name)
  /-- `!E::T::MF::Equals( &lvar->v_n , &rvar->v_m )` -/
  | notEquals (e t n m : Name)
  /-- `!success` -/
  | notSuccess
  /-- `!E::T::MF::Write( obj.v_n, *section_writer )` -/
  | notWrite (e t n : Name)
  /-- `section_reader` -/
  | hasReader
  /-- `!E::T::MF::Read( obj.v_n, *section_reader )` -/
  | notRead (e t n : Name)

/-- Statements up to the end of the block. -/
inductive Stmts where
  | nil
  | act (a : Act) (rest : Stmts)
  /-- `return;`, `return true;` or `return false;` -/
  | ret (r : Option Bool) (rest : Stmts)
  /-- `if( c ) { body }` -/
  | cond (c : Cond) (body rest : Stmts)

/-- A type. -/
def parseTy : List Tok → Option (Ty × List Tok)
  | .id t :: r => some ((.none, t), r)
  | .optionalValue :: .lt :: .id t :: .gt :: r => some ((.optionalValue, t), r)
  | .std_ :: .colon :: .colon :: .vector :: .lt :: .id t :: .gt :: r => some ((.vector, t), r)
  | .optionalVector :: .lt :: .id t :: .gt :: r => some ((.optionalVector, t), r)
  | .idxVector :: .lt :: .id t :: .gt :: r => some ((.idxVector, t), r)
  | .optionalIdxVector :: .lt :: .id t :: .gt :: r => some ((.optionalIdxVector, t), r)
  | _ => none

/-- Behind `obj`. -/
def objAct : List Tok → Option (Act × List Tok)
  | .dot :: .mem n :: .dot :: .reset :: .lpar :: .rpar :: .semi :: r => some (.reset n, r)
  | .dot :: .mem n :: .assign :: .lbrace :: .rbrace :: .semi :: r => some (.assignDefault n, r)
  | _ => none

/-- Behind `T::MF::`. -/
def classAct (t : Name) : List Tok → Option (Act × List Tok)
  | .clear :: .lpar :: .obj :: .dot :: .mem n :: .rpar :: .semi :: r => some (.clear t n, r)
  | .deepCopy :: .lpar :: .dest :: .dot :: .mem n :: .comma :: .amp :: .lpar :: .source :: .minus :: .gt :: .mem m :: .rpar :: .rpar ::
      .semi :: r => some (.deepCopy t n m, r)
  | _ => none

/-- `>( ISDKeyMacro("k") , obj.v_n );` -/
def keyAndMember : List Tok → Option ((List Char × Name) × List Tok)
  | .gt :: .lpar :: .keyMacro :: .lpar :: .str k :: .rpar :: .comma :: .obj :: .dot :: .mem n :: .rpar :: .semi :: r => some ((k, n), r)
  | _ => none

/-- Behind `success =`. -/
def successAct : List Tok → Option (Act × List Tok)
  | .writer :: .dot :: .write :: .lt :: r =>
    match parseTy r with
    | some (ty, r) =>
      match keyAndMember r with
      | some (kn, r) => some (.writeBase ty kn.1 kn.2, r)
      | none => none
    | none => none
  | .reader :: .dot :: .read :: .lt :: r =>
    match parseTy r with
    | some (ty, r) =>
      match keyAndMember r with
      | some (kn, r) => some (.readBase ty kn.1 kn.2, r)
      | none => none
    | none => none
  | .lpar :: .sectionWriter :: .assign :: .writer :: .dot :: .beginWriteSection :: .lpar :: .keyMacro :: .lpar :: .str k :: .rpar ::
      .rpar :: .rpar :: .semi :: r => some (.beginWrite k, r)
  | .id t :: .colon :: .colon :: .mf :: .colon :: .colon :: .validate :: .lpar :: .obj :: .dot :: .mem n :: .comma :: .validator ::
      .rpar :: .semi :: r => some (.validate t n, r)
  | _ => none

/-- Behind `std::tie(section_reader,success) = reader.BeginReadSection( ISDKeyMacro("k") ,`. -/
def tieAct (k : List Char) : List Tok → Option (Act × List Tok)
  | .true_ :: .rpar :: .semi :: r => some (.beginRead k true, r)
  | .false_ :: .rpar :: .semi :: r => some (.beginRead k false, r)
  | _ => none

/-- A simple statement. -/
def parseAct : List Tok → Option (Act × List Tok)
  | .obj :: r => objAct r
  | .id t :: .colon :: .colon :: .mf :: .colon :: .colon :: r => classAct t r
  | .mf :: .colon :: .colon :: .clear :: .lpar :: .dest :: .rpar :: .semi :: r => some (.clearDest, r)
  | .dest :: .dot :: .mem n :: .assign :: .source :: .minus :: .gt :: .mem m :: .semi :: r => some (.copy n m, r)
  | .success :: .assign :: r => successAct r
  | .writer :: .dot :: .endWriteSection :: .lpar :: .sectionWriter :: .rpar :: .semi :: r => some (.endWrite, r)
  | .sectionWriter :: .assign :: .nullptr_ :: .semi :: r => some (.dropWriter, r)
  | .std_ :: .colon :: .colon :: .tie :: .lpar :: .sectionReader :: .comma :: .success :: .rpar :: .assign :: .reader :: .dot ::
      .beginReadSection :: .lpar :: .keyMacro :: .lpar :: .str k :: .rpar :: .comma :: r => tieAct k r
  | .reader :: .dot :: .endReadSection :: .lpar :: .sectionReader :: .rpar :: .semi :: r => some (.endRead, r)
  | .sectionReader :: .assign :: .nullptr_ :: .semi :: r => some (.dropReader, r)
  | _ => none

/-- Behind `!E::T::MF::`. -/
def callCond (e t : Name) : List Tok → Option (Cond × List Tok)
  | .equals :: .lpar :: .amp :: .lvar :: .minus :: .gt :: .mem n :: .comma :: .amp :: .rvar :: .minus :: .gt :: .mem m :: .rpar ::
      .rpar :: r => some (.notEquals e t n m, r)
  | .write :: .lpar :: .obj :: .dot :: .mem n :: .comma :: .star :: .sectionWriter :: .rpar :: .rpar :: r => some (.notWrite e t n, r)
  | .read :: .lpar :: .obj :: .dot :: .mem n :: .comma :: .star :: .sectionReader :: .rpar :: .rpar :: r => some (.notRead e t n, r)
  | _ => none

/-- Behind `!`. -/
def notCond : List Tok → Option (Cond × List Tok)
  | .source :: .rpar :: r => some (.notSource, r)
  | .success :: .rpar :: r => some (.notSuccess, r)
  | .lvar :: .pipe :: .pipe :: .bang :: .rvar :: .rpar :: r => some (.anyNull, r)
  | .id e :: .colon :: .colon :: .id t :: .colon :: .colon :: .mf :: .colon :: .colon :: r => callCond e t r
  | _ => none

/-- Behind `if(`, up to the closing parenthesis. -/
def parseCond : List Tok → Option (Cond × List Tok)
  | .bang :: r => notCond r
  | .lvar :: .assign :: .assign :: .rvar :: .rpar :: r => some (.samePointer, r)
  | .lvar :: .minus :: .gt :: .mem n :: .bang :: .assign :: .rvar :: .minus :: .gt :: .mem m :: .rpar :: r => some (.differ n m, r)
  | .sectionReader :: .rpar :: r => some (.hasReader, r)
  | _ => none

/-- `return`, with its value. -/
def parseRet : List Tok → Option (Option Bool × List Tok)
  | .semi :: r => some (none, r)
  | .true_ :: .semi :: r => some (some true, r)
  | .false_ :: .semi :: r => some (some false, r)
  | _ => none

/-- Put something before the statements that follow. -/
def before (f : Stmts → Stmts) : Option (Stmts × List Tok) → Option (Stmts × List Tok)
  | some (s, r) => some (f s, r)
  | none => none

/-- The statements up to the closing brace. The number bounds the nesting and the number of statements. -/
def stmts : Nat → List Tok → Option (Stmts × List Tok)
  | 0, _ => none
  | _ + 1, .rbrace :: r => some (.nil, r)
  | n + 1, .return_ :: r =>
    match parseRet r with
    | some (v, r) => before (.ret v) (stmts n r)
    | none => none
  | n + 1, .if_ :: .lpar :: r =>
    match parseCond r with
    | some (c, .lbrace :: r) =>
      match stmts n r with
      | some (body, r) => before (.cond c body) (stmts n r)
      | none => none
    | some (c, .return_ :: r) =>
      match parseRet r with
      | some (v, r) => before (.cond c (.ret v .nil)) (stmts n r)
      | none => none
    | _ => none
  | n + 1, ts =>
    match parseAct ts with
    | some (a, r) => before (.act a) (stmts n r)
    | none => none

/-- What is behind the given tokens. -/
def strip : List Tok → List Tok → Option (List Tok)
  | [], r => some r
  | t :: ts, u :: r => if t = u then strip ts r else none
  | _ :: _, [] => none

/-- The name of the type `bool`, which is an identifier here because it is also a type of variables. -/
def bool_ : Tok := .id ['b', 'o', 'o', 'l']

/-- `E::MF::` -/
def inMF (e : Name) : List Tok := [.id e, .colon, .colon, .mf, .colon, .colon]

/-- The functions of a source file, with what is declared at their beginning. -/
structure Source where
  clear : Stmts
  deepCopy : Stmts
  equals : Stmts
  writeSection : Bool
  write : Stmts
  readSection : Bool
  read : Stmts
  validate : Stmts

/-- `EntityWriter *section_writer = nullptr;`, if it is there. -/
def declWriter : List Tok → Bool × List Tok
  | .entityWriter :: .star :: .sectionWriter :: .assign :: .nullptr_ :: .semi :: r => (true, r)
  | r => (false, r)

/-- `EntityReader *section_reader = nullptr;`, if it is there. -/
def declReader : List Tok → Bool × List Tok
  | .entityReader :: .star :: .sectionReader :: .assign :: .nullptr_ :: .semi :: r => (true, r)
  | r => (false, r)

/-- `void E::MF::Clear( E &obj ) {` -/
def sigClear (e : Name) : List Tok := [.void_] ++ inMF e ++ [.clear, .lpar, .id e, .amp, .obj, .rpar, .lbrace]

/-- `void E::MF::DeepCopy( E &dest, const E *source ) {` -/
def sigDeepCopy (e : Name) : List Tok :=
  [.void_] ++ inMF e ++ [.deepCopy, .lpar, .id e, .amp, .dest, .comma, .const_, .id e, .star, .source, .rpar, .lbrace]

/-- `bool E::MF::Equals( const E *lvar, const E *rvar ) {` -/
def sigEquals (e : Name) : List Tok :=
  [bool_] ++ inMF e ++ [.equals, .lpar, .const_, .id e, .star, .lvar, .comma, .const_, .id e, .star, .rvar, .rpar, .lbrace]

/-- `bool success = true;` -/
def declSuccess : List Tok := [bool_, .success, .assign, .true_, .semi]

/-- `bool E::MF::Write( const E &obj, EntityWriter &writer ) { bool success = true;` -/
def sigWrite (e : Name) : List Tok :=
  [bool_] ++ inMF e ++ [.write, .lpar, .const_, .id e, .amp, .obj, .comma, .entityWriter, .amp, .writer, .rpar, .lbrace] ++ declSuccess

/-- `bool E::MF::Read( E &obj, EntityReader &reader ) { bool success = true;` -/
def sigRead (e : Name) : List Tok :=
  [bool_] ++ inMF e ++ [.read, .lpar, .id e, .amp, .obj, .comma, .entityReader, .amp, .reader, .rpar, .lbrace] ++ declSuccess

/-- `bool E::MF::Validate( const E &obj, EntityValidator &validator ) { bool success = true;` -/
def sigValidate (e : Name) : List Tok :=
  [bool_] ++ inMF e ++ [.validate, .lpar, .const_, .id e, .amp, .obj, .comma, .entityValidator, .amp, .validator, .rpar, .lbrace] ++
    declSuccess

/-- The source file of the class `E`. -/
def parseSource (e : Name) (ts : List Tok) : Option Source := do
  let r ← strip ([.namespace_, .isd, .lbrace] ++ sigClear e) ts
  let (clear, r) ← stmts ts.length r
  let r ← strip (sigDeepCopy e) r
  let (deepCopy, r) ← stmts ts.length r
  let r ← strip (sigEquals e) r
  let (equals, r) ← stmts ts.length r
  let r ← strip (sigWrite e) r
  let hw := (declWriter r).1
  let (write, r) ← stmts ts.length (declWriter r).2
  let r ← strip (sigRead e) r
  let hr := (declReader r).1
  let (read, r) ← stmts ts.length (declReader r).2
  let r ← strip (sigValidate e) r
  let (validate, r) ← stmts ts.length r
  if r = [.rbrace, .semi] then some ⟨clear, deepCopy, equals, hw, write, hr, read, validate⟩ else none

/-- A template with its arguments: `t<types,tFlags::flag|tFlags::flag>`. -/
structure Use where
  template : Name
  types : List Name
  flags : List Name
  deriving DecidableEq

/-- A declared variable. `init` says that it is declared with `= {}`. -/
structure Decl where
  ty : Ty
  name : Name
  init : Bool
  deriving DecidableEq

/-- A header file: the name of the class, the names it declares for templates, and its variables. -/
structure Header where
  name : Name
  usings : List (Name × Use)
  decls : List Decl
  deriving DecidableEq

/-- The declarations `class C;` of other classes. -/
def forward : List Tok → List Tok
  | .class_ :: .id _ :: .semi :: r => forward r
  | r => r

/-- The arguments of a template behind `<` up to `>;`: the types, then the flags with the names of their enumerations. -/
def parseArgs : List Tok → Option ((List Name × List (Name × Name)) × List Tok)
  | .id a :: .colon :: .colon :: .id x :: .gt :: .semi :: r => some (([], [(a, x)]), r)
  | .id a :: .colon :: .colon :: .id x :: .pipe :: r =>
    match parseArgs r with
    | some (([], fs), r) => some (([], (a, x) :: fs), r)
    | _ => none
  | .id a :: .lt :: .id b :: .gt :: .gt :: .semi :: r => some (([a ++ '<' :: b ++ ['>']], []), r)
  | .id a :: .lt :: .id b :: .gt :: .comma :: r =>
    match parseArgs r with
    | some ((ts, fs), r) => some (((a ++ '<' :: b ++ ['>']) :: ts, fs), r)
    | none => none
  | .id a :: .gt :: .semi :: r => some (([a], []), r)
  | .id a :: .comma :: r =>
    match parseArgs r with
    | some ((ts, fs), r) => some ((a :: ts, fs), r)
    | none => none
  | _ => none

/-- `Flags` -/
def flagsSuffix : Name := ['F', 'l', 'a', 'g', 's']

/-- The declarations `using n = t<arguments>;`, up to something else. -/
def parseUsings : Nat → List Tok → Option (List (Name × Use) × List Tok)
  | 0, _ => none
  | n + 1, .using_ :: .id name :: .assign :: .id t :: .lt :: r =>
    match parseArgs r with
    | some ((ts, fs), r) =>
      if fs.all fun f => f.1 == t ++ flagsSuffix then
        match parseUsings n r with
        | some (us, r) => some ((name, ⟨t, ts, fs.map fun f => f.2⟩) :: us, r)
        | none => none
      else none
    | none => none
  | _ + 1, r => some ([], r)

/-- `class MF; friend MF;`, the constructors, the assignments, the destructor, and the comparisons. -/
def specialMembers (e : Name) : List Tok :=
  -- class MF; friend MF;
  [.class_, .mf, .semi, .friend_, .mf, .semi] ++
  -- E() = default;
  [.id e, .lpar, .rpar, .assign, .default_, .semi] ++
  -- E( const E &rval );
  [.id e, .lpar, .const_, .id e, .amp, .rval, .rpar, .semi] ++
  -- E &operator=( const E &rval );
  [.id e, .amp, .operator_, .assign, .lpar, .const_, .id e, .amp, .rval, .rpar, .semi] ++
  -- E( E &&rval ) = default;
  [.id e, .lpar, .id e, .amp, .amp, .rval, .rpar, .assign, .default_, .semi] ++
  -- E &operator=( E &&rval ) = default;
  [.id e, .amp, .operator_, .assign, .lpar, .id e, .amp, .amp, .rval, .rpar, .assign, .default_, .semi] ++
  -- ~E() = default;
  [.tilde, .id e, .lpar, .rpar, .assign, .default_, .semi] ++
  -- bool operator==( const E &rval ) const;
  [bool_, .operator_, .assign, .assign, .lpar, .const_, .id e, .amp, .rval, .rpar, .const_, .semi] ++
  -- bool operator!=( const E &rval ) const;
  [bool_, .operator_, .bang, .assign, .lpar, .const_, .id e, .amp, .rval, .rpar, .const_, .semi] ++
  [.protected_, .colon]

/-- The declarations of variables, up to `public:`. -/
def parseDecls : Nat → List Tok → Option (List Decl × List Tok)
  | 0, _ => none
  | _ + 1, .public_ :: .colon :: r => some ([], r)
  | n + 1, ts =>
    match parseTy ts with
    | some (ty, .mem name :: .semi :: r) =>
      match parseDecls n r with
      | some (ds, r) => some (⟨ty, name, false⟩ :: ds, r)
      | none => none
    | some (ty, .mem name :: .assign :: .lbrace :: .rbrace :: .semi :: r) =>
      match parseDecls n r with
      | some (ds, r) => some (⟨ty, name, true⟩ :: ds, r)
      | none => none
    | _ => none

/-- The tokens of a type. -/
def tyTokens : Ty → List Tok
  | (.none, t) => [.id t]
  | (.optionalValue, t) => [.optionalValue, .lt, .id t, .gt]
  | (.vector, t) => [.std_, .colon, .colon, .vector, .lt, .id t, .gt]
  | (.optionalVector, t) => [.optionalVector, .lt, .id t, .gt]
  | (.idxVector, t) => [.idxVector, .lt, .id t, .gt]
  | (.optionalIdxVector, t) => [.optionalIdxVector, .lt, .id t, .gt]

/-- The accessors of a variable, which give references to it: `const T & n() const { return this->v_n; }` and
`T & n() { return this->v_n; }` -/
def accessors (d : Decl) : List Tok :=
  [.const_] ++ tyTokens d.ty ++ [.amp, .id d.name, .lpar, .rpar, .const_, .lbrace, .return_, .this_, .minus, .gt, .mem d.name, .semi, .rbrace] ++
  tyTokens d.ty ++ [.amp, .id d.name, .lpar, .rpar, .lbrace, .return_, .this_, .minus, .gt, .mem d.name, .semi, .rbrace]

/-- The class with the managing functions, behind the end of the class. -/
def managingClass (e : Name) : List Tok :=
  [.rbrace, .semi, .class_, .entityWriter, .semi, .class_, .entityReader, .semi, .class_, .entityValidator, .semi] ++
  -- class E::MF { public:
  [.class_, .id e, .colon, .colon, .mf, .lbrace, .public_, .colon] ++
  -- static void Clear( E &obj );
  [.static_, .void_, .clear, .lpar, .id e, .amp, .obj, .rpar, .semi] ++
  -- static void DeepCopy( E &dest, const E *source );
  [.static_, .void_, .deepCopy, .lpar, .id e, .amp, .dest, .comma, .const_, .id e, .star, .source, .rpar, .semi] ++
  -- static bool Equals( const E *lvar, const E *rvar );
  [.static_, bool_, .equals, .lpar, .const_, .id e, .star, .lvar, .comma, .const_, .id e, .star, .rvar, .rpar, .semi] ++
  -- static bool Write( const E &obj, EntityWriter &writer );
  [.static_, bool_, .write, .lpar, .const_, .id e, .amp, .obj, .comma, .entityWriter, .amp, .writer, .rpar, .semi] ++
  -- static bool Read( E &obj, EntityReader &reader );
  [.static_, bool_, .read, .lpar, .id e, .amp, .obj, .comma, .entityReader, .amp, .reader, .rpar, .semi] ++
  -- static bool Validate( const E &obj, EntityValidator &validator );
  [.static_, bool_, .validate, .lpar, .const_, .id e, .amp, .obj, .comma, .entityValidator, .amp, .validator, .rpar, .semi] ++
  [.rbrace, .semi]

/-- The functions that a header file defines: the copy constructor and the assignment call `DeepCopy`, the comparisons call `Equals`. -/
def inlineFunctions (e : Name) : List Tok :=
  -- inline E::E( const E &rval ) { MF::DeepCopy( *this , &rval ); }
  [.inline_, .id e, .colon, .colon, .id e, .lpar, .const_, .id e, .amp, .rval, .rpar, .lbrace, .mf, .colon, .colon, .deepCopy, .lpar,
   .star, .this_, .comma, .amp, .rval, .rpar, .semi, .rbrace] ++
  -- inline E &E::operator=( const E &rval ) { MF::DeepCopy( *this , &rval ); return *this; }
  [.inline_, .id e, .amp, .id e, .colon, .colon, .operator_, .assign, .lpar, .const_, .id e, .amp, .rval, .rpar, .lbrace, .mf, .colon,
   .colon, .deepCopy, .lpar, .star, .this_, .comma, .amp, .rval, .rpar, .semi, .return_, .star, .this_, .semi, .rbrace] ++
  -- inline bool E::operator==( const E &rval ) const { return MF::Equals( this, &rval ); }
  [.inline_, bool_, .id e, .colon, .colon, .operator_, .assign, .assign, .lpar, .const_, .id e, .amp, .rval, .rpar, .const_, .lbrace,
   .return_, .mf, .colon, .colon, .equals, .lpar, .this_, .comma, .amp, .rval, .rpar, .semi, .rbrace] ++
  -- inline bool E::operator!=( const E &rval ) const { return !(MF::Equals( this, &rval )); }
  [.inline_, bool_, .id e, .colon, .colon, .operator_, .bang, .assign, .lpar, .const_, .id e, .amp, .rval, .rpar, .const_, .lbrace,
   .return_, .bang, .lpar, .mf, .colon, .colon, .equals, .lpar, .this_, .comma, .amp, .rval, .rpar, .rpar, .semi, .rbrace]

/-- Behind the declarations of other classes. -/
def parseClass (n : Nat) : List Tok → Option Header
  | .class_ :: .id e :: .lbrace :: .public_ :: .colon :: r => do
    let (us, r) ← parseUsings n r
    let r ← strip (specialMembers e) r
    let (ds, r) ← parseDecls n r
    if r = ds.flatMap accessors ++ managingClass e ++ inlineFunctions e ++ [.rbrace, .semi] then some ⟨e, us, ds⟩ else none
  | _ => none

/-- A header file. -/
def parseHeader (ts : List Tok) : Option Header := do
  let r ← strip [.namespace_, .isd, .lbrace] ts
  parseClass ts.length (forward r)

/-! ## Meaning -/

/-- A part of an object: how to read and how to write it. -/
structure Part (S A : Type) where
  get : S → A
  put : S → A → S

/-- Run a routine on the part. -/
def Part.run {S A α : Type} (p : Part S A) (q : Prog A α) : Prog S α := fun s =>
  match q (p.get s) with
  | .ok a x => .ok a (p.put s x)
  | .throw x => .throw (p.put s x)
  | .ub => .ub

/-- The first variable. -/
def Part.first {S A B : Type} (p : Part S (A × B)) : Part S A := ⟨fun s => (p.get s).1, fun s a => p.put s (a, (p.get s).2)⟩

/-- The variables behind the first. -/
def Part.others {S A B : Type} (p : Part S (A × B)) : Part S B := ⟨fun s => (p.get s).2, fun s b => p.put s ((p.get s).1, b)⟩

/-- The whole object. -/
def Part.whole (S : Type) : Part S S := ⟨fun s => s, fun _ x => x⟩

/-- A variable of a class: the name of its type, and whether that is a base type or a managed class. -/
inductive Member : Type 1 where
  | base (name type : Name) (t : DataType) (c : Container)
  | sub (name type : Name) (V : Type) (M : Managed V)

/-- The characters of a string literal. -/
def keyOf (s : List Char) : Bytes := s.map fun c => UInt8.ofNat c.toNat

/-- Its contents. (The names in `Field` play no role for what is stored in the object.) -/
def Member.field : Member → Field
  | .base n _ t c => .base (keyOf n) t c
  | .sub n _ V M => .sub (keyOf n) V M

/-- The name. -/
def Member.name : Member → Name
  | .base n _ _ _ => n
  | .sub n _ _ _ => n

/-- A variable as a part of an object. -/
inductive Access (S : Type) : Type 1 where
  | base (type : Name) (t : DataType) (c : Container) (p : Part S (c.Val t.Val))
  | sub (type : Name) (V : Type) (M : Managed V) (p : Part S V)

/-- The contents of an object of a class with these variables. -/
abbrev Obj (ms : List Member) : Type := FieldsVal (ms.map Member.field)

/-- The variable of this name in the part of an object that has these variables. -/
def access {S : Type} : (ms : List Member) → Part S (Obj ms) → Name → Option (Access S)
  | [], _, _ => none
  | .base m type t c :: ms, p, n =>
    if m = n then some (.base type t c (Part.first (A := c.Val t.Val) (B := Obj ms) p))
    else access ms (Part.others (A := c.Val t.Val) (B := Obj ms) p) n
  | .sub m type V M :: ms, p, n =>
    if m = n then some (.sub type V M (Part.first (A := V) (B := Obj ms) p))
    else access ms (Part.others (A := V) (B := Obj ms) p) n

/-- The rest of a function, unless it has returned. -/
def continue_ {m : Type → Type} [Monad m] {ρ : Type} (x y : m (Option ρ)) : m (Option ρ) := do
  match ← x with
  | some r => pure (some r)
  | none => y

/-- Statements: `none` if they are not in the modelled part of the language. `act`, `cond` and `rets` are the meaning of simple statements, of
conditions, and of return values in the function. The result of running them is what is returned, or `none` at the end of the statements. -/
def exec {m : Type → Type} [Monad m] {ρ : Type} (act : Act → Option (m Unit)) (cond : Cond → Option (m Bool)) (rets : Option Bool → Option ρ) :
    Stmts → Option (m (Option ρ))
  | .nil => some (pure none)
  | .act a rest =>
    match act a, exec act cond rets rest with
    | some p, some q => some (p >>= fun _ => q)
    | _, _ => none
  | .ret r rest =>
    match rets r, exec act cond rets rest with
    | some v, some _ => some (pure (some v))
    | _, _ => none
  | .cond c body rest =>
    match cond c, exec act cond rets body, exec act cond rets rest with
    | some p, some q, some r => some (p >>= fun b => if b then continue_ q r else r)
    | _, _, _ => none

/-- Return values of `void` functions. -/
def retVoid : Option Bool → Option Unit
  | none => some ()
  | some _ => none

/-- Return values of `bool` functions. -/
def retBool : Option Bool → Option Bool
  | none => none
  | some b => some b

/-- No conditions. -/
def noCond {m : Type → Type} : Cond → Option (m Bool) := fun _ => none

/-- Containers that can be empty in the sense of `reset`. -/
def isOptional : Container → Bool
  | .optionalValue | .optionalVector | .optionalIdxVector => true
  | _ => false

section functions

variable {S : Type} (look : Name → Option (Access S)) (e : Name)

/-- Statements of `Clear`. -/
def clearAct : Act → Option (Prog S Unit)
  | .reset n =>
    match look n with
    | some (.base _ t c p) => if isOptional c then some (p.run (Prog.set (c.zero t.zero))) else none
    | _ => none
  | .assignDefault n =>
    match look n with
    | some (.base _ t c p) => if isOptional c then none else some (p.run (Prog.set (c.zero t.zero)))
    | _ => none
  | .clear type n =>
    match look n with
    | some (.sub type' _ M p) => if type = type' then some (p.run M.clear) else none
    | _ => none
  | _ => none

/-- `Clear`. -/
def runClear (body : Stmts) : Option (Prog S Unit) :=
  match exec (clearAct look) noCond retVoid body with
  | some p => some (p >>= fun _ => pure ())
  | none => none

/-- Statements of `DeepCopy`, from this source. -/
def copyAct (clear : Prog S Unit) (src : Src S) : Act → Option (Prog S Unit)
  | .clearDest => some clear
  | .copy n m =>
    if n = m then
      match look n with
      | some (.base _ _ _ p) =>
        match src with
        | .null => some Prog.ub
        | .self => some (p.run (do Prog.set (← Prog.get)))
        | .other s => some (p.run (Prog.set (p.get s)))
      | _ => none
    else none
  | .deepCopy type n m =>
    if n = m then
      match look n with
      | some (.sub type' _ M p) =>
        if type = type' then
          match src with
          | .null => some Prog.ub
          | .self => some (p.run (M.copy .self))
          | .other s => some (p.run (M.copy (.other (p.get s))))
        else none
      | _ => none
    else none
  | _ => none

/-- Conditions of `DeepCopy`. -/
def copyCond (src : Src S) : Cond → Option (Prog S Bool)
  | .notSource =>
    match src with
    | .null => some (pure true)
    | _ => some (pure false)
  | _ => none

/-- `DeepCopy`. -/
def runDeepCopy (clear : Prog S Unit) (body : Stmts) (src : Src S) : Option (Prog S Unit) :=
  match exec (copyAct look clear src) (copyCond src) retVoid body with
  | some p => some (p >>= fun _ => pure ())
  | none => none

/-- Conditions of `Equals`, for two pointers: whether they are the same, and the objects they point to. `none` in the result is undefined
behaviour, so is dereferencing the null pointer. -/
def equalsCond (same : Bool) (l r : Option S) : Cond → Option (Option Bool)
  | .samePointer => some (some same)
  | .anyNull => some (some (l.isNone || r.isNone))
  | .differ n m =>
    if n = m then
      match look n with
      | some (.base _ t c p) => some (l.bind fun a => r.bind fun b => some (!Container.equal t.equal c (p.get a) (p.get b)))
      | _ => none
    else none
  | .notEquals e' type n m =>
    if n = m ∧ e' = e then
      match look n with
      | some (.sub type' _ M p) =>
        if type = type' then
          some (l.bind fun a => r.bind fun b => (M.equalsPtr same (some (p.get a)) (some (p.get b))).map not)
        else none
      | _ => none
    else none
  | _ => none

/-- `Equals`. Reaching the end without a `return` is undefined behaviour. -/
def runEquals (body : Stmts) (same : Bool) (l r : Option S) : Option (Option Bool) :=
  match exec (m := Option) (fun _ => none) (equalsCond look e same l r) retBool body with
  | some p => some (p >>= id)
  | none => none

/-- The local variables of `Write` and `Read`. -/
structure Locals where
  success : Bool
  ptr : Option Nat

/-- A step that does not use the local variables. -/
def outside {A α : Type} (p : Prog A α) : Prog (A × Locals) α := fun s =>
  match p s.1 with
  | .ok a x => .ok a (x, s.2)
  | .throw x => .throw (x, s.2)
  | .ub => .ub

/-- Set `success`. -/
def setSuccess {A : Type} (b : Bool) : Prog (A × Locals) Unit := Prog.modify fun s => (s.1, { s.2 with success := b })

/-- Set the pointer. -/
def setPtr {A : Type} (q : Option Nat) : Prog (A × Locals) Unit := Prog.modify fun s => (s.1, { s.2 with ptr := q })

/-- Statements of `Write`; `hasPtr` says that `section_writer` is declared. -/
def writeAct (hasPtr : Bool) (fresh : Bytes → Nat) (obj : S) : Act → Option (Prog (WSt × Locals) Unit)
  | .writeBase ty k n =>
    match look n with
    | some (.base type t c p) => if ty = (c, type) then some (outside (EWriter.write t c (keyOf k) (p.get obj)) >>= setSuccess) else none
    | _ => none
  | .beginWrite k =>
    if hasPtr then
      some (do
        let q ← outside (beginWriteSection (fresh (keyOf k)) (keyOf k))
        setPtr q
        setSuccess q.isSome)
    else none
  | .endWrite =>
    if hasPtr then
      some (do
        let s ← Prog.get
        let _ ← outside (endWriteSection s.2.ptr)
        return ())
    else none
  | .dropWriter => if hasPtr then some (setPtr none) else none
  | _ => none

/-- Conditions of `Write`. A pointer that is not that of the current section must not be used. -/
def writeCond (hasPtr : Bool) (fresh : Bytes → Nat) (obj : S) : Cond → Option (Prog (WSt × Locals) Bool)
  | .notSuccess => some (do return !(← Prog.get).2.success)
  | .notWrite e' type n =>
    if hasPtr ∧ e' = e then
      match look n with
      | some (.sub type' _ M p) =>
        if type = type' then
          some (do
            let s ← Prog.get
            if s.2.ptr.isNone ∨ s.1.1.subPtr ≠ s.2.ptr then Prog.ub
            return !(← outside (inSubsection (M.write fresh (p.get obj)))))
        else none
      | _ => none
    else none
  | _ => none

/-- The end of a `bool` function, where the local variables cease to exist. Reaching the end without a `return` is undefined behaviour. -/
def finish {A : Type} (p : Prog (A × Locals) (Option Bool)) : Prog A Bool := fun s =>
  match p (s, ⟨true, none⟩) with
  | .ok (some b) s' => .ok b s'.1
  | .ok none _ => .ub
  | .throw s' => .throw s'.1
  | .ub => .ub

/-- `Write`. -/
def runWrite (hasPtr : Bool) (body : Stmts) (fresh : Bytes → Nat) (obj : S) : Option (Prog WSt Bool) :=
  match exec (writeAct look hasPtr fresh obj) (writeCond look e hasPtr fresh obj) retBool body with
  | some p => some (finish p)
  | none => none

/-- A step on a variable of the object that is read. -/
def Part.reading {A α : Type} (p : Part S A) (q : Prog (RSt × A) α) : Prog (RSt × S) α := fun s => onPart (p.get s.2) (p.put s.2) q s

/-- Statements of `Read`; `hasPtr` says that `section_reader` is declared. -/
def readAct (hasPtr : Bool) (L : Leftover) (env : REnv) (fresh : Bytes → Nat) : Act → Option (Prog ((RSt × S) × Locals) Unit)
  | .readBase ty k n =>
    match look n with
    | some (.base type t c p) => if ty = (c, type) then some (outside (p.reading (readBaseInPlace L env t c (keyOf k))) >>= setSuccess) else none
    | _ => none
  | .beginRead k na =>
    if hasPtr then
      some (do
        let q ← outside (withReader (beginReadSection env (fresh (keyOf k)) (keyOf k) na))
        setPtr q.1
        setSuccess q.2)
    else none
  | .endRead =>
    if hasPtr then
      some (do
        let s ← Prog.get
        let _ ← outside (withReader (endReadSection s.2.ptr))
        return ())
    else none
  | .dropReader => if hasPtr then some (setPtr none) else none
  | _ => none

/-- Conditions of `Read`. A pointer that is not that of the current section must not be used. -/
def readCond (hasPtr : Bool) (L : Leftover) (env : REnv) (fresh : Bytes → Nat) : Cond → Option (Prog ((RSt × S) × Locals) Bool)
  | .notSuccess => some (do return !(← Prog.get).2.success)
  | .hasReader => if hasPtr then some (do return (← Prog.get).2.ptr.isSome) else none
  | .notRead e' type n =>
    if hasPtr ∧ e' = e then
      match look n with
      | some (.sub type' _ M p) =>
        if type = type' then
          some (do
            let s ← Prog.get
            if s.2.ptr.isNone ∨ s.1.1.1.subPtr ≠ s.2.ptr then Prog.ub
            return !(← outside (p.reading (inSubInPlace (M.readInPlace L env fresh)))))
        else none
      | _ => none
    else none
  | _ => none

/-- `Read`. -/
def runRead (hasPtr : Bool) (body : Stmts) (L : Leftover) (env : REnv) (fresh : Bytes → Nat) : Option (Prog (RSt × S) Bool) :=
  match exec (readAct look hasPtr L env fresh) (readCond look e hasPtr L env fresh) retBool body with
  | some p => some (finish p)
  | none => none

/-- What a run of a part of `Validate` can do: `success` before, the reports, the result, and `success` after. -/
def VM (α : Type) : Type := Bool → List Nat → α → Bool → Prop

instance : Monad VM where
  pure a := fun s r x s' => r = [] ∧ x = a ∧ s' = s
  bind p f := fun s r y s' => ∃ a s₁ r₁ r₂, p s r₁ a s₁ ∧ f a s₁ r₂ y s' ∧ r = r₁ ++ r₂

/-- Statements of `Validate`. -/
def validateAct (obj : S) : Act → Option (VM Unit)
  | .validate type n =>
    match look n with
    | some (.sub type' _ M p) => if type = type' then some fun _ r _ s' => M.validate (p.get obj) r s' else none
    | _ => none
  | _ => none

/-- Conditions of `Validate`. -/
def validateCond : Cond → Option (VM Bool)
  | .notSuccess => some fun s r b s' => r = [] ∧ b = !s ∧ s' = s
  | _ => none

/-- `Validate`. -/
def runValidate (body : Stmts) (obj : S) : Option (List Nat → Bool → Prop) :=
  match exec (validateAct look obj) validateCond retBool body with
  | some p => some fun r ok => ∃ s', p true r (some ok) s'
  | none => none

end functions

/-- What can be done with the objects of a class, when an object has the contents `V`. -/
structure Class (V : Type) where
  /-- Default construction. -/
  init : V
  /-- `MF::Clear`. -/
  clear : Prog V Unit
  /-- `MF::DeepCopy`. -/
  deepCopy : Src V → Prog V Unit
  /-- Copy construction, on the new object. -/
  construct : V → Prog V Unit
  /-- `operator=`, of the object itself (`none`) or of another one. -/
  assign : Option V → Prog V Unit
  /-- `MF::Equals` of two pointers: whether they are the same, and the objects they point to. `none` is undefined behaviour. -/
  equals : Bool → Option V → Option V → Option Bool
  /-- `operator==`: whether the objects are the same, and their contents. -/
  eq : Bool → V → V → Option Bool
  /-- `operator!=`. -/
  ne : Bool → V → V → Option Bool
  /-- `MF::Write`. -/
  write : (Bytes → Nat) → V → Prog WSt Bool
  /-- `MF::Read`. -/
  read : Leftover → REnv → (Bytes → Nat) → Prog (RSt × V) Bool
  /-- `MF::Validate`: the reports and the result it can end with. -/
  validate : V → List Nat → Bool → Prop

/-- The class templates of the library: what `t<types,tFlags::flag|…>` is. (The variable that is declared with it is given too, because
`Managed` says in which order the elements of a table are found, and that can be different for two tables of the same type.) -/
def Templates : Type 1 := Name → Use → Option ((V : Type) × Managed V)

/-- The base type of this name. -/
def baseType (n : Name) : Option DataType := allTypes.find? fun t => t.name == String.ofList n

/-- A declared variable. A variable of a base type without a container must be declared with `= {}`, because it has no defined value
otherwise; for containers and classes it makes no difference. -/
def member (T : Templates) (us : List (Name × Use)) (d : Decl) : Option Member :=
  match us.find? fun u => u.1 == d.ty.2 with
  | some u =>
    match T d.name u.2 with
    | some ⟨V, M⟩ => if d.ty.1 = .none then some (.sub d.name d.ty.2 V M) else none
    | none => none
  | none =>
    match baseType d.ty.2 with
    | some t => if d.init ∨ d.ty.1 ≠ .none then some (.base d.name d.ty.2 t d.ty.1) else none
    | none => none

/-- The declared variables. -/
def members (T : Templates) (us : List (Name × Use)) : List Decl → Option (List Member)
  | [] => some []
  | d :: ds =>
    match member T us d, members T us ds with
    | some m, some ms => some (m :: ms)
    | _, _ => none

/-- A function whose meaning is defined for all its arguments. -/
noncomputable def total {A : Type u} {B : A → Type v} (f : (a : A) → Option (B a)) : Option ((a : A) → B a) :=
  open Classical in if h : ∀ a, (f a).isSome then some fun a => (f a).get (h a) else none

/-- The names that are declared in the class must be different. -/
def Header.distinct (h : Header) : Bool := decide (h.name :: (h.usings.map (·.1) ++ h.decls.map (·.name))).Nodup

/-- The class with these variables and functions. -/
noncomputable def classOf (e : Name) (ms : List Member) (s : Source) : Option (Class (Obj ms)) := do
  let look := access ms (Part.whole (Obj ms))
  let clear ← runClear look s.clear
  let deepCopy ← total (runDeepCopy look clear s.deepCopy)
  let equals ← total fun a : Bool × Option (Obj ms) × Option (Obj ms) => runEquals look e s.equals a.1 a.2.1 a.2.2
  let write ← total fun a : (Bytes → Nat) × Obj ms => runWrite look e s.writeSection s.write a.1 a.2
  let read ← total fun a : Leftover × REnv × (Bytes → Nat) => runRead look e s.readSection s.read a.1 a.2.1 a.2.2
  let validate ← total fun v : Obj ms => runValidate look s.validate v
  some
    { init := fieldsInit (ms.map Member.field)
      clear := clear
      deepCopy := deepCopy
      construct := fun v => deepCopy (.other v)
      assign := fun v => deepCopy (match v with | none => .self | some v => .other v)
      equals := fun same l r => equals (same, l, r)
      eq := fun same l r => equals (same, some l, some r)
      ne := fun same l r => (equals (same, some l, some r)).map not
      write := fun fresh v => write (fresh, v)
      read := fun L env fresh => read (L, env, fresh)
      validate := validate }

/-- The class that a header file and a source file define. -/
noncomputable def compile (T : Templates) (header source : List Char) : Option ((V : Type) × Class V) :=
  match parseHeader (tokens header) with
  | none => none
  | some h =>
    if h.distinct then
      match members T h.usings h.decls, parseSource h.name (tokens source) with
      | some ms, some s =>
        match classOf h.name ms s with
        | some c => some ⟨Obj ms, c⟩
        | none => none
      | _, _ => none
    else none

end ISD.Cpp
