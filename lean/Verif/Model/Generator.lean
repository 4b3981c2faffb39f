import Verif.Model.Managed
import Verif.Model.GenFiles

/-!
# The text that the code generator writes for an entity (CodeGenerator/Generators/EntityGenerator.py, CodeGenerator/Entities/__init__.py)

Line by line, as the Python program appends the lines.
-/

namespace ISD.Generator

/-- `Variable` (Entities/__init__.py 46-54). -/
structure Var where
  type : String
  name : String
  optional : Bool := false
  vector : Bool := false
  indexed : Bool := false

/-- `Template` (Entities/__init__.py 19-24). -/
structure Template where
  name : String
  template : String
  types : List String
  flags : List String := []

/-- `Dependency` (Entities/__init__.py 14-17). -/
structure Dependency where
  name : String
  includeInHeader : Bool := false

/-- `Entity` (Entities/__init__.py 7-12). -/
structure Entity where
  name : String
  vars : List Var
  dependencies : List Dependency := []
  templates : List Template := []

/-- `Variable.TypeString` (Entities/__init__.py 57-73). -/
def Var.typeString (v : Var) : String :=
  if v.optional then
    if v.vector then
      if v.indexed then "optional_idx_vector<" ++ v.type ++ ">"
      else "optional_vector<" ++ v.type ++ ">"
    else "optional_value<" ++ v.type ++ ">"
  else
    if v.vector then
      if v.indexed then "idx_vector<" ++ v.type ++ ">"
      else "std::vector<" ++ v.type ++ ">"
    else v.type

/-- `get_base_type_variant` (CodeGeneratorHelpers.py 77-82). -/
def getBaseType (name : String) : Option DataType := allTypes.find? fun t => t.name == name

/-- `Variable.IsBaseType` (Entities/__init__.py 80-81). -/
def Var.isBaseType (v : Var) : Bool := (getBaseType v.type).isSome

/-- `Variable.IsSimpleValue` (Entities/__init__.py 76). -/
def Var.isSimpleValue (v : Var) : Bool := !v.optional && !v.vector && !v.indexed

/-- `Variable.IsSimpleBaseType` (Entities/__init__.py 84). -/
def Var.isSimpleBaseType (v : Var) : Bool := v.isBaseType && v.isSimpleValue

/-- The loops over the types and the flags (Entities/__init__.py 29-32, 36-42): each item, with a separator before all but the first. -/
def separated (sep : String) (f : String → String) : List String → Bool → String
  | [], _ => ""
  | x :: xs, hasOne => (if hasOne then sep else "") ++ f x ++ separated sep f xs true

/-- `Template.Declaration` (Entities/__init__.py 27-44). -/
def Template.declaration (t : Template) : String :=
  "            using " ++ t.name ++ " = " ++ t.template ++ "<" ++ separated "," id t.types false ++
    (if t.flags.length > 0 then
      (if t.types.length > 0 then "," else "") ++ separated "|" (fun fl => t.template ++ "Flags::" ++ fl) t.flags false
    else "") ++ ">;"

/-- `CreateEntityHeader` (EntityGenerator.py 7-123), without the write to the file (C85). -/
def createEntityHeader (e : Entity) : List String :=
  ["// ISD Copyright (c) 2021 Ulrik Lindahl",
   "// Licensed under the MIT license https://github.com/Cooolrik/ISD/blob/main/LICENSE",
   "",
   "#pragma once",
   "",
   "#include \"ISD_Types.h\""] ++
  (e.dependencies.flatMap fun dep => if dep.includeInHeader then ["#include \"ISD_" ++ dep.name ++ ".h\""] else []) ++
  ["",
   "namespace ISD",
   "    {"] ++
  (e.dependencies.flatMap fun dep => if !dep.includeInHeader then ["    class " ++ dep.name ++ ";"] else []) ++
  ["    class " ++ e.name,
   "        {",
   "        public:"] ++
  (if e.templates.length > 0 then (e.templates.map fun t => t.declaration) ++ [""] else []) ++
  ["            class MF;",
   "            friend MF;",
   "",
   "            " ++ e.name ++ "() = default;",
   "            " ++ e.name ++ "( const " ++ e.name ++ " &rval );",
   "            " ++ e.name ++ " &operator=( const " ++ e.name ++ " &rval );",
   "            " ++ e.name ++ "( " ++ e.name ++ " &&rval ) = default;",
   "            " ++ e.name ++ " &operator=( " ++ e.name ++ " &&rval ) = default;",
   "            ~" ++ e.name ++ "() = default;",
   "",
   "            // value compare operators",
   "            bool operator==( const " ++ e.name ++ " &rval ) const;",
   "            bool operator!=( const " ++ e.name ++ " &rval ) const;",
   "",
   "        protected:"] ++
  (e.vars.map fun var =>
    if var.isSimpleBaseType then "            " ++ var.typeString ++ " v_" ++ var.name ++ " = {};"
    else "            " ++ var.typeString ++ " v_" ++ var.name ++ ";") ++
  ["",
   "        public:"] ++
  (e.vars.flatMap fun var =>
    ["            // accessor for referencing variable " ++ var.name,
     "            const " ++ var.typeString ++ " & " ++ var.name ++ "() const { return this->v_" ++ var.name ++ "; }",
     "            " ++ var.typeString ++ " & " ++ var.name ++ "() { return this->v_" ++ var.name ++ "; }",
     ""]) ++
  ["        };",
   "",
   "    class EntityWriter;",
   "    class EntityReader;",
   "    class EntityValidator;",
   "",
   "    class " ++ e.name ++ "::MF",
   "        {",
   "        public:",
   "            static void Clear( " ++ e.name ++ " &obj );",
   "            static void DeepCopy( " ++ e.name ++ " &dest, const " ++ e.name ++ " *source );",
   "            static bool Equals( const " ++ e.name ++ " *lvar, const " ++ e.name ++ " *rvar );",
   "",
   "            static bool Write( const " ++ e.name ++ " &obj, EntityWriter &writer );",
   "            static bool Read( " ++ e.name ++ " &obj, EntityReader &reader );",
   "",
   "            static bool Validate( const " ++ e.name ++ " &obj, EntityValidator &validator );",
   "        };",
   "",
   "    inline " ++ e.name ++ "::" ++ e.name ++ "( const " ++ e.name ++ " &rval )",
   "        {",
   "        MF::DeepCopy( *this , &rval );",
   "        }",
   "",
   "    inline " ++ e.name ++ " &" ++ e.name ++ "::operator=( const " ++ e.name ++ " &rval )",
   "        {",
   "        MF::DeepCopy( *this , &rval );",
   "        return *this;",
   "        }",
   "",
   "    inline bool " ++ e.name ++ "::operator==( const " ++ e.name ++ " &rval ) const",
   "        {",
   "        return MF::Equals( this, &rval );",
   "        }",
   "",
   "    inline bool " ++ e.name ++ "::operator!=( const " ++ e.name ++ " &rval ) const",
   "        {",
   "        return !(MF::Equals( this, &rval ));",
   "        }",
   "",
   "    };"]

/-- `ImplementClearCall` (EntityGenerator.py 125-142). -/
def implementClearCall (_ : Entity) (var : Var) : List String :=
  ["", "        // clear variable \"" ++ var.name ++ "\""] ++
  (if var.isBaseType then
    if var.optional then ["        obj.v_" ++ var.name ++ ".reset();"]
    else ["        obj.v_" ++ var.name ++ " = {};"]
  else ["        " ++ var.type ++ "::MF::Clear( obj.v_" ++ var.name ++ " );"])

/-- `ImplementDeepCopyCall` (EntityGenerator.py 144-171). -/
def implementDeepCopyCall (_ : Entity) (var : Var) : List String :=
  ["", "        // copy variable \"" ++ var.name ++ "\""] ++
  (if var.isBaseType then ["        dest.v_" ++ var.name ++ " = source->v_" ++ var.name ++ ";"]
  else
    if var.optional then
      ["        if( source->v_" ++ var.name ++ ".has_value() )",
       "            {",
       "            dest.v_" ++ var.name ++ ".set();",
       "            " ++ var.type ++ "::MF::DeepCopy( dest.v_" ++ var.name ++ ".value() , &(source->v_" ++ var.name ++ ".value()) );",
       "            }",
       "        else",
       "            {",
       "            dest.v_" ++ var.name ++ ".reset();",
       "            }"]
    else ["        " ++ var.type ++ "::MF::DeepCopy( dest.v_" ++ var.name ++ " , &(source->v_" ++ var.name ++ ") );"])

/-- `ImplementEqualsCall` (EntityGenerator.py 173-197). -/
def implementEqualsCall (e : Entity) (var : Var) : List String :=
  ["        // check variable \"" ++ var.name ++ "\""] ++
  (if var.isBaseType then
    ["        if( lvar->v_" ++ var.name ++ " != rvar->v_" ++ var.name ++ " )",
     "            return false;"]
  else
    if var.optional then
      ["        if( !" ++ e.name ++ "::" ++ var.type ++ "::MF::Equals(",
       "            lvar->v_" ++ var.name ++ ".has_value() ? &lvar->v_" ++ var.name ++ ".value() : nullptr,  ",
       "            rvar->v_" ++ var.name ++ ".has_value() ? &rvar->v_" ++ var.name ++ ".value() : nullptr",
       "            ) )",
       "            return false;"]
    else
      ["        if( !" ++ e.name ++ "::" ++ var.type ++ "::MF::Equals( &lvar->v_" ++ var.name ++ " , &rvar->v_" ++ var.name ++ " ) )",
       "            return false;"]) ++
  [""]

/-- `ImplementWriterCall` (EntityGenerator.py 199-229). -/
def implementWriterCall (e : Entity) (var : Var) : List String :=
  if var.isBaseType then
    ["        // write variable \"" ++ var.name ++ "\"",
     "        success = writer.Write<" ++ var.typeString ++ ">( ISDKeyMacro(\"" ++ var.name ++ "\") , obj.v_" ++ var.name ++ " );",
     "        if( !success )",
     "            return false;",
     ""]
  else
    ["        // write section \"" ++ var.name ++ "\"",
     "        success = (section_writer = writer.BeginWriteSection( ISDKeyMacro(\"" ++ var.name ++ "\") ));",
     "        if( !success )",
     "            return false;"] ++
    (if var.optional then
      ["        if( obj.v_" ++ var.name ++ ".has_value() )",
       "            {",
       "            if( !" ++ e.name ++ "::" ++ var.type ++ "::MF::Write( obj.v_" ++ var.name ++ ".value(), *section_writer ) )",
       "                return false;",
       "            }"]
    else
      ["        if( !" ++ e.name ++ "::" ++ var.type ++ "::MF::Write( obj.v_" ++ var.name ++ ", *section_writer ) )",
       "            return false;"]) ++
    ["        writer.EndWriteSection( section_writer );",
     "        section_writer = nullptr;",
     ""]

/-- `ImplementReaderCall` (EntityGenerator.py 231-269). -/
def implementReaderCall (e : Entity) (var : Var) : List String :=
  let valueCanBeNull := if var.optional then "true" else "false"
  if var.isBaseType then
    ["        // read variable \"" ++ var.name ++ "\"",
     "        success = reader.Read<" ++ var.typeString ++ ">( ISDKeyMacro(\"" ++ var.name ++ "\") , obj.v_" ++ var.name ++ " );",
     "        if( !success )",
     "            return false;",
     ""]
  else
    ["        // read section \"" ++ var.name ++ "\"",
     "        std::tie(section_reader,success) = reader.BeginReadSection( ISDKeyMacro(\"" ++ var.name ++ "\") , " ++ valueCanBeNull ++ " );",
     "        if( !success )",
     "            return false;",
     "        if( section_reader )",
     "            {"] ++
    (if var.optional then
      ["            obj.v_" ++ var.name ++ ".set();",
       "            if( !" ++ e.name ++ "::" ++ var.type ++ "::MF::Read( obj.v_" ++ var.name ++ ".value(), *section_reader ) )"]
    else ["            if( !" ++ e.name ++ "::" ++ var.type ++ "::MF::Read( obj.v_" ++ var.name ++ ", *section_reader ) )"]) ++
    ["                return false;",
     "            reader.EndReadSection( section_reader );",
     "            section_reader = nullptr;",
     "            }"] ++
    (if var.optional then
      ["        else",
       "            obj.v_" ++ var.name ++ ".reset();"]
    else []) ++
    [""]

/-- `ImplementValidatorCall` (EntityGenerator.py 271-290). -/
def implementValidatorCall (_ : Entity) (var : Var) : List String :=
  if !var.isBaseType then
    ["        // validate variable \"" ++ var.name ++ "\""] ++
    (if var.optional then
      ["        if( obj.v_" ++ var.name ++ ".has_value() )",
       "            {",
       "            success = " ++ var.type ++ "::MF::Validate( obj.v_" ++ var.name ++ ".value() , validator );",
       "            if( !success )",
       "                return false;",
       "            }"]
    else
      ["        success = " ++ var.type ++ "::MF::Validate( obj.v_" ++ var.name ++ " , validator );",
       "        if( !success )",
       "            return false;"]) ++
    [""]
  else []

/-- `CreateEntitySource` (EntityGenerator.py 293-402), without the write to the file (C85). -/
def createEntitySource (e : Entity) : List String :=
  let varsHaveEntity := e.vars.any fun var => !var.isBaseType
  ["// ISD Copyright (c) 2021 Ulrik Lindahl",
   "// Licensed under the MIT license https://github.com/Cooolrik/ISD/blob/main/LICENSE",
   "",
   "#include <glm/glm.hpp>",
   "",
   "#include \"ISD_Types.h\"",
   "#include \"ISD_EntityWriter.h\"",
   "#include \"ISD_EntityReader.h\"",
   "#include \"ISD_EntityValidator.h\"",
   "",
   "#include \"ISD_" ++ e.name ++ ".h\""] ++
  (e.dependencies.flatMap fun dep => if !dep.includeInHeader then ["#include \"ISD_" ++ dep.name ++ ".h\""] else []) ++
  ["",
   "namespace ISD",
   "    {"] ++
  -- clear code
  ["    void " ++ e.name ++ "::MF::Clear( " ++ e.name ++ " &obj )",
   "        {",
   "        // direct clear calls on variables and Entities"] ++
  e.vars.flatMap (implementClearCall e) ++
  ["        }",
   ""] ++
  -- deep copy code
  ["    void " ++ e.name ++ "::MF::DeepCopy( " ++ e.name ++ " &dest, const " ++ e.name ++ " *source )",
   "        {",
   "        // just call Clear if source is nullptr",
   "        if( !source )",
   "            {",
   "            MF::Clear( dest );",
   "            return;",
   "            }"] ++
  e.vars.flatMap (implementDeepCopyCall e) ++
  ["        }",
   ""] ++
  -- equals code
  ["    bool " ++ e.name ++ "::MF::Equals( const " ++ e.name ++ " *lvar, const " ++ e.name ++ " *rvar )",
   "        {",
   "        // early out if pointers are equal",
   "        if( lvar == rvar )",
   "            return true;",
   "",
   "        // early out if one of the pointers is nullptr",
   "        if( !lvar || !rvar )",
   "            return false;",
   ""] ++
  e.vars.flatMap (implementEqualsCall e) ++
  ["        return true;",
   "        }",
   ""] ++
  -- writer code
  ["    bool " ++ e.name ++ "::MF::Write( const " ++ e.name ++ " &obj, EntityWriter &writer )",
   "        {",
   "        bool success = true;"] ++
  (if varsHaveEntity then ["        EntityWriter *section_writer = nullptr;"] else []) ++
  [""] ++
  e.vars.flatMap (implementWriterCall e) ++
  ["        return true;",
   "        }",
   ""] ++
  -- reader code
  ["    bool " ++ e.name ++ "::MF::Read( " ++ e.name ++ " &obj, EntityReader &reader )",
   "        {",
   "        bool success = true;"] ++
  (if varsHaveEntity then ["        EntityReader *section_reader = nullptr;"] else []) ++
  [""] ++
  e.vars.flatMap (implementReaderCall e) ++
  ["        return true;",
   "        }",
   ""] ++
  -- validator code
  ["    bool " ++ e.name ++ "::MF::Validate( const " ++ e.name ++ " &obj, EntityValidator &validator )",
   "        {",
   "        bool success = true;",
   ""] ++
  e.vars.flatMap (implementValidatorCall e) ++
  ["        return true;",
   "        }",
   "",
   "    };"]

end ISD.Generator
