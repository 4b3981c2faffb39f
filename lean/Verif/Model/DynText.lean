import Verif.Model.Dynamic

/-!
# The text of the functions for types chosen at run time

The file ISD_DynamicTypes.cpp that the code generator writes, line by line (CodeGenerator/Generators/ISD_DynamicTypes.py 38-230). A line is given without its newline. The
template lines have been taken over from the generator by a script.
-/

namespace ISD.DynText

/-- `implementing_type` of a container (CodeGeneratorHelpers.py 69-74). -/
def containerName : Container → String
  | .none => "none"
  | .optionalValue => "optional_value"
  | .vector => "vector"
  | .optionalVector => "optional_vector"
  | .idxVector => "idx_vector"
  | .optionalIdxVector => "optional_idx_vector"

/-- `base_type_combo` (CodeGeneratorHelpers.py 113-117). -/
def combo (c : Container) (t : String) : String :=
  match c with
  | .none => t
  | c => containerName c ++ "<" ++ t ++ ">"

/-- The lines before the classes (ISD_DynamicTypes.py 40-84). -/
def head : List String :=
  ["// ISD Copyright (c) 2021 Ulrik Lindahl",
   "// Licensed under the MIT license https://github.com/Cooolrik/ISD/blob/main/LICENSE",
   "",
   "#include \"ISD_Types.h\"",
   "#include \"ISD_EntityWriter.h\"",
   "#include \"ISD_EntityReader.h\"",
   "#include \"ISD_DynamicTypes.h\"",
   "#include \"ISD_CombinedTypes.h\"",
   "",
   "#include <glm/gtc/type_ptr.hpp>",
   "",
   "namespace ISD",
   "    {",
   "namespace dynamic_types",
   "    {",
   "    struct type_combo",
   "        {",
   "        data_type_index data_type = {};",
   "        container_type_index container_type = {};",
   "        bool operator==(const type_combo& other) const { return other.data_type == this->data_type && other.container_type == this->container_type; }",
   "        };",
   "",
   "    // dynamic allocation functors for items",
   "    class _dynamicTypeClass",
   "        {",
   "        public:",
   "            virtual type_combo Type() const = 0;",
   "            virtual void *New() const = 0;",
   "            virtual void Delete( void *data ) const = 0;",
   "            virtual void Clear( void *data ) const = 0;",
   "            virtual bool Write( const char *key, const u8 key_length , EntityWriter &writer , const void *data ) const = 0;",
   "            virtual bool Read( const char *key, const u8 key_length , EntityReader &reader , void *data ) const = 0;",
   "            virtual void Copy( void *dest , const void *src ) const = 0;",
   "            virtual bool Equals( const void *dataA , const void *dataB ) const = 0;",
   "        };",
   ""]

/-- `generate_dynamic_object_function` with `implementing_type` t, `container_type` c and `base_type_combo` combo (ISD_DynamicTypes.py 88-101). -/
def classText (t c combo : String) : List String :=
  ["    // " ++ combo,
   "    static const class _dt_" ++ t ++ "_ct_" ++ c ++ "_DynamicTypeClass : public _dynamicTypeClass",
   "        {",
   "        public:",
   "            virtual type_combo Type() const { return { combined_type_information<" ++ combo ++ ">::type_index , combined_type_information<" ++ combo ++ ">::container_index }; }",
   "            virtual void *New() const { return new " ++ combo ++ "(); }",
   "            virtual void Delete( void *data ) const { delete ((" ++ combo ++ "*)(data)); }",
   "            virtual void Clear( void *data ) const { clear_combined_type(*((" ++ combo ++ "*)data)); }",
   "            virtual bool Write( const char *key, const u8 key_length , EntityWriter &writer , const void *data ) const { return writer.Write<" ++ combo ++ ">( key , key_length , *((const " ++ combo ++ "*)data) ); }",
   "            virtual bool Read( const char *key, const u8 key_length , EntityReader &reader , void *data ) const { return reader.Read<" ++ combo ++ ">( key , key_length , *((" ++ combo ++ "*)data) ); }",
   "            virtual void Copy( void *dest , const void *src ) const { *((" ++ combo ++ "*)dest) = *((const " ++ combo ++ "*)src); }",
   "            virtual bool Equals( const void *dataA , const void *dataB ) const { return *((const " ++ combo ++ "*)dataA) == *((const " ++ combo ++ "*)dataB); }",
   "        } _dt_" ++ t ++ "_ct_" ++ c ++ "_DynamicTypeObject;",
   ""]

/-- The lines before the entries of the hash table (ISD_DynamicTypes.py 109-111). -/
def tableHead : List String :=
  ["    // Hash table with the type allocator objects",
   "    static const _dynamicTypeClass *_dynamicTypeClassHashTable[577] = ",
   "        {"]

/-- An entry of the hash table (ISD_DynamicTypes.py 35, 112-116). -/
def entry : Option DynClass → String
  | none => "        nullptr,"
  | some cl => "        " ++ ("&_dt_" ++ cl.t.name ++ "_ct_" ++ containerName cl.c ++ "_DynamicTypeObject") ++ ","

/-- The end of the hash table and `_findTypeClass` (ISD_DynamicTypes.py 117-135). -/
def findText : List String :=
  ["        };",
   "",
   "    // hash table lookup of typeCombo",
   "    static const _dynamicTypeClass *_findTypeClass( type_combo typeCombo )",
   "        {",
   "        size_t hashValue = ((((size_t)typeCombo.data_type) * 109) + (((size_t)typeCombo.container_type) * 991)) % 577;",
   "        while( _dynamicTypeClassHashTable[hashValue] != nullptr )",
   "            {",
   "            type_combo type = _dynamicTypeClassHashTable[hashValue]->Type();",
   "            if( type == typeCombo )",
   "                return _dynamicTypeClassHashTable[hashValue];",
   "            ++hashValue;",
   "            if(hashValue >= 577)",
   "                hashValue = 0;",
   "            }",
   "        ISDErrorLog << \"Invalid typeCombo parameter { \" << (int)typeCombo.data_type << \" , \" << (int)typeCombo.container_type << \" } \" << ISDErrorLogEnd;",
   "        return nullptr;",
   "        }",
   ""]

/-- `new_type` (ISD_DynamicTypes.py 136-144). -/
def newText : List String :=
  ["    std::tuple<void*, bool> new_type( data_type_index dataType , container_type_index containerType )",
   "        {",
   "        void* data = {};",
   "        const _dynamicTypeClass *ta = _findTypeClass( { dataType, containerType } );",
   "        if( ta )",
   "            data = ta->New();",
   "        return std::tuple<void*, bool>(data, data != nullptr);",
   "        }",
   ""]

/-- `delete_type` (ISD_DynamicTypes.py 145-158). -/
def deleteText : List String :=
  ["    bool delete_type( data_type_index dataType , container_type_index containerType , void *data )",
   "        {",
   "        if( !data )",
   "            {",
   "            ISDErrorLog << \"Invalid parameter, data must be a pointer to existing type\" << ISDErrorLogEnd;",
   "            return false;",
   "            }",
   "        const _dynamicTypeClass *ta = _findTypeClass( { dataType, containerType } );",
   "        if( !ta )",
   "            return false;",
   "        ta->Delete( data );",
   "        return true;",
   "        }",
   ""]

/-- `clear` (ISD_DynamicTypes.py 159-172). -/
def clearText : List String :=
  ["    bool clear( data_type_index dataType , container_type_index containerType , void *data )",
   "        {",
   "        if( !data )",
   "            {",
   "            ISDErrorLog << \"Invalid parameter, data must be a pointer to existing type\" << ISDErrorLogEnd;",
   "            return false;",
   "            }",
   "        const _dynamicTypeClass *ta = _findTypeClass( { dataType, containerType } );",
   "        if( !ta )",
   "            return false;",
   "        ta->Clear( data );",
   "        return true;",
   "        }",
   ""]

/-- `write` (ISD_DynamicTypes.py 173-185). -/
def writeText : List String :=
  ["    bool write( data_type_index dataType , container_type_index containerType , const char *key, const u8 key_length , EntityWriter &writer , const void *data )",
   "        {",
   "        if( !data )",
   "            {",
   "            ISDErrorLog << \"Invalid parameter, data must be a pointer to existing type\" << ISDErrorLogEnd;",
   "            return false;",
   "            }",
   "        const _dynamicTypeClass *ta = _findTypeClass( { dataType, containerType } );",
   "        if( !ta )",
   "            return false;",
   "        return ta->Write( key , key_length , writer , data );",
   "        }",
   ""]

/-- `read` (ISD_DynamicTypes.py 186-198). -/
def readText : List String :=
  ["    bool read( data_type_index dataType , container_type_index containerType , const char *key, const u8 key_length , EntityReader &reader , void *data )",
   "        {",
   "        if( !data )",
   "            {",
   "            ISDErrorLog << \"Invalid parameter, data must be a pointer to existing type\" << ISDErrorLogEnd;",
   "            return false;",
   "            }",
   "        const _dynamicTypeClass *ta = _findTypeClass( { dataType, containerType } );",
   "        if( !ta )",
   "            return false;",
   "        return ta->Read( key , key_length , reader , data );",
   "        }",
   ""]

/-- `copy` (ISD_DynamicTypes.py 199-212). -/
def copyText : List String :=
  ["    bool copy( data_type_index dataType , container_type_index containerType , void *dest , const void *src )",
   "        {",
   "        if( !dest || !src )",
   "            {",
   "            ISDErrorLog << \"Invalid parameter, dest and src must be pointers to existing types\" << ISDErrorLogEnd;",
   "            return false;",
   "            }",
   "        const _dynamicTypeClass *ta = _findTypeClass( { dataType, containerType } );",
   "        if( !ta )",
   "            return false;",
   "        ta->Copy( dest , src );",
   "        return true;",
   "        }",
   ""]

/-- `equals` (ISD_DynamicTypes.py 213-225). -/
def equalsText : List String :=
  ["    bool equals( data_type_index dataType , container_type_index containerType , const void *dataA , const void *dataB )",
   "        {",
   "        if( !dataA || !dataB )",
   "            {",
   "            ISDErrorLog << \"Invalid parameter, dataA and dataB must be pointers to existing types\" << ISDErrorLogEnd;",
   "            return false;",
   "            }",
   "        const _dynamicTypeClass *ta = _findTypeClass( { dataType, containerType } );",
   "        if( !ta )",
   "            return false;",
   "        return ta->Equals( dataA , dataB );",
   "        }",
   ""]

/-- The last lines (ISD_DynamicTypes.py 228-229). -/
def tail : List String :=
  ["    };",
   "    };"]

/-- The lines of ISD_DynamicTypes.cpp (ISD_DynamicTypes.py 38-230). The classes come in the order of `function_for_all_basetype_combos` (CodeGeneratorHelpers.py 108-128). -/
def lines : List String :=
  head ++ (allTypes.flatMap fun t => allContainers.flatMap fun c => classText t.name (containerName c) (combo c t.name)) ++
    tableHead ++ dynTable.map entry ++ findText ++
    newText ++ deleteText ++ clearText ++ writeText ++ readText ++ copyText ++ equalsText ++ tail

/-- The text of the file: each line with a newline (CodeGeneratorHelpers.py 144-148). -/
def file : List Char := lines.flatMap fun l => l.toList ++ ['\n']

end ISD.DynText
