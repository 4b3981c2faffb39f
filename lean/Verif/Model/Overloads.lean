import Verif.Model.DataTypes

/-!
# The text of the overloads of `Write` and `Read`

The files ISD_EntityWriter.cpp and ISD_EntityReader.cpp that the code generator writes, line by line (CodeGenerator/Generators/ISD_EntityWriter.py 82-239,
CodeGenerator/Generators/ISD_EntityReader.py 84-294). A line is given without its newline. The template lines have been taken over from the generator by a script.
-/

namespace ISD.Over

/-- `BaseTypeVariant` (CodeGeneratorHelpers.py 14-19). The number of items does not occur in these files. -/
structure Variant where
  implementingType : String
  itemType : String
  overridesType : Bool

/-- `BaseType` (CodeGeneratorHelpers.py 9-12). -/
structure BaseType where
  name : String
  variants : List Variant

/-- A variant that holds items of a type. -/
def v (implementingType itemType : String) : Variant := ⟨implementingType, itemType, false⟩

/-- `base_types` (CodeGeneratorHelpers.py 27-67). -/
def baseTypes : List BaseType :=
  [⟨"Bool", [v "bool" "bool"]⟩,
   ⟨"Int", [v "i8" "i8", v "i16" "i16", v "i32" "i32", v "i64" "i64"]⟩,
   ⟨"UInt", [v "u8" "u8", v "u16" "u16", v "u32" "u32", v "u64" "u64"]⟩,
   ⟨"Float", [v "float" "float", v "double" "double"]⟩,
   ⟨"Vec2", [v "fvec2" "float", v "dvec2" "double"]⟩,
   ⟨"Vec3", [v "fvec3" "float", v "dvec3" "double"]⟩,
   ⟨"Vec4", [v "fvec4" "float", v "dvec4" "double"]⟩,
   ⟨"IVec2", [v "i8vec2" "i8", v "i16vec2" "i16", v "i32vec2" "i32", v "i64vec2" "i64"]⟩,
   ⟨"IVec3", [v "i8vec3" "i8", v "i16vec3" "i16", v "i32vec3" "i32", v "i64vec3" "i64"]⟩,
   ⟨"IVec4", [v "i8vec4" "i8", v "i16vec4" "i16", v "i32vec4" "i32", v "i64vec4" "i64"]⟩,
   ⟨"UVec2", [v "u8vec2" "u8", v "u16vec2" "u16", v "u32vec2" "u32", v "u64vec2" "u64"]⟩,
   ⟨"UVec3", [v "u8vec3" "u8", v "u16vec3" "u16", v "u32vec3" "u32", v "u64vec3" "u64"]⟩,
   ⟨"UVec4", [v "u8vec4" "u8", v "u16vec4" "u16", v "u32vec4" "u32", v "u64vec4" "u64"]⟩,
   ⟨"Mat2", [v "fmat2" "float", v "dmat2" "double"]⟩,
   ⟨"Mat3", [v "fmat3" "float", v "dmat3" "double"]⟩,
   ⟨"Mat4", [v "fmat4" "float", v "dmat4" "double"]⟩,
   ⟨"Quat", [v "fquat" "float", v "dquat" "double"]⟩,
   ⟨"Uuid", [v "uuid" "uuid", ⟨"entity_ref", "uuid", true⟩]⟩,
   ⟨"Hash", [v "hash" "hash", ⟨"package_ref", "hash", true⟩]⟩,
   ⟨"String", [v "string" "string"]⟩]

/-- The overloads of `Write` for a type `t` that is stored through a type `u` (ISD_EntityWriter.py 109-177). -/
def writerOverride : Container → String → String → List String
  -- 109-115
  | .none, t, u =>
    ["\t// " ++ t ++ ": using " ++ u ++ " to store",
     "\ttemplate <> bool EntityWriter::Write<" ++ t ++ ">( const char *key, const u8 key_length, const " ++ t ++ " &src_variable )",
     "\t\t{",
     "\t\tconst " ++ u ++ " tmp_variable = src_variable;",
     "\t\treturn this->Write<" ++ u ++ ">( key, key_length, tmp_variable );",
     "\t\t}",
     ""]
  -- 117-125
  | .optionalValue, t, u =>
    ["\t// " ++ t ++ ": using optional_value<" ++ u ++ "> to store",
     "\ttemplate <> bool EntityWriter::Write<optional_value<" ++ t ++ ">>( const char *key, const u8 key_length, const optional_value<" ++ t ++ "> &src_variable )",
     "\t\t{",
     "\t\toptional_value<" ++ u ++ "> tmp_variable;",
     "\t\tif( src_variable.has_value() )",
     "\t\t    tmp_variable.set( src_variable.value() );",
     "\t\treturn this->Write<optional_value<" ++ u ++ ">>( key, key_length, tmp_variable );",
     "\t\t}",
     ""]
  -- 127-135
  | .vector, t, u =>
    ["\t// " ++ t ++ ": using std::vector<" ++ u ++ "> to store",
     "\ttemplate <> bool EntityWriter::Write<std::vector<" ++ t ++ ">>( const char *key, const u8 key_length, const std::vector<" ++ t ++ "> &src_variable )",
     "\t\t{",
     "\t\tstd::vector<" ++ u ++ "> tmp_variable;",
     "\t\ttmp_variable.reserve( src_variable.size() );",
     "\t\tstd::copy( src_variable.begin(), src_variable.end(), std::back_inserter(tmp_variable) );",
     "\t\treturn this->Write<std::vector<" ++ u ++ ">>( key, key_length, tmp_variable );",
     "\t\t}",
     ""]
  -- 137-149
  | .optionalVector, t, u =>
    ["\t//  " ++ t ++ ": optional_vector<" ++ u ++ "> to store",
     "\ttemplate <> bool EntityWriter::Write<optional_vector<" ++ t ++ ">>( const char *key, const u8 key_length, const optional_vector<" ++ t ++ "> &src_variable )",
     "\t\t{",
     "\t\toptional_vector<" ++ u ++ "> tmp_variable;",
     "\t\tif( src_variable.has_value() )",
     "\t\t\t{",
     "\t\t\ttmp_variable.set();",
     "\t\t\ttmp_variable.values().reserve( src_variable.values().size() );",
     "\t\t\tstd::copy( src_variable.values().begin(), src_variable.values().end(), std::back_inserter(tmp_variable.values()) );",
     "\t\t\t}",
     "\t\treturn this->Write<optional_vector<" ++ u ++ ">>( key, key_length, tmp_variable );",
     "\t\t}",
     ""]
  -- 151-161
  | .idxVector, t, u =>
    ["\t// " ++ t ++ ": using idx_vector<" ++ u ++ "> to store",
     "\ttemplate <> bool EntityWriter::Write<idx_vector<" ++ t ++ ">>( const char *key, const u8 key_length, const idx_vector<" ++ t ++ "> &src_variable )",
     "\t\t{",
     "\t\tidx_vector<" ++ u ++ "> tmp_variable;",
     "\t\ttmp_variable.index().reserve( src_variable.index().size() );",
     "\t\ttmp_variable.values().reserve( src_variable.values().size() );",
     "\t\tstd::copy( src_variable.index().begin(), src_variable.index().end(), std::back_inserter(tmp_variable.index()) );",
     "\t\tstd::copy( src_variable.values().begin(), src_variable.values().end(), std::back_inserter(tmp_variable.values()) );",
     "\t\treturn this->Write<idx_vector<" ++ u ++ ">>( key, key_length, tmp_variable );",
     "\t\t}",
     ""]
  -- 163-177
  | .optionalIdxVector, t, u =>
    ["\t//  " ++ t ++ ": optional_idx_vector<" ++ u ++ "> to store",
     "\ttemplate <> bool EntityWriter::Write<optional_idx_vector<" ++ t ++ ">>( const char *key, const u8 key_length, const optional_idx_vector<" ++ t ++ "> &src_variable )",
     "\t\t{",
     "\t\toptional_idx_vector<" ++ u ++ "> tmp_variable;",
     "\t\tif( src_variable.has_value() )",
     "\t\t\t{",
     "\t\t\ttmp_variable.set();",
     "\t\t\ttmp_variable.index().reserve( src_variable.index().size() );",
     "\t\t\ttmp_variable.values().reserve( src_variable.values().size() );",
     "\t\t\tstd::copy( src_variable.index().begin(), src_variable.index().end(), std::back_inserter(tmp_variable.index()) );",
     "\t\t\tstd::copy( src_variable.values().begin(), src_variable.values().end(), std::back_inserter(tmp_variable.values()) );",
     "\t\t\t}",
     "\t\treturn this->Write<optional_idx_vector<" ++ u ++ ">>( key, key_length, tmp_variable );",
     "\t\t}",
     ""]

/-- The overloads of `Write` for a type `t` of the base type `b` (ISD_EntityWriter.py 180-227); `VT_b` is `type_name`, `VT_Array_b` is `array_type_name`. -/
def writerDirect : Container → String → String → List String
  -- 183-188
  | .none, b, t =>
    ["\t// VT_" ++ b ++ ": " ++ t,
     "\ttemplate <> bool EntityWriter::Write<" ++ t ++ ">( const char *key, const u8 key_length, const " ++ t ++ " &src_variable )",
     "\t\t{",
     "\t\treturn write_single_value<ValueType::VT_" ++ b ++ "," ++ t ++ ">( this->dstream, key, key_length, &src_variable );",
     "\t\t}",
     ""]
  -- 190-196
  | .optionalValue, b, t =>
    ["\t// VT_" ++ b ++ ": optional_value<" ++ t ++ ">",
     "\ttemplate <> bool EntityWriter::Write<optional_value<" ++ t ++ ">>( const char *key, const u8 key_length, const optional_value<" ++ t ++ "> &src_variable )",
     "\t\t{",
     "\t\tconst " ++ t ++ " *p_src_variable = (src_variable.has_value()) ? &(src_variable.value()) : nullptr;",
     "\t\treturn write_single_value<ValueType::VT_" ++ b ++ "," ++ t ++ ">( this->dstream, key, key_length, p_src_variable );",
     "\t\t}",
     ""]
  -- 198-203
  | .vector, b, t =>
    ["\t//  VT_Array_" ++ b ++ ": std::vector<" ++ t ++ ">",
     "\ttemplate <> bool EntityWriter::Write<std::vector<" ++ t ++ ">>( const char *key, const u8 key_length, const std::vector<" ++ t ++ "> &src_variable )",
     "\t\t{",
     "\t\treturn write_array<ValueType::VT_Array_" ++ b ++ "," ++ t ++ ">(this->dstream, key, key_length, &src_variable , nullptr );",
     "\t\t}",
     ""]
  -- 205-211
  | .optionalVector, b, t =>
    ["\t//  VT_Array_" ++ b ++ ": optional_vector<" ++ t ++ ">",
     "\ttemplate <> bool EntityWriter::Write<optional_vector<" ++ t ++ ">>( const char *key, const u8 key_length, const optional_vector<" ++ t ++ "> &src_variable )",
     "\t\t{",
     "\t\tconst std::vector<" ++ t ++ "> *p_src_variable = (src_variable.has_value()) ? &(src_variable.values()) : nullptr;",
     "\t\treturn write_array<ValueType::VT_Array_" ++ b ++ "," ++ t ++ ">(this->dstream, key, key_length, p_src_variable , nullptr );",
     "\t\t}",
     ""]
  -- 213-218
  | .idxVector, b, t =>
    ["\t//  VT_Array_" ++ b ++ ": idx_vector<" ++ t ++ ">",
     "\ttemplate <> bool EntityWriter::Write<idx_vector<" ++ t ++ ">>( const char *key, const u8 key_length, const idx_vector<" ++ t ++ "> &src_variable )",
     "\t\t{",
     "\t\treturn write_array<ValueType::VT_Array_" ++ b ++ "," ++ t ++ ">(this->dstream, key, key_length, &(src_variable.values()) , &(src_variable.index()) );",
     "\t\t}",
     ""]
  -- 220-227
  | .optionalIdxVector, b, t =>
    ["\t//  VT_Array_" ++ b ++ ": optional_idx_vector<" ++ t ++ ">",
     "\ttemplate <> bool EntityWriter::Write<optional_idx_vector<" ++ t ++ ">>( const char *key, const u8 key_length, const optional_idx_vector<" ++ t ++ "> &src_variable )",
     "\t\t{",
     "\t\tconst std::vector<" ++ t ++ "> *p_src_values = (src_variable.has_value()) ? &(src_variable.values()) : nullptr;",
     "\t\tconst std::vector<i32> *p_src_index = (src_variable.has_value()) ? &(src_variable.index()) : nullptr;",
     "\t\treturn write_array<ValueType::VT_Array_" ++ b ++ "," ++ t ++ ">(this->dstream, key, key_length, p_src_values , p_src_index );",
     "\t\t}",
     ""]

/-- The overloads of `Read` for a type `t` that is stored through a type `u` (ISD_EntityReader.py 118-233). -/
def readerOverride : Container → String → String → List String
  -- 118-129
  | .none, t, u =>
    ["\t// " ++ t ++ ": using " ++ u ++ " to read",
     "\ttemplate <> bool EntityReader::Read<" ++ t ++ ">( const char *key, const u8 key_length, " ++ t ++ " &dest_variable )",
     "\t\t{",
     "\t\t" ++ u ++ " tmp_variable;",
     "\t\tif( !this->Read<" ++ u ++ ">( key, key_length , tmp_variable ) )",
     "\t\t\treturn false;",
     "",
     "\t\tdest_variable = " ++ t ++ "( tmp_variable );",
     "",
     "\t\treturn true;",
     "\t\t}",
     ""]
  -- 131-145
  | .optionalValue, t, u =>
    ["\t// " ++ t ++ ": using optional_value<" ++ u ++ "> to read",
     "\ttemplate <> bool EntityReader::Read<optional_value<" ++ t ++ ">>( const char *key, const u8 key_length, optional_value<" ++ t ++ "> &dest_variable )",
     "\t\t{",
     "\t\toptional_value<" ++ u ++ "> tmp_variable;",
     "\t\tif( !this->Read<optional_value<" ++ u ++ ">>( key, key_length , tmp_variable ) )",
     "\t\t\treturn false;",
     "",
     "\t\tif( tmp_variable.has_value() )",
     "\t\t\tdest_variable.set( tmp_variable.value() );",
     "\t\telse",
     "\t\t\tdest_variable.reset();",
     "",
     "\t\treturn true;",
     "\t\t}",
     ""]
  -- 147-161
  | .vector, t, u =>
    ["\t// " ++ t ++ ": using std::vector<" ++ u ++ "> to read",
     "\ttemplate <> bool EntityReader::Read<std::vector<" ++ t ++ ">>( const char *key, const u8 key_length, std::vector<" ++ t ++ "> &dest_variable )",
     "\t\t{",
     "\t\tstd::vector<" ++ u ++ "> tmp_variable;",
     "\t\tif( !this->Read<std::vector<" ++ u ++ ">>( key, key_length , tmp_variable ) )",
     "\t\t\treturn false;",
     "",
     "\t\t// copy values. use explicit ctor and emplace, since some objects have private conversion ctors",
     "\t\tdest_variable.reserve( tmp_variable.size() );",
     "\t\tfor( size_t i = 0; i < tmp_variable.size(); ++i )",
     "\t\t\tdest_variable.emplace_back( " ++ t ++ "(tmp_variable[i]) );",
     "",
     "\t\treturn true;",
     "\t\t}",
     ""]
  -- 163-186
  | .optionalVector, t, u =>
    ["\t//  " ++ t ++ ": optional_vector<" ++ u ++ "> to read",
     "\ttemplate <> bool EntityReader::Read<optional_vector<" ++ t ++ ">>( const char *key, const u8 key_length, optional_vector<" ++ t ++ "> &dest_variable )",
     "\t\t{",
     "\t\toptional_vector<" ++ u ++ "> tmp_variable;",
     "\t\tif( !this->Read<optional_vector<" ++ u ++ ">>( key, key_length , tmp_variable ) )",
     "\t\t\treturn false;",
     "",
     "\t\tif( tmp_variable.has_value() )",
     "\t\t\t{",
     "\t\t\tdest_variable.set();",
     "",
     "\t\t\t// copy values. use explicit ctor and emplace, since some objects have private conversion ctors",
     "\t\t\tdest_variable.values().reserve( tmp_variable.values().size() );",
     "\t\t\tfor( size_t i = 0; i < tmp_variable.values().size(); ++i )",
     "\t\t\t\tdest_variable.values().emplace_back( " ++ t ++ "(tmp_variable.values()[i]) );",
     "\t\t\t}",
     "\t\telse",
     "\t\t\t{",
     "\t\t\tdest_variable.reset();",
     "\t\t\t}",
     "",
     "\t\treturn true;",
     "\t\t}",
     ""]
  -- 188-205
  | .idxVector, t, u =>
    ["\t// " ++ t ++ ": using idx_vector<" ++ u ++ "> to read",
     "\ttemplate <> bool EntityReader::Read<idx_vector<" ++ t ++ ">>( const char *key, const u8 key_length, idx_vector<" ++ t ++ "> &dest_variable )",
     "\t\t{",
     "\t\tidx_vector<" ++ u ++ "> tmp_variable;",
     "\t\tif( !this->Read<idx_vector<" ++ u ++ ">>( key, key_length , tmp_variable ) )",
     "\t\t\treturn false;",
     "",
     "\t\t// move index, as no conversion is needed",
     "\t\tdest_variable.index() = std::move( tmp_variable.index() );",
     "",
     "\t\t// copy values. use explicit ctor and emplace, since some objects have private conversion ctors",
     "\t\tdest_variable.values().reserve( tmp_variable.values().size() );",
     "\t\tfor( size_t i = 0; i < tmp_variable.values().size(); ++i )",
     "\t\t\tdest_variable.values().emplace_back( " ++ t ++ "(tmp_variable.values()[i]) );",
     "",
     "\t\treturn true;",
     "\t\t}",
     ""]
  -- 207-233
  | .optionalIdxVector, t, u =>
    ["\t//  " ++ t ++ ": optional_idx_vector<" ++ u ++ "> to read",
     "\ttemplate <> bool EntityReader::Read<optional_idx_vector<" ++ t ++ ">>( const char *key, const u8 key_length, optional_idx_vector<" ++ t ++ "> &dest_variable )",
     "\t\t{",
     "\t\toptional_idx_vector<" ++ u ++ "> tmp_variable;",
     "\t\tif( !this->Read<optional_idx_vector<" ++ u ++ ">>( key, key_length , tmp_variable ) )",
     "\t\t\treturn false;",
     "",
     "\t\tif( tmp_variable.has_value() )",
     "\t\t\t{",
     "\t\t\tdest_variable.set();",
     "",
     "\t\t\t// move index, as no conversion is needed",
     "\t\t\tdest_variable.index() = std::move( tmp_variable.index() );",
     "",
     "\t\t\t// copy values. use explicit ctor and emplace, since some objects have private conversion ctors",
     "\t\t\tdest_variable.values().reserve( tmp_variable.values().size() );",
     "\t\t\tfor( size_t i = 0; i < tmp_variable.values().size(); ++i )",
     "\t\t\t\tdest_variable.values().emplace_back( " ++ t ++ "(tmp_variable.values()[i]) );",
     "\t\t\t}",
     "\t\telse",
     "\t\t\t{",
     "\t\t\tdest_variable.reset();",
     "\t\t\t}",
     "",
     "\t\treturn true;",
     "\t\t}",
     ""]

/-- The overloads of `Read` for a type `t` of the base type `b` (ISD_EntityReader.py 236-291); `VT_b` is `type_name`, `VT_Array_b` is `array_type_name`. -/
def readerDirect : Container → String → String → List String
  -- 236-242
  | .none, b, t =>
    ["\t// VT_" ++ b ++ ": " ++ t,
     "\ttemplate <> bool EntityReader::Read<" ++ t ++ ">( const char *key, const u8 key_length, " ++ t ++ " &dest_variable )",
     "\t\t{",
     "\t\treader_status status = read_single_item<ValueType::VT_" ++ b ++ "," ++ t ++ ">(this->sstream, key, key_length, false, &(dest_variable) );",
     "\t\treturn status != reader_status::fail;",
     "\t\t}",
     ""]
  -- 244-253
  | .optionalValue, b, t =>
    ["\t// VT_" ++ b ++ ": optional_value<" ++ t ++ ">",
     "\ttemplate <> bool EntityReader::Read<optional_value<" ++ t ++ ">>( const char *key, const u8 key_length, optional_value<" ++ t ++ "> &dest_variable )",
     "\t\t{",
     "\t\tdest_variable.set();",
     "\t\treader_status status = read_single_item<ValueType::VT_" ++ b ++ "," ++ t ++ ">(this->sstream, key, key_length, true, &(dest_variable.value()) );",
     "\t\tif( status == reader_status::success_empty )",
     "\t\t\tdest_variable.reset();",
     "\t\treturn status != reader_status::fail;",
     "\t\t}",
     ""]
  -- 255-261
  | .vector, b, t =>
    ["\t// VT_" ++ b ++ ": std::vector<" ++ t ++ ">",
     "\ttemplate <> bool EntityReader::Read<std::vector<" ++ t ++ ">>( const char *key, const u8 key_length, std::vector<" ++ t ++ "> &dest_variable )",
     "\t\t{",
     "\t\treader_status status = read_array<ValueType::VT_Array_" ++ b ++ "," ++ t ++ ">(this->sstream, key, key_length, false, &(dest_variable), nullptr );",
     "\t\treturn status != reader_status::fail;",
     "\t\t}",
     ""]
  -- 263-272
  | .optionalVector, b, t =>
    ["\t// VT_" ++ b ++ ": optional_vector<" ++ t ++ ">",
     "\ttemplate <> bool EntityReader::Read<optional_vector<" ++ t ++ ">>( const char *key, const u8 key_length, optional_vector<" ++ t ++ "> &dest_variable )",
     "\t\t{",
     "\t\tdest_variable.set();",
     "\t\treader_status status = read_array<ValueType::VT_Array_" ++ b ++ "," ++ t ++ ">(this->sstream, key, key_length, true, &(dest_variable.values()), nullptr );",
     "\t\tif( status == reader_status::success_empty )",
     "\t\t\tdest_variable.reset();",
     "\t\treturn status != reader_status::fail;",
     "\t\t}",
     ""]
  -- 274-280
  | .idxVector, b, t =>
    ["\t// VT_" ++ b ++ ": idx_vector<" ++ t ++ ">",
     "\ttemplate <> bool EntityReader::Read<idx_vector<" ++ t ++ ">>( const char *key, const u8 key_length, idx_vector<" ++ t ++ "> &dest_variable )",
     "\t\t{",
     "\t\treader_status status = read_array<ValueType::VT_Array_" ++ b ++ "," ++ t ++ ">(this->sstream, key, key_length, false, &(dest_variable.values()), &(dest_variable.index()) );",
     "\t\treturn status != reader_status::fail;",
     "\t\t}",
     ""]
  -- 282-291
  | .optionalIdxVector, b, t =>
    ["\t// VT_" ++ b ++ ": optional_idx_vector<" ++ t ++ ">",
     "\ttemplate <> bool EntityReader::Read<optional_idx_vector<" ++ t ++ ">>( const char *key, const u8 key_length, optional_idx_vector<" ++ t ++ "> &dest_variable )",
     "\t\t{",
     "\t\tdest_variable.set();",
     "\t\treader_status status = read_array<ValueType::VT_Array_" ++ b ++ "," ++ t ++ ">(this->sstream, key, key_length, true, &(dest_variable.values()), &(dest_variable.index()) );",
     "\t\tif( status == reader_status::success_empty )",
     "\t\t\tdest_variable.reset();",
     "\t\treturn status != reader_status::fail;",
     "\t\t}",
     ""]

/-- The order of the overloads of one type in both files. -/
def containers : List Container := [.none, .optionalValue, .vector, .optionalVector, .idxVector, .optionalIdxVector]

/-- The head of ISD_EntityWriter.cpp (ISD_EntityWriter.py 84-97). -/
def writerHead : List String :=
  ["// ISD Copyright (c) 2021 Ulrik Lindahl",
   "// Licensed under the MIT license https://github.com/Cooolrik/ISD/blob/main/LICENSE",
   "",
   "#pragma once",
   "",
   "#include \"ISD_EntityWriter.h\"",
   "#include \"ISD_MemoryWriteStream.h\"",
   "",
   "#include \"ISD_EntityWriterTemplates.inl\"",
   "",
   "namespace ISD",
   "\t{",
   "\tEntityWriter::EntityWriter( MemoryWriteStream &_dstream ) : dstream( _dstream ) , start_position( _dstream.GetPosition() ) {}",
   ""]

/-- The head of ISD_EntityReader.cpp (ISD_EntityReader.py 86-105). -/
def readerHead : List String :=
  ["// ISD Copyright (c) 2021 Ulrik Lindahl",
   "// Licensed under the MIT license https://github.com/Cooolrik/ISD/blob/main/LICENSE",
   "",
   "#pragma once",
   "",
   "#include \"ISD_EntityReader.h\"",
   "#include \"ISD_MemoryReadStream.h\"",
   "",
   "#include \"ISD_EntityReaderTemplates.inl\"",
   "",
   "namespace ISD",
   "\t{",
   "\tEntityReader::EntityReader( MemoryReadStream &_sstream ) : sstream( _sstream ) , end_position( _sstream.GetSize() )",
   "\t\t{",
   "\t\t}",
   "",
   "\tEntityReader::EntityReader( MemoryReadStream &_sstream , const u64 _end_position ) : sstream( _sstream ) , end_position( _end_position )",
   "\t\t{",
   "\t\t}",
   ""]

/-- The overloads of `Write` for one type (ISD_EntityWriter.py 103-227). -/
def writerVariant (b : BaseType) (t : Variant) : List String :=
  containers.flatMap fun c =>
    if t.overridesType then writerOverride c t.implementingType t.itemType else writerDirect c b.name t.implementingType

/-- The overloads of `Read` for one type (ISD_EntityReader.py 111-291). -/
def readerVariant (b : BaseType) (t : Variant) : List String :=
  containers.flatMap fun c =>
    if t.overridesType then readerOverride c t.implementingType t.itemType else readerDirect c b.name t.implementingType

/-- The lines of ISD_EntityWriter.cpp (ISD_EntityWriter.py 82-239). The loop in 230-236 writes nothing. -/
def writerLines : List String :=
  writerHead ++ (baseTypes.flatMap fun b => b.variants.flatMap (writerVariant b)) ++ ["\t};"]

/-- The lines of ISD_EntityReader.cpp (ISD_EntityReader.py 84-294). -/
def readerLines : List String :=
  readerHead ++ (baseTypes.flatMap fun b => b.variants.flatMap (readerVariant b)) ++ ["\t};"]

/-- The text of a file with some lines: each with a newline (CodeGeneratorHelpers.py 144-148). -/
def text (lines : List String) : List Char := lines.flatMap fun l => l.toList ++ ['\n']

end ISD.Over
