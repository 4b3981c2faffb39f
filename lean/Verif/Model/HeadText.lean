import Verif.Model.Overloads

/-!
# The text of the declarations of the entity writer and reader

The files ISD_EntityWriter.h and ISD_EntityReader.h that the code generator writes, line by line (CodeGenerator/Generators/ISD_EntityWriter.py 6-80, ISD_EntityReader.py 6-82). A line is
given without its newline. The lines have been taken over from the generator by a script. `baseTypes` is the table of `Model/Overloads`.
-/

namespace ISD.Head

/-- The lines before the declarations (ISD_EntityWriter.py 8-48). -/
def writerHead : List String :=
  ["// ISD Copyright (c) 2021 Ulrik Lindahl",
   "// Licensed under the MIT license https://github.com/Cooolrik/ISD/blob/main/LICENSE",
   "",
   "#pragma once",
   "",
   "#include \"ISD_Types.h\"",
   "",
   "namespace ISD",
   "    {",
   "    class MemoryWriteStream;",
   "",
   "    class EntityWriter",
   "        {",
   "        private:",
   "            MemoryWriteStream &dstream;",
   "            const u64 start_position;",
   "",
   "            std::unique_ptr<EntityWriter> active_subsection;",
   "",
   "            size_t active_array_size = 0;",
   "            size_t active_array_index = ~0;",
   "            u64 active_array_index_start_position = 0;",
   "",
   "        public:",
   "            EntityWriter( MemoryWriteStream &_dstream );",
   "",
   "            // Build a section. ",
   "            EntityWriter *BeginWriteSection( const char *key, const u8 key_length );",
   "            bool EndWriteSection( const EntityWriter *section_writer );",
   "            bool WriteNullSection( const char *key, const u8 key_length );",
   "",
   "            // Build a sections array. ",
   "            EntityWriter *BeginWriteSectionsArray( const char *key, const u8 key_length, const size_t array_size, const std::vector<i32> *index = nullptr );",
   "            bool BeginWriteSectionInArray( const EntityWriter *sections_array_writer , const size_t section_index );",
   "            bool EndWriteSectionInArray( const EntityWriter *sections_array_writer , const size_t section_index );",
   "            bool EndWriteSectionsArray( const EntityWriter *sections_array_writer );",
   "            bool WriteNullSectionsArray( const char *key, const u8 key_length );",
   "",
   "            // The Write function template, specifically implemented below for all supported value types.",
   "            template <class T> bool Write( const char *key, const u8 key_length, const T &value );",
   ""]

/-- The declarations for a type and an optional value of it (ISD_EntityWriter.py 50-58). -/
def writerBase (t : String) : List String :=
  ["            template <> bool Write<" ++ t ++ ">( const char *key, const u8 key_length, const " ++ t ++ " &value );",
   "            template <> bool Write<optional_value<" ++ t ++ ">>( const char *key, const u8 key_length, const optional_value<" ++ t ++ "> &value );"]

/-- The declarations for the vectors of a type (ISD_EntityWriter.py 60-70). -/
def writerArrays (t : String) : List String :=
  ["            template <> bool Write<std::vector<" ++ t ++ ">>( const char *key, const u8 key_length, const std::vector<" ++ t ++ "> &value );",
   "            template <> bool Write<optional_vector<" ++ t ++ ">>( const char *key, const u8 key_length, const optional_vector<" ++ t ++ "> &value );",
   "            template <> bool Write<idx_vector<" ++ t ++ ">>( const char *key, const u8 key_length, const idx_vector<" ++ t ++ "> &value );",
   "            template <> bool Write<optional_idx_vector<" ++ t ++ ">>( const char *key, const u8 key_length, const optional_idx_vector<" ++ t ++ "> &value );"]

/-- The lines after the declarations (ISD_EntityWriter.py 72-79). -/
def writerTail : List String :=
  ["\t\t};",
   "",
   "\t// Write function. Specialized for all supported value types.",
   "\ttemplate <class T> bool EntityWriter::Write( const char *key, const u8 key_length, const T &value )",
   "\t\t{",
   "\t\tstatic_assert(false, \"Error: EntityWriter::Write template: The value type T cannot be serialized.\");",
   "\t\t}",
   "\t};"]

/-- The lines before the declarations (ISD_EntityReader.py 8-50). -/
def readerHead : List String :=
  ["// ISD Copyright (c) 2021 Ulrik Lindahl",
   "// Licensed under the MIT license https://github.com/Cooolrik/ISD/blob/main/LICENSE",
   "",
   "#pragma once",
   "",
   "#include \"ISD_Types.h\"",
   "",
   "namespace ISD",
   "    {",
   "    class MemoryReadStream;",
   "",
   "    class EntityReader",
   "        {",
   "        private:",
   "            MemoryReadStream &sstream;",
   "            const u64 end_position;",
   "",
   "            std::unique_ptr<EntityReader> active_subsection;",
   "            size_t active_subsection_array_size = 0;",
   "            size_t active_subsection_index = ~0;",
   "            u64 active_subsection_end_pos = 0;",
   "",
   "        public:",
   "            EntityReader( MemoryReadStream &_sstream );",
   "            EntityReader( MemoryReadStream &_sstream , const u64 _end_position );",
   "",
   "            // Read a section. ",
   "            // If the section is null, the section is directly closed, nullptr+success is returned ",
   "            // from BeginReadSection, and EndReadSection shall not be called.",
   "            std::tuple<EntityReader *, bool> BeginReadSection( const char *key, const u8 key_length, const bool null_object_is_allowed );",
   "            bool EndReadSection( const EntityReader *section_reader );",
   "",
   "            // Build a sections array. ",
   "            // If the section is null, the section array is directly closed, nullptr+0+success is returned ",
   "            // from BeginReadSectionsArray, and EndReadSectionsArray shall not be called.",
   "            std::tuple<EntityReader *, size_t, bool> BeginReadSectionsArray( const char *key, const u8 key_length, const bool null_object_is_allowed, std::vector<i32> *dest_index = nullptr );",
   "            bool BeginReadSectionInArray( const EntityReader *sections_array_reader , const size_t section_index, bool *dest_section_has_data = nullptr /* if nullptr, object is not allowed to be empty*/ );",
   "            bool EndReadSectionInArray( const EntityReader *sections_array_reader , const size_t section_index );",
   "            bool EndReadSectionsArray( const EntityReader *sections_array_reader );",
   "",
   "            // The Read function template, specifically implemented below for all supported value types.",
   "            template <class T> bool Read( const char *key, const u8 key_length, T &value );",
   ""]

/-- The declarations for a type and an optional value of it (ISD_EntityReader.py 52-60). -/
def readerBase (t : String) : List String :=
  ["            template <> bool Read<" ++ t ++ ">( const char *key, const u8 key_length, " ++ t ++ " &value );",
   "            template <> bool Read<optional_value<" ++ t ++ ">>( const char *key, const u8 key_length, optional_value<" ++ t ++ "> &value );"]

/-- The declarations for the vectors of a type (ISD_EntityReader.py 62-72). -/
def readerArrays (t : String) : List String :=
  ["            template <> bool Read<std::vector<" ++ t ++ ">>( const char *key, const u8 key_length, std::vector<" ++ t ++ "> &value );",
   "            template <> bool Read<optional_vector<" ++ t ++ ">>( const char *key, const u8 key_length, optional_vector<" ++ t ++ "> &value );",
   "            template <> bool Read<idx_vector<" ++ t ++ ">>( const char *key, const u8 key_length, idx_vector<" ++ t ++ "> &value );",
   "            template <> bool Read<optional_idx_vector<" ++ t ++ ">>( const char *key, const u8 key_length, optional_idx_vector<" ++ t ++ "> &value );"]

/-- The lines after the declarations (ISD_EntityReader.py 74-81). -/
def readerTail : List String :=
  ["\t\t};",
   "",
   "\t// Read method. Specialized for all supported value types.",
   "\ttemplate <class T> bool EntityReader::Read( const char *key, const u8 key_length, T &value )",
   "\t\t{",
   "\t\tstatic_assert(false, \"Error: EntityReader::Read template: The value type T cannot be serialized.\");",
   "\t\t}",
   "\t};"]

/-- The loops over the base types and their variants, first with the values and then with the arrays (ISD_EntityWriter.py 50-70, ISD_EntityReader.py 52-72). -/
def declarations (base arrays : String → List String) : List String :=
  (Over.baseTypes.flatMap fun b => ["            // " ++ ("VT_" ++ b.name)] ++ (b.variants.flatMap fun t => base t.implementingType) ++ [""]) ++
  (Over.baseTypes.flatMap fun b => ["            // " ++ ("VT_Array_" ++ b.name)] ++ (b.variants.flatMap fun t => arrays t.implementingType) ++ [""])

/-- The lines of ISD_EntityWriter.h. -/
def writerLines : List String := writerHead ++ declarations writerBase writerArrays ++ writerTail

/-- The lines of ISD_EntityReader.h. -/
def readerLines : List String := readerHead ++ declarations readerBase readerArrays ++ readerTail

/-- ISD_EntityWriter.h: each line with a newline (CodeGeneratorHelpers.py 144-148). -/
def writerText : List Char := writerLines.flatMap fun l => l.toList ++ ['\n']

/-- ISD_EntityReader.h. -/
def readerText : List Char := readerLines.flatMap fun l => l.toList ++ ['\n']

end ISD.Head
