import Verif.Model.DynText

/-!
# The text of the information on combined types

The files ISD_CombinedTypes.h and ISD_CombinedTypes.cpp that the code generator writes, line by line (CodeGenerator/Generators/ISD_CombinedTypes.py), and the two enumerations
they refer to. A line is given without its newline. The template lines have been taken over from the generator by a script.
-/

namespace ISD.CombText

open DynText (containerName combo)

/-- The lines before the specialisations (ISD_CombinedTypes.py 8-27). -/
def headerHead : List String :=
  ["// ISD Copyright (c) 2021,2022 Ulrik Lindahl",
   "// Licensed under the MIT license https://github.com/Cooolrik/ISD/blob/main/LICENSE",
   "",
   "#pragma once",
   "",
   "#include \"ISD_Types.h\"",
   "",
   "// Lists information of combined types: a combination of data type and container, ",
   "// even when the container is \"none\" and the data type is used directly",
   "",
   "namespace ISD",
   "    {",
   "",
   "    // type_information stores information on the combined types in ISD",
   "    template <class _Ty> struct combined_type_information;",
   "",
   "    // clears the combined type",
   "    template <class _Ty> void clear_combined_type( _Ty& type );",
   ""]

/-- `generate_type_information` with `implementing_type` t, `container_type` c and `base_type_combo` combo (ISD_CombinedTypes.py 29-39). -/
def infoText (t c combo : String) : List String :=
  ["    // " ++ combo,
   "    template<> struct combined_type_information<" ++ combo ++ ">",
   "        {",
   "        using data_type = " ++ t ++ ";",
   "        static constexpr data_type_index type_index = data_type_index::dt_" ++ t ++ "; // the data type index of " ++ combo ++ " ( dt_" ++ t ++ " )",
   "        static constexpr container_type_index container_index = container_type_index::ct_" ++ c ++ "; // the container type index of " ++ combo ++ " ( dt_" ++ c ++ " )",
   "        };",
   ""]

/-- The lines of ISD_CombinedTypes.h (ISD_CombinedTypes.py 6-44). The specialisations come in the order of `function_for_all_basetype_combos`
(CodeGeneratorHelpers.py 108-128). -/
def headerLines : List String :=
  headerHead ++ (allTypes.flatMap fun t => allContainers.flatMap fun c => infoText t.name (containerName c) (combo c t.name)) ++ ["    };"]

/-- The lines before the functions (ISD_CombinedTypes.py 47-57). -/
def sourceHead : List String :=
  ["// ISD Copyright (c) 2021,2022 Ulrik Lindahl",
   "// Licensed under the MIT license https://github.com/Cooolrik/ISD/blob/main/LICENSE",
   "",
   "#include \"ISD_Types.h\"",
   "#include \"ISD_CombinedTypes.h\"",
   "",
   "#include <glm/gtc/type_ptr.hpp>",
   "",
   "namespace ISD",
   "    {"]

/-- `generate_clear_combined_type` (ISD_CombinedTypes.py 59-67). -/
def clearText (c : Container) (combo : String) : String :=
  match c with
  | .none => "    template <> void clear_combined_type<" ++ combo ++ ">( " ++ combo ++ " &type ) { type = data_type_information<" ++ combo ++ ">::zero; }"
  | .vector | .idxVector => "    template <> void clear_combined_type<" ++ combo ++ ">( " ++ combo ++ " &type ) { type.clear(); }"
  | _ => "    template <> void clear_combined_type<" ++ combo ++ ">( " ++ combo ++ " &type ) { type.reset(); }"

/-- The lines of ISD_CombinedTypes.cpp (ISD_CombinedTypes.py 46-73). -/
def sourceLines : List String :=
  sourceHead ++ (allTypes.flatMap fun t => allContainers.map fun c => clearText c (combo c t.name)) ++ ["    };"]

/-- Python's `hex`. -/
def pyHex (n : Nat) : String := "0x" ++ String.ofList (Nat.toDigits 16 n)

/-- The enumeration `data_type_index` in ISD_DataTypes.h (ISD_DataTypes.py 137-146); `typeIds` goes through base types and variants as the loops do. -/
def typeLines : List String :=
  ["\t// all value type indices",
   "\tenum class data_type_index",
   "\t\t{"] ++ (typeIds.map fun p => "\t\tdt_" ++ p.2.name ++ " = " ++ pyHex p.1 ++ ",") ++ ["\t\t};"]

/-- The enumeration `container_type_index` (ISD_Types.h 147-155). -/
def containerLines : List String :=
  ["\tenum class container_type_index",
   "\t\t{",
   "\t\tct_none = 0x0,",
   "\t\tct_optional_value = 0x1,",
   "\t\tct_vector = 0x10,",
   "\t\tct_optional_vector = 0x11,",
   "\t\tct_idx_vector = 0x20,",
   "\t\tct_optional_idx_vector = 0x21,",
   "\t\t};"]

/-- Lines as a text: each with a newline (CodeGeneratorHelpers.py 144-148). -/
def textOf (lines : List String) : List Char := lines.flatMap fun l => l.toList ++ ['\n']

/-- ISD_CombinedTypes.h. -/
def header : List Char := textOf headerLines

/-- ISD_CombinedTypes.cpp. -/
def source : List Char := textOf sourceLines

/-- The enumeration of the data types. -/
def typeEnum : List Char := textOf typeLines

/-- The enumeration of the containers. -/
def containerEnum : List Char := textOf containerLines

end ISD.CombText
