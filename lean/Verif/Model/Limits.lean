import Verif.Model.DataTypes
import Verif.Model.Order

/-!
# `data_type_information` (ISD_DataTypes.py, the generator of ISD_DataTypes.h and ISD_DataTypes.cpp)

The rows the script prints, in its order, and the constants the printed initialisers name.
-/

namespace ISD
namespace Limits

/-- `int_bit_range` (ISD_DataTypes.py 6), as it is pasted into names, with the scalar of that size. -/
def intBits : List (String × Sc) := [("8", .w1), ("16", .w2), ("32", .w4), ("64", .w8)]

/-- `vector_dimension_range` (ISD_DataTypes.py 8), as it is pasted into names, with the number. -/
def dims : List (String × Nat) := [("2", 2), ("3", 3), ("4", 4)]

/-- The arguments of one call of `print_type_information_header` or `print_type_information_source`: `type`, `value`, `value_count`. -/
structure Row where
  type : String
  value : String
  count : Nat
  deriving DecidableEq, Repr

/-- The calls for scalars, vectors, matrices and quaternions, the same in both files (ISD_DataTypes.py 163-191 and 268-296). -/
def numericRows : List Row :=
  [⟨"bool", "bool", 1⟩]
  ++ intBits.map (fun b => ⟨"i" ++ b.1, "i" ++ b.1, 1⟩)
  ++ intBits.map (fun b => ⟨"u" ++ b.1, "u" ++ b.1, 1⟩)
  ++ [⟨"float", "float", 1⟩, ⟨"double", "double", 1⟩]
  ++ intBits.flatMap (fun b => dims.map fun d => ⟨"i" ++ b.1 ++ "vec" ++ d.1, "i" ++ b.1, d.2⟩)
  ++ intBits.flatMap (fun b => dims.map fun d => ⟨"u" ++ b.1 ++ "vec" ++ d.1, "u" ++ b.1, d.2⟩)
  ++ dims.map (fun d => ⟨"fvec" ++ d.1, "float", d.2⟩)
  ++ dims.map (fun d => ⟨"dvec" ++ d.1, "double", d.2⟩)
  ++ dims.map (fun d => ⟨"fmat" ++ d.1, "float", d.2 * d.2⟩)
  ++ dims.map (fun d => ⟨"dmat" ++ d.1, "double", d.2 * d.2⟩)
  ++ [⟨"fquat", "float", 4⟩, ⟨"dquat", "double", 4⟩]

/-- All calls of `print_type_information_header` (ISD_DataTypes.py 163-201). -/
def headerRows : List Row :=
  numericRows ++ [⟨"uuid", "uuid", 1⟩, ⟨"entity_ref", "entity_ref", 1⟩, ⟨"hash", "hash", 1⟩, ⟨"package_ref", "package_ref", 1⟩, ⟨"string", "string", 1⟩]

/-- All calls of `print_type_information_source` (ISD_DataTypes.py 268-301). -/
def sourceRows : List Row :=
  numericRows ++ ["uuid", "package_ref", "hash", "entity_ref", "string"].map fun t => ⟨t, t, 1⟩

/-- The static members of one `data_type_information`. -/
inductive Member where
  | zero | inf | sup
  deriving DecidableEq, Repr

/-- The name of a member, also the suffix of the constants (ISD_DataTypes.py 232-242). -/
def Member.name : Member → String
  | .zero => "zero"
  | .inf => "inf"
  | .sup => "sup"

/-- The members declared in the class printed for a row (`print_type_information_header`, ISD_DataTypes.py 11-26). -/
def declared (r : Row) : List Member := if r.type ≠ "string" then [.zero, .inf, .sup] else [.zero, .inf]

/-- The members defined in the source printed for a row (`print_type_information_source`, ISD_DataTypes.py 232-250), each with the names
of the constants in its initialiser `type( value_zero , … )`. -/
def defined (r : Row) : List (Member × List String) :=
  (if r.type ≠ "string" then [Member.zero, .inf, .sup] else [.zero, .inf]).map fun m =>
    (m, List.replicate r.count (r.value ++ "_" ++ m.name))

/-- The value of a constant. -/
inductive Const where
  | bool (b : Bool)
  | scalar (sc : Sc) (v : sc.Val)
  | string (s : Bytes)

/-- `INTn_MIN` and `INTn_MAX`. -/
def intMin (k : Nat) : Word k := BitVec.intMin (8 * k)
/-- `INTn_MIN` and `INTn_MAX`. -/
def intMax (k : Nat) : Word k := BitVec.intMax (8 * k)
/-- `UINTn_MAX`. -/
def uintMax (k : Nat) : Word k := BitVec.allOnes (8 * k)

/-- The constants of an integer type (ISD_DataTypes.py 63-70). -/
def intConsts (p : String) (lo hi : (k : Nat) → Word k) : List (String × Const) :=
  [ (p ++ "8_zero", .scalar .w1 0), (p ++ "8_inf", .scalar .w1 (lo 1)), (p ++ "8_sup", .scalar .w1 (hi 1)),
    (p ++ "16_zero", .scalar .w2 0), (p ++ "16_inf", .scalar .w2 (lo 2)), (p ++ "16_sup", .scalar .w2 (hi 2)),
    (p ++ "32_zero", .scalar .w4 0), (p ++ "32_inf", .scalar .w4 (lo 4)), (p ++ "32_sup", .scalar .w4 (hi 4)),
    (p ++ "64_zero", .scalar .w8 0), (p ++ "64_inf", .scalar .w8 (lo 8)), (p ++ "64_sup", .scalar .w8 (hi 8)) ]

/-- The constants of the header (ISD_DataTypes.py 59-90, ISD_entity_ref.inl 40-42, ISD_package_ref.inl 35-37). `FLT_MAX` and `DBL_MAX` are
given by their IEEE bits. `double_zero` is a `float`. -/
def constants : List (String × Const) :=
  [("bool_zero", .bool false), ("bool_inf", .bool false), ("bool_sup", .bool true)]
  ++ intConsts "i" intMin intMax
  ++ intConsts "u" (fun _ => 0) uintMax
  ++ [("float_zero", .scalar .w4 0), ("float_inf", .scalar .w4 0xff7fffff#32), ("float_sup", .scalar .w4 0x7f7fffff#32),
      ("double_zero", .scalar .w4 0), ("double_inf", .scalar .w8 0xffefffffffffffff#64), ("double_sup", .scalar .w8 0x7fefffffffffffff#64),
      ("string_zero", .string []), ("string_inf", .string []),
      ("uuid_zero", .scalar .uuid UUID.zero), ("uuid_inf", .scalar .uuid UUID.zero), ("uuid_sup", .scalar .uuid UUID.sup),
      ("hash_zero", .scalar .hash Hash.zero), ("hash_inf", .scalar .hash Hash.zero), ("hash_sup", .scalar .hash Hash.sup),
      ("entity_ref_zero", .scalar .uuid EntityRef.null.id), ("entity_ref_inf", .scalar .uuid UUID.zero), ("entity_ref_sup", .scalar .uuid UUID.sup),
      ("package_ref_zero", .scalar .hash Hash.zero), ("package_ref_inf", .scalar .hash Hash.zero), ("package_ref_sup", .scalar .hash Hash.sup)]

/-- A constant as an argument of type `sc`: itself, or the `float` zero converted to `double` (the only conversion the file needs; others
are not modelled and give nothing). -/
def Const.as (c : Const) (sc : Sc) : Option sc.Val :=
  match c with
  | .scalar sc0 v =>
    if h : sc0 = sc then some (h ▸ v)
    else match sc0, v, sc with
      | .w4, v, .w8 => if v = 0 then some (0 : Word 8) else none
      | _, _, _ => none
  | _ => none

/-- `type( args )`: the constructor takes exactly as many values as the type has. -/
def construct : (k : Kind) → List Const → Option k.Val
  | .bool, [.bool b] => some b
  | .items sc n _, args =>
    match args.mapM (fun c => c.as sc) with
    | some vs => if h : vs.length = n then some ⟨vs.toArray, by simpa using h⟩ else none
    | none => none
  | .string, [.string s] => some s
  | _, _ => none

/-- `data_type_information<T>::zero`, `::inf` and `::sup` as the source defines them; nothing if there is no definition, or it is
ill-formed. -/
def value (t : DataType) (m : Member) : Option t.Val :=
  match sourceRows.find? fun r => r.type == t.name with
  | none => none
  | some r =>
    match (defined r).lookup m with
    | none => none
    | some names =>
      match names.mapM (fun s => constants.lookup s) with
      | none => none
      | some args => construct t.kind args

end Limits
end ISD
