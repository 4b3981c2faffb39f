import Verif.Spec.DynText

/-!
# What the text of the information on combined types means

A parser and a meaning for the C++ of ISD_CombinedTypes.h, ISD_CombinedTypes.cpp and of enumerations; the lexer is that of `Spec/Cpp`, types are read as in `Spec/DynText`. Text
outside the part of C++ used there has no meaning. Nothing here refers to the generator.
-/

namespace ISD.CombText

open Cpp (Name Raw)
open DynText (w y expect pWord pTy Ty tokens typeNamed)

/-! ## Syntax -/

/-- `template<> struct combined_type_information<T> { … };` -/
structure Info where
  ty : Ty
  /-- `using data_type = …;` -/
  dataType : Name
  /-- `… type_index = data_type_index::…;` -/
  typeIndex : Name
  /-- `… container_index = container_type_index::…;` -/
  containerIndex : Name

/-- The one statement of a function: an assignment of `data_type_information<T>::zero`, `x.clear();` or `x.reset();`. -/
inductive Body where
  | zero (x : Name) (t : Ty) | clear (x : Name) | reset (x : Name)

/-- `template <> void clear_combined_type<T>( U &x ) { … }` -/
structure Fn where
  ty : Ty
  par : Ty
  var : Name
  body : Body

/-! ## Parser -/

/-- The tokens between the holes of a specialisation. -/
def in1 : List Raw := [w "template", y '<', y '>', w "struct", w "combined_type_information", y '<']
/-- More tokens. -/
def in2 : List Raw := [y '>', y '{', w "using", w "data_type", y '=']
/-- More tokens. -/
def in3 : List Raw := [y ';', w "static", w "constexpr", w "data_type_index", w "type_index", y '=', w "data_type_index", y ':', y ':']
/-- More tokens. -/
def in4 : List Raw := [y ';', w "static", w "constexpr", w "container_type_index", w "container_index", y '=', w "container_type_index", y ':', y ':']
/-- More tokens. -/
def in5 : List Raw := [y ';', y '}', y ';']

/-- A specialisation. -/
def pInfo (ts : List Raw) : Option (Info × List Raw) := do
  let ts ← expect in1 ts
  let (t, ts) ← pTy ts
  let ts ← expect in2 ts
  let (d, ts) ← pWord ts
  let ts ← expect in3 ts
  let (i, ts) ← pWord ts
  let ts ← expect in4 ts
  let (j, ts) ← pWord ts
  let ts ← expect in5 ts
  return (⟨t, d, i, j⟩, ts)

/-- Specialisations up to the end of the namespace. -/
def pInfos : Nat → List Raw → Option (List Info)
  | 0, _ => none
  | _ + 1, [.sym '}', .sym ';'] => some []
  | fuel + 1, ts => do
    let (i, ts) ← pInfo ts
    let l ← pInfos fuel ts
    return i :: l

/-- The tokens before the specialisations. -/
def headHeader : List Raw := [w "namespace", w "ISD", y '{', w "template", y '<', w "class", w "_Ty", y '>', w "struct", w "combined_type_information", y ';',
  w "template", y '<', w "class", w "_Ty", y '>', w "void", w "clear_combined_type", y '(', w "_Ty", y '&', w "type", y ')', y ';']

/-- The header. -/
def parseHeader (ts : List Raw) : Option (List Info) := do
  let n := ts.length
  let ts ← expect headHeader ts
  pInfos n ts

/-- The tokens between the holes of a function. -/
def fn1 : List Raw := [w "template", y '<', y '>', w "void", w "clear_combined_type", y '<']
/-- More tokens. -/
def fn2 : List Raw := [y '>', y '(']
/-- More tokens. -/
def fn3 : List Raw := [y ')', y '{']
/-- More tokens. -/
def bd1 : List Raw := [w "data_type_information", y '<']
/-- More tokens. -/
def bd2 : List Raw := [y '>', y ':', y ':', w "zero", y ';', y '}']

/-- The statement of a function with the closing brace. -/
def pBody : List Raw → Option (Body × List Raw)
  | .word x :: .sym '=' :: ts => do
    let ts ← expect bd1 ts
    let (t, ts) ← pTy ts
    let ts ← expect bd2 ts
    return (.zero x t, ts)
  | .word x :: .sym '.' :: .word m :: .sym '(' :: .sym ')' :: .sym ';' :: .sym '}' :: ts =>
    if m = "clear".toList then some (.clear x, ts)
    else if m = "reset".toList then some (.reset x, ts)
    else none
  | _ => none

/-- A function. -/
def pFn (ts : List Raw) : Option (Fn × List Raw) := do
  let ts ← expect fn1 ts
  let (t, ts) ← pTy ts
  let ts ← expect fn2 ts
  let (u, ts) ← pTy ts
  let ts ← expect [y '&'] ts
  let (x, ts) ← pWord ts
  let ts ← expect fn3 ts
  let (b, ts) ← pBody ts
  return (⟨t, u, x, b⟩, ts)

/-- Functions up to the end of the namespace. -/
def pFns : Nat → List Raw → Option (List Fn)
  | 0, _ => none
  | _ + 1, [.sym '}', .sym ';'] => some []
  | fuel + 1, ts => do
    let (f, ts) ← pFn ts
    let l ← pFns fuel ts
    return f :: l

/-- The source file. -/
def parseSource (ts : List Raw) : Option (List Fn) := do
  let n := ts.length
  let ts ← expect [w "namespace", w "ISD", y '{'] ts
  pFns n ts

/-- A hexadecimal digit. -/
def hexDigit (c : Char) : Option Nat :=
  if '0' ≤ c ∧ c ≤ '9' then some (c.toNat - '0'.toNat)
  else if 'a' ≤ c ∧ c ≤ 'f' then some (c.toNat - 'a'.toNat + 10)
  else none

/-- Hexadecimal digits after a number. -/
def hexFrom (n : Nat) : List Char → Option Nat
  | [] => some n
  | c :: cs => do hexFrom (n * 16 + (← hexDigit c)) cs

/-- A hexadecimal number: `0x…`. -/
def hexNumber : Name → Option Nat
  | '0' :: 'x' :: c :: cs => hexFrom 0 (c :: cs)
  | _ => none

/-- Enumerators `name = 0x…,` up to the end of the enumeration. -/
def pEnumerators : List Raw → Option (List (Name × Nat))
  | [.sym '}', .sym ';'] => some []
  | .word n :: .sym '=' :: .word x :: .sym ',' :: ts => do
    let v ← hexNumber x
    let l ← pEnumerators ts
    return (n, v) :: l
  | _ => none

/-- `enum class name { … };`: its name and its enumerators. -/
def parseEnum : List Raw → Option (Name × List (Name × Nat))
  | .word a :: .word b :: .word n :: .sym '{' :: ts =>
    if a = "enum".toList ∧ b = "class".toList then (pEnumerators ts).map fun l => (n, l) else none
  | _ => none

/-! ## Meaning -/

/-- The one member of a list with a property; nothing if there is none or more than one: a name that is not declared, or declared twice. -/
def theOne {α : Type} (p : α → Bool) (l : List α) : Option α :=
  match l.filter p with
  | [a] => some a
  | _ => none

/-- `e::x`, where the text declares the enumeration `e`. -/
def enumerator (text : List Char) (e : String) (x : Name) : Option Nat :=
  match parseEnum (tokens text) with
  | some (n, l) => if n = e.toList then (theOne (fun p => p.1 == x) l).map fun p => p.2 else none
  | none => none

/-- What `combined_type_information<T>` says: `data_type`, `type_index` and `container_index`. -/
structure Known where
  dataType : DataType
  typeIndex : Nat
  containerIndex : Nat
  deriving DecidableEq

/-- `combined_type_information<T>`, with the two enumerations and the header. -/
def information (types containers header : List Char) (ty : Ty) : Option Known := do
  let l ← parseHeader (tokens header)
  let i ← theOne (fun i => i.ty == ty) l
  let d ← typeNamed i.dataType
  let a ← enumerator types "data_type_index" i.typeIndex
  let b ← enumerator containers "container_type_index" i.containerIndex
  return ⟨d, a, b⟩

/-- `x.clear()` of `std::vector` and `idx_vector`: no elements, and no indices. Other containers have no such function. -/
def callClear {α : Type} : (c : Container) → c.Val α → Option (c.Val α)
  | .vector, _ => some []
  | .idxVector, _ => some ⟨[], []⟩
  | _, _ => none

/-- `x.reset()` of the optional containers: nothing. Other containers have no such function. -/
def callReset {α : Type} : (c : Container) → c.Val α → Option (c.Val α)
  | .optionalValue, _ => some none
  | .optionalVector, _ => some none
  | .optionalIdxVector, _ => some none
  | _, _ => none

/-- `x = data_type_information<T>::zero` with an object of the data type itself. -/
def assignZero (t : DataType) : (c : Container) → c.Val t.Val → Option (c.Val t.Val)
  | .none, _ => some t.zero
  | _, _ => none

/-- The statement of a function with this parameter and an object of this type. -/
def Body.run (b : Body) (var : Name) (o : DynObj) : Option (o.c.Val o.t.Val) :=
  match b with
  | .zero x t => if x = var ∧ t = (Container.none, o.t.name.toList) then assignZero o.t o.c o.v else none
  | .clear x => if x = var then callClear o.c o.v else none
  | .reset x => if x = var then callReset o.c o.v else none

/-- `clear_combined_type( o )`, with the source file: the object afterwards. -/
def clearCombined (source : List Char) (o : DynObj) : Option DynObj := do
  let l ← parseSource (tokens source)
  let f ← theOne (fun f => f.ty == (o.c, o.t.name.toList)) l
  if f.par = (o.c, o.t.name.toList) then
    let v ← f.body.run f.var o
    return ⟨o.t, o.c, v⟩
  else none

end ISD.CombText
