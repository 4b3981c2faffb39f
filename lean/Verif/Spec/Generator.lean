import Verif.Model.Generator
import Verif.Spec.Cpp

/-!
# What the description of an entity says

The variables of the class that a description asks for, and what that class must do.
-/

namespace ISD.Generator

/-- The container that the flags of a variable ask for. -/
def Var.container (v : Var) : Container :=
  match v.optional, v.vector, v.indexed with
  | false, false, _ => .none
  | true, false, _ => .optionalValue
  | false, true, false => .vector
  | true, true, false => .optionalVector
  | false, true, true => .idxVector
  | true, true, true => .optionalIdxVector

/-- The template with its arguments that a name of the description stands for. -/
def Template.use (t : Template) : Cpp.Use := ⟨t.template.toList, t.types.map (·.toList), t.flags.map (·.toList)⟩

/-- A variable of a base type, or of a class that is declared in the description. Its name is the key in files. -/
def fieldOf (T : Cpp.Templates) (ts : List Template) (v : Var) : Option Field :=
  match allTypes.find? fun t => t.name == v.type with
  | some t => some (.base (key v.name) t v.container)
  | none =>
    match ts.find? fun t => t.name == v.type with
    | some t =>
      match T v.name.toList t.use with
      | some ⟨V, M⟩ => some (.sub (key v.name) V M)
      | none => none
    | none => none

/-- The variables of the class. -/
def fieldsOf (T : Cpp.Templates) (ts : List Template) : List Var → Option (List Field)
  | [] => some []
  | v :: vs =>
    match fieldOf T ts v, fieldsOf T ts vs with
    | some f, some fs => some (f :: fs)
    | _, _ => none

/-- A class with these managing functions: assignment is `DeepCopy`, comparison is `Equals`. -/
def _root_.ISD.Managed.toClass {V : Type} (M : Managed V) : Cpp.Class V where
  init := M.init
  clear := M.clear
  deepCopy := M.copy
  construct := M.construct
  assign v := match v with
    | none => M.copy .self
    | some v => M.copy (.other v)
  equals := M.equalsPtr
  eq same l r := M.equalsPtr same (some l) (some r)
  ne same l r := (M.equalsPtr same (some l) (some r)).map not
  write := M.write
  read := M.readInPlace
  validate := M.validate

/-- The text of a file with these lines. -/
def text (lines : List String) : List Char := lines.flatMap fun l => l.toList ++ ['\n']

/-- The keywords of C++ that are no types. -/
def keywords : List String :=
  ["alignas", "alignof", "and", "and_eq", "asm", "auto", "bitand", "bitor", "break", "case", "catch", "class", "compl", "const", "constexpr",
   "const_cast", "continue", "decltype", "default", "delete", "do", "dynamic_cast", "else", "enum", "explicit", "export", "extern", "false",
   "for", "friend", "goto", "if", "inline", "mutable", "namespace", "new", "noexcept", "not", "not_eq", "nullptr", "operator", "or", "or_eq",
   "private", "protected", "public", "register", "reinterpret_cast", "return", "sizeof", "static", "static_assert", "static_cast", "struct",
   "switch", "template", "this", "thread_local", "throw", "true", "try", "typedef", "typeid", "typename", "union", "using", "virtual",
   "volatile", "while", "xor", "xor_eq"]

/-- The base types of C++. -/
def builtinTypes : List String := ["bool", "char", "char16_t", "char32_t", "double", "float", "int", "long", "short", "signed", "unsigned", "void", "wchar_t"]

/-- A word that may be used for something new: an identifier that the generated code does not use itself, and not the name of a type. -/
structure NewName (s : String) : Prop where
  plain : Cpp.Plain s
  digit : ∀ c ∈ s.toList.head?, c.isDigit = false
  keyword : s ∉ keywords
  builtin : s ∉ builtinTypes
  base : getBaseType s = none

/-- A type as argument of a template: a name, or a template with a name as argument. -/
def TypeArgument (x : String) : Prop := Cpp.Plain x ∨ ∃ a b, Cpp.Plain a ∧ Cpp.Plain b ∧ x = a ++ "<" ++ b ++ ">"

/-- Descriptions for which the generator writes code that the compiler accepts. -/
structure Entity.Valid (e : Entity) : Prop where
  name : NewName e.name
  dependencies : ∀ d ∈ e.dependencies, Cpp.Plain d.name
  templates : ∀ t ∈ e.templates, NewName t.name ∧ Cpp.Plain t.template ∧ Cpp.Plain (t.template ++ "Flags") ∧ t.types ≠ [] ∧
    (∀ x ∈ t.types, TypeArgument x) ∧ ∀ f ∈ t.flags, Cpp.Plain f
  vars : ∀ v ∈ e.vars, NewName v.name ∧ Cpp.Plain v.type
  /-- Only vectors have an index. -/
  indexed : ∀ v ∈ e.vars, v.indexed = true → v.vector = true
  /-- Variables of managed classes have no flags. -/
  managed : ∀ v ∈ e.vars, v.isBaseType = false → v.optional = false ∧ v.vector = false
  /-- The class, its types and its variables have different names. -/
  distinct : (e.name :: (e.templates.map (·.name) ++ e.vars.map (·.name))).Nodup

end ISD.Generator
