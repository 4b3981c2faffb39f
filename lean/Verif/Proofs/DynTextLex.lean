import Verif.Proofs.CppLex
import Verif.Spec.DynText
import Verif.Model.DynText

/-!
# The tokens of ISD_DynamicTypes.cpp
-/

namespace ISD.DynText

open Cpp (St Raw Name isId)

set_option maxRecDepth 20000

/-- The tokens of a line. -/
def lineRaw (l : String) : List Raw := tokens (l.toList ++ ['\n'])

theorem tokens_lines (ls : List String) : tokens (ls.flatMap fun l => l.toList ++ ['\n']) = ls.flatMap lineRaw := by
  induction ls with
  | nil => rfl
  | cons l ls ih =>
    simp only [List.flatMap_cons]
    rw [← ih]
    simp only [tokens, lineRaw, Cpp.run_append .space (l.toList ++ ['\n']), Cpp.run_end]

/-- A word that is an identifier. -/
structure Ident (n : Name) : Prop where
  nonempty : n ≠ []
  chars : ∀ c ∈ n, isId c

/-- The first character of the text is no part of an identifier. -/
def stops : List Char → Bool
  | [] => false
  | d :: _ => !isId d

theorem run_after_word {a b : List Char} (hb : stops b = true) : Cpp.run (.word a) b = ((Cpp.run .space b).1, .word a :: (Cpp.run .space b).2) := by
  cases b with
  | nil => cases hb
  | cons d b =>
    have hd : isId d = false := by simpa [stops] using hb
    simp only [Cpp.run, Cpp.step, hd, Bool.false_eq_true, if_false, List.cons_append]

theorem run_ident {n b : List Char} (hn : Ident n) (hb : stops b = true) :
    Cpp.run .space (n ++ b) = ((Cpp.run .space b).1, .word n :: (Cpp.run .space b).2) := by
  rw [Cpp.run_append, Cpp.run_name .space hn.nonempty hn.chars]
  show _ = _
  simp only [St.add, St.emit, List.nil_append]
  rw [run_after_word hb]

/-- The tokens of a type. -/
def tyRaw : Container → Name → List Raw
  | .none, t => [.word t]
  | c, t => [.word (containerName c).toList, .sym '<', .word t, .sym '>']

theorem run_combo (c : Container) {t : String} (ht : Ident t.toList) {b : List Char} (hb : stops b = true) :
    Cpp.run .space ((combo c t).toList ++ b) = ((Cpp.run .space b).1, tyRaw c t.toList ++ (Cpp.run .space b).2) := by
  have h : ∀ (p : String) (x : Name), Cpp.run .space p.toList = (.space, [.word x, .sym '<']) →
      Cpp.run .space ((p ++ t ++ ">").toList ++ b) = ((Cpp.run .space b).1, [.word x, .sym '<', .word t.toList, .sym '>'] ++ (Cpp.run .space b).2) := by
    intro p x hp
    rw [String.toList_append, String.toList_append, List.append_assoc, List.append_assoc, Cpp.run_append, hp, run_ident ht (by rfl)]
    rfl
  cases c with
  | none => exact run_ident ht hb
  | _ => exact h _ _ (by decide +kernel)

/-- A line with a concrete beginning. -/
theorem seg {p r : List Char} {tp : List Raw} (hp : Cpp.run .space p = (.space, tp)) : (Cpp.run .space (p ++ r)).2 = tp ++ (Cpp.run .space r).2 := by
  rw [Cpp.run_append, hp]

/-- A type with what is between it and the next hole. -/
theorem hole (c : Container) {t : String} (ht : Ident t.toList) {p r : List Char} {tp : List Raw} (hp : Cpp.run .space p = (.space, tp)) (hs : stops p = true) :
    (Cpp.run .space ((combo c t).toList ++ (p ++ r))).2 = tyRaw c t.toList ++ (tp ++ (Cpp.run .space r).2) := by
  have hs' : stops (p ++ r) = true := by cases p <;> first | cases hs | exact hs
  rw [run_combo c ht hs', seg hp]

theorem last (c : Container) {t : String} (ht : Ident t.toList) {p : List Char} {tp : List Raw} (hp : (Cpp.run .space p).2 = tp) (hs : stops p = true) :
    (Cpp.run .space ((combo c t).toList ++ p)).2 = tyRaw c t.toList ++ tp := by
  rw [run_combo c ht hs, hp]

theorem line1 (c : Container) {t : String} (ht : Ident t.toList) {p q : String} {tp tq : List Raw} (hp : Cpp.run .space p.toList = (.space, tp))
    (hq : (Cpp.run .space (q.toList ++ ['\n'])).2 = tq) (h1 : stops (q.toList ++ ['\n']) = true) :
    lineRaw (p ++ combo c t ++ q) = tp ++ (tyRaw c t.toList ++ tq) := by
  simp only [lineRaw, tokens, String.toList_append, List.append_assoc]
  rw [seg hp, last c ht hq h1]

theorem line2 (c : Container) {t : String} (ht : Ident t.toList) {p q r : String} {tp tq tr : List Raw} (hp : Cpp.run .space p.toList = (.space, tp))
    (hq : Cpp.run .space q.toList = (.space, tq)) (h1 : stops q.toList = true)
    (hr : (Cpp.run .space (r.toList ++ ['\n'])).2 = tr) (h2 : stops (r.toList ++ ['\n']) = true) :
    lineRaw (p ++ combo c t ++ q ++ combo c t ++ r) = tp ++ (tyRaw c t.toList ++ (tq ++ (tyRaw c t.toList ++ tr))) := by
  simp only [lineRaw, tokens, String.toList_append, List.append_assoc]
  rw [seg hp, hole c ht hq h1, last c ht hr h2]

theorem line_new (c : Container) {t : String} (ht : Ident t.toList) :
    lineRaw ("            virtual void *New() const { return new " ++ combo c t ++ "(); }") = clNew1 ++ (tyRaw c t.toList ++ clNew2) :=
  line1 c ht (by decide +kernel) (by decide +kernel) (by decide +kernel)

theorem line_type (c : Container) {t : String} (ht : Ident t.toList) :
    lineRaw ("            virtual type_combo Type() const { return { combined_type_information<" ++ combo c t ++
      ">::type_index , combined_type_information<" ++ combo c t ++ ">::container_index }; }") =
    clType1 ++ (tyRaw c t.toList ++ (clType2 ++ (tyRaw c t.toList ++ clType3))) :=
  line2 c ht (by decide +kernel) (by decide +kernel) (by decide +kernel) (by decide +kernel) (by decide +kernel)

theorem line_delete (c : Container) {t : String} (ht : Ident t.toList) :
    lineRaw ("            virtual void Delete( void *data ) const { delete ((" ++ combo c t ++ "*)(data)); }") =
    clDelete1 ++ (tyRaw c t.toList ++ (clDelete2 ++ w "data" :: clDelete3)) :=
  line1 c ht (by decide +kernel) (by decide +kernel) (by decide +kernel)

/-- The tokens of `*((T*)x` and `*((const T*)x`. -/
def derefRaw (isConst : Bool) (c : Container) (t : Name) (x : String) : List Raw :=
  (if isConst then [y '*', y '(', y '(', w "const"] else [y '*', y '(', y '(']) ++ (tyRaw c t ++ ([y '*', y ')'] ++ [w x]))

theorem line_clear (c : Container) {t : String} (ht : Ident t.toList) :
    lineRaw ("            virtual void Clear( void *data ) const { clear_combined_type(*((" ++ combo c t ++ "*)data)); }") =
    clClear1 ++ (derefRaw false c t.toList "data" ++ clClear2) := by
  rw [line1 c ht (tp := clClear1 ++ [y '*', y '(', y '(']) (tq := [y '*', y ')', w "data"] ++ clClear2) (by decide +kernel) (by decide +kernel)
    (by decide +kernel)]
  simp only [derefRaw, List.append_assoc, List.cons_append, List.nil_append, Bool.false_eq_true, if_false]

theorem line_write (c : Container) {t : String} (ht : Ident t.toList) :
    lineRaw ("            virtual bool Write( const char *key, const u8 key_length , EntityWriter &writer , const void *data ) const { return writer.Write<" ++ combo c t ++
      ">( key , key_length , *((const " ++ combo c t ++ "*)data) ); }") =
    clWrite1 ++ (tyRaw c t.toList ++ (clWrite2 ++ (derefRaw true c t.toList "data" ++ clWrite3))) := by
  rw [line2 c ht (tp := clWrite1) (tq := clWrite2 ++ [y '*', y '(', y '(', w "const"]) (tr := [y '*', y ')', w "data"] ++ clWrite3)
    (by decide +kernel) (by decide +kernel) (by decide +kernel) (by decide +kernel) (by decide +kernel)]
  simp only [derefRaw, List.append_assoc, List.cons_append, List.nil_append, if_true]

theorem line_read (c : Container) {t : String} (ht : Ident t.toList) :
    lineRaw ("            virtual bool Read( const char *key, const u8 key_length , EntityReader &reader , void *data ) const { return reader.Read<" ++ combo c t ++
      ">( key , key_length , *((" ++ combo c t ++ "*)data) ); }") =
    clRead1 ++ (tyRaw c t.toList ++ (clWrite2 ++ (derefRaw false c t.toList "data" ++ clWrite3))) := by
  rw [line2 c ht (tp := clRead1) (tq := clWrite2 ++ [y '*', y '(', y '(']) (tr := [y '*', y ')', w "data"] ++ clWrite3)
    (by decide +kernel) (by decide +kernel) (by decide +kernel) (by decide +kernel) (by decide +kernel)]
  simp only [derefRaw, List.append_assoc, List.cons_append, List.nil_append, Bool.false_eq_true, if_false]

theorem line_copy (c : Container) {t : String} (ht : Ident t.toList) :
    lineRaw ("            virtual void Copy( void *dest , const void *src ) const { *((" ++ combo c t ++ "*)dest) = *((const " ++ combo c t ++ "*)src); }") =
    clCopy1 ++ (derefRaw false c t.toList "dest" ++ (clCopy2 ++ (derefRaw true c t.toList "src" ++ clCopy3))) := by
  rw [line2 c ht (tp := clCopy1 ++ [y '*', y '(', y '(']) (tq := [y '*', y ')', w "dest"] ++ (clCopy2 ++ [y '*', y '(', y '(', w "const"]))
    (tr := [y '*', y ')', w "src"] ++ clCopy3)
    (by decide +kernel) (by decide +kernel) (by decide +kernel) (by decide +kernel) (by decide +kernel)]
  simp only [derefRaw, List.append_assoc, List.cons_append, List.nil_append, Bool.false_eq_true, if_false, if_true]

theorem line_equals (c : Container) {t : String} (ht : Ident t.toList) :
    lineRaw ("            virtual bool Equals( const void *dataA , const void *dataB ) const { return *((const " ++ combo c t ++ "*)dataA) == *((const " ++
      combo c t ++ "*)dataB); }") =
    clEquals1 ++ (derefRaw true c t.toList "dataA" ++ (clEquals2 ++ (derefRaw true c t.toList "dataB" ++ clCopy3))) := by
  rw [line2 c ht (tp := clEquals1 ++ [y '*', y '(', y '(', w "const"]) (tq := [y '*', y ')', w "dataA"] ++ (clEquals2 ++ [y '*', y '(', y '(', w "const"]))
    (tr := [y '*', y ')', w "dataB"] ++ clCopy3)
    (by decide +kernel) (by decide +kernel) (by decide +kernel) (by decide +kernel) (by decide +kernel)]
  simp only [derefRaw, List.append_assoc, List.cons_append, List.nil_append, if_true]

theorem ident_append {a b : Name} (ha : Ident a) (hb : ∀ c ∈ b, isId c) : Ident (a ++ b) :=
  ⟨fun h => ha.nonempty (List.append_eq_nil_iff.1 h).1, fun c h => (List.mem_append.1 h).elim (ha.chars c) (hb c)⟩

theorem containerName_ident (c : Container) : ∀ d ∈ (containerName c).toList, isId d := by
  cases c <;> decide

/-- The name of a class or of its object. -/
def fullName (c : Container) (t : Name) (last : String) : Name := "_dt_".toList ++ (t ++ ("_ct_".toList ++ ((containerName c).toList ++ last.toList)))

theorem line_name (c : Container) {t : String} (ht : Ident t.toList) {p e r : String} {tp tr : List Raw}
    (hp : Cpp.run .space (p ++ "_dt_").toList = (.word "_dt_".toList, tp)) (he : ∀ d ∈ e.toList, isId d)
    (hr : (Cpp.run .space (r.toList ++ ['\n'])).2 = tr) (h2 : stops (r.toList ++ ['\n']) = true) {l : String}
    (hl : l.toList ++ ['\n'] = (p ++ "_dt_").toList ++ ((t.toList ++ ("_ct_".toList ++ ((containerName c).toList ++ e.toList))) ++ (r.toList ++ ['\n']))) :
    lineRaw l = tp ++ (.word (fullName c t.toList e) :: tr) := by
  have hm : ∀ d ∈ t.toList ++ ("_ct_".toList ++ ((containerName c).toList ++ e.toList)), isId d := by
    intro d hd
    rcases List.mem_append.1 hd with h | h
    · exact ht.chars d h
    clear hd
    rcases List.mem_append.1 h with h | h
    · clear ht he hl h2 hr hp; rename_i h0; clear h0; revert h; revert d; decide
    rcases List.mem_append.1 h with h | h
    · exact containerName_ident c d h
    · exact he d h
  rw [lineRaw, tokens, hl, Cpp.run_append, hp]
  dsimp only
  rw [Cpp.run_append, Cpp.run_word _ _ hm]
  dsimp only
  rw [run_after_word h2]
  dsimp only
  rw [hr, List.nil_append]
  rfl

theorem line_class (c : Container) {t : String} (ht : Ident t.toList) :
    lineRaw ("    static const class _dt_" ++ t ++ "_ct_" ++ containerName c ++ "_DynamicTypeClass : public _dynamicTypeClass") =
    clA ++ (.word (fullName c t.toList "_DynamicTypeClass") :: [y ':', w "public", w "_dynamicTypeClass"]) :=
  line_name c ht (p := "    static const class ") (e := "_DynamicTypeClass") (r := " : public _dynamicTypeClass") (by decide +kernel) (by decide +kernel) (by decide +kernel)
    (by decide +kernel) (by simp only [String.toList_append, List.append_assoc]; rfl)

theorem line_object (c : Container) {t : String} (ht : Ident t.toList) :
    lineRaw ("        } _dt_" ++ t ++ "_ct_" ++ containerName c ++ "_DynamicTypeObject;") =
    clEnd ++ (.word (fullName c t.toList "_DynamicTypeObject") :: [y ';']) :=
  line_name c ht (p := "        } ") (e := "_DynamicTypeObject") (r := ";") (by decide +kernel) (by decide +kernel) (by decide +kernel)
    (by decide +kernel) (by simp only [String.toList_append, List.append_assoc]; rfl)

theorem run_comment (n : List Char) (h : ∀ d ∈ n, d ≠ '\n') : Cpp.run .skip n = (.skip, []) := by
  induction n with
  | nil => rfl
  | cons c n ih =>
    have hc : c ≠ '\n' := h c (List.mem_cons_self ..)
    simp only [Cpp.run, Cpp.step, if_neg hc, ih fun d hd => h d (List.mem_cons_of_mem _ hd), List.append_nil]

theorem combo_chars (c : Container) {t : String} (ht : Ident t.toList) : ∀ d ∈ (combo c t).toList, d ≠ '\n' := by
  have h1 : ∀ d, isId d = true → d ≠ '\n' := by
    rintro d hd rfl
    exact absurd hd (by decide)
  have h2 : ∀ d ∈ (containerName c ++ "<" ++ t ++ ">").toList, d ≠ '\n' := by
    intro d hd
    simp only [String.toList_append, List.mem_append] at hd
    rcases hd with ((h | h) | h) | h
    · exact h1 d (containerName_ident c d h)
    · clear ht; revert d; decide
    · exact h1 d (ht.chars d h)
    · clear ht; revert d; decide
  cases c with
  | none => exact fun d hd => h1 d (ht.chars d hd)
  | _ => exact h2

theorem line_comment (c : Container) {t : String} (ht : Ident t.toList) : lineRaw ("    // " ++ combo c t) = [] := by
  have e : Cpp.run .space "    // ".toList = (.skip, []) := by decide +kernel
  rw [lineRaw, tokens, String.toList_append, List.append_assoc, Cpp.run_append, e]
  dsimp only
  rw [Cpp.run_append, run_comment _ (combo_chars c ht)]
  rfl

/-- The tokens of a class. -/
def classRaw (c : Container) (t : Name) : List Raw :=
  clA ++ (.word (fullName c t "_DynamicTypeClass") :: (clB ++ (clType1 ++ (tyRaw c t ++ (clType2 ++ (tyRaw c t ++ (clType3 ++
  (clNew1 ++ (tyRaw c t ++ (clNew2 ++ (clDelete1 ++ (tyRaw c t ++ (clDelete2 ++ (w "data" :: (clDelete3 ++
  (clClear1 ++ (derefRaw false c t "data" ++ (clClear2 ++ (clWrite1 ++ (tyRaw c t ++ (clWrite2 ++ (derefRaw true c t "data" ++ (clWrite3 ++
  (clRead1 ++ (tyRaw c t ++ (clWrite2 ++ (derefRaw false c t "data" ++ (clWrite3 ++
  (clCopy1 ++ (derefRaw false c t "dest" ++ (clCopy2 ++ (derefRaw true c t "src" ++ (clCopy3 ++
  (clEquals1 ++ (derefRaw true c t "dataA" ++ (clEquals2 ++ (derefRaw true c t "dataB" ++ (clCopy3 ++
  (clEnd ++ (.word (fullName c t "_DynamicTypeObject") :: [y ';']))))))))))))))))))))))))))))))))))))))))

theorem class_lines (c : Container) {t : String} (ht : Ident t.toList) :
    (classText t (containerName c) (combo c t)).flatMap lineRaw = classRaw c t.toList := by
  have e1 : lineRaw "        {" = [y '{'] := by decide +kernel
  have e2 : lineRaw "        public:" = [w "public", y ':'] := by decide +kernel
  have e3 : lineRaw "" = [] := by decide +kernel
  have eB : clB = [y ':', w "public", w "_dynamicTypeClass", y '{', w "public", y ':'] := by decide +kernel
  simp only [classText, List.flatMap_cons, List.flatMap_nil, line_comment c ht, line_class c ht, e1, e2, e3, line_type c ht, line_new c ht, line_delete c ht,
    line_clear c ht, line_write c ht, line_read c ht, line_copy c ht, line_equals c ht, line_object c ht, classRaw, eB, List.append_assoc, List.cons_append, List.nil_append,
    List.append_nil]

/-! ## The rest of the file -/

theorem head_lines : head.flatMap lineRaw = fileHead := by decide +kernel

theorem table_lines : tableHead.flatMap lineRaw = tbA ++ (w "577" :: tbB) := by decide +kernel

theorem find_lines : findText.flatMap lineRaw =
    y '}' :: y ';' :: (fd1 ++ (w "109" :: (fd2 ++ (w "991" :: (fd3 ++ (w "577" :: (fd4 ++ (w "577" :: (fd5 ++ (w "0" :: fd6)))))))))) := by decide +kernel

theorem tail_lines : tail.flatMap lineRaw = [y '}', y ';', y '}', y ';'] := by decide +kernel

/-- The tokens of an entry of the table. -/
def entryRaw : Option DynClass → List Raw
  | none => [w "nullptr", y ',']
  | some cl => [y '&', .word (fullName cl.c cl.t.name.toList "_DynamicTypeObject"), y ',']

theorem entry_line (o : Option DynClass) (h : ∀ cl, o = some cl → Ident cl.t.name.toList) : lineRaw (entry o) = entryRaw o := by
  cases o with
  | none => decide +kernel
  | some cl =>
    exact line_name cl.c (h cl rfl) (p := "        &") (e := "_DynamicTypeObject") (r := ",") (tp := [y '&']) (tr := [y ',']) (l := entry (some cl))
      (by decide +kernel) (by decide +kernel) (by decide +kernel) (by decide +kernel) (by simp only [entry, String.toList_append, List.append_assoc]; rfl)

/-- The tokens of the function. -/
def newRaw : List Raw :=
  [w "std", y ':', y ':', w "tuple", y '<', w "void", y '*', y ',', w "bool", y '>', w "new_type", y '(', w "data_type_index", w "dataType", y ',',
   w "container_type_index", w "containerType", y ')', y '{', w "void", y '*', w "data", y '=', y '{', y '}', y ';', w "const", w "_dynamicTypeClass",
   y '*', w "ta", y '=', w "_findTypeClass", y '(', y '{', w "dataType", y ',', w "containerType", y '}', y ')', y ';', w "if", y '(', w "ta", y ')',
   w "data", y '=', w "ta", y '-', y '>', w "New", y '(', y ')', y ';', w "return", w "std", y ':', y ':', w "tuple", y '<', w "void", y '*', y ',',
   w "bool", y '>', y '(', w "data", y ',', w "data", y '!', y '=', w "nullptr", y ')', y ';', y '}']

theorem new_lines : newText.flatMap lineRaw = newRaw := by decide +kernel

/-- The tokens of the function. -/
def deleteRaw : List Raw :=
  [w "bool", w "delete_type", y '(', w "data_type_index", w "dataType", y ',', w "container_type_index", w "containerType", y ',', w "void", y '*',
   w "data", y ')', y '{', w "if", y '(', y '!', w "data", y ')', y '{', w "ISDErrorLog", y '<',
   y '<', .str "Invalid parameter, data must be a pointer to existing type".toList, y '<', y '<', w "ISDErrorLogEnd", y ';', w "return", w "false", y ';',
   y '}', w "const", w "_dynamicTypeClass", y '*', w "ta", y '=', w "_findTypeClass", y '(', y '{', w "dataType", y ',', w "containerType", y '}', y ')',
   y ';', w "if", y '(', y '!', w "ta", y ')', w "return", w "false", y ';', w "ta", y '-', y '>', w "Delete", y '(', w "data", y ')', y ';', w "return",
   w "true", y ';', y '}']

theorem delete_lines : deleteText.flatMap lineRaw = deleteRaw := by decide +kernel

/-- The tokens of the function. -/
def clearRaw : List Raw :=
  [w "bool", w "clear", y '(', w "data_type_index", w "dataType", y ',', w "container_type_index", w "containerType", y ',', w "void", y '*', w "data",
   y ')', y '{', w "if", y '(', y '!', w "data", y ')', y '{', w "ISDErrorLog", y '<',
   y '<', .str "Invalid parameter, data must be a pointer to existing type".toList, y '<', y '<', w "ISDErrorLogEnd", y ';', w "return", w "false", y ';',
   y '}', w "const", w "_dynamicTypeClass", y '*', w "ta", y '=', w "_findTypeClass", y '(', y '{', w "dataType", y ',', w "containerType", y '}', y ')',
   y ';', w "if", y '(', y '!', w "ta", y ')', w "return", w "false", y ';', w "ta", y '-', y '>', w "Clear", y '(', w "data", y ')', y ';', w "return",
   w "true", y ';', y '}']

theorem clear_lines : clearText.flatMap lineRaw = clearRaw := by decide +kernel

/-- The tokens of the function. -/
def writeRaw : List Raw :=
  [w "bool", w "write", y '(', w "data_type_index", w "dataType", y ',', w "container_type_index", w "containerType", y ',', w "const", w "char", y '*',
   w "key", y ',', w "const", w "u8", w "key_length", y ',', w "EntityWriter", y '&', w "writer", y ',', w "const", w "void", y '*', w "data", y ')',
   y '{', w "if", y '(', y '!', w "data", y ')', y '{', w "ISDErrorLog", y '<',
   y '<', .str "Invalid parameter, data must be a pointer to existing type".toList, y '<', y '<', w "ISDErrorLogEnd", y ';', w "return", w "false", y ';',
   y '}', w "const", w "_dynamicTypeClass", y '*', w "ta", y '=', w "_findTypeClass", y '(', y '{', w "dataType", y ',', w "containerType", y '}', y ')',
   y ';', w "if", y '(', y '!', w "ta", y ')', w "return", w "false", y ';', w "return", w "ta", y '-', y '>', w "Write", y '(', w "key", y ',',
   w "key_length", y ',', w "writer", y ',', w "data", y ')', y ';', y '}']

theorem write_lines : writeText.flatMap lineRaw = writeRaw := by decide +kernel

/-- The tokens of the function. -/
def readRaw : List Raw :=
  [w "bool", w "read", y '(', w "data_type_index", w "dataType", y ',', w "container_type_index", w "containerType", y ',', w "const", w "char", y '*',
   w "key", y ',', w "const", w "u8", w "key_length", y ',', w "EntityReader", y '&', w "reader", y ',', w "void", y '*', w "data", y ')', y '{', w "if",
   y '(', y '!', w "data", y ')', y '{', w "ISDErrorLog", y '<', y '<', .str "Invalid parameter, data must be a pointer to existing type".toList, y '<',
   y '<', w "ISDErrorLogEnd", y ';', w "return", w "false", y ';', y '}', w "const", w "_dynamicTypeClass", y '*', w "ta", y '=', w "_findTypeClass",
   y '(', y '{', w "dataType", y ',', w "containerType", y '}', y ')', y ';', w "if", y '(', y '!', w "ta", y ')', w "return", w "false", y ';',
   w "return", w "ta", y '-', y '>', w "Read", y '(', w "key", y ',', w "key_length", y ',', w "reader", y ',', w "data", y ')', y ';', y '}']

theorem read_lines : readText.flatMap lineRaw = readRaw := by decide +kernel

/-- The tokens of the function. -/
def copyRaw : List Raw :=
  [w "bool", w "copy", y '(', w "data_type_index", w "dataType", y ',', w "container_type_index", w "containerType", y ',', w "void", y '*', w "dest",
   y ',', w "const", w "void", y '*', w "src", y ')', y '{', w "if", y '(', y '!', w "dest", y '|', y '|', y '!', w "src", y ')', y '{', w "ISDErrorLog",
   y '<', y '<', .str "Invalid parameter, dest and src must be pointers to existing types".toList, y '<', y '<', w "ISDErrorLogEnd", y ';', w "return",
   w "false", y ';', y '}', w "const", w "_dynamicTypeClass", y '*', w "ta", y '=', w "_findTypeClass", y '(', y '{', w "dataType", y ',',
   w "containerType", y '}', y ')', y ';', w "if", y '(', y '!', w "ta", y ')', w "return", w "false", y ';', w "ta", y '-', y '>', w "Copy", y '(',
   w "dest", y ',', w "src", y ')', y ';', w "return", w "true", y ';', y '}']

theorem copy_lines : copyText.flatMap lineRaw = copyRaw := by decide +kernel

/-- The tokens of the function. -/
def equalsRaw : List Raw :=
  [w "bool", w "equals", y '(', w "data_type_index", w "dataType", y ',', w "container_type_index", w "containerType", y ',', w "const", w "void", y '*',
   w "dataA", y ',', w "const", w "void", y '*', w "dataB", y ')', y '{', w "if", y '(', y '!', w "dataA", y '|', y '|', y '!', w "dataB", y ')', y '{',
   w "ISDErrorLog", y '<', y '<', .str "Invalid parameter, dataA and dataB must be pointers to existing types".toList, y '<', y '<', w "ISDErrorLogEnd",
   y ';', w "return", w "false", y ';', y '}', w "const", w "_dynamicTypeClass", y '*', w "ta", y '=', w "_findTypeClass", y '(', y '{', w "dataType",
   y ',', w "containerType", y '}', y ')', y ';', w "if", y '(', y '!', w "ta", y ')', w "return", w "false", y ';', w "return", w "ta", y '-', y '>',
   w "Equals", y '(', w "dataA", y ',', w "dataB", y ')', y ';', y '}']

theorem equals_lines : equalsText.flatMap lineRaw = equalsRaw := by decide +kernel

end ISD.DynText
