import Verif.Proofs.DynTextFile
import Verif.Spec.HeadText
import Verif.Model.HeadText

/-!
# ISD_EntityWriter.h and ISD_EntityReader.h parse
-/

namespace ISD.Head

open Cpp (Raw Name Ty isId)
open DynText (w y expect Ident stops lineRaw expect_append)

set_option maxRecDepth 20000

/-! ## Comments -/

/-- Where the reading is after a text. -/
def modeAfter : Mode → List Char → Mode
  | m, [] => m
  | m, c :: cs =>
    match m.step c with
    | (m, _) => modeAfter m cs

theorem strip_cons (m : Mode) (c : Char) (cs : List Char) : strip m (c :: cs) = (m.step c).2 ++ strip (m.step c).1 cs := rfl

theorem modeAfter_cons (m : Mode) (c : Char) (cs : List Char) : modeAfter m (c :: cs) = modeAfter (m.step c).1 cs := rfl

theorem strip_append (m : Mode) (a b : List Char) : strip m (a ++ b) = strip m a ++ strip (modeAfter m a) b := by
  induction a generalizing m with
  | nil => rfl
  | cons c a ih => rw [List.cons_append, strip_cons, strip_cons, modeAfter_cons, ih, List.append_assoc]

theorem modeAfter_append (m : Mode) (a b : List Char) : modeAfter m (a ++ b) = modeAfter (modeAfter m a) b := by
  induction a generalizing m with
  | nil => rfl
  | cons c a ih => rw [List.cons_append, modeAfter_cons, modeAfter_cons, ih]

/-- A character outside comments and strings that keeps the reading there. -/
def plain (c : Char) : Bool := c != '/' && c != '"'

theorem strip_plain (l : List Char) (h : l.all plain = true) : strip .code l = l ∧ modeAfter .code l = .code := by
  induction l with
  | nil => exact ⟨rfl, rfl⟩
  | cons c l ih =>
    rw [List.all_cons, Bool.and_eq_true] at h
    obtain ⟨h1, h2⟩ := h
    simp only [plain, Bool.and_eq_true, bne_iff_ne, ne_eq] at h1
    have hs : Mode.step .code c = (.code, [c]) := by rw [Mode.step, if_neg h1.1, if_neg h1.2]
    obtain ⟨h3, h4⟩ := ih h2
    rw [strip_cons, modeAfter_cons, hs]
    exact ⟨by rw [h3]; rfl, h4⟩

/-- A mode that is `code`. -/
def Mode.isCode : Mode → Bool
  | .code => true
  | _ => false

/-- A line after which neither a comment nor a string goes on. -/
def good (l : String) : Bool := (strip .code (l.toList ++ ['\n'])).getLast? == some '\n' && (modeAfter .code (l.toList ++ ['\n'])).isCode

/-- The tokens of a line. -/
def lineTok (l : String) : List Raw := tokens (l.toList ++ ['\n'])

theorem good_iff {l : String} (h : good l = true) : (∃ r, strip .code (l.toList ++ ['\n']) = r ++ ['\n']) ∧ modeAfter .code (l.toList ++ ['\n']) = .code := by
  rw [good, Bool.and_eq_true] at h
  obtain ⟨h1, h2⟩ := h
  constructor
  · obtain ⟨r, hr⟩ := List.getLast?_eq_some_iff.1 (beq_iff_eq.1 h1)
    exact ⟨r, hr⟩
  · revert h2
    cases modeAfter .code (l.toList ++ ['\n']) <;> first | (intro _; rfl) | (intro h; cases h)

theorem tokens_lines (ls : List String) (h : ∀ l ∈ ls, good l = true) : tokens (ls.flatMap fun l => l.toList ++ ['\n']) = ls.flatMap lineTok := by
  induction ls with
  | nil => rfl
  | cons l ls ih =>
    obtain ⟨⟨r, h1⟩, h2⟩ := good_iff (h l (List.mem_cons_self ..))
    have ih := ih fun l hl => h l (List.mem_cons_of_mem _ hl)
    simp only [List.flatMap_cons, lineTok]
    rw [← ih, tokens, tokens, tokens, strip_append, h2, h1]
    simp only [DynText.tokens, Cpp.run_append .space (r ++ ['\n']), Cpp.run_end]

/-! ## Declarations -/

theorem line_plain {l : String} (h : l.toList.all plain = true) : good l = true ∧ lineTok l = lineRaw l := by
  have ha : (l.toList ++ ['\n']).all plain = true := by rw [List.all_append, h]; rfl
  obtain ⟨h1, h2⟩ := strip_plain _ ha
  constructor
  · rw [good, h1, h2, List.getLast?_append]; rfl
  · rw [lineTok, tokens, h1]; rfl

theorem ident_plain {t : String} (ht : Ident t.toList) : t.toList.all plain = true := by
  rw [List.all_eq_true]
  intro d hd
  have := ht.chars d hd
  rw [plain, Bool.and_eq_true, bne_iff_ne, bne_iff_ne]
  constructor <;> rintro rfl <;> exact absurd this (by decide)

/-- A line with the same name twice. -/
theorem line2 {t : String} (ht : Ident t.toList) {p q r : String} {tp tq tr : List Raw} (hp : Cpp.run .space p.toList = (.space, tp))
    (hq : Cpp.run .space q.toList = (.space, tq)) (h1 : stops q.toList = true) (hr : (Cpp.run .space (r.toList ++ ['\n'])).2 = tr)
    (h2 : stops (r.toList ++ ['\n']) = true) (h3 : p.toList.all plain = true) (h4 : q.toList.all plain = true) (h5 : r.toList.all plain = true) :
    good (p ++ t ++ q ++ t ++ r) = true ∧ lineTok (p ++ t ++ q ++ t ++ r) = tp ++ (.word t.toList :: (tq ++ (.word t.toList :: tr))) := by
  have ha : (p ++ t ++ q ++ t ++ r).toList.all plain = true := by
    simp only [String.toList_append, List.all_append, h3, h4, h5, ident_plain ht, Bool.and_self]
  obtain ⟨g1, g2⟩ := line_plain ha
  refine ⟨g1, g2.trans ?_⟩
  have hs : stops (q.toList ++ (t.toList ++ (r.toList ++ ['\n']))) = true := by
    cases e : q.toList with
    | nil => rw [e] at h1; cases h1
    | cons d q => rw [e] at h1; exact h1
  simp only [lineRaw, DynText.tokens, String.toList_append, List.append_assoc]
  rw [DynText.seg hp, DynText.run_ident ht hs]
  dsimp only
  rw [DynText.seg hq, DynText.run_ident ht h2]
  dsimp only
  rw [hr]

/-- The tokens of a type. -/
def tyTok : Container → Name → List Raw
  | .none, t => [.word t]
  | .optionalValue, t => [w "optional_value", y '<', .word t, y '>']
  | .vector, t => [w "std", y ':', y ':', w "vector", y '<', .word t, y '>']
  | .optionalVector, t => [w "optional_vector", y '<', .word t, y '>']
  | .idxVector, t => [w "idx_vector", y '<', .word t, y '>']
  | .optionalIdxVector, t => [w "optional_idx_vector", y '<', .word t, y '>']

/-- The tokens of a declaration. -/
def declTok (name : String) (isConst : Bool) (c : Container) (t : Name) : List Raw :=
  [w "template", y '<', y '>', w "bool", w name, y '<'] ++ (tyTok c t ++ (([y '>'] ++ parameters) ++ ((if isConst then [w "const"] else []) ++
    (tyTok c t ++ [y '&', w "value", y ')', y ';']))))

/-- Lines that are declarations for these containers of a type. -/
def Lines (name : String) (isConst : Bool) (cs : List Container) (t : Name) (ls : List String) : Prop :=
  (∀ l ∈ ls, good l = true) ∧ ls.flatMap lineTok = cs.flatMap fun c => declTok name isConst c t

theorem lines_nil (name : String) (isConst : Bool) (t : Name) : Lines name isConst [] t [] := ⟨(fun _ h => nomatch h), rfl⟩

theorem lines_cons {name : String} {isConst : Bool} {c : Container} {cs : List Container} {t : Name} {l : String} {ls : List String}
    (h : good l = true ∧ lineTok l = declTok name isConst c t) (hl : Lines name isConst cs t ls) : Lines name isConst (c :: cs) t (l :: ls) := by
  refine ⟨fun l' h' => ?_, by rw [List.flatMap_cons, List.flatMap_cons, h.2, hl.2]⟩
  rcases List.mem_cons.1 h' with rfl | h'
  · exact h.1
  · exact hl.1 l' h'

/-- The tokens of a type before the name. -/
def pre : Container → List Raw
  | .none => []
  | .optionalValue => [w "optional_value", y '<']
  | .vector => [w "std", y ':', y ':', w "vector", y '<']
  | .optionalVector => [w "optional_vector", y '<']
  | .idxVector => [w "idx_vector", y '<']
  | .optionalIdxVector => [w "optional_idx_vector", y '<']

/-- And after it. -/
def post : Container → List Raw
  | .none => []
  | _ => [y '>']

theorem decl_line {t : String} (ht : Ident t.toList) (name : String) (isConst : Bool) (c : Container) {p q r : String}
    (hp : Cpp.run .space p.toList = (.space, [w "template", y '<', y '>', w "bool", w name, y '<'] ++ pre c))
    (hq : Cpp.run .space q.toList = (.space, post c ++ (([y '>'] ++ parameters) ++ ((if isConst then [w "const"] else []) ++ pre c)))) (h1 : stops q.toList = true)
    (hr : (Cpp.run .space (r.toList ++ ['\n'])).2 = post c ++ [y '&', w "value", y ')', y ';'])
    (h2 : stops (r.toList ++ ['\n']) = true) (h3 : p.toList.all plain = true) (h4 : q.toList.all plain = true) (h5 : r.toList.all plain = true) :
    good (p ++ t ++ q ++ t ++ r) = true ∧ lineTok (p ++ t ++ q ++ t ++ r) = declTok name isConst c t.toList := by
  obtain ⟨g1, g2⟩ := line2 ht hp hq h1 hr h2 h3 h4 h5
  refine ⟨g1, g2.trans ?_⟩
  cases c <;> cases isConst <;> rfl

theorem writer_none {t : String} (ht : Ident t.toList) :
    good ("            template <> bool Write<" ++ t ++ ">( const char *key, const u8 key_length, const " ++ t ++ " &value );") = true ∧
    lineTok ("            template <> bool Write<" ++ t ++ ">( const char *key, const u8 key_length, const " ++ t ++ " &value );") = declTok "Write" true .none t.toList :=
  decl_line ht "Write" true .none (by decide +kernel) (by decide +kernel) (by decide +kernel) (by decide +kernel) (by decide +kernel) (by decide +kernel) (by decide +kernel)
    (by decide +kernel)

theorem writer_optionalValue {t : String} (ht : Ident t.toList) :
    good ("            template <> bool Write<optional_value<" ++ t ++ ">>( const char *key, const u8 key_length, const optional_value<" ++ t ++ "> &value );") = true ∧
    lineTok ("            template <> bool Write<optional_value<" ++ t ++ ">>( const char *key, const u8 key_length, const optional_value<" ++ t ++ "> &value );") = declTok "Write" true .optionalValue t.toList :=
  decl_line ht "Write" true .optionalValue (by decide +kernel) (by decide +kernel) (by decide +kernel) (by decide +kernel) (by decide +kernel) (by decide +kernel) (by decide +kernel)
    (by decide +kernel)

theorem writer_vector {t : String} (ht : Ident t.toList) :
    good ("            template <> bool Write<std::vector<" ++ t ++ ">>( const char *key, const u8 key_length, const std::vector<" ++ t ++ "> &value );") = true ∧
    lineTok ("            template <> bool Write<std::vector<" ++ t ++ ">>( const char *key, const u8 key_length, const std::vector<" ++ t ++ "> &value );") = declTok "Write" true .vector t.toList :=
  decl_line ht "Write" true .vector (by decide +kernel) (by decide +kernel) (by decide +kernel) (by decide +kernel) (by decide +kernel) (by decide +kernel) (by decide +kernel)
    (by decide +kernel)

theorem writer_optionalVector {t : String} (ht : Ident t.toList) :
    good ("            template <> bool Write<optional_vector<" ++ t ++ ">>( const char *key, const u8 key_length, const optional_vector<" ++ t ++ "> &value );") = true ∧
    lineTok ("            template <> bool Write<optional_vector<" ++ t ++ ">>( const char *key, const u8 key_length, const optional_vector<" ++ t ++ "> &value );") = declTok "Write" true .optionalVector t.toList :=
  decl_line ht "Write" true .optionalVector (by decide +kernel) (by decide +kernel) (by decide +kernel) (by decide +kernel) (by decide +kernel) (by decide +kernel) (by decide +kernel)
    (by decide +kernel)

theorem writer_idxVector {t : String} (ht : Ident t.toList) :
    good ("            template <> bool Write<idx_vector<" ++ t ++ ">>( const char *key, const u8 key_length, const idx_vector<" ++ t ++ "> &value );") = true ∧
    lineTok ("            template <> bool Write<idx_vector<" ++ t ++ ">>( const char *key, const u8 key_length, const idx_vector<" ++ t ++ "> &value );") = declTok "Write" true .idxVector t.toList :=
  decl_line ht "Write" true .idxVector (by decide +kernel) (by decide +kernel) (by decide +kernel) (by decide +kernel) (by decide +kernel) (by decide +kernel) (by decide +kernel)
    (by decide +kernel)

theorem writer_optionalIdxVector {t : String} (ht : Ident t.toList) :
    good ("            template <> bool Write<optional_idx_vector<" ++ t ++ ">>( const char *key, const u8 key_length, const optional_idx_vector<" ++ t ++ "> &value );") = true ∧
    lineTok ("            template <> bool Write<optional_idx_vector<" ++ t ++ ">>( const char *key, const u8 key_length, const optional_idx_vector<" ++ t ++ "> &value );") = declTok "Write" true .optionalIdxVector t.toList :=
  decl_line ht "Write" true .optionalIdxVector (by decide +kernel) (by decide +kernel) (by decide +kernel) (by decide +kernel) (by decide +kernel) (by decide +kernel) (by decide +kernel)
    (by decide +kernel)

theorem writer_base {t : String} (ht : Ident t.toList) : Lines "Write" true [.none, .optionalValue] t.toList (writerBase t) :=
  lines_cons (writer_none ht) (lines_cons (writer_optionalValue ht) (lines_nil ..))

theorem writer_arrays {t : String} (ht : Ident t.toList) :
    Lines "Write" true [.vector, .optionalVector, .idxVector, .optionalIdxVector] t.toList (writerArrays t) :=
  lines_cons (writer_vector ht) (lines_cons (writer_optionalVector ht) (lines_cons (writer_idxVector ht) (lines_cons (writer_optionalIdxVector ht) (lines_nil ..))))

theorem reader_none {t : String} (ht : Ident t.toList) :
    good ("            template <> bool Read<" ++ t ++ ">( const char *key, const u8 key_length, " ++ t ++ " &value );") = true ∧
    lineTok ("            template <> bool Read<" ++ t ++ ">( const char *key, const u8 key_length, " ++ t ++ " &value );") = declTok "Read" false .none t.toList :=
  decl_line ht "Read" false .none (by decide +kernel) (by decide +kernel) (by decide +kernel) (by decide +kernel) (by decide +kernel) (by decide +kernel) (by decide +kernel)
    (by decide +kernel)

theorem reader_optionalValue {t : String} (ht : Ident t.toList) :
    good ("            template <> bool Read<optional_value<" ++ t ++ ">>( const char *key, const u8 key_length, optional_value<" ++ t ++ "> &value );") = true ∧
    lineTok ("            template <> bool Read<optional_value<" ++ t ++ ">>( const char *key, const u8 key_length, optional_value<" ++ t ++ "> &value );") = declTok "Read" false .optionalValue t.toList :=
  decl_line ht "Read" false .optionalValue (by decide +kernel) (by decide +kernel) (by decide +kernel) (by decide +kernel) (by decide +kernel) (by decide +kernel) (by decide +kernel)
    (by decide +kernel)

theorem reader_vector {t : String} (ht : Ident t.toList) :
    good ("            template <> bool Read<std::vector<" ++ t ++ ">>( const char *key, const u8 key_length, std::vector<" ++ t ++ "> &value );") = true ∧
    lineTok ("            template <> bool Read<std::vector<" ++ t ++ ">>( const char *key, const u8 key_length, std::vector<" ++ t ++ "> &value );") = declTok "Read" false .vector t.toList :=
  decl_line ht "Read" false .vector (by decide +kernel) (by decide +kernel) (by decide +kernel) (by decide +kernel) (by decide +kernel) (by decide +kernel) (by decide +kernel)
    (by decide +kernel)

theorem reader_optionalVector {t : String} (ht : Ident t.toList) :
    good ("            template <> bool Read<optional_vector<" ++ t ++ ">>( const char *key, const u8 key_length, optional_vector<" ++ t ++ "> &value );") = true ∧
    lineTok ("            template <> bool Read<optional_vector<" ++ t ++ ">>( const char *key, const u8 key_length, optional_vector<" ++ t ++ "> &value );") = declTok "Read" false .optionalVector t.toList :=
  decl_line ht "Read" false .optionalVector (by decide +kernel) (by decide +kernel) (by decide +kernel) (by decide +kernel) (by decide +kernel) (by decide +kernel) (by decide +kernel)
    (by decide +kernel)

theorem reader_idxVector {t : String} (ht : Ident t.toList) :
    good ("            template <> bool Read<idx_vector<" ++ t ++ ">>( const char *key, const u8 key_length, idx_vector<" ++ t ++ "> &value );") = true ∧
    lineTok ("            template <> bool Read<idx_vector<" ++ t ++ ">>( const char *key, const u8 key_length, idx_vector<" ++ t ++ "> &value );") = declTok "Read" false .idxVector t.toList :=
  decl_line ht "Read" false .idxVector (by decide +kernel) (by decide +kernel) (by decide +kernel) (by decide +kernel) (by decide +kernel) (by decide +kernel) (by decide +kernel)
    (by decide +kernel)

theorem reader_optionalIdxVector {t : String} (ht : Ident t.toList) :
    good ("            template <> bool Read<optional_idx_vector<" ++ t ++ ">>( const char *key, const u8 key_length, optional_idx_vector<" ++ t ++ "> &value );") = true ∧
    lineTok ("            template <> bool Read<optional_idx_vector<" ++ t ++ ">>( const char *key, const u8 key_length, optional_idx_vector<" ++ t ++ "> &value );") = declTok "Read" false .optionalIdxVector t.toList :=
  decl_line ht "Read" false .optionalIdxVector (by decide +kernel) (by decide +kernel) (by decide +kernel) (by decide +kernel) (by decide +kernel) (by decide +kernel) (by decide +kernel)
    (by decide +kernel)

theorem reader_base {t : String} (ht : Ident t.toList) : Lines "Read" false [.none, .optionalValue] t.toList (readerBase t) :=
  lines_cons (reader_none ht) (lines_cons (reader_optionalValue ht) (lines_nil ..))

theorem reader_arrays {t : String} (ht : Ident t.toList) :
    Lines "Read" false [.vector, .optionalVector, .idxVector, .optionalIdxVector] t.toList (readerArrays t) :=
  lines_cons (reader_vector ht) (lines_cons (reader_optionalVector ht) (lines_cons (reader_idxVector ht) (lines_cons (reader_optionalIdxVector ht) (lines_nil ..))))

/-! ## Files -/

/-- The types that these base types have, each with these containers. -/
def tys (cs : List Container) (bs : List Over.BaseType) : List Ty :=
  bs.flatMap fun b => b.variants.flatMap fun t => cs.map fun c => (c, t.implementingType.toList)

theorem flatMap_variants {name : String} {isConst : Bool} {cs : List Container} {f : String → List String} :
    ∀ vs : List Over.Variant, (∀ v ∈ vs, Lines name isConst cs v.implementingType.toList (f v.implementingType)) →
      (∀ l ∈ vs.flatMap (fun v => f v.implementingType), good l = true) ∧
      (vs.flatMap fun v => f v.implementingType).flatMap lineTok =
        (vs.flatMap fun t => cs.map fun c => (c, t.implementingType.toList)).flatMap fun p => declTok name isConst p.1 p.2 := by
  intro vs
  induction vs with
  | nil => intro _; exact ⟨(fun _ h => nomatch h), rfl⟩
  | cons v vs ih =>
    intro h
    obtain ⟨h1, h2⟩ := h v (List.mem_cons_self ..)
    obtain ⟨i1, i2⟩ := ih fun v' hv => h v' (List.mem_cons_of_mem _ hv)
    constructor
    · intro l hl
      rw [List.flatMap_cons, List.mem_append] at hl
      exact hl.elim (h1 l) (i1 l)
    · rw [List.flatMap_cons, List.flatMap_append, h2, i2, List.flatMap_cons, List.flatMap_append, List.flatMap_map]

theorem flatMap_bases {name : String} {isConst : Bool} {cs : List Container} {f : String → List String} {pre : String}
    (hf : ∀ t : String, Ident t.toList → Lines name isConst cs t.toList (f t)) :
    ∀ bs : List Over.BaseType, (∀ b ∈ bs, good ("            // " ++ (pre ++ b.name)) = true ∧ lineTok ("            // " ++ (pre ++ b.name)) = [] ∧
        ∀ v ∈ b.variants, Ident v.implementingType.toList) →
      (∀ l ∈ bs.flatMap (fun b => ["            // " ++ (pre ++ b.name)] ++ (b.variants.flatMap fun t => f t.implementingType) ++ [""]), good l = true) ∧
      (bs.flatMap fun b => ["            // " ++ (pre ++ b.name)] ++ (b.variants.flatMap fun t => f t.implementingType) ++ [""]).flatMap lineTok =
        (tys cs bs).flatMap fun p => declTok name isConst p.1 p.2 := by
  intro bs
  induction bs with
  | nil => intro _; exact ⟨(fun _ h => nomatch h), rfl⟩
  | cons b bs ih =>
    intro h
    obtain ⟨h1, h2, h3⟩ := h b (List.mem_cons_self ..)
    obtain ⟨i1, i2⟩ := ih fun b' hb => h b' (List.mem_cons_of_mem _ hb)
    obtain ⟨j1, j2⟩ := flatMap_variants b.variants fun v hv => hf _ (h3 v hv)
    have e1 : good "" = true := by decide +kernel
    have e2 : lineTok "" = [] := by decide +kernel
    constructor
    · intro l hl
      rw [List.flatMap_cons, List.mem_append, List.mem_append, List.mem_append] at hl
      rcases hl with ((hl | hl) | hl) | hl
      · rw [List.mem_singleton] at hl; rw [hl]; exact h1
      · exact j1 l hl
      · rw [List.mem_singleton] at hl; rw [hl]; exact e1
      · exact i1 l hl
    · have e3 : tys cs (b :: bs) = (b.variants.flatMap fun t => cs.map fun c => (c, t.implementingType.toList)) ++ tys cs bs := by
        rw [tys, List.flatMap_cons]; rfl
      rw [e3, List.flatMap_append (xs := b.variants.flatMap _), ← j2, ← i2]
      rw [List.flatMap_cons, List.flatMap_append, List.flatMap_append, List.flatMap_append]
      simp only [List.flatMap_singleton, h2, e2, List.append_nil, List.nil_append]

/-- The declared types, in the order of the files. -/
def order : List Ty := tys [.none, .optionalValue] Over.baseTypes ++ tys [.vector, .optionalVector, .idxVector, .optionalIdxVector] Over.baseTypes

theorem names_ident : ∀ b ∈ Over.baseTypes, ∀ v ∈ b.variants, Ident v.implementingType.toList := by
  have h : ∀ b ∈ Over.baseTypes, ∀ v ∈ b.variants, v.implementingType.toList ≠ [] ∧ ∀ c ∈ v.implementingType.toList, isId c = true := by decide +kernel
  exact fun b hb v hv => ⟨(h b hb v hv).1, (h b hb v hv).2⟩

theorem comments : ∀ b ∈ Over.baseTypes, (good ("            // " ++ ("VT_" ++ b.name)) = true ∧ lineTok ("            // " ++ ("VT_" ++ b.name)) = []) ∧
    (good ("            // " ++ ("VT_Array_" ++ b.name)) = true ∧ lineTok ("            // " ++ ("VT_Array_" ++ b.name)) = []) := by decide +kernel

theorem declarations_tokens {name : String} {isConst : Bool} {f g : String → List String}
    (hf : ∀ t : String, Ident t.toList → Lines name isConst [.none, .optionalValue] t.toList (f t))
    (hg : ∀ t : String, Ident t.toList → Lines name isConst [.vector, .optionalVector, .idxVector, .optionalIdxVector] t.toList (g t)) :
    (∀ l ∈ declarations f g, good l = true) ∧ (declarations f g).flatMap lineTok = order.flatMap fun p => declTok name isConst p.1 p.2 := by
  obtain ⟨a1, a2⟩ := flatMap_bases (pre := "VT_") hf Over.baseTypes fun b hb => ⟨(comments b hb).1.1, (comments b hb).1.2, names_ident b hb⟩
  obtain ⟨b1, b2⟩ := flatMap_bases (pre := "VT_Array_") hg Over.baseTypes fun b hb => ⟨(comments b hb).2.1, (comments b hb).2.2, names_ident b hb⟩
  constructor
  · intro l hl
    rw [declarations, List.mem_append] at hl
    exact hl.elim (a1 l) (b1 l)
  · rw [declarations, List.flatMap_append, a2, b2, order, List.flatMap_append]


/-! ## The lines that are the same in both files' runs -/

/-- The tokens of the members of the writer. -/
def writerMemberTok : List Raw := [w "MemoryWriteStream", y '&', w "dstream", y ';', w "const", w "u64", w "start_position", y ';',
  w "std", y ':', y ':', w "unique_ptr", y '<', w "EntityWriter", y '>', w "active_subsection", y ';',
  w "size_t", w "active_array_size", y '=', w "0", y ';', w "size_t", w "active_array_index", y '=', y '~', w "0", y ';',
  w "u64", w "active_array_index_start_position", y '=', w "0", y ';', w "public", y ':']

/-- The tokens of the members of the reader. -/
def readerMemberTok : List Raw := [w "MemoryReadStream", y '&', w "sstream", y ';', w "const", w "u64", w "end_position", y ';',
  w "std", y ':', y ':', w "unique_ptr", y '<', w "EntityReader", y '>', w "active_subsection", y ';',
  w "size_t", w "active_subsection_array_size", y '=', w "0", y ';', w "size_t", w "active_subsection_index", y '=', y '~', w "0", y ';',
  w "u64", w "active_subsection_end_pos", y '=', w "0", y ';', w "public", y ':']

/-- What is checked of the characters of lines: that they end outside comments and strings, and their tokens. -/
def check (ls : List (List Char)) (ts : List Raw) : Bool :=
  (ls.all fun l => l.all plain || ((strip .code (l ++ ['\n'])).getLast? == some '\n' && (modeAfter .code (l ++ ['\n'])).isCode)) &&
  decide (ls.flatMap (fun l => if l.all plain then DynText.tokens (l ++ ['\n']) else tokens (l ++ ['\n'])) = ts)

/-- The characters of lines. -/
inductive Chars : List String → List (List Char) → Prop where
  | nil : Chars [] []
  | cons {s : String} {l : List Char} {ls : List String} {cs : List (List Char)} (h : s.toList = l) (hs : Chars ls cs) : Chars (s :: ls) (l :: cs)

theorem Chars.eq {ls : List String} {cs : List (List Char)} (h : Chars ls cs) : ls.map String.toList = cs := by
  induction h with
  | nil => rfl
  | cons h _ ih => rw [List.map_cons, h, ih]

theorem check_lines {ls : List String} {ts : List Raw} {cs : List (List Char)} (h0 : Chars ls cs) (h' : check cs ts = true) :
    (∀ l ∈ ls, good l = true) ∧ ls.flatMap lineTok = ts := by
  obtain rfl := h0.eq
  rw [check, Bool.and_eq_true, decide_eq_true_iff] at h'
  obtain ⟨h1, h2⟩ := h'
  constructor
  · intro l hl
    have := List.all_eq_true.1 h1 _ (List.mem_map_of_mem hl)
    rw [Bool.or_eq_true] at this
    exact this.elim (fun h => (line_plain h).1) id
  · rw [← h2, List.flatMap_map]
    congr 1
    funext l
    split
    · next h => exact (line_plain h).2
    · rfl


theorem writer_head : (∀ l ∈ writerHead, good l = true) ∧ writerHead.flatMap lineTok = writerFrame.before ++ (writerMemberTok ++ writerFrame.methods) := by
  apply check_lines
  · dsimp only [writerHead]
    repeat (apply Chars.cons; · exact String.toList_ofList)
    exact .nil
  · decide +kernel

theorem reader_head : (∀ l ∈ readerHead, good l = true) ∧ readerHead.flatMap lineTok = readerFrame.before ++ (readerMemberTok ++ readerFrame.methods) := by
  apply check_lines
  · dsimp only [readerHead]
    repeat (apply Chars.cons; · exact String.toList_ofList)
    exact .nil
  · decide +kernel

theorem writer_tail : (∀ l ∈ writerTail, good l = true) ∧ writerTail.flatMap lineTok = [y '}', y ';'] ++ writerFrame.after := by
  apply check_lines
  · dsimp only [writerTail]
    repeat (apply Chars.cons; · exact String.toList_ofList)
    exact .nil
  · decide +kernel

theorem reader_tail : (∀ l ∈ readerTail, good l = true) ∧ readerTail.flatMap lineTok = [y '}', y ';'] ++ readerFrame.after := by
  apply check_lines
  · dsimp only [readerTail]
    repeat (apply Chars.cons; · exact String.toList_ofList)
    exact .nil
  · decide +kernel

end ISD.Head
