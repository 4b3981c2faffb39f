import Verif.Proofs.DynTextFile
import Verif.Spec.CombText
import Verif.Model.CombText

/-!
# ISD_CombinedTypes.h and ISD_CombinedTypes.cpp parse
-/

namespace ISD.CombText

open Cpp (St Raw Name isId)
open DynText (w y expect pWord pTy Ty tokens typeNamed Ident stops lineRaw tyRaw combo containerName expect_append pTy_ty pWord_cons)

set_option maxRecDepth 20000

/-! ## Lines -/

/-- A word with a given beginning. -/
theorem line_word {p q : List Char} {pre : Name} {n : List Char} {tp tq : List Raw} (hn : ∀ d ∈ n, isId d) (hp : Cpp.run .space p = (.word pre, tp))
    (hs : stops q = true) (hq : (Cpp.run .space q).2 = tq) {l : String} (hl : l.toList ++ ['\n'] = p ++ (n ++ q)) :
    lineRaw l = tp ++ .word (pre ++ n) :: tq := by
  rw [lineRaw, tokens, hl, Cpp.run_append, hp]
  dsimp only
  rw [Cpp.run_append, Cpp.run_word _ _ hn]
  dsimp only
  rw [DynText.run_after_word hs]
  dsimp only
  rw [hq, List.nil_append]

/-- The end of a line with a comment. -/
theorem run_tail {q r : List Char} {tq : List Raw} (hq : Cpp.run .space q = (.skip, tq)) (hr : ∀ d ∈ r, d ≠ '\n') :
    (Cpp.run .space (q ++ (r ++ ['\n']))).2 = tq := by
  rw [Cpp.run_append, hq]
  dsimp only
  rw [Cpp.run_append, DynText.run_comment _ hr]
  exact List.append_nil _

theorem stops_append {q : List Char} (h : stops q = true) (r : List Char) : stops (q ++ r) = true := by
  cases q with
  | nil => cases h
  | cons d q => exact h

theorem no_newline {n : List Char} (h : ∀ d ∈ n, isId d) : ∀ d ∈ n, d ≠ '\n' := by
  rintro d hd rfl
  exact absurd (h _ hd) (by decide)

theorem line_struct (c : Container) {t : String} (ht : Ident t.toList) :
    lineRaw ("    template<> struct combined_type_information<" ++ combo c t ++ ">") = in1 ++ (tyRaw c t.toList ++ [y '>']) :=
  DynText.line1 c ht (by decide +kernel) (by decide +kernel) (by decide +kernel)

theorem line_using {t : String} (ht : Ident t.toList) :
    lineRaw ("        using data_type = " ++ t ++ ";") = [w "using", w "data_type", y '='] ++ (.word t.toList :: [y ';']) := by
  have e : Cpp.run .space "        using data_type = ".toList = (.space, [w "using", w "data_type", y '=']) := by decide +kernel
  rw [lineRaw, tokens, String.toList_append, String.toList_append, List.append_assoc, List.append_assoc, Cpp.run_append, e]
  dsimp only
  rw [DynText.run_ident ht (by rfl)]
  rfl

theorem line_index (c : Container) {t : String} (ht : Ident t.toList) :
    lineRaw ("        static constexpr data_type_index type_index = data_type_index::dt_" ++ t ++ "; // the data type index of " ++ combo c t ++ " ( dt_" ++ t ++ " )") =
      [w "static", w "constexpr", w "data_type_index", w "type_index", y '=', w "data_type_index", y ':', y ':'] ++
        (.word ("dt_".toList ++ t.toList) :: [y ';']) := by
  have hr : ∀ d ∈ (combo c t).toList ++ (" ( dt_".toList ++ (t.toList ++ " )".toList)), d ≠ '\n' := by
    intro d hd
    rcases List.mem_append.1 hd with h | h
    · exact DynText.combo_chars c ht d h
    clear hd
    rcases List.mem_append.1 h with h | h
    · clear ht; rename_i h0; clear h0; revert h; revert d; decide
    rcases List.mem_append.1 h with h | h
    · exact no_newline ht.chars d h
    · clear ht; rename_i h0 h1; clear h0 h1; revert h; revert d; decide
  exact line_word (p := "        static constexpr data_type_index type_index = data_type_index::dt_".toList) (n := t.toList)
    (q := "; // the data type index of ".toList ++ (((combo c t).toList ++ (" ( dt_".toList ++ (t.toList ++ " )".toList))) ++ ['\n']))
    ht.chars (by decide +kernel) (stops_append (by decide +kernel) _) (run_tail (by decide +kernel) hr) (by simp only [String.toList_append, List.append_assoc])

theorem line_container (c : Container) {t : String} (ht : Ident t.toList) :
    lineRaw ("        static constexpr container_type_index container_index = container_type_index::ct_" ++ containerName c ++
      "; // the container type index of " ++ combo c t ++ " ( dt_" ++ containerName c ++ " )") =
      [w "static", w "constexpr", w "container_type_index", w "container_index", y '=', w "container_type_index", y ':', y ':'] ++
        (.word ("ct_".toList ++ (containerName c).toList) :: [y ';']) := by
  have hr : ∀ d ∈ (combo c t).toList ++ (" ( dt_".toList ++ ((containerName c).toList ++ " )".toList)), d ≠ '\n' := by
    intro d hd
    rcases List.mem_append.1 hd with h | h
    · exact DynText.combo_chars c ht d h
    clear hd
    rcases List.mem_append.1 h with h | h
    · clear ht; rename_i h0; clear h0; revert h; revert d; decide
    rcases List.mem_append.1 h with h | h
    · exact no_newline (DynText.containerName_ident c) d h
    · clear ht; rename_i h0 h1; clear h0 h1; revert h; revert d; decide
  exact line_word (p := "        static constexpr container_type_index container_index = container_type_index::ct_".toList) (n := (containerName c).toList)
    (q := "; // the container type index of ".toList ++ (((combo c t).toList ++ (" ( dt_".toList ++ ((containerName c).toList ++ " )".toList))) ++ ['\n']))
    (DynText.containerName_ident c) (by decide +kernel) (stops_append (by decide +kernel) _) (run_tail (by decide +kernel) hr)
    (by simp only [String.toList_append, List.append_assoc])

/-- The tokens of a specialisation. -/
def infoRaw (c : Container) (t : Name) : List Raw :=
  in1 ++ (tyRaw c t ++ (in2 ++ (.word t :: (in3 ++ (.word ("dt_".toList ++ t) :: (in4 ++ (.word ("ct_".toList ++ (containerName c).toList) :: in5)))))))

theorem info_lines (c : Container) {t : String} (ht : Ident t.toList) :
    (infoText t (containerName c) (combo c t)).flatMap lineRaw = infoRaw c t.toList := by
  have e1 : lineRaw "        {" = [y '{'] := by decide +kernel
  have e2 : lineRaw "        };" = [y '}', y ';'] := by decide +kernel
  have e3 : lineRaw "" = [] := by decide +kernel
  simp only [infoText, List.flatMap_cons, List.flatMap_nil, DynText.line_comment c ht, line_struct c ht, e1, e2, e3, line_using ht, line_index c ht, line_container c ht,
    infoRaw, in2, in3, in4, in5, List.append_assoc, List.cons_append, List.nil_append, List.append_nil]

/-- The tokens of the body of a function. -/
def bodyRaw (c : Container) (t : Name) : List Raw :=
  match c with
  | .none => w "type" :: y '=' :: (bd1 ++ (tyRaw .none t ++ bd2))
  | .vector | .idxVector => [w "type", y '.', w "clear", y '(', y ')', y ';', y '}']
  | _ => [w "type", y '.', w "reset", y '(', y ')', y ';', y '}']

/-- The tokens of a function. -/
def fnRaw (c : Container) (t : Name) : List Raw :=
  fn1 ++ (tyRaw c t ++ (fn2 ++ (tyRaw c t ++ (y '&' :: w "type" :: (fn3 ++ bodyRaw c t)))))

theorem line3 (c : Container) {t : String} (ht : Ident t.toList) {p q r s : String} {tp tq tr ts : List Raw} (hp : Cpp.run .space p.toList = (.space, tp))
    (hq : Cpp.run .space q.toList = (.space, tq)) (h1 : stops q.toList = true)
    (hr : Cpp.run .space r.toList = (.space, tr)) (h2 : stops r.toList = true)
    (hs : (Cpp.run .space (s.toList ++ ['\n'])).2 = ts) (h3 : stops (s.toList ++ ['\n']) = true) :
    lineRaw (p ++ combo c t ++ q ++ combo c t ++ r ++ combo c t ++ s) =
      tp ++ (tyRaw c t.toList ++ (tq ++ (tyRaw c t.toList ++ (tr ++ (tyRaw c t.toList ++ ts))))) := by
  simp only [lineRaw, tokens, String.toList_append, List.append_assoc]
  rw [DynText.seg hp, DynText.hole c ht hq h1, DynText.hole c ht hr h2, DynText.last c ht hs h3]

theorem clear_line (c : Container) {t : String} (ht : Ident t.toList) : lineRaw (clearText c (combo c t)) = fnRaw c t.toList := by
  have h1 : ∀ c, lineRaw ("    template <> void clear_combined_type<" ++ combo c t ++ ">( " ++ combo c t ++ " &type ) { type.clear(); }") =
      fn1 ++ (tyRaw c t.toList ++ (fn2 ++ (tyRaw c t.toList ++ (y '&' :: w "type" :: (fn3 ++ [w "type", y '.', w "clear", y '(', y ')', y ';', y '}']))))) :=
    fun c => DynText.line2 c ht (by decide +kernel) (by decide +kernel) (by decide +kernel) (by decide +kernel) (by decide +kernel)
  have h2 : ∀ c, lineRaw ("    template <> void clear_combined_type<" ++ combo c t ++ ">( " ++ combo c t ++ " &type ) { type.reset(); }") =
      fn1 ++ (tyRaw c t.toList ++ (fn2 ++ (tyRaw c t.toList ++ (y '&' :: w "type" :: (fn3 ++ [w "type", y '.', w "reset", y '(', y ')', y ';', y '}']))))) :=
    fun c => DynText.line2 c ht (by decide +kernel) (by decide +kernel) (by decide +kernel) (by decide +kernel) (by decide +kernel)
  have h3 : lineRaw ("    template <> void clear_combined_type<" ++ combo .none t ++ ">( " ++ combo .none t ++
      " &type ) { type = data_type_information<" ++ combo .none t ++ ">::zero; }") =
      fn1 ++ (tyRaw .none t.toList ++ (fn2 ++ (tyRaw .none t.toList ++ ((y '&' :: w "type" :: (fn3 ++ (w "type" :: y '=' :: bd1))) ++
        (tyRaw .none t.toList ++ bd2))))) :=
    line3 .none ht (by decide +kernel) (by decide +kernel) (by decide +kernel) (by decide +kernel) (by decide +kernel) (by decide +kernel) (by decide +kernel)
  cases c with
  | none => exact h3.trans (by simp only [fnRaw, bodyRaw, List.append_assoc, List.cons_append])
  | vector => exact h1 .vector
  | idxVector => exact h1 .idxVector
  | optionalValue => exact h2 .optionalValue
  | optionalVector => exact h2 .optionalVector
  | optionalIdxVector => exact h2 .optionalIdxVector

/-! ## Files -/

theorem info_all : ∀ ts : List DataType, (∀ t ∈ ts, Ident t.name.toList) →
    (ts.flatMap fun t => allContainers.flatMap fun c => infoText t.name (containerName c) (combo c t.name)).flatMap lineRaw =
      (ts.flatMap fun t => allContainers.map fun c => (c, t.name.toList)).flatMap fun p => infoRaw p.1 p.2 := by
  intro ts
  induction ts with
  | nil => intro _; rfl
  | cons t ts ih =>
    intro h
    have e : ∀ cs : List Container, (cs.flatMap fun c => infoText t.name (containerName c) (combo c t.name)).flatMap lineRaw =
        (cs.map fun c => (c, t.name.toList)).flatMap fun p => infoRaw p.1 p.2 := by
      intro cs
      induction cs with
      | nil => rfl
      | cons c cs ih' =>
        rw [List.flatMap_cons, List.flatMap_append, info_lines c (h t (List.mem_cons_self ..)), ih', List.map_cons, List.flatMap_cons]
    rw [List.flatMap_cons, List.flatMap_append, e, ih fun t ht => h t (List.mem_cons_of_mem _ ht), List.flatMap_cons, List.flatMap_append]

theorem clear_all : ∀ ts : List DataType, (∀ t ∈ ts, Ident t.name.toList) →
    (ts.flatMap fun t => allContainers.map fun c => clearText c (combo c t.name)).flatMap lineRaw =
      (ts.flatMap fun t => allContainers.map fun c => (c, t.name.toList)).flatMap fun p => fnRaw p.1 p.2 := by
  intro ts
  induction ts with
  | nil => intro _; rfl
  | cons t ts ih =>
    intro h
    have e : ∀ cs : List Container, (cs.map fun c => clearText c (combo c t.name)).flatMap lineRaw =
        (cs.map fun c => (c, t.name.toList)).flatMap fun p => fnRaw p.1 p.2 := by
      intro cs
      induction cs with
      | nil => rfl
      | cons c cs ih' =>
        rw [List.map_cons, List.flatMap_cons, clear_line c (h t (List.mem_cons_self ..)), ih', List.map_cons, List.flatMap_cons]
    rw [List.flatMap_cons, List.flatMap_append, e, ih fun t ht => h t (List.mem_cons_of_mem _ ht), List.flatMap_cons, List.flatMap_append]

/-- What a specialisation says. -/
def infoAst (c : Container) (t : Name) : Info := ⟨(c, t), t, "dt_".toList ++ t, "ct_".toList ++ (containerName c).toList⟩

/-- The body of a function. -/
def bodyAst (c : Container) (t : Name) : Body :=
  match c with
  | .none => .zero "type".toList (.none, t)
  | .vector | .idxVector => .clear "type".toList
  | _ => .reset "type".toList

/-- A function. -/
def fnAst (c : Container) (t : Name) : Fn := ⟨(c, t), (c, t), "type".toList, bodyAst c t⟩

theorem pInfo_info (c : Container) (t : Name) (r : List Raw) : pInfo (infoRaw c t ++ r) = some (infoAst c t, r) := by
  have h1 : ∀ r, pTy (tyRaw c t ++ (in2 ++ r)) = some ((c, t), in2 ++ r) := fun r => pTy_ty c t _ rfl
  simp only [pInfo, infoRaw, List.append_assoc, List.cons_append, expect_append, Option.bind_eq_bind, Option.bind_some, h1, pWord_cons, Option.pure_def]
  rfl

theorem pBody_body (c : Container) (t : Name) (r : List Raw) : pBody (bodyRaw c t ++ r) = some (bodyAst c t, r) := by
  cases c <;> rfl

theorem pFn_fn (c : Container) (t : Name) (r : List Raw) : pFn (fnRaw c t ++ r) = some (fnAst c t, r) := by
  have h1 : ∀ r, pTy (tyRaw c t ++ (fn2 ++ r)) = some ((c, t), fn2 ++ r) := fun r => pTy_ty c t _ rfl
  have h2 : ∀ r, pTy (tyRaw c t ++ (y '&' :: r)) = some ((c, t), y '&' :: r) := fun r => pTy_ty c t _ rfl
  have h3 : ∀ r, expect [y '&'] (y '&' :: r) = some r := expect_append [y '&']
  simp only [pFn, fnRaw, List.append_assoc, List.cons_append, expect_append, Option.bind_eq_bind, Option.bind_some, h1, h2, h3, DynText.pWord_w, pBody_body,
    Option.pure_def]
  rfl

theorem pInfos_all (l : List (Container × Name)) : ∀ n, l.length < n →
    pInfos n (l.flatMap (fun p => infoRaw p.1 p.2) ++ [y '}', y ';']) = some (l.map fun p => infoAst p.1 p.2) := by
  induction l with
  | nil =>
    intro n hn
    obtain ⟨n, rfl⟩ := Nat.exists_eq_succ_of_ne_zero (by omega : n ≠ 0)
    rfl
  | cons p l ih =>
    intro n hn
    obtain ⟨n, rfl⟩ := Nat.exists_eq_succ_of_ne_zero (by omega : n ≠ 0)
    rw [List.length_cons] at hn
    rw [List.flatMap_cons, List.append_assoc, Nat.succ_eq_add_one, pInfos]
    · simp only [pInfo_info, Option.bind_eq_bind, Option.bind_some, ih n (by omega), Option.pure_def, List.map_cons]
    · intro e; rw [infoRaw] at e; exact nomatch e

theorem pFns_all (l : List (Container × Name)) : ∀ n, l.length < n →
    pFns n (l.flatMap (fun p => fnRaw p.1 p.2) ++ [y '}', y ';']) = some (l.map fun p => fnAst p.1 p.2) := by
  induction l with
  | nil =>
    intro n hn
    obtain ⟨n, rfl⟩ := Nat.exists_eq_succ_of_ne_zero (by omega : n ≠ 0)
    rfl
  | cons p l ih =>
    intro n hn
    obtain ⟨n, rfl⟩ := Nat.exists_eq_succ_of_ne_zero (by omega : n ≠ 0)
    rw [List.length_cons] at hn
    rw [List.flatMap_cons, List.append_assoc, Nat.succ_eq_add_one, pFns]
    · simp only [pFn_fn, Option.bind_eq_bind, Option.bind_some, ih n (by omega), Option.pure_def, List.map_cons]
    · intro e; rw [fnRaw] at e; exact nomatch e

theorem length_flat (f : Container × Name → List Raw) (hf : ∀ p, 1 ≤ (f p).length) (l : List (Container × Name)) : l.length ≤ (l.flatMap f).length := by
  induction l with
  | nil => exact Nat.le_refl _
  | cons p l ih =>
    have := hf p
    rw [List.flatMap_cons, List.length_append, List.length_cons]
    omega

theorem parseHeader_all (l : List (Container × Name)) :
    parseHeader (headHeader ++ (l.flatMap (fun p => infoRaw p.1 p.2) ++ [y '}', y ';'])) = some (l.map fun p => infoAst p.1 p.2) := by
  have hlen : l.length < (headHeader ++ (l.flatMap (fun p => infoRaw p.1 p.2) ++ [y '}', y ';'])).length := by
    have h1 := length_flat (fun p => infoRaw p.1 p.2) (fun p => by rw [infoRaw, in1]; exact Nat.le_add_left _ _) l
    have h2 : 1 ≤ headHeader.length := by decide
    rw [List.length_append, List.length_append]
    omega
  simp only [parseHeader, expect_append, Option.bind_eq_bind, Option.bind_some]
  exact pInfos_all l _ hlen

theorem parseSource_all (l : List (Container × Name)) :
    parseSource ([w "namespace", w "ISD", y '{'] ++ (l.flatMap (fun p => fnRaw p.1 p.2) ++ [y '}', y ';'])) = some (l.map fun p => fnAst p.1 p.2) := by
  have hlen : l.length < ([w "namespace", w "ISD", y '{'] ++ (l.flatMap (fun p => fnRaw p.1 p.2) ++ [y '}', y ';'])).length := by
    have h1 := length_flat (fun p => fnRaw p.1 p.2) (fun p => by rw [fnRaw, fn1]; exact Nat.le_add_left _ _) l
    have h2 : 1 ≤ [w "namespace", w "ISD", y '{'].length := by decide
    rw [List.length_append, List.length_append]
    omega
  simp only [parseSource, expect_append, Option.bind_eq_bind, Option.bind_some]
  exact pFns_all l _ hlen

theorem parse_header : parseHeader (tokens header) = some (DynText.pairs.map fun p => infoAst p.1 p.2) := by
  have e1 : headerHead.flatMap lineRaw = headHeader := by decide +kernel
  have e2 : (["    };"] : List String).flatMap lineRaw = [y '}', y ';'] := by decide +kernel
  rw [header, textOf, DynText.tokens_lines, headerLines, List.flatMap_append, List.flatMap_append, e1, e2, info_all allTypes fun t h => DynText.ident_of h,
    List.append_assoc]
  exact parseHeader_all DynText.pairs

theorem parse_source : parseSource (tokens source) = some (DynText.pairs.map fun p => fnAst p.1 p.2) := by
  have e1 : sourceHead.flatMap lineRaw = [w "namespace", w "ISD", y '{'] := by decide +kernel
  have e2 : (["    };"] : List String).flatMap lineRaw = [y '}', y ';'] := by decide +kernel
  rw [source, textOf, DynText.tokens_lines, sourceLines, List.flatMap_append, List.flatMap_append, e1, e2, clear_all allTypes fun t h => DynText.ident_of h,
    List.append_assoc]
  exact parseSource_all DynText.pairs

theorem parse_types : parseEnum (tokens typeEnum) = some ("data_type_index".toList, typeIds.map fun p => ("dt_".toList ++ p.2.name.toList, p.1)) := by
  decide +kernel

theorem parse_containers : parseEnum (tokens containerEnum) =
    some ("container_type_index".toList, allContainers.map fun c => ("ct_".toList ++ (containerName c).toList, c.id)) := by
  decide +kernel

end ISD.CombText
