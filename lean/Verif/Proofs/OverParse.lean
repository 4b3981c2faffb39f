import Verif.Proofs.OverLex
import Verif.Model.Overloads

/-!
# The overloads, parsed
-/

namespace ISD.Over

open Cpp (Name Ty)

set_option maxRecDepth 20000
set_option linter.unusedVariables false

/-! The variables. -/

abbrev src : Name := "src_variable".toList
abbrev dst : Name := "dest_variable".toList
abbrev tmp : Name := "tmp_variable".toList
abbrev psrc : Name := "p_src_variable".toList
abbrev pvalues : Name := "p_src_values".toList
abbrev pindex : Name := "p_src_index".toList
abbrev ii : Name := "i".toList

/-- The value type of a base type. -/
abbrev vt (b : Name) : Name := "VT_".toList ++ b

/-- The array value type of a base type. -/
abbrev avt (b : Name) : Name := "VT_Array_".toList ++ b

/-- The bodies of `writerOverride`. -/
def writerOverrideBody : Container → Name → Name → List Stmt
  | .none, t, u =>
    [.simple (.declCopy (.none, u) tmp src), .simple (.ret (.write (.none, u) tmp))]
  | .optionalValue, t, u =>
    [.simple (.decl (.optionalValue, u) tmp), .cond (.has src) [.setTo tmp ⟨src, .value⟩] [], .simple (.ret (.write (.optionalValue, u) tmp))]
  | .vector, t, u =>
    [.simple (.decl (.vector, u) tmp), .simple (.reserve ⟨tmp, .self⟩ ⟨src, .self⟩), .simple (.copy ⟨src, .self⟩ ⟨src, .self⟩ ⟨tmp, .self⟩),
      .simple (.ret (.write (.vector, u) tmp))]
  | .optionalVector, t, u =>
    [.simple (.decl (.optionalVector, u) tmp),
      .cond (.has src) [.set tmp, .reserve ⟨tmp, .values⟩ ⟨src, .values⟩, .copy ⟨src, .values⟩ ⟨src, .values⟩ ⟨tmp, .values⟩] [],
      .simple (.ret (.write (.optionalVector, u) tmp))]
  | .idxVector, t, u =>
    [.simple (.decl (.idxVector, u) tmp), .simple (.reserve ⟨tmp, .index⟩ ⟨src, .index⟩), .simple (.reserve ⟨tmp, .values⟩ ⟨src, .values⟩),
      .simple (.copy ⟨src, .index⟩ ⟨src, .index⟩ ⟨tmp, .index⟩), .simple (.copy ⟨src, .values⟩ ⟨src, .values⟩ ⟨tmp, .values⟩),
      .simple (.ret (.write (.idxVector, u) tmp))]
  | .optionalIdxVector, t, u =>
    [.simple (.decl (.optionalIdxVector, u) tmp),
      .cond (.has src) [.set tmp, .reserve ⟨tmp, .index⟩ ⟨src, .index⟩, .reserve ⟨tmp, .values⟩ ⟨src, .values⟩,
        .copy ⟨src, .index⟩ ⟨src, .index⟩ ⟨tmp, .index⟩, .copy ⟨src, .values⟩ ⟨src, .values⟩ ⟨tmp, .values⟩] [],
      .simple (.ret (.write (.optionalIdxVector, u) tmp))]

/-- The specialisations of `writerOverride`. -/
def writerOverrideFn (c : Container) (t u : Name) : Fn := ⟨true, (c, t), (c, t), src, writerOverrideBody c t u⟩

theorem writerOverride_none {t u : String} (ht : Plain t) (hu : Plain u) (rest : List Tok) :
    pFn 100 ((writerOverride .none t u).flatMap lineTokens ++ rest) = some (writerOverrideFn .none t.toList u.toList, rest) := by
  rw [writerOverride]
  simp only [List.flatMap_cons, List.flatMap_nil, l1 ht hu, l2 ht, l3, l4 hu, l5 hu, l6, l7, List.append_assoc, List.append_nil, List.nil_append]
  rfl

theorem writerOverride_optionalValue {t u : String} (ht : Plain t) (hu : Plain u) (rest : List Tok) :
    pFn 100 ((writerOverride .optionalValue t u).flatMap lineTokens ++ rest) = some (writerOverrideFn .optionalValue t.toList u.toList, rest) := by
  rw [writerOverride]
  simp only [List.flatMap_cons, List.flatMap_nil, l8 ht hu, l9 ht, l3, l10 hu, l11, l12, l13 hu, l6, l7, List.append_assoc, List.append_nil, List.nil_append]
  rfl

theorem writerOverride_vector {t u : String} (ht : Plain t) (hu : Plain u) (rest : List Tok) :
    pFn 100 ((writerOverride .vector t u).flatMap lineTokens ++ rest) = some (writerOverrideFn .vector t.toList u.toList, rest) := by
  rw [writerOverride]
  simp only [List.flatMap_cons, List.flatMap_nil, l14 ht hu, l15 ht, l3, l16 hu, l17, l18, l19 hu, l6, l7, List.append_assoc, List.append_nil, List.nil_append]
  rfl

theorem writerOverride_optionalVector {t u : String} (ht : Plain t) (hu : Plain u) (rest : List Tok) :
    pFn 100 ((writerOverride .optionalVector t u).flatMap lineTokens ++ rest) = some (writerOverrideFn .optionalVector t.toList u.toList, rest) := by
  rw [writerOverride]
  simp only [List.flatMap_cons, List.flatMap_nil, l20 ht hu, l21 ht, l3, l22 hu, l11, l23, l24, l25, l26, l27, l28 hu, l6, l7, List.append_assoc, List.append_nil, List.nil_append]
  rfl

theorem writerOverride_idxVector {t u : String} (ht : Plain t) (hu : Plain u) (rest : List Tok) :
    pFn 100 ((writerOverride .idxVector t u).flatMap lineTokens ++ rest) = some (writerOverrideFn .idxVector t.toList u.toList, rest) := by
  rw [writerOverride]
  simp only [List.flatMap_cons, List.flatMap_nil, l29 ht hu, l30 ht, l3, l31 hu, l32, l33, l34, l35, l36 hu, l6, l7, List.append_assoc, List.append_nil, List.nil_append]
  rfl

theorem writerOverride_optionalIdxVector {t u : String} (ht : Plain t) (hu : Plain u) (rest : List Tok) :
    pFn 100 ((writerOverride .optionalIdxVector t u).flatMap lineTokens ++ rest) = some (writerOverrideFn .optionalIdxVector t.toList u.toList, rest) := by
  rw [writerOverride]
  simp only [List.flatMap_cons, List.flatMap_nil, l37 ht hu, l38 ht, l3, l39 hu, l11, l23, l24, l40, l25, l41, l26, l27, l42 hu, l6, l7, List.append_assoc, List.append_nil, List.nil_append]
  rfl

/-- The bodies of `writerDirect`. -/
def writerDirectBody : Container → Name → Name → List Stmt
  | .none, b, t =>
    [.simple (.ret (.single (vt b) t (.addr ⟨src, .self⟩)))]
  | .optionalValue, b, t =>
    [.simple (.declPtr (.none, t) psrc src ⟨src, .value⟩), .simple (.ret (.single (vt b) t (.var psrc)))]
  | .vector, b, t =>
    [.simple (.ret (.array (avt b) t (.addr ⟨src, .self⟩) .null))]
  | .optionalVector, b, t =>
    [.simple (.declPtr (.vector, t) psrc src ⟨src, .values⟩), .simple (.ret (.array (avt b) t (.var psrc) .null))]
  | .idxVector, b, t =>
    [.simple (.ret (.array (avt b) t (.addr ⟨src, .values⟩) (.addr ⟨src, .index⟩)))]
  | .optionalIdxVector, b, t =>
    [.simple (.declPtr (.vector, t) pvalues src ⟨src, .values⟩), .simple (.declPtr (.vector, "i32".toList) pindex src ⟨src, .index⟩),
      .simple (.ret (.array (avt b) t (.var pvalues) (.var pindex)))]

/-- The specialisations of `writerDirect`. -/
def writerDirectFn (c : Container) (b t : Name) : Fn := ⟨true, (c, t), (c, t), src, writerDirectBody c b t⟩

theorem writerDirect_none {b t : String} (hb : Plain b) (ht : Plain t) (rest : List Tok) :
    pFn 100 ((writerDirect .none b t).flatMap lineTokens ++ rest) = some (writerDirectFn .none b.toList t.toList, rest) := by
  rw [writerDirect]
  simp only [List.flatMap_cons, List.flatMap_nil, l43 hb ht, l2 ht, l3, l44 hb ht, l6, l7, List.append_assoc, List.append_nil, List.nil_append]
  rfl

theorem writerDirect_optionalValue {b t : String} (hb : Plain b) (ht : Plain t) (rest : List Tok) :
    pFn 100 ((writerDirect .optionalValue b t).flatMap lineTokens ++ rest) = some (writerDirectFn .optionalValue b.toList t.toList, rest) := by
  rw [writerDirect]
  simp only [List.flatMap_cons, List.flatMap_nil, l45 hb ht, l9 ht, l3, l46 ht, l47 hb ht, l6, l7, List.append_assoc, List.append_nil, List.nil_append]
  rfl

theorem writerDirect_vector {b t : String} (hb : Plain b) (ht : Plain t) (rest : List Tok) :
    pFn 100 ((writerDirect .vector b t).flatMap lineTokens ++ rest) = some (writerDirectFn .vector b.toList t.toList, rest) := by
  rw [writerDirect]
  simp only [List.flatMap_cons, List.flatMap_nil, l48 hb ht, l15 ht, l3, l49 hb ht, l6, l7, List.append_assoc, List.append_nil, List.nil_append]
  rfl

theorem writerDirect_optionalVector {b t : String} (hb : Plain b) (ht : Plain t) (rest : List Tok) :
    pFn 100 ((writerDirect .optionalVector b t).flatMap lineTokens ++ rest) = some (writerDirectFn .optionalVector b.toList t.toList, rest) := by
  rw [writerDirect]
  simp only [List.flatMap_cons, List.flatMap_nil, l50 hb ht, l21 ht, l3, l51 ht, l52 hb ht, l6, l7, List.append_assoc, List.append_nil, List.nil_append]
  rfl

theorem writerDirect_idxVector {b t : String} (hb : Plain b) (ht : Plain t) (rest : List Tok) :
    pFn 100 ((writerDirect .idxVector b t).flatMap lineTokens ++ rest) = some (writerDirectFn .idxVector b.toList t.toList, rest) := by
  rw [writerDirect]
  simp only [List.flatMap_cons, List.flatMap_nil, l53 hb ht, l30 ht, l3, l54 hb ht, l6, l7, List.append_assoc, List.append_nil, List.nil_append]
  rfl

theorem writerDirect_optionalIdxVector {b t : String} (hb : Plain b) (ht : Plain t) (rest : List Tok) :
    pFn 100 ((writerDirect .optionalIdxVector b t).flatMap lineTokens ++ rest) = some (writerDirectFn .optionalIdxVector b.toList t.toList, rest) := by
  rw [writerDirect]
  simp only [List.flatMap_cons, List.flatMap_nil, l55 hb ht, l38 ht, l3, l56 ht, l57, l58 hb ht, l6, l7, List.append_assoc, List.append_nil, List.nil_append]
  rfl

/-- The bodies of `readerOverride`. -/
def readerOverrideBody : Container → Name → Name → List Stmt
  | .none, t, u =>
    [.simple (.decl (.none, u) tmp), .cond (.notRead (.none, u) tmp) [.ret .false_] [], .simple (.convert dst t tmp), .simple (.ret .true_)]
  | .optionalValue, t, u =>
    [.simple (.decl (.optionalValue, u) tmp), .cond (.notRead (.optionalValue, u) tmp) [.ret .false_] [],
      .cond (.has tmp) [.setTo dst ⟨tmp, .value⟩] [.reset dst], .simple (.ret .true_)]
  | .vector, t, u =>
    [.simple (.decl (.vector, u) tmp), .cond (.notRead (.vector, u) tmp) [.ret .false_] [], .simple (.reserve ⟨dst, .self⟩ ⟨tmp, .self⟩),
      .simple (.loop ii ii ii ii ⟨tmp, .self⟩ ⟨dst, .self⟩ ⟨tmp, .self⟩ t), .simple (.ret .true_)]
  | .optionalVector, t, u =>
    [.simple (.decl (.optionalVector, u) tmp), .cond (.notRead (.optionalVector, u) tmp) [.ret .false_] [],
      .cond (.has tmp) [.set dst, .reserve ⟨dst, .values⟩ ⟨tmp, .values⟩, .loop ii ii ii ii ⟨tmp, .values⟩ ⟨dst, .values⟩ ⟨tmp, .values⟩ t] [.reset dst],
      .simple (.ret .true_)]
  | .idxVector, t, u =>
    [.simple (.decl (.idxVector, u) tmp), .cond (.notRead (.idxVector, u) tmp) [.ret .false_] [], .simple (.move ⟨dst, .index⟩ ⟨tmp, .index⟩),
      .simple (.reserve ⟨dst, .values⟩ ⟨tmp, .values⟩), .simple (.loop ii ii ii ii ⟨tmp, .values⟩ ⟨dst, .values⟩ ⟨tmp, .values⟩ t), .simple (.ret .true_)]
  | .optionalIdxVector, t, u =>
    [.simple (.decl (.optionalIdxVector, u) tmp), .cond (.notRead (.optionalIdxVector, u) tmp) [.ret .false_] [],
      .cond (.has tmp) [.set dst, .move ⟨dst, .index⟩ ⟨tmp, .index⟩, .reserve ⟨dst, .values⟩ ⟨tmp, .values⟩,
        .loop ii ii ii ii ⟨tmp, .values⟩ ⟨dst, .values⟩ ⟨tmp, .values⟩ t] [.reset dst],
      .simple (.ret .true_)]

/-- The specialisations of `readerOverride`. -/
def readerOverrideFn (c : Container) (t u : Name) : Fn := ⟨false, (c, t), (c, t), dst, readerOverrideBody c t u⟩

theorem readerOverride_none {t u : String} (ht : Plain t) (hu : Plain u) (rest : List Tok) :
    pFn 100 ((readerOverride .none t u).flatMap lineTokens ++ rest) = some (readerOverrideFn .none t.toList u.toList, rest) := by
  rw [readerOverride]
  simp only [List.flatMap_cons, List.flatMap_nil, l59 ht hu, l60 ht, l3, l61 hu, l62 hu, l63, l7, l64 ht, l65, l6, List.append_assoc, List.append_nil, List.nil_append]
  rfl

theorem readerOverride_optionalValue {t u : String} (ht : Plain t) (hu : Plain u) (rest : List Tok) :
    pFn 100 ((readerOverride .optionalValue t u).flatMap lineTokens ++ rest) = some (readerOverrideFn .optionalValue t.toList u.toList, rest) := by
  rw [readerOverride]
  simp only [List.flatMap_cons, List.flatMap_nil, l66 ht hu, l67 ht, l3, l10 hu, l68 hu, l63, l7, l69, l70, l71, l72, l65, l6, List.append_assoc, List.append_nil, List.nil_append]
  rfl

theorem readerOverride_vector {t u : String} (ht : Plain t) (hu : Plain u) (rest : List Tok) :
    pFn 100 ((readerOverride .vector t u).flatMap lineTokens ++ rest) = some (readerOverrideFn .vector t.toList u.toList, rest) := by
  rw [readerOverride]
  simp only [List.flatMap_cons, List.flatMap_nil, l73 ht hu, l74 ht, l3, l16 hu, l75 hu, l63, l7, l76, l77, l78, l79 ht, l65, l6, List.append_assoc, List.append_nil, List.nil_append]
  rfl

theorem readerOverride_optionalVector {t u : String} (ht : Plain t) (hu : Plain u) (rest : List Tok) :
    pFn 100 ((readerOverride .optionalVector t u).flatMap lineTokens ++ rest) = some (readerOverrideFn .optionalVector t.toList u.toList, rest) := by
  rw [readerOverride]
  simp only [List.flatMap_cons, List.flatMap_nil, l80 ht hu, l81 ht, l3, l22 hu, l82 hu, l63, l7, l69, l23, l83, l84, l85, l86, l87 ht, l27, l71, l72, l65, l6, List.append_assoc, List.append_nil, List.nil_append]
  rfl

theorem readerOverride_idxVector {t u : String} (ht : Plain t) (hu : Plain u) (rest : List Tok) :
    pFn 100 ((readerOverride .idxVector t u).flatMap lineTokens ++ rest) = some (readerOverrideFn .idxVector t.toList u.toList, rest) := by
  rw [readerOverride]
  simp only [List.flatMap_cons, List.flatMap_nil, l88 ht hu, l89 ht, l3, l31 hu, l90 hu, l63, l7, l91, l92, l76, l93, l94, l95 ht, l65, l6, List.append_assoc, List.append_nil, List.nil_append]
  rfl

theorem readerOverride_optionalIdxVector {t u : String} (ht : Plain t) (hu : Plain u) (rest : List Tok) :
    pFn 100 ((readerOverride .optionalIdxVector t u).flatMap lineTokens ++ rest) = some (readerOverrideFn .optionalIdxVector t.toList u.toList, rest) := by
  rw [readerOverride]
  simp only [List.flatMap_cons, List.flatMap_nil, l96 ht hu, l97 ht, l3, l39 hu, l98 hu, l63, l7, l69, l23, l83, l99, l100, l84, l85, l86, l87 ht, l27, l71, l72, l65, l6, List.append_assoc, List.append_nil, List.nil_append]
  rfl

/-- The bodies of `readerDirect`. -/
def readerDirectBody : Container → Name → Name → List Stmt
  | .none, b, t =>
    [.simple (.single (vt b) t false (.addr ⟨dst, .self⟩)), .simple (.ret .notFail)]
  | .optionalValue, b, t =>
    [.simple (.set dst), .simple (.single (vt b) t true (.addr ⟨dst, .value⟩)), .cond .isEmpty [.reset dst] [], .simple (.ret .notFail)]
  | .vector, b, t =>
    [.simple (.array (avt b) t false (.addr ⟨dst, .self⟩) .null), .simple (.ret .notFail)]
  | .optionalVector, b, t =>
    [.simple (.set dst), .simple (.array (avt b) t true (.addr ⟨dst, .values⟩) .null), .cond .isEmpty [.reset dst] [], .simple (.ret .notFail)]
  | .idxVector, b, t =>
    [.simple (.array (avt b) t false (.addr ⟨dst, .values⟩) (.addr ⟨dst, .index⟩)), .simple (.ret .notFail)]
  | .optionalIdxVector, b, t =>
    [.simple (.set dst), .simple (.array (avt b) t true (.addr ⟨dst, .values⟩) (.addr ⟨dst, .index⟩)), .cond .isEmpty [.reset dst] [], .simple (.ret .notFail)]

/-- The specialisations of `readerDirect`. -/
def readerDirectFn (c : Container) (b t : Name) : Fn := ⟨false, (c, t), (c, t), dst, readerDirectBody c b t⟩

theorem readerDirect_none {b t : String} (hb : Plain b) (ht : Plain t) (rest : List Tok) :
    pFn 100 ((readerDirect .none b t).flatMap lineTokens ++ rest) = some (readerDirectFn .none b.toList t.toList, rest) := by
  rw [readerDirect]
  simp only [List.flatMap_cons, List.flatMap_nil, l43 hb ht, l60 ht, l3, l101 hb ht, l102, l6, l7, List.append_assoc, List.append_nil, List.nil_append]
  rfl

theorem readerDirect_optionalValue {b t : String} (hb : Plain b) (ht : Plain t) (rest : List Tok) :
    pFn 100 ((readerDirect .optionalValue b t).flatMap lineTokens ++ rest) = some (readerDirectFn .optionalValue b.toList t.toList, rest) := by
  rw [readerDirect]
  simp only [List.flatMap_cons, List.flatMap_nil, l45 hb ht, l67 ht, l3, l103, l104 hb ht, l105, l72, l102, l6, l7, List.append_assoc, List.append_nil, List.nil_append]
  rfl

theorem readerDirect_vector {b t : String} (hb : Plain b) (ht : Plain t) (rest : List Tok) :
    pFn 100 ((readerDirect .vector b t).flatMap lineTokens ++ rest) = some (readerDirectFn .vector b.toList t.toList, rest) := by
  rw [readerDirect]
  simp only [List.flatMap_cons, List.flatMap_nil, l106 hb ht, l74 ht, l3, l107 hb ht, l102, l6, l7, List.append_assoc, List.append_nil, List.nil_append]
  rfl

theorem readerDirect_optionalVector {b t : String} (hb : Plain b) (ht : Plain t) (rest : List Tok) :
    pFn 100 ((readerDirect .optionalVector b t).flatMap lineTokens ++ rest) = some (readerDirectFn .optionalVector b.toList t.toList, rest) := by
  rw [readerDirect]
  simp only [List.flatMap_cons, List.flatMap_nil, l108 hb ht, l81 ht, l3, l103, l109 hb ht, l105, l72, l102, l6, l7, List.append_assoc, List.append_nil, List.nil_append]
  rfl

theorem readerDirect_idxVector {b t : String} (hb : Plain b) (ht : Plain t) (rest : List Tok) :
    pFn 100 ((readerDirect .idxVector b t).flatMap lineTokens ++ rest) = some (readerDirectFn .idxVector b.toList t.toList, rest) := by
  rw [readerDirect]
  simp only [List.flatMap_cons, List.flatMap_nil, l110 hb ht, l89 ht, l3, l111 hb ht, l102, l6, l7, List.append_assoc, List.append_nil, List.nil_append]
  rfl

theorem readerDirect_optionalIdxVector {b t : String} (hb : Plain b) (ht : Plain t) (rest : List Tok) :
    pFn 100 ((readerDirect .optionalIdxVector b t).flatMap lineTokens ++ rest) = some (readerDirectFn .optionalIdxVector b.toList t.toList, rest) := by
  rw [readerDirect]
  simp only [List.flatMap_cons, List.flatMap_nil, l112 hb ht, l97 ht, l3, l103, l113 hb ht, l105, l72, l102, l6, l7, List.append_assoc, List.append_nil, List.nil_append]
  rfl

end ISD.Over
