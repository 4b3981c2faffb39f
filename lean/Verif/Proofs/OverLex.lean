import Verif.Proofs.CppLex
import Verif.Spec.Overloads

/-!
# The tokens of the lines of the overloads
-/

namespace ISD.Over

open Cpp (St)

set_option maxRecDepth 20000

theorem run_append (s : St) (a b : List Char) :
    Cpp.run s (a ++ b) = ((Cpp.run (Cpp.run s a).1 b).1, (Cpp.run s a).2 ++ (Cpp.run (Cpp.run s a).1 b).2) := by
  induction a generalizing s with
  | nil => rfl
  | cons c a ih => simp only [List.cons_append, Cpp.run, ih, List.append_assoc]

/-- The tokens of a line. -/
def lineTokens (l : String) : List Tok := tokens (l.toList ++ ['\n'])

theorem Plain.run {n : String} (h : Plain n) (s : St) : Cpp.run s n.toList = (s.add n.toList, s.emit) :=
  Cpp.run_name s h.nonempty h.chars

theorem l1 {t u : String} (ht : Plain t) (hu : Plain u) : lineTokens ("\t// " ++ t ++ ": using " ++ u ++ " to store") =
    [] := by
  simp only [lineTokens, tokens, String.toList_append, run_append, ht.run, hu.run]
  rfl

theorem l2 {t : String} (ht : Plain t) : lineTokens ("\ttemplate <> bool EntityWriter::Write<" ++ t ++ ">( const char *key, const u8 key_length, const " ++ t ++ " &src_variable )") =
    [.template_, .lt, .gt, kw "bool", .entityWriter, .colon, .colon, .write, .lt, .id t.toList, .gt, .lpar, .const_, kw "char", .star, kw "key", .comma, .const_, kw "u8", kw "key_length", .comma, .const_, .id t.toList, .amp, kw "src_variable", .rpar] := by
  rw [← ht.word]
  simp only [lineTokens, tokens, String.toList_append, run_append, ht.run]
  rfl

theorem l3 : lineTokens "\t\t{" = [.lbrace] := by decide +kernel

theorem l4 {u : String} (hu : Plain u) : lineTokens ("\t\tconst " ++ u ++ " tmp_variable = src_variable;") =
    [.const_, .id u.toList, kw "tmp_variable", .assign, kw "src_variable", .semi] := by
  rw [← hu.word]
  simp only [lineTokens, tokens, String.toList_append, run_append, hu.run]
  rfl

theorem l5 {u : String} (hu : Plain u) : lineTokens ("\t\treturn this->Write<" ++ u ++ ">( key, key_length, tmp_variable );") =
    [.return_, .this_, .minus, .gt, .write, .lt, .id u.toList, .gt, .lpar, kw "key", .comma, kw "key_length", .comma, kw "tmp_variable", .rpar, .semi] := by
  rw [← hu.word]
  simp only [lineTokens, tokens, String.toList_append, run_append, hu.run]
  rfl

theorem l6 : lineTokens "\t\t}" = [.rbrace] := by decide +kernel

theorem l7 : lineTokens "" = [] := by decide +kernel

theorem l8 {t u : String} (ht : Plain t) (hu : Plain u) : lineTokens ("\t// " ++ t ++ ": using optional_value<" ++ u ++ "> to store") =
    [] := by
  simp only [lineTokens, tokens, String.toList_append, run_append, ht.run, hu.run]
  rfl

theorem l9 {t : String} (ht : Plain t) : lineTokens ("\ttemplate <> bool EntityWriter::Write<optional_value<" ++ t ++ ">>( const char *key, const u8 key_length, const optional_value<" ++ t ++ "> &src_variable )") =
    [.template_, .lt, .gt, kw "bool", .entityWriter, .colon, .colon, .write, .lt, .optionalValue, .lt, .id t.toList, .gt, .gt, .lpar, .const_, kw "char", .star, kw "key", .comma, .const_, kw "u8", kw "key_length", .comma, .const_, .optionalValue, .lt, .id t.toList, .gt, .amp, kw "src_variable", .rpar] := by
  rw [← ht.word]
  simp only [lineTokens, tokens, String.toList_append, run_append, ht.run]
  rfl

theorem l10 {u : String} (hu : Plain u) : lineTokens ("\t\toptional_value<" ++ u ++ "> tmp_variable;") =
    [.optionalValue, .lt, .id u.toList, .gt, kw "tmp_variable", .semi] := by
  rw [← hu.word]
  simp only [lineTokens, tokens, String.toList_append, run_append, hu.run]
  rfl

theorem l11 : lineTokens "\t\tif( src_variable.has_value() )" = [.if_, .lpar, kw "src_variable", .dot, .hasValue, .lpar, .rpar, .rpar] := by decide +kernel

theorem l12 : lineTokens "\t\t    tmp_variable.set( src_variable.value() );" = [kw "tmp_variable", .dot, .set, .lpar, kw "src_variable", .dot, .value, .lpar, .rpar, .rpar, .semi] := by decide +kernel

theorem l13 {u : String} (hu : Plain u) : lineTokens ("\t\treturn this->Write<optional_value<" ++ u ++ ">>( key, key_length, tmp_variable );") =
    [.return_, .this_, .minus, .gt, .write, .lt, .optionalValue, .lt, .id u.toList, .gt, .gt, .lpar, kw "key", .comma, kw "key_length", .comma, kw "tmp_variable", .rpar, .semi] := by
  rw [← hu.word]
  simp only [lineTokens, tokens, String.toList_append, run_append, hu.run]
  rfl

theorem l14 {t u : String} (ht : Plain t) (hu : Plain u) : lineTokens ("\t// " ++ t ++ ": using std::vector<" ++ u ++ "> to store") =
    [] := by
  simp only [lineTokens, tokens, String.toList_append, run_append, ht.run, hu.run]
  rfl

theorem l15 {t : String} (ht : Plain t) : lineTokens ("\ttemplate <> bool EntityWriter::Write<std::vector<" ++ t ++ ">>( const char *key, const u8 key_length, const std::vector<" ++ t ++ "> &src_variable )") =
    [.template_, .lt, .gt, kw "bool", .entityWriter, .colon, .colon, .write, .lt, .std_, .colon, .colon, .vector, .lt, .id t.toList, .gt, .gt, .lpar, .const_, kw "char", .star, kw "key", .comma, .const_, kw "u8", kw "key_length", .comma, .const_, .std_, .colon, .colon, .vector, .lt, .id t.toList, .gt, .amp, kw "src_variable", .rpar] := by
  rw [← ht.word]
  simp only [lineTokens, tokens, String.toList_append, run_append, ht.run]
  rfl

theorem l16 {u : String} (hu : Plain u) : lineTokens ("\t\tstd::vector<" ++ u ++ "> tmp_variable;") =
    [.std_, .colon, .colon, .vector, .lt, .id u.toList, .gt, kw "tmp_variable", .semi] := by
  rw [← hu.word]
  simp only [lineTokens, tokens, String.toList_append, run_append, hu.run]
  rfl

theorem l17 : lineTokens "\t\ttmp_variable.reserve( src_variable.size() );" = [kw "tmp_variable", .dot, .reserve, .lpar, kw "src_variable", .dot, .size, .lpar, .rpar, .rpar, .semi] := by decide +kernel

theorem l18 : lineTokens "\t\tstd::copy( src_variable.begin(), src_variable.end(), std::back_inserter(tmp_variable) );" = [.std_, .colon, .colon, .copy, .lpar, kw "src_variable", .dot, .begin_, .lpar, .rpar, .comma, kw "src_variable", .dot, .end_, .lpar, .rpar, .comma, .std_, .colon, .colon, .backInserter, .lpar, kw "tmp_variable", .rpar, .rpar, .semi] := by decide +kernel

theorem l19 {u : String} (hu : Plain u) : lineTokens ("\t\treturn this->Write<std::vector<" ++ u ++ ">>( key, key_length, tmp_variable );") =
    [.return_, .this_, .minus, .gt, .write, .lt, .std_, .colon, .colon, .vector, .lt, .id u.toList, .gt, .gt, .lpar, kw "key", .comma, kw "key_length", .comma, kw "tmp_variable", .rpar, .semi] := by
  rw [← hu.word]
  simp only [lineTokens, tokens, String.toList_append, run_append, hu.run]
  rfl

theorem l20 {t u : String} (ht : Plain t) (hu : Plain u) : lineTokens ("\t//  " ++ t ++ ": optional_vector<" ++ u ++ "> to store") =
    [] := by
  simp only [lineTokens, tokens, String.toList_append, run_append, ht.run, hu.run]
  rfl

theorem l21 {t : String} (ht : Plain t) : lineTokens ("\ttemplate <> bool EntityWriter::Write<optional_vector<" ++ t ++ ">>( const char *key, const u8 key_length, const optional_vector<" ++ t ++ "> &src_variable )") =
    [.template_, .lt, .gt, kw "bool", .entityWriter, .colon, .colon, .write, .lt, .optionalVector, .lt, .id t.toList, .gt, .gt, .lpar, .const_, kw "char", .star, kw "key", .comma, .const_, kw "u8", kw "key_length", .comma, .const_, .optionalVector, .lt, .id t.toList, .gt, .amp, kw "src_variable", .rpar] := by
  rw [← ht.word]
  simp only [lineTokens, tokens, String.toList_append, run_append, ht.run]
  rfl

theorem l22 {u : String} (hu : Plain u) : lineTokens ("\t\toptional_vector<" ++ u ++ "> tmp_variable;") =
    [.optionalVector, .lt, .id u.toList, .gt, kw "tmp_variable", .semi] := by
  rw [← hu.word]
  simp only [lineTokens, tokens, String.toList_append, run_append, hu.run]
  rfl

theorem l23 : lineTokens "\t\t\t{" = [.lbrace] := by decide +kernel

theorem l24 : lineTokens "\t\t\ttmp_variable.set();" = [kw "tmp_variable", .dot, .set, .lpar, .rpar, .semi] := by decide +kernel

theorem l25 : lineTokens "\t\t\ttmp_variable.values().reserve( src_variable.values().size() );" = [kw "tmp_variable", .dot, .values, .lpar, .rpar, .dot, .reserve, .lpar, kw "src_variable", .dot, .values, .lpar, .rpar, .dot, .size, .lpar, .rpar, .rpar, .semi] := by decide +kernel

theorem l26 : lineTokens "\t\t\tstd::copy( src_variable.values().begin(), src_variable.values().end(), std::back_inserter(tmp_variable.values()) );" = [.std_, .colon, .colon, .copy, .lpar, kw "src_variable", .dot, .values, .lpar, .rpar, .dot, .begin_, .lpar, .rpar, .comma, kw "src_variable", .dot, .values, .lpar, .rpar, .dot, .end_, .lpar, .rpar, .comma, .std_, .colon, .colon, .backInserter, .lpar, kw "tmp_variable", .dot, .values, .lpar, .rpar, .rpar, .rpar, .semi] := by decide +kernel

theorem l27 : lineTokens "\t\t\t}" = [.rbrace] := by decide +kernel

theorem l28 {u : String} (hu : Plain u) : lineTokens ("\t\treturn this->Write<optional_vector<" ++ u ++ ">>( key, key_length, tmp_variable );") =
    [.return_, .this_, .minus, .gt, .write, .lt, .optionalVector, .lt, .id u.toList, .gt, .gt, .lpar, kw "key", .comma, kw "key_length", .comma, kw "tmp_variable", .rpar, .semi] := by
  rw [← hu.word]
  simp only [lineTokens, tokens, String.toList_append, run_append, hu.run]
  rfl

theorem l29 {t u : String} (ht : Plain t) (hu : Plain u) : lineTokens ("\t// " ++ t ++ ": using idx_vector<" ++ u ++ "> to store") =
    [] := by
  simp only [lineTokens, tokens, String.toList_append, run_append, ht.run, hu.run]
  rfl

theorem l30 {t : String} (ht : Plain t) : lineTokens ("\ttemplate <> bool EntityWriter::Write<idx_vector<" ++ t ++ ">>( const char *key, const u8 key_length, const idx_vector<" ++ t ++ "> &src_variable )") =
    [.template_, .lt, .gt, kw "bool", .entityWriter, .colon, .colon, .write, .lt, .idxVector, .lt, .id t.toList, .gt, .gt, .lpar, .const_, kw "char", .star, kw "key", .comma, .const_, kw "u8", kw "key_length", .comma, .const_, .idxVector, .lt, .id t.toList, .gt, .amp, kw "src_variable", .rpar] := by
  rw [← ht.word]
  simp only [lineTokens, tokens, String.toList_append, run_append, ht.run]
  rfl

theorem l31 {u : String} (hu : Plain u) : lineTokens ("\t\tidx_vector<" ++ u ++ "> tmp_variable;") =
    [.idxVector, .lt, .id u.toList, .gt, kw "tmp_variable", .semi] := by
  rw [← hu.word]
  simp only [lineTokens, tokens, String.toList_append, run_append, hu.run]
  rfl

theorem l32 : lineTokens "\t\ttmp_variable.index().reserve( src_variable.index().size() );" = [kw "tmp_variable", .dot, .index, .lpar, .rpar, .dot, .reserve, .lpar, kw "src_variable", .dot, .index, .lpar, .rpar, .dot, .size, .lpar, .rpar, .rpar, .semi] := by decide +kernel

theorem l33 : lineTokens "\t\ttmp_variable.values().reserve( src_variable.values().size() );" = [kw "tmp_variable", .dot, .values, .lpar, .rpar, .dot, .reserve, .lpar, kw "src_variable", .dot, .values, .lpar, .rpar, .dot, .size, .lpar, .rpar, .rpar, .semi] := by decide +kernel

theorem l34 : lineTokens "\t\tstd::copy( src_variable.index().begin(), src_variable.index().end(), std::back_inserter(tmp_variable.index()) );" = [.std_, .colon, .colon, .copy, .lpar, kw "src_variable", .dot, .index, .lpar, .rpar, .dot, .begin_, .lpar, .rpar, .comma, kw "src_variable", .dot, .index, .lpar, .rpar, .dot, .end_, .lpar, .rpar, .comma, .std_, .colon, .colon, .backInserter, .lpar, kw "tmp_variable", .dot, .index, .lpar, .rpar, .rpar, .rpar, .semi] := by decide +kernel

theorem l35 : lineTokens "\t\tstd::copy( src_variable.values().begin(), src_variable.values().end(), std::back_inserter(tmp_variable.values()) );" = [.std_, .colon, .colon, .copy, .lpar, kw "src_variable", .dot, .values, .lpar, .rpar, .dot, .begin_, .lpar, .rpar, .comma, kw "src_variable", .dot, .values, .lpar, .rpar, .dot, .end_, .lpar, .rpar, .comma, .std_, .colon, .colon, .backInserter, .lpar, kw "tmp_variable", .dot, .values, .lpar, .rpar, .rpar, .rpar, .semi] := by decide +kernel

theorem l36 {u : String} (hu : Plain u) : lineTokens ("\t\treturn this->Write<idx_vector<" ++ u ++ ">>( key, key_length, tmp_variable );") =
    [.return_, .this_, .minus, .gt, .write, .lt, .idxVector, .lt, .id u.toList, .gt, .gt, .lpar, kw "key", .comma, kw "key_length", .comma, kw "tmp_variable", .rpar, .semi] := by
  rw [← hu.word]
  simp only [lineTokens, tokens, String.toList_append, run_append, hu.run]
  rfl

theorem l37 {t u : String} (ht : Plain t) (hu : Plain u) : lineTokens ("\t//  " ++ t ++ ": optional_idx_vector<" ++ u ++ "> to store") =
    [] := by
  simp only [lineTokens, tokens, String.toList_append, run_append, ht.run, hu.run]
  rfl

theorem l38 {t : String} (ht : Plain t) : lineTokens ("\ttemplate <> bool EntityWriter::Write<optional_idx_vector<" ++ t ++ ">>( const char *key, const u8 key_length, const optional_idx_vector<" ++ t ++ "> &src_variable )") =
    [.template_, .lt, .gt, kw "bool", .entityWriter, .colon, .colon, .write, .lt, .optionalIdxVector, .lt, .id t.toList, .gt, .gt, .lpar, .const_, kw "char", .star, kw "key", .comma, .const_, kw "u8", kw "key_length", .comma, .const_, .optionalIdxVector, .lt, .id t.toList, .gt, .amp, kw "src_variable", .rpar] := by
  rw [← ht.word]
  simp only [lineTokens, tokens, String.toList_append, run_append, ht.run]
  rfl

theorem l39 {u : String} (hu : Plain u) : lineTokens ("\t\toptional_idx_vector<" ++ u ++ "> tmp_variable;") =
    [.optionalIdxVector, .lt, .id u.toList, .gt, kw "tmp_variable", .semi] := by
  rw [← hu.word]
  simp only [lineTokens, tokens, String.toList_append, run_append, hu.run]
  rfl

theorem l40 : lineTokens "\t\t\ttmp_variable.index().reserve( src_variable.index().size() );" = [kw "tmp_variable", .dot, .index, .lpar, .rpar, .dot, .reserve, .lpar, kw "src_variable", .dot, .index, .lpar, .rpar, .dot, .size, .lpar, .rpar, .rpar, .semi] := by decide +kernel

theorem l41 : lineTokens "\t\t\tstd::copy( src_variable.index().begin(), src_variable.index().end(), std::back_inserter(tmp_variable.index()) );" = [.std_, .colon, .colon, .copy, .lpar, kw "src_variable", .dot, .index, .lpar, .rpar, .dot, .begin_, .lpar, .rpar, .comma, kw "src_variable", .dot, .index, .lpar, .rpar, .dot, .end_, .lpar, .rpar, .comma, .std_, .colon, .colon, .backInserter, .lpar, kw "tmp_variable", .dot, .index, .lpar, .rpar, .rpar, .rpar, .semi] := by decide +kernel

theorem l42 {u : String} (hu : Plain u) : lineTokens ("\t\treturn this->Write<optional_idx_vector<" ++ u ++ ">>( key, key_length, tmp_variable );") =
    [.return_, .this_, .minus, .gt, .write, .lt, .optionalIdxVector, .lt, .id u.toList, .gt, .gt, .lpar, kw "key", .comma, kw "key_length", .comma, kw "tmp_variable", .rpar, .semi] := by
  rw [← hu.word]
  simp only [lineTokens, tokens, String.toList_append, run_append, hu.run]
  rfl

theorem l43 {b t : String} (hb : Plain b) (ht : Plain t) : lineTokens ("\t// VT_" ++ b ++ ": " ++ t) =
    [] := by
  simp only [lineTokens, tokens, String.toList_append, run_append, hb.run, ht.run]
  rfl

theorem l44 {b t : String} (hb : Plain b) (ht : Plain t) : lineTokens ("\t\treturn write_single_value<ValueType::VT_" ++ b ++ "," ++ t ++ ">( this->dstream, key, key_length, &src_variable );") =
    [.return_, .writeSingleValue, .lt, .valueType, .colon, .colon, .id ("VT_".toList ++ b.toList), .comma, .id t.toList, .gt, .lpar, .this_, .minus, .gt, kw "dstream", .comma, kw "key", .comma, kw "key_length", .comma, .amp, kw "src_variable", .rpar, .semi] := by
  rw [← ht.word]
  simp only [lineTokens, tokens, String.toList_append, run_append, hb.run, ht.run]
  rfl

theorem l45 {b t : String} (hb : Plain b) (ht : Plain t) : lineTokens ("\t// VT_" ++ b ++ ": optional_value<" ++ t ++ ">") =
    [] := by
  simp only [lineTokens, tokens, String.toList_append, run_append, hb.run, ht.run]
  rfl

theorem l46 {t : String} (ht : Plain t) : lineTokens ("\t\tconst " ++ t ++ " *p_src_variable = (src_variable.has_value()) ? &(src_variable.value()) : nullptr;") =
    [.const_, .id t.toList, .star, kw "p_src_variable", .assign, .lpar, kw "src_variable", .dot, .hasValue, .lpar, .rpar, .rpar, .quest, .amp, .lpar, kw "src_variable", .dot, .value, .lpar, .rpar, .rpar, .colon, .nullptr_, .semi] := by
  rw [← ht.word]
  simp only [lineTokens, tokens, String.toList_append, run_append, ht.run]
  rfl

theorem l47 {b t : String} (hb : Plain b) (ht : Plain t) : lineTokens ("\t\treturn write_single_value<ValueType::VT_" ++ b ++ "," ++ t ++ ">( this->dstream, key, key_length, p_src_variable );") =
    [.return_, .writeSingleValue, .lt, .valueType, .colon, .colon, .id ("VT_".toList ++ b.toList), .comma, .id t.toList, .gt, .lpar, .this_, .minus, .gt, kw "dstream", .comma, kw "key", .comma, kw "key_length", .comma, kw "p_src_variable", .rpar, .semi] := by
  rw [← ht.word]
  simp only [lineTokens, tokens, String.toList_append, run_append, hb.run, ht.run]
  rfl

theorem l48 {b t : String} (hb : Plain b) (ht : Plain t) : lineTokens ("\t//  VT_Array_" ++ b ++ ": std::vector<" ++ t ++ ">") =
    [] := by
  simp only [lineTokens, tokens, String.toList_append, run_append, hb.run, ht.run]
  rfl

theorem l49 {b t : String} (hb : Plain b) (ht : Plain t) : lineTokens ("\t\treturn write_array<ValueType::VT_Array_" ++ b ++ "," ++ t ++ ">(this->dstream, key, key_length, &src_variable , nullptr );") =
    [.return_, .writeArray, .lt, .valueType, .colon, .colon, .id ("VT_Array_".toList ++ b.toList), .comma, .id t.toList, .gt, .lpar, .this_, .minus, .gt, kw "dstream", .comma, kw "key", .comma, kw "key_length", .comma, .amp, kw "src_variable", .comma, .nullptr_, .rpar, .semi] := by
  rw [← ht.word]
  simp only [lineTokens, tokens, String.toList_append, run_append, hb.run, ht.run]
  rfl

theorem l50 {b t : String} (hb : Plain b) (ht : Plain t) : lineTokens ("\t//  VT_Array_" ++ b ++ ": optional_vector<" ++ t ++ ">") =
    [] := by
  simp only [lineTokens, tokens, String.toList_append, run_append, hb.run, ht.run]
  rfl

theorem l51 {t : String} (ht : Plain t) : lineTokens ("\t\tconst std::vector<" ++ t ++ "> *p_src_variable = (src_variable.has_value()) ? &(src_variable.values()) : nullptr;") =
    [.const_, .std_, .colon, .colon, .vector, .lt, .id t.toList, .gt, .star, kw "p_src_variable", .assign, .lpar, kw "src_variable", .dot, .hasValue, .lpar, .rpar, .rpar, .quest, .amp, .lpar, kw "src_variable", .dot, .values, .lpar, .rpar, .rpar, .colon, .nullptr_, .semi] := by
  rw [← ht.word]
  simp only [lineTokens, tokens, String.toList_append, run_append, ht.run]
  rfl

theorem l52 {b t : String} (hb : Plain b) (ht : Plain t) : lineTokens ("\t\treturn write_array<ValueType::VT_Array_" ++ b ++ "," ++ t ++ ">(this->dstream, key, key_length, p_src_variable , nullptr );") =
    [.return_, .writeArray, .lt, .valueType, .colon, .colon, .id ("VT_Array_".toList ++ b.toList), .comma, .id t.toList, .gt, .lpar, .this_, .minus, .gt, kw "dstream", .comma, kw "key", .comma, kw "key_length", .comma, kw "p_src_variable", .comma, .nullptr_, .rpar, .semi] := by
  rw [← ht.word]
  simp only [lineTokens, tokens, String.toList_append, run_append, hb.run, ht.run]
  rfl

theorem l53 {b t : String} (hb : Plain b) (ht : Plain t) : lineTokens ("\t//  VT_Array_" ++ b ++ ": idx_vector<" ++ t ++ ">") =
    [] := by
  simp only [lineTokens, tokens, String.toList_append, run_append, hb.run, ht.run]
  rfl

theorem l54 {b t : String} (hb : Plain b) (ht : Plain t) : lineTokens ("\t\treturn write_array<ValueType::VT_Array_" ++ b ++ "," ++ t ++ ">(this->dstream, key, key_length, &(src_variable.values()) , &(src_variable.index()) );") =
    [.return_, .writeArray, .lt, .valueType, .colon, .colon, .id ("VT_Array_".toList ++ b.toList), .comma, .id t.toList, .gt, .lpar, .this_, .minus, .gt, kw "dstream", .comma, kw "key", .comma, kw "key_length", .comma, .amp, .lpar, kw "src_variable", .dot, .values, .lpar, .rpar, .rpar, .comma, .amp, .lpar, kw "src_variable", .dot, .index, .lpar, .rpar, .rpar, .rpar, .semi] := by
  rw [← ht.word]
  simp only [lineTokens, tokens, String.toList_append, run_append, hb.run, ht.run]
  rfl

theorem l55 {b t : String} (hb : Plain b) (ht : Plain t) : lineTokens ("\t//  VT_Array_" ++ b ++ ": optional_idx_vector<" ++ t ++ ">") =
    [] := by
  simp only [lineTokens, tokens, String.toList_append, run_append, hb.run, ht.run]
  rfl

theorem l56 {t : String} (ht : Plain t) : lineTokens ("\t\tconst std::vector<" ++ t ++ "> *p_src_values = (src_variable.has_value()) ? &(src_variable.values()) : nullptr;") =
    [.const_, .std_, .colon, .colon, .vector, .lt, .id t.toList, .gt, .star, kw "p_src_values", .assign, .lpar, kw "src_variable", .dot, .hasValue, .lpar, .rpar, .rpar, .quest, .amp, .lpar, kw "src_variable", .dot, .values, .lpar, .rpar, .rpar, .colon, .nullptr_, .semi] := by
  rw [← ht.word]
  simp only [lineTokens, tokens, String.toList_append, run_append, ht.run]
  rfl

theorem l57 : lineTokens "\t\tconst std::vector<i32> *p_src_index = (src_variable.has_value()) ? &(src_variable.index()) : nullptr;" = [.const_, .std_, .colon, .colon, .vector, .lt, kw "i32", .gt, .star, kw "p_src_index", .assign, .lpar, kw "src_variable", .dot, .hasValue, .lpar, .rpar, .rpar, .quest, .amp, .lpar, kw "src_variable", .dot, .index, .lpar, .rpar, .rpar, .colon, .nullptr_, .semi] := by decide +kernel

theorem l58 {b t : String} (hb : Plain b) (ht : Plain t) : lineTokens ("\t\treturn write_array<ValueType::VT_Array_" ++ b ++ "," ++ t ++ ">(this->dstream, key, key_length, p_src_values , p_src_index );") =
    [.return_, .writeArray, .lt, .valueType, .colon, .colon, .id ("VT_Array_".toList ++ b.toList), .comma, .id t.toList, .gt, .lpar, .this_, .minus, .gt, kw "dstream", .comma, kw "key", .comma, kw "key_length", .comma, kw "p_src_values", .comma, kw "p_src_index", .rpar, .semi] := by
  rw [← ht.word]
  simp only [lineTokens, tokens, String.toList_append, run_append, hb.run, ht.run]
  rfl

theorem l59 {t u : String} (ht : Plain t) (hu : Plain u) : lineTokens ("\t// " ++ t ++ ": using " ++ u ++ " to read") =
    [] := by
  simp only [lineTokens, tokens, String.toList_append, run_append, ht.run, hu.run]
  rfl

theorem l60 {t : String} (ht : Plain t) : lineTokens ("\ttemplate <> bool EntityReader::Read<" ++ t ++ ">( const char *key, const u8 key_length, " ++ t ++ " &dest_variable )") =
    [.template_, .lt, .gt, kw "bool", .entityReader, .colon, .colon, .read, .lt, .id t.toList, .gt, .lpar, .const_, kw "char", .star, kw "key", .comma, .const_, kw "u8", kw "key_length", .comma, .id t.toList, .amp, kw "dest_variable", .rpar] := by
  rw [← ht.word]
  simp only [lineTokens, tokens, String.toList_append, run_append, ht.run]
  rfl

theorem l61 {u : String} (hu : Plain u) : lineTokens ("\t\t" ++ u ++ " tmp_variable;") =
    [.id u.toList, kw "tmp_variable", .semi] := by
  rw [← hu.word]
  simp only [lineTokens, tokens, String.toList_append, run_append, hu.run]
  rfl

theorem l62 {u : String} (hu : Plain u) : lineTokens ("\t\tif( !this->Read<" ++ u ++ ">( key, key_length , tmp_variable ) )") =
    [.if_, .lpar, .bang, .this_, .minus, .gt, .read, .lt, .id u.toList, .gt, .lpar, kw "key", .comma, kw "key_length", .comma, kw "tmp_variable", .rpar, .rpar] := by
  rw [← hu.word]
  simp only [lineTokens, tokens, String.toList_append, run_append, hu.run]
  rfl

theorem l63 : lineTokens "\t\t\treturn false;" = [.return_, .false_, .semi] := by decide +kernel

theorem l64 {t : String} (ht : Plain t) : lineTokens ("\t\tdest_variable = " ++ t ++ "( tmp_variable );") =
    [kw "dest_variable", .assign, .id t.toList, .lpar, kw "tmp_variable", .rpar, .semi] := by
  rw [← ht.word]
  simp only [lineTokens, tokens, String.toList_append, run_append, ht.run]
  rfl

theorem l65 : lineTokens "\t\treturn true;" = [.return_, .true_, .semi] := by decide +kernel

theorem l66 {t u : String} (ht : Plain t) (hu : Plain u) : lineTokens ("\t// " ++ t ++ ": using optional_value<" ++ u ++ "> to read") =
    [] := by
  simp only [lineTokens, tokens, String.toList_append, run_append, ht.run, hu.run]
  rfl

theorem l67 {t : String} (ht : Plain t) : lineTokens ("\ttemplate <> bool EntityReader::Read<optional_value<" ++ t ++ ">>( const char *key, const u8 key_length, optional_value<" ++ t ++ "> &dest_variable )") =
    [.template_, .lt, .gt, kw "bool", .entityReader, .colon, .colon, .read, .lt, .optionalValue, .lt, .id t.toList, .gt, .gt, .lpar, .const_, kw "char", .star, kw "key", .comma, .const_, kw "u8", kw "key_length", .comma, .optionalValue, .lt, .id t.toList, .gt, .amp, kw "dest_variable", .rpar] := by
  rw [← ht.word]
  simp only [lineTokens, tokens, String.toList_append, run_append, ht.run]
  rfl

theorem l68 {u : String} (hu : Plain u) : lineTokens ("\t\tif( !this->Read<optional_value<" ++ u ++ ">>( key, key_length , tmp_variable ) )") =
    [.if_, .lpar, .bang, .this_, .minus, .gt, .read, .lt, .optionalValue, .lt, .id u.toList, .gt, .gt, .lpar, kw "key", .comma, kw "key_length", .comma, kw "tmp_variable", .rpar, .rpar] := by
  rw [← hu.word]
  simp only [lineTokens, tokens, String.toList_append, run_append, hu.run]
  rfl

theorem l69 : lineTokens "\t\tif( tmp_variable.has_value() )" = [.if_, .lpar, kw "tmp_variable", .dot, .hasValue, .lpar, .rpar, .rpar] := by decide +kernel

theorem l70 : lineTokens "\t\t\tdest_variable.set( tmp_variable.value() );" = [kw "dest_variable", .dot, .set, .lpar, kw "tmp_variable", .dot, .value, .lpar, .rpar, .rpar, .semi] := by decide +kernel

theorem l71 : lineTokens "\t\telse" = [.else_] := by decide +kernel

theorem l72 : lineTokens "\t\t\tdest_variable.reset();" = [kw "dest_variable", .dot, .reset, .lpar, .rpar, .semi] := by decide +kernel

theorem l73 {t u : String} (ht : Plain t) (hu : Plain u) : lineTokens ("\t// " ++ t ++ ": using std::vector<" ++ u ++ "> to read") =
    [] := by
  simp only [lineTokens, tokens, String.toList_append, run_append, ht.run, hu.run]
  rfl

theorem l74 {t : String} (ht : Plain t) : lineTokens ("\ttemplate <> bool EntityReader::Read<std::vector<" ++ t ++ ">>( const char *key, const u8 key_length, std::vector<" ++ t ++ "> &dest_variable )") =
    [.template_, .lt, .gt, kw "bool", .entityReader, .colon, .colon, .read, .lt, .std_, .colon, .colon, .vector, .lt, .id t.toList, .gt, .gt, .lpar, .const_, kw "char", .star, kw "key", .comma, .const_, kw "u8", kw "key_length", .comma, .std_, .colon, .colon, .vector, .lt, .id t.toList, .gt, .amp, kw "dest_variable", .rpar] := by
  rw [← ht.word]
  simp only [lineTokens, tokens, String.toList_append, run_append, ht.run]
  rfl

theorem l75 {u : String} (hu : Plain u) : lineTokens ("\t\tif( !this->Read<std::vector<" ++ u ++ ">>( key, key_length , tmp_variable ) )") =
    [.if_, .lpar, .bang, .this_, .minus, .gt, .read, .lt, .std_, .colon, .colon, .vector, .lt, .id u.toList, .gt, .gt, .lpar, kw "key", .comma, kw "key_length", .comma, kw "tmp_variable", .rpar, .rpar] := by
  rw [← hu.word]
  simp only [lineTokens, tokens, String.toList_append, run_append, hu.run]
  rfl

theorem l76 : lineTokens "\t\t// copy values. use explicit ctor and emplace, since some objects have private conversion ctors" = [] := by decide +kernel

theorem l77 : lineTokens "\t\tdest_variable.reserve( tmp_variable.size() );" = [kw "dest_variable", .dot, .reserve, .lpar, kw "tmp_variable", .dot, .size, .lpar, .rpar, .rpar, .semi] := by decide +kernel

theorem l78 : lineTokens "\t\tfor( size_t i = 0; i < tmp_variable.size(); ++i )" = [.for_, .lpar, kw "size_t", kw "i", .assign, kw "0", .semi, kw "i", .lt, kw "tmp_variable", .dot, .size, .lpar, .rpar, .semi, .plus, .plus, kw "i", .rpar] := by decide +kernel

theorem l79 {t : String} (ht : Plain t) : lineTokens ("\t\t\tdest_variable.emplace_back( " ++ t ++ "(tmp_variable[i]) );") =
    [kw "dest_variable", .dot, .emplaceBack, .lpar, .id t.toList, .lpar, kw "tmp_variable", .lbrack, kw "i", .rbrack, .rpar, .rpar, .semi] := by
  rw [← ht.word]
  simp only [lineTokens, tokens, String.toList_append, run_append, ht.run]
  rfl

theorem l80 {t u : String} (ht : Plain t) (hu : Plain u) : lineTokens ("\t//  " ++ t ++ ": optional_vector<" ++ u ++ "> to read") =
    [] := by
  simp only [lineTokens, tokens, String.toList_append, run_append, ht.run, hu.run]
  rfl

theorem l81 {t : String} (ht : Plain t) : lineTokens ("\ttemplate <> bool EntityReader::Read<optional_vector<" ++ t ++ ">>( const char *key, const u8 key_length, optional_vector<" ++ t ++ "> &dest_variable )") =
    [.template_, .lt, .gt, kw "bool", .entityReader, .colon, .colon, .read, .lt, .optionalVector, .lt, .id t.toList, .gt, .gt, .lpar, .const_, kw "char", .star, kw "key", .comma, .const_, kw "u8", kw "key_length", .comma, .optionalVector, .lt, .id t.toList, .gt, .amp, kw "dest_variable", .rpar] := by
  rw [← ht.word]
  simp only [lineTokens, tokens, String.toList_append, run_append, ht.run]
  rfl

theorem l82 {u : String} (hu : Plain u) : lineTokens ("\t\tif( !this->Read<optional_vector<" ++ u ++ ">>( key, key_length , tmp_variable ) )") =
    [.if_, .lpar, .bang, .this_, .minus, .gt, .read, .lt, .optionalVector, .lt, .id u.toList, .gt, .gt, .lpar, kw "key", .comma, kw "key_length", .comma, kw "tmp_variable", .rpar, .rpar] := by
  rw [← hu.word]
  simp only [lineTokens, tokens, String.toList_append, run_append, hu.run]
  rfl

theorem l83 : lineTokens "\t\t\tdest_variable.set();" = [kw "dest_variable", .dot, .set, .lpar, .rpar, .semi] := by decide +kernel

theorem l84 : lineTokens "\t\t\t// copy values. use explicit ctor and emplace, since some objects have private conversion ctors" = [] := by decide +kernel

theorem l85 : lineTokens "\t\t\tdest_variable.values().reserve( tmp_variable.values().size() );" = [kw "dest_variable", .dot, .values, .lpar, .rpar, .dot, .reserve, .lpar, kw "tmp_variable", .dot, .values, .lpar, .rpar, .dot, .size, .lpar, .rpar, .rpar, .semi] := by decide +kernel

theorem l86 : lineTokens "\t\t\tfor( size_t i = 0; i < tmp_variable.values().size(); ++i )" = [.for_, .lpar, kw "size_t", kw "i", .assign, kw "0", .semi, kw "i", .lt, kw "tmp_variable", .dot, .values, .lpar, .rpar, .dot, .size, .lpar, .rpar, .semi, .plus, .plus, kw "i", .rpar] := by decide +kernel

theorem l87 {t : String} (ht : Plain t) : lineTokens ("\t\t\t\tdest_variable.values().emplace_back( " ++ t ++ "(tmp_variable.values()[i]) );") =
    [kw "dest_variable", .dot, .values, .lpar, .rpar, .dot, .emplaceBack, .lpar, .id t.toList, .lpar, kw "tmp_variable", .dot, .values, .lpar, .rpar, .lbrack, kw "i", .rbrack, .rpar, .rpar, .semi] := by
  rw [← ht.word]
  simp only [lineTokens, tokens, String.toList_append, run_append, ht.run]
  rfl

theorem l88 {t u : String} (ht : Plain t) (hu : Plain u) : lineTokens ("\t// " ++ t ++ ": using idx_vector<" ++ u ++ "> to read") =
    [] := by
  simp only [lineTokens, tokens, String.toList_append, run_append, ht.run, hu.run]
  rfl

theorem l89 {t : String} (ht : Plain t) : lineTokens ("\ttemplate <> bool EntityReader::Read<idx_vector<" ++ t ++ ">>( const char *key, const u8 key_length, idx_vector<" ++ t ++ "> &dest_variable )") =
    [.template_, .lt, .gt, kw "bool", .entityReader, .colon, .colon, .read, .lt, .idxVector, .lt, .id t.toList, .gt, .gt, .lpar, .const_, kw "char", .star, kw "key", .comma, .const_, kw "u8", kw "key_length", .comma, .idxVector, .lt, .id t.toList, .gt, .amp, kw "dest_variable", .rpar] := by
  rw [← ht.word]
  simp only [lineTokens, tokens, String.toList_append, run_append, ht.run]
  rfl

theorem l90 {u : String} (hu : Plain u) : lineTokens ("\t\tif( !this->Read<idx_vector<" ++ u ++ ">>( key, key_length , tmp_variable ) )") =
    [.if_, .lpar, .bang, .this_, .minus, .gt, .read, .lt, .idxVector, .lt, .id u.toList, .gt, .gt, .lpar, kw "key", .comma, kw "key_length", .comma, kw "tmp_variable", .rpar, .rpar] := by
  rw [← hu.word]
  simp only [lineTokens, tokens, String.toList_append, run_append, hu.run]
  rfl

theorem l91 : lineTokens "\t\t// move index, as no conversion is needed" = [] := by decide +kernel

theorem l92 : lineTokens "\t\tdest_variable.index() = std::move( tmp_variable.index() );" = [kw "dest_variable", .dot, .index, .lpar, .rpar, .assign, .std_, .colon, .colon, .move, .lpar, kw "tmp_variable", .dot, .index, .lpar, .rpar, .rpar, .semi] := by decide +kernel

theorem l93 : lineTokens "\t\tdest_variable.values().reserve( tmp_variable.values().size() );" = [kw "dest_variable", .dot, .values, .lpar, .rpar, .dot, .reserve, .lpar, kw "tmp_variable", .dot, .values, .lpar, .rpar, .dot, .size, .lpar, .rpar, .rpar, .semi] := by decide +kernel

theorem l94 : lineTokens "\t\tfor( size_t i = 0; i < tmp_variable.values().size(); ++i )" = [.for_, .lpar, kw "size_t", kw "i", .assign, kw "0", .semi, kw "i", .lt, kw "tmp_variable", .dot, .values, .lpar, .rpar, .dot, .size, .lpar, .rpar, .semi, .plus, .plus, kw "i", .rpar] := by decide +kernel

theorem l95 {t : String} (ht : Plain t) : lineTokens ("\t\t\tdest_variable.values().emplace_back( " ++ t ++ "(tmp_variable.values()[i]) );") =
    [kw "dest_variable", .dot, .values, .lpar, .rpar, .dot, .emplaceBack, .lpar, .id t.toList, .lpar, kw "tmp_variable", .dot, .values, .lpar, .rpar, .lbrack, kw "i", .rbrack, .rpar, .rpar, .semi] := by
  rw [← ht.word]
  simp only [lineTokens, tokens, String.toList_append, run_append, ht.run]
  rfl

theorem l96 {t u : String} (ht : Plain t) (hu : Plain u) : lineTokens ("\t//  " ++ t ++ ": optional_idx_vector<" ++ u ++ "> to read") =
    [] := by
  simp only [lineTokens, tokens, String.toList_append, run_append, ht.run, hu.run]
  rfl

theorem l97 {t : String} (ht : Plain t) : lineTokens ("\ttemplate <> bool EntityReader::Read<optional_idx_vector<" ++ t ++ ">>( const char *key, const u8 key_length, optional_idx_vector<" ++ t ++ "> &dest_variable )") =
    [.template_, .lt, .gt, kw "bool", .entityReader, .colon, .colon, .read, .lt, .optionalIdxVector, .lt, .id t.toList, .gt, .gt, .lpar, .const_, kw "char", .star, kw "key", .comma, .const_, kw "u8", kw "key_length", .comma, .optionalIdxVector, .lt, .id t.toList, .gt, .amp, kw "dest_variable", .rpar] := by
  rw [← ht.word]
  simp only [lineTokens, tokens, String.toList_append, run_append, ht.run]
  rfl

theorem l98 {u : String} (hu : Plain u) : lineTokens ("\t\tif( !this->Read<optional_idx_vector<" ++ u ++ ">>( key, key_length , tmp_variable ) )") =
    [.if_, .lpar, .bang, .this_, .minus, .gt, .read, .lt, .optionalIdxVector, .lt, .id u.toList, .gt, .gt, .lpar, kw "key", .comma, kw "key_length", .comma, kw "tmp_variable", .rpar, .rpar] := by
  rw [← hu.word]
  simp only [lineTokens, tokens, String.toList_append, run_append, hu.run]
  rfl

theorem l99 : lineTokens "\t\t\t// move index, as no conversion is needed" = [] := by decide +kernel

theorem l100 : lineTokens "\t\t\tdest_variable.index() = std::move( tmp_variable.index() );" = [kw "dest_variable", .dot, .index, .lpar, .rpar, .assign, .std_, .colon, .colon, .move, .lpar, kw "tmp_variable", .dot, .index, .lpar, .rpar, .rpar, .semi] := by decide +kernel

theorem l101 {b t : String} (hb : Plain b) (ht : Plain t) : lineTokens ("\t\treader_status status = read_single_item<ValueType::VT_" ++ b ++ "," ++ t ++ ">(this->sstream, key, key_length, false, &(dest_variable) );") =
    [.readerStatus, kw "status", .assign, .readSingleItem, .lt, .valueType, .colon, .colon, .id ("VT_".toList ++ b.toList), .comma, .id t.toList, .gt, .lpar, .this_, .minus, .gt, kw "sstream", .comma, kw "key", .comma, kw "key_length", .comma, .false_, .comma, .amp, .lpar, kw "dest_variable", .rpar, .rpar, .semi] := by
  rw [← ht.word]
  simp only [lineTokens, tokens, String.toList_append, run_append, hb.run, ht.run]
  rfl

theorem l102 : lineTokens "\t\treturn status != reader_status::fail;" = [.return_, kw "status", .bang, .assign, .readerStatus, .colon, .colon, kw "fail", .semi] := by decide +kernel

theorem l103 : lineTokens "\t\tdest_variable.set();" = [kw "dest_variable", .dot, .set, .lpar, .rpar, .semi] := by decide +kernel

theorem l104 {b t : String} (hb : Plain b) (ht : Plain t) : lineTokens ("\t\treader_status status = read_single_item<ValueType::VT_" ++ b ++ "," ++ t ++ ">(this->sstream, key, key_length, true, &(dest_variable.value()) );") =
    [.readerStatus, kw "status", .assign, .readSingleItem, .lt, .valueType, .colon, .colon, .id ("VT_".toList ++ b.toList), .comma, .id t.toList, .gt, .lpar, .this_, .minus, .gt, kw "sstream", .comma, kw "key", .comma, kw "key_length", .comma, .true_, .comma, .amp, .lpar, kw "dest_variable", .dot, .value, .lpar, .rpar, .rpar, .rpar, .semi] := by
  rw [← ht.word]
  simp only [lineTokens, tokens, String.toList_append, run_append, hb.run, ht.run]
  rfl

theorem l105 : lineTokens "\t\tif( status == reader_status::success_empty )" = [.if_, .lpar, kw "status", .assign, .assign, .readerStatus, .colon, .colon, kw "success_empty", .rpar] := by decide +kernel

theorem l106 {b t : String} (hb : Plain b) (ht : Plain t) : lineTokens ("\t// VT_" ++ b ++ ": std::vector<" ++ t ++ ">") =
    [] := by
  simp only [lineTokens, tokens, String.toList_append, run_append, hb.run, ht.run]
  rfl

theorem l107 {b t : String} (hb : Plain b) (ht : Plain t) : lineTokens ("\t\treader_status status = read_array<ValueType::VT_Array_" ++ b ++ "," ++ t ++ ">(this->sstream, key, key_length, false, &(dest_variable), nullptr );") =
    [.readerStatus, kw "status", .assign, .readArray, .lt, .valueType, .colon, .colon, .id ("VT_Array_".toList ++ b.toList), .comma, .id t.toList, .gt, .lpar, .this_, .minus, .gt, kw "sstream", .comma, kw "key", .comma, kw "key_length", .comma, .false_, .comma, .amp, .lpar, kw "dest_variable", .rpar, .comma, .nullptr_, .rpar, .semi] := by
  rw [← ht.word]
  simp only [lineTokens, tokens, String.toList_append, run_append, hb.run, ht.run]
  rfl

theorem l108 {b t : String} (hb : Plain b) (ht : Plain t) : lineTokens ("\t// VT_" ++ b ++ ": optional_vector<" ++ t ++ ">") =
    [] := by
  simp only [lineTokens, tokens, String.toList_append, run_append, hb.run, ht.run]
  rfl

theorem l109 {b t : String} (hb : Plain b) (ht : Plain t) : lineTokens ("\t\treader_status status = read_array<ValueType::VT_Array_" ++ b ++ "," ++ t ++ ">(this->sstream, key, key_length, true, &(dest_variable.values()), nullptr );") =
    [.readerStatus, kw "status", .assign, .readArray, .lt, .valueType, .colon, .colon, .id ("VT_Array_".toList ++ b.toList), .comma, .id t.toList, .gt, .lpar, .this_, .minus, .gt, kw "sstream", .comma, kw "key", .comma, kw "key_length", .comma, .true_, .comma, .amp, .lpar, kw "dest_variable", .dot, .values, .lpar, .rpar, .rpar, .comma, .nullptr_, .rpar, .semi] := by
  rw [← ht.word]
  simp only [lineTokens, tokens, String.toList_append, run_append, hb.run, ht.run]
  rfl

theorem l110 {b t : String} (hb : Plain b) (ht : Plain t) : lineTokens ("\t// VT_" ++ b ++ ": idx_vector<" ++ t ++ ">") =
    [] := by
  simp only [lineTokens, tokens, String.toList_append, run_append, hb.run, ht.run]
  rfl

theorem l111 {b t : String} (hb : Plain b) (ht : Plain t) : lineTokens ("\t\treader_status status = read_array<ValueType::VT_Array_" ++ b ++ "," ++ t ++ ">(this->sstream, key, key_length, false, &(dest_variable.values()), &(dest_variable.index()) );") =
    [.readerStatus, kw "status", .assign, .readArray, .lt, .valueType, .colon, .colon, .id ("VT_Array_".toList ++ b.toList), .comma, .id t.toList, .gt, .lpar, .this_, .minus, .gt, kw "sstream", .comma, kw "key", .comma, kw "key_length", .comma, .false_, .comma, .amp, .lpar, kw "dest_variable", .dot, .values, .lpar, .rpar, .rpar, .comma, .amp, .lpar, kw "dest_variable", .dot, .index, .lpar, .rpar, .rpar, .rpar, .semi] := by
  rw [← ht.word]
  simp only [lineTokens, tokens, String.toList_append, run_append, hb.run, ht.run]
  rfl

theorem l112 {b t : String} (hb : Plain b) (ht : Plain t) : lineTokens ("\t// VT_" ++ b ++ ": optional_idx_vector<" ++ t ++ ">") =
    [] := by
  simp only [lineTokens, tokens, String.toList_append, run_append, hb.run, ht.run]
  rfl

theorem l113 {b t : String} (hb : Plain b) (ht : Plain t) : lineTokens ("\t\treader_status status = read_array<ValueType::VT_Array_" ++ b ++ "," ++ t ++ ">(this->sstream, key, key_length, true, &(dest_variable.values()), &(dest_variable.index()) );") =
    [.readerStatus, kw "status", .assign, .readArray, .lt, .valueType, .colon, .colon, .id ("VT_Array_".toList ++ b.toList), .comma, .id t.toList, .gt, .lpar, .this_, .minus, .gt, kw "sstream", .comma, kw "key", .comma, kw "key_length", .comma, .true_, .comma, .amp, .lpar, kw "dest_variable", .dot, .values, .lpar, .rpar, .rpar, .comma, .amp, .lpar, kw "dest_variable", .dot, .index, .lpar, .rpar, .rpar, .rpar, .semi] := by
  rw [← ht.word]
  simp only [lineTokens, tokens, String.toList_append, run_append, hb.run, ht.run]
  rfl

theorem l114 : lineTokens "// ISD Copyright (c) 2021 Ulrik Lindahl" = [] := by decide +kernel

theorem l115 : lineTokens "// Licensed under the MIT license https://github.com/Cooolrik/ISD/blob/main/LICENSE" = [] := by decide +kernel

theorem l116 : lineTokens "#pragma once" = [] := by decide +kernel

theorem l117 : lineTokens "#include \"ISD_EntityWriter.h\"" = [] := by decide +kernel

theorem l118 : lineTokens "#include \"ISD_MemoryWriteStream.h\"" = [] := by decide +kernel

theorem l119 : lineTokens "#include \"ISD_EntityWriterTemplates.inl\"" = [] := by decide +kernel

theorem l120 : lineTokens "namespace ISD" = [.namespace_, kw "ISD"] := by decide +kernel

theorem l121 : lineTokens "\t{" = [.lbrace] := by decide +kernel

theorem l122 : lineTokens "\tEntityWriter::EntityWriter( MemoryWriteStream &_dstream ) : dstream( _dstream ) , start_position( _dstream.GetPosition() ) {}" = [.entityWriter, .colon, .colon, .entityWriter, .lpar, kw "MemoryWriteStream", .amp, kw "_dstream", .rpar, .colon, kw "dstream", .lpar, kw "_dstream", .rpar, .comma, kw "start_position", .lpar, kw "_dstream", .dot, kw "GetPosition", .lpar, .rpar, .rpar, .lbrace, .rbrace] := by decide +kernel

theorem l123 : lineTokens "#include \"ISD_EntityReader.h\"" = [] := by decide +kernel

theorem l124 : lineTokens "#include \"ISD_MemoryReadStream.h\"" = [] := by decide +kernel

theorem l125 : lineTokens "#include \"ISD_EntityReaderTemplates.inl\"" = [] := by decide +kernel

theorem l126 : lineTokens "\tEntityReader::EntityReader( MemoryReadStream &_sstream ) : sstream( _sstream ) , end_position( _sstream.GetSize() )" = [.entityReader, .colon, .colon, .entityReader, .lpar, kw "MemoryReadStream", .amp, kw "_sstream", .rpar, .colon, kw "sstream", .lpar, kw "_sstream", .rpar, .comma, kw "end_position", .lpar, kw "_sstream", .dot, kw "GetSize", .lpar, .rpar, .rpar] := by decide +kernel

theorem l127 : lineTokens "\tEntityReader::EntityReader( MemoryReadStream &_sstream , const u64 _end_position ) : sstream( _sstream ) , end_position( _end_position )" = [.entityReader, .colon, .colon, .entityReader, .lpar, kw "MemoryReadStream", .amp, kw "_sstream", .comma, .const_, kw "u64", kw "_end_position", .rpar, .colon, kw "sstream", .lpar, kw "_sstream", .rpar, .comma, kw "end_position", .lpar, kw "_end_position", .rpar] := by decide +kernel

theorem l128 : lineTokens "\t};" = [.rbrace, .semi] := by decide +kernel

end ISD.Over
