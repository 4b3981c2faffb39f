import Verif.Spec.Cpp
import Verif.Model.Generator

/-!
# The tokens of the lines that the generator writes
-/

namespace ISD.Cpp

/-- `run` on text before more text. -/
theorem run_append (s : St) (a b : List Char) :
    run s (a ++ b) = ((run (run s a).1 b).1, (run s a).2 ++ (run (run s a).1 b).2) := by
  induction a generalizing s with
  | nil => rfl
  | cons c a ih => simp only [List.cons_append, run, ih, List.append_assoc]

/-- The state after a name. -/
def St.add : St → List Char → St
  | .space, n => .word n
  | .word a, n => .word (a ++ n)
  | .str a, n => .str (a ++ n)
  | .slash, _ => .skip
  | .skip, _ => .skip

theorem run_word (a n : List Char) (h : ∀ c ∈ n, isId c) : run (.word a) n = (.word (a ++ n), []) := by
  induction n generalizing a with
  | nil => simp [run]
  | cons c n ih =>
    have hc : isId c = true := h c (List.mem_cons_self ..)
    simp only [run, step, hc, if_true, ih (a ++ [c]) fun d hd => h d (List.mem_cons_of_mem _ hd), List.append_assoc, List.nil_append,
      List.singleton_append]

theorem isId_ne (c d : Char) (h : isId c = true) (hd : isId d = false) : ¬ c = d := by
  rintro rfl; rw [h] at hd; cases hd

theorem run_str (a n : List Char) (h : ∀ c ∈ n, isId c) : run (.str a) n = (.str (a ++ n), []) := by
  induction n generalizing a with
  | nil => simp [run]
  | cons c n ih =>
    have hc : isId c = true := h c (List.mem_cons_self ..)
    simp only [run, step, if_neg (isId_ne c '"' hc rfl), if_neg (isId_ne c '\n' hc rfl),
      ih (a ++ [c]) fun d hd => h d (List.mem_cons_of_mem _ hd), List.append_assoc, List.nil_append, List.singleton_append]

theorem run_skip (n : List Char) (h : ∀ c ∈ n, isId c) : run .skip n = (.skip, []) := by
  induction n with
  | nil => rfl
  | cons c n ih =>
    have hc : isId c = true := h c (List.mem_cons_self ..)
    simp only [run, step, if_neg (isId_ne c '\n' hc rfl), ih fun d hd => h d (List.mem_cons_of_mem _ hd), List.append_nil]

/-- What a name makes the lexer put out at once. -/
def St.emit : St → List Raw
  | .slash => [.sym '/']
  | _ => []

theorem run_name (s : St) {n : List Char} (hn : n ≠ []) (h : ∀ c ∈ n, isId c) : run s n = (s.add n, s.emit) := by
  cases s with
  | space =>
    cases n with
    | nil => exact absurd rfl hn
    | cons c n =>
      have hc : isId c = true := h c (List.mem_cons_self ..)
      simp only [run, step, start, hc, if_true, run_word [c] n fun d hd => h d (List.mem_cons_of_mem _ hd), St.add, St.emit, List.nil_append,
        List.singleton_append]
  | word a => exact run_word a n h
  | str a => exact run_str a n h
  | slash =>
    cases n with
    | nil => exact absurd rfl hn
    | cons c n =>
      have hc : isId c = true := h c (List.mem_cons_self ..)
      simp only [run, step, if_neg (isId_ne c '/' hc rfl), if_neg (isId_ne c '\n' hc rfl),
        run_skip n fun d hd => h d (List.mem_cons_of_mem _ hd), St.add, St.emit, List.append_nil]
  | skip => exact run_skip n h

theorem Plain.run {n : String} (h : Plain n) (s : St) : run s n.toList = (s.add n.toList, s.emit) :=
  run_name s h.nonempty h.chars

/-- The tokens of a line. -/
def lineTokens (l : String) : List Tok := tokens (l.toList ++ ['\n'])

/-- The text of a type. -/
def tyText : Container → String → String
  | .none, t => t
  | .optionalValue, t => "optional_value<" ++ t ++ ">"
  | .vector, t => "std::vector<" ++ t ++ ">"
  | .optionalVector, t => "optional_vector<" ++ t ++ ">"
  | .idxVector, t => "idx_vector<" ++ t ++ ">"
  | .optionalIdxVector, t => "optional_idx_vector<" ++ t ++ ">"

theorem run_end (s : St) (l : List Char) : (run s (l ++ ['\n'])).1 = .space := by
  rw [run_append]
  cases (run s l).1 <;> rfl

/-- The tokens of a text are those of its lines. -/
theorem tokens_lines (ls : List String) : tokens (ls.flatMap fun l => l.toList ++ ['\n']) = ls.flatMap lineTokens := by
  induction ls with
  | nil => rfl
  | cons l ls ih =>
    have h : tokens ((l.toList ++ ['\n']) ++ ls.flatMap fun l => l.toList ++ ['\n']) =
        lineTokens l ++ tokens (ls.flatMap fun l => l.toList ++ ['\n']) := by
      simp only [tokens, lineTokens]
      rw [run_append, run_end, List.map_append]
    rw [List.flatMap_cons, List.flatMap_cons, h, ih]

theorem run_ty (c : Container) {t : String} (ht : Plain t) (b : List Char) (d : Char) (hd : isId d = false) :
    (run .space ((tyText c t).toList ++ d :: b)).2.map classify = tyTokens (c, t.toList) ++ (run .space (d :: b)).2.map classify := by
  have hw : ∀ a, run (.word a) (d :: b) = ((run .space (d :: b)).1, .word a :: (run .space (d :: b)).2) := by
    intro a
    simp only [run, step, hd, Bool.false_eq_true, if_false, List.cons_append]
  have hk : ∀ (l : List Char) (rs : List Raw) {ts : List Tok}, run .space l = (.space, rs) → rs.map classify = ts →
      (run .space (l ++ d :: b)).2.map classify = ts ++ (run .space (d :: b)).2.map classify := by
    intro l rs ts h1 h2
    rw [run_append, h1, List.map_append, h2]
  cases c with
  | none =>
    rw [show (tyText .none t).toList = t.toList from rfl, run_append, ht.run]
    simp only [St.add, St.emit, hw, List.nil_append, tyTokens, List.map_cons]
    rw [← ht.word]
    rfl
  | optionalValue =>
    refine hk (tyText .optionalValue t).toList [.word ['o', 'p', 't', 'i', 'o', 'n', 'a', 'l', '_', 'v', 'a', 'l', 'u', 'e'], .sym '<', .word t.toList, .sym '>']
      (ts := tyTokens (.optionalValue, t.toList)) ?_ ?_
    · rw [show tyText .optionalValue t = "optional_value<" ++ t ++ ">" from rfl, String.toList_append, String.toList_append, run_append, run_append,
        show run .space "optional_value<".toList = (.space, [.word ['o', 'p', 't', 'i', 'o', 'n', 'a', 'l', '_', 'v', 'a', 'l', 'u', 'e'], .sym '<']) from rfl, ht.run]
      rfl
    · rw [tyTokens, ← ht.word]
      rfl
  | vector =>
    refine hk (tyText .vector t).toList [.word ['s', 't', 'd'], .sym ':', .sym ':', .word ['v', 'e', 'c', 't', 'o', 'r'], .sym '<', .word t.toList, .sym '>']
      (ts := tyTokens (.vector, t.toList)) ?_ ?_
    · rw [show tyText .vector t = "std::vector<" ++ t ++ ">" from rfl, String.toList_append, String.toList_append, run_append, run_append,
        show run .space "std::vector<".toList = (.space, [.word ['s', 't', 'd'], .sym ':', .sym ':', .word ['v', 'e', 'c', 't', 'o', 'r'], .sym '<']) from rfl, ht.run]
      rfl
    · rw [tyTokens, ← ht.word]
      rfl
  | optionalVector =>
    refine hk (tyText .optionalVector t).toList [.word ['o', 'p', 't', 'i', 'o', 'n', 'a', 'l', '_', 'v', 'e', 'c', 't', 'o', 'r'], .sym '<', .word t.toList, .sym '>']
      (ts := tyTokens (.optionalVector, t.toList)) ?_ ?_
    · rw [show tyText .optionalVector t = "optional_vector<" ++ t ++ ">" from rfl, String.toList_append, String.toList_append, run_append, run_append,
        show run .space "optional_vector<".toList = (.space, [.word ['o', 'p', 't', 'i', 'o', 'n', 'a', 'l', '_', 'v', 'e', 'c', 't', 'o', 'r'], .sym '<']) from rfl, ht.run]
      rfl
    · rw [tyTokens, ← ht.word]
      rfl
  | idxVector =>
    refine hk (tyText .idxVector t).toList [.word ['i', 'd', 'x', '_', 'v', 'e', 'c', 't', 'o', 'r'], .sym '<', .word t.toList, .sym '>']
      (ts := tyTokens (.idxVector, t.toList)) ?_ ?_
    · rw [show tyText .idxVector t = "idx_vector<" ++ t ++ ">" from rfl, String.toList_append, String.toList_append, run_append, run_append,
        show run .space "idx_vector<".toList = (.space, [.word ['i', 'd', 'x', '_', 'v', 'e', 'c', 't', 'o', 'r'], .sym '<']) from rfl, ht.run]
      rfl
    · rw [tyTokens, ← ht.word]
      rfl
  | optionalIdxVector =>
    refine hk (tyText .optionalIdxVector t).toList [.word ['o', 'p', 't', 'i', 'o', 'n', 'a', 'l', '_', 'i', 'd', 'x', '_', 'v', 'e', 'c', 't', 'o', 'r'], .sym '<', .word t.toList, .sym '>']
      (ts := tyTokens (.optionalIdxVector, t.toList)) ?_ ?_
    · rw [show tyText .optionalIdxVector t = "optional_idx_vector<" ++ t ++ ">" from rfl, String.toList_append, String.toList_append, run_append, run_append,
        show run .space "optional_idx_vector<".toList = (.space, [.word ['o', 'p', 't', 'i', 'o', 'n', 'a', 'l', '_', 'i', 'd', 'x', '_', 'v', 'e', 'c', 't', 'o', 'r'], .sym '<']) from rfl, ht.run]
      rfl
    · rw [tyTokens, ← ht.word]
      rfl

/-- A line with a type. -/
theorem tokens_ty (c : Container) {t : String} (ht : Plain t) (a b : List Char) (d : Char) (hd : isId d = false)
    (ha : (run .space a).1 = .space) :
    tokens (a ++ (tyText c t).toList ++ d :: b) = tokens a ++ tyTokens (c, t.toList) ++ tokens (d :: b) := by
  rw [List.append_assoc]
  simp only [tokens]
  rw [run_append, ha, List.map_append, run_ty c ht b d hd, List.append_assoc]

theorem line1 : lineTokens "// ISD Copyright (c) 2021 Ulrik Lindahl" = [] := by decide +kernel

theorem line2 : lineTokens "// Licensed under the MIT license https://github.com/Cooolrik/ISD/blob/main/LICENSE" = [] := by decide +kernel

theorem line3 : lineTokens "" = [] := by decide +kernel

theorem line4 : lineTokens "#pragma once" = [] := by decide +kernel

theorem line5 : lineTokens "#include \"ISD_Types.h\"" = [] := by decide +kernel

theorem line6 {d : String} (hd : Plain d) :
    lineTokens ("#include \"ISD_" ++ d ++ ".h\"") =
      [] := by
  simp only [lineTokens, tokens, String.toList_append, run_append, hd.run]
  rfl

theorem line7 : lineTokens "namespace ISD" = [.namespace_, .isd] := by decide +kernel

theorem line8 : lineTokens "    {" = [.lbrace] := by decide +kernel

theorem line9 {d : String} (hd : Plain d) :
    lineTokens ("    class " ++ d ++ ";") =
      [.class_, .id d.toList, .semi] := by
  rw [← hd.word]
  simp only [lineTokens, tokens, String.toList_append, run_append, hd.run]
  rfl

theorem line10 {e : String} (he : Plain e) :
    lineTokens ("    class " ++ e) =
      [.class_, .id e.toList] := by
  rw [← he.word]
  simp only [lineTokens, tokens, String.toList_append, run_append, he.run]
  rfl

theorem line11 : lineTokens "        {" = [.lbrace] := by decide +kernel

theorem line12 : lineTokens "        public:" = [.public_, .colon] := by decide +kernel

theorem line13 : lineTokens "            class MF;" = [.class_, .mf, .semi] := by decide +kernel

theorem line14 : lineTokens "            friend MF;" = [.friend_, .mf, .semi] := by decide +kernel

theorem line15 {e : String} (he : Plain e) :
    lineTokens ("            " ++ e ++ "() = default;") =
      [.id e.toList, .lpar, .rpar, .assign, .default_, .semi] := by
  rw [← he.word]
  simp only [lineTokens, tokens, String.toList_append, run_append, he.run]
  rfl

theorem line16 {e : String} (he : Plain e) :
    lineTokens ("            " ++ e ++ "( const " ++ e ++ " &rval );") =
      [.id e.toList, .lpar, .const_, .id e.toList, .amp, .rval, .rpar, .semi] := by
  rw [← he.word]
  simp only [lineTokens, tokens, String.toList_append, run_append, he.run]
  rfl

theorem line17 {e : String} (he : Plain e) :
    lineTokens ("            " ++ e ++ " &operator=( const " ++ e ++ " &rval );") =
      [.id e.toList, .amp, .operator_, .assign, .lpar, .const_, .id e.toList, .amp, .rval, .rpar, .semi] := by
  rw [← he.word]
  simp only [lineTokens, tokens, String.toList_append, run_append, he.run]
  rfl

theorem line18 {e : String} (he : Plain e) :
    lineTokens ("            " ++ e ++ "( " ++ e ++ " &&rval ) = default;") =
      [.id e.toList, .lpar, .id e.toList, .amp, .amp, .rval, .rpar, .assign, .default_, .semi] := by
  rw [← he.word]
  simp only [lineTokens, tokens, String.toList_append, run_append, he.run]
  rfl

theorem line19 {e : String} (he : Plain e) :
    lineTokens ("            " ++ e ++ " &operator=( " ++ e ++ " &&rval ) = default;") =
      [.id e.toList, .amp, .operator_, .assign, .lpar, .id e.toList, .amp, .amp, .rval, .rpar, .assign, .default_, .semi] := by
  rw [← he.word]
  simp only [lineTokens, tokens, String.toList_append, run_append, he.run]
  rfl

theorem line20 {e : String} (he : Plain e) :
    lineTokens ("            ~" ++ e ++ "() = default;") =
      [.tilde, .id e.toList, .lpar, .rpar, .assign, .default_, .semi] := by
  rw [← he.word]
  simp only [lineTokens, tokens, String.toList_append, run_append, he.run]
  rfl

theorem line21 : lineTokens "            // value compare operators" = [] := by decide +kernel

theorem line22 {e : String} (he : Plain e) :
    lineTokens ("            bool operator==( const " ++ e ++ " &rval ) const;") =
      [bool_, .operator_, .assign, .assign, .lpar, .const_, .id e.toList, .amp, .rval, .rpar, .const_, .semi] := by
  rw [← he.word]
  simp only [lineTokens, tokens, String.toList_append, run_append, he.run]
  rfl

theorem line23 {e : String} (he : Plain e) :
    lineTokens ("            bool operator!=( const " ++ e ++ " &rval ) const;") =
      [bool_, .operator_, .bang, .assign, .lpar, .const_, .id e.toList, .amp, .rval, .rpar, .const_, .semi] := by
  rw [← he.word]
  simp only [lineTokens, tokens, String.toList_append, run_append, he.run]
  rfl

theorem line24 : lineTokens "        protected:" = [.protected_, .colon] := by decide +kernel

theorem line25 {n t : String} (c : Container) (hn : Plain n) (ht : Plain t) :
    lineTokens ("            " ++ tyText c t ++ " v_" ++ n ++ " = {};") =
      tyTokens (c, t.toList) ++ [.mem n.toList, .assign, .lbrace, .rbrace, .semi] := by
  have h : lineTokens ("            " ++ tyText c t ++ " v_" ++ n ++ " = {};") =
      tokens ("            ".toList ++ (tyText c t).toList ++ ' ' :: ("v_".toList ++ (n.toList ++ (" = {};".toList ++ ['\n'])))) := by
    simp only [lineTokens, String.toList_append, List.append_assoc]
    rfl
  have h1 : tokens (' ' :: ("v_".toList ++ (n.toList ++ (" = {};".toList ++ ['\n'])))) = [.mem n.toList, .assign, .lbrace, .rbrace, .semi] := by
    rw [show ' ' :: ("v_".toList ++ (n.toList ++ (" = {};".toList ++ ['\n']))) = [' '] ++ ("v_".toList ++ (n.toList ++ (" = {};".toList ++ ['\n']))) from rfl]
    simp only [tokens, run_append, hn.run]
    rfl
  rw [h, tokens_ty c ht _ _ ' ' rfl rfl, h1]
  rfl

theorem line26 {n t : String} (c : Container) (hn : Plain n) (ht : Plain t) :
    lineTokens ("            " ++ tyText c t ++ " v_" ++ n ++ ";") =
      tyTokens (c, t.toList) ++ [.mem n.toList, .semi] := by
  have h : lineTokens ("            " ++ tyText c t ++ " v_" ++ n ++ ";") =
      tokens ("            ".toList ++ (tyText c t).toList ++ ' ' :: ("v_".toList ++ (n.toList ++ (";".toList ++ ['\n'])))) := by
    simp only [lineTokens, String.toList_append, List.append_assoc]
    rfl
  have h1 : tokens (' ' :: ("v_".toList ++ (n.toList ++ (";".toList ++ ['\n'])))) = [.mem n.toList, .semi] := by
    rw [show ' ' :: ("v_".toList ++ (n.toList ++ (";".toList ++ ['\n']))) = [' '] ++ ("v_".toList ++ (n.toList ++ (";".toList ++ ['\n']))) from rfl]
    simp only [tokens, run_append, hn.run]
    rfl
  rw [h, tokens_ty c ht _ _ ' ' rfl rfl, h1]
  rfl

theorem line27 {n : String} (hn : Plain n) :
    lineTokens ("            // accessor for referencing variable " ++ n) =
      [] := by
  simp only [lineTokens, tokens, String.toList_append, run_append, hn.run]
  rfl

theorem line28 {n t : String} (c : Container) (hn : Plain n) (ht : Plain t) :
    lineTokens ("            const " ++ tyText c t ++ " & " ++ n ++ "() const { return this->v_" ++ n ++ "; }") =
      [.const_] ++ tyTokens (c, t.toList) ++ [.amp, .id n.toList, .lpar, .rpar, .const_, .lbrace, .return_, .this_, .minus, .gt, .mem n.toList, .semi, .rbrace] := by
  have h : lineTokens ("            const " ++ tyText c t ++ " & " ++ n ++ "() const { return this->v_" ++ n ++ "; }") =
      tokens ("            const ".toList ++ (tyText c t).toList ++ ' ' :: ("& ".toList ++ (n.toList ++ ("() const { return this->v_".toList ++ (n.toList ++ ("; }".toList ++ ['\n'])))))) := by
    simp only [lineTokens, String.toList_append, List.append_assoc]
    rfl
  have h1 : tokens (' ' :: ("& ".toList ++ (n.toList ++ ("() const { return this->v_".toList ++ (n.toList ++ ("; }".toList ++ ['\n'])))))) = [.amp, .id n.toList, .lpar, .rpar, .const_, .lbrace, .return_, .this_, .minus, .gt, .mem n.toList, .semi, .rbrace] := by
    rw [← hn.word]
    rw [show ' ' :: ("& ".toList ++ (n.toList ++ ("() const { return this->v_".toList ++ (n.toList ++ ("; }".toList ++ ['\n']))))) = [' '] ++ ("& ".toList ++ (n.toList ++ ("() const { return this->v_".toList ++ (n.toList ++ ("; }".toList ++ ['\n']))))) from rfl]
    simp only [tokens, run_append, hn.run]
    rfl
  rw [h, tokens_ty c ht _ _ ' ' rfl rfl, h1]
  rfl

theorem line29 {n t : String} (c : Container) (hn : Plain n) (ht : Plain t) :
    lineTokens ("            " ++ tyText c t ++ " & " ++ n ++ "() { return this->v_" ++ n ++ "; }") =
      tyTokens (c, t.toList) ++ [.amp, .id n.toList, .lpar, .rpar, .lbrace, .return_, .this_, .minus, .gt, .mem n.toList, .semi, .rbrace] := by
  have h : lineTokens ("            " ++ tyText c t ++ " & " ++ n ++ "() { return this->v_" ++ n ++ "; }") =
      tokens ("            ".toList ++ (tyText c t).toList ++ ' ' :: ("& ".toList ++ (n.toList ++ ("() { return this->v_".toList ++ (n.toList ++ ("; }".toList ++ ['\n'])))))) := by
    simp only [lineTokens, String.toList_append, List.append_assoc]
    rfl
  have h1 : tokens (' ' :: ("& ".toList ++ (n.toList ++ ("() { return this->v_".toList ++ (n.toList ++ ("; }".toList ++ ['\n'])))))) = [.amp, .id n.toList, .lpar, .rpar, .lbrace, .return_, .this_, .minus, .gt, .mem n.toList, .semi, .rbrace] := by
    rw [← hn.word]
    rw [show ' ' :: ("& ".toList ++ (n.toList ++ ("() { return this->v_".toList ++ (n.toList ++ ("; }".toList ++ ['\n']))))) = [' '] ++ ("& ".toList ++ (n.toList ++ ("() { return this->v_".toList ++ (n.toList ++ ("; }".toList ++ ['\n']))))) from rfl]
    simp only [tokens, run_append, hn.run]
    rfl
  rw [h, tokens_ty c ht _ _ ' ' rfl rfl, h1]
  rfl

theorem line30 : lineTokens "        };" = [.rbrace, .semi] := by decide +kernel

theorem line31 : lineTokens "    class EntityWriter;" = [.class_, .entityWriter, .semi] := by decide +kernel

theorem line32 : lineTokens "    class EntityReader;" = [.class_, .entityReader, .semi] := by decide +kernel

theorem line33 : lineTokens "    class EntityValidator;" = [.class_, .entityValidator, .semi] := by decide +kernel

theorem line34 {e : String} (he : Plain e) :
    lineTokens ("    class " ++ e ++ "::MF") =
      [.class_, .id e.toList, .colon, .colon, .mf] := by
  rw [← he.word]
  simp only [lineTokens, tokens, String.toList_append, run_append, he.run]
  rfl

theorem line35 {e : String} (he : Plain e) :
    lineTokens ("            static void Clear( " ++ e ++ " &obj );") =
      [.static_, .void_, .clear, .lpar, .id e.toList, .amp, .obj, .rpar, .semi] := by
  rw [← he.word]
  simp only [lineTokens, tokens, String.toList_append, run_append, he.run]
  rfl

theorem line36 {e : String} (he : Plain e) :
    lineTokens ("            static void DeepCopy( " ++ e ++ " &dest, const " ++ e ++ " *source );") =
      [.static_, .void_, .deepCopy, .lpar, .id e.toList, .amp, .dest, .comma, .const_, .id e.toList, .star, .source, .rpar, .semi] := by
  rw [← he.word]
  simp only [lineTokens, tokens, String.toList_append, run_append, he.run]
  rfl

theorem line37 {e : String} (he : Plain e) :
    lineTokens ("            static bool Equals( const " ++ e ++ " *lvar, const " ++ e ++ " *rvar );") =
      [.static_, bool_, .equals, .lpar, .const_, .id e.toList, .star, .lvar, .comma, .const_, .id e.toList, .star, .rvar, .rpar, .semi] := by
  rw [← he.word]
  simp only [lineTokens, tokens, String.toList_append, run_append, he.run]
  rfl

theorem line38 {e : String} (he : Plain e) :
    lineTokens ("            static bool Write( const " ++ e ++ " &obj, EntityWriter &writer );") =
      [.static_, bool_, .write, .lpar, .const_, .id e.toList, .amp, .obj, .comma, .entityWriter, .amp, .writer, .rpar, .semi] := by
  rw [← he.word]
  simp only [lineTokens, tokens, String.toList_append, run_append, he.run]
  rfl

theorem line39 {e : String} (he : Plain e) :
    lineTokens ("            static bool Read( " ++ e ++ " &obj, EntityReader &reader );") =
      [.static_, bool_, .read, .lpar, .id e.toList, .amp, .obj, .comma, .entityReader, .amp, .reader, .rpar, .semi] := by
  rw [← he.word]
  simp only [lineTokens, tokens, String.toList_append, run_append, he.run]
  rfl

theorem line40 {e : String} (he : Plain e) :
    lineTokens ("            static bool Validate( const " ++ e ++ " &obj, EntityValidator &validator );") =
      [.static_, bool_, .validate, .lpar, .const_, .id e.toList, .amp, .obj, .comma, .entityValidator, .amp, .validator, .rpar, .semi] := by
  rw [← he.word]
  simp only [lineTokens, tokens, String.toList_append, run_append, he.run]
  rfl

theorem line41 {e : String} (he : Plain e) :
    lineTokens ("    inline " ++ e ++ "::" ++ e ++ "( const " ++ e ++ " &rval )") =
      [.inline_, .id e.toList, .colon, .colon, .id e.toList, .lpar, .const_, .id e.toList, .amp, .rval, .rpar] := by
  rw [← he.word]
  simp only [lineTokens, tokens, String.toList_append, run_append, he.run]
  rfl

theorem line42 : lineTokens "        MF::DeepCopy( *this , &rval );" = [.mf, .colon, .colon, .deepCopy, .lpar, .star, .this_, .comma, .amp, .rval, .rpar, .semi] := by decide +kernel

theorem line43 : lineTokens "        }" = [.rbrace] := by decide +kernel

theorem line44 {e : String} (he : Plain e) :
    lineTokens ("    inline " ++ e ++ " &" ++ e ++ "::operator=( const " ++ e ++ " &rval )") =
      [.inline_, .id e.toList, .amp, .id e.toList, .colon, .colon, .operator_, .assign, .lpar, .const_, .id e.toList, .amp, .rval, .rpar] := by
  rw [← he.word]
  simp only [lineTokens, tokens, String.toList_append, run_append, he.run]
  rfl

theorem line45 : lineTokens "        return *this;" = [.return_, .star, .this_, .semi] := by decide +kernel

theorem line46 {e : String} (he : Plain e) :
    lineTokens ("    inline bool " ++ e ++ "::operator==( const " ++ e ++ " &rval ) const") =
      [.inline_, bool_, .id e.toList, .colon, .colon, .operator_, .assign, .assign, .lpar, .const_, .id e.toList, .amp, .rval, .rpar, .const_] := by
  rw [← he.word]
  simp only [lineTokens, tokens, String.toList_append, run_append, he.run]
  rfl

theorem line47 : lineTokens "        return MF::Equals( this, &rval );" = [.return_, .mf, .colon, .colon, .equals, .lpar, .this_, .comma, .amp, .rval, .rpar, .semi] := by decide +kernel

theorem line48 {e : String} (he : Plain e) :
    lineTokens ("    inline bool " ++ e ++ "::operator!=( const " ++ e ++ " &rval ) const") =
      [.inline_, bool_, .id e.toList, .colon, .colon, .operator_, .bang, .assign, .lpar, .const_, .id e.toList, .amp, .rval, .rpar, .const_] := by
  rw [← he.word]
  simp only [lineTokens, tokens, String.toList_append, run_append, he.run]
  rfl

theorem line49 : lineTokens "        return !(MF::Equals( this, &rval ));" = [.return_, .bang, .lpar, .mf, .colon, .colon, .equals, .lpar, .this_, .comma, .amp, .rval, .rpar, .rpar, .semi] := by decide +kernel

theorem line50 : lineTokens "    };" = [.rbrace, .semi] := by decide +kernel

theorem line51 {n : String} (hn : Plain n) :
    lineTokens ("        // clear variable \"" ++ n ++ "\"") =
      [] := by
  simp only [lineTokens, tokens, String.toList_append, run_append, hn.run]
  rfl

theorem line52 {n : String} (hn : Plain n) :
    lineTokens ("        obj.v_" ++ n ++ ".reset();") =
      [.obj, .dot, .mem n.toList, .dot, .reset, .lpar, .rpar, .semi] := by
  simp only [lineTokens, tokens, String.toList_append, run_append, hn.run]
  rfl

theorem line53 {n : String} (hn : Plain n) :
    lineTokens ("        obj.v_" ++ n ++ " = {};") =
      [.obj, .dot, .mem n.toList, .assign, .lbrace, .rbrace, .semi] := by
  simp only [lineTokens, tokens, String.toList_append, run_append, hn.run]
  rfl

theorem line54 {t n : String} (ht : Plain t) (hn : Plain n) :
    lineTokens ("        " ++ t ++ "::MF::Clear( obj.v_" ++ n ++ " );") =
      [.id t.toList, .colon, .colon, .mf, .colon, .colon, .clear, .lpar, .obj, .dot, .mem n.toList, .rpar, .semi] := by
  rw [← ht.word]
  simp only [lineTokens, tokens, String.toList_append, run_append, ht.run, hn.run]
  rfl

theorem line55 {n : String} (hn : Plain n) :
    lineTokens ("        // copy variable \"" ++ n ++ "\"") =
      [] := by
  simp only [lineTokens, tokens, String.toList_append, run_append, hn.run]
  rfl

theorem line56 {n : String} (hn : Plain n) :
    lineTokens ("        dest.v_" ++ n ++ " = source->v_" ++ n ++ ";") =
      [.dest, .dot, .mem n.toList, .assign, .source, .minus, .gt, .mem n.toList, .semi] := by
  simp only [lineTokens, tokens, String.toList_append, run_append, hn.run]
  rfl

theorem line57 : lineTokens "            {" = [.lbrace] := by decide +kernel

theorem line58 : lineTokens "            }" = [.rbrace] := by decide +kernel

theorem line60 {t n : String} (ht : Plain t) (hn : Plain n) :
    lineTokens ("        " ++ t ++ "::MF::DeepCopy( dest.v_" ++ n ++ " , &(source->v_" ++ n ++ ") );") =
      [.id t.toList, .colon, .colon, .mf, .colon, .colon, .deepCopy, .lpar, .dest, .dot, .mem n.toList, .comma, .amp, .lpar, .source, .minus, .gt, .mem n.toList, .rpar, .rpar, .semi] := by
  rw [← ht.word]
  simp only [lineTokens, tokens, String.toList_append, run_append, ht.run, hn.run]
  rfl

theorem line61 {n : String} (hn : Plain n) :
    lineTokens ("        // check variable \"" ++ n ++ "\"") =
      [] := by
  simp only [lineTokens, tokens, String.toList_append, run_append, hn.run]
  rfl

theorem line62 {n : String} (hn : Plain n) :
    lineTokens ("        if( lvar->v_" ++ n ++ " != rvar->v_" ++ n ++ " )") =
      [.if_, .lpar, .lvar, .minus, .gt, .mem n.toList, .bang, .assign, .rvar, .minus, .gt, .mem n.toList, .rpar] := by
  simp only [lineTokens, tokens, String.toList_append, run_append, hn.run]
  rfl

theorem line63 : lineTokens "            return false;" = [.return_, .false_, .semi] := by decide +kernel

theorem line66 {e t n : String} (he : Plain e) (ht : Plain t) (hn : Plain n) :
    lineTokens ("        if( !" ++ e ++ "::" ++ t ++ "::MF::Equals( &lvar->v_" ++ n ++ " , &rvar->v_" ++ n ++ " ) )") =
      [.if_, .lpar, .bang, .id e.toList, .colon, .colon, .id t.toList, .colon, .colon, .mf, .colon, .colon, .equals, .lpar, .amp, .lvar, .minus, .gt, .mem n.toList, .comma, .amp, .rvar, .minus, .gt, .mem n.toList, .rpar, .rpar] := by
  rw [← he.word, ← ht.word]
  simp only [lineTokens, tokens, String.toList_append, run_append, he.run, ht.run, hn.run]
  rfl

theorem line67 {n : String} (hn : Plain n) :
    lineTokens ("        // write variable \"" ++ n ++ "\"") =
      [] := by
  simp only [lineTokens, tokens, String.toList_append, run_append, hn.run]
  rfl

theorem line68 {n t : String} (c : Container) (hn : Plain n) (ht : Plain t) :
    lineTokens ("        success = writer.Write<" ++ tyText c t ++ ">( ISDKeyMacro(\"" ++ n ++ "\") , obj.v_" ++ n ++ " );") =
      [.success, .assign, .writer, .dot, .write, .lt] ++ tyTokens (c, t.toList) ++ [.gt, .lpar, .keyMacro, .lpar, .str n.toList, .rpar, .comma, .obj, .dot, .mem n.toList, .rpar, .semi] := by
  have h : lineTokens ("        success = writer.Write<" ++ tyText c t ++ ">( ISDKeyMacro(\"" ++ n ++ "\") , obj.v_" ++ n ++ " );") =
      tokens ("        success = writer.Write<".toList ++ (tyText c t).toList ++ '>' :: ("( ISDKeyMacro(\"".toList ++ (n.toList ++ ("\") , obj.v_".toList ++ (n.toList ++ (" );".toList ++ ['\n'])))))) := by
    simp only [lineTokens, String.toList_append, List.append_assoc]
    rfl
  have h1 : tokens ('>' :: ("( ISDKeyMacro(\"".toList ++ (n.toList ++ ("\") , obj.v_".toList ++ (n.toList ++ (" );".toList ++ ['\n'])))))) = [.gt, .lpar, .keyMacro, .lpar, .str n.toList, .rpar, .comma, .obj, .dot, .mem n.toList, .rpar, .semi] := by
    rw [show '>' :: ("( ISDKeyMacro(\"".toList ++ (n.toList ++ ("\") , obj.v_".toList ++ (n.toList ++ (" );".toList ++ ['\n']))))) = ['>'] ++ ("( ISDKeyMacro(\"".toList ++ (n.toList ++ ("\") , obj.v_".toList ++ (n.toList ++ (" );".toList ++ ['\n']))))) from rfl]
    simp only [tokens, run_append, hn.run]
    rfl
  rw [h, tokens_ty c ht _ _ '>' rfl rfl, h1]
  rfl

theorem line69 : lineTokens "        if( !success )" = [.if_, .lpar, .bang, .success, .rpar] := by decide +kernel

theorem line70 {n : String} (hn : Plain n) :
    lineTokens ("        // write section \"" ++ n ++ "\"") =
      [] := by
  simp only [lineTokens, tokens, String.toList_append, run_append, hn.run]
  rfl

theorem line71 {n : String} (hn : Plain n) :
    lineTokens ("        success = (section_writer = writer.BeginWriteSection( ISDKeyMacro(\"" ++ n ++ "\") ));") =
      [.success, .assign, .lpar, .sectionWriter, .assign, .writer, .dot, .beginWriteSection, .lpar, .keyMacro, .lpar, .str n.toList, .rpar, .rpar, .rpar, .semi] := by
  simp only [lineTokens, tokens, String.toList_append, run_append, hn.run]
  rfl

theorem line72 : lineTokens "                return false;" = [.return_, .false_, .semi] := by decide +kernel

theorem line73 {e t n : String} (he : Plain e) (ht : Plain t) (hn : Plain n) :
    lineTokens ("        if( !" ++ e ++ "::" ++ t ++ "::MF::Write( obj.v_" ++ n ++ ", *section_writer ) )") =
      [.if_, .lpar, .bang, .id e.toList, .colon, .colon, .id t.toList, .colon, .colon, .mf, .colon, .colon, .write, .lpar, .obj, .dot, .mem n.toList, .comma, .star, .sectionWriter, .rpar, .rpar] := by
  rw [← he.word, ← ht.word]
  simp only [lineTokens, tokens, String.toList_append, run_append, he.run, ht.run, hn.run]
  rfl

theorem line74 : lineTokens "        writer.EndWriteSection( section_writer );" = [.writer, .dot, .endWriteSection, .lpar, .sectionWriter, .rpar, .semi] := by decide +kernel

theorem line75 : lineTokens "        section_writer = nullptr;" = [.sectionWriter, .assign, .nullptr_, .semi] := by decide +kernel

theorem line76 {n : String} (hn : Plain n) :
    lineTokens ("        // read variable \"" ++ n ++ "\"") =
      [] := by
  simp only [lineTokens, tokens, String.toList_append, run_append, hn.run]
  rfl

theorem line77 {n t : String} (c : Container) (hn : Plain n) (ht : Plain t) :
    lineTokens ("        success = reader.Read<" ++ tyText c t ++ ">( ISDKeyMacro(\"" ++ n ++ "\") , obj.v_" ++ n ++ " );") =
      [.success, .assign, .reader, .dot, .read, .lt] ++ tyTokens (c, t.toList) ++ [.gt, .lpar, .keyMacro, .lpar, .str n.toList, .rpar, .comma, .obj, .dot, .mem n.toList, .rpar, .semi] := by
  have h : lineTokens ("        success = reader.Read<" ++ tyText c t ++ ">( ISDKeyMacro(\"" ++ n ++ "\") , obj.v_" ++ n ++ " );") =
      tokens ("        success = reader.Read<".toList ++ (tyText c t).toList ++ '>' :: ("( ISDKeyMacro(\"".toList ++ (n.toList ++ ("\") , obj.v_".toList ++ (n.toList ++ (" );".toList ++ ['\n'])))))) := by
    simp only [lineTokens, String.toList_append, List.append_assoc]
    rfl
  have h1 : tokens ('>' :: ("( ISDKeyMacro(\"".toList ++ (n.toList ++ ("\") , obj.v_".toList ++ (n.toList ++ (" );".toList ++ ['\n'])))))) = [.gt, .lpar, .keyMacro, .lpar, .str n.toList, .rpar, .comma, .obj, .dot, .mem n.toList, .rpar, .semi] := by
    rw [show '>' :: ("( ISDKeyMacro(\"".toList ++ (n.toList ++ ("\") , obj.v_".toList ++ (n.toList ++ (" );".toList ++ ['\n']))))) = ['>'] ++ ("( ISDKeyMacro(\"".toList ++ (n.toList ++ ("\") , obj.v_".toList ++ (n.toList ++ (" );".toList ++ ['\n']))))) from rfl]
    simp only [tokens, run_append, hn.run]
    rfl
  rw [h, tokens_ty c ht _ _ '>' rfl rfl, h1]
  rfl

theorem line78 {n : String} (hn : Plain n) :
    lineTokens ("        // read section \"" ++ n ++ "\"") =
      [] := by
  simp only [lineTokens, tokens, String.toList_append, run_append, hn.run]
  rfl

theorem line79 {n : String} (hn : Plain n) :
    lineTokens ("        std::tie(section_reader,success) = reader.BeginReadSection( ISDKeyMacro(\"" ++ n ++ "\") , " ++ "false" ++ " );") =
      [.std_, .colon, .colon, .tie, .lpar, .sectionReader, .comma, .success, .rpar, .assign, .reader, .dot, .beginReadSection, .lpar, .keyMacro, .lpar, .str n.toList, .rpar, .comma, .false_, .rpar, .semi] := by
  simp only [lineTokens, tokens, String.toList_append, run_append, hn.run]
  rfl

theorem line80 : lineTokens "        if( section_reader )" = [.if_, .lpar, .sectionReader, .rpar] := by decide +kernel

theorem line81 {e t n : String} (he : Plain e) (ht : Plain t) (hn : Plain n) :
    lineTokens ("            if( !" ++ e ++ "::" ++ t ++ "::MF::Read( obj.v_" ++ n ++ ", *section_reader ) )") =
      [.if_, .lpar, .bang, .id e.toList, .colon, .colon, .id t.toList, .colon, .colon, .mf, .colon, .colon, .read, .lpar, .obj, .dot, .mem n.toList, .comma, .star, .sectionReader, .rpar, .rpar] := by
  rw [← he.word, ← ht.word]
  simp only [lineTokens, tokens, String.toList_append, run_append, he.run, ht.run, hn.run]
  rfl

theorem line82 : lineTokens "            reader.EndReadSection( section_reader );" = [.reader, .dot, .endReadSection, .lpar, .sectionReader, .rpar, .semi] := by decide +kernel

theorem line83 : lineTokens "            section_reader = nullptr;" = [.sectionReader, .assign, .nullptr_, .semi] := by decide +kernel

theorem line85 {n : String} (hn : Plain n) :
    lineTokens ("        // validate variable \"" ++ n ++ "\"") =
      [] := by
  simp only [lineTokens, tokens, String.toList_append, run_append, hn.run]
  rfl

theorem line87 {t n : String} (ht : Plain t) (hn : Plain n) :
    lineTokens ("        success = " ++ t ++ "::MF::Validate( obj.v_" ++ n ++ " , validator );") =
      [.success, .assign, .id t.toList, .colon, .colon, .mf, .colon, .colon, .validate, .lpar, .obj, .dot, .mem n.toList, .comma, .validator, .rpar, .semi] := by
  rw [← ht.word]
  simp only [lineTokens, tokens, String.toList_append, run_append, ht.run, hn.run]
  rfl

theorem line88 : lineTokens "#include <glm/glm.hpp>" = [] := by decide +kernel

theorem line89 : lineTokens "#include \"ISD_EntityWriter.h\"" = [] := by decide +kernel

theorem line90 : lineTokens "#include \"ISD_EntityReader.h\"" = [] := by decide +kernel

theorem line91 : lineTokens "#include \"ISD_EntityValidator.h\"" = [] := by decide +kernel

theorem line92 {e : String} (he : Plain e) :
    lineTokens ("#include \"ISD_" ++ e ++ ".h\"") =
      [] := by
  simp only [lineTokens, tokens, String.toList_append, run_append, he.run]
  rfl

theorem line93 {e : String} (he : Plain e) :
    lineTokens ("    void " ++ e ++ "::MF::Clear( " ++ e ++ " &obj )") =
      [.void_, .id e.toList, .colon, .colon, .mf, .colon, .colon, .clear, .lpar, .id e.toList, .amp, .obj, .rpar] := by
  rw [← he.word]
  simp only [lineTokens, tokens, String.toList_append, run_append, he.run]
  rfl

theorem line94 : lineTokens "        // direct clear calls on variables and Entities" = [] := by decide +kernel

theorem line95 {e : String} (he : Plain e) :
    lineTokens ("    void " ++ e ++ "::MF::DeepCopy( " ++ e ++ " &dest, const " ++ e ++ " *source )") =
      [.void_, .id e.toList, .colon, .colon, .mf, .colon, .colon, .deepCopy, .lpar, .id e.toList, .amp, .dest, .comma, .const_, .id e.toList, .star, .source, .rpar] := by
  rw [← he.word]
  simp only [lineTokens, tokens, String.toList_append, run_append, he.run]
  rfl

theorem line96 : lineTokens "        // just call Clear if source is nullptr" = [] := by decide +kernel

theorem line97 : lineTokens "        if( !source )" = [.if_, .lpar, .bang, .source, .rpar] := by decide +kernel

theorem line98 : lineTokens "            MF::Clear( dest );" = [.mf, .colon, .colon, .clear, .lpar, .dest, .rpar, .semi] := by decide +kernel

theorem line99 : lineTokens "            return;" = [.return_, .semi] := by decide +kernel

theorem line100 {e : String} (he : Plain e) :
    lineTokens ("    bool " ++ e ++ "::MF::Equals( const " ++ e ++ " *lvar, const " ++ e ++ " *rvar )") =
      [bool_, .id e.toList, .colon, .colon, .mf, .colon, .colon, .equals, .lpar, .const_, .id e.toList, .star, .lvar, .comma, .const_, .id e.toList, .star, .rvar, .rpar] := by
  rw [← he.word]
  simp only [lineTokens, tokens, String.toList_append, run_append, he.run]
  rfl

theorem line101 : lineTokens "        // early out if pointers are equal" = [] := by decide +kernel

theorem line102 : lineTokens "        if( lvar == rvar )" = [.if_, .lpar, .lvar, .assign, .assign, .rvar, .rpar] := by decide +kernel

theorem line103 : lineTokens "            return true;" = [.return_, .true_, .semi] := by decide +kernel

theorem line104 : lineTokens "        // early out if one of the pointers is nullptr" = [] := by decide +kernel

theorem line105 : lineTokens "        if( !lvar || !rvar )" = [.if_, .lpar, .bang, .lvar, .pipe, .pipe, .bang, .rvar, .rpar] := by decide +kernel

theorem line106 : lineTokens "        return true;" = [.return_, .true_, .semi] := by decide +kernel

theorem line107 {e : String} (he : Plain e) :
    lineTokens ("    bool " ++ e ++ "::MF::Write( const " ++ e ++ " &obj, EntityWriter &writer )") =
      [bool_, .id e.toList, .colon, .colon, .mf, .colon, .colon, .write, .lpar, .const_, .id e.toList, .amp, .obj, .comma, .entityWriter, .amp, .writer, .rpar] := by
  rw [← he.word]
  simp only [lineTokens, tokens, String.toList_append, run_append, he.run]
  rfl

theorem line108 : lineTokens "        bool success = true;" = [bool_, .success, .assign, .true_, .semi] := by decide +kernel

theorem line109 : lineTokens "        EntityWriter *section_writer = nullptr;" = [.entityWriter, .star, .sectionWriter, .assign, .nullptr_, .semi] := by decide +kernel

theorem line110 {e : String} (he : Plain e) :
    lineTokens ("    bool " ++ e ++ "::MF::Read( " ++ e ++ " &obj, EntityReader &reader )") =
      [bool_, .id e.toList, .colon, .colon, .mf, .colon, .colon, .read, .lpar, .id e.toList, .amp, .obj, .comma, .entityReader, .amp, .reader, .rpar] := by
  rw [← he.word]
  simp only [lineTokens, tokens, String.toList_append, run_append, he.run]
  rfl

theorem line111 : lineTokens "        EntityReader *section_reader = nullptr;" = [.entityReader, .star, .sectionReader, .assign, .nullptr_, .semi] := by decide +kernel

theorem line112 {e : String} (he : Plain e) :
    lineTokens ("    bool " ++ e ++ "::MF::Validate( const " ++ e ++ " &obj, EntityValidator &validator )") =
      [bool_, .id e.toList, .colon, .colon, .mf, .colon, .colon, .validate, .lpar, .const_, .id e.toList, .amp, .obj, .comma, .entityValidator, .amp, .validator, .rpar] := by
  rw [← he.word]
  simp only [lineTokens, tokens, String.toList_append, run_append, he.run]
  rfl

end ISD.Cpp
