import Verif.Proofs.CppLex

/-!
# Parsing the functions that the generator writes
-/

namespace ISD.Cpp
open Generator

/-- The container of a variable. -/
def varContainer (v : Var) : Container :=
  match v.optional, v.vector, v.indexed with
  | true, true, true => .optionalIdxVector
  | true, true, false => .optionalVector
  | true, false, _ => .optionalValue
  | false, true, true => .idxVector
  | false, true, false => .vector
  | false, false, _ => .none

theorem typeString_eq (v : Var) : v.typeString = tyText (varContainer v) v.type := by
  obtain ⟨t, n, o, ve, i⟩ := v
  cases o <;> cases ve <;> cases i <;> rfl

/-- The tokens are those of some statements, which `F` puts before others. -/
def Parses (chunk : List Tok) (F : Stmts → Stmts) : Prop :=
  ∃ k, k ≤ chunk.length ∧ ∀ f r s r', (∀ m, f ≤ m → stmts m r = some (s, r')) → ∀ m, f + k ≤ m → stmts m (chunk ++ r) = some (F s, r')

theorem Parses.nil : Parses [] fun s => s := ⟨0, Nat.le_refl _, fun _ _ _ _ h m hm => h m hm⟩

theorem Parses.append {a b : List Tok} {F G : Stmts → Stmts} (ha : Parses a F) (hb : Parses b G) : Parses (a ++ b) fun s => F (G s) := by
  obtain ⟨k, hk, ha⟩ := ha
  obtain ⟨l, hl, hb⟩ := hb
  refine ⟨l + k, by rw [List.length_append]; omega, fun f r s r' h m hm => ?_⟩
  rw [List.append_assoc]
  exact ha (f + l) _ _ _ (hb f r s r' h) m (by omega)

theorem Parses.one {a : List Tok} {F : Stmts → Stmts} (hl : 1 ≤ a.length) (h : ∀ m r, stmts (m + 1) (a ++ r) = before F (stmts m r)) :
    Parses a F := by
  refine ⟨1, hl, fun f r s r' hr m hm => ?_⟩
  obtain ⟨m, rfl⟩ : ∃ n, m = n + 1 := ⟨m - 1, by omega⟩
  rw [h, hr m (by omega)]
  rfl

/-- `if( section_reader ) { … }` and `if( !source ) { … }`. -/
theorem Parses.block {a : List Tok} {F : Stmts → Stmts} (c : Cond) (ts : List Tok) (hc : ∀ r, parseCond (ts ++ .lbrace :: r) = some (c, .lbrace :: r))
    (ha : Parses a F) : Parses (.if_ :: .lpar :: (ts ++ .lbrace :: (a ++ [.rbrace]))) (.cond c (F .nil)) := by
  obtain ⟨k, hk, ha⟩ := ha
  refine ⟨k + 2, by simp only [List.length_cons, List.length_append]; omega, fun f r s r' hr m hm => ?_⟩
  obtain ⟨m, rfl⟩ : ∃ n, m = n + 1 := ⟨m - 1, by omega⟩
  have h1 : stmts m (a ++ .rbrace :: r) = some (F .nil, r) := by
    refine ha 1 (.rbrace :: r) .nil r (fun n hn => ?_) m (by omega)
    obtain ⟨n, rfl⟩ : ∃ j, n = j + 1 := ⟨n - 1, by omega⟩
    rfl
  have h2 : stmts (m + 1) (.if_ :: .lpar :: (ts ++ .lbrace :: (a ++ .rbrace :: r))) = some (.cond c (F .nil) s, r') := by
    rw [stmts, hc]
    simp only [h1, hr m (by omega), before]
  simpa only [List.cons_append, List.append_assoc, List.nil_append] using h2

/-- The body of a function. -/
theorem Parses.body {a : List Tok} {F : Stmts → Stmts} (ha : Parses a F) (r : List Tok) {m : Nat} (hm : a.length + 1 ≤ m) :
    stmts m (a ++ .rbrace :: r) = some (F .nil, r) := by
  obtain ⟨k, hk, ha⟩ := ha
  refine ha 1 (.rbrace :: r) .nil r (fun n hn => ?_) m (by omega)
  obtain ⟨n, rfl⟩ : ∃ j, n = j + 1 := ⟨n - 1, by omega⟩
  rfl

/-- The same for each variable. -/
theorem Parses.flatMap {vs : List Var} {f : Var → List String} {F : Var → Stmts → Stmts}
    (h : ∀ v ∈ vs, Parses ((f v).flatMap lineTokens) (F v)) :
    Parses ((vs.flatMap f).flatMap lineTokens) fun s => vs.foldr F s := by
  induction vs with
  | nil => exact Parses.nil
  | cons v vs ih =>
    rw [List.flatMap_cons, List.flatMap_append]
    exact (h v (List.mem_cons_self ..)).append (ih fun w hw => h w (List.mem_cons_of_mem _ hw))

/-- A variable of an entity: its name and type are plain words, and only base types have flags. -/
structure VarOk (v : Var) : Prop where
  name : Plain v.name
  type : Plain v.type
  indexed : v.indexed = true → v.vector = true
  flags : v.isBaseType = false → v.optional = false ∧ v.vector = false

/-! ## Clear -/

/-- The statement for a variable. -/
def clearStmt (v : Var) : Act :=
  if v.isBaseType then if v.optional then .reset v.name.toList else .assignDefault v.name.toList
  else .clear v.type.toList v.name.toList

theorem parses_clear (e : Entity) {v : Var} (hv : VarOk v) :
    Parses ((implementClearCall e v).flatMap lineTokens) fun s => .act (clearStmt v) s := by
  cases hb : v.isBaseType <;> cases ho : v.optional <;>
    simp only [implementClearCall, clearStmt, hb, ho, Bool.false_eq_true, if_true, if_false, List.cons_append, List.nil_append,
      List.flatMap_cons, List.flatMap_nil, line3, line51 hv.name, line52 hv.name, line53 hv.name, line54 hv.type hv.name,
      List.append_nil] <;>
    exact Parses.one (by simp) fun _ _ => rfl

/-! ## DeepCopy -/

/-- The statement for a variable. -/
def copyStmt (v : Var) : Act :=
  if v.isBaseType then .copy v.name.toList v.name.toList else .deepCopy v.type.toList v.name.toList v.name.toList

theorem parses_copy (e : Entity) {v : Var} (hv : VarOk v) :
    Parses ((implementDeepCopyCall e v).flatMap lineTokens) fun s => .act (copyStmt v) s := by
  cases hb : v.isBaseType
  · simp only [implementDeepCopyCall, copyStmt, hb, (hv.flags hb).1, Bool.false_eq_true, if_false, List.cons_append, List.nil_append,
      List.flatMap_cons, List.flatMap_nil, line3, line55 hv.name, line60 hv.type hv.name, List.append_nil]
    exact Parses.one (by simp) fun _ _ => rfl
  · simp only [implementDeepCopyCall, copyStmt, hb, if_true, List.cons_append, List.nil_append,
      List.flatMap_cons, List.flatMap_nil, line3, line55 hv.name, line56 hv.name, List.append_nil]
    exact Parses.one (by simp) fun _ _ => rfl

/-! ## Equals -/

/-- The condition for a variable. -/
def equalsStmt (e : Entity) (v : Var) : Cond :=
  if v.isBaseType then .differ v.name.toList v.name.toList else .notEquals e.name.toList v.type.toList v.name.toList v.name.toList

theorem parses_equals {e : Entity} (he : Plain e.name) {v : Var} (hv : VarOk v) :
    Parses ((implementEqualsCall e v).flatMap lineTokens) fun s => .cond (equalsStmt e v) (.ret (some false) .nil) s := by
  cases hb : v.isBaseType
  · simp only [implementEqualsCall, equalsStmt, hb, (hv.flags hb).1, Bool.false_eq_true, if_false, List.cons_append, List.nil_append,
      List.flatMap_cons, List.flatMap_nil, line3, line61 hv.name, line66 he hv.type hv.name, line63, List.append_nil]
    exact Parses.one (by simp) fun _ _ => rfl
  · simp only [implementEqualsCall, equalsStmt, hb, if_true, List.cons_append, List.nil_append,
      List.flatMap_cons, List.flatMap_nil, line3, line61 hv.name, line62 hv.name, line63, List.append_nil]
    exact Parses.one (by simp) fun _ _ => rfl

/-! ## Write -/

/-- `if( c ) return false;` -/
def failIf (c : Cond) (s : Stmts) : Stmts := .cond c (.ret (some false) .nil) s

/-- The type of a variable. -/
def varTy (v : Var) : Ty := (varContainer v, v.type.toList)

/-- The statements for a variable. -/
def writeStmts (e : Entity) (v : Var) (s : Stmts) : Stmts :=
  if v.isBaseType then .act (.writeBase (varTy v) v.name.toList v.name.toList) (failIf .notSuccess s)
  else
    .act (.beginWrite v.name.toList) (failIf .notSuccess (failIf (.notWrite e.name.toList v.type.toList v.name.toList)
      (.act .endWrite (.act .dropWriter s))))

/-- `if( !success ) return false;` -/
theorem parses_notSuccess : Parses [.if_, .lpar, .bang, .success, .rpar, .return_, .false_, .semi] (failIf .notSuccess) :=
  Parses.one (by simp) fun _ _ => rfl

theorem parses_write {e : Entity} (he : Plain e.name) {v : Var} (hv : VarOk v) :
    Parses ((implementWriterCall e v).flatMap lineTokens) (writeStmts e v) := by
  cases hb : v.isBaseType
  · simp only [implementWriterCall, hb, (hv.flags hb).1, Bool.false_eq_true, if_false, List.cons_append, List.nil_append,
      List.flatMap_cons, List.flatMap_nil, line3, line70 hv.name, line71 hv.name, line69, line63, line73 he hv.type hv.name, line74, line75,
      List.append_nil]
    have h1 : Parses [.success, .assign, .lpar, .sectionWriter, .assign, .writer, .dot, .beginWriteSection, .lpar, .keyMacro, .lpar,
      .str v.name.toList, .rpar, .rpar, .rpar, .semi] (.act (.beginWrite v.name.toList)) := Parses.one (by simp) fun _ _ => rfl
    have h2 : Parses [.if_, .lpar, .bang, .id e.name.toList, .colon, .colon, .id v.type.toList, .colon, .colon, .mf, .colon, .colon, .write,
      .lpar, .obj, .dot, .mem v.name.toList, .comma, .star, .sectionWriter, .rpar, .rpar, .return_, .false_, .semi]
      (failIf (.notWrite e.name.toList v.type.toList v.name.toList)) := Parses.one (by simp) fun _ _ => rfl
    have h3 : Parses [.writer, .dot, .endWriteSection, .lpar, .sectionWriter, .rpar, .semi] (.act .endWrite) :=
      Parses.one (by simp) fun _ _ => rfl
    have h4 : Parses [.sectionWriter, .assign, .nullptr_, .semi] (.act .dropWriter) := Parses.one (by simp) fun _ _ => rfl
    have h := h1.append (parses_notSuccess.append (h2.append (h3.append h4)))
    rw [show writeStmts e v = fun s => .act (.beginWrite v.name.toList) (failIf .notSuccess
      (failIf (.notWrite e.name.toList v.type.toList v.name.toList) (.act .endWrite (.act .dropWriter s)))) from
        funext fun s => if_neg (by rw [hb]; decide)]
    exact h
  · simp only [implementWriterCall, hb, if_true, typeString_eq,
      List.flatMap_cons, List.flatMap_nil, line3, line67 hv.name, line68 (varContainer v) hv.name hv.type, line69, line63,
      List.append_nil, List.nil_append]
    have h1 : ∀ c : Container, Parses ([.success, .assign, .writer, .dot, .write, .lt] ++ tyTokens (c, v.type.toList) ++ [.gt, .lpar, .keyMacro, .lpar,
        .str v.name.toList, .rpar, .comma, .obj, .dot, .mem v.name.toList, .rpar, .semi])
        (.act (.writeBase (c, v.type.toList) v.name.toList v.name.toList)) := by
      intro c
      cases c <;> exact Parses.one (by simp) fun _ _ => rfl
    have h := (h1 (varContainer v)).append parses_notSuccess
    rw [show writeStmts e v = fun s => .act (.writeBase (varTy v) v.name.toList v.name.toList) (failIf .notSuccess s) from
        funext fun s => if_pos hb]
    exact h

/-! ## Read -/

/-- The statements for a variable. -/
def readStmts (e : Entity) (v : Var) (s : Stmts) : Stmts :=
  if v.isBaseType then .act (.readBase (varTy v) v.name.toList v.name.toList) (failIf .notSuccess s)
  else
    .act (.beginRead v.name.toList false) (failIf .notSuccess
      (.cond .hasReader (failIf (.notRead e.name.toList v.type.toList v.name.toList) (.act .endRead (.act .dropReader .nil))) s))

theorem parses_read {e : Entity} (he : Plain e.name) {v : Var} (hv : VarOk v) :
    Parses ((implementReaderCall e v).flatMap lineTokens) (readStmts e v) := by
  cases hb : v.isBaseType
  · simp only [implementReaderCall, hb, (hv.flags hb).1, Bool.false_eq_true, if_false, List.cons_append, List.nil_append,
      List.flatMap_cons, List.flatMap_nil, line3, line78 hv.name, line79 hv.name, line69, line63, line80, line57, line72,
      line81 he hv.type hv.name, line82, line83, line58, List.append_nil]
    have h1 : Parses [.std_, .colon, .colon, .tie, .lpar, .sectionReader, .comma, .success, .rpar, .assign, .reader, .dot, .beginReadSection,
      .lpar, .keyMacro, .lpar, .str v.name.toList, .rpar, .comma, .false_, .rpar, .semi] (.act (.beginRead v.name.toList false)) :=
      Parses.one (by simp) fun _ _ => rfl
    have h2 : Parses [.if_, .lpar, .bang, .id e.name.toList, .colon, .colon, .id v.type.toList, .colon, .colon, .mf, .colon, .colon, .read,
      .lpar, .obj, .dot, .mem v.name.toList, .comma, .star, .sectionReader, .rpar, .rpar, .return_, .false_, .semi]
      (failIf (.notRead e.name.toList v.type.toList v.name.toList)) := Parses.one (by simp) fun _ _ => rfl
    have h3 : Parses [.reader, .dot, .endReadSection, .lpar, .sectionReader, .rpar, .semi] (.act .endRead) :=
      Parses.one (by simp) fun _ _ => rfl
    have h4 : Parses [.sectionReader, .assign, .nullptr_, .semi] (.act .dropReader) := Parses.one (by simp) fun _ _ => rfl
    have h := h1.append (parses_notSuccess.append (Parses.block .hasReader [.sectionReader, .rpar] (fun _ => rfl)
      (h2.append (h3.append h4))))
    rw [show readStmts e v = fun s => .act (.beginRead v.name.toList false) (failIf .notSuccess
      (.cond .hasReader (failIf (.notRead e.name.toList v.type.toList v.name.toList) (.act .endRead (.act .dropReader .nil))) s)) from
        funext fun s => if_neg (by rw [hb]; decide)]
    exact h
  · simp only [implementReaderCall, hb, if_true, typeString_eq,
      List.flatMap_cons, List.flatMap_nil, line3, line76 hv.name, line77 (varContainer v) hv.name hv.type, line69, line63,
      List.append_nil, List.nil_append]
    have h1 : ∀ c : Container, Parses ([.success, .assign, .reader, .dot, .read, .lt] ++ tyTokens (c, v.type.toList) ++ [.gt, .lpar, .keyMacro, .lpar,
        .str v.name.toList, .rpar, .comma, .obj, .dot, .mem v.name.toList, .rpar, .semi])
        (.act (.readBase (c, v.type.toList) v.name.toList v.name.toList)) := by
      intro c
      cases c <;> exact Parses.one (by simp) fun _ _ => rfl
    have h := (h1 (varContainer v)).append parses_notSuccess
    rw [show readStmts e v = fun s => .act (.readBase (varTy v) v.name.toList v.name.toList) (failIf .notSuccess s) from
        funext fun s => if_pos hb]
    exact h

/-! ## Validate -/

/-- The statements for a variable. -/
def validateStmts (v : Var) (s : Stmts) : Stmts :=
  if v.isBaseType then s else .act (.validate v.type.toList v.name.toList) (failIf .notSuccess s)

theorem parses_validate (e : Entity) {v : Var} (hv : VarOk v) :
    Parses ((implementValidatorCall e v).flatMap lineTokens) (validateStmts v) := by
  cases hb : v.isBaseType
  · simp only [implementValidatorCall, hb, (hv.flags hb).1, Bool.false_eq_true, Bool.not_false, if_true, if_false, List.cons_append,
      List.nil_append, List.flatMap_cons, List.flatMap_nil, line3, line85 hv.name, line87 hv.type hv.name, line69, line63, List.append_nil]
    have h1 : Parses [.success, .assign, .id v.type.toList, .colon, .colon, .mf, .colon, .colon, .validate, .lpar, .obj, .dot,
      .mem v.name.toList, .comma, .validator, .rpar, .semi] (.act (.validate v.type.toList v.name.toList)) :=
      Parses.one (by simp) fun _ _ => rfl
    have h := h1.append parses_notSuccess
    rw [show validateStmts v = fun s => .act (.validate v.type.toList v.name.toList) (failIf .notSuccess s) from
        funext fun s => if_neg (by rw [hb]; decide)]
    exact h
  · simp only [implementValidatorCall, hb, Bool.not_true, Bool.false_eq_true, if_false, List.flatMap_nil]
    rw [show validateStmts v = fun s => s from funext fun s => if_pos hb]
    exact Parses.nil

end ISD.Cpp
