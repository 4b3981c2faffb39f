import Verif.Proofs.CppParse

/-!
# Parsing the files that the generator writes
-/

namespace ISD.Cpp
open Generator

theorem strip_append (p r : List Tok) : strip p (p ++ r) = some r := by
  induction p with
  | nil => rfl
  | cons t p ih => rw [List.cons_append, strip, if_pos rfl, ih]

/-- The names in the description of an entity. -/
structure NamesOk (e : Entity) : Prop where
  name : Plain e.name
  deps : ∀ d ∈ e.dependencies, Plain d.name
  vars : ∀ v ∈ e.vars, VarOk v

theorem deps_include {e : Entity} (h : NamesOk e) (q : Dependency → Bool) :
    ((e.dependencies.flatMap fun dep => if q dep then ["#include \"ISD_" ++ dep.name ++ ".h\""] else []).flatMap lineTokens) = [] := by
  rw [List.flatMap_assoc, List.flatMap_eq_nil_iff]
  intro d hd
  cases q d
  · rfl
  · rw [if_pos rfl, List.flatMap_cons, List.flatMap_nil, line6 (h.deps d hd)]
    rfl

/-- The tokens of a part of the function for each variable. -/
abbrev chunk (e : Entity) (f : Entity → Var → List String) : List Tok := (e.vars.flatMap (f e)).flatMap lineTokens

/-- Whether there are variables of managed classes. -/
def hasManaged (e : Entity) : Bool := e.vars.any fun var => !var.isBaseType

/-- The tokens from the body of `Validate` on. -/
def srcValidate (e : Entity) : List Tok := chunk e implementValidatorCall ++ [.return_, .true_, .semi, .rbrace, .rbrace, .semi]

/-- The tokens from the body of `Read` on. -/
def srcRead (e : Entity) : List Tok :=
  chunk e implementReaderCall ++ [.return_, .true_, .semi, .rbrace] ++ (sigValidate e.name.toList ++ srcValidate e)

/-- The tokens from the body of `Write` on. -/
def srcWrite (e : Entity) : List Tok :=
  chunk e implementWriterCall ++ [.return_, .true_, .semi, .rbrace] ++ (sigRead e.name.toList ++
    ((if hasManaged e then [.entityReader, .star, .sectionReader, .assign, .nullptr_, .semi] else []) ++ srcRead e))

/-- The tokens from the body of `Equals` on. -/
def srcEquals (e : Entity) : List Tok :=
  [.if_, .lpar, .lvar, .assign, .assign, .rvar, .rpar, .return_, .true_, .semi] ++
  [.if_, .lpar, .bang, .lvar, .pipe, .pipe, .bang, .rvar, .rpar, .return_, .false_, .semi] ++
  chunk e implementEqualsCall ++ [.return_, .true_, .semi, .rbrace] ++ (sigWrite e.name.toList ++
    ((if hasManaged e then [.entityWriter, .star, .sectionWriter, .assign, .nullptr_, .semi] else []) ++ srcWrite e))

/-- The tokens from the body of `DeepCopy` on. -/
def srcCopy (e : Entity) : List Tok :=
  .if_ :: .lpar :: ([.bang, .source, .rpar] ++ .lbrace :: ([.mf, .colon, .colon, .clear, .lpar, .dest, .rpar, .semi, .return_, .semi] ++ [.rbrace])) ++
  chunk e implementDeepCopyCall ++ [.rbrace] ++ (sigEquals e.name.toList ++ srcEquals e)

/-- The tokens from the body of `Clear` on. -/
def srcClear (e : Entity) : List Tok :=
  chunk e implementClearCall ++ [.rbrace] ++ (sigDeepCopy e.name.toList ++ srcCopy e)

set_option maxHeartbeats 4000000 in
theorem source_tokens {e : Entity} (h : NamesOk e) :
    (createEntitySource e).flatMap lineTokens = [.namespace_, .isd, .lbrace] ++ sigClear e.name.toList ++ srcClear e := by
  have hd := deps_include h fun dep => !dep.includeInHeader
  have he := h.name
  delta createEntitySource
  rw [show (e.vars.any fun var => !var.isBaseType) = hasManaged e from rfl]
  cases hm : hasManaged e <;>
  simp only [hm, Bool.false_eq_true, if_true, if_false,
    List.flatMap_append, List.flatMap_cons, List.flatMap_nil, hd, line1, line2, line3, line88, line5, line89, line90, line91, line92 he,
    line7, line8, line93 he, line11, line94, line43, line95 he, line96, line97, line57, line98, line99, line58,
    line100 he, line101, line102, line103, line104, line105, line63, line106, line107 he, line108, line109, line110 he, line111, line112 he,
    line50, srcClear, srcCopy, srcEquals, srcWrite, srcRead, srcValidate, sigClear, sigDeepCopy, sigEquals, sigWrite, sigRead, sigValidate,
    inMF, declSuccess, List.cons_append, List.append_assoc, List.nil_append, List.append_nil]

/-- The functions of the generated source file. -/
def sourceOf (e : Entity) : Source where
  clear := e.vars.foldr (fun v s => .act (clearStmt v) s) .nil
  deepCopy := .cond .notSource (.act .clearDest (.ret none .nil)) (e.vars.foldr (fun v s => .act (copyStmt v) s) .nil)
  equals := .cond .samePointer (.ret (some true) .nil) (.cond .anyNull (.ret (some false) .nil)
    (e.vars.foldr (fun v s => .cond (equalsStmt e v) (.ret (some false) .nil) s) (.ret (some true) .nil)))
  writeSection := hasManaged e
  write := e.vars.foldr (writeStmts e) (.ret (some true) .nil)
  readSection := hasManaged e
  read := e.vars.foldr (readStmts e) (.ret (some true) .nil)
  validate := e.vars.foldr validateStmts (.ret (some true) .nil)

theorem parses_return : Parses [.return_, .true_, .semi] (.ret (some true)) := Parses.one (by simp) fun _ _ => rfl

theorem body_clear {e : Entity} (h : NamesOk e) {m : Nat} (hm : (srcClear e).length ≤ m) :
    stmts m (srcClear e) = some ((sourceOf e).clear, sigDeepCopy e.name.toList ++ srcCopy e) := by
  have hp : Parses (chunk e implementClearCall) _ := Parses.flatMap fun v hv => parses_clear e (h.vars v hv)
  have hl : (chunk e implementClearCall).length + 1 ≤ m := by
    refine Nat.le_trans ?_ hm
    simp only [srcClear, List.length_append, List.length_cons]
    omega
  have hb := hp.body (sigDeepCopy e.name.toList ++ srcCopy e) hl
  rw [srcClear, List.append_assoc]
  exact hb

theorem body_copy {e : Entity} (h : NamesOk e) {m : Nat} (hm : (srcCopy e).length ≤ m) :
    stmts m (srcCopy e) = some ((sourceOf e).deepCopy, sigEquals e.name.toList ++ srcEquals e) := by
  have h1 : Parses [.mf, .colon, .colon, .clear, .lpar, .dest, .rpar, .semi] (.act .clearDest) := Parses.one (by simp) fun _ _ => rfl
  have h2 : Parses [.return_, .semi] (.ret none) := Parses.one (by simp) fun _ _ => rfl
  have h3 := Parses.block .notSource [.bang, .source, .rpar] (fun _ => rfl) (h1.append h2)
  have hp : Parses (chunk e implementDeepCopyCall) _ := Parses.flatMap fun v hv => parses_copy e (h.vars v hv)
  have hl : (.if_ :: .lpar :: ([.bang, .source, .rpar] ++ .lbrace :: ([.mf, .colon, .colon, .clear, .lpar, .dest, .rpar, .semi] ++
        [.return_, .semi] ++ [.rbrace])) ++ chunk e implementDeepCopyCall : List Tok).length + 1 ≤ m := by
    refine Nat.le_trans ?_ hm
    simp only [srcCopy, List.length_append, List.length_cons, List.length_nil]
    omega
  have hb := (h3.append hp).body (sigEquals e.name.toList ++ srcEquals e) hl
  rw [srcCopy, List.append_assoc]
  exact hb

theorem body_equals {e : Entity} (h : NamesOk e) {m : Nat} (hm : (srcEquals e).length ≤ m) :
    stmts m (srcEquals e) = some ((sourceOf e).equals, sigWrite e.name.toList ++
      ((if hasManaged e then [.entityWriter, .star, .sectionWriter, .assign, .nullptr_, .semi] else []) ++ srcWrite e)) := by
  have h1 : Parses [.if_, .lpar, .lvar, .assign, .assign, .rvar, .rpar, .return_, .true_, .semi]
    (.cond .samePointer (.ret (some true) .nil)) := Parses.one (by simp) fun _ _ => rfl
  have h2 : Parses [.if_, .lpar, .bang, .lvar, .pipe, .pipe, .bang, .rvar, .rpar, .return_, .false_, .semi]
    (.cond .anyNull (.ret (some false) .nil)) := Parses.one (by simp) fun _ _ => rfl
  have hp : Parses (chunk e implementEqualsCall) _ := Parses.flatMap fun v hv => parses_equals h.name (h.vars v hv)
  have hq := (h1.append (h2.append (hp.append parses_return)))
  have hl : ([.if_, .lpar, .lvar, .assign, .assign, .rvar, .rpar, .return_, .true_, .semi] ++
      ([.if_, .lpar, .bang, .lvar, .pipe, .pipe, .bang, .rvar, .rpar, .return_, .false_, .semi] ++
      (chunk e implementEqualsCall ++ [.return_, .true_, .semi])) : List Tok).length + 1 ≤ m := by
    refine Nat.le_trans ?_ hm
    simp only [srcEquals, List.length_append, List.length_cons, List.length_nil]
    omega
  have hb := hq.body (sigWrite e.name.toList ++
      ((if hasManaged e then [.entityWriter, .star, .sectionWriter, .assign, .nullptr_, .semi] else []) ++ srcWrite e)) hl
  simp only [List.append_assoc, List.cons_append, List.nil_append] at hb
  simp only [srcEquals, List.append_assoc, List.cons_append, List.nil_append]
  exact hb

theorem body_write {e : Entity} (h : NamesOk e) {m : Nat} (hm : (srcWrite e).length ≤ m) :
    stmts m (srcWrite e) = some ((sourceOf e).write, sigRead e.name.toList ++
      ((if hasManaged e then [.entityReader, .star, .sectionReader, .assign, .nullptr_, .semi] else []) ++ srcRead e)) := by
  have hp : Parses (chunk e implementWriterCall) _ := Parses.flatMap fun v hv => parses_write h.name (h.vars v hv)
  have hl : (chunk e implementWriterCall ++ [.return_, .true_, .semi] : List Tok).length + 1 ≤ m := by
    refine Nat.le_trans ?_ hm
    simp only [srcWrite, List.length_append, List.length_cons, List.length_nil]
    omega
  have hb := (hp.append parses_return).body (sigRead e.name.toList ++
      ((if hasManaged e then [.entityReader, .star, .sectionReader, .assign, .nullptr_, .semi] else []) ++ srcRead e)) hl
  simp only [List.append_assoc, List.cons_append, List.nil_append] at hb
  simp only [srcWrite, List.append_assoc, List.cons_append, List.nil_append]
  exact hb

theorem body_read {e : Entity} (h : NamesOk e) {m : Nat} (hm : (srcRead e).length ≤ m) :
    stmts m (srcRead e) = some ((sourceOf e).read, sigValidate e.name.toList ++ srcValidate e) := by
  have hp : Parses (chunk e implementReaderCall) _ := Parses.flatMap fun v hv => parses_read h.name (h.vars v hv)
  have hl : (chunk e implementReaderCall ++ [.return_, .true_, .semi] : List Tok).length + 1 ≤ m := by
    refine Nat.le_trans ?_ hm
    simp only [srcRead, List.length_append, List.length_cons, List.length_nil]
    omega
  have hb := (hp.append parses_return).body (sigValidate e.name.toList ++ srcValidate e) hl
  simp only [List.append_assoc, List.cons_append, List.nil_append] at hb
  simp only [srcRead, List.append_assoc, List.cons_append, List.nil_append]
  exact hb

theorem body_validate {e : Entity} (h : NamesOk e) {m : Nat} (hm : (srcValidate e).length ≤ m) :
    stmts m (srcValidate e) = some ((sourceOf e).validate, [.rbrace, .semi]) := by
  have hp : Parses (chunk e implementValidatorCall) _ := Parses.flatMap fun v hv => parses_validate e (h.vars v hv)
  have hl : (chunk e implementValidatorCall ++ [.return_, .true_, .semi] : List Tok).length + 1 ≤ m := by
    refine Nat.le_trans ?_ hm
    simp only [srcValidate, List.length_append, List.length_cons, List.length_nil]
    omega
  have hb := (hp.append parses_return).body [.rbrace, .semi] hl
  simp only [List.append_assoc, List.cons_append, List.nil_append] at hb
  simp only [srcValidate]
  exact hb

/-- A function body does not begin with `EntityWriter`. -/
theorem declWriter_body {e : Entity} (h : NamesOk e) (b : Bool) :
    declWriter ((if b then [.entityWriter, .star, .sectionWriter, .assign, .nullptr_, .semi] else []) ++ srcWrite e) = (b, srcWrite e) := by
  cases b
  · rw [if_neg Bool.false_ne_true, List.nil_append]
    have hb := body_write h (Nat.le_refl _)
    rw [declWriter]
    intro r hr
    rw [hr] at hb
    simp [stmts, parseAct] at hb
  · rfl

theorem declReader_body {e : Entity} (h : NamesOk e) (b : Bool) :
    declReader ((if b then [.entityReader, .star, .sectionReader, .assign, .nullptr_, .semi] else []) ++ srcRead e) = (b, srcRead e) := by
  cases b
  · rw [if_neg Bool.false_ne_true, List.nil_append]
    have hb := body_read h (Nat.le_refl _)
    rw [declReader]
    intro r hr
    rw [hr] at hb
    simp [stmts, parseAct] at hb
  · rfl

/-- The source file is parsed. -/
theorem parse_source {e : Entity} (h : NamesOk e) :
    parseSource e.name.toList ((createEntitySource e).flatMap lineTokens) = some (sourceOf e) := by
  rw [source_tokens h, parseSource]
  generalize hn : ([.namespace_, .isd, .lbrace] ++ sigClear e.name.toList ++ srcClear e : List Tok).length = n
  have l1 : (srcClear e).length ≤ n := by rw [← hn, List.length_append]; omega
  have l2 : (srcCopy e).length ≤ n := by
    refine Nat.le_trans ?_ l1; rw [srcClear]; simp only [List.length_append]; omega
  have l3 : (srcEquals e).length ≤ n := by
    refine Nat.le_trans ?_ l2; rw [srcCopy]; simp only [List.length_append]; omega
  have l4 : (srcWrite e).length ≤ n := by
    refine Nat.le_trans ?_ l3; rw [srcEquals]; simp only [List.length_append]; omega
  have l5 : (srcRead e).length ≤ n := by
    refine Nat.le_trans ?_ l4; rw [srcWrite]; simp only [List.length_append]; omega
  have l6 : (srcValidate e).length ≤ n := by
    refine Nat.le_trans ?_ l5; rw [srcRead]; simp only [List.length_append]; omega
  simp only [strip_append, Option.bind_eq_bind, Option.bind_some, body_clear h l1, body_copy h l2, body_equals h l3, body_write h l4,
    body_read h l5, body_validate h l6, declWriter_body h, declReader_body h, if_true]
  rfl

end ISD.Cpp
