import Verif.Proofs.DynTextParse
import Verif.Proofs.Dynamic

/-!
# ISD_DynamicTypes.cpp parses, the whole file
-/

namespace ISD.DynText

open Cpp (St Raw Name isId)

set_option maxRecDepth 20000

/-- The tokens of the file, with the classes and the table given. -/
def fileRaw (l : List (Container × Name)) (tbl : List (Option DynClass)) : List Raw :=
  fileHead ++ (l.flatMap (fun p => classRaw p.1 p.2) ++ (tbA ++ (w "577" :: (tbB ++ (tbl.flatMap entryRaw ++ (y '}' :: y ';' ::
    (fd1 ++ (w "109" :: (fd2 ++ (w "991" :: (fd3 ++ (w "577" :: (fd4 ++ (w "577" :: (fd5 ++ (w "0" :: (fd6 ++
    (newRaw ++ (deleteRaw ++ (clearRaw ++ (writeRaw ++ (readRaw ++ (copyRaw ++ (equalsRaw ++ [y '}', y ';', y '}', y ';']))))))))))))))))))))))))

/-- The functions. -/
def fnsAst : List Fn := [newFn, deleteFn, clearFn, writeFn, readFn, copyFn, equalsFn]

/-- The file, with the classes and the table given. -/
def fileAst (l : List (Container × Name)) (tbl : List (Option DynClass)) : File where
  classes := l.map fun p => classAst p.1 p.2
  tableSize := 577
  table := tbl.map fun o => o.map fun cl => fullName cl.c cl.t.name.toList "_DynamicTypeObject"
  find := ⟨109, 991, 577, 577, 0⟩
  fns := fnsAst

theorem pFns_cons (n : Nat) (ts r : List Raw) (f : Fn) (hr : ts ≠ [.sym '}', .sym ';', .sym '}', .sym ';']) (h : pFn ts = some (f, r)) :
    pFns (n + 1) ts = (pFns n r).map fun fs => f :: fs := by
  rw [pFns]
  · simp only [h, Option.bind_eq_bind, Option.bind_some, Option.pure_def]
    cases pFns n r <;> rfl
  · intro e; exact hr e

theorem pFns_file (n : Nat) (hn : 8 ≤ n) :
    pFns n (newRaw ++ (deleteRaw ++ (clearRaw ++ (writeRaw ++ (readRaw ++ (copyRaw ++ (equalsRaw ++ [y '}', y ';', y '}', y ';']))))))) = some fnsAst := by
  obtain ⟨m, rfl⟩ := Nat.exists_eq_add_of_le hn
  rw [show 8 + m = (m + 7) + 1 by omega]
  rw [pFns_cons _ _ _ _ (by intro h; exact nomatch h) (p_new _), pFns_cons _ _ _ _ (by intro h; exact nomatch h) (p_delete _),
    pFns_cons _ _ _ _ (by intro h; exact nomatch h) (p_clear _), pFns_cons _ _ _ _ (by intro h; exact nomatch h) (p_write _),
    pFns_cons _ _ _ _ (by intro h; exact nomatch h) (p_read _), pFns_cons _ _ _ _ (by intro h; exact nomatch h) (p_copy _),
    pFns_cons _ _ _ _ (by intro h; exact nomatch h) (p_equals _)]
  rfl

theorem classRaw_pos (c : Container) (t : Name) : 1 ≤ (classRaw c t).length := by
  rw [classRaw, List.length_append]
  exact Nat.le_trans (by decide : 1 ≤ clA.length) (Nat.le_add_right _ _)

theorem classes_pos (l : List (Container × Name)) : l.length ≤ (l.flatMap fun p => classRaw p.1 p.2).length := by
  induction l with
  | nil => exact Nat.le_refl _
  | cons p l ih =>
    have := classRaw_pos p.1 p.2
    rw [List.flatMap_cons, List.length_append, List.length_cons]
    omega

theorem parse_raw (l : List (Container × Name)) (tbl : List (Option DynClass)) : parse (fileRaw l tbl) = some (fileAst l tbl) := by
  have hlen : 8 ≤ (fileRaw l tbl).length ∧ l.length < (fileRaw l tbl).length := by
    have h1 := classes_pos l
    have h2 : 8 ≤ fileHead.length := by decide
    rw [fileRaw, List.length_append, List.length_append]
    omega
  generalize hn : (fileRaw l tbl).length = n at hlen
  have ht : ∀ r : List Raw, expect clA (tbA ++ r) = none := fun r => rfl
  have hnum : ∀ r : List Raw, pNum (w "577" :: r) = some (577, r) := by
    intro r
    show (do let (x, ts) ← some ("577".toList, r); return (← number x, ts)) = _
    simp only [Option.bind_eq_bind, Option.bind_some, show number "577".toList = some 577 by decide, Option.pure_def]
  simp only [parse, hn]
  simp only [fileRaw, expect_append, Option.bind_eq_bind, Option.bind_some, pClasses_classes l _ (ht _) n hlen.2, hnum, pTable_entries, pFind_find,
    pFns_file n hlen.1, Option.pure_def]
  rfl

theorem names_ident : ∀ t ∈ allTypes, t.name.toList ≠ [] ∧ ∀ c ∈ t.name.toList, isId c = true := by decide +kernel

theorem ident_of {t : DataType} (h : t ∈ allTypes) : Ident t.name.toList := ⟨(names_ident t h).1, (names_ident t h).2⟩

theorem all_types : ∀ cl ∈ DynClass.all, cl.t ∈ allTypes := by decide +kernel

attribute [local irreducible] dynTable DynClass.all

theorem table_class {cl : DynClass} (h : some cl ∈ dynTable) : cl ∈ DynClass.all := (dynTable_inv.mem cl).2 h

/-- The pairs of types of the classes, in the order of the file. -/
def pairs : List (Container × Name) := allTypes.flatMap fun t => allContainers.map fun c => (c, t.name.toList)

theorem classes_lines : ∀ ts : List DataType, (∀ t ∈ ts, Ident t.name.toList) →
    (ts.flatMap fun t => allContainers.flatMap fun c => classText t.name (containerName c) (combo c t.name)).flatMap lineRaw =
      (ts.flatMap fun t => allContainers.map fun c => (c, t.name.toList)).flatMap fun p => classRaw p.1 p.2 := by
  intro ts
  induction ts with
  | nil => intro _; rfl
  | cons t ts ih =>
    intro h
    have e : ∀ cs : List Container, (cs.flatMap fun c => classText t.name (containerName c) (combo c t.name)).flatMap lineRaw =
        (cs.map fun c => (c, t.name.toList)).flatMap fun p => classRaw p.1 p.2 := by
      intro cs
      induction cs with
      | nil => rfl
      | cons c cs ih' =>
        rw [List.flatMap_cons, List.flatMap_append, class_lines c (h t (List.mem_cons_self ..)), ih', List.map_cons, List.flatMap_cons]
    rw [List.flatMap_cons, List.flatMap_append, e, ih fun t ht => h t (List.mem_cons_of_mem _ ht), List.flatMap_cons, List.flatMap_append]

theorem entries_lines : ∀ l : List (Option DynClass), (∀ cl, some cl ∈ l → Ident cl.t.name.toList) → (l.map entry).flatMap lineRaw = l.flatMap entryRaw := by
  intro l
  induction l with
  | nil => intro _; rfl
  | cons o l ih =>
    intro h
    rw [List.map_cons, List.flatMap_cons, List.flatMap_cons, entry_line o fun cl e => h cl (e ▸ List.mem_cons_self ..),
      ih fun cl hc => h cl (List.mem_cons_of_mem _ hc)]

theorem tokens_file : tokens file = fileRaw pairs dynTable := by
  rw [file, tokens_lines, lines]
  simp only [List.flatMap_append, head_lines, table_lines, find_lines, tail_lines, new_lines, delete_lines, clear_lines, write_lines, read_lines, copy_lines,
    equals_lines, classes_lines allTypes fun t h => ident_of h, entries_lines dynTable fun cl h => ident_of (all_types cl (table_class h))]
  simp only [fileRaw, pairs, List.append_assoc, List.cons_append]

/-- The text of the file, parsed. -/
theorem parse_file : parse (tokens file) = some (fileAst pairs dynTable) := by
  rw [tokens_file, parse_raw]

end ISD.DynText
