import Verif.Proofs.DynTextLex

/-!
# ISD_DynamicTypes.cpp parses
-/

namespace ISD.DynText

open Cpp (St Raw Name isId)

set_option maxRecDepth 20000

theorem expect_append (es ts : List Raw) : expect es (es ++ ts) = some ts := by
  induction es with
  | nil => rfl
  | cons e es ih => rw [List.cons_append, expect, if_pos rfl, ih]

/-- The tokens do not begin with `<`. -/
def noLt : List Raw → Bool
  | .sym c :: _ => c ≠ '<'
  | _ => true

theorem pTy_ty (c : Container) (t : Name) (r : List Raw) (h : noLt r = true) : pTy (tyRaw c t ++ r) = some ((c, t), r) := by
  cases c with
  | none =>
    cases r with
    | nil => rfl
    | cons d r =>
      cases d with
      | sym a =>
        by_cases e : a = '<'
        · subst e; cases h
        · show pTy (.word t :: .sym a :: r) = _
          unfold pTy
          split
          · rename_i h1; injection h1 with h1 h2; injection h2 with h2 h3; injection h2 with h2; exact absurd h2 e
          · rename_i h1; injection h1 with h1 h2; injection h1 with h1; subst h1 h2; rfl
          · rename_i h1 h2; exact absurd rfl (h2 _ _)
      | word a => rfl
      | str a => rfl
  | _ => rfl

theorem pWord_cons (x : Name) (ts : List Raw) : pWord (.word x :: ts) = some (x, ts) := rfl
theorem pWord_w (x : String) (ts : List Raw) : pWord (w x :: ts) = some (x.toList, ts) := rfl

theorem pDeref_deref (b : Bool) (c : Container) (t : Name) (x : String) (r : List Raw) :
    pDeref b (derefRaw b c t x ++ r) = some (⟨(c, t), x.toList⟩, r) := by
  have h : ∀ r, pTy (tyRaw c t ++ ([y '*', y ')'] ++ r)) = some ((c, t), [y '*', y ')'] ++ r) := fun r => pTy_ty c t _ rfl
  have e1 : ∀ r, expect [y '*', y ')'] ([y '*', y ')'] ++ r) = some r := expect_append _
  cases b <;>
    simp only [pDeref, derefRaw, List.append_assoc, Bool.false_eq_true, if_false, if_true, expect_append, Option.bind_eq_bind, Option.bind_some, h, Option.pure_def] <;>
    rfl

/-- The class of a type. -/
def classAst (c : Container) (t : Name) : Class where
  name := fullName c t "_DynamicTypeClass"
  object := fullName c t "_DynamicTypeObject"
  typeIndex := (c, t)
  containerIndex := (c, t)
  new := (c, t)
  delete := ⟨(c, t), "data".toList⟩
  clear := ⟨(c, t), "data".toList⟩
  write := ((c, t), ⟨(c, t), "data".toList⟩)
  read := ((c, t), ⟨(c, t), "data".toList⟩)
  copy := (⟨(c, t), "dest".toList⟩, ⟨(c, t), "src".toList⟩)
  equals := (⟨(c, t), "dataA".toList⟩, ⟨(c, t), "dataB".toList⟩)

theorem pClass_class (c : Container) (t : Name) (r : List Raw) : pClass (classRaw c t ++ r) = some (classAst c t, r) := by
  have h1 : ∀ r, pTy (tyRaw c t ++ (clType2 ++ r)) = some ((c, t), clType2 ++ r) := fun r => pTy_ty c t _ rfl
  have h2 : ∀ r, pTy (tyRaw c t ++ (clType3 ++ r)) = some ((c, t), clType3 ++ r) := fun r => pTy_ty c t _ rfl
  have h3 : ∀ r, pTy (tyRaw c t ++ (clNew2 ++ r)) = some ((c, t), clNew2 ++ r) := fun r => pTy_ty c t _ rfl
  have h4 : ∀ r, pTy (tyRaw c t ++ (clDelete2 ++ r)) = some ((c, t), clDelete2 ++ r) := fun r => pTy_ty c t _ rfl
  have h5 : ∀ r, pTy (tyRaw c t ++ (clWrite2 ++ r)) = some ((c, t), clWrite2 ++ r) := fun r => pTy_ty c t _ rfl
  have h6 : ∀ r : List Raw, expect [y ';'] (y ';' :: r) = some r := expect_append [y ';']
  simp only [pClass, classRaw, List.append_assoc, List.cons_append, List.nil_append, expect_append, Option.bind_eq_bind, Option.bind_some, h1, h2, h3, h4, h5, h6,
    pWord_cons, pWord_w, pDeref_deref, Option.pure_def]
  rfl

theorem pClasses_classes (l : List (Container × Name)) (r : List Raw) (hr : expect clA r = none) : ∀ fuel, l.length < fuel →
    pClasses fuel (l.flatMap (fun p => classRaw p.1 p.2) ++ r) = some (l.map (fun p => classAst p.1 p.2), r) := by
  induction l with
  | nil =>
    intro fuel hf
    obtain ⟨n, rfl⟩ := Nat.exists_eq_succ_of_ne_zero (by omega : fuel ≠ 0)
    show pClasses (n + 1) r = _
    rw [pClasses, hr]
    rfl
  | cons p l ih =>
    intro fuel hf
    obtain ⟨n, rfl⟩ := Nat.exists_eq_succ_of_ne_zero (by omega : fuel ≠ 0)
    rw [List.length_cons] at hf
    have ha : ∃ ts, expect clA (classRaw p.1 p.2 ++ (l.flatMap (fun p => classRaw p.1 p.2) ++ r)) = some ts := by
      rw [classRaw, List.append_assoc]
      exact ⟨_, expect_append _ _⟩
    obtain ⟨ts, ha⟩ := ha
    rw [List.flatMap_cons, List.append_assoc, Nat.succ_eq_add_one, pClasses, ha]
    simp only [pClass_class, Option.bind_eq_bind, Option.bind_some, ih n (by omega), Option.pure_def, List.map_cons]

theorem pTable_entries (l : List (Option DynClass)) (r : List Raw) :
    pTable (l.flatMap entryRaw ++ y '}' :: y ';' :: r) =
      some (l.map (fun o => o.map fun cl => fullName cl.c cl.t.name.toList "_DynamicTypeObject"), r) := by
  induction l with
  | nil => rfl
  | cons o l ih =>
    rw [List.flatMap_cons, List.append_assoc]
    cases o with
    | none =>
      show (if "nullptr".toList = "nullptr".toList then
        Option.map (fun q : List (Option Name) × List Raw => (none :: q.1, q.2)) (pTable (l.flatMap entryRaw ++ y '}' :: y ';' :: r)) else none) = _
      rw [if_pos rfl, ih]
      rfl
    | some cl =>
      show Option.map (fun q : List (Option Name) × List Raw => (some (fullName cl.c cl.t.name.toList "_DynamicTypeObject") :: q.1, q.2))
        (pTable (l.flatMap entryRaw ++ y '}' :: y ';' :: r)) = _
      rw [ih]
      rfl

theorem pFind_find (r : List Raw) :
    pFind (fd1 ++ (w "109" :: (fd2 ++ (w "991" :: (fd3 ++ (w "577" :: (fd4 ++ (w "577" :: (fd5 ++ (w "0" :: (fd6 ++ r))))))))))) = some (⟨109, 991, 577, 577, 0⟩, r) := by
  have h : ∀ (s : String) (n : Nat) (r : List Raw), number s.toList = some n → pNum (w s :: r) = some (n, r) := by
    intro s n r hn
    show (do let (x, ts) ← some (s.toList, r); return (← number x, ts)) = _
    simp only [Option.bind_eq_bind, Option.bind_some, hn, Option.pure_def]
  simp only [pFind, expect_append, Option.bind_eq_bind, Option.bind_some, h "109" 109 _ (by decide), h "991" 991 _ (by decide), h "577" 577 _ (by decide),
    h "0" 0 _ (by decide), Option.pure_def]

/-- `new_type`. -/
def newFn : Fn :=
  ⟨"new_type".toList, [.dataType "dataType".toList, .containerType "containerType".toList],
   [.simple (.declNull "data".toList),
    .simple (.find "ta".toList "dataType".toList "containerType".toList),
    .cond (.good "ta".toList) [.new "data".toList "ta".toList],
    .simple (.retPair "data".toList "data".toList)]⟩

theorem p_new (r : List Raw) : pFn (newRaw ++ r) = some (newFn, r) := by rfl

/-- `delete_type`. -/
def deleteFn : Fn :=
  ⟨"delete_type".toList, [.dataType "dataType".toList, .containerType "containerType".toList, .pointer "data".toList],
   [.cond (.null "data".toList) [.log, .retFalse],
    .simple (.find "ta".toList "dataType".toList "containerType".toList),
    .cond (.null "ta".toList) [.retFalse],
    .simple (.call "ta".toList "Delete".toList ["data".toList]),
    .simple .retTrue]⟩

theorem p_delete (r : List Raw) : pFn (deleteRaw ++ r) = some (deleteFn, r) := by rfl

/-- `clear`. -/
def clearFn : Fn :=
  ⟨"clear".toList, [.dataType "dataType".toList, .containerType "containerType".toList, .pointer "data".toList],
   [.cond (.null "data".toList) [.log, .retFalse],
    .simple (.find "ta".toList "dataType".toList "containerType".toList),
    .cond (.null "ta".toList) [.retFalse],
    .simple (.call "ta".toList "Clear".toList ["data".toList]),
    .simple .retTrue]⟩

theorem p_clear (r : List Raw) : pFn (clearRaw ++ r) = some (clearFn, r) := by rfl

/-- `write`. -/
def writeFn : Fn :=
  ⟨"write".toList, [.dataType "dataType".toList, .containerType "containerType".toList, .key "key".toList, .keyLength "key_length".toList, .writer "writer".toList, .pointer "data".toList],
   [.cond (.null "data".toList) [.log, .retFalse],
    .simple (.find "ta".toList "dataType".toList "containerType".toList),
    .cond (.null "ta".toList) [.retFalse],
    .simple (.retCall "ta".toList "Write".toList ["key".toList, "key_length".toList, "writer".toList, "data".toList])]⟩

theorem p_write (r : List Raw) : pFn (writeRaw ++ r) = some (writeFn, r) := by rfl

/-- `read`. -/
def readFn : Fn :=
  ⟨"read".toList, [.dataType "dataType".toList, .containerType "containerType".toList, .key "key".toList, .keyLength "key_length".toList, .reader "reader".toList, .pointer "data".toList],
   [.cond (.null "data".toList) [.log, .retFalse],
    .simple (.find "ta".toList "dataType".toList "containerType".toList),
    .cond (.null "ta".toList) [.retFalse],
    .simple (.retCall "ta".toList "Read".toList ["key".toList, "key_length".toList, "reader".toList, "data".toList])]⟩

theorem p_read (r : List Raw) : pFn (readRaw ++ r) = some (readFn, r) := by rfl

/-- `copy`. -/
def copyFn : Fn :=
  ⟨"copy".toList, [.dataType "dataType".toList, .containerType "containerType".toList, .pointer "dest".toList, .pointer "src".toList],
   [.cond (.anyNull "dest".toList "src".toList) [.log, .retFalse],
    .simple (.find "ta".toList "dataType".toList "containerType".toList),
    .cond (.null "ta".toList) [.retFalse],
    .simple (.call "ta".toList "Copy".toList ["dest".toList, "src".toList]),
    .simple .retTrue]⟩

theorem p_copy (r : List Raw) : pFn (copyRaw ++ r) = some (copyFn, r) := by rfl

/-- `equals`. -/
def equalsFn : Fn :=
  ⟨"equals".toList, [.dataType "dataType".toList, .containerType "containerType".toList, .pointer "dataA".toList, .pointer "dataB".toList],
   [.cond (.anyNull "dataA".toList "dataB".toList) [.log, .retFalse],
    .simple (.find "ta".toList "dataType".toList "containerType".toList),
    .cond (.null "ta".toList) [.retFalse],
    .simple (.retCall "ta".toList "Equals".toList ["dataA".toList, "dataB".toList])]⟩

theorem p_equals (r : List Raw) : pFn (equalsRaw ++ r) = some (equalsFn, r) := by rfl

end ISD.DynText
