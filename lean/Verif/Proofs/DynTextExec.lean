import Verif.Proofs.DynTextTable

/-!
# Calls of the functions in the text of ISD_DynamicTypes.cpp
-/

namespace ISD.DynText

open Cpp (St Raw Name isId)

set_option maxRecDepth 20000

attribute [local irreducible] dynTable DynClass.all pairs findTypeClass theFile

/-- A step of the heap, in the memory of the text. -/
def onWorld {α : Type} (p : Prog VHeap.World α) (g : α → Out) : Prog Mem Out := fun m =>
  match p m.world with
  | .ok a v => .ok (g a) { m with world := v }
  | .throw v => .throw { m with world := v }
  | .ub => .ub

theorem find_all {dt ct : Word 4} {cl : DynClass} (h : findTypeClass dt ct = some cl) : cl ∈ DynClass.all := (((find_exact dt ct).2 cl).1 h).1

/-- The object at an address, as the heap of the model has it. -/
theorem object_deref {cl : DynClass} (h : cl ∈ DynClass.all) (a : Nat) (m : Mem) :
    object (cl.c, cl.t.name.toList) a m =
      match VHeap.deref a cl m.world with
      | .ok o _ => .ok o m
      | _ => .ub := by
  rw [object, VHeap.deref]
  dsimp only
  rw [named h]
  cases m.world.heap a with
  | none => rfl
  | some o =>
    dsimp only
    rw [DynObj.madeBy]
    by_cases e : o.t = cl.t ∧ o.c = cl.c
    · rw [if_pos e, if_pos (decide_eq_true e)]
    · rw [if_neg e, if_neg (by rw [decide_eq_false e]; exact fun h => nomatch h)]

theorem deref_keeps {a : Nat} {cl : DynClass} {v v' : VHeap.World} {o : DynObj} (h : VHeap.deref a cl v = .ok o v') :
    v' = v ∧ o.t = cl.t ∧ o.c = cl.c ∧ v.heap a = some o := by
  rw [VHeap.deref] at h
  cases e : v.heap a with
  | none => rw [e] at h; exact nomatch h
  | some o' =>
    rw [e] at h
    dsimp only at h
    cases e2 : o'.madeBy cl with
    | false => rw [e2] at h; exact nomatch h
    | true =>
      rw [e2] at h
      injection h with h1 h2
      subst h1 h2
      have := of_decide_eq_true e2
      exact ⟨rfl, this.1, this.2, rfl⟩

theorem deref_no_throw {a : Nat} {cl : DynClass} {v v' : VHeap.World} : VHeap.deref a cl v ≠ .throw v' := by
  rw [VHeap.deref]
  cases v.heap a with
  | none => exact fun h => nomatch h
  | some o =>
    dsimp only
    split <;> exact fun h => nomatch h

theorem target_eq (e : Env) (ty : Ty) (x : Name) (a : Nat) (h : e.get x = some (.ptr (some a))) (m : Mem) :
    target e ⟨ty, x⟩ m = (match object ty a m with | .ok o m' => .ok (a, o) m' | .throw m' => .throw m' | .ub => .ub) := by
  rw [target]
  dsimp only
  rw [h]
  dsimp only
  rw [Prog.bind_apply]
  cases object ty a m <;> rfl

theorem m_new (x : Outside) {cl : DynClass} (h : cl ∈ DynClass.all) (m : Mem) :
    method x (classOf cl) "New".toList [] m = onWorld (VHeap.new x.al cl) (fun a => .ptr (some a)) m := by
  show (newObject x.al (cl.c, cl.t.name.toList) >>= fun a => pure (Out.ptr (some a))) m = _
  rw [Prog.bind_apply, newObject, onWorld, VHeap.new]
  dsimp only
  rw [named h]
  dsimp only
  by_cases e : x.al.allocOk m.world.n = true
  · rw [if_pos e, if_pos e]; rfl
  · rw [if_neg e, if_neg e]

/-- One object, then what is done with it. -/
theorem m_one {α : Type} {cl : DynClass} (h : cl ∈ DynClass.all) (e : Env) (v : Name) (a : Nat) (he : e.get v = some (.ptr (some a))) (m : Mem)
    (k : Nat × DynObj → Prog Mem α) :
    (target e ⟨(cl.c, cl.t.name.toList), v⟩ >>= k) m =
      match VHeap.deref a cl m.world with
      | .ok o _ => k (a, o) m
      | _ => .ub := by
  rw [Prog.bind_apply, target_eq _ _ _ _ he, object_deref h]
  cases VHeap.deref a cl m.world <;> rfl

theorem m_delete (x : Outside) {cl : DynClass} (h : cl ∈ DynClass.all) (a : Nat) (m : Mem) :
    method x (classOf cl) "Delete".toList [.ptr (some a)] m = onWorld (VHeap.delete a cl) (fun _ => .void) m := by
  show (target [("data".toList, .ptr (some a))] ⟨(cl.c, cl.t.name.toList), "data".toList⟩ >>= fun p => do put p.1 none; return Out.void) m = _
  rw [m_one h _ _ a rfl, onWorld, VHeap.delete, Prog.bind_apply]
  cases e : VHeap.deref a cl m.world with
  | ok o v => rw [(deref_keeps e).1]; rfl
  | throw v => exact absurd e deref_no_throw
  | ub => rfl

/-- `clear` of the object. -/
def clearAt (a : Nat) (cl : DynClass) : Prog VHeap.World Unit := do
  let o ← VHeap.deref a cl
  VHeap.store a ⟨o.t, o.c, o.c.zero o.t.zero⟩

theorem m_clear (x : Outside) {cl : DynClass} (h : cl ∈ DynClass.all) (a : Nat) (m : Mem) :
    method x (classOf cl) "Clear".toList [.ptr (some a)] m = onWorld (clearAt a cl) (fun _ => .void) m := by
  show (target [("data".toList, .ptr (some a))] ⟨(cl.c, cl.t.name.toList), "data".toList⟩ >>=
    fun p => do put p.1 (some ⟨p.2.t, p.2.c, p.2.c.zero p.2.t.zero⟩); return Out.void) m = _
  rw [m_one h _ _ a rfl, onWorld, clearAt, Prog.bind_apply]
  cases e : VHeap.deref a cl m.world with
  | ok o v => rw [(deref_keeps e).1]; rfl
  | throw v => exact absurd e deref_no_throw
  | ub => rfl

/-- `copy` between the objects. -/
def copyAt (a b : Nat) (cl : DynClass) : Prog VHeap.World Unit := do
  let _ ← VHeap.deref a cl
  let o ← VHeap.deref b cl
  VHeap.store a o

theorem m_copy (x : Outside) {cl : DynClass} (h : cl ∈ DynClass.all) (a b : Nat) (m : Mem) :
    method x (classOf cl) "Copy".toList [.ptr (some a), .ptr (some b)] m = onWorld (copyAt a b cl) (fun _ => .void) m := by
  show (target [("dest".toList, .ptr (some a)), ("src".toList, .ptr (some b))] ⟨(cl.c, cl.t.name.toList), "dest".toList⟩ >>=
    fun p => target [("dest".toList, .ptr (some a)), ("src".toList, .ptr (some b))] ⟨(cl.c, cl.t.name.toList), "src".toList⟩ >>=
    fun q => if (cl.c, cl.t.name.toList) = (cl.c, cl.t.name.toList) then (do put p.1 (some q.2); return Out.void) else Prog.ub) m = _
  rw [m_one h _ _ a rfl, onWorld, copyAt, Prog.bind_apply]
  cases e : VHeap.deref a cl m.world with
  | ok o v =>
    rw [(deref_keeps e).1]
    dsimp only
    rw [m_one h _ _ b rfl, Prog.bind_apply]
    cases e2 : VHeap.deref b cl m.world with
    | ok o2 v2 =>
      rw [(deref_keeps e2).1]
      dsimp only
      rw [if_pos rfl]
      rfl
    | throw v => exact absurd e2 deref_no_throw
    | ub => rfl
  | throw v => exact absurd e deref_no_throw
  | ub => rfl

/-- `equals` of the objects. -/
def equalAt (a b : Nat) (cl : DynClass) : Prog VHeap.World Bool := do
  let x ← VHeap.deref a cl
  let y ← VHeap.deref b cl
  return x.equal y

theorem m_equals (x : Outside) {cl : DynClass} (h : cl ∈ DynClass.all) (a b : Nat) (m : Mem) :
    method x (classOf cl) "Equals".toList [.ptr (some a), .ptr (some b)] m = onWorld (equalAt a b cl) .bool m := by
  show (target [("dataA".toList, .ptr (some a)), ("dataB".toList, .ptr (some b))] ⟨(cl.c, cl.t.name.toList), "dataA".toList⟩ >>=
    fun p => target [("dataA".toList, .ptr (some a)), ("dataB".toList, .ptr (some b))] ⟨(cl.c, cl.t.name.toList), "dataB".toList⟩ >>=
    fun q => if (cl.c, cl.t.name.toList) = (cl.c, cl.t.name.toList) then pure (Out.bool (p.2.equal q.2)) else Prog.ub) m = _
  rw [m_one h _ _ a rfl, onWorld, equalAt, Prog.bind_apply]
  cases e : VHeap.deref a cl m.world with
  | ok o v =>
    rw [(deref_keeps e).1]
    dsimp only
    rw [m_one h _ _ b rfl, Prog.bind_apply]
    cases e2 : VHeap.deref b cl m.world with
    | ok o2 v2 =>
      rw [(deref_keeps e2).1]
      dsimp only
      rw [if_pos rfl]
      rfl
    | throw v => exact absurd e2 deref_no_throw
    | ub => rfl
  | throw v => exact absurd e deref_no_throw
  | ub => rfl

theorem m_write (x : Outside) {cl : DynClass} (h : cl ∈ DynClass.all) (k : Bytes) (a : Nat) (m : Mem) :
    method x (classOf cl) "Write".toList [.key k, .len k.length, .writer, .ptr (some a)] m =
      match VHeap.deref a cl m.world with
      | .ok o _ => (do return Out.bool (← writeObject k o)) m
      | _ => .ub := by
  show (target [("data".toList, .ptr (some a))] ⟨(cl.c, cl.t.name.toList), "data".toList⟩ >>=
    fun p => if k.length = k.length ∧ (cl.c, cl.t.name.toList) = (cl.c, cl.t.name.toList) then (do return Out.bool (← writeObject k p.2)) else Prog.ub) m = _
  rw [m_one h _ _ a rfl]
  cases VHeap.deref a cl m.world with
  | ok o v => dsimp only; rw [if_pos ⟨rfl, rfl⟩]
  | throw v => rfl
  | ub => rfl

theorem m_read (x : Outside) {cl : DynClass} (h : cl ∈ DynClass.all) (k : Bytes) (a : Nat) (m : Mem) :
    method x (classOf cl) "Read".toList [.key k, .len k.length, .reader, .ptr (some a)] m =
      match VHeap.deref a cl m.world with
      | .ok o _ => (do return Out.bool (← readObject x k a o)) m
      | _ => .ub := by
  show (target [("data".toList, .ptr (some a))] ⟨(cl.c, cl.t.name.toList), "data".toList⟩ >>=
    fun p => if k.length = k.length ∧ (cl.c, cl.t.name.toList) = (cl.c, cl.t.name.toList) then (do return Out.bool (← readObject x k p.1 p.2)) else Prog.ub) m = _
  rw [m_one h _ _ a rfl]
  cases VHeap.deref a cl m.world with
  | ok o v => dsimp only; rw [if_pos ⟨rfl, rfl⟩]
  | throw v => rfl
  | ub => rfl

/-! ## Statements -/

/-- The lookup, then the statements after it. -/
theorem stmts_find (x : Outside) (e : Env) (v a b : Name) (ss : List Stmt) (dt ct : Word 4) (ha : e.get a = some (.dataType dt))
    (hb : e.get b = some (.containerType ct)) (m : Mem) :
    stmts x theFile e (.simple (.find v a b) :: ss) m = stmts x theFile ((v, .cls ((findTypeClass dt ct).map classOf)) :: e) ss m := by
  rw [stmts, Prog.bind_apply, simple, ha, hb]
  dsimp only
  rw [lookup_file]
  rfl

theorem stmts_simple (x : Outside) (f : File) (e : Env) (s : Simple) (ss : List Stmt) (m : Mem) :
    stmts x f e (.simple s :: ss) m =
      match simple x f e s m with
      | .ok (.inl e) m => stmts x f e ss m
      | .ok (.inr o) m => .ok o m
      | .throw m => .throw m
      | .ub => .ub := by
  rw [stmts, Prog.bind_apply]
  cases simple x f e s m with
  | ok r m' => cases r <;> rfl
  | throw m' => rfl
  | ub => rfl

theorem stmts_skip (x : Outside) (f : File) (e : Env) (c : Cond) (b : List Simple) (ss : List Stmt) (h : cond e c = some false) (m : Mem) :
    stmts x f e (.cond c b :: ss) m = stmts x f e ss m := by
  rw [stmts, h]

theorem stmts_enter (x : Outside) (f : File) (e : Env) (c : Cond) (b : List Simple) (ss : List Stmt) (h : cond e c = some true) (m : Mem) :
    stmts x f e (.cond c b :: ss) m =
      match block x f e b m with
      | .ok (.inl e) m => stmts x f e ss m
      | .ok (.inr o) m => .ok o m
      | .throw m => .throw m
      | .ub => .ub := by
  rw [stmts, h]
  dsimp only
  rw [Prog.bind_apply]
  cases block x f e b m with
  | ok r m' => cases r <;> rfl
  | throw m' => rfl
  | ub => rfl

theorem through_eq (x : Outside) (e : Env) (v n : Name) (args : List Name) (c : Class) (vs : List Val) (h1 : e.get v = some (.cls (some c)))
    (h2 : e.all args = some vs) : through x e v n args = method x c n vs := by
  rw [through, h1, h2]

theorem simple_new (x : Outside) (f : File) (e : Env) (v w : Name) {c : Class} {p : Option Nat} (h1 : e.get w = some (.cls (some c)))
    (h2 : e.get v = some (.ptr p)) (m : Mem) :
    simple x f e (.new v w) m =
      match method x c "New".toList [] m with
      | .ok (.ptr p) m => .ok (.inl ((v, .ptr p) :: e)) m
      | .ok _ _ => .ub
      | .throw m => .throw m
      | .ub => .ub := by
  rw [simple, through_eq x e w _ [] c [] h1 rfl, Prog.bind_apply, h2]
  cases method x c "New".toList [] m with
  | ok o m' => cases o <;> rfl
  | throw m' => rfl
  | ub => rfl

theorem simple_call (x : Outside) (f : File) (e : Env) (v n : Name) (args : List Name) {c : Class} {vs : List Val} (h1 : e.get v = some (.cls (some c)))
    (h2 : e.all args = some vs) (m : Mem) :
    simple x f e (.call v n args) m =
      match method x c n vs m with
      | .ok _ m => .ok (.inl e) m
      | .throw m => .throw m
      | .ub => .ub := by
  rw [simple, through_eq x e v n args c vs h1 h2, Prog.bind_apply]
  cases method x c n vs m <;> rfl

theorem simple_retCall (x : Outside) (f : File) (e : Env) (v n : Name) (args : List Name) {c : Class} {vs : List Val}
    (h1 : e.get v = some (.cls (some c))) (h2 : e.all args = some vs) (m : Mem) :
    simple x f e (.retCall v n args) m =
      match method x c n vs m with
      | .ok (.bool b) m => .ok (.inr (.bool b)) m
      | .ok _ _ => .ub
      | .throw m => .throw m
      | .ub => .ub := by
  rw [simple, through_eq x e v n args c vs h1 h2, Prog.bind_apply]
  cases method x c n vs m with
  | ok o m' => cases o <;> rfl
  | throw m' => rfl
  | ub => rfl

theorem block_one (x : Outside) (f : File) (e : Env) (s : Simple) (m : Mem) : block x f e [s] m = simple x f e s m := by
  rw [block, Prog.bind_apply]
  cases simple x f e s m with
  | ok r m' => cases r <;> rfl
  | throw m' => rfl
  | ub => rfl

/-- A call by name of a function with this syntax. -/
theorem call_fn (x : Outside) (name : String) (g : Fn) (args : List Val) (e : Env) (hg : fnsAst.find? (fun g => g.name == name.toList) = some g)
    (he : enter g.params args = some e) (m : Mem) : call file x name args m = stmts x theFile e g.body m := by
  have ht : theFile = fileAst pairs dynTable := by unfold theFile; rfl
  rw [call, parse_file]
  dsimp only
  rw [← ht, File.call]
  have : theFile.fns = fnsAst := by rw [ht]; rfl
  rw [this, hg]
  dsimp only
  rw [he]

theorem has_new : fnsAst.find? (fun g => g.name == "new_type".toList) = some newFn := by
  rw [fnsAst, List.find?_cons_of_pos (by decide)]

theorem has_delete : fnsAst.find? (fun g => g.name == "delete_type".toList) = some deleteFn := by
  rw [fnsAst, List.find?_cons_of_neg (by decide), List.find?_cons_of_pos (by decide)]

theorem has_clear : fnsAst.find? (fun g => g.name == "clear".toList) = some clearFn := by
  rw [fnsAst, List.find?_cons_of_neg (by decide), List.find?_cons_of_neg (by decide), List.find?_cons_of_pos (by decide)]

theorem has_write : fnsAst.find? (fun g => g.name == "write".toList) = some writeFn := by
  rw [fnsAst, List.find?_cons_of_neg (by decide), List.find?_cons_of_neg (by decide), List.find?_cons_of_neg (by decide), List.find?_cons_of_pos (by decide)]

theorem has_read : fnsAst.find? (fun g => g.name == "read".toList) = some readFn := by
  rw [fnsAst, List.find?_cons_of_neg (by decide), List.find?_cons_of_neg (by decide), List.find?_cons_of_neg (by decide), List.find?_cons_of_neg (by decide), List.find?_cons_of_pos (by decide)]

theorem has_copy : fnsAst.find? (fun g => g.name == "copy".toList) = some copyFn := by
  rw [fnsAst, List.find?_cons_of_neg (by decide), List.find?_cons_of_neg (by decide), List.find?_cons_of_neg (by decide), List.find?_cons_of_neg (by decide), List.find?_cons_of_neg (by decide), List.find?_cons_of_pos (by decide)]

theorem has_equals : fnsAst.find? (fun g => g.name == "equals".toList) = some equalsFn := by
  rw [fnsAst, List.find?_cons_of_neg (by decide), List.find?_cons_of_neg (by decide), List.find?_cons_of_neg (by decide), List.find?_cons_of_neg (by decide), List.find?_cons_of_neg (by decide), List.find?_cons_of_neg (by decide), List.find?_cons_of_pos (by decide)]

theorem call_new (x : Outside) (dt ct : Word 4) (m : Mem) :
    call file x "new_type" [.dataType dt, .containerType ct] m = onWorld (VHeap.newType x.al dt ct) (fun p => .pair p p.isSome) m := by
  rw [call_fn x "new_type" newFn _ [("dataType".toList, .dataType dt), ("containerType".toList, .containerType ct)] has_new rfl]
  show stmts x theFile _ (.simple (.declNull "data".toList) :: .simple (.find "ta".toList "dataType".toList "containerType".toList) ::
    [.cond (.good "ta".toList) [.new "data".toList "ta".toList], .simple (.retPair "data".toList "data".toList)]) m = _
  rw [stmts_simple]
  show stmts x theFile (("data".toList, .ptr none) :: _) _ m = _
  rw [stmts_find x _ _ _ _ _ dt ct rfl rfl, onWorld, VHeap.newType]
  cases hf : findTypeClass dt ct with
  | none => rw [stmts_skip (h := rfl)]; rfl
  | some cl =>
    rw [stmts_enter (h := rfl)]
    rw [Option.map_some, block_one, simple_new x theFile (c := classOf cl) (p := none) _ _ _ rfl rfl, m_new x (find_all hf), onWorld]
    rw [VHeap.withClass, Prog.bind_apply]
    cases VHeap.new x.al cl m.world <;> rfl

theorem call_delete (x : Outside) (dt ct : Word 4) (p : Option Nat) (m : Mem) :
    call file x "delete_type" [.dataType dt, .containerType ct, .ptr p] m = onWorld (VHeap.deleteType dt ct p) .bool m := by
  rw [call_fn x "delete_type" deleteFn _ [("dataType".toList, .dataType dt), ("containerType".toList, .containerType ct), ("data".toList, .ptr p)] has_delete rfl]
  delta deleteFn
  dsimp only
  cases p with
  | none => rw [stmts_enter (h := rfl)]; rfl
  | some a =>
    rw [stmts_skip (h := rfl), stmts_find x _ _ _ _ _ dt ct rfl rfl, onWorld, VHeap.deleteType]
    cases hf : findTypeClass dt ct with
    | none => rw [stmts_enter (h := rfl)]; rfl
    | some cl =>
      rw [stmts_skip (h := rfl), stmts_simple, simple_call x theFile (c := classOf cl) (vs := [.ptr (some a)]) _ _ _ _ rfl rfl, m_delete x (find_all hf), onWorld]
      rw [VHeap.withClass, Prog.bind_apply]
      cases VHeap.delete a cl m.world <;> rfl

theorem call_clear (x : Outside) (dt ct : Word 4) (p : Option Nat) (m : Mem) :
    call file x "clear" [.dataType dt, .containerType ct, .ptr p] m = onWorld (VHeap.clearType dt ct p) .bool m := by
  rw [call_fn x "clear" clearFn _ [("dataType".toList, .dataType dt), ("containerType".toList, .containerType ct), ("data".toList, .ptr p)] has_clear rfl,
    clearFn]
  cases p with
  | none => rw [stmts_enter (h := rfl)]; rfl
  | some a =>
    rw [stmts_skip (h := rfl), stmts_find x _ _ _ _ _ dt ct rfl rfl, onWorld, VHeap.clearType]
    cases hf : findTypeClass dt ct with
    | none => rw [stmts_enter (h := rfl)]; rfl
    | some cl =>
      rw [stmts_skip (h := rfl), stmts_simple, simple_call x theFile (c := classOf cl) (vs := [.ptr (some a)]) _ _ _ _ rfl rfl, m_clear x (find_all hf), onWorld]
      rw [VHeap.withClass, Prog.bind_apply, clearAt, Prog.bind_apply]
      cases VHeap.deref a cl m.world <;> rfl

theorem call_copy (x : Outside) (dt ct : Word 4) (p q : Option Nat) (m : Mem) :
    call file x "copy" [.dataType dt, .containerType ct, .ptr p, .ptr q] m = onWorld (VHeap.copyType dt ct p q) .bool m := by
  rw [call_fn x "copy" copyFn _ [("dataType".toList, .dataType dt), ("containerType".toList, .containerType ct), ("dest".toList, .ptr p), ("src".toList, .ptr q)]
    has_copy rfl, copyFn]
  cases p with
  | none => cases q <;> (rw [stmts_enter (h := rfl)]; rfl)
  | some a =>
    cases q with
    | none => rw [stmts_enter (h := rfl)]; rfl
    | some b =>
      rw [stmts_skip (h := rfl), stmts_find x _ _ _ _ _ dt ct rfl rfl, onWorld, VHeap.copyType]
      cases hf : findTypeClass dt ct with
      | none => rw [stmts_enter (h := rfl)]; rfl
      | some cl =>
        rw [stmts_skip (h := rfl), stmts_simple, simple_call x theFile (c := classOf cl) (vs := [.ptr (some a), .ptr (some b)]) _ _ _ _ rfl rfl,
          m_copy x (find_all hf), onWorld]
        rw [VHeap.withClass, Prog.bind_apply, copyAt, Prog.bind_apply]
        cases VHeap.deref a cl m.world with
        | ok o v =>
          dsimp only
          rw [Prog.bind_apply, Prog.bind_apply]
          cases VHeap.deref b cl v <;> rfl
        | throw v => rfl
        | ub => rfl

theorem call_equals (x : Outside) (dt ct : Word 4) (p q : Option Nat) (m : Mem) :
    call file x "equals" [.dataType dt, .containerType ct, .ptr p, .ptr q] m = onWorld (VHeap.equalsType dt ct p q) .bool m := by
  rw [call_fn x "equals" equalsFn _ [("dataType".toList, .dataType dt), ("containerType".toList, .containerType ct), ("dataA".toList, .ptr p),
    ("dataB".toList, .ptr q)] has_equals rfl, equalsFn]
  cases p with
  | none => cases q <;> (rw [stmts_enter (h := rfl)]; rfl)
  | some a =>
    cases q with
    | none => rw [stmts_enter (h := rfl)]; rfl
    | some b =>
      rw [stmts_skip (h := rfl), stmts_find x _ _ _ _ _ dt ct rfl rfl, onWorld, VHeap.equalsType]
      cases hf : findTypeClass dt ct with
      | none => rw [stmts_enter (h := rfl)]; rfl
      | some cl =>
        rw [stmts_skip (h := rfl), stmts_simple, simple_retCall x theFile (c := classOf cl) (vs := [.ptr (some a), .ptr (some b)]) _ _ _ _ rfl rfl,
          m_equals x (find_all hf), onWorld]
        rw [VHeap.withClass, equalAt]
        cases ((VHeap.deref a cl >>= fun x => VHeap.deref b cl >>= fun y => pure (x.equal y)) : Prog VHeap.World Bool) m.world <;> rfl

/-- What `write` and `read` do before the value is written or read. -/
def onObject (dt ct : Word 4) (p : Option Nat) (g : Nat → DynObj → Prog Mem Bool) : Prog Mem Out := fun m =>
  match p with
  | none => .ok (.bool false) m
  | some a =>
    match findTypeClass dt ct with
    | none => .ok (.bool false) m
    | some cl =>
      match VHeap.deref a cl m.world with
      | .ok o _ => (do return Out.bool (← g a o)) m
      | _ => .ub

theorem call_write (x : Outside) (dt ct : Word 4) (k : Bytes) (p : Option Nat) (m : Mem) :
    call file x "write" [.dataType dt, .containerType ct, .key k, .len k.length, .writer, .ptr p] m = onObject dt ct p (fun _ o => writeObject k o) m := by
  rw [call_fn x "write" writeFn _ [("dataType".toList, .dataType dt), ("containerType".toList, .containerType ct), ("key".toList, .key k),
    ("key_length".toList, .len k.length), ("writer".toList, .writer), ("data".toList, .ptr p)] has_write rfl, writeFn]
  cases p with
  | none => rw [stmts_enter (h := rfl)]; rfl
  | some a =>
    rw [stmts_skip (h := rfl), stmts_find x _ _ _ _ _ dt ct rfl rfl, onObject]
    cases hf : findTypeClass dt ct with
    | none => rw [stmts_enter (h := rfl)]; rfl
    | some cl =>
      rw [stmts_skip (h := rfl), stmts_simple, simple_retCall x theFile (c := classOf cl) (vs := [.key k, .len k.length, .writer, .ptr (some a)]) _ _ _ _ rfl rfl,
        m_write x (find_all hf)]
      dsimp only
      cases VHeap.deref a cl m.world with
      | ok o v =>
        dsimp only
        rw [Prog.bind_apply]
        cases writeObject k o m <;> rfl
      | throw v => rfl
      | ub => rfl

theorem call_read (x : Outside) (dt ct : Word 4) (k : Bytes) (p : Option Nat) (m : Mem) :
    call file x "read" [.dataType dt, .containerType ct, .key k, .len k.length, .reader, .ptr p] m = onObject dt ct p (readObject x k) m := by
  rw [call_fn x "read" readFn _ [("dataType".toList, .dataType dt), ("containerType".toList, .containerType ct), ("key".toList, .key k),
    ("key_length".toList, .len k.length), ("reader".toList, .reader), ("data".toList, .ptr p)] has_read rfl, readFn]
  cases p with
  | none => rw [stmts_enter (h := rfl)]; rfl
  | some a =>
    rw [stmts_skip (h := rfl), stmts_find x _ _ _ _ _ dt ct rfl rfl, onObject]
    cases hf : findTypeClass dt ct with
    | none => rw [stmts_enter (h := rfl)]; rfl
    | some cl =>
      rw [stmts_skip (h := rfl), stmts_simple, simple_retCall x theFile (c := classOf cl) (vs := [.key k, .len k.length, .reader, .ptr (some a)]) _ _ _ _ rfl rfl,
        m_read x (find_all hf)]
      dsimp only
      cases VHeap.deref a cl m.world with
      | ok o v =>
        dsimp only
        rw [Prog.bind_apply]
        cases readObject x k a o m <;> rfl
      | throw v => rfl
      | ub => rfl

end ISD.DynText
