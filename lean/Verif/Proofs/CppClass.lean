import Verif.Proofs.CppExecIO
import Verif.Proofs.CppSource
import Verif.Proofs.CppHeader
import Verif.Spec.Generator

/-!
# The generated files as a class
-/

namespace ISD.Cpp
open Generator

theorem container_eq (v : Var) : v.container = varContainer v := by
  obtain ⟨t, n, o, ve, i⟩ := v
  cases o <;> cases ve <;> cases i <;> rfl

theorem find_usings (ts : List Template) (n : String) :
    (ts.map fun t => (t.name.toList, useOf t)).find? (fun u => u.1 == n.toList) =
      (ts.find? fun t => t.name == n).map fun t => (t.name.toList, useOf t) := by
  rw [List.find?_map]
  congr 2
  funext t
  show (t.name.toList == n.toList) = (t.name == n)
  rw [Bool.eq_iff_iff, beq_iff_eq, beq_iff_eq, String.toList_inj]

theorem members_eq (T : Templates) (ts : List Template) (hts : ∀ t ∈ ts, getBaseType t.name = none) (vs : List Var) (hv : ∀ v ∈ vs, VarOk v)
    (fs : List Field) (h : fieldsOf T ts vs = some fs) :
    ∃ ms, members T (ts.map fun t => (t.name.toList, useOf t)) (vs.map declOf) = some ms ∧ ms.map Member.field = fs ∧ Agree vs ms ∧
      ms.map Member.name = vs.map (·.name.toList) := by
  induction vs generalizing fs with
  | nil =>
    cases h
    exact ⟨[], rfl, rfl, .nil, rfl⟩
  | cons v vs ih =>
    rw [fieldsOf] at h
    cases hf : fieldOf T ts v with
    | none => rw [hf] at h; exact nomatch h
    | some f =>
      cases hfs : fieldsOf T ts vs with
      | none => rw [hf, hfs] at h; exact nomatch h
      | some fs' =>
        rw [hf, hfs] at h
        cases h
        obtain ⟨ms, h1, h2, h3, h4⟩ := ih (fun v hv' => hv v (List.mem_cons_of_mem _ hv')) fs' hfs
        have hvo := hv v (List.mem_cons_self ..)
        rw [fieldOf] at hf
        cases hb : getBaseType v.type with
        | some t =>
          rw [show (allTypes.find? fun t => t.name == v.type) = some t from hb] at hf
          cases hf
          have hnone : ts.find? (fun t => t.name == v.type) = none := by
            rw [List.find?_eq_none]
            intro t' ht' he
            rw [beq_iff_eq] at he
            have := hts t' ht'
            rw [he, hb] at this
            exact nomatch this
          have hbt : v.isBaseType = true := by rw [Var.isBaseType, hb]; rfl
          have hm : member T (ts.map fun t => (t.name.toList, useOf t)) (declOf v) =
              some (.base v.name.toList v.type.toList t (varContainer v)) := by
            have hf2 : (ts.map fun t => (t.name.toList, useOf t)).find? (fun u => u.1 == (declOf v).ty.2) = none := by
              rw [show (declOf v).ty.2 = v.type.toList from rfl, find_usings, hnone]
              rfl
            have hbt2 : baseType (declOf v).ty.2 = some t := by
              rw [show (declOf v).ty.2 = v.type.toList from rfl, baseType, String.ofList_toList]
              exact hb
            have hin : (declOf v).init = true ∨ (declOf v).ty.1 ≠ .none := by
              show v.isSimpleBaseType = true ∨ varContainer v ≠ .none
              have hidx := hvo.indexed
              rw [Var.isSimpleBaseType, hbt, Var.isSimpleValue]
              obtain ⟨ty, n, o, ve, i⟩ := v
              cases o <;> cases ve <;> cases i <;> simp_all [varContainer]
            rw [member, hf2]
            simp only [hbt2]
            rw [if_pos hin]
            rfl
          refine ⟨_, by rw [List.map_cons, members, hm, h1], ?_, Agree.base t hbt h3, ?_⟩
          · rw [List.map_cons, h2, container_eq]
            rfl
          · rw [List.map_cons, List.map_cons, h4]
            rfl
        | none =>
          rw [show (allTypes.find? fun t => t.name == v.type) = none from hb] at hf
          have hbt : v.isBaseType = false := by rw [Var.isBaseType, hb]; rfl
          cases htm : ts.find? fun t => t.name == v.type with
          | none => rw [htm] at hf; exact nomatch hf
          | some tm =>
            rw [htm] at hf
            cases hT : T v.name.toList tm.use with
            | none => simp only [hT] at hf; exact nomatch hf
            | some x =>
              obtain ⟨V, M⟩ := x
              simp only [hT] at hf
              cases hf
              have hm : member T (ts.map fun t => (t.name.toList, useOf t)) (declOf v) =
                  some (.sub v.name.toList v.type.toList V M) := by
                have hf2 : (ts.map fun t => (t.name.toList, useOf t)).find? (fun u => u.1 == (declOf v).ty.2) = some (tm.name.toList, useOf tm) := by
                  rw [show (declOf v).ty.2 = v.type.toList from rfl, find_usings, htm]
                  rfl
                have hc : (declOf v).ty.1 = .none := by
                  show varContainer v = .none
                  obtain ⟨ho, hve⟩ := hvo.flags hbt
                  rw [← container_eq, Var.container, ho, hve]
                rw [member, hf2]
                simp only [show T (declOf v).name (useOf tm) = some ⟨V, M⟩ from hT]
                rw [if_pos hc]
                rfl
              refine ⟨_, by rw [List.map_cons, members, hm, h1], ?_, Agree.sub V M hbt h3, ?_⟩
              · rw [List.map_cons, h2]
                rfl
              · rw [List.map_cons, List.map_cons, h4]
                rfl

theorem total_eq {A : Type u} {B : A → Type v} {f : (a : A) → Option (B a)} {g : (a : A) → B a} (h : ∀ a, f a = some (g a)) : total f = some g := by
  have hs : ∀ a, (f a).isSome := fun a => by rw [h a]; rfl
  rw [total, dif_pos hs]
  congr 1
  funext a
  apply Option.some.inj
  rw [Option.some_get, h a]

theorem run_whole {S α : Type} (q : Prog S α) : (Part.whole S).run q = q := by
  funext s
  simp only [Part.run, Part.whole]
  cases q s <;> rfl

theorem reading_whole {S α : Type} (q : Prog (RSt × S) α) : (Part.whole S).reading q = q := by
  funext s
  simp only [Part.reading, onPart, Part.whole]
  cases q s <;> rfl

theorem classOf_source {e : Entity} {ms : List Member} (ha : Agree e.vars ms) (hn : (ms.map Member.name).Nodup) :
    classOf e.name.toList ms (sourceOf e) = some (entityMF (ms.map Member.field)).toClass := by
  have hp := Part.Lawful.whole (Obj ms)
  have hc : Covers (access ms (Part.whole (Obj ms))) ms (Part.whole (Obj ms)) := covers_access _ ms _ (fun _ _ => rfl) hn
  have hm : ∀ v ∈ e.vars, v.isBaseType = false → hasManaged e = true := by
    intro v hv hb
    rw [hasManaged, List.any_eq_true]
    exact ⟨v, hv, by rw [hb]; rfl⟩
  have hclear : runClear (access ms (Part.whole (Obj ms))) (sourceOf e).clear = some (fieldsClear (ms.map Member.field)) := by
    rw [runClear, show (sourceOf e).clear = e.vars.foldr (fun v s => .act (clearStmt v) s) .nil from rfl, exec_clear ha _ hp hc, run_whole]
    exact congrArg some (bindUnit _)
  have hcopy : total (runDeepCopy (access ms (Part.whole (Obj ms))) (fieldsClear (ms.map Member.field)) (sourceOf e).deepCopy) =
      some (entityMF (ms.map Member.field)).copy := by
    apply total_eq
    intro src
    rw [runDeepCopy, show (sourceOf e).deepCopy = .cond .notSource (.act .clearDest (.ret none .nil))
      (e.vars.foldr (fun v s => .act (copyStmt v) s) .nil) from rfl]
    cases src with
    | null =>
      obtain ⟨q, hq⟩ := exec_copy_null ha (Part.whole (Obj ms)) hc (fieldsClear (ms.map Member.field))
      rw [exec_block (x := pure true) rfl (exec_act (x := fieldsClear (ms.map Member.field)) rfl (q := pure (some ())) rfl) hq]
      apply congrArg some
      funext s
      show _ = fieldsClear (ms.map Member.field) s
      rw [pureBind, if_pos rfl, continue_, Prog.bind_apply, Prog.bind_apply, Prog.bind_apply]
      cases fieldsClear (ms.map Member.field) s <;> rfl
    | self =>
      rw [exec_block (x := pure false) rfl (exec_act (x := fieldsClear (ms.map Member.field)) rfl (q := pure (some ())) rfl)
        (exec_copy ha _ hp hc _ .self (fun h => nomatch h)), run_whole]
      exact congrArg some (bindUnit _)
    | other v =>
      rw [exec_block (x := pure false) rfl (exec_act (x := fieldsClear (ms.map Member.field)) rfl (q := pure (some ())) rfl)
        (exec_copy ha _ hp hc _ (.other v) (fun h => nomatch h)), run_whole]
      exact congrArg some (bindUnit _)
  have hequals : total (fun a : Bool × Option (Obj ms) × Option (Obj ms) =>
      runEquals (access ms (Part.whole (Obj ms))) e.name.toList (sourceOf e).equals a.1 a.2.1 a.2.2) =
      some fun a => (entityMF (ms.map Member.field)).equalsPtr a.1 a.2.1 a.2.2 := by
    apply total_eq
    rintro ⟨same, l, r⟩
    have hall : ∃ q, exec (m := Option) (fun _ => none) (equalsCond (access ms (Part.whole (Obj ms))) e.name.toList same l r) retBool
        (e.vars.foldr (fun v s => .cond (equalsStmt e v) (.ret (some false) .nil) s) (.ret (some true) .nil)) = some q ∧
        (same = false → ∀ a b, l = some a → r = some b → q = (fieldsEquals (ms.map Member.field) a b).map some) := by
      obtain ⟨q, hq⟩ := exec_equals_other (e := e) ha (Part.whole (Obj ms)) hc same l r
      refine ⟨q, hq, ?_⟩
      rintro rfl a b rfl rfl
      rw [exec_equals ha _ hc] at hq
      exact (Option.some.inj hq).symm
    obtain ⟨q, hq, hval⟩ := hall
    rw [runEquals, show (sourceOf e).equals = .cond .samePointer (.ret (some true) .nil) (.cond .anyNull (.ret (some false) .nil)
      (e.vars.foldr (fun v s => .cond (equalsStmt e v) (.ret (some false) .nil) s) (.ret (some true) .nil))) from rfl,
      exec_block (x := some same) rfl (q := pure (some true)) rfl
        (exec_block (x := some (l.isNone || r.isNone)) rfl (q := pure (some false)) rfl hq)]
    apply congrArg some
    cases same with
    | true => rfl
    | false =>
      cases l with
      | none => rfl
      | some a =>
        cases r with
        | none => rfl
        | some b =>
          show q >>= id = fieldsEquals (ms.map Member.field) a b
          rw [hval rfl a b rfl rfl]
          cases fieldsEquals (ms.map Member.field) a b <;> rfl
  have hwrite : total (fun a : (Bytes → Nat) × Obj ms =>
      runWrite (access ms (Part.whole (Obj ms))) e.name.toList (sourceOf e).writeSection (sourceOf e).write a.1 a.2) =
      some fun a => fieldsWrite a.1 (ms.map Member.field) a.2 := by
    apply total_eq
    rintro ⟨fresh, obj⟩
    obtain ⟨q, hq, h⟩ := exec_write (e := e) ha (Part.whole (Obj ms)) hc (hasManaged e) hm fresh obj
    rw [runWrite, show (sourceOf e).write = e.vars.foldr (writeStmts e) (.ret (some true) .nil) from rfl,
      show (sourceOf e).writeSection = hasManaged e from rfl]
    simp only [hq]
    apply congrArg some
    funext st
    rw [finish_eq, h]
    rfl
  have hread : total (fun a : Leftover × REnv × (Bytes → Nat) =>
      runRead (access ms (Part.whole (Obj ms))) e.name.toList (sourceOf e).readSection (sourceOf e).read a.1 a.2.1 a.2.2) =
      some fun a => fieldsReadInPlace a.1 a.2.1 a.2.2 (ms.map Member.field) := by
    apply total_eq
    rintro ⟨L, env, fresh⟩
    obtain ⟨q, hq, h⟩ := exec_read (e := e) ha (Part.whole (Obj ms)) hp hc (hasManaged e) hm L env fresh
    rw [runRead, show (sourceOf e).read = e.vars.foldr (readStmts e) (.ret (some true) .nil) from rfl,
      show (sourceOf e).readSection = hasManaged e from rfl]
    simp only [hq]
    apply congrArg some
    funext st
    rw [finish_eq, h, reading_whole]
  have hvalidate : total (fun v : Obj ms => runValidate (access ms (Part.whole (Obj ms))) (sourceOf e).validate v) =
      some (fieldsValidate (ms.map Member.field)) := by
    apply total_eq
    intro obj
    obtain ⟨q, hq, h⟩ := exec_validate ha (Part.whole (Obj ms)) hc obj
    rw [runValidate, show (sourceOf e).validate = e.vars.foldr validateStmts (.ret (some true) .nil) from rfl, hq]
    apply congrArg some
    funext r ok
    exact propext (h true r ok)
  rw [classOf]
  simp only [hclear, hcopy, hequals, hwrite, hread, hvalidate, Option.bind_eq_bind, Option.bind_some]
  apply congrArg some
  rw [Managed.toClass]
  congr 1
  funext v
  cases v <;> rfl

/-- The generated files define the class that the description asks for. -/
theorem compile_generated {T : Templates} {e : Entity} (h : TextOk e) (hts : ∀ t ∈ e.templates, getBaseType t.name = none)
    (hd : (e.name :: (e.templates.map (·.name) ++ e.vars.map (·.name))).Nodup) {fs : List Field} (hf : fieldsOf T e.templates e.vars = some fs) :
    compile T (text (createEntityHeader e)) (text (createEntitySource e)) = some ⟨FieldsVal fs, (entityMF fs).toClass⟩ := by
  obtain ⟨ms, h1, rfl, ha, h4⟩ := members_eq T e.templates hts e.vars h.vars fs hf
  have hd' : (e.name.toList :: ((e.templates.map fun t => (t.name.toList, useOf t)).map (·.1) ++ (e.vars.map declOf).map (·.name))).Nodup := by
    have := List.Pairwise.map String.toList (S := fun a b => a ≠ b) (fun a b hab h => hab (String.toList_inj.1 h)) hd
    rw [List.map_cons, List.map_append, List.map_map, List.map_map] at this
    rw [List.map_map, List.map_map]
    exact this
  have hn : (ms.map Member.name).Nodup := by
    rw [h4]
    rw [List.nodup_cons, List.nodup_append] at hd'
    have := hd'.2.2.1
    rw [List.map_map] at this
    exact this
  have hdist : Header.distinct ⟨e.name.toList, e.templates.map fun t => (t.name.toList, useOf t), e.vars.map declOf⟩ = true := by
    rw [Header.distinct, decide_eq_true_eq]
    exact hd'
  rw [compile, text, text, tokens_lines, tokens_lines, parse_header h]
  simp only [hdist, if_true, h1, parse_source h.toNamesOk, classOf_source ha hn]

end ISD.Cpp
