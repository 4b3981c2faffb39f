import Verif.Proofs.CppExec
import Verif.Proofs.ReadTree

/-!
# The meaning of `Write`, `Read` and `Validate` as the generator writes them
-/

namespace ISD.Cpp
open Generator

/-! ## Write -/

/-- The result of a `bool` function without its local variables. -/
def drop {A : Type} : Res (A × Locals) (Option Bool) → Res A Bool
  | .ok (some b) s => .ok b s.1
  | .ok none _ => .ub
  | .throw s => .throw s.1
  | .ub => .ub

theorem finish_eq {A : Type} (p : Prog (A × Locals) (Option Bool)) (s : A) : finish p s = drop (p (s, ⟨true, none⟩)) := by
  simp only [finish]
  cases p (s, ⟨true, none⟩) with
  | ok a x => cases a <;> rfl
  | throw x => rfl
  | ub => rfl

theorem begin_subPtr {fresh : Nat} {k : Bytes} {st st1 : WSt} {p : Nat} (h : beginWriteSection fresh k st = .ok (some p) st1) :
    st1.1.subPtr = some p := by
  rw [beginWriteSection, Prog.bind_ok (Prog.get_apply _)] at h
  by_cases hs : st.1.activeSubsection.isSome
  · rw [if_pos hs] at h
    exact nomatch h
  · rw [if_neg hs] at h
    obtain ⟨_, s1, h1, h⟩ := Prog.bind_eq_ok h
    have h1 : (Res.ok () ({ st.1 with activeSubsection := some (EWriter.create fresh st.2.pos) }, st.2) : Res WSt Unit) = .ok () s1 := h1
    cases h1
    obtain ⟨b, s2, h2, h⟩ := Prog.bind_eq_ok h
    cases b
    · exact nomatch h
    · have h : (Res.ok (some fresh) s2 : Res WSt (Option Nat)) = .ok (some p) st1 := h
      cases h
      simp only [onStream] at h2
      split at h2
      · cases h2
        rfl
      · exact nomatch h2
      · exact nomatch h2

theorem exec_act {m : Type → Type} [Monad m] {ρ : Type} {act : Act → Option (m Unit)} {cond : Cond → Option (m Bool)}
    {rets : Option Bool → Option ρ} {a : Act} {rest : Stmts} {x : m Unit} {q : m (Option ρ)} (h1 : act a = some x)
    (h2 : exec act cond rets rest = some q) : exec act cond rets (.act a rest) = some (x >>= fun _ => q) := by
  rw [exec, h1, h2]

theorem exec_failIf {m : Type → Type} [Monad m] {act : Act → Option (m Unit)} {cond : Cond → Option (m Bool)}
    {c : Cond} {rest : Stmts} {x : m Bool} {q : m (Option Bool)} (h1 : cond c = some x)
    (h2 : exec act cond retBool rest = some q) : exec act cond retBool (failIf c rest) =
      some (x >>= fun b => if b then continue_ (pure (some false)) q else q) := by
  rw [failIf, exec, h1, h2]
  rfl

/-- Begin of a section. -/
def beginW (fresh : Nat) (k : Bytes) : Prog (WSt × Locals) Unit := do
  let q ← outside (beginWriteSection fresh k)
  setPtr q
  setSuccess q.isSome

/-- `!success` -/
def failed {A : Type} : Prog (A × Locals) Bool := do return !(← Prog.get).2.success

/-- Writing in the section. -/
def notWritten (P : Prog WSt Bool) : Prog (WSt × Locals) Bool := do
  let s ← Prog.get
  if s.2.ptr.isNone ∨ s.1.1.subPtr ≠ s.2.ptr then Prog.ub
  return !(← outside (inSubsection P))

/-- End of a section. -/
def endW : Prog (WSt × Locals) Unit := do
  let s ← Prog.get
  let _ ← outside (endWriteSection s.2.ptr)
  return ()

theorem failed_apply {A : Type} (s : A × Locals) : failed s = .ok (!s.2.success) s := rfl

theorem outside_ok {A α : Type} {P : Prog A α} {s t : A} {a : α} (h : P s = .ok a t) (lo : Locals) : outside P (s, lo) = .ok a (t, lo) := by
  simp only [outside, h]

theorem outside_throw {A α : Type} {P : Prog A α} {s t : A} (h : P s = .throw t) (lo : Locals) : outside P (s, lo) = .throw (t, lo) := by
  simp only [outside, h]

theorem outside_ub {A α : Type} {P : Prog A α} {s : A} (h : P s = .ub) (lo : Locals) : outside P (s, lo) = .ub := by
  simp only [outside, h]

theorem bindUb {σ α β : Type} {x : Prog σ α} {f : α → Prog σ β} {s : σ} (h : x s = .ub) : (x >>= f) s = .ub := by
  rw [Prog.bind_apply, h]

theorem beginW_ok {fresh : Nat} {k : Bytes} {st st1 : WSt} {q : Option Nat} (h : beginWriteSection fresh k st = .ok q st1) (lo : Locals) :
    beginW fresh k (st, lo) = .ok () (st1, ⟨q.isSome, q⟩) :=
  (Prog.bind_ok (outside_ok h lo)).trans rfl

theorem notWritten_eq {P : Prog WSt Bool} {st : WSt} {ptr : Nat} {b : Bool} (hp : st.1.subPtr = some ptr) :
    notWritten P (st, ⟨b, some ptr⟩) = ((outside (inSubsection P)) >>= fun x => pure (!x)) (st, ⟨b, some ptr⟩) := by
  rw [notWritten, Prog.bind_ok (Prog.get_apply _), if_neg]
  simp [hp]

theorem exec_write {S : Type} {look : Name → Option (Access S)} {e : Entity} {vs : List Var} {ms : List Member} (ha : Agree vs ms)
    (p : Part S (Obj ms)) (hc : Covers look ms p) (hasPtr : Bool) (hm : ∀ v ∈ vs, v.isBaseType = false → hasPtr = true)
    (fresh : Bytes → Nat) (obj : S) :
    ∃ q, exec (writeAct look hasPtr fresh obj) (writeCond look e.name.toList hasPtr fresh obj) retBool
        (vs.foldr (writeStmts e) (.ret (some true) .nil)) = some q ∧
      ∀ st lo, drop (q (st, lo)) = fieldsWrite fresh (ms.map Member.field) (p.get obj) st := by
  induction ha with
  | nil => exact ⟨_, rfl, fun _ _ => rfl⟩
  | @base v vs ms t hb h ih =>
    obtain ⟨h1, h2⟩ := hc
    obtain ⟨q, hq, ih2⟩ := ih (Part.others (A := (varContainer v).Val t.Val) (B := Obj ms) p) h2 fun v hv => hm v (List.mem_cons_of_mem _ hv)
    have hact : writeAct look hasPtr fresh obj (.writeBase (varTy v) v.name.toList v.name.toList) =
        some (outside (EWriter.write t (varContainer v) (keyOf v.name.toList) (p.get obj).1) >>= setSuccess) := by
      simp only [writeAct, h1, varTy, if_true]
      rfl
    rw [List.foldr_cons, writeStmts, if_pos hb]
    refine ⟨_, exec_act hact (exec_failIf (x := failed) rfl hq), fun st lo => ?_⟩
    show _ = (EWriter.write t (varContainer v) (keyOf v.name.toList) (p.get obj).1 >>= _) st
    rw [Prog.bind_apply, Prog.bind_apply, Prog.bind_apply, outside]
    cases EWriter.write t (varContainer v) (keyOf v.name.toList) (p.get obj).1 st with
    | ok b st1 =>
      cases b
      · rfl
      · exact ih2 st1 _
    | throw x => rfl
    | ub => rfl
  | @sub v vs ms V M hb h ih =>
    obtain ⟨h1, h2⟩ := hc
    obtain ⟨q, hq, ih2⟩ := ih (Part.others (A := V) (B := Obj ms) p) h2 fun v hv => hm v (List.mem_cons_of_mem _ hv)
    obtain rfl := hm v (List.mem_cons_self ..) hb
    have hcond : writeCond look e.name.toList true fresh obj (.notWrite e.name.toList v.type.toList v.name.toList) =
        some (notWritten (M.write fresh (p.get obj).1)) := by
      simp only [writeCond, h1, if_true, and_self]
      rfl
    rw [List.foldr_cons, writeStmts, if_neg (by rw [hb]; decide)]
    refine ⟨_, exec_act (x := beginW (fresh (keyOf v.name.toList)) (keyOf v.name.toList)) rfl
      (exec_failIf (x := failed) rfl (exec_failIf hcond (exec_act (x := endW) rfl (exec_act (x := setPtr none) rfl hq)))), fun st lo => ?_⟩
    show _ = (beginWriteSection (fresh (keyOf v.name.toList)) (keyOf v.name.toList) >>= _) st
    cases hbeg : beginWriteSection (fresh (keyOf v.name.toList)) (keyOf v.name.toList) st with
    | ok b st1 =>
      rw [Prog.bind_ok (beginW_ok hbeg lo), Prog.bind_ok hbeg, Prog.bind_ok (failed_apply _)]
      cases b with
      | none => rfl
      | some ptr =>
        have hptr := begin_subPtr hbeg
        rw [if_neg (by simp)]
        show _ = (inSubsection (M.write fresh (p.get obj).1) >>= _) st1
        cases hw : inSubsection (M.write fresh (p.get obj).1) st1 with
        | ok b st2 =>
          have hnw : notWritten (M.write fresh (p.get obj).1) (st1, ⟨true, some ptr⟩) = .ok (!b) (st2, ⟨true, some ptr⟩) :=
            (notWritten_eq hptr).trans (Prog.bind_ok (outside_ok hw _))
          rw [show (⟨Option.isSome (some ptr), some ptr⟩ : Locals) = ⟨true, some ptr⟩ from rfl, Prog.bind_ok hnw, Prog.bind_ok hw]
          cases b
          · rfl
          · rw [if_neg (by decide)]
            show _ = (endWriteSection (some ptr) >>= _) st2
            cases he : endWriteSection (some ptr) st2 with
            | ok b st3 =>
              rw [Prog.bind_ok he]
              have hend : endW (st2, ⟨true, some ptr⟩) = .ok () (st3, ⟨true, some ptr⟩) := by
                rw [endW, Prog.bind_ok (Prog.get_apply _), Prog.bind_ok (outside_ok he _)]
                rfl
              rw [Prog.bind_ok hend]
              exact ih2 st3 _
            | throw x =>
              rw [Prog.bind_throw he]
              have hend : endW (st2, ⟨true, some ptr⟩) = .throw (x, ⟨true, some ptr⟩) := by
                rw [endW, Prog.bind_ok (Prog.get_apply _), Prog.bind_throw (outside_throw he _)]
              rw [Prog.bind_throw hend]
              rfl
            | ub =>
              rw [bindUb he]
              have hend : endW (st2, ⟨true, some ptr⟩) = .ub := by
                rw [endW, Prog.bind_ok (Prog.get_apply _), bindUb (outside_ub he _)]
              rw [bindUb hend]
              rfl
        | throw x =>
          have hnw : notWritten (M.write fresh (p.get obj).1) (st1, ⟨true, some ptr⟩) = .throw (x, ⟨true, some ptr⟩) :=
            (notWritten_eq hptr).trans (Prog.bind_throw (outside_throw hw _))
          rw [show (⟨Option.isSome (some ptr), some ptr⟩ : Locals) = ⟨true, some ptr⟩ from rfl, Prog.bind_throw hnw, Prog.bind_throw hw]
          rfl
        | ub =>
          have hnw : notWritten (M.write fresh (p.get obj).1) (st1, ⟨true, some ptr⟩) = .ub :=
            (notWritten_eq hptr).trans (bindUb (outside_ub hw _))
          rw [show (⟨Option.isSome (some ptr), some ptr⟩ : Locals) = ⟨true, some ptr⟩ from rfl, bindUb hnw, bindUb hw]
          rfl
    | throw x =>
      rw [Prog.bind_throw hbeg, Prog.bind_throw (show beginW _ _ (st, lo) = .throw (x, lo) from Prog.bind_throw (outside_throw hbeg lo))]
      rfl
    | ub =>
      rw [bindUb hbeg, bindUb (show beginW _ _ (st, lo) = .ub from bindUb (outside_ub hbeg lo))]
      rfl


/-! ## Read -/

section
variable {S A B : Type}

theorem reading_first (p : Part S (A × B)) {α : Type} (P : Prog (RSt × A) α) : p.reading (onFirst P) = p.first.reading P := by
  funext s
  simp only [Part.reading, onFirst, onPart, Part.first]
  cases P (s.1, (p.get s.2).1) <;> rfl

theorem reading_others (p : Part S (A × B)) {α : Type} (P : Prog (RSt × B) α) : p.reading (onOthers P) = p.others.reading P := by
  funext s
  simp only [Part.reading, onOthers, onPart, Part.others]
  cases P (s.1, (p.get s.2).2) <;> rfl

variable {p : Part S A} (hp : p.Lawful)
include hp

theorem reading_withReader {α : Type} (P : Prog RSt α) : p.reading (withReader P) = withReader P := by
  funext s
  simp only [Part.reading, withReader, onPart]
  cases P s.1 <;> simp only [hp.put_get]

theorem reading_pure {α : Type} (a : α) : p.reading (pure a) = pure a := by
  funext s
  show (Res.ok a (s.1, p.put s.2 (p.get s.2)) : Res (RSt × S) α) = .ok a s
  rw [hp.put_get]

theorem reading_bind {α β : Type} (x : Prog (RSt × A) α) (f : α → Prog (RSt × A) β) :
    p.reading (x >>= f) = p.reading x >>= fun a => p.reading (f a) := by
  funext s
  rw [Prog.bind_apply]
  simp only [Part.reading, onPart, Prog.bind_apply]
  cases x (s.1, p.get s.2) with
  | ok a t =>
    simp only [hp.get_put]
    cases f a t <;> simp only [hp.put_put]
  | throw t => rfl
  | ub => rfl

end

theorem beginRead_subPtr {env : REnv} {fresh : Nat} {k : Bytes} {na : Bool} {st st1 : RSt} {p : Nat} {b : Bool}
    (h : beginReadSection env fresh k na st = .ok (some p, b) st1) : b = true ∧ st1.1.subPtr = some p := by
  rw [beginReadSection, Prog.bind_ok (Prog.get_apply _)] at h
  by_cases hs : st.1.activeSubsection.isSome
  · rw [if_pos hs] at h
    exact nomatch h
  · rw [if_neg hs] at h
    obtain ⟨e, s1, h1, h⟩ := Prog.bind_eq_ok h
    by_cases he : e = 0
    · rw [if_pos he] at h
      exact nomatch h
    · rw [if_neg he, Prog.bind_ok (Prog.get_apply _)] at h
      by_cases hz : e = s1.2.pos
      · rw [if_pos hz] at h
        obtain ⟨x, s2, _, h⟩ := Prog.bind_eq_ok h
        cases x <;> exact nomatch h
      · rw [if_neg hz] at h
        have h : (Res.ok (some fresh, true) ({ s1.1 with activeSubsection := some (EReader.create fresh e) }, s1.2) :
          Res RSt (Option Nat × Bool)) = .ok (some p, b) st1 := h
        cases h
        exact ⟨rfl, rfl⟩

/-- Begin of a section. -/
def beginR (S : Type) (env : REnv) (fresh : Nat) (k : Bytes) : Prog ((RSt × S) × Locals) Unit := do
  let q ← outside (withReader (beginReadSection env fresh k false))
  setPtr q.1
  setSuccess q.2

/-- `section_reader` -/
def isReader (S : Type) : Prog ((RSt × S) × Locals) Bool := do return (← Prog.get).2.ptr.isSome

/-- Reading in the section. -/
def notRead {S : Type} (P : Prog (RSt × S) Bool) : Prog ((RSt × S) × Locals) Bool := do
  let s ← Prog.get
  if s.2.ptr.isNone ∨ s.1.1.1.subPtr ≠ s.2.ptr then Prog.ub
  return !(← outside P)

/-- End of a section. -/
def endR (S : Type) : Prog ((RSt × S) × Locals) Unit := do
  let s ← Prog.get
  let _ ← outside (withReader (endReadSection s.2.ptr))
  return ()

theorem exec_block {m : Type → Type} [Monad m] {ρ : Type} {act : Act → Option (m Unit)} {cond : Cond → Option (m Bool)}
    {rets : Option Bool → Option ρ} {c : Cond} {body rest : Stmts} {x : m Bool} {q r : m (Option ρ)} (h1 : cond c = some x)
    (h2 : exec act cond rets body = some q) (h3 : exec act cond rets rest = some r) : exec act cond rets (.cond c body rest) =
      some (x >>= fun b => if b then continue_ q r else r) := by
  rw [exec, h1, h2, h3]

theorem beginR_ok {S : Type} {env : REnv} {fresh : Nat} {k : Bytes} {st st1 : RSt × S} {q : Option Nat × Bool}
    (h : withReader (beginReadSection env fresh k false) st = .ok q st1) (lo : Locals) :
    beginR S env fresh k (st, lo) = .ok () (st1, ⟨q.2, q.1⟩) :=
  (Prog.bind_ok (outside_ok h lo)).trans rfl

theorem notRead_eq {S : Type} {P : Prog (RSt × S) Bool} {st : RSt × S} {ptr : Nat} {b : Bool} (hp : st.1.1.subPtr = some ptr) :
    notRead P (st, ⟨b, some ptr⟩) = (outside P >>= fun x => pure (!x)) (st, ⟨b, some ptr⟩) := by
  rw [notRead, Prog.bind_ok (Prog.get_apply _), if_neg]
  simp [hp]

theorem read_base_step {S A B : Type} {p : Part S (A × B)} (hp : p.Lawful) (R : Prog (RSt × A) Bool) (F : Prog (RSt × B) Bool)
    {q : Prog ((RSt × S) × Locals) (Option Bool)} (ih2 : ∀ st lo, drop (q (st, lo)) = p.others.reading F st) (st : RSt × S) (lo : Locals) :
    drop (((outside (p.first.reading R) >>= setSuccess) >>= fun _ => failed >>= fun b => if b then continue_ (pure (some false)) q else q)
      (st, lo)) = p.reading (do if !(← onFirst R) then return false
                                onOthers F) st := by
  rw [← reading_first]
  show _ = p.reading ((onFirst R) >>= _) st
  rw [reading_bind hp, Prog.bind_apply, Prog.bind_apply, Prog.bind_apply, outside]
  cases p.reading (onFirst R) st with
  | ok b st1 =>
    cases b
    · exact (congrFun (reading_pure hp false) st1).symm
    · refine (ih2 st1 _).trans ?_
      rw [← reading_others]
      rfl
  | throw x => rfl
  | ub => rfl

theorem read_sub_step {S A B : Type} {p : Part S (A × B)} (hp : p.Lawful) (env : REnv) (fresh : Nat) (k : Bytes) (R : Prog (RSt × A) Bool)
    (F : Prog (RSt × B) Bool)
    {q : Prog ((RSt × S) × Locals) (Option Bool)} (ih2 : ∀ st lo, drop (q (st, lo)) = p.others.reading F st) (st : RSt × S) (lo : Locals) :
    drop ((beginR S env fresh k >>= fun _ => failed >>= fun b => if b then continue_ (pure (some false))
        (isReader S >>= fun b => if b then continue_ (notRead (p.first.reading R) >>= fun b => if b then continue_ (pure (some false))
          (endR S >>= fun _ => setPtr none >>= fun _ => pure none) else (endR S >>= fun _ => setPtr none >>= fun _ => pure none)) q else q)
        else (isReader S >>= fun b => if b then continue_ (notRead (p.first.reading R) >>= fun b => if b then continue_ (pure (some false))
          (endR S >>= fun _ => setPtr none >>= fun _ => pure none) else (endR S >>= fun _ => setPtr none >>= fun _ => pure none)) q else q))
      (st, lo)) = p.reading (do
        match ← withReader (V := A × B) (beginReadSection env fresh k false) with
        | (_, false) => return false
        | (none, true) => onOthers F
        | (some p, true) =>
          if !(← onFirst R) then return false
          let _ ← withReader (V := A × B) (endReadSection (some p))
          onOthers F) st := by
  rw [← reading_first]
  show _ = p.reading (withReader (V := A × B) (beginReadSection env fresh k false) >>= _) st
  rw [reading_bind hp, reading_withReader hp]
  generalize hBp : (beginReadSection env fresh k false) = Bp
  cases hbeg : withReader (V := S) Bp st with
  | ok b st1 =>
    rw [Prog.bind_ok hbeg, Prog.bind_ok (beginR_ok (by rw [hBp]; exact hbeg) lo), Prog.bind_ok (failed_apply _)]
    obtain ⟨b, ok⟩ := b
    cases ok with
    | false => exact (congrFun (reading_pure hp false) st1).symm
    | true =>
      rw [if_neg (by simp), Prog.bind_apply]
      cases b with
      | none =>
        refine (ih2 st1 _).trans ?_
        rw [← reading_others]
      | some ptr =>
        have hptr : st1.1.1.subPtr = some ptr := by
          simp only [withReader] at hbeg
          cases hB : Bp st.1 with
          | ok a x =>
            rw [hB] at hbeg
            cases hbeg
            rw [← hBp] at hB
            exact (beginRead_subPtr hB).2
          | throw x => rw [hB] at hbeg; exact nomatch hbeg
          | ub => rw [hB] at hbeg; exact nomatch hbeg
        show drop ((((notRead _ >>= _) >>= _) : Prog ((RSt × S) × Locals) (Option Bool)) (st1, ⟨true, some ptr⟩)) =
          p.reading (onFirst R >>= _) st1
        rw [reading_bind hp, progAssoc]
        cases hw : p.reading (onFirst R) st1 with
        | ok b st2 =>
          rw [Prog.bind_ok ((notRead_eq hptr).trans (Prog.bind_ok (outside_ok hw _))), Prog.bind_ok hw]
          cases b with
          | false => exact (congrFun (reading_pure hp false) st2).symm
          | true =>
            show drop ((((endR S >>= _) >>= _) : Prog ((RSt × S) × Locals) (Option Bool)) (st2, ⟨true, some ptr⟩)) =
              p.reading (withReader (V := A × B) (endReadSection (some ptr)) >>= _) st2
            rw [reading_bind hp, reading_withReader hp, progAssoc]
            cases he : withReader (V := S) (endReadSection (some ptr)) st2 with
            | ok b st3 =>
              rw [Prog.bind_ok he]
              have hend : endR S (st2, ⟨true, some ptr⟩) = .ok () (st3, ⟨true, some ptr⟩) := by
                rw [endR, Prog.bind_ok (Prog.get_apply _), Prog.bind_ok (outside_ok he _)]
                rfl
              rw [Prog.bind_ok hend]
              refine (ih2 st3 _).trans ?_
              rw [← reading_others]
            | throw x =>
              rw [Prog.bind_throw he]
              have hend : endR S (st2, ⟨true, some ptr⟩) = .throw (x, ⟨true, some ptr⟩) := by
                rw [endR, Prog.bind_ok (Prog.get_apply _), Prog.bind_throw (outside_throw he _)]
              rw [Prog.bind_throw hend]
              rfl
            | ub =>
              rw [bindUb he]
              have hend : endR S (st2, ⟨true, some ptr⟩) = .ub := by
                rw [endR, Prog.bind_ok (Prog.get_apply _), bindUb (outside_ub he _)]
              rw [bindUb hend]
              rfl
        | throw x =>
          rw [Prog.bind_throw hw, Prog.bind_throw ((notRead_eq hptr).trans (Prog.bind_throw (outside_throw hw _)))]
          rfl
        | ub =>
          rw [bindUb hw, bindUb ((notRead_eq hptr).trans (bindUb (outside_ub hw _)))]
          rfl
  | throw x =>
    rw [Prog.bind_throw hbeg]
    rw [Prog.bind_throw (show beginR _ _ _ _ (st, lo) = .throw (x, lo) from Prog.bind_throw (outside_throw (by rw [hBp]; exact hbeg) lo))]
    rfl
  | ub =>
    rw [bindUb hbeg]
    rw [bindUb (show beginR _ _ _ _ (st, lo) = .ub from bindUb (outside_ub (by rw [hBp]; exact hbeg) lo))]
    rfl


theorem exec_read {S : Type} {look : Name → Option (Access S)} {e : Entity} {vs : List Var} {ms : List Member} (ha : Agree vs ms)
    (p : Part S (Obj ms)) (hp : p.Lawful) (hc : Covers look ms p) (hasPtr : Bool) (hm : ∀ v ∈ vs, v.isBaseType = false → hasPtr = true)
    (L : Leftover) (env : REnv) (fresh : Bytes → Nat) :
    ∃ q, exec (readAct look hasPtr L env fresh) (readCond look e.name.toList hasPtr L env fresh) retBool
        (vs.foldr (readStmts e) (.ret (some true) .nil)) = some q ∧
      ∀ st lo, drop (q (st, lo)) = p.reading (fieldsReadInPlace L env fresh (ms.map Member.field)) st := by
  induction ha with
  | nil =>
    refine ⟨_, rfl, fun st _ => ?_⟩
    have : p.reading (fieldsReadInPlace L env fresh ([].map Member.field)) = pure true := reading_pure hp true
    rw [this]
    rfl
  | @base v vs ms t hb h ih =>
    obtain ⟨h1, h2⟩ := hc
    obtain ⟨q, hq, ih2⟩ := ih (Part.others (A := (varContainer v).Val t.Val) (B := Obj ms) p) hp.others h2
      fun v hv => hm v (List.mem_cons_of_mem _ hv)
    have hact : readAct look hasPtr L env fresh (.readBase (varTy v) v.name.toList v.name.toList) =
        some (outside ((Part.first (A := (varContainer v).Val t.Val) (B := Obj ms) p).reading
          (readBaseInPlace L env t (varContainer v) (keyOf v.name.toList))) >>= setSuccess) := by
      simp only [readAct, h1, varTy, if_true]
    rw [List.foldr_cons, readStmts, if_pos hb]
    exact ⟨_, exec_act hact (exec_failIf (x := failed) rfl hq),
      read_base_step (A := (varContainer v).Val t.Val) (B := Obj ms) hp _ _ ih2⟩
  | @sub v vs ms V M hb h ih =>
    obtain ⟨h1, h2⟩ := hc
    obtain ⟨q, hq, ih2⟩ := ih (Part.others (A := V) (B := Obj ms) p) hp.others h2 fun v hv => hm v (List.mem_cons_of_mem _ hv)
    obtain rfl := hm v (List.mem_cons_self ..) hb
    have hcond : readCond look e.name.toList true L env fresh (.notRead e.name.toList v.type.toList v.name.toList) =
        some (notRead ((Part.first (A := V) (B := Obj ms) p).reading (inSubInPlace (M.readInPlace L env fresh)))) := by
      simp only [readCond, h1, if_true, and_self]
      rfl
    rw [List.foldr_cons, readStmts, if_neg (by rw [hb]; decide)]
    exact ⟨_, exec_act (x := beginR S env (fresh (keyOf v.name.toList)) (keyOf v.name.toList)) rfl
      (exec_failIf (x := failed) rfl (exec_block (x := isReader S) rfl
        (exec_failIf hcond (exec_act (x := endR S) rfl (exec_act (x := setPtr none) rfl rfl))) hq)), read_sub_step (A := V) (B := Obj ms) hp env _ _ _ _ ih2⟩

/-! ## Validate -/

theorem exec_validate {S : Type} {look : Name → Option (Access S)} {vs : List Var} {ms : List Member} (ha : Agree vs ms)
    (p : Part S (Obj ms)) (hc : Covers look ms p) (obj : S) :
    ∃ q, exec (validateAct look obj) validateCond retBool (vs.foldr validateStmts (.ret (some true) .nil)) = some q ∧
      ∀ s r ok, (∃ s', q s r (some ok) s') ↔ fieldsValidate (ms.map Member.field) (p.get obj) r ok := by
  induction ha with
  | nil =>
    refine ⟨_, rfl, fun s r ok => ?_⟩
    show (∃ s', r = [] ∧ some ok = some true ∧ s' = s) ↔ (r = [] ∧ ok = true)
    constructor
    · rintro ⟨_, h1, h2, _⟩
      exact ⟨h1, Option.some.inj h2⟩
    · rintro ⟨h1, rfl⟩
      exact ⟨s, h1, rfl, rfl⟩
  | @base v vs ms t hb h ih =>
    obtain ⟨q, hq, ih2⟩ := ih (Part.others (A := (varContainer v).Val t.Val) (B := Obj ms) p) hc.2
    rw [List.foldr_cons, validateStmts, if_pos hb]
    exact ⟨q, hq, ih2⟩
  | @sub v vs ms V M hb h ih =>
    obtain ⟨h1, h2⟩ := hc
    obtain ⟨q, hq, ih2⟩ := ih (Part.others (A := V) (B := Obj ms) p) h2
    have hact : validateAct look obj (.validate v.type.toList v.name.toList) =
        some fun _ r _ s' => M.validate ((Part.first (A := V) (B := Obj ms) p).get obj) r s' := by
      simp only [validateAct, h1, if_true]
      rfl
    rw [List.foldr_cons, validateStmts, if_neg (by rw [hb]; decide)]
    refine ⟨_, exec_act hact (exec_failIf (x := fun s r b s' => r = [] ∧ b = !s ∧ s' = s) rfl hq), fun s r ok => ?_⟩
    show _ ↔ ((M.validate ((Part.first (A := V) (B := Obj ms) p).get obj) r false ∧ ok = false) ∨
      ∃ r1 r2, M.validate ((Part.first (A := V) (B := Obj ms) p).get obj) r1 true ∧
        fieldsValidate (ms.map Member.field) ((Part.others (A := V) (B := Obj ms) p).get obj) r2 ok ∧ r = r1 ++ r2)
    constructor
    · rintro ⟨s', a, s1, r1, r2, hv, ⟨b, s2, r3, r4, ⟨rfl, rfl, rfl⟩, hb2, rfl⟩, rfl⟩
      have hv : M.validate ((Part.first (A := V) (B := Obj ms) p).get obj) r1 s2 := hv
      cases s2 with
      | false =>
        have hb2 : (continue_ (pure (some false)) q : VM (Option Bool)) false r2 (some ok) s' := hb2
        obtain ⟨a, s3, r5, r6, ⟨hr5, ha, hs3⟩, h4, hx⟩ := hb2
        subst hr5 ha hs3 hx
        obtain ⟨hr6, h5, -⟩ := (show r2 = [] ∧ some ok = some false ∧ s' = false from h4)
        subst hr6
        left
        simp only [List.append_nil]
        exact ⟨hv, Option.some.inj h5⟩
      | true =>
        right
        exact ⟨r1, r2, hv, (ih2 _ _ _).1 ⟨s', hb2⟩, rfl⟩
    · rintro (⟨hv, rfl⟩ | ⟨r1, r2, hv, hf, rfl⟩)
      · exact ⟨false, (), false, r, [], hv, ⟨true, false, [], [], ⟨rfl, rfl, rfl⟩,
          ⟨some false, false, [], [], ⟨rfl, rfl, rfl⟩, ⟨rfl, rfl, rfl⟩, rfl⟩, rfl⟩, by simp⟩
      · obtain ⟨s', hq'⟩ := (ih2 true r2 ok).2 hf
        exact ⟨s', (), true, r1, r2, hv, ⟨false, true, [], r2, ⟨rfl, rfl, rfl⟩, hq', rfl⟩, rfl⟩

end ISD.Cpp
