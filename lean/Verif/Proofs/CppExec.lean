import Verif.Proofs.CppParse

/-!
# The meaning of the functions that the generator writes
-/

namespace ISD.Cpp
open Generator

/-! ## Parts of objects -/

/-- The part behaves like a variable. -/
structure Part.Lawful {S A : Type} (p : Part S A) : Prop where
  get_put : ∀ s x, p.get (p.put s x) = x
  put_put : ∀ s x y, p.put (p.put s x) y = p.put s y
  put_get : ∀ s, p.put s (p.get s) = s

theorem Part.Lawful.whole (S : Type) : (Part.whole S).Lawful := ⟨fun _ _ => rfl, fun _ _ _ => rfl, fun _ => rfl⟩

section
variable {S A B : Type} {p : Part S (A × B)} (hp : p.Lawful)
include hp

theorem Part.Lawful.first : p.first.Lawful where
  get_put s x := by simp only [Part.first, hp.get_put]
  put_put s x y := by simp only [Part.first, hp.get_put, hp.put_put]
  put_get s := hp.put_get s

theorem Part.Lawful.others : p.others.Lawful where
  get_put s x := by simp only [Part.others, hp.get_put]
  put_put s x y := by simp only [Part.others, hp.get_put, hp.put_put]
  put_get s := hp.put_get s

theorem Part.run_onFields (P : Prog A Unit) (Q : Prog B Unit) : p.run (onFields P Q) = p.first.run P >>= fun _ => p.others.run Q := by
  funext s
  rw [Prog.bind_apply]
  simp only [Part.run, onFields, Part.first, Part.others]
  cases h : P (p.get s).1 with
  | ok a x =>
    simp only [hp.get_put]
    cases h2 : Q (p.get s).2 with
    | ok b y => simp only [hp.put_put]
    | throw y => simp only [hp.put_put]
    | ub => rfl
  | throw x => rfl
  | ub => rfl

end

theorem progAssoc {σ α β γ : Type} (x : Prog σ α) (f : α → Prog σ β) (g : β → Prog σ γ) : (x >>= f) >>= g = x >>= fun a => f a >>= g := by
  funext s
  rw [Prog.bind_apply, Prog.bind_apply, Prog.bind_apply]
  cases x s <;> rfl

theorem pureBind {σ α β : Type} (a : α) (f : α → Prog σ β) : ((pure a : Prog σ α) >>= f) = f a := rfl

/-! ## Variables and members -/

/-- The members are those of the variables. -/
inductive Agree : List Var → List Member → Prop
  | nil : Agree [] []
  | base {v : Var} {vs : List Var} {ms : List Member} (t : DataType) (hb : v.isBaseType = true) (h : Agree vs ms) :
      Agree (v :: vs) (.base v.name.toList v.type.toList t (varContainer v) :: ms)
  | sub {v : Var} {vs : List Var} {ms : List Member} (V : Type) (M : Managed V) (hb : v.isBaseType = false) (h : Agree vs ms) :
      Agree (v :: vs) (.sub v.name.toList v.type.toList V M :: ms)

/-- The members are found by their names. -/
def Covers {S : Type} (look : Name → Option (Access S)) : (ms : List Member) → Part S (Obj ms) → Prop
  | [], _ => True
  | .base n type t c :: ms, p =>
    look n = some (.base type t c (Part.first (A := c.Val t.Val) (B := Obj ms) p)) ∧
      Covers look ms (Part.others (A := c.Val t.Val) (B := Obj ms) p)
  | .sub n type V M :: ms, p =>
    look n = some (.sub type V M (Part.first (A := V) (B := Obj ms) p)) ∧ Covers look ms (Part.others (A := V) (B := Obj ms) p)

theorem covers_access {S : Type} (look : Name → Option (Access S)) (ms : List Member) (p : Part S (Obj ms))
    (h : ∀ n ∈ ms.map Member.name, look n = access ms p n) (hn : (ms.map Member.name).Nodup) : Covers look ms p := by
  induction ms with
  | nil => trivial
  | cons m ms ih =>
    rw [List.map_cons, List.nodup_cons] at hn
    cases m with
    | base n type t c =>
      refine ⟨?_, ih _ (fun k hk => ?_) hn.2⟩
      · rw [h n (List.mem_cons_self ..), access, if_pos rfl]
      · rw [h k (List.mem_cons_of_mem _ hk), access, if_neg]
        rintro rfl
        exact hn.1 hk
    | sub n type V M =>
      refine ⟨?_, ih _ (fun k hk => ?_) hn.2⟩
      · rw [h n (List.mem_cons_self ..), access, if_pos rfl]
      · rw [h k (List.mem_cons_of_mem _ hk), access, if_neg]
        rintro rfl
        exact hn.1 hk

theorem isOptional_var (v : Var) : isOptional (varContainer v) = v.optional := by
  obtain ⟨t, n, o, ve, i⟩ := v
  cases o <;> cases ve <;> cases i <;> rfl

/-! ## Clear -/

theorem exec_clear {S : Type} {look : Name → Option (Access S)} {vs : List Var} {ms : List Member} (ha : Agree vs ms) (p : Part S (Obj ms))
    (hp : p.Lawful) (hc : Covers look ms p) :
    exec (clearAct look) noCond retVoid (vs.foldr (fun v s => .act (clearStmt v) s) .nil) =
      some (p.run (fieldsClear (ms.map Member.field)) >>= fun _ => pure none) := by
  induction ha with
  | nil =>
    have : p.run (fieldsClear (([] : List Member).map Member.field)) = pure () := by
      funext s
      show (Res.ok () (p.put s (p.get s)) : Res S Unit) = .ok () s
      rw [hp.put_get]
    rw [this]
    rfl
  | @base v vs ms t hb h ih =>
    obtain ⟨h1, h2⟩ := hc
    have ih := ih (Part.others (A := (varContainer v).Val t.Val) (B := Obj ms) p) hp.others h2
    have hact : clearAct look (clearStmt v) =
        some ((Part.first (A := (varContainer v).Val t.Val) (B := Obj ms) p).run (Prog.set ((varContainer v).zero t.zero))) := by
      rw [clearStmt, if_pos hb]
      cases ho : v.optional
      · rw [if_neg Bool.false_ne_true]
        simp only [clearAct, h1, isOptional_var, ho, Bool.false_eq_true, if_false]
      · rw [if_pos rfl]
        simp only [clearAct, h1, isOptional_var, ho, if_true]
    rw [List.foldr_cons, exec, hact, ih]
    show some _ = some _
    rw [← progAssoc]
    congr 2
    exact (Part.run_onFields hp _ _).symm
  | @sub v vs ms V M hb h ih =>
    obtain ⟨h1, h2⟩ := hc
    have ih := ih (Part.others (A := V) (B := Obj ms) p) hp.others h2
    have hact : clearAct look (clearStmt v) = some ((Part.first (A := V) (B := Obj ms) p).run M.clear) := by
      rw [clearStmt, if_neg (by rw [hb]; decide)]
      simp only [clearAct, h1, if_true]
    rw [List.foldr_cons, exec, hact, ih]
    show some _ = some _
    rw [← progAssoc]
    congr 2
    exact (Part.run_onFields hp _ _).symm

theorem bindUnit {σ : Type} (x : Prog σ Unit) : (x >>= fun _ => pure none) >>= (fun _ : Option Unit => pure ()) = x := by
  funext s
  rw [Prog.bind_apply, Prog.bind_apply]
  cases x s <;> rfl

/-! ## DeepCopy -/

/-- The calls of `DeepCopy` for a source that is not null. -/
def fieldsCopyFrom (ms : List Member) (S : Type) (p : Part S (Obj ms)) : Src S → Prog (Obj ms) Unit
  | .null => Prog.ub
  | .self => fieldsCopySelf (ms.map Member.field)
  | .other s => fieldsCopy (ms.map Member.field) (p.get s)

theorem exec_copy_null {S : Type} {look : Name → Option (Access S)} {vs : List Var} {ms : List Member} (ha : Agree vs ms) (p : Part S (Obj ms))
    (hc : Covers look ms p) (clear : Prog S Unit) :
    ∃ q, exec (copyAct look clear .null) (copyCond .null) retVoid (vs.foldr (fun v s => .act (copyStmt v) s) .nil) = some q := by
  induction ha with
  | nil => exact ⟨_, rfl⟩
  | @base v vs ms t hb h ih =>
    obtain ⟨h1, h2⟩ := hc
    obtain ⟨q, ih⟩ := ih (Part.others (A := (varContainer v).Val t.Val) (B := Obj ms) p) h2
    have hact : ∃ a, copyAct look clear .null (copyStmt v) = some a := by
      rw [copyStmt, if_pos hb]
      simp only [copyAct, h1, if_true]
      exact ⟨_, rfl⟩
    obtain ⟨a, hact⟩ := hact
    rw [List.foldr_cons, exec, hact, ih]
    exact ⟨_, rfl⟩
  | @sub v vs ms V M hb h ih =>
    obtain ⟨h1, h2⟩ := hc
    obtain ⟨q, ih⟩ := ih (Part.others (A := V) (B := Obj ms) p) h2
    have hact : ∃ a, copyAct look clear .null (copyStmt v) = some a := by
      rw [copyStmt, if_neg (by rw [hb]; decide)]
      simp only [copyAct, h1, if_true]
      exact ⟨_, rfl⟩
    obtain ⟨a, hact⟩ := hact
    rw [List.foldr_cons, exec, hact, ih]
    exact ⟨_, rfl⟩

theorem exec_copy {S : Type} {look : Name → Option (Access S)} {vs : List Var} {ms : List Member} (ha : Agree vs ms) (p : Part S (Obj ms))
    (hp : p.Lawful) (hc : Covers look ms p) (clear : Prog S Unit) (src : Src S) (hs : src ≠ .null) :
    exec (copyAct look clear src) (copyCond src) retVoid (vs.foldr (fun v s => .act (copyStmt v) s) .nil) =
      some (p.run (fieldsCopyFrom ms S p src) >>= fun _ => pure none) := by
  induction ha with
  | nil =>
    have : p.run (fieldsCopyFrom [] S p src) = pure () := by
      funext s
      cases src with
      | null => exact absurd rfl hs
      | self =>
        show (Res.ok () (p.put s (p.get s)) : Res S Unit) = .ok () s
        rw [hp.put_get]
      | other x =>
        show (Res.ok () (p.put s (p.get s)) : Res S Unit) = .ok () s
        rw [hp.put_get]
    rw [this]
    rfl
  | @base v vs ms t hb h ih =>
    obtain ⟨h1, h2⟩ := hc
    have ih := ih (Part.others (A := (varContainer v).Val t.Val) (B := Obj ms) p) hp.others h2
    cases src with
    | null => exact absurd rfl hs
    | self =>
      have hact : copyAct look clear .self (copyStmt v) =
          some ((Part.first (A := (varContainer v).Val t.Val) (B := Obj ms) p).run (do Prog.set (← Prog.get))) := by
        rw [copyStmt, if_pos hb]
        simp only [copyAct, h1, if_true]
      rw [List.foldr_cons, exec, hact, ih]
      show some _ = some _
      rw [← progAssoc]
      congr 2
      exact (Part.run_onFields hp _ _).symm
    | other x =>
      have hact : copyAct look clear (.other x) (copyStmt v) =
          some ((Part.first (A := (varContainer v).Val t.Val) (B := Obj ms) p).run (Prog.set (Part.first (A := (varContainer v).Val t.Val) (B := Obj ms) p |>.get x))) := by
        rw [copyStmt, if_pos hb]
        simp only [copyAct, h1, if_true]
      rw [List.foldr_cons, exec, hact, ih]
      show some _ = some _
      rw [← progAssoc]
      congr 2
      exact (Part.run_onFields hp _ _).symm
  | @sub v vs ms V M hb h ih =>
    obtain ⟨h1, h2⟩ := hc
    have ih := ih (Part.others (A := V) (B := Obj ms) p) hp.others h2
    cases src with
    | null => exact absurd rfl hs
    | self =>
      have hact : copyAct look clear .self (copyStmt v) = some ((Part.first (A := V) (B := Obj ms) p).run (M.copy .self)) := by
        rw [copyStmt, if_neg (by rw [hb]; decide)]
        simp only [copyAct, h1, if_true]
      rw [List.foldr_cons, exec, hact, ih]
      show some _ = some _
      rw [← progAssoc]
      congr 2
      exact (Part.run_onFields hp _ _).symm
    | other x =>
      have hact : copyAct look clear (.other x) (copyStmt v) =
          some ((Part.first (A := V) (B := Obj ms) p).run (M.copy (.other ((Part.first (A := V) (B := Obj ms) p).get x)))) := by
        rw [copyStmt, if_neg (by rw [hb]; decide)]
        simp only [copyAct, h1, if_true]
      rw [List.foldr_cons, exec, hact, ih]
      show some _ = some _
      rw [← progAssoc]
      congr 2
      exact (Part.run_onFields hp _ _).symm

/-! ## Equals -/

theorem exec_equals_other {S : Type} {look : Name → Option (Access S)} {e : Entity} {vs : List Var} {ms : List Member} (ha : Agree vs ms)
    (p : Part S (Obj ms)) (hc : Covers look ms p) (same : Bool) (l r : Option S) :
    ∃ q, exec (m := Option) (fun _ => none) (equalsCond look e.name.toList same l r) retBool
      (vs.foldr (fun v s => .cond (equalsStmt e v) (.ret (some false) .nil) s) (.ret (some true) .nil)) = some q := by
  induction ha with
  | nil => exact ⟨_, rfl⟩
  | @base v vs ms t hb h ih =>
    obtain ⟨h1, h2⟩ := hc
    obtain ⟨q, ih⟩ := ih (Part.others (A := (varContainer v).Val t.Val) (B := Obj ms) p) h2
    have hact : ∃ a, equalsCond look e.name.toList same l r (equalsStmt e v) = some a := by
      rw [equalsStmt, if_pos hb]
      simp only [equalsCond, h1, if_true]
      exact ⟨_, rfl⟩
    obtain ⟨a, hact⟩ := hact
    rw [List.foldr_cons, exec, hact, ih]
    exact ⟨_, rfl⟩
  | @sub v vs ms V M hb h ih =>
    obtain ⟨h1, h2⟩ := hc
    obtain ⟨q, ih⟩ := ih (Part.others (A := V) (B := Obj ms) p) h2
    have hact : ∃ a, equalsCond look e.name.toList same l r (equalsStmt e v) = some a := by
      rw [equalsStmt, if_neg (by rw [hb]; decide)]
      simp only [equalsCond, h1, if_true, and_self]
      exact ⟨_, rfl⟩
    obtain ⟨a, hact⟩ := hact
    rw [List.foldr_cons, exec, hact, ih]
    exact ⟨_, rfl⟩

theorem exec_equals {S : Type} {look : Name → Option (Access S)} {e : Entity} {vs : List Var} {ms : List Member} (ha : Agree vs ms)
    (p : Part S (Obj ms)) (hc : Covers look ms p) (a b : S) :
    exec (m := Option) (fun _ => none) (equalsCond look e.name.toList false (some a) (some b)) retBool
      (vs.foldr (fun v s => .cond (equalsStmt e v) (.ret (some false) .nil) s) (.ret (some true) .nil)) =
      some ((fieldsEquals (ms.map Member.field) (p.get a) (p.get b)).map some) := by
  induction ha with
  | nil => rfl
  | @base v vs ms t hb h ih =>
    obtain ⟨h1, h2⟩ := hc
    have ih := ih (Part.others (A := (varContainer v).Val t.Val) (B := Obj ms) p) h2
    have hact : equalsCond look e.name.toList false (some a) (some b) (equalsStmt e v) =
        some (some (!Container.equal t.equal (varContainer v) (p.get a).1 (p.get b).1)) := by
      rw [equalsStmt, if_pos hb]
      simp only [equalsCond, h1, if_true]
      rfl
    rw [List.foldr_cons, exec, hact, ih]
    show some _ = some _
    congr 1
    show _ = Option.map some (if !Container.equal t.equal (varContainer v) (p.get a).1 (p.get b).1 then some false
      else fieldsEquals (ms.map Member.field) (p.get a).2 (p.get b).2)
    cases Container.equal t.equal (varContainer v) (p.get a).1 (p.get b).1 <;> rfl
  | @sub v vs ms V M hb h ih =>
    obtain ⟨h1, h2⟩ := hc
    have ih := ih (Part.others (A := V) (B := Obj ms) p) h2
    have hact : equalsCond look e.name.toList false (some a) (some b) (equalsStmt e v) =
        some ((M.equals (p.get a).1 (p.get b).1).map not) := by
      rw [equalsStmt, if_neg (by rw [hb]; decide)]
      simp only [equalsCond, h1, if_true, and_self]
      rfl
    rw [List.foldr_cons, exec, hact, ih]
    show some _ = some _
    congr 1
    show _ = Option.map some (match M.equals (p.get a).1 (p.get b).1 with
      | none => none
      | some false => some false
      | some true => fieldsEquals (ms.map Member.field) (p.get a).2 (p.get b).2)
    cases M.equals (p.get a).1 (p.get b).1 with
    | none => rfl
    | some x => cases x <;> rfl

end ISD.Cpp
