import Verif.Spec.Managed
import Verif.Proofs.ReadTree
import Verif.Proofs.Dynamic

/-! # Relations of base values and containers; the laws of a managed class -/

namespace ISD

/-! ## Containers -/

theorem ListRel.refl {α : Type} {r : α → α → Prop} {l : List α} (h : ∀ a ∈ l, r a a) : ListRel r l l := by
  induction l with
  | nil => exact .nil
  | cons a l ih => exact .cons (h a (by simp)) (ih fun b hb => h b (by simp [hb]))

theorem ListRel.mono {α : Type} {r s : α → α → Prop} (h : ∀ a b, r a b → s a b) {l m : List α} (hl : ListRel r l m) : ListRel s l m := by
  induction hl with
  | nil => exact .nil
  | cons h1 _ ih => exact .cons (h _ _ h1) ih

theorem ListRel.flip {α : Type} {r : α → α → Prop} {l m : List α} (hl : ListRel r l m) : ListRel (fun a b => r b a) m l := by
  induction hl with
  | nil => exact .nil
  | cons h1 _ ih => exact .cons h1 ih

theorem ListRel.comp {α : Type} {r s : α → α → Prop} {l m n : List α} (h1 : ListRel r l m) (h2 : ListRel s m n) :
    ListRel (fun a c => ∃ b, r a b ∧ s b c) l n := by
  induction h1 generalizing n with
  | nil => cases h2; exact .nil
  | cons h _ ih => cases h2 with | cons h' t' => exact .cons ⟨_, h, h'⟩ (ih t')

theorem ListRel.eq {α : Type} {l m : List α} (h : ListRel Eq l m) : l = m := by
  induction h with
  | nil => rfl
  | cons h _ ih => rw [h, ih]

theorem OptRel.refl {α : Type} {r : α → α → Prop} {l : Option α} (h : ∀ a, l = Option.some a → r a a) : OptRel r l l := by
  cases l with
  | none => exact .none
  | some a => exact .some (h a rfl)

theorem OptRel.mono {α : Type} {r s : α → α → Prop} (h : ∀ a b, r a b → s a b) {l m : Option α} (hl : OptRel r l m) : OptRel s l m := by
  cases hl with
  | none => exact .none
  | some h1 => exact .some (h _ _ h1)

theorem OptRel.flip {α : Type} {r : α → α → Prop} {l m : Option α} (hl : OptRel r l m) : OptRel (fun a b => r b a) m l := by
  cases hl with
  | none => exact .none
  | some h1 => exact .some h1

theorem OptRel.comp {α : Type} {r s : α → α → Prop} {l m n : Option α} (h1 : OptRel r l m) (h2 : OptRel s m n) :
    OptRel (fun a c => ∃ b, r a b ∧ s b c) l n := by
  cases h1 with
  | none => cases h2; exact .none
  | some h => cases h2 with | some h' => exact .some ⟨_, h, h'⟩

theorem OptRel.eq {α : Type} {l m : Option α} (h : OptRel Eq l m) : l = m := by
  cases h with
  | none => rfl
  | some h => rw [h]

theorem IdxRel.eq {α : Type} {l m : IdxVec α} (h : IdxRel Eq l m) : l = m := by
  obtain ⟨a, b⟩ := l; obtain ⟨c, d⟩ := m
  obtain ⟨h1, h2⟩ := h
  have := h1.eq
  simp only at this h2
  rw [this, h2]

theorem Container.Rel.refl {α : Type} {r : α → α → Prop} (h : ∀ a, r a a) (c : Container) (x : c.Val α) : Container.Rel r c x x := by
  cases c with
  | none => exact h x
  | optionalValue => exact OptRel.refl fun a _ => h a
  | vector => exact ListRel.refl fun a _ => h a
  | optionalVector => exact OptRel.refl fun a _ => ListRel.refl fun b _ => h b
  | idxVector => exact ⟨ListRel.refl fun a _ => h a, rfl⟩
  | optionalIdxVector => exact OptRel.refl fun a _ => ⟨ListRel.refl fun b _ => h b, rfl⟩

theorem Container.Rel.mono {α : Type} {r s : α → α → Prop} (h : ∀ a b, r a b → s a b) {c : Container} {x y : c.Val α}
    (hr : Container.Rel r c x y) : Container.Rel s c x y := by
  cases c with
  | none => exact h _ _ hr
  | optionalValue => exact OptRel.mono h hr
  | vector => exact ListRel.mono h hr
  | optionalVector => exact OptRel.mono (fun _ _ => ListRel.mono h) hr
  | idxVector => exact ⟨hr.1.mono h, hr.2⟩
  | optionalIdxVector => exact OptRel.mono (fun _ _ h' => ⟨h'.1.mono h, h'.2⟩) hr

theorem Container.Rel.flip {α : Type} {r : α → α → Prop} {c : Container} {x y : c.Val α}
    (hr : Container.Rel r c x y) : Container.Rel (fun a b => r b a) c y x := by
  cases c with
  | none => exact hr
  | optionalValue => exact OptRel.flip hr
  | vector => exact ListRel.flip hr
  | optionalVector => exact (OptRel.flip hr).mono fun _ _ => ListRel.flip
  | idxVector => exact ⟨hr.1.flip, hr.2.symm⟩
  | optionalIdxVector => exact (OptRel.flip hr).mono fun _ _ h' => ⟨h'.1.flip, h'.2.symm⟩

theorem Container.Rel.comp {α : Type} {r s : α → α → Prop} {c : Container} {x y z : c.Val α}
    (h1 : Container.Rel r c x y) (h2 : Container.Rel s c y z) : Container.Rel (fun a c => ∃ b, r a b ∧ s b c) c x z := by
  cases c with
  | none => exact ⟨_, h1, h2⟩
  | optionalValue => exact OptRel.comp h1 h2
  | vector => exact ListRel.comp h1 h2
  | optionalVector => exact (OptRel.comp h1 h2).mono fun _ _ ⟨_, a, b⟩ => a.comp b
  | idxVector => exact ⟨h1.1.comp h2.1, h1.2.trans h2.2⟩
  | optionalIdxVector => exact (OptRel.comp h1 h2).mono fun _ _ ⟨_, a, b⟩ => ⟨a.1.comp b.1, a.2.trans b.2⟩

theorem Container.Rel.eq {α : Type} {c : Container} {x y : c.Val α} (h : Container.Rel Eq c x y) : x = y := by
  cases c with
  | none => exact h
  | optionalValue => exact OptRel.eq h
  | vector => exact ListRel.eq h
  | optionalVector => exact (OptRel.mono (fun _ _ => ListRel.eq) h).eq
  | idxVector => exact IdxRel.eq h
  | optionalIdxVector => exact (OptRel.mono (fun _ _ => IdxRel.eq) h).eq

theorem listEqual_iff {α : Type} {eq : α → α → Bool} : ∀ {l m : List α}, listEqual eq l m = true ↔ ListRel (fun a b => eq a b = true) l m
  | [], [] => ⟨fun _ => .nil, fun _ => rfl⟩
  | [], _ :: _ => ⟨fun h => (nomatch h), fun h => (nomatch h)⟩
  | _ :: _, [] => ⟨fun h => (nomatch h), fun h => (nomatch h)⟩
  | a :: as, b :: bs => by
    rw [listEqual, Bool.and_eq_true, listEqual_iff]
    exact ⟨fun ⟨h1, h2⟩ => .cons h1 h2, fun h => by cases h with | cons h t => exact ⟨h, t⟩⟩

theorem optionEqual_iff {α : Type} {eq : α → α → Bool} {l m : Option α} : optionEqual eq l m = true ↔ OptRel (fun a b => eq a b = true) l m := by
  cases l <;> cases m <;> simp only [optionEqual]
  · exact ⟨fun _ => .none, fun _ => trivial⟩
  · exact ⟨fun h => (nomatch h), fun h => (nomatch h)⟩
  · exact ⟨fun h => (nomatch h), fun h => (nomatch h)⟩
  · exact ⟨fun h => .some h, fun h => by cases h with | some h => exact h⟩

theorem idxEqual_iff {α : Type} {eq : α → α → Bool} {l m : IdxVec α} : IdxVec.equal eq l m = true ↔ IdxRel (fun a b => eq a b = true) l m := by
  rw [IdxVec.equal, Bool.and_eq_true, listEqual_iff, beq_iff_eq]; exact Iff.rfl

theorem containerEqual_iff {α : Type} {eq : α → α → Bool} {c : Container} {x y : c.Val α} :
    Container.equal eq c x y = true ↔ Container.Rel (fun a b => eq a b = true) c x y := by
  cases c with
  | none => exact Iff.rfl
  | optionalValue => exact optionEqual_iff
  | vector => exact listEqual_iff
  | optionalVector =>
    show optionEqual (listEqual eq) _ _ = true ↔ OptRel _ _ _
    rw [optionEqual_iff]
    exact ⟨fun h => h.mono fun _ _ => listEqual_iff.mp, fun h => h.mono fun _ _ => listEqual_iff.mpr⟩
  | idxVector => exact idxEqual_iff
  | optionalIdxVector =>
    show optionEqual (IdxVec.equal eq) _ _ = true ↔ OptRel _ _ _
    rw [optionEqual_iff]
    exact ⟨fun h => h.mono fun _ _ => idxEqual_iff.mp, fun h => h.mono fun _ _ => idxEqual_iff.mpr⟩

/-! ## Laws -/

/-- What is proved of every managed class. -/
structure Lawful {V : Type} (M : Managed V) (S : ClassSpec V) : Prop where
  init_wf : S.wf M.init
  init_dest : S.destOk M.init
  rel_refl : ∀ v, S.wf v → S.rel .exact v v
  rel_mono : ∀ {R R' : BaseRel}, R.Le R' → ∀ {a b}, S.rel R a b → S.rel R' a b
  rel_flip : ∀ {R : BaseRel} {a b}, S.rel R a b → S.rel R.flip b a
  rel_comp : ∀ {R R' : BaseRel} {a b c}, S.rel R a b → S.rel R' b c → S.rel (R.comp R') a c
  clear_ok : ∀ v, S.wf v → ∃ v', M.clear v = .ok () v' ∧ S.wf v'
  copy_null : ∀ v, S.wf v → ∃ v', M.copy .null v = .ok () v' ∧ S.wf v'
  copy_self : ∀ v, S.wf v → ∃ v', M.copy .self v = .ok () v' ∧ S.wf v'
  copy_other : ∀ d s, S.wf d → S.wf s → ∃ d', M.copy (.other s) d = .ok () d' ∧ S.wf d' ∧ S.rel .exact d' s
  construct_ok : ∀ s, S.wf s → ∃ d', M.construct s M.init = .ok () d' ∧ S.wf d' ∧ S.rel .exact d' s
  equals_ok : ∀ a b, S.wf a → S.wf b → ∃ r, M.equals a b = some r ∧ (r = true ↔ S.rel .cpp a b)
  nodes_ne : ∀ v, S.nodes v ≠ .nil
  write_ok : ∀ v, S.wf v → S.rel .storable v v → ∀ fresh fl, AppendsT (M.write fresh v) fl ((S.nodes v).bytes fl)
  read_ok : ∀ v dest, S.wf v → S.rel .storable v v → S.wf dest → S.destOk dest → ∀ (env : REnv) fresh fl, env.Lucky →
    ∃ v', ConsumesT (M.read env fresh dest) fl (some v') ((S.nodes v).bytes fl) ∧ S.wf v' ∧ S.rel .exact v' v
  validate_ok : ∀ v, S.wf v → ∃ rs, M.validate v rs true ∧ (∀ rs' b, M.validate v rs' b → rs' = rs ∧ b = true) ∧ (rs = [] ↔ S.valid v)

/-- `Clear` gives a default object, and so does copying from null. -/
def Clears {V : Type} (M : Managed V) (S : ClassSpec V) : Prop :=
  ∀ v, S.wf v → ∃ v', M.clear v = .ok () v' ∧ M.copy .null v = .ok () v' ∧ S.rel .exact v' M.init

/-- Copying an object to itself keeps its contents. -/
def KeepsSelf {V : Type} (M : Managed V) (S : ClassSpec V) : Prop :=
  ∀ v, S.wf v → ∃ v', M.copy .self v = .ok () v' ∧ S.rel .exact v' v

theorem typed_appendsT {t : DataType} (ht : t ∈ allTypes) (c : Container) (key : Bytes) (v : c.Val t.Val) (fl : Bool) :
    AppendsT (EWriter.write t c key v) fl (Spec.typed fl t c key v) := by
  intro w s cc hw h hb
  obtain ⟨s', e, h'⟩ := writeTyped_appends (allTypes_ok t ht) c key v fl s cc h hb
  exact ⟨s', onStream_ok e, h'⟩

theorem typed_consumesT {t : DataType} (ht : t ∈ allTypes) (c : Container) {key : Bytes} (hk : key.length ≤ 40) (dest v : c.Val t.Val)
    (hdest : DestOk t c dest) (fl : Bool) {env : REnv} (he : env.Lucky) :
    ConsumesT (EReader.read env t c key dest) fl (some v) (Spec.typed fl t c key v) := by
  intro r d pos hr hd h
  have := readTyped_consumes he (allTypes_ok t ht) c key hk dest v fl d pos hd h
  rw [readInto_ok hdest v] at this
  exact onRStream_ok this

theorem AppendsT.andThen {p q : Prog WSt Bool} {fl : Bool} {a b : Bytes} (hp : AppendsT p fl a) (hq : AppendsT q fl b) :
    AppendsT (do
      if !(← p) then return false
      q) fl (a ++ b) := by
  intro w s c hw h hb
  rw [List.length_append] at hb
  obtain ⟨s1, e1, h1⟩ := hp w s c hw h (by omega)
  obtain ⟨s2, e2, h2⟩ := hq w s1 (c ++ a) hw h1 (by rw [List.length_append]; omega)
  refine ⟨s2, ?_, by rw [← List.append_assoc]; exact h2⟩
  rw [Prog.bind_ok e1, if_neg (by decide)]
  exact e2

theorem AppendsT.pure (fl : Bool) : AppendsT (return true) fl [] := by
  intro w s c hw h hb
  exact ⟨s, rfl, by rw [List.append_nil]; exact h⟩

theorem ConsumesT.pure {α : Type} (fl : Bool) (a : α) : ConsumesT (return a) fl a [] := by
  intro r d pos hr hd h
  rfl

theorem ConsumesT.bind {α β : Type} {p : Prog RSt α} {f : α → Prog RSt β} {fl : Bool} {a : α} {b : β} {x y : Bytes}
    (hp : ConsumesT p fl a x) (hq : ConsumesT (f a) fl b y) : ConsumesT (p >>= f) fl b (x ++ y) := by
  intro r d pos hr hd h
  rw [Has.append] at h
  rw [Prog.bind_ok (hp r d pos hr hd h.1), hq r d _ hr hd h.2, List.length_append, Nat.add_assoc]

theorem key_le {s : String} (h : (key s).length ≤ 40 := by decide) : (key s).length ≤ 40 := h

end ISD
