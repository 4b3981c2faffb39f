import Verif.Proofs.Classes

/-! # More laws of the relations between contents -/

namespace ISD

/-- Both relations. -/
def BaseRel.and (R S : BaseRel) : BaseRel := ⟨fun t a b => R.base t a b ∧ S.base t a b, R.uninit ∧ S.uninit⟩

theorem ListRel.and {α : Type} {r s : α → α → Prop} {l m : List α} (h1 : ListRel r l m) (h2 : ListRel s l m) :
    ListRel (fun a b => r a b ∧ s a b) l m := by
  induction h1 with
  | nil => exact .nil
  | cons h _ ih => cases h2 with | cons h' t' => exact .cons ⟨h, h'⟩ (ih t')

theorem OptRel.and {α : Type} {r s : α → α → Prop} {l m : Option α} (h1 : OptRel r l m) (h2 : OptRel s l m) :
    OptRel (fun a b => r a b ∧ s a b) l m := by
  cases h1 with
  | none => exact .none
  | some h => cases h2 with | some h' => exact .some ⟨h, h'⟩

theorem Container.Rel.and {α : Type} {r s : α → α → Prop} {c : Container} {x y : c.Val α}
    (h1 : Container.Rel r c x y) (h2 : Container.Rel s c x y) : Container.Rel (fun a b => r a b ∧ s a b) c x y := by
  cases c with
  | none => exact ⟨h1, h2⟩
  | optionalValue => exact OptRel.and h1 h2
  | vector => exact ListRel.and h1 h2
  | optionalVector => exact (OptRel.and h1 h2).mono fun _ _ ⟨a, b⟩ => a.and b
  | idxVector => exact ⟨h1.1.and h2.1, h1.2⟩
  | optionalIdxVector => exact (OptRel.and h1 h2).mono fun _ _ ⟨a, b⟩ => ⟨a.1.and b.1, a.2⟩

theorem DynObj.Rel.and {R R' : BaseRel} {o p : DynObj} (h1 : DynObj.Rel R o p) (h2 : DynObj.Rel R' o p) : DynObj.Rel (R.and R') o p := by
  cases h1 with
  | mk t c x y h => cases h2 with | mk _ _ _ _ h' => exact .mk _ _ _ _ (h.and h')

mutual
  theorem IsClass.rel_and : ∀ {V : Type} {M : Managed V} {S : ClassSpec V}, IsClass M S → ∀ {R R' : BaseRel} {a b : V}, S.rel R a b → S.rel R' a b →
      S.rel (R.and R') a b
    | _, _, _, @IsClass.graph _ _ _ _ _ _ _ => fun h _ => h
    | _, _, _, .idx t _ => fun h h' => Container.Rel.and (c := .idxVector) h h'
    | _, _, _, .varying => fun h h' => by
      rcases h with ⟨a, b, c⟩ | ⟨o, p, a, b, c, d, e⟩
      · rcases h' with ⟨a', b', c'⟩ | ⟨o', p', a', b', c', d', e'⟩
        · exact .inl ⟨a, b, c, c'⟩
        · rw [a] at a'; cases a'
      · rcases h' with ⟨a', b', c'⟩ | ⟨o', p', a', b', c', d', e'⟩
        · rw [a] at a'; cases a'
        · rw [a] at a'; cases a'
          rw [b] at b'; cases b'
          exact .inr ⟨o, p, a, b, c, d, e.and e'⟩
    | _, _, _, @IsClass.table _ _ _ _ _ _ _ hM _ _ _ => fun h h' k =>
      ((h k).and (h' k)).mono fun _ _ ⟨a, b⟩ => (a.and b).mono fun _ _ ⟨a, b⟩ => hM.rel_and a b
    | _, _, _, .entity _ h _ => fun h1 h2 => h.rel_and h1 h2
  theorem AreFields.rel_and : ∀ {fs : List Field} {ss : FieldSpecs fs}, AreFields ss → ∀ {R R' : BaseRel} {a b : FieldsVal fs}, ss.rel R a b →
      ss.rel R' a b → ss.rel (R.and R') a b
    | _, _, .nil => fun _ _ => trivial
    | _, _, .base _ _ h => fun h1 h2 => ⟨h1.1.and h2.1, h.rel_and h1.2 h2.2⟩
    | _, _, .sub _ hM h => fun h1 h2 => ⟨hM.rel_and h1.1 h2.1, h.rel_and h1.2 h2.2⟩
end

/-! ## Classes without floating point numbers and Varying -/

mutual
  /-- Graphs, and everything made of base types without floating point numbers. -/
  inductive IsPlain : {V : Type} → ClassSpec V → Prop where
    | graph {α : Type} [NodeType α] (st : Stored α) (acyclic rooted singleRoot : Bool) : IsPlain (graphSpec st acyclic rooted singleRoot)
    | idx (t : DataType) (h : t.NoFloats) : IsPlain (idxSpec t)
    | table {K V : Type} [DecidableEq K] (st : Stored K) {S : ClassSpec V} (h : IsPlain S) (zk ne : Bool) : IsPlain (tableSpec st S zk ne)
    | entity {fs : List Field} (ss : FieldSpecs fs) (h : ArePlain ss) : IsPlain (entitySpec ss)
  /-- Variables of such classes. -/
  inductive ArePlain : {fs : List Field} → FieldSpecs fs → Prop where
    | nil : ArePlain .nil
    | base {k t c fs} {rest : FieldSpecs fs} (ht : t.NoFloats) (h : ArePlain rest) : ArePlain (.base k t c rest)
    | sub {k V} {M : Managed V} {S : ClassSpec V} {fs} {rest : FieldSpecs fs} (hS : IsPlain S) (h : ArePlain rest) : ArePlain (.sub k M S rest)
end

theorem Container.Rel.congr {α : Type} {r s : α → α → Prop} (h : ∀ a b, r a b ↔ s a b) {c : Container} {x y : c.Val α} :
    Container.Rel r c x y ↔ Container.Rel s c x y := ⟨.mono fun a b => (h a b).mp, .mono fun a b => (h a b).mpr⟩

mutual
  theorem IsPlain.cpp_iff : ∀ {V : Type} {S : ClassSpec V}, IsPlain S → ∀ a b : V, S.rel .cpp a b ↔ S.rel .exact a b
    | _, _, @IsPlain.graph _ _ _ _ _ _ => fun _ _ => Iff.rfl
    | _, _, .idx t h => fun _ _ => Container.Rel.congr (c := .idxVector) (equal_iff_eq t h)
    | _, _, @IsPlain.table _ _ _ _ _ h _ _ => fun _ _ =>
      ⟨fun hr k => (hr k).mono fun _ _ h' => h'.mono fun _ _ => (h.cpp_iff _ _).mp,
       fun hr k => (hr k).mono fun _ _ h' => h'.mono fun _ _ => (h.cpp_iff _ _).mpr⟩
    | _, _, .entity _ h => fun a b => h.cpp_iff a b
  theorem ArePlain.cpp_iff : ∀ {fs : List Field} {ss : FieldSpecs fs}, ArePlain ss → ∀ a b : FieldsVal fs, ss.rel .cpp a b ↔ ss.rel .exact a b
    | _, _, .nil => fun _ _ => Iff.rfl
    | _, _, .base (t := t) ht h => fun _ _ => and_congr (Container.Rel.congr (equal_iff_eq t ht)) (h.cpp_iff _ _)
    | _, _, .sub hS h => fun _ _ => and_congr (hS.cpp_iff _ _) (h.cpp_iff _ _)
end

/-! ## Clearing and self copies of entities -/

/-- Every managed variable has the property. -/
inductive FieldSpecs.All (P : (V : Type) → Managed V → ClassSpec V → Prop) : {fs : List Field} → FieldSpecs fs → Prop where
  | nil : FieldSpecs.All P .nil
  | base {k t c fs} {rest : FieldSpecs fs} (h : FieldSpecs.All P rest) : FieldSpecs.All P (.base k t c rest)
  | sub {k V} {M : Managed V} {S : ClassSpec V} {fs} {rest : FieldSpecs fs} (hM : P V M S) (h : FieldSpecs.All P rest) : FieldSpecs.All P (.sub k M S rest)

theorem entity_clears {fs : List Field} {ss : FieldSpecs fs} (h : FieldSpecs.All @Clears ss) : Clears (entityMF fs) (entitySpec ss) := by
  have : ∀ v, ss.wf v → ∃ v', fieldsClear fs v = .ok () v' ∧ ss.rel .exact v' (fieldsInit fs) := by
    induction h with
    | nil => exact fun v _ => ⟨_, rfl, trivial⟩
    | base h ih =>
      intro v hv
      obtain ⟨v', e, hr⟩ := ih v.2 hv
      exact ⟨(_, v'), onFields_ok rfl e, Container.Rel.refl (fun _ => rfl) _ _, hr⟩
    | sub hM h ih =>
      intro v hv
      obtain ⟨a, e1, _, hr1⟩ := hM v.1 hv.1
      obtain ⟨v', e, hr⟩ := ih v.2 hv.2
      exact ⟨(a, v'), onFields_ok e1 e, hr1, hr⟩
  intro v hv
  obtain ⟨v', e, hr⟩ := this v hv
  exact ⟨v', e, e, hr⟩

theorem entity_keepsSelf {fs : List Field} {ss : FieldSpecs fs} (h : FieldSpecs.All @KeepsSelf ss) : KeepsSelf (entityMF fs) (entitySpec ss) := by
  show ∀ v, ss.wf v → ∃ v', fieldsCopySelf fs v = .ok () v' ∧ ss.rel .exact v' v
  induction h with
  | nil => exact fun v _ => ⟨_, rfl, trivial⟩
  | base h ih =>
    intro v hv
    obtain ⟨v', e, hr⟩ := ih v.2 hv
    exact ⟨(v.1, v'), onFields_ok rfl e, Container.Rel.refl (fun _ => rfl) _ _, hr⟩
  | sub hM h ih =>
    intro v hv
    obtain ⟨a, e1, hr1⟩ := hM v.1 hv.1
    obtain ⟨v', e, hr⟩ := ih v.2 hv.2
    exact ⟨(a, v'), onFields_ok e1 e, hr1, hr⟩

end ISD
