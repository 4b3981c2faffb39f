import Verif.Proofs.ManagedTable

/-! # The laws of the generated entities -/

namespace ISD

theorem table_clears {K V : Type} [DecidableEq K] (st : Stored K) (M : Managed V) (S : ClassSpec V) (zk ne : Bool) (ord : TableOrder (K × Option V)) :
    Clears (tableMF st M zk ne ord) (tableSpec st S zk ne) :=
  fun _ _ => ⟨[], rfl, rfl, fun _ => .none⟩

/-- The variables: registered base types, short keys, lawful classes. -/
inductive FieldSpecs.Good : {fs : List Field} → FieldSpecs fs → Prop where
  | nil : FieldSpecs.nil.Good
  | base {k t c fs} {rest : FieldSpecs fs} (hk : k.length ≤ 40) (ht : t ∈ allTypes) (h : rest.Good) : (FieldSpecs.base k t c rest).Good
  | sub {k V} {M : Managed V} {S : ClassSpec V} {fs} {rest : FieldSpecs fs} (hk : k.length ≤ 40) (hM : Lawful M S) (h : rest.Good) :
      (FieldSpecs.sub k M S rest).Good

theorem onFields_ok {A B : Type} {p : Prog A Unit} {q : Prog B Unit} {a a' : A} {b b' : B} (hp : p a = .ok () a') (hq : q b = .ok () b') :
    onFields p q (a, b) = .ok () (a', b') := by
  simp only [onFields, hp, hq]

section
variable {fs : List Field} {ss : FieldSpecs fs}

theorem fields_init_wf (h : ss.Good) : ss.wf (fieldsInit fs) := by
  induction h with
  | nil => trivial
  | base _ _ _ ih => exact ih
  | sub _ hM _ ih => exact ⟨hM.init_wf, ih⟩

theorem fields_init_dest (h : ss.Good) : ss.destOk (fieldsInit fs) := by
  induction h with
  | nil => trivial
  | base _ _ _ ih => exact ⟨destOk_zero _ _, ih⟩
  | sub _ hM _ ih => exact ⟨hM.init_dest, ih⟩

theorem fields_refl (h : ss.Good) (v : FieldsVal fs) (hv : ss.wf v) : ss.rel .exact v v := by
  induction h with
  | nil => trivial
  | base _ _ _ ih => exact ⟨Container.Rel.refl (fun _ => rfl) _ _, ih _ hv⟩
  | sub _ hM _ ih => exact ⟨hM.rel_refl _ hv.1, ih _ hv.2⟩

theorem fields_mono (h : ss.Good) {R R' : BaseRel} (hR : R.Le R') {a b : FieldsVal fs} (hr : ss.rel R a b) : ss.rel R' a b := by
  induction h with
  | nil => trivial
  | base _ _ _ ih => exact ⟨hr.1.mono (hR.1 _), ih hr.2⟩
  | sub _ hM _ ih => exact ⟨hM.rel_mono hR hr.1, ih hr.2⟩

theorem fields_flip (h : ss.Good) {R : BaseRel} {a b : FieldsVal fs} (hr : ss.rel R a b) : ss.rel R.flip b a := by
  induction h with
  | nil => trivial
  | base _ _ _ ih => exact ⟨hr.1.flip, ih hr.2⟩
  | sub _ hM _ ih => exact ⟨hM.rel_flip hr.1, ih hr.2⟩

theorem fields_comp (h : ss.Good) {R R' : BaseRel} {a b c : FieldsVal fs} (h1 : ss.rel R a b) (h2 : ss.rel R' b c) :
    ss.rel (R.comp R') a c := by
  induction h with
  | nil => trivial
  | base _ _ _ ih => exact ⟨h1.1.comp h2.1, ih h1.2 h2.2⟩
  | sub _ hM _ ih => exact ⟨hM.rel_comp h1.1 h2.1, ih h1.2 h2.2⟩

theorem fields_clear (h : ss.Good) (v : FieldsVal fs) (hv : ss.wf v) : ∃ v', fieldsClear fs v = .ok () v' ∧ ss.wf v' := by
  induction h with
  | nil => exact ⟨v, rfl, trivial⟩
  | base _ _ _ ih =>
    obtain ⟨v', e, w⟩ := ih v.2 hv
    exact ⟨(_, v'), onFields_ok rfl e, w⟩
  | sub _ hM _ ih =>
    obtain ⟨v', e, w⟩ := ih v.2 hv.2
    obtain ⟨x', e1, w1⟩ := hM.clear_ok v.1 hv.1
    exact ⟨(x', v'), onFields_ok e1 e, w1, w⟩

theorem fields_copySelf (h : ss.Good) (v : FieldsVal fs) (hv : ss.wf v) : ∃ v', fieldsCopySelf fs v = .ok () v' ∧ ss.wf v' := by
  induction h with
  | nil => exact ⟨v, rfl, trivial⟩
  | base _ _ _ ih =>
    obtain ⟨v', e, w⟩ := ih v.2 hv
    exact ⟨(_, v'), onFields_ok rfl e, w⟩
  | sub _ hM _ ih =>
    obtain ⟨v', e, w⟩ := ih v.2 hv.2
    obtain ⟨x', e1, w1⟩ := hM.copy_self v.1 hv.1
    exact ⟨(x', v'), onFields_ok e1 e, w1, w⟩

theorem fields_copy (h : ss.Good) (d s : FieldsVal fs) (hd : ss.wf d) (hs : ss.wf s) :
    ∃ d', fieldsCopy fs s d = .ok () d' ∧ ss.wf d' ∧ ss.rel .exact d' s := by
  induction h with
  | nil => exact ⟨d, rfl, trivial, trivial⟩
  | base _ _ _ ih =>
    obtain ⟨v', e, w, r⟩ := ih d.2 s.2 hd hs
    exact ⟨(_, v'), onFields_ok rfl e, w, Container.Rel.refl (fun _ => rfl) _ _, r⟩
  | sub _ hM _ ih =>
    obtain ⟨v', e, w, r⟩ := ih d.2 s.2 hd.2 hs.2
    obtain ⟨x', e1, w1, r1⟩ := hM.copy_other d.1 s.1 hd.1 hs.1
    exact ⟨(x', v'), onFields_ok e1 e, ⟨w1, w⟩, r1, r⟩

theorem fields_equals (h : ss.Good) (a b : FieldsVal fs) (ha : ss.wf a) (hb : ss.wf b) :
    ∃ r, fieldsEquals fs a b = some r ∧ (r = true ↔ ss.rel .cpp a b) := by
  induction h with
  | nil => exact ⟨true, rfl, fun _ => trivial, fun _ => rfl⟩
  | @base k t c fs rest _ _ _ ih =>
    obtain ⟨r, e, hr⟩ := ih a.2 b.2 ha hb
    rw [fieldsEquals]
    cases hc : Container.equal t.equal c a.1 b.1
    · refine ⟨false, rfl, fun h => (nomatch h), fun h => ?_⟩
      rw [containerEqual_iff.mpr h.1] at hc; cases hc
    · exact ⟨r, e, hr.trans ⟨fun h => ⟨containerEqual_iff.mp hc, h⟩, fun h => h.2⟩⟩
  | sub _ hM _ ih =>
    obtain ⟨r, e, hr⟩ := ih a.2 b.2 ha.2 hb.2
    obtain ⟨r1, e1, hr1⟩ := hM.equals_ok a.1 b.1 ha.1 hb.1
    rw [fieldsEquals, e1]
    cases r1
    · exact ⟨false, rfl, fun h => (nomatch h), fun h => (nomatch hr1.mpr h.1)⟩
    · exact ⟨r, e, hr.trans ⟨fun h => ⟨hr1.mp rfl, h⟩, fun h => h.2⟩⟩

/-- A section written with the result of `EndWriteSection` ignored. -/
theorem subWrite_appends {p q : Prog WSt Bool} {fl : Bool} {x y : Bytes} (hp : AppendsT p fl x) (hq : AppendsT q fl y) (fresh : Nat) (k : Bytes) :
    AppendsT (do
      match ← beginWriteSection fresh k with
      | none => return false
      | some a =>
        if !(← inSubsection p) then return false
        let _ ← endWriteSection (some a)
        q) fl (Spec.sect fl k x ++ y) := by
  intro w s c hw h hb
  rw [List.length_append, Spec.sect, largeBlock_length] at hb
  obtain ⟨s1, e1, h1⟩ := beginSect_ok hw h fresh k (by omega)
  obtain ⟨s2, e2, h2⟩ := hp (EWriter.create fresh c.length) s1 _ (create_idle _ _) h1
    (by rw [List.length_append, openHeader_length]; omega)
  obtain ⟨s3, e3, h3⟩ := endSect_ok (key := k) hw (EWriter.create fresh c.length) rfl h2
    (by rw [List.length_append, List.length_append, openHeader_length]; omega)
  obtain ⟨s4, e4, h4⟩ := hq w s3 _ hw h3 (by rw [List.length_append, Spec.sect, largeBlock_length]; omega)
  refine ⟨s4, ?_, by rw [← List.append_assoc]; exact h4⟩
  rw [Prog.bind_ok e1]
  dsimp only
  rw [Prog.bind_ok (inSubsection_ok (w := { w with activeSubsection := some (EWriter.create fresh c.length) }) rfl e2),
    if_neg (by decide), Prog.bind_ok (show endWriteSection (some fresh) _ = _ from e3)]
  exact e4

theorem fields_write (h : ss.Good) (v : FieldsVal fs) (hv : ss.wf v) (hs : ss.rel .storable v v) (fresh : Bytes → Nat) (fl : Bool) :
    AppendsT (fieldsWrite fresh fs v) fl ((ss.nodes v).bytes fl) := by
  induction h with
  | nil => exact .pure fl
  | base _ ht _ ih => exact (typed_appendsT ht _ _ _ fl).andThen (ih v.2 hv hs.2)
  | sub _ hM _ ih => exact subWrite_appends (hM.write_ok v.1 hv.1 hs.1 fresh fl) (ih v.2 hv.2 hs.2) _ _

theorem subRead_consumes {β α : Type} {p : Prog RSt (Option α)} {fl : Bool} {x : α} {bx y : Bytes} (hp : ConsumesT p fl (some x) bx)
    (hne : bx ≠ []) {env : REnv} (fresh : Nat) {k : Bytes} (hk : k.length ≤ 40) {f : Prog RSt β} {g : α → Prog RSt β} {n : Prog RSt β} {b : β}
    (hg : ConsumesT (g x) fl b y) :
    ConsumesT (do
      match ← beginReadSection env fresh k false with
      | (_, false) => n
      | (none, true) => f
      | (some a, true) =>
        match ← inRSubsection p with
        | none => n
        | some x =>
          let _ ← endReadSection (some a)
          g x) fl b (Spec.sect fl k bx ++ y) := by
  intro r d pos hr hd h
  rw [Has.append] at h
  have e1 := beginReadSect_ok hr env fresh false hk hd h.1 hne
  obtain ⟨-, -, -, -, h5⟩ := Has.large h.1
  have e2 := hp (EReader.create fresh (pos + 10 + k.length + bx.length)) d _ (rcreate_idle _ _) hd h5
  have e3 := endReadSect_ok hr (EReader.create fresh (pos + 10 + k.length + bx.length))
    (s := ⟨d, pos + 10 + k.length + bx.length, fl⟩) rfl
  have hl : (Spec.sect fl k bx).length = 10 + k.length + bx.length := by rw [Spec.sect, largeBlock_length]; omega
  have e4 := hg r d (pos + 10 + k.length + bx.length) hr hd (by
    have := h.2
    rwa [hl, ← Nat.add_assoc, ← Nat.add_assoc] at this)
  rw [Prog.bind_ok e1]
  dsimp only
  rw [Prog.bind_ok (inRSubsection_ok (r := { r with activeSubsection := some (EReader.create fresh
    (pos + 10 + k.length + bx.length)) }) rfl e2)]
  dsimp only
  rw [Prog.bind_ok (show endReadSection (some fresh) _ = _ from e3), e4, List.length_append, hl]
  rw [show pos + 10 + k.length + bx.length + y.length = pos + (10 + k.length + bx.length + y.length) by omega]

theorem nodes_bytes_ne {ns : Nodes} (h : ns ≠ .nil) (fl : Bool) : ns.bytes fl ≠ [] := by
  cases ns with
  | nil => exact absurd rfl h
  | cons m ms => rw [Nodes.bytes]; intro hc; exact node_ne_nil fl m (List.append_eq_nil_iff.mp hc).1

theorem fields_read (h : ss.Good) (v dest : FieldsVal fs) (hv : ss.wf v) (hs : ss.rel .storable v v) (hd : ss.wf dest)
    (hdo : ss.destOk dest) {env : REnv} (fresh : Bytes → Nat) (fl : Bool) (he : env.Lucky) :
    ∃ v', ConsumesT (fieldsRead env fresh fs dest) fl (some v') ((ss.nodes v).bytes fl) ∧ ss.wf v' ∧ ss.rel .exact v' v := by
  induction h with
  | nil => exact ⟨(), .pure fl _, trivial, trivial⟩
  | @base k t c fs rest hk ht _ ih =>
    obtain ⟨v', h1, h2, h3⟩ := ih v.2 dest.2 hv hs.2 hd hdo.2
    refine ⟨(v.1, v'), ?_, h2, Container.Rel.refl (fun _ => rfl) _ _, h3⟩
    have h4 : ConsumesT (do
        match ← fieldsRead env fresh fs dest.2 with
        | none => return none
        | some rest => return some ((v.1, rest) : FieldsVal (.base k t c :: fs))) fl (some (v.1, v')) ((rest.nodes v.2).bytes fl) := by
      rw [← List.append_nil ((rest.nodes v.2).bytes fl)]
      exact ConsumesT.bind h1 (.pure fl _)
    exact ConsumesT.bind (typed_consumesT ht c hk dest.1 v.1 hdo.1 fl he) h4
  | @sub k V M S fs rest hk hM _ ih =>
    obtain ⟨v', h1, h2, h3⟩ := ih v.2 dest.2 hv.2 hs.2 hd.2 hdo.2
    obtain ⟨x', g1, g2, g3⟩ := hM.read_ok v.1 dest.1 hv.1 hs.1 hd.1 hdo.1 env fresh fl he
    refine ⟨(x', v'), ?_, ⟨g2, h2⟩, g3, h3⟩
    have h4 : ConsumesT (do
        match ← fieldsRead env fresh fs dest.2 with
        | none => return none
        | some rest => return some ((x', rest) : FieldsVal (.sub k V M :: fs))) fl (some (x', v')) ((rest.nodes v.2).bytes fl) := by
      rw [← List.append_nil ((rest.nodes v.2).bytes fl)]
      exact ConsumesT.bind h1 (.pure fl _)
    exact subRead_consumes (env := env) g1 (nodes_bytes_ne (hM.nodes_ne _) fl) (fresh k) hk (g := fun x => (do
        match ← fieldsRead env fresh fs dest.2 with
        | none => return none
        | some rest => return some ((x, rest) : FieldsVal (.sub k V M :: fs)))) h4

theorem fields_validate (h : ss.Good) (v : FieldsVal fs) (hv : ss.wf v) :
    ∃ rs, fieldsValidate fs v rs true ∧ (∀ rs' b, fieldsValidate fs v rs' b → rs' = rs ∧ b = true) ∧ (rs = [] ↔ ss.valid v) := by
  induction h with
  | nil => exact ⟨[], ⟨rfl, rfl⟩, fun _ _ h => h, fun _ => trivial, fun _ => rfl⟩
  | base _ _ _ ih => exact ih v.2 hv
  | sub _ hM _ ih =>
    obtain ⟨rs, h1, h2, h3⟩ := ih v.2 hv.2
    obtain ⟨rv, v1, v2, v3⟩ := hM.validate_ok v.1 hv.1
    refine ⟨rv ++ rs, .inr ⟨rv, rs, v1, h1, rfl⟩, ?_, ?_⟩
    · rintro rs' b (⟨h, _⟩ | ⟨r1, r2, g1, g2, rfl⟩)
      · cases (v2 _ _ h).2
      · obtain ⟨rfl, rfl⟩ := h2 _ _ g2
        obtain ⟨rfl, -⟩ := v2 _ _ g1
        exact ⟨rfl, rfl⟩
    · rw [List.append_eq_nil_iff, h3, v3]; rfl

theorem entity_lawful (h : ss.Good) (hne : fs ≠ []) : Lawful (entityMF fs) (entitySpec ss) where
  init_wf := fields_init_wf h
  init_dest := fields_init_dest h
  rel_refl := fields_refl h
  rel_mono hR _ _ := fields_mono h hR
  rel_flip := fields_flip h
  rel_comp := fields_comp h
  clear_ok := fields_clear h
  copy_null := fields_clear h
  copy_self := fields_copySelf h
  copy_other := fields_copy h
  construct_ok s hs := fields_copy h _ s (fields_init_wf h) hs
  equals_ok := fields_equals h
  nodes_ne v := by
    cases h with
    | nil => exact absurd rfl hne
    | base => exact fun h => (nomatch h)
    | sub => exact fun h => (nomatch h)
  write_ok := fields_write h
  read_ok v dest hv hs hd hdo env fresh fl he := fields_read h v dest hv hs hd hdo fresh fl he
  validate_ok := fields_validate h

end

end ISD
