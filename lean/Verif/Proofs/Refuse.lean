import Verif.Proofs.Classes

/-! # Objects that cannot be stored -/

namespace ISD

attribute [local irreducible] dynTable DynClass.all findTypeClass

theorem refl_storable {t : DataType} {c : Container} (x : c.Val t.Val) : Container.Rel (BaseRel.storable.base t) c x x :=
  Container.Rel.refl (fun _ => rfl) c x

/-- From any idle writer on a healthy stream at its end (with room for `n` bytes) the routine returns false; the stream stays healthy and keeps
what it held, with something behind it. -/
def RefusesT (p : Prog WSt Bool) (fl : Bool) (n : Nat) : Prop :=
  ∀ w s c, w.Idle → WAt s c fl → c.length + n < 2 ^ 63 → ∃ w' s' b, p (w, s) = .ok false (w', s') ∧ WAt s' (c ++ b) fl

theorem RefusesT.more {p : Prog WSt Bool} {fl : Bool} {n m : Nat} (h : RefusesT p fl n) (hm : n ≤ m) : RefusesT p fl m :=
  fun w s c hw hs hl => h w s c hw hs (by omega)

theorem RefusesT.after {p q : Prog WSt Bool} {fl : Bool} {a : Bytes} {n : Nat} (hp : AppendsT p fl a) (hq : RefusesT q fl n) :
    RefusesT (do
      if !(← p) then return false
      q) fl (a.length + n) := by
  intro w s c hw h hb
  obtain ⟨s1, e1, h1⟩ := hp w s c hw h (by omega)
  obtain ⟨w2, s2, b, e2, h2⟩ := hq w s1 (c ++ a) hw h1 (by rw [List.length_append]; omega)
  refine ⟨w2, s2, a ++ b, ?_, by rw [← List.append_assoc]; exact h2⟩
  rw [Prog.bind_ok e1, if_neg (by decide)]
  exact e2

theorem subWrite_refuses {p q : Prog WSt Bool} {fl : Bool} {n : Nat} (hp : RefusesT p fl n) (fresh : Nat) (k : Bytes) :
    RefusesT (do
      match ← beginWriteSection fresh k with
      | none => return false
      | some a =>
        if !(← inSubsection p) then return false
        let _ ← endWriteSection (some a)
        q) fl (k.length + 10 + n) := by
  intro w s c hw h hb
  obtain ⟨s1, e1, h1⟩ := beginSect_ok hw h fresh k (by omega)
  obtain ⟨w2, s2, b, e2, h2⟩ := hp (EWriter.create fresh c.length) s1 _ (create_idle _ _) h1
    (by rw [List.length_append, openHeader_length]; omega)
  refine ⟨{ w with activeSubsection := some w2 }, s2, openHeader fl vtSubsection k ++ b, ?_, by rw [← List.append_assoc]; exact h2⟩
  rw [Prog.bind_ok e1]
  dsimp only
  rw [Prog.bind_ok (inSubsection_ok (w := { w with activeSubsection := some (EWriter.create fresh c.length) }) rfl e2), if_pos (by decide)]
  rfl

theorem subWrite_after {p q : Prog WSt Bool} {fl : Bool} {x : Bytes} {n : Nat} (hp : AppendsT p fl x) (hq : RefusesT q fl n) (fresh : Nat) (k : Bytes) :
    RefusesT (do
      match ← beginWriteSection fresh k with
      | none => return false
      | some a =>
        if !(← inSubsection p) then return false
        let _ ← endWriteSection (some a)
        q) fl ((Spec.sect fl k x).length + n) := by
  intro w s c hw h hb
  rw [Spec.sect, largeBlock_length] at hb
  obtain ⟨s1, e1, h1⟩ := beginSect_ok hw h fresh k (by omega)
  obtain ⟨s2, e2, h2⟩ := hp (EWriter.create fresh c.length) s1 _ (create_idle _ _) h1
    (by rw [List.length_append, openHeader_length]; omega)
  obtain ⟨s3, e3, h3⟩ := endSect_ok (key := k) hw (EWriter.create fresh c.length) rfl h2
    (by rw [List.length_append, List.length_append, openHeader_length]; omega)
  obtain ⟨w4, s4, b, e4, h4⟩ := hq w s3 _ hw h3 (by rw [List.length_append, Spec.sect, largeBlock_length]; omega)
  refine ⟨w4, s4, _ ++ b, ?_, by rw [← List.append_assoc]; exact h4⟩
  rw [Prog.bind_ok e1]
  dsimp only
  rw [Prog.bind_ok (inSubsection_ok (w := { w with activeSubsection := some (EWriter.create fresh c.length) }) rfl e2),
    if_neg (by decide), Prog.bind_ok (show endWriteSection (some fresh) _ = _ from e3)]
  exact e4

theorem beginElem_ok {w sub : EWriter} {s : WStream} {c : Bytes} {fl : Bool} (h : WAt s c fl) (n i st : Nat) (hi : i < n) (hn : n < 2 ^ 63)
    (hb : c.length + 8 < 2 ^ 63) :
    ∃ s1, beginWriteSectionInArray (some sub.addr) i (w.inArray sub n i st, s) = .ok true (w.inArray sub n (i + 1) c.length, s1) ∧
      WAt s1 (c ++ Spec.number fl 8 maxInt64) fl := by
  obtain ⟨s1, e1, h1⟩ := writeU64_appends maxInt64 fl s c h (by rw [number_length]; omega)
  have hwi : wrap64 (wrap64 (i + sizeMax) + 1) = i := by unfold wrap64 sizeMax; omega
  have hwi1 : wrap64 (i + 1 + sizeMax) = i := by unfold wrap64 sizeMax; omega
  refine ⟨s1, ?_, h1⟩
  rw [beginWriteSectionInArray, Prog.bind_ok (Prog.get_apply _), if_neg (by simp [EWriter.subPtr, EWriter.inArray]),
    if_neg (by simp [EWriter.inArray, hwi]), if_neg (by simp [EWriter.inArray]; omega), Prog.bind_ok (modify_ok _ _),
    Prog.bind_ok (onStream_ok e1), Prog.bind_ok (Prog.get_apply _), Prog.pure_apply]
  have hp1 : s1.pos = wrap64 (s.pos + 8) := by
    rw [h1.pos, h.pos, wrap64, Nat.mod_eq_of_lt (by omega), List.length_append, number_length]
  simp only [EWriter.inArray, hp1, beq_self_eq_true, hwi1, h.pos]

section table

variable {K V : Type} [DecidableEq K] {M : Managed V} {S : ClassSpec V}

omit [DecidableEq K] in
theorem writeLoop_refuses (fresh : Bytes → Nat) (fl : Bool) (w sub : EWriter) (hsub : sub.Idle) (n : Nat) (hn : n < 2 ^ 63) :
    ∀ (t : Table K V), (∀ k v, (k, some v) ∈ t → AppendsT (M.write fresh v) fl ((S.nodes v).bytes fl) ∨
        RefusesT (M.write fresh v) fl ((S.nodes v).bytes fl).length) →
      (∃ k v, (k, some v) ∈ t ∧ RefusesT (M.write fresh v) fl ((S.nodes v).bytes fl).length) →
      ∀ (s : WStream) (c : Bytes), WAt s c fl → ∀ i st, i + t.length ≤ n →
      c.length + (((tableElems S.nodes t).bodies fl).flatMap (Spec.element fl)).length < 2 ^ 63 →
      ∃ w' s' b, tableWriteLoop M fresh sub.addr i t (w.inArray sub n i st, s) = .ok false (w', s') ∧ WAt s' (c ++ b) fl
  | [], _, ⟨_, _, h, _⟩, _, _, _, _, _, _, _ => absurd h List.not_mem_nil
  | (k, x) :: t, hw, hex, s, c, h, i, st, hi, hb => by
    rw [List.length_cons] at hi
    rw [tableElems, Elems.bodies, List.flatMap_cons, List.length_append, Spec.element, List.length_append, number_length] at hb
    cases x with
    | none =>
      have hex' : ∃ k v, (k, some v) ∈ t ∧ RefusesT (M.write fresh v) fl ((S.nodes v).bytes fl).length := by
        obtain ⟨k', v', hm, hr⟩ := hex
        rcases List.mem_cons.mp hm with e | hm
        · cases e
        · exact ⟨k', v', hm, hr⟩
      have hel : (Spec.element fl ([] : Bytes)).length = 8 := by rw [Spec.element, List.length_append, number_length]; rfl
      obtain ⟨st1, s1, s2, s3, e1, e2, e3, h3⟩ := writeElem_ok (AppendsT.pure fl) (w := w) hsub h n i st (by omega) hn (by
        rw [hel]; omega)
      have e2' : inSubsection (return true) (w.inArray sub n (i + 1) st1, s1) = .ok true (w.inArray sub n (i + 1) st1, s1) :=
        inSubsection_ok (w := w.inArray sub n (i + 1) st1) rfl rfl
      rw [e2'] at e2
      injection e2 with _ e2
      injection e2 with _ e2
      subst e2
      obtain ⟨w4, s4, b, e4, h4⟩ := writeLoop_refuses fresh fl w sub hsub n hn t (fun k v h => hw k v (by simp [h])) hex' s3 _ h3 (i + 1) st1
        (by omega) (by rw [List.length_append, hel]; omega)
      refine ⟨w4, s4, _ ++ b, ?_, by rw [← List.append_assoc]; exact h4⟩
      rw [tableWriteLoop, Prog.bind_ok e1, if_neg (by decide)]
      dsimp only
      rw [Prog.bind_ok e3, if_neg (by decide), e4]
    | some v =>
      simp only [Option.elim] at hb
      rcases hw k v (List.mem_cons_self ..) with ha | hr
      · have hex' : (∃ k v, (k, some v) ∈ t ∧ RefusesT (M.write fresh v) fl ((S.nodes v).bytes fl).length) ∨
            RefusesT (M.write fresh v) fl ((S.nodes v).bytes fl).length := by
          obtain ⟨k', v', hm, hr⟩ := hex
          rcases List.mem_cons.mp hm with e | hm
          · cases e; exact .inr hr
          · exact .inl ⟨k', v', hm, hr⟩
        have hel : (Spec.element fl ((S.nodes v).bytes fl)).length = 8 + ((S.nodes v).bytes fl).length := by
          rw [Spec.element, List.length_append, number_length]
        rcases hex' with hex' | hr
        · obtain ⟨st1, s1, s2, s3, e1, e2, e3, h3⟩ := writeElem_ok ha (w := w) hsub h n i st (by omega) hn (by rw [hel]; omega)
          obtain ⟨w4, s4, b, e4, h4⟩ := writeLoop_refuses fresh fl w sub hsub n hn t (fun k v h => hw k v (by simp [h])) hex' s3 _ h3 (i + 1) st1
            (by omega) (by rw [List.length_append, hel]; omega)
          refine ⟨w4, s4, _ ++ b, ?_, by rw [← List.append_assoc]; exact h4⟩
          rw [tableWriteLoop, Prog.bind_ok e1, if_neg (by decide)]
          dsimp only
          rw [Prog.bind_ok e2, if_neg (by decide), Prog.bind_ok e3, if_neg (by decide), e4]
        · obtain ⟨s1, e1, h1⟩ := beginElem_ok (w := w) (sub := sub) h n i st (by omega) hn (by omega)
          obtain ⟨w2, s2, b, e2, h2⟩ := hr sub s1 _ hsub h1 (by rw [List.length_append, number_length]; omega)
          refine ⟨{ w.inArray sub n (i + 1) c.length with activeSubsection := some w2 }, s2, _ ++ b, ?_, by rw [← List.append_assoc]; exact h2⟩
          rw [tableWriteLoop, Prog.bind_ok e1, if_neg (by decide)]
          dsimp only
          rw [Prog.bind_ok (inSubsection_ok (w := w.inArray sub n (i + 1) c.length) rfl e2), if_pos (by decide)]
          rfl
      · obtain ⟨s1, e1, h1⟩ := beginElem_ok (w := w) (sub := sub) h n i st (by omega) hn (by omega)
        obtain ⟨w2, s2, b, e2, h2⟩ := hr sub s1 _ hsub h1 (by rw [List.length_append, number_length]; omega)
        refine ⟨{ w.inArray sub n (i + 1) c.length with activeSubsection := some w2 }, s2, _ ++ b, ?_, by rw [← List.append_assoc]; exact h2⟩
        rw [tableWriteLoop, Prog.bind_ok e1, if_neg (by decide)]
        dsimp only
        rw [Prog.bind_ok (inSubsection_ok (w := w.inArray sub n (i + 1) c.length) rfl e2), if_pos (by decide)]
        rfl

omit [DecidableEq K] in
theorem writeArray_refuses (fresh : Bytes → Nat) (fl : Bool) (t : Table K V)
    (hw : ∀ k v, (k, some v) ∈ t → AppendsT (M.write fresh v) fl ((S.nodes v).bytes fl) ∨ RefusesT (M.write fresh v) fl ((S.nodes v).bytes fl).length)
    (hex : ∃ k v, (k, some v) ∈ t ∧ RefusesT (M.write fresh v) fl ((S.nodes v).bytes fl).length) :
    RefusesT (do
      match ← beginWriteSectionsArray (fresh (key "Entities")) (key "Entities") t.length none with
      | none => return false
      | some p =>
        if !(← tableWriteLoop M fresh p 0 t) then return false
        if !(← endWriteSectionsArray (some p)) then return false
        return true) fl (Spec.sectArray fl (key "Entities") (some ((tableElems S.nodes t).bodies fl)) none).length := by
  intro w s c hww h hb
  rw [Spec.sectArray, largeBlock_length, Option.elim_some, List.length_append] at hb
  have hge := elements_ge fl ((tableElems S.nodes t).bodies fl)
  rw [bodies_length, tableElems_length] at hb hge
  obtain ⟨s1, e1, h1⟩ := beginArray_ok hww h (fresh (key "Entities")) (key "Entities") t.length none (by unfold sizeMax; omega) (by omega)
  obtain ⟨w2, s2, b, e2, h2⟩ := writeLoop_refuses (S := S) fresh fl w (EWriter.create (fresh (key "Entities")) c.length) (create_idle _ _) t.length
    (by omega) t hw hex s1 _ h1 0 0 (by omega) (by simp only [List.length_append, openHeader_length]; omega)
  rw [List.append_assoc, List.append_assoc] at h2
  refine ⟨w2, s2, _, ?_, h2⟩
  rw [Prog.bind_ok e1]
  dsimp only
  rw [Prog.bind_ok (show tableWriteLoop M fresh (fresh (key "Entities")) 0 t _ = _ from e2), if_pos (by decide)]
  rfl

end table

/-- `Write` refuses every object that is not storable. -/
def WriteRefuses {V : Type} (M : Managed V) (S : ClassSpec V) : Prop :=
  ∀ v, S.wf v → ¬ S.rel .storable v v → ∀ fresh fl, RefusesT (M.write fresh v) fl ((S.nodes v).bytes fl).length

theorem table_refuses {K V : Type} [DecidableEq K] {M : Managed V} {S : ClassSpec V} (hM : Lawful M S) (hR : WriteRefuses M S) (st : Stored K)
    (h : st.Good) (zk ne : Bool) (ord : TableOrder (K × Option V)) : WriteRefuses (tableMF st M zk ne ord) (tableSpec st S zk ne) := by
  intro t hw hs fresh fl
  have hall : ∀ k v, (k, some v) ∈ t → AppendsT (M.write fresh v) fl ((S.nodes v).bytes fl) ∨
      RefusesT (M.write fresh v) fl ((S.nodes v).bytes fl).length := fun k v hm => by
    by_cases hv : S.rel .storable v v
    · exact .inl (hM.write_ok v (hw.2 k v hm) hv fresh fl)
    · exact .inr (hR v (hw.2 k v hm) hv fresh fl)
  have hex : ∃ k v, (k, some v) ∈ t ∧ RefusesT (M.write fresh v) fl ((S.nodes v).bytes fl).length := by
    refine Classical.byContradiction fun hn => hs fun k => .refl fun x hx => .refl fun v hv => ?_
    subst hv
    have hm := (find_iff hw.1 k _).mp hx
    refine Classical.byContradiction fun hv => hn ⟨k, v, hm, hR v (hw.2 k v hm) hv fresh fl⟩
  rw [table_bytes, List.length_append]
  exact RefusesT.after (typed_appendsT h.mem .vector (key "IDs") (t.map fun e => st.toVal e.1) fl) (writeArray_refuses fresh fl t hall hex)

mutual
  theorem IsClass.refuses : ∀ {V : Type} {M : Managed V} {S : ClassSpec V}, IsClass M S → WriteRefuses M S
    | _, _, _, @IsClass.graph _ _ st h a r s => fun v hv hs => absurd ⟨fun _ => Iff.rfl, fun _ => Iff.rfl⟩ hs
    | _, _, _, .idx t h => fun v hv hs => absurd (refl_storable (t := t) (c := .idxVector) v) hs
    | _, _, _, .varying => fun v hv hs fresh fl w s c hw h hb => by
      refine ⟨w, s, [], ?_, by rw [List.append_nil]; exact h⟩
      have hn : v.data = none := by
        cases e : v.data with
        | none => rfl
        | some o => exact absurd (.inr ⟨o, o, e, e, rfl, rfl, .mk _ _ _ _ (refl_storable _)⟩) hs
      show Varying.write v (w, s) = _
      rw [Varying.write, hn]
      rfl
    | _, _, _, @IsClass.table _ _ _ st h _ _ hM zk ne ord => table_refuses hM.lawful hM.refuses st h zk ne ord
    | _, _, _, .entity ss h hne => fun v hv hs fresh fl => h.refuses v hv hs fresh fl
  theorem AreFields.refuses : ∀ {fs : List Field} {ss : FieldSpecs fs}, AreFields ss → ∀ v : FieldsVal fs, ss.wf v → ¬ ss.rel .storable v v →
      ∀ fresh fl, RefusesT (fieldsWrite fresh fs v) fl ((ss.nodes v).bytes fl).length
    | _, _, .nil, v, hv, hs, fresh, fl => absurd trivial hs
    | _, _, .base hk ht h, v, hv, hs, fresh, fl => by
      have h2 := h.refuses v.2 hv (fun h' => hs ⟨refl_storable _, h'⟩) fresh fl
      rw [fieldsWrite, FieldSpecs.nodes, Nodes.bytes, List.length_append]
      exact .after (typed_appendsT ht _ _ _ fl) h2
    | _, _, @AreFields.sub k V M S fs rest hk hM h, v, hv, hs, fresh, fl => by
      rw [fieldsWrite, FieldSpecs.nodes, Nodes.bytes, List.length_append]
      by_cases h1 : S.rel .storable v.1 v.1
      · exact subWrite_after (hM.lawful.write_ok v.1 hv.1 h1 fresh fl) (h.refuses v.2 hv.2 (fun h' => hs ⟨h1, h'⟩) fresh fl) _ _
      · refine (subWrite_refuses (hM.refuses v.1 hv.1 h1 fresh fl) _ _).more ?_
        rw [Node.bytes, Spec.sect, largeBlock_length]
        omega
end

end ISD
