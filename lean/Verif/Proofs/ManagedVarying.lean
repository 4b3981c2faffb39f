import Verif.Proofs.ManagedGraph

/-! # The laws of Varying -/

namespace ISD

attribute [local irreducible] dynTable DynClass.all

theorem typeId_mem {i : Nat} {t : DataType} (h : Spec.TypeId i t) : t ∈ allTypes := by
  obtain ⟨b, v, variants, h1, h2, _⟩ := h
  exact List.mem_flatten.mpr ⟨variants, List.mem_of_getElem? h1, List.mem_of_getElem? h2⟩

theorem find_of_ids {i j : Nat} {t : DataType} {c : Container} (h1 : Spec.TypeId i t) (h2 : Spec.ContainerId j c) :
    findTypeClass (BitVec.ofNat 32 i) (BitVec.ofNat 32 j) = some ⟨i, j, t, c⟩ :=
  ((find_exact _ _).2 ⟨i, j, t, c⟩).mpr ⟨mem_all.mpr ⟨h1, h2⟩, rfl, rfl⟩

theorem ids_small {i j : Nat} {t : DataType} {c : Container} (h1 : Spec.TypeId i t) (h2 : Spec.ContainerId j c) : i < 2 ^ 16 ∧ j < 2 ^ 16 :=
  all_small ⟨i, j, t, c⟩ (mem_all.mpr ⟨h1, h2⟩)

theorem find_ids {dt ct : Word 4} {cl : DynClass} (h : findTypeClass dt ct = some cl) :
    Spec.TypeId cl.dt cl.t ∧ Spec.ContainerId cl.ct cl.c ∧ dt = BitVec.ofNat 32 cl.dt ∧ ct = BitVec.ofNat 32 cl.ct := by
  obtain ⟨h1, h2, h3⟩ := ((find_exact dt ct).2 cl).mp h
  obtain ⟨h4, h5⟩ := mem_all.mp h1
  exact ⟨h4, h5, h2.symm, h3.symm⟩

theorem varying_cases (v : Varying) (h : varyingSpec.wf v) : v.data = none ∨
    ∃ i j t c x, v = ⟨BitVec.ofNat 32 i, BitVec.ofNat 32 j, some ⟨t, c, x⟩⟩ ∧ Spec.TypeId i t ∧ Spec.ContainerId j c := by
  obtain ⟨ty, ct, data⟩ := v
  rcases data with _ | ⟨t, c, x⟩
  · exact .inl rfl
  · obtain ⟨i, j, h1, h2, h3, h4⟩ := h _ rfl
    dsimp only at h1 h2 h3 h4
    subst h3 h4
    exact .inr ⟨i, j, t, c, x, rfl, h1, h2⟩

theorem varying_wf_mk {i j : Nat} {t : DataType} {c : Container} (h1 : Spec.TypeId i t) (h2 : Spec.ContainerId j c) (x : c.Val t.Val) :
    varyingSpec.wf ⟨BitVec.ofNat 32 i, BitVec.ofNat 32 j, some ⟨t, c, x⟩⟩ := by
  intro o ho
  cases ho
  exact ⟨i, j, h1, h2, rfl, rfl⟩

theorem varying_wf_none (ty ct : Word 4) : varyingSpec.wf ⟨ty, ct, none⟩ := fun o ho => (nomatch ho)

theorem madeBy_self (t : DataType) (c : Container) (x : c.Val t.Val) (i j : Nat) : DynObj.madeBy ⟨t, c, x⟩ ⟨i, j, t, c⟩ = true :=
  decide_eq_true ⟨rfl, rfl⟩

theorem dynamic_ok {σ : Type} {i j : Nat} {t : DataType} {c : Container} (h1 : Spec.TypeId i t) (h2 : Spec.ContainerId j c) (x : c.Val t.Val)
    (f : DynObj → Prog σ Bool) : Varying.dynamic ⟨BitVec.ofNat 32 i, BitVec.ofNat 32 j, some ⟨t, c, x⟩⟩ f = f ⟨t, c, x⟩ := by
  simp only [Varying.dynamic, find_of_ids h1 h2, madeBy_self, if_true]

theorem deinitialize_ok {v : Varying} (h : varyingSpec.wf v) : ∃ v', Varying.deinitialize v = .ok true v' ∧ v'.data = none ∧
    (v.data = none → v' = v) := by
  rcases varying_cases v h with hn | ⟨i, j, t, c, x, rfl, h1, h2⟩
  · refine ⟨v, ?_, hn, fun _ => rfl⟩
    rw [Varying.deinitialize, Prog.bind_ok (Prog.get_apply _), if_neg (by simp [hn])]
    rfl
  · refine ⟨⟨0, 0, none⟩, ?_, rfl, fun h => (nomatch h)⟩
    rw [Varying.deinitialize, Prog.bind_ok (Prog.get_apply _), if_pos (by rfl)]
    rw [dynamic_ok h1 h2]
    rfl

theorem newType_ok {i j : Nat} {t : DataType} {c : Container} (h1 : Spec.TypeId i t) (h2 : Spec.ContainerId j c) :
    newType (BitVec.ofNat 32 i) (BitVec.ofNat 32 j) = some ⟨t, c, c.zero t.zero⟩ := by
  rw [newType, find_of_ids h1 h2]; rfl

theorem setType_ok {v : Varying} (h : varyingSpec.wf v) {i j : Nat} {t : DataType} {c : Container} (h1 : Spec.TypeId i t)
    (h2 : Spec.ContainerId j c) : Varying.setType (BitVec.ofNat 32 i) (BitVec.ofNat 32 j) v =
      .ok true ⟨BitVec.ofNat 32 i, BitVec.ofNat 32 j, some ⟨t, c, c.zero t.zero⟩⟩ := by
  obtain ⟨v', e, _, _⟩ := deinitialize_ok h
  rw [Varying.setType, Prog.bind_ok e, if_neg (by decide), newType_ok h1 h2]
  rfl

theorem copyFrom_ok {d : Varying} (hd : varyingSpec.wf d) {i j : Nat} {t : DataType} {c : Container} (h1 : Spec.TypeId i t)
    (h2 : Spec.ContainerId j c) (x : c.Val t.Val) : Varying.copyFrom ⟨BitVec.ofNat 32 i, BitVec.ofNat 32 j, some ⟨t, c, x⟩⟩ d =
      .ok () ⟨BitVec.ofNat 32 i, BitVec.ofNat 32 j, some ⟨t, c, x⟩⟩ := by
  rw [Varying.copyFrom, if_neg (by simp)]
  dsimp only
  rw [Prog.bind_ok (setType_ok hd h1 h2), if_neg (by decide), Prog.bind_ok (Prog.get_apply _)]
  dsimp only
  rw [find_of_ids h1 h2]
  dsimp only
  rw [madeBy_self, madeBy_self, if_pos (by decide)]
  rfl

theorem varyingCopy_ok {d s : Varying} (hd : varyingSpec.wf d) (hs : varyingSpec.wf s) :
    ∃ d', Varying.copy (.other s) d = .ok () d' ∧ varyingSpec.wf d' ∧ varyingSpec.rel .exact d' s := by
  obtain ⟨v', e, hn, _⟩ := deinitialize_ok hd
  have hw : varyingSpec.wf v' := by cases v'; cases hn; exact varying_wf_none _ _
  rcases varying_cases s hs with hsn | ⟨i, j, t, c, x, rfl, h1, h2⟩
  · refine ⟨v', ?_, hw, .inl ⟨hn, hsn, trivial⟩⟩
    rw [Varying.copy, Prog.bind_ok e, if_neg (by decide)]
    dsimp only
    rw [Varying.copyFrom, if_pos (by simp [hsn])]
    rfl
  · refine ⟨_, ?_, varying_wf_mk h1 h2 x, .inr ⟨_, _, rfl, rfl, rfl, rfl, .mk _ _ _ _ (Container.Rel.refl (fun _ => rfl) _ _)⟩⟩
    rw [Varying.copy, Prog.bind_ok e, if_neg (by decide)]
    dsimp only
    exact copyFrom_ok hw h1 h2 x

theorem varyingClear_ok {v : Varying} (h : varyingSpec.wf v) : ∃ v', Varying.clear v = .ok () v' ∧ varyingSpec.wf v' := by
  rcases varying_cases v h with hn | ⟨i, j, t, c, x, rfl, h1, h2⟩
  · refine ⟨v, ?_, h⟩
    rw [Varying.clear, Prog.bind_ok (Prog.get_apply _), if_pos (by simp [hn])]
    rfl
  · refine ⟨_, ?_, varying_wf_mk h1 h2 (c.zero t.zero)⟩
    rw [Varying.clear, Prog.bind_ok (Prog.get_apply _), if_neg (by simp), dynamic_ok h1 h2]
    rfl

theorem setWidth16 {i : Nat} (h : i < 2 ^ 16) : ((BitVec.ofNat 32 i).setWidth 16).setWidth 32 = BitVec.ofNat 32 i := by
  apply BitVec.eq_of_toNat_eq
  simp only [BitVec.toNat_setWidth, BitVec.toNat_ofNat]
  omega

theorem u16_inv (w : Word 2) : u16Of (u16Val w) = w := rfl

theorem destOk_zero (t : DataType) (c : Container) : DestOk t c (c.zero t.zero) := by
  cases c <;> first | trivial | exact fun _ => rfl

theorem u16_mem : u16Type ∈ allTypes := by decide +kernel

theorem dynEqual_iff (t : DataType) (c : Container) (x y : c.Val t.Val) :
    DynObj.equal ⟨t, c, x⟩ ⟨t, c, y⟩ = true ↔ DynObj.Rel .cpp ⟨t, c, x⟩ ⟨t, c, y⟩ := by
  rw [DynObj.equal, dif_pos ⟨rfl, rfl⟩]
  show Container.equal t.equal c x y = true ↔ _
  rw [containerEqual_iff]
  exact ⟨fun h => .mk _ _ _ _ h, fun h => by cases h with | mk _ _ _ _ h => exact h⟩

theorem varying_bytes (fl : Bool) (ty ct : Word 4) (t : DataType) (c : Container) (x : c.Val t.Val) :
    (varyingSpec.nodes ⟨ty, ct, some ⟨t, c, x⟩⟩).bytes fl =
      Spec.typed fl u16Type .none (key "Type") (u16Val (ty.setWidth 16)) ++
      (Spec.typed fl u16Type .none (key "ContainerType") (u16Val (ct.setWidth 16)) ++ Spec.typed fl t c (key "Data") x) := by
  simp only [varyingSpec, Option.elim, Nodes.bytes, Node.bytes, List.append_nil]

theorem onVarying_ok {v v' : Varying} {p : Prog Varying Bool} {b : Bool} (h : p v = .ok b v') (fl : Bool) :
    ConsumesT (onVarying v p) fl (b, v') [] := by
  intro r d pos _ _ _
  simp only [onVarying, h, List.length_nil, Nat.add_zero]

theorem ConsumesT.bind0 {α β : Type} {p : Prog RSt α} {f : α → Prog RSt β} {fl : Bool} {a : α} {b : β} {y : Bytes}
    (hp : ConsumesT p fl a []) (hq : ConsumesT (f a) fl b y) : ConsumesT (p >>= f) fl b y := ConsumesT.bind hp hq

theorem varying_lawful : Lawful varyingMF varyingSpec where
  init_wf := varying_wf_none _ _
  init_dest := trivial
  rel_refl v h := by
    rcases varying_cases v h with hn | ⟨i, j, t, c, x, rfl, h1, h2⟩
    · exact .inl ⟨hn, hn, trivial⟩
    · exact .inr ⟨_, _, rfl, rfl, rfl, rfl, .mk _ _ _ _ (Container.Rel.refl (fun _ => rfl) _ _)⟩
  rel_mono h _ _ hr := by
    rcases hr with ⟨a, b, c⟩ | ⟨o, p, a, b, c, d, e⟩
    · exact .inl ⟨a, b, h.2 c⟩
    · refine .inr ⟨o, p, a, b, c, d, ?_⟩
      cases e with | mk _ _ _ _ e => exact .mk _ _ _ _ (e.mono (h.1 _))
  rel_flip hr := by
    rcases hr with ⟨a, b, c⟩ | ⟨o, p, a, b, c, d, e⟩
    · exact .inl ⟨b, a, c⟩
    · refine .inr ⟨p, o, b, a, c.symm, d.symm, ?_⟩
      cases e with | mk _ _ _ _ e => exact .mk _ _ _ _ e.flip
  rel_comp h1 h2 := by
    rcases h1 with ⟨a, b, c⟩ | ⟨o, p, a, b, c, d, e⟩
    · rcases h2 with ⟨a', b', c'⟩ | ⟨o', p', a', b', c', d', e'⟩
      · exact .inl ⟨a, b', c, c'⟩
      · rw [b] at a'; cases a'
    · rcases h2 with ⟨a', b', c'⟩ | ⟨o', p', a', b', c', d', e'⟩
      · rw [b] at a'; cases a'
      · rw [b] at a'; cases a'
        refine .inr ⟨o, p', a, b', c.trans c', d.trans d', ?_⟩
        cases e with | mk _ _ _ _ e => cases e' with | mk _ _ _ _ e' => exact .mk _ _ _ _ (e.comp e')
  clear_ok v h := varyingClear_ok h
  copy_null v h := by
    obtain ⟨v', e, hn, _⟩ := deinitialize_ok h
    refine ⟨v', ?_, by cases v'; cases hn; exact varying_wf_none _ _⟩
    show Varying.copy .null v = _
    rw [Varying.copy, Prog.bind_ok e, if_neg (by decide)]
    rfl
  copy_self v h := by
    obtain ⟨v', e, hn, _⟩ := deinitialize_ok h
    refine ⟨v', ?_, by cases v'; cases hn; exact varying_wf_none _ _⟩
    show Varying.copy .self v = _
    rw [Varying.copy, Prog.bind_ok e, if_neg (by decide)]
    dsimp only
    rw [Prog.bind_ok (Prog.get_apply _), Varying.copyFrom, if_pos (by simp [hn])]
    rfl
  copy_other d s hd hs := varyingCopy_ok hd hs
  construct_ok s hs := varyingCopy_ok (varying_wf_none _ _) hs
  equals_ok a b ha hb := by
    show ∃ r, Varying.equals a b = some r ∧ _
    rcases varying_cases a ha with hn | ⟨i, j, t, c, x, rfl, h1, h2⟩
    · refine ⟨false, ?_, fun h => (nomatch h), fun h => ?_⟩
      · rw [Varying.equals, hn]; dsimp only; split <;> try split
        all_goals rfl
      · rcases h with ⟨_, _, h⟩ | ⟨o, p, h, _⟩
        · exact h.elim
        · rw [hn] at h; cases h
    · rcases varying_cases b hb with hn | ⟨i', j', t', c', y, rfl, h1', h2'⟩
      · refine ⟨false, ?_, fun h => (nomatch h), fun h => ?_⟩
        · rw [Varying.equals, hn]; dsimp only; split <;> try split
          all_goals rfl
        · rcases h with ⟨_, _, h⟩ | ⟨o, p, _, h, _⟩
          · exact h.elim
          · rw [hn] at h; cases h
      · have hr : varyingSpec.rel .cpp ⟨BitVec.ofNat 32 i, BitVec.ofNat 32 j, some ⟨t, c, x⟩⟩
            ⟨BitVec.ofNat 32 i', BitVec.ofNat 32 j', some ⟨t', c', y⟩⟩ ↔
            BitVec.ofNat 32 i = BitVec.ofNat 32 i' ∧ BitVec.ofNat 32 j = BitVec.ofNat 32 j' ∧ DynObj.Rel .cpp ⟨t, c, x⟩ ⟨t', c', y⟩ := by
          constructor
          · rintro (⟨h, _⟩ | ⟨o, p, h, h', e1, e2, e3⟩)
            · cases h
            · cases h; cases h'; exact ⟨e1, e2, e3⟩
          · rintro ⟨e1, e2, e3⟩; exact .inr ⟨_, _, rfl, rfl, e1, e2, e3⟩
        rw [hr, Varying.equals]
        dsimp only
        by_cases e1 : BitVec.ofNat 32 i = BitVec.ofNat 32 i'
        · rw [if_neg (by simpa using e1)]
          by_cases e2 : BitVec.ofNat 32 j = BitVec.ofNat 32 j'
          · rw [if_neg (by simpa using e2), find_of_ids h1 h2]
            dsimp only
            have f2 := find_of_ids h1' h2'
            rw [← e1, ← e2, find_of_ids h1 h2] at f2
            injection f2 with f2
            injection f2 with _ _ f3 f4
            subst f3 f4
            rw [madeBy_self, madeBy_self, if_pos (by decide)]
            exact ⟨_, rfl, (dynEqual_iff t c x y).trans ⟨fun h => ⟨e1, e2, h⟩, fun h => h.2.2⟩⟩
          · rw [if_pos e2]; exact ⟨false, rfl, fun h => (nomatch h), fun h => absurd h.2.1 e2⟩
        · rw [if_pos e1]; exact ⟨false, rfl, fun h => (nomatch h), fun h => absurd h.1 e1⟩
  nodes_ne v := fun h => (nomatch h)
  write_ok v h hs fresh fl := by
    rcases varying_cases v h with hn | ⟨i, j, t, c, x, rfl, h1, h2⟩
    · rcases hs with ⟨_, _, h⟩ | ⟨o, p, h, _⟩
      · exact h.elim
      · rw [hn] at h; cases h
    · have : varyingMF.write fresh ⟨BitVec.ofNat 32 i, BitVec.ofNat 32 j, some ⟨t, c, x⟩⟩ = (do
          if !(← EWriter.write u16Type .none (key "Type") (u16Val ((BitVec.ofNat 32 i).setWidth 16))) then return false
          if !(← EWriter.write u16Type .none (key "ContainerType") (u16Val ((BitVec.ofNat 32 j).setWidth 16))) then return false
          EWriter.write t c (key "Data") x) := by
        show Varying.write ⟨BitVec.ofNat 32 i, BitVec.ofNat 32 j, some ⟨t, c, x⟩⟩ = _
        rw [Varying.write, if_neg (by simp)]
        dsimp only
        rw [dynamic_ok h1 h2]
      rw [this]
      have := (typed_appendsT u16_mem .none (key "Type") (u16Val ((BitVec.ofNat 32 i).setWidth 16)) fl).andThen
        ((typed_appendsT u16_mem .none (key "ContainerType") (u16Val ((BitVec.ofNat 32 j).setWidth 16)) fl).andThen
          (typed_appendsT (typeId_mem h1) c (key "Data") x fl))
      rw [varying_bytes]
      exact this
  read_ok v dest h hs hd _ env fresh fl he := by
    rcases varying_cases v h with hn | ⟨i, j, t, c, x, rfl, h1, h2⟩
    · rcases hs with ⟨_, _, h⟩ | ⟨o, p, h, _⟩
      · exact h.elim
      · rw [hn] at h; cases h
    · refine ⟨_, ?_, h, .inr ⟨_, _, rfl, rfl, rfl, rfl, .mk _ _ _ _ (Container.Rel.refl (fun _ => rfl) _ _)⟩⟩
      obtain ⟨hi, hj⟩ := ids_small h1 h2
      obtain ⟨v', e, hn, _⟩ := deinitialize_ok hd
      have hw : varyingSpec.wf v' := by cases v'; cases hn; exact varying_wf_none _ _
      have hk1 : (key "Type").length ≤ 40 := by decide
      have hk2 : (key "ContainerType").length ≤ 40 := by decide
      have hk3 : (key "Data").length ≤ 40 := by decide
      rw [varying_bytes]
      show ConsumesT (Varying.read env dest) fl _ _
      rw [Varying.read]
      refine ConsumesT.bind0 (onVarying_ok e fl) ?_
      dsimp only
      refine ConsumesT.bind (typed_consumesT u16_mem .none hk1 _ _ trivial fl he) ?_
      dsimp only
      refine ConsumesT.bind (typed_consumesT u16_mem .none hk2 _ _ trivial fl he) ?_
      dsimp only
      rw [u16_inv, u16_inv, setWidth16 hi, setWidth16 hj]
      refine ConsumesT.bind0 (onVarying_ok (setType_ok hw h1 h2) fl) ?_
      dsimp only
      rw [if_neg (by decide), find_of_ids h1 h2]
      dsimp only
      rw [if_pos (madeBy_self _ _ _ _ _)]
      rw [← List.append_nil (Spec.typed fl t c (key "Data") x)]
      refine ConsumesT.bind (typed_consumesT (typeId_mem h1) c hk3 _ _ (destOk_zero t c) fl he) ?_
      exact .pure fl _
  validate_ok v _ := by
    refine ⟨_, ⟨rfl, rfl⟩, fun rs' b h => h, ?_⟩
    obtain ⟨ty, ct, data⟩ := v
    cases data <;> simp [varyingSpec]

end ISD
