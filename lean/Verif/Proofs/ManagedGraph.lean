import Verif.Proofs.Managed

/-! # The laws of graphs and indexed vectors -/

namespace ISD

theorem map_inv {K : Type} {st : Stored K} (h : st.Good) (l : List K) : (l.map st.toVal).map st.ofVal = l := by
  rw [List.map_map]
  exact (List.map_congr_left (g := id) fun k _ => h.inv k).trans (List.map_id l)

section graph

variable {α : Type} [NodeType α]

theorem insertPairs_spec (es : List (α × α)) (g : Graph α) (hg : g.Valid) :
    (insertPairs g (es.flatMap fun e => [e.1, e.2])).Valid ∧
    (insertPairs g (es.flatMap fun e => [e.1, e.2])).roots = g.roots ∧
    ∀ e, e ∈ (insertPairs g (es.flatMap fun e => [e.1, e.2])).edges ↔ e ∈ g.edges ∨ e ∈ es := by
  induction es generalizing g with
  | nil => exact ⟨hg, rfl, fun e => by simp [insertPairs]⟩
  | cons x es ih =>
    obtain ⟨h1, h2, h3⟩ := ih (g.insertEdge x.1 x.2) (hg.insertEdge _ _)
    rw [List.flatMap_cons]
    refine ⟨h1, h2, fun e => ?_⟩
    have := h3 e
    rw [show (g.insertEdge x.1 x.2).edges = OrdSet.insert (x.1, x.2) g.edges from rfl, OrdSet.mem_insert] at this
    show e ∈ (insertPairs (g.insertEdge x.1 x.2) (es.flatMap fun e => [e.1, e.2])).edges ↔ _
    rw [this, List.mem_cons]
    constructor
    · rintro ((h | h) | h)
      · exact .inr (.inl h)
      · exact .inl h
      · exact .inr (.inr h)
    · rintro (h | h | h)
      · exact .inl (.inr h)
      · exact .inl (.inl h)
      · exact .inr h

theorem flatMap_inv {st : Stored α} (h : st.Good) (es : List (α × α)) :
    (es.flatMap fun e => [st.toVal e.1, st.toVal e.2]).map st.ofVal = es.flatMap fun e => [e.1, e.2] := by
  induction es with
  | nil => rfl
  | cons x es ih => simp only [List.flatMap_cons, List.map_append, List.map_cons, List.map_nil, h.inv, ih]

theorem graph_rel_eq {st : Stored α} {a r s : Bool} {R : BaseRel} {x y : Graph α} (hx : x.Valid) (hy : y.Valid) :
    (graphSpec st a r s).rel R x y ↔ x = y := by
  constructor
  · rintro ⟨h1, h2⟩
    have e1 := OrdSet.sorted_ext hx.roots hy.roots h1
    have e2 := OrdSet.sorted_ext hx.edges hy.edges h2
    cases x; cases y; simp_all
  · rintro rfl; exact ⟨fun _ => Iff.rfl, fun _ => Iff.rfl⟩

theorem deepCopy_eq {g : Graph α} (h : g.Valid) : Graph.deepCopy (some g) = g := (C29_copying g h).2.2.1

theorem graph_equals_iff {x y : Graph α} (hx : x.Valid) (hy : y.Valid) : Graph.equals false (some x) (some y) = true ↔ x = y := by
  rw [(C29_equality x y hx hy).1]
  exact ⟨fun h => h.eq hx hy, fun h => h ▸ ⟨fun _ => Iff.rfl, fun _ _ => Iff.rfl⟩⟩

theorem graph_lawful (st : Stored α) (hst : st.Good) (a r s : Bool) : Lawful (graphMF st a r s) (graphSpec st a r s) where
  init_wf := Graph.Valid.empty
  init_dest := trivial
  rel_refl v h := ⟨fun _ => Iff.rfl, fun _ => Iff.rfl⟩
  rel_mono _ _ _ h := h
  rel_flip h := ⟨fun n => (h.1 n).symm, fun n => (h.2 n).symm⟩
  rel_comp h1 h2 := ⟨fun n => (h1.1 n).trans (h2.1 n), fun n => (h1.2 n).trans (h2.2 n)⟩
  clear_ok v _ := ⟨_, rfl, Graph.Valid.empty⟩
  copy_null v _ := ⟨_, rfl, Graph.Valid.empty⟩
  copy_self v h := ⟨v, by show Res.ok () (Graph.deepCopy (some v)) = _; rw [deepCopy_eq h], h⟩
  copy_other d s _ h := ⟨s, by show Res.ok () (Graph.deepCopy (some s)) = _; rw [deepCopy_eq h], h, ⟨fun _ => Iff.rfl, fun _ => Iff.rfl⟩⟩
  construct_ok s h := ⟨s, by show Res.ok () (Graph.deepCopy (some s)) = _; rw [deepCopy_eq h], h, ⟨fun _ => Iff.rfl, fun _ => Iff.rfl⟩⟩
  equals_ok x y hx hy := ⟨_, rfl, by rw [graph_equals_iff hx hy, graph_rel_eq hx hy]⟩
  nodes_ne v := fun h => (nomatch h)
  write_ok v _ _ fresh fl := (typed_appendsT hst.mem .vector _ _ fl).andThen ((typed_appendsT hst.mem .vector _ _ fl).andThen (.pure fl))
  read_ok v dest hv _ _ _ env fresh fl he := by
    have hk1 : (key "Roots").length ≤ 40 := by decide
    have hk2 : (key "Edges").length ≤ 40 := by decide
    refine ⟨v, ?_, hv, ⟨fun _ => Iff.rfl, fun _ => Iff.rfl⟩⟩
    refine ConsumesT.bind (typed_consumesT hst.mem .vector hk1 [] _ (fun _ => rfl) fl he) ?_
    refine ConsumesT.bind (typed_consumesT hst.mem .vector hk2 [] _ (fun _ => rfl) fl he) ?_
    have hroots : (v.roots.map st.toVal).map st.ofVal = v.roots := map_inv hst _
    have hedges := flatMap_inv hst v.edges
    dsimp only [Nodes.bytes]
    rw [hroots, hedges, OrdSet.ofList_sorted hv.roots]
    obtain ⟨h1, h2, h3⟩ := insertPairs_spec v.edges ({ roots := v.roots, edges := [] } : Graph α) ⟨hv.roots, List.Pairwise.nil⟩
    have : insertPairs ({ roots := v.roots, edges := [] } : Graph α) (v.edges.flatMap fun e => [e.1, e.2]) = v := by
      refine (graph_rel_eq (st := st) (a := a) (r := r) (s := s) (R := .exact) h1 hv).mp ⟨fun n => by rw [h2], fun e => by rw [h3]; simp⟩
    rw [this]
    exact .pure fl _
  validate_ok v hv := by
    obtain ⟨reports, _, _, _, _, h1, h2, _⟩ := C32_validation_reports a r s v hv
    refine ⟨reports, ⟨h1, rfl⟩, fun rs' b h => ⟨h2 _ h.1, h.2⟩, ?_⟩
    show reports = [] ↔ v.MeetsFlags a r s
    rw [← C32_validates_iff_meets_flags a r s v hv]
    exact ⟨fun h => h ▸ h1, fun h => (h2 _ h).symm⟩

theorem graph_clears (st : Stored α) (a r s : Bool) : Clears (graphMF st a r s) (graphSpec st a r s) :=
  fun v _ => ⟨_, rfl, rfl, fun _ => Iff.rfl, fun _ => Iff.rfl⟩

theorem graph_keepsSelf (st : Stored α) (a r s : Bool) : KeepsSelf (graphMF st a r s) (graphSpec st a r s) :=
  fun v h => ⟨v, by show Res.ok () (Graph.deepCopy (some v)) = _; rw [deepCopy_eq h], fun _ => Iff.rfl, fun _ => Iff.rfl⟩

end graph

/-! ## Indexed vectors -/

theorem badIndex_iff (n : Nat) (i : Word 4) : i.toNat ≥ (BitVec.ofNat 32 (min n i32Sup)).toNat ↔ BadIndex n i := by
  unfold BadIndex
  have hi := i.isLt
  have hm : min n i32Sup < 2 ^ 31 := by unfold i32Sup; omega
  rw [BitVec.toNat_ofNat, Nat.mod_eq_of_lt (by omega), BitVec.toInt_eq_toNat_cond]
  split <;> omega

theorem idxValidateLoop_eq (n : Nat) (l : List (Word 4)) :
    idxValidateLoop (BitVec.ofNat 32 (min n i32Sup)) l = List.replicate (l.countP fun i => decide (BadIndex n i)) Graph.invalidValue := by
  induction l with
  | nil => rfl
  | cons i l ih =>
    rw [idxValidateLoop, ih, List.countP_cons]
    by_cases h : BadIndex n i
    · rw [if_pos ((badIndex_iff n i).mpr h), if_pos (by simpa using h), List.replicate_succ]; rfl
    · rw [if_neg (fun h' => h ((badIndex_iff n i).mp h')), if_neg (by simpa using h)]; rfl

theorem idx_lawful (t : DataType) (ht : t ∈ allTypes) : Lawful (idxMF t) (idxSpec t) where
  init_wf := trivial
  init_dest := fun _ => rfl
  rel_refl v _ := Container.Rel.refl (fun _ => rfl) .idxVector v
  rel_mono h _ _ hr := Container.Rel.mono (c := .idxVector) (h.1 t) hr
  rel_flip hr := Container.Rel.flip (c := .idxVector) hr
  rel_comp h1 h2 := Container.Rel.comp (c := .idxVector) h1 h2
  clear_ok v _ := ⟨_, rfl, trivial⟩
  copy_null v _ := ⟨_, rfl, trivial⟩
  copy_self v _ := ⟨_, rfl, trivial⟩
  copy_other d s _ _ := ⟨s, rfl, trivial, Container.Rel.refl (fun _ => rfl) .idxVector s⟩
  construct_ok s _ := ⟨s, rfl, trivial, Container.Rel.refl (fun _ => rfl) .idxVector s⟩
  equals_ok a b _ _ := ⟨_, rfl, idxEqual_iff⟩
  nodes_ne v := fun h => (nomatch h)
  write_ok v _ _ fresh fl := (typed_appendsT ht .idxVector _ _ fl).andThen (.pure fl)
  read_ok v dest _ _ _ hd env fresh fl he := by
    refine ⟨v, ?_, trivial, Container.Rel.refl (fun _ => rfl) .idxVector v⟩
    have hk : (key "Values").length ≤ 40 := by decide
    exact ConsumesT.bind (typed_consumesT ht .idxVector hk dest v hd fl he) (.pure fl _)
  validate_ok v _ := by
    refine ⟨_, ⟨rfl, rfl⟩, fun rs' b h => h, ?_⟩
    rw [idxValidateLoop_eq, List.append_eq_nil_iff, List.replicate_eq_nil_iff, List.countP_eq_zero]
    show _ ↔ v.values.length ≤ i32Sup ∧ ∀ i ∈ v.index, 0 ≤ i.toInt ∧ i.toInt < v.values.length
    simp only [decide_eq_true_eq]
    by_cases hl : v.values.length ≤ i32Sup
    · rw [if_neg (by omega)]
      simp only [hl, true_and, BadIndex, Nat.min_eq_left hl]
      exact ⟨fun h i hi => by have := h i hi; omega, fun h i hi => by have := h i hi; omega⟩
    · rw [if_pos (by omega)]
      exact ⟨fun h => absurd h.1 (by simp), fun h => absurd h.1 hl⟩

theorem idx_clears (t : DataType) : Clears (idxMF t) (idxSpec t) :=
  fun _ _ => ⟨_, rfl, rfl, Container.Rel.refl (fun _ => rfl) .idxVector _⟩

end ISD
