import Verif.Props.Entities
import Verif.Proofs.Classes

/-!
# C87: copies that run out of memory

`copyFails d s e` of the model says how `DeepCopy` of `s` over `d` can end when an allocation fails.
-/

namespace ISD

/-! ## Specification -/

/-- The first `n` variables have the same contents. -/
def FieldSpecs.SameFirst : {fs : List Field} → FieldSpecs fs → Nat → FieldsVal fs → FieldsVal fs → Prop
  | _, .nil, _, _, _ => True
  | _, .base _ _ _ _, 0, _, _ => True
  | _, .base _ _ _ rest, n + 1, a, b => a.1 = b.1 ∧ rest.SameFirst n a.2 b.2
  | _, .sub _ _ _ _, 0, _, _ => True
  | _, .sub _ _ S rest, n + 1, a, b => S.rel .exact a.1 b.1 ∧ rest.SameFirst n a.2 b.2

/-- The variables behind number `n` (counted from 0) are the same. -/
def FieldsVal.SameAfter : (fs : List Field) → Nat → FieldsVal fs → FieldsVal fs → Prop
  | [], _, _, _ => True
  | _ :: _, 0, a, b => a.2 = b.2
  | _ :: fs, n + 1, a, b => SameAfter fs n a.2 b.2

mutual
  /-- There is no table of `IndexedVector` objects in the class; the flag says whether it is itself an `IndexedVector`. -/
  inductive NoIndexedTable : {V : Type} → Managed V → Bool → Prop where
    | graph {α : Type} [NodeType α] (st : Stored α) (a r s : Bool) : NoIndexedTable (graphMF st a r s) false
    | idx (t : DataType) : NoIndexedTable (idxMF t) true
    | varying : NoIndexedTable varyingMF false
    | table {K V : Type} [DecidableEq K] (st : Stored K) {M : Managed V} (h : NoIndexedTable M false) (zk ne : Bool)
        (ord : TableOrder (K × Option V)) : NoIndexedTable (tableMF st M zk ne ord) false
    | entity {fs : List Field} (h : NoIndexedTables fs) : NoIndexedTable (entityMF fs) false
  /-- The same for the variables of an entity. -/
  inductive NoIndexedTables : List Field → Prop where
    | nil : NoIndexedTables []
    | base {k t c fs} (h : NoIndexedTables fs) : NoIndexedTables (.base k t c :: fs)
    | sub {k V} {M : Managed V} {b fs} (hM : NoIndexedTable M b) (h : NoIndexedTables fs) : NoIndexedTables (.sub k V M :: fs)
end

/-! ## Proofs -/

theorem CopyEnd.map_eq_thrown {V W : Type} {f : V → W} {e : CopyEnd V} {l : W} (h : .thrown l = e.map f) : ∃ v, e = .thrown v ∧ l = f v := by
  cases e with
  | thrown v => cases h; exact ⟨v, rfl, rfl⟩
  | terminated => cases h

theorem CopyEnd.map_eq_terminated {V W : Type} {f : V → W} {e : CopyEnd V} (h : .terminated = e.map f) : e = .terminated := by
  cases e with
  | thrown v => cases h
  | terminated => rfl

/-- What a failed table copy leaves are copies of the first entries of the source. -/
theorem tableTorn {K V : Type} [DecidableEq K] {st : Stored K} {M : Managed V} {S : ClassSpec V} {zk ne : Bool}
    {ord : TableOrder (K × Option V)} (hL : Lawful (tableMF st M zk ne ord) (tableSpec st S zk ne)) {s l : Table K V} (hs : (tableSpec st S zk ne).wf s)
    (h : TableCopyFails M ord s (.thrown l)) :
    ∃ i < s.length, (tableSpec st S zk ne).wf l ∧ (tableSpec st S zk ne).rel .exact l (s.take i) := by
  obtain ⟨i, k, x, l', hi, e, h | ⟨v, _, _, h⟩⟩ := h
  · cases h
    obtain ⟨hlt, -⟩ := List.getElem?_eq_some_iff.mp hi
    have hw : (tableSpec st S zk ne).wf (s.take i) :=
      ⟨hs.1.sublist ((List.take_sublist i s).map _), fun k v hm => hs.2 k v (List.mem_of_mem_take hm)⟩
    obtain ⟨d, e', h1, h2⟩ := hL.construct_ok _ hw
    have e'' : (tableMF st M zk ne ord).construct (s.take i) (tableMF st M zk ne ord).init = tableCopyLoop M ord (s.take i) [] := rfl
    rw [e'', e] at e'
    cases e'
    exact ⟨i, hlt, h1, h2⟩
  · cases h

mutual
  theorem IsClass.torn : ∀ {V : Type} {M : Managed V} {S : ClassSpec V}, IsClass M S → ∀ d s l, S.wf d → S.wf s →
      M.copyFails d s (.thrown l) → S.wf l
    | _, _, _, @IsClass.graph _ _ st h a r s => by
      intro d s' l hd hs hl
      rcases hl with hl | hl
      · cases hl; exact hd
      · cases hl
        obtain ⟨d', e, hw, -⟩ := (graph_lawful st h a r s).copy_other d s' hd hs
        cases e
        exact ⟨hw.roots, hd.edges⟩
    | _, _, _, .idx t h => fun _ _ _ _ _ _ => True.intro
    | _, _, _, .varying => by
      intro d s l hd hs hl
      obtain ⟨src, hsrc, hl | ⟨x, -, hl⟩⟩ := hl
      · cases hl; intro o ho; cases ho
      · cases hl
        intro o ho
        cases ho
        exact hs src hsrc
    | _, _, _, @IsClass.table _ _ _ st h _ _ hM zk ne ord => by
      intro d s l hd hs hl
      obtain ⟨_, _, hw, -⟩ := tableTorn (IsClass.table st h hM zk ne ord).lawful hs hl
      exact hw
    | _, _, _, .entity ss h hne => by
      intro d s l hd hs hl
      exact (h.torn d s l hd hs hl).1
  theorem AreFields.torn : ∀ {fs : List Field} {ss : FieldSpecs fs}, AreFields ss → ∀ d s l, ss.wf d → ss.wf s →
      fieldsCopyFails fs d s (.thrown l) → ss.wf l ∧ ∃ n < fs.length, ss.SameFirst n l s ∧ FieldsVal.SameAfter fs n l d
    | _, _, .nil => fun _ _ _ _ _ h => h.elim
    | _, _, .base hk ht h => by
      intro d s l hd hs hl
      rcases hl with ⟨x, -, hl⟩ | ⟨e', he, hl⟩
      · cases hl
        exact ⟨hd, 0, Nat.zero_lt_succ _, True.intro, rfl⟩
      · obtain ⟨v, rfl, rfl⟩ := CopyEnd.map_eq_thrown hl
        obtain ⟨hw, n, hn, h1, h2⟩ := h.torn d.2 s.2 v hd hs he
        exact ⟨hw, n + 1, Nat.succ_lt_succ hn, ⟨rfl, h1⟩, h2⟩
    | _, _, .sub hk hM h => by
      intro d s l hd hs hl
      rcases hl with ⟨e', he, hl⟩ | ⟨c, e', hc, he, hl⟩
      · obtain ⟨v, rfl, rfl⟩ := CopyEnd.map_eq_thrown hl
        exact ⟨⟨hM.torn d.1 s.1 v hd.1 hs.1 he, hd.2⟩, 0, Nat.zero_lt_succ _, True.intro, rfl⟩
      · obtain ⟨v, rfl, rfl⟩ := CopyEnd.map_eq_thrown hl
        obtain ⟨hw, n, hn, h1, h2⟩ := h.torn d.2 s.2 v hd.2 hs.2 he
        obtain ⟨c', e, hcw, hcr⟩ := hM.lawful.copy_other d.1 s.1 hd.1 hs.1
        rw [hc] at e
        cases e
        exact ⟨⟨hcw, hw⟩, n + 1, Nat.succ_lt_succ hn, ⟨hcr, h1⟩, h2⟩
end

mutual
  theorem NoIndexedTable.lives : ∀ {V : Type} {M : Managed V} {b : Bool}, NoIndexedTable M b →
      (∀ d s, ¬ M.copyFails d s .terminated) ∧ (b = false → ∀ s, ¬ M.constructFails s .terminated)
    | _, _, _, @NoIndexedTable.graph _ _ st a r s => ⟨fun _ _ h => (h.elim (fun h => nomatch h) fun h => nomatch h), fun _ _ h => (by cases h)⟩
    | _, _, _, .idx t => ⟨fun _ _ ⟨_, _, h⟩ => (by cases h), fun h => (by cases h)⟩
    | _, _, _, .varying => by
      have : ∀ s, ¬ Varying.CopyFails s .terminated := by
        rintro s ⟨_, _, h | ⟨_, _, h⟩⟩ <;> cases h
      exact ⟨fun _ s => this s, fun _ s ⟨e, he, h⟩ => this s (CopyEnd.map_eq_terminated h ▸ he)⟩
    | _, _, _, @NoIndexedTable.table _ _ _ st M hM zk ne ord => by
      have : ∀ s, ¬ TableCopyFails M ord s .terminated := by
        rintro s ⟨_, _, _, _, _, _, h | ⟨v, _, hv, _⟩⟩
        · cases h
        · exact hM.lives.2 rfl v hv
      exact ⟨fun _ s => this s, fun _ s ⟨e, he, h⟩ => this s (CopyEnd.map_eq_terminated h ▸ he)⟩
    | _, _, _, .entity h => ⟨fun d s => h.lives d s, fun _ s ⟨e, he, h'⟩ => h.lives _ s (CopyEnd.map_eq_terminated h' ▸ he)⟩
  theorem NoIndexedTables.lives : ∀ {fs : List Field}, NoIndexedTables fs → ∀ d s, ¬ fieldsCopyFails fs d s .terminated
    | _, .nil => fun _ _ h => h
    | _, .base h => by
      rintro d s (⟨_, _, hl⟩ | ⟨e', he, hl⟩)
      · cases hl
      · exact h.lives _ _ (CopyEnd.map_eq_terminated hl ▸ he)
    | _, .sub hM h => by
      rintro d s (⟨e', he, hl⟩ | ⟨c, e', _, he, hl⟩)
      · exact hM.lives.1 _ _ (CopyEnd.map_eq_terminated hl ▸ he)
      · exact h.lives _ _ (CopyEnd.map_eq_terminated hl ▸ he)
end

/-! ## C87 -/

section laws

variable {V : Type} {M : Managed V} {S : ClassSpec V}

/-- **C87.** When a copy of one managed object over another throws because memory runs out, the destination is an object of the class that
can be used further: it is well formed, it can be cleared, compared and validated, and copying again (with enough memory) gives exactly
what the source holds, as if nothing had happened before. -/
theorem C87_usable_partial (hM : IsClass M S) (d s l : V) (hd : S.wf d) (hs : S.wf s) (h : M.copyFails d s (.thrown l)) :
    S.wf l ∧ (∃ c, M.clear l = .ok () c ∧ S.wf c) ∧ (∃ b, M.equals l s = some b) ∧ (∃ rs, M.validate l rs true) ∧
    ∃ c, M.copy (.other s) l = .ok () c ∧ S.wf c ∧ S.rel .exact c s := by
  have hl := hM.torn d s l hd hs h
  obtain ⟨b, e, -⟩ := hM.lawful.equals_ok l s hl hs
  obtain ⟨rs, hv, -⟩ := hM.lawful.validate_ok l hl
  exact ⟨hl, hM.lawful.clear_ok l hl, ⟨b, e⟩, ⟨rs, hv⟩, hM.lawful.copy_other l s hl hs⟩

/-- **C87**, no class with a table of `IndexedVector` objects inside: running out of memory never terminates the program, neither in a copy
nor (for classes other than `IndexedVector` itself) in a copy construction. -/
theorem C87_not_terminated {b : Bool} (h : NoIndexedTable M b) (d s : V) :
    ¬ M.copyFails d s .terminated ∧ (b = false → ¬ M.constructFails s .terminated) :=
  ⟨h.lives.1 d s, fun hb => h.lives.2 hb s⟩

end laws

/-- **C87**, entities: the variables are copied in order. Some variable failed; all before it have the contents of the source, all behind it
are untouched. -/
theorem C87_entity_in_order {fs : List Field} {ss : FieldSpecs fs} (h : AreFields ss) (d s l : FieldsVal fs) (hd : ss.wf d) (hs : ss.wf s)
    (hl : (entityMF fs).copyFails d s (.thrown l)) : ∃ n < fs.length, ss.SameFirst n l s ∧ FieldsVal.SameAfter fs n l d :=
  (h.torn d s l hd hs hl).2

/-- **C87**, tables: none of the old entries is left. Every entry found is a copy of the one of the source with the key, and at least one
entry of the source is missing. -/
theorem C87_table_entries {K V : Type} [DecidableEq K] (st : Stored K) (hst : st.Good) {M : Managed V} {S : ClassSpec V} (hM : IsClass M S)
    (zk ne : Bool) (ord : TableOrder (K × Option V)) (d s l : Table K V) (hs : (tableSpec st S zk ne).wf s)
    (h : (tableMF st M zk ne ord).copyFails d s (.thrown l)) :
    (∀ k x, l.find k = some x → ∃ y, s.find k = some y ∧ OptRel (S.rel .exact) x y) ∧ ∃ k y, s.find k = some y ∧ l.find k = none := by
  obtain ⟨i, hi, -, hr⟩ := tableTorn (IsClass.table st hst hM zk ne ord).lawful hs h
  have hn : ((s.take i).map Prod.fst).Nodup := hs.1.sublist ((List.take_sublist i s).map _)
  constructor
  · intro k x hx
    have := hr k
    rw [hx] at this
    generalize ey : Table.find (s.take i) k = y at this
    cases this with
    | some hxy => exact ⟨_, (find_iff hs.1 k _).mpr (List.mem_of_mem_take ((find_iff hn k _).mp ey)), hxy⟩
  · refine ⟨s[i].1, s[i].2, (find_iff hs.1 _ _).mpr (List.getElem_mem hi), ?_⟩
    have hnone : Table.find (s.take i) s[i].1 = none := by
      rw [find_none]
      intro hm
      obtain ⟨j, hj, e⟩ := List.getElem_of_mem hm
      rw [List.length_map, List.length_take] at hj
      rw [List.getElem_map, List.getElem_take] at e
      have := List.pairwise_iff_getElem.mp hs.1 j i (by rw [List.length_map]; omega) (by rw [List.length_map]; omega) (by omega)
      rw [List.getElem_map, List.getElem_map] at this
      exact this e
    have := hr s[i].1
    rw [hnone] at this
    generalize ey : Table.find l s[i].1 = y at this
    cases this
    rfl

/-- **C87**, graphs: nothing has changed, or the roots are the new ones and the edges the old ones. -/
theorem C87_graph_halves {α : Type} [NodeType α] (st : Stored α) (a r sr : Bool) (d s l : Graph α) (hs : s.Valid)
    (h : (graphMF st a r sr).copyFails d s (.thrown l)) : l = d ∨ l = ⟨s.roots, d.edges⟩ := by
  rcases h with h | h
  · cases h; exact .inl rfl
  · cases h
    exact .inr (by rw [(C29_copying s hs).2.2.1])

/-- **C87 is false** as far as terminating goes: copying a table of `IndexedVector` objects, any one of which has contents. -/
theorem C87_false_terminated {K : Type} [DecidableEq K] (st : Stored K) (hst : st.Good) (t : DataType) (ht : t ∈ allTypes) (zk ne : Bool)
    (ord : TableOrder (K × Option (IdxVec t.Val))) (d s : Table K (IdxVec t.Val)) (hs : (tableSpec st (idxSpec t) zk ne).wf s) (k : K)
    (v : IdxVec t.Val) (hm : (k, some v) ∈ s) (hv : v.values ≠ [] ∨ v.index ≠ []) :
    (tableMF st (idxMF t) zk ne ord).copyFails d s .terminated := by
  obtain ⟨i, hi, e⟩ := List.getElem_of_mem hm
  have hw : (tableSpec st (idxSpec t) zk ne).wf (s.take i) :=
    ⟨hs.1.sublist ((List.take_sublist i s).map _), fun k v hm => hs.2 k v (List.mem_of_mem_take hm)⟩
  obtain ⟨l, e', -, -⟩ := (IsClass.table st hst (.idx t ht) zk ne ord).lawful.construct_ok _ hw
  exact ⟨i, k, some v, l, by rw [List.getElem?_eq_getElem hi, e], e', .inr ⟨v, rfl, ⟨hv, rfl⟩, rfl⟩⟩

section entities

variable (oLayers : TableOrder (EntityRef × Option AttributeLayer)) (oV2 : TableOrder (EntityRef × Option (IdxVec fvec2Type.Val)))
  (oTan oBit oNrm : TableOrder (EntityRef × Option (IdxVec fvec3Type.Val))) (oV4 : TableOrder (EntityRef × Option (IdxVec fvec4Type.Val)))
  (oVar : TableOrder (EntityRef × Option Varying)) (oNodes : TableOrder (EntityRef × Option NodeEnt))
  (oGeo : TableOrder (EntityRef × Option NodeGeometry))

/-- `AttributeLayer`, `Node`, `NodeGeometry`, `TestEntity`, `SceneLayer` and `Scene` are classes of the kind `C87_not_terminated` asks for. -/
theorem C87_no_indexed_tables (oScene : TableOrder (PackageRef × Option (SceneLayer oNodes oGeo))) :
    NoIndexedTable (entityMF attributeLayerFields) false ∧ NoIndexedTable (entityMF nodeFields) false ∧
    NoIndexedTable (entityMF nodeGeometryFields) false ∧ NoIndexedTable (entityMF testEntityFields) false ∧
    NoIndexedTable (entityMF (sceneLayerFields oNodes oGeo)) false ∧ NoIndexedTable (entityMF (sceneFields oNodes oGeo oScene)) false := by
  have n : NoIndexedTable (entityMF nodeFields) false := .entity (.base (.base (.base (.base .nil))))
  have g : NoIndexedTable (entityMF nodeGeometryFields) false := .entity (.base .nil)
  have l : NoIndexedTable (entityMF (sceneLayerFields oNodes oGeo)) false :=
    .entity (.base (.sub (.graph _ _ _ _) (.sub (.table _ n _ _ _) (.sub (.table _ g _ _ _) .nil))))
  exact ⟨.entity (.base .nil), n, g, .entity (.base (.base .nil)), l, .entity (.sub (.table _ l _ _ _) .nil)⟩

/-- A `Mesh` is not: copying one with texture coordinates over any other can terminate the program. -/
theorem C87_false_Mesh (d s : FieldsVal (meshFields oLayers oV2 oTan oBit oNrm oV4 oVar)) (hd : (entitySpec (meshSpecs oLayers oV2 oTan oBit oNrm oV4 oVar)).wf d)
    (hs : (entitySpec (meshSpecs oLayers oV2 oTan oBit oNrm oV4 oVar)).wf s) (k : EntityRef) (v : IdxVec fvec2Type.Val) (hv : v.values ≠ [])
    (coords : Table EntityRef (IdxVec fvec2Type.Val)) (hc : s.2.1 = coords) (hm : (k, some v) ∈ coords) :
    (entityMF (meshFields oLayers oV2 oTan oBit oNrm oV4 oVar)).copyFails d s .terminated := by
  subst hc
  obtain ⟨c, e, -⟩ := (IsClass.table entityRefStored entityRef_good attributeLayer_isClass false false oLayers).lawful.copy_other d.1 s.1 hd.1 hs.1
  exact .inr ⟨c, .terminated, e, .inl ⟨.terminated,
    C87_false_terminated entityRefStored entityRef_good fvec2Type fvec2_mem false false oV2 d.2.1 s.2.1 hs.2.1 k v hm (.inl hv), rfl⟩, rfl⟩

end entities

/-- A copy that fails in the second variable of a `TestEntity`: the new name with the old text. -/
theorem C87_false_atomic (n n' x : Bytes) (y : Option Bytes) (hn : n ≠ n') (hy : y ≠ some x) :
    ∃ l, (entityMF testEntityFields).copyFails (n', y, ()) (n, some x, ()) (.thrown l) ∧ l = (n, y, ()) ∧ l ≠ (n', y, ()) ∧
      l ≠ (n, some x, ()) := by
  refine ⟨(n, y, ()), .inr ⟨.thrown (y, ()), .inl ⟨y, ⟨rfl, rfl⟩, rfl⟩, rfl⟩, rfl, fun h => hn (Prod.mk.inj h).1, fun h => ?_⟩
  exact hy (Prod.mk.inj (Prod.mk.inj h).2).1

theorem oneEdge_hasEdge {α : Type} [NodeType α] (rs : List α) (a b x y : α) :
    (⟨rs, [(a, b)]⟩ : Graph α).hasEdge x y = true ↔ x = a ∧ y = b := by
  rw [Graph.hasEdge, OrdSet.contains_iff, List.mem_singleton, Prod.mk.injEq]

theorem oneEdge_meets {α : Type} [NodeType α] (a b : α) (h : a ≠ b) (sr : Bool) : (⟨[a], [(a, b)]⟩ : Graph α).MeetsFlags false true sr where
  single _ := ⟨a, fun m => by
    simp only [Graph.HasOutgoing, Graph.HasIncoming, oneEdge_hasEdge]
    exact ⟨fun ⟨⟨_, e, _⟩, _⟩ => e, fun e => ⟨⟨b, e, rfl⟩, fun ⟨_, _, e'⟩ => h (e ▸ e')⟩⟩⟩
  singleSet _ _ := ⟨a, fun m => List.mem_singleton⟩
  rootsTop _ n hn hi := by
    obtain ⟨x, hx⟩ := hi
    rw [oneEdge_hasEdge] at hx
    exact h (List.mem_singleton.mp hn ▸ hx.2)
  topsRoots _ n ho _ := by
    obtain ⟨x, hx⟩ := ho
    rw [oneEdge_hasEdge] at hx
    exact List.mem_singleton.mpr hx.1
  reachable _ n hi := by
    obtain ⟨x, hx⟩ := hi
    rw [oneEdge_hasEdge] at hx
    exact .inr ⟨a, List.mem_singleton.mpr rfl, .edge (List.mem_singleton.mpr (Prod.ext rfl hx.2))⟩
  acyclic h := by cases h

/-- Two graphs that meet the rules of a rooted graph with a single root; a failed copy of one over the other leaves a graph that does not:
its root is not in it. -/
theorem C87_false_rules {α : Type} [NodeType α] (st : Stored α) (a b c d : α) (hab : a ≠ b) (hcd : c ≠ d) (hac : a ≠ c) (sr : Bool) :
    (graphSpec st false true sr).valid ⟨[a], [(a, b)]⟩ ∧ (graphSpec st false true sr).valid ⟨[c], [(c, d)]⟩ ∧
    ∃ l, (graphMF st false true sr).copyFails ⟨[a], [(a, b)]⟩ ⟨[c], [(c, d)]⟩ (.thrown l) ∧ ¬ (graphSpec st false true sr).valid l := by
  refine ⟨oneEdge_meets a b hab sr, oneEdge_meets c d hcd sr, ⟨[c], [(a, b)]⟩, .inr ?_, fun h => ?_⟩
  · rfl
  · have := h.topsRoots rfl a ⟨b, (oneEdge_hasEdge ..).mpr ⟨rfl, rfl⟩⟩ fun ⟨x, hx⟩ => hab ((oneEdge_hasEdge ..).mp hx).2
    exact hac (List.mem_singleton.mp this)

/-- A reference, by number. -/
private def ref (n : Word 4) : EntityRef := ⟨⟨n, 0, 0, Vector.replicate 8 0⟩⟩

/-- `C87_usable_partial` at work: the third entry of a table of Varyings fails, when the destination has the first two. -/
example : (tableMF entityRefStored varyingMF false true ⟨fun es e => e :: es, fun _ _ => .refl _⟩).copyFails [(ref 1, none)]
    [(ref 2, none), (ref 3, none), (ref 4, none)] (.thrown [(ref 3, none), (ref 2, none)]) :=
  ⟨2, (ref 4), none, _, rfl, rfl, .inl rfl⟩

/-- A Varying with a string: the type is set and there is no object, or the object is still empty. -/
example (d : Varying) (x : Bytes) (i j : Word 4) :
    varyingMF.copyFails d ⟨i, j, some ⟨stringTy, .none, x⟩⟩ (.thrown ⟨i, j, none⟩) ∧
    varyingMF.copyFails d ⟨i, j, some ⟨stringTy, .none, x⟩⟩ (.thrown ⟨i, j, some ⟨stringTy, .none, []⟩⟩) :=
  ⟨⟨_, rfl, .inl rfl⟩, ⟨_, rfl, .inr ⟨[], ⟨rfl, rfl⟩, rfl⟩⟩⟩

/-- `C87_false_rules` for a graph over `entity_ref`. -/
example : ∃ l, (graphMF entityRefStored false true true).copyFails ⟨[ref 1], [(ref 1, ref 2)]⟩ ⟨[ref 3], [(ref 3, ref 4)]⟩ (.thrown l) ∧
    ¬ (graphSpec entityRefStored false true true).valid l :=
  (C87_false_rules entityRefStored (ref 1) (ref 2) (ref 3) (ref 4) (by decide) (by decide) (by decide) true).2.2

end ISD
