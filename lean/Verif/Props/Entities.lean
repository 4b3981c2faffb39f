import Verif.Props.Tables
import Verif.Proofs.ClassLaws

/-!
# C39, C40, C41, C44, C50, C54: Varying, indexed vectors and the generated entities
-/

namespace ISD

/-! ## C39 -/

/-- **C39** (partial: another object as source, initialised, without NaN). Copying a Varying of any registered type and container, whatever
the destination held, gives exactly the type, container and value of the source, and the copy compares equal when the value has no NaN. -/
theorem C39_copies_partial (d : Varying) (hd : varyingSpec.wf d) (i j : Nat) (t : DataType) (c : Container) (hi : Spec.TypeId i t)
    (hj : Spec.ContainerId j c) (x : c.Val t.Val) :
    let s : Varying := ⟨BitVec.ofNat 32 i, BitVec.ofNat 32 j, some ⟨t, c, x⟩⟩
    varyingMF.copy (.other s) d = .ok () s ∧ varyingMF.construct s varyingMF.init = .ok () s ∧
      varyingMF.equals s s = some (Container.equal t.equal c x x) := by
  have key : ∀ d, varyingSpec.wf d → Varying.copy (.other ⟨BitVec.ofNat 32 i, BitVec.ofNat 32 j, some ⟨t, c, x⟩⟩) d =
      .ok () ⟨BitVec.ofNat 32 i, BitVec.ofNat 32 j, some ⟨t, c, x⟩⟩ := by
    intro d hd
    obtain ⟨d', e, hn, _⟩ := deinitialize_ok hd
    have hw : varyingSpec.wf d' := by cases d'; cases hn; exact varying_wf_none _ _
    rw [Varying.copy, Prog.bind_ok e, if_neg (by decide)]
    dsimp only
    exact copyFrom_ok hw hi hj x
  refine ⟨key d hd, key _ (varying_wf_none 0 0), ?_⟩
  show Varying.equals _ _ = _
  rw [Varying.equals, if_neg (by simp), if_neg (by simp)]
  dsimp only
  rw [find_of_ids hi hj]
  dsimp only
  rw [madeBy_self, if_pos (by decide), DynObj.equal, dif_pos ⟨rfl, rfl⟩]
  rfl

/-- **C39 is false** for uninitialised objects: the copy is uninitialised too, and the two do not compare equal. -/
theorem C39_false_uninitialised (d s : Varying) (hd : varyingSpec.wf d) (hs : s.data = none) :
    ∃ c, varyingMF.copy (.other s) d = .ok () c ∧ c.data = none ∧ varyingMF.equals c s = some false := by
  have hw : varyingSpec.wf s := fun o ho => by rw [hs] at ho; cases ho
  obtain ⟨c, e, hc, hr⟩ := varyingCopy_ok hd hw
  have hn : c.data = none := by
    rcases hr with ⟨h, _, _⟩ | ⟨o, p, h1, h2, _⟩
    · exact h
    · rw [hs] at h2; cases h2
  refine ⟨c, e, hn, ?_⟩
  show Varying.equals c s = _
  rw [Varying.equals, hn]
  split
  · rfl
  · split <;> rfl

/-- **C39 is false** for an object copied to itself: every Varying ends up uninitialised. -/
theorem C39_false_self (s : Varying) (hs : varyingSpec.wf s) : ∃ c, varyingMF.copy .self s = .ok () c ∧ c.data = none := by
  obtain ⟨d', e, hn, _⟩ := deinitialize_ok hs
  refine ⟨d', ?_, hn⟩
  show Varying.copy .self s = _
  rw [Varying.copy, Prog.bind_ok e, if_neg (by decide)]
  dsimp only
  rw [Prog.bind_ok (Prog.get_apply _), Varying.copyFrom, if_pos (by simp [hn])]
  rfl

/-- **C39 is false** for a NaN: the float is copied but compares unequal. -/
theorem C39_false_nan : ∃ x : Container.none.Val fvec2Type.Val, Container.equal fvec2Type.equal .none x x = false :=
  ⟨(#v[0x7fc00000, 0] : Vector (Word 4) 2), by decide⟩

/-- **C39, exactly.** For every destination and every source, whether it is another object or the destination itself: the copy returns, and the
destination compares equal to what the source was exactly if the source is another object, initialised, and holds a value that compares equal to
itself (no NaN). -/
theorem C39_exactly (d s : Varying) (hd : varyingSpec.wf d) (hs : varyingSpec.wf s) :
    (∃ c, varyingMF.copy (.other s) d = .ok () c ∧
      (varyingMF.equals c s = some true ↔ ∃ o, s.data = some o ∧ Container.equal o.t.equal o.c o.v o.v = true)) ∧
    ∃ c, varyingMF.copy .self s = .ok () c ∧ varyingMF.equals c s ≠ some true := by
  refine ⟨?_, ?_⟩
  · rcases varying_cases s hs with hn | ⟨i, j, t, c, x, rfl, hi, hj⟩
    · obtain ⟨c, e, -, h⟩ := C39_false_uninitialised d s hd hn
      refine ⟨c, e, ?_⟩
      rw [h]
      exact ⟨fun h => (by cases h), fun ⟨o, ho, _⟩ => by rw [hn] at ho; cases ho⟩
    · obtain ⟨h1, -, h2⟩ := C39_copies_partial d hd i j t c hi hj x
      refine ⟨_, h1, ?_⟩
      rw [h2]
      constructor
      · intro h
        exact ⟨_, rfl, Option.some.inj h⟩
      · rintro ⟨o, ho, h⟩
        cases ho
        exact congrArg some h
  · obtain ⟨c, e, hn⟩ := C39_false_self s hs
    refine ⟨c, e, ?_⟩
    show Varying.equals c s ≠ _
    rw [Varying.equals, hn]
    split
    · simp
    · split <;> simp

/-! ## C40 -/

theorem varying_exact_eq {a b : Varying} (hb : b.data ≠ none) (h : varyingSpec.rel .exact a b) : a = b := by
  rcases h with ⟨_, h, _⟩ | ⟨o, p, h1, h2, h3, h4, h5⟩
  · exact absurd h hb
  · obtain ⟨aty, act, ad⟩ := a
    obtain ⟨bty, bct, bd⟩ := b
    cases h1; cases h2; cases h3; cases h4
    cases h5 with
    | mk t c x y h => rw [show x = y from Container.Rel.eq h]

/-- **C40.** A Varying of any of the registered types and containers with any value: it can be written, and reading it back into any
Varying returns true with exactly the type, the container and the value that were written. -/
theorem C40_varying_round_trip (i j : Nat) (t : DataType) (c : Container) (hi : Spec.TypeId i t) (hj : Spec.ContainerId j c)
    (x : c.Val t.Val) (w : EWriter) (hw : w.Idle) (s : WStream) (hs : Ready s) (fresh : Bytes → Nat)
    (hsize : s.dataSize + ((varyingSpec.nodes ⟨BitVec.ofNat 32 i, BitVec.ofNat 32 j, some ⟨t, c, x⟩⟩).bytes s.flip).length < 2 ^ 60) :
    let v : Varying := ⟨BitVec.ofNat 32 i, BitVec.ofNat 32 j, some ⟨t, c, x⟩⟩
    ∃ s' block, varyingMF.write fresh v (w, s) = .ok true (w, s') ∧ Ready s' ∧ s'.flip = s.flip ∧ s'.content = s.content ++ block ∧
      ∀ (env : REnv) (fresh' : Bytes → Nat) (r : EReader) (post : Bytes) (dest : Varying), (∀ n, env.allocOk n = true) → r.Idle →
        (s'.content ++ post).length < 2 ^ 60 → varyingSpec.wf dest →
        varyingMF.read env fresh' dest (r, ⟨s'.content ++ post, s.content.length, s.flip⟩) =
          .ok (some v) (r, ⟨s'.content ++ post, s'.content.length, s.flip⟩) := by
  have hv := varying_wf_mk hi hj x
  have hst : varyingSpec.rel .storable ⟨BitVec.ofNat 32 i, BitVec.ofNat 32 j, some ⟨t, c, x⟩⟩ ⟨BitVec.ofNat 32 i, BitVec.ofNat 32 j, some ⟨t, c, x⟩⟩ :=
    .inr ⟨_, _, rfl, rfl, rfl, rfl, .mk _ _ _ _ (Container.Rel.refl (fun _ => rfl) _ _)⟩
  obtain ⟨s', block, h1, h2, h3, h4, h5⟩ := varying_lawful.roundTrips hv hst w hw s hs fresh hsize
  refine ⟨s', block, h1, h2, h3, h4, fun env fresh' r post dest he hr hsm hd => ?_⟩
  obtain ⟨v', e1, _, e3, _⟩ := h5 env fresh' r post dest he hr hsm hd trivial
  rw [e1, varying_exact_eq (by simp) e3]

/-- An uninitialised Varying is refused by `Write`, and nothing is written. -/
theorem C40_uninitialised_refused (v : Varying) (hv : v.data = none) (fresh : Bytes → Nat) (st : WSt) :
    varyingMF.write fresh v st = .ok false st := by
  show Varying.write v st = _
  rw [Varying.write, if_pos (by simp [hv])]
  rfl

theorem typeIds_fvec3 : (0x61, fvec3Type) ∈ typeIds := by decide +kernel

/-- A vector of two `fvec3` in a Varying meets the hypotheses. -/
example : ∃ i j, Spec.TypeId i fvec3Type ∧ Spec.ContainerId j .vector ∧
    (demoStream true).dataSize + ((varyingSpec.nodes ⟨BitVec.ofNat 32 i, BitVec.ofNat 32 j,
      some ⟨fvec3Type, .vector, [(#v[1, 2, 3] : Vector (Word 4) 3), (#v[4, 5, 6] : Vector (Word 4) 3)]⟩⟩).bytes true).length < 2 ^ 60 := by
  exact ⟨_, _, mem_typeIds.mp (typeIds_fvec3), (containerId_iff _ _).mpr rfl, by decide +kernel⟩

/-- The hypotheses of `C39_exactly` are met by a Varying that holds two `fvec3`, and by one that holds nothing. -/
example : (∃ i j, varyingSpec.wf ⟨BitVec.ofNat 32 i, BitVec.ofNat 32 j,
      some ⟨fvec3Type, .vector, [(#v[1, 2, 3] : Vector (Word 4) 3), (#v[4, 5, 6] : Vector (Word 4) 3)]⟩⟩) ∧ varyingSpec.wf ⟨0, 0, none⟩ :=
  ⟨⟨_, _, varying_wf_mk (mem_typeIds.mp (typeIds_fvec3)) ((containerId_iff _ _).mpr rfl) _⟩, varying_wf_none _ _⟩

/-! ## C41 -/

/-- **C41.** Every class the code generator can produce (any nesting of graphs, indexed vectors, Varying, tables and entities, with any
variables), every contents that has no uninitialised Varying: it round trips, into every object `Read` may be called on. -/
theorem C41_classes_round_trip {V : Type} {M : Managed V} {S : ClassSpec V} (hM : IsClass M S) (v : V) (hw : S.wf v)
    (hs : S.rel .storable v v) : RoundTrips M S v S.destOk := hM.lawful.roundTrips hw hs

/-- A new object is one `Read` may be called on. -/
theorem C41_new_object_is_a_destination {V : Type} {M : Managed V} {S : ClassSpec V} (hM : IsClass M S) : S.wf M.init ∧ S.destOk M.init :=
  ⟨hM.lawful.init_wf, hM.lawful.init_dest⟩

/-- "Same contents" is an equivalence. -/
theorem C41_same_contents_equivalence {V : Type} {M : Managed V} {S : ClassSpec V} (hM : IsClass M S) :
    (∀ a, S.wf a → S.rel .exact a a) ∧ (∀ a b, S.rel .exact a b → S.rel .exact b a) ∧
    (∀ a b c, S.rel .exact a b → S.rel .exact b c → S.rel .exact a c) :=
  ⟨hM.lawful.rel_refl, fun _ _ => hM.lawful.exact_symm, fun _ _ _ => hM.lawful.exact_trans⟩

theorem RoundTrips.any {V : Type} {M : Managed V} {S : ClassSpec V} {v : V} {d d' : V → Prop} (h : RoundTrips M S v d) (hd : ∀ x, d' x → d x) :
    RoundTrips M S v d' := by
  intro w hw s hs fresh hz
  obtain ⟨s', block, h1, h2, h3, h4, h5⟩ := h w hw s hs fresh hz
  exact ⟨s', block, h1, h2, h3, h4, fun env fresh' r post dest he hr hsm hwd hdo => h5 env fresh' r post dest he hr hsm hwd (hd _ hdo)⟩

theorem table_storable {K V : Type} [DecidableEq K] {st : Stored K} {S : ClassSpec V} {zk ne : Bool} {t : Table K V} (ht : t.Ok)
    (h : ∀ k v, (k, some v) ∈ t → S.rel .storable v v) : (tableSpec st S zk ne).rel .storable t t :=
  fun k => OptRel.refl fun _ hx => OptRel.refl fun v hv => h k v ((find_iff ht k _).mp (hv ▸ hx))

theorem idx_storable {t : DataType} (v : IdxVec t.Val) : (idxSpec t).rel .storable v v := Container.Rel.refl (fun _ => rfl) .idxVector v

theorem base_storable {t : DataType} {c : Container} (x : c.Val t.Val) : Container.Rel (BaseRel.storable.base t) c x x :=
  Container.Rel.refl (fun _ => rfl) c x

/-- An `AttributeLayer` round trips into any `AttributeLayer`. -/
theorem C41_AttributeLayer (v : AttributeLayer) : RoundTrips (entityMF attributeLayerFields) (entitySpec attributeLayerSpecs) v (fun _ => True) :=
  (C41_classes_round_trip attributeLayer_isClass v trivial ⟨base_storable _, trivial⟩).any fun _ _ => ⟨trivial, trivial⟩

/-- A `Node` round trips into any `Node`. -/
theorem C41_Node (v : NodeEnt) : RoundTrips (entityMF nodeFields) (entitySpec nodeSpecs) v (fun _ => True) :=
  (C41_classes_round_trip node_isClass v trivial ⟨base_storable _, base_storable _, base_storable _, base_storable _, trivial⟩).any
    fun _ _ => ⟨trivial, trivial, trivial, trivial, trivial⟩

/-- A `NodeGeometry` round trips into any `NodeGeometry`. -/
theorem C41_NodeGeometry (v : NodeGeometry) : RoundTrips (entityMF nodeGeometryFields) (entitySpec nodeGeometrySpecs) v (fun _ => True) :=
  (C41_classes_round_trip nodeGeometry_isClass v trivial ⟨base_storable _, trivial⟩).any fun _ _ => ⟨trivial, trivial⟩

/-- A `TestEntity` round trips into any `TestEntity`. -/
theorem C41_TestEntity (v : FieldsVal testEntityFields) : RoundTrips (entityMF testEntityFields) (entitySpec testEntitySpecs) v (fun _ => True) :=
  (C41_classes_round_trip testEntity_isClass v trivial ⟨base_storable _, base_storable _, trivial⟩).any
    fun _ _ => ⟨trivial, trivial, trivial⟩

section tables

variable (oLayers : TableOrder (EntityRef × Option AttributeLayer)) (oV2 : TableOrder (EntityRef × Option (IdxVec fvec2Type.Val)))
  (oTan oBit oNrm : TableOrder (EntityRef × Option (IdxVec fvec3Type.Val))) (oV4 : TableOrder (EntityRef × Option (IdxVec fvec4Type.Val)))
  (oVar : TableOrder (EntityRef × Option Varying)) (oNodes : TableOrder (EntityRef × Option NodeEnt))
  (oGeo : TableOrder (EntityRef × Option NodeGeometry))

theorem sceneLayer_storable (name : Bytes) (graph : Graph EntityRef) (nodes : Table EntityRef NodeEnt) (geos : Table EntityRef NodeGeometry)
    (hn : nodes.Ok) (hg : geos.Ok) :
    (sceneLayerSpecs oNodes oGeo).rel .storable (name, graph, nodes, geos, ()) (name, graph, nodes, geos, ()) :=
  ⟨base_storable (c := .none) (t := stringTy) name, ⟨fun _ => Iff.rfl, fun _ => Iff.rfl⟩,
    table_storable hn fun _ _ _ => ⟨base_storable _, base_storable _, base_storable _, base_storable _, trivial⟩,
    table_storable hg fun _ _ _ => ⟨base_storable _, trivial⟩, trivial⟩

/-- A `SceneLayer` round trips into any `SceneLayer`: any name, graph, and tables of nodes and of geometries. -/
theorem C41_SceneLayer (name : Bytes) (graph : Graph EntityRef) (nodes : Table EntityRef NodeEnt) (geos : Table EntityRef NodeGeometry)
    (hgraph : graph.Valid) (hn : nodes.Ok) (hg : geos.Ok) :
    RoundTrips (entityMF (sceneLayerFields oNodes oGeo)) (entitySpec (sceneLayerSpecs oNodes oGeo)) (name, graph, nodes, geos, ())
      (fun _ => True) :=
  (C41_classes_round_trip (sceneLayer_isClass oNodes oGeo) (name, graph, nodes, geos, ()) ⟨hgraph, ⟨hn, fun _ _ _ => trivial⟩, ⟨hg, fun _ _ _ => trivial⟩, trivial⟩
    (sceneLayer_storable oNodes oGeo name graph nodes geos hn hg)).any fun _ _ => ⟨trivial, trivial, trivial, trivial, trivial⟩

/-- A `Scene` round trips into any `Scene`: any table of layers as above. -/
theorem C41_Scene (oScene : TableOrder (PackageRef × Option (SceneLayer oNodes oGeo))) (layers : Table PackageRef (SceneLayer oNodes oGeo))
    (hl : layers.Ok) (h : ∀ k l, (k, some l) ∈ layers → Graph.Valid l.2.1 ∧ Table.Ok l.2.2.1 ∧ Table.Ok l.2.2.2.1) :
    RoundTrips (entityMF (sceneFields oNodes oGeo oScene)) (entitySpec (sceneSpecs oNodes oGeo oScene)) (layers, ()) (fun _ => True) :=
  (C41_classes_round_trip (scene_isClass oNodes oGeo oScene) (layers, ())
    ⟨⟨hl, fun k l hm => ⟨(h k l hm).1, ⟨(h k l hm).2.1, fun _ _ _ => trivial⟩, ⟨(h k l hm).2.2, fun _ _ _ => trivial⟩, trivial⟩⟩, trivial⟩
    ⟨table_storable hl fun k l hm => sceneLayer_storable oNodes oGeo l.1 l.2.1 l.2.2.1 l.2.2.2.1 (h k l hm).2.1 (h k l hm).2.2, trivial⟩).any
    fun _ _ => ⟨trivial, trivial⟩

/-- A `Mesh` round trips into any `Mesh`, when every custom attribute is initialised (`Write` of one that is not returns false, C40). -/
theorem C41_Mesh (layers : Table EntityRef AttributeLayer) (tex : Table EntityRef (IdxVec fvec2Type.Val))
    (tan bit nrm : Table EntityRef (IdxVec fvec3Type.Val)) (col : Table EntityRef (IdxVec fvec4Type.Val)) (cust : Table EntityRef Varying)
    (h1 : layers.Ok) (h2 : tex.Ok) (h3 : tan.Ok) (h4 : bit.Ok) (h5 : nrm.Ok) (h6 : col.Ok) (h7 : cust.Ok)
    (hc : ∀ k v, (k, some v) ∈ cust → varyingSpec.wf v ∧ v.data ≠ none) :
    RoundTrips (entityMF (meshFields oLayers oV2 oTan oBit oNrm oV4 oVar)) (entitySpec (meshSpecs oLayers oV2 oTan oBit oNrm oV4 oVar))
      (layers, tex, tan, bit, nrm, col, cust, ()) (fun _ => True) := by
  refine (C41_classes_round_trip (mesh_isClass oLayers oV2 oTan oBit oNrm oV4 oVar) (layers, tex, tan, bit, nrm, col, cust, ())
    ⟨⟨h1, fun _ _ _ => trivial⟩, ⟨h2, fun _ _ _ => trivial⟩, ⟨h3, fun _ _ _ => trivial⟩, ⟨h4, fun _ _ _ => trivial⟩, ⟨h5, fun _ _ _ => trivial⟩,
      ⟨h6, fun _ _ _ => trivial⟩, ⟨h7, fun k v hm => (hc k v hm).1⟩, trivial⟩
    ⟨table_storable h1 fun _ _ _ => ⟨base_storable _, trivial⟩, table_storable h2 fun _ _ _ => idx_storable _,
      table_storable h3 fun _ _ _ => idx_storable _, table_storable h4 fun _ _ _ => idx_storable _,
      table_storable h5 fun _ _ _ => idx_storable _, table_storable h6 fun _ _ _ => idx_storable _,
      table_storable h7 fun k v hm => ?_, trivial⟩).any
    fun _ _ => ⟨trivial, trivial, trivial, trivial, trivial, trivial, trivial, trivial⟩
  rcases e : v.data with _ | ⟨t, c, x⟩
  · exact absurd e (hc k v hm).2
  · exact .inr ⟨_, _, e, e, rfl, rfl, .mk _ _ _ _ (base_storable _)⟩

end tables

/-- Two entities for the example. -/
def demoRef (i : Byte) : EntityRef := ⟨⟨1, 2, 3, #v[i, 2, 3, 4, 5, 6, 7, 8]⟩⟩

/-- A scene layer with a graph of two nodes, one node that is null, one that is not, and a geometry meets the hypotheses. -/
example : (Graph.empty.insertEdge (demoRef 1) (demoRef 2)).Valid ∧
    Table.Ok ([(demoRef 1, none), (demoRef 2, some ([65, 66], (#v[1, 2, 3] : Vector (Word 4) 3), (#v[1, 2, 3] : Vector (Word 4) 3),
      (#v[1, 2, 3] : Vector (Word 4) 3), ()))] : Table EntityRef NodeEnt) ∧
    Table.Ok ([(demoRef 2, some ((#v[⟨Vector.replicate 32 7⟩] : Vector Hash 1), ()))] : Table EntityRef NodeGeometry) := by
  refine ⟨Graph.Valid.empty.insertEdge _ _, ?_, ?_⟩
  · show List.Nodup [demoRef 1, demoRef 2]; decide
  · show List.Nodup [demoRef 2]; decide

/-! ## C44 -/

/-- **C44.** `Validate` of an indexed vector always returns true, and reports exactly: one InvalidCount when there are more than
2^31 - 1 values, and one InvalidValue per index entry that is negative or not below the number of values capped at 2^31 - 1. -/
theorem C44_validation (t : DataType) (v : IdxVec t.Val) (rs : List Nat) (b : Bool) :
    (idxMF t).validate v rs b ↔ b = true ∧
      rs = List.replicate (if 2 ^ 31 - 1 < v.values.length then 1 else 0) Graph.invalidCount ++
        List.replicate (v.index.countP fun i => decide (i.toInt < 0 ∨ ((min v.values.length (2 ^ 31 - 1) : Nat) : Int) ≤ i.toInt)) Graph.invalidValue := by
  show (_ ∧ _) ↔ _
  rw [idxValidateLoop_eq, and_comm]
  have : (if v.values.length > i32Sup then [Graph.invalidCount] else []) =
      List.replicate (if 2 ^ 31 - 1 < v.values.length then 1 else 0) Graph.invalidCount := by
    by_cases h : 2 ^ 31 - 1 < v.values.length
    · rw [if_pos h, if_pos (show v.values.length > i32Sup from h)]; rfl
    · rw [if_neg h, if_neg (show ¬ v.values.length > i32Sup from h)]; rfl
  rw [this]
  rfl

/-- One value, and the indices 0, 1 and -1: two errors. -/
example : (idxMF fvec2Type).validate ⟨[(#v[0, 0] : Vector (Word 4) 2)], [0, 1, 0xffffffff]⟩ [Graph.invalidValue, Graph.invalidValue] true :=
  (C44_validation _ _ _ _).mpr ⟨rfl, by decide⟩

/-! ## C54 -/

/-- **C54.** Validation of every class the generator can produce ends in exactly one way, with the result true, and reports no error
exactly when the object meets the rules of its class (`valid`: index entries name values, the graph meets its flags, no zero keys and null
entities in tables, every Varying initialised, and so on for all the parts). -/
theorem C54_validation {V : Type} {M : Managed V} {S : ClassSpec V} (hM : IsClass M S) (v : V) (hw : S.wf v) :
    (∃ rs, ∀ rs' b, M.validate v rs' b ↔ rs' = rs ∧ b = true) ∧ (M.validate v [] true ↔ S.valid v) := by
  obtain ⟨rs, h1, h2, h3⟩ := hM.lawful.validate_ok v hw
  refine ⟨⟨rs, fun rs' b => ⟨h2 rs' b, ?_⟩⟩, ⟨fun h => h3.mp (h2 _ _ h).1.symm, fun h => ?_⟩⟩
  · rintro ⟨rfl, rfl⟩; exact h1
  · have := h3.mpr h
    subst this
    exact h1

/-- A null entity where none is allowed, and a valid and an invalid indexed vector. -/
example : ¬ (tableSpec entityRefStored varyingSpec false false).valid [(⟨⟨1, 2, 3, #v[1, 2, 3, 4, 5, 6, 7, 8]⟩⟩, none)] ∧
    (idxSpec fvec2Type).valid ⟨[(#v[0, 0] : Vector (Word 4) 2)], [0, 0]⟩ ∧ ¬ (idxSpec fvec2Type).valid ⟨[(#v[0, 0] : Vector (Word 4) 2)], [1]⟩ := by
  refine ⟨fun h => h.2.1 rfl _ (List.mem_cons_self ..), ⟨by decide, fun i hi => ?_⟩, fun h => ?_⟩
  · rcases List.mem_cons.mp hi with rfl | hi
    · decide
    · cases List.mem_singleton.mp hi; decide
  · have := (h.2 _ (List.mem_cons_self ..)).2
    exact absurd this (by decide)

/-! ## C50 -/

section laws

variable {V : Type} {M : Managed V} {S : ClassSpec V}

/-- **C50.** `Equals` of two objects is always defined, and true exactly when the contents are equal part by part in the sense of C++ `==`
of the base values (tables as finite maps). -/
theorem C50_equals_is_equality_of_contents (hM : IsClass M S) (a b : V) (ha : S.wf a) (hb : S.wf b) :
    ∃ r, M.equals a b = some r ∧ (r = true ↔ S.rel .cpp a b) := hM.lawful.equals_ok a b ha hb

/-- `Equals` is symmetric. -/
theorem C50_symmetric (hM : IsClass M S) (a b : V) (ha : S.wf a) (hb : S.wf b) : M.equals a b = M.equals b a := by
  obtain ⟨r, e, h⟩ := hM.lawful.equals_ok a b ha hb
  obtain ⟨r', e', h'⟩ := hM.lawful.equals_ok b a hb ha
  rw [e, e', Option.some.injEq, Bool.eq_iff_iff, h, h']
  exact ⟨fun h => hM.lawful.rel_mono cpp_flip (hM.lawful.rel_flip h), fun h => hM.lawful.rel_mono cpp_flip (hM.lawful.rel_flip h)⟩

/-- `Equals` on pointers: null equals only null, and pointers to two objects compare what they point to. -/
theorem C50_pointers (hM : IsClass M S) (a b : V) (ha : S.wf a) (hb : S.wf b) :
    M.equalsPtr true none none = some true ∧ M.equalsPtr false (some a) none = some false ∧ M.equalsPtr false none (some b) = some false ∧
    ∃ r, M.equalsPtr false (some a) (some b) = some r ∧ (r = true ↔ S.rel .cpp a b) :=
  ⟨rfl, rfl, rfl, hM.lawful.equals_ok a b ha hb⟩

/-- `Equals` is transitive. -/
theorem C50_transitive (hM : IsClass M S) (a b c : V) (ha : S.wf a) (hb : S.wf b) (hc : S.wf c) (h1 : M.equals a b = some true)
    (h2 : M.equals b c = some true) : M.equals a c = some true := by
  obtain ⟨r, e, h⟩ := hM.lawful.equals_ok a b ha hb
  obtain ⟨r', e', h'⟩ := hM.lawful.equals_ok b c hb hc
  obtain ⟨r'', e'', h''⟩ := hM.lawful.equals_ok a c ha hc
  rw [e''] ; congr 1
  rw [e] at h1; cases h1
  rw [e'] at h2; cases h2
  exact h''.mpr (hM.lawful.rel_mono cpp_comp (hM.lawful.rel_comp (h.mp rfl) (h'.mp rfl)))

/-- `DeepCopy` from another object, and copy construction, never fail and give the same contents; the copy compares equal exactly when the
contents of the source compare equal to themselves. -/
theorem C50_copy_partial (hM : IsClass M S) (d s : V) (hd : S.wf d) (hs : S.wf s) :
    (∃ c, M.copy (.other s) d = .ok () c ∧ S.wf c ∧ S.rel .exact c s ∧ (M.equals c s = some true ↔ S.rel .cpp s s)) ∧
    (∃ c, M.construct s M.init = .ok () c ∧ S.wf c ∧ S.rel .exact c s ∧ (M.equals c s = some true ↔ S.rel .cpp s s)) := by
  obtain ⟨c, e, hw, hr⟩ := hM.lawful.copy_other d s hd hs
  obtain ⟨c', e', hw', hr'⟩ := hM.lawful.construct_ok s hs
  exact ⟨⟨c, e, hw, hr, hM.lawful.equals_copy hw hs hr⟩, ⟨c', e', hw', hr', hM.lawful.equals_copy hw' hs hr'⟩⟩

/-- `Clear`, and every form of `DeepCopy`, can be called on every object and leave a well formed one. -/
theorem C50_never_fails (hM : IsClass M S) (v : V) (hv : S.wf v) :
    (∃ v', M.clear v = .ok () v' ∧ S.wf v') ∧ (∃ v', M.copy .null v = .ok () v' ∧ S.wf v') ∧ ∃ v', M.copy .self v = .ok () v' ∧ S.wf v' :=
  ⟨hM.lawful.clear_ok v hv, hM.lawful.copy_null v hv, hM.lawful.copy_self v hv⟩

end laws

/-- The contents of one scalar is a NaN. -/
def Sc.IsNaN : (sc : Sc) → sc.Val → Prop
  | .w4, a => a.toNat / 2 ^ 23 % 2 ^ 8 = 2 ^ 8 - 1 ∧ a.toNat % 2 ^ 23 ≠ 0
  | .w8, a => a.toNat / 2 ^ 52 % 2 ^ 11 = 2 ^ 11 - 1 ∧ a.toNat % 2 ^ 52 ≠ 0
  | _, _ => False

/-- One of the floating point numbers of a value is a NaN. -/
def DataType.HasNaN (t : DataType) (a : t.Val) : Prop :=
  go t.kind a
where
  go : (k : Kind) → k.Val → Prop
    | .items sc _ true, a => ∃ x ∈ a.toList, sc.IsNaN x
    | _, _ => False

theorem sc_refl (sc : Sc) (x : sc.Val) : Sc.equal true sc x x = true ↔ ¬ sc.IsNaN x := by
  have key : ∀ e m a : Nat, ieeeEq e m a a = true ↔ ¬ (a / 2 ^ m % 2 ^ e = 2 ^ e - 1 ∧ a % 2 ^ m ≠ 0) := by
    intro e m a
    simp only [ieeeEq, Bool.and_eq_true, Bool.or_eq_true, Bool.not_eq_true', beq_self_eq_true, true_or, and_true, and_self]
    rw [Bool.and_eq_false_iff, beq_eq_false_iff_ne, bne_eq_false_iff_eq]
    constructor
    · rintro (h | h) ⟨h1, h2⟩
      · exact h h1
      · exact h2 h
    · intro h
      by_cases h1 : a / 2 ^ m % 2 ^ e = 2 ^ e - 1
      · right
        by_cases h2 : a % 2 ^ m = 0
        · exact h2
        · exact absurd ⟨h1, h2⟩ h
      · exact .inl h1
  cases sc with
  | w1 => exact ⟨fun _ h => h, fun _ => beq_self_eq_true _⟩
  | w2 => exact ⟨fun _ h => h, fun _ => beq_self_eq_true _⟩
  | w4 => exact key 8 23 _
  | w8 => exact key 11 52 _
  | uuid => exact ⟨fun _ h => h, fun _ => (UUID.equal_iff _ _).mpr rfl⟩
  | hash => exact ⟨fun _ h => h, fun _ => (Hash.equal_iff _ _).mpr rfl⟩

/-- A base value compares equal to itself exactly when it has no NaN. -/
theorem C50_self_equal_base (t : DataType) (a : t.Val) : t.equal a a = true ↔ ¬ t.HasNaN a := by
  obtain ⟨nm, vt, avt, kind, ov⟩ := t
  cases kind with
  | bool => exact ⟨fun _ h => h, fun _ => beq_self_eq_true _⟩
  | string => exact ⟨fun _ h => h, fun _ => beq_self_eq_true _⟩
  | items sc n fl =>
    cases fl with
    | false =>
      refine ⟨fun _ h => h, fun _ => (zipAll_iff _ _ _).mpr fun i hi => sc_equal_iff.mpr rfl⟩
    | true =>
      refine (zipAll_iff (Sc.equal true sc) _ _).trans ⟨fun h hn => ?_, fun h i hi => ?_⟩
      · obtain ⟨x, hx, hn⟩ := hn
        obtain ⟨i, hi, rfl⟩ := List.mem_iff_getElem.mp hx
        have hi' : i < n := by simpa using hi
        refine (sc_refl sc _).mp (h i hi') ?_
        simpa using hn
      · refine (sc_refl sc _).mpr fun hn => h ⟨(a : Vector sc.Val n)[i], ?_, hn⟩
        exact List.mem_iff_getElem.mpr ⟨i, by simpa using hi, by simp⟩

/-- For types without floating point numbers `==` is equality of the values. -/
theorem C50_exact_base (t : DataType) (h : ∀ sc n, t.kind ≠ .items sc n true) (a b : t.Val) : t.equal a b = true ↔ a = b := equal_iff_eq t h a b

/-- Identical contents, no NaN in any base value, and every Varying initialised. -/
def BaseRel.clean : BaseRel := ⟨fun t a b => a = b ∧ ¬ t.HasNaN a, False⟩

section laws2

variable {V : Type} {M : Managed V} {S : ClassSpec V}

/-- Two different objects with the same contents compare equal exactly when no base value in it is a NaN and every Varying in it is
initialised. (The same object compares equal to itself in any case, by address.) -/
theorem C50_reflexive_iff (hM : IsClass M S) (v : V) (hv : S.wf v) :
    (M.equals v v = some true ↔ S.rel .clean v v) ∧ M.equalsPtr true (some v) (some v) = some true := by
  refine ⟨?_, rfl⟩
  obtain ⟨r, e, h⟩ := hM.lawful.equals_ok v v hv hv
  rw [e, Option.some.injEq, h]
  constructor
  · intro hr
    refine hM.lawful.rel_mono (R := BaseRel.and .exact .cpp) (R' := .clean) ⟨?_, fun h => h.2⟩ (hM.rel_and (hM.lawful.rel_refl v hv) hr)
    rintro t a b ⟨rfl, h⟩
    exact ⟨rfl, (C50_self_equal_base t a).mp h⟩
  · refine hM.lawful.rel_mono (R := .clean) (R' := .cpp) ⟨?_, id⟩
    rintro t a b ⟨rfl, h⟩
    exact (C50_self_equal_base t a).mpr h

/-- For every class made without floating point numbers and Varying, `Equals` is an equivalence that holds exactly for equal contents, and
copies are equal. -/
theorem C50_plain_classes (hM : IsClass M S) (hp : IsPlain S) :
    (∀ a b, S.wf a → S.wf b → (M.equals a b = some true ↔ S.rel .exact a b) ∧ (M.equals a b = some false ↔ ¬ S.rel .exact a b)) ∧
    (∀ a, S.wf a → M.equals a a = some true) ∧
    (∀ d s, S.wf d → S.wf s → ∃ c, M.copy (.other s) d = .ok () c ∧ M.equals c s = some true) := by
  have h1 : ∀ a b, S.wf a → S.wf b → (M.equals a b = some true ↔ S.rel .exact a b) ∧ (M.equals a b = some false ↔ ¬ S.rel .exact a b) := by
    intro a b ha hb
    obtain ⟨r, e, h⟩ := hM.lawful.equals_ok a b ha hb
    rw [hp.cpp_iff] at h
    rw [e]
    cases r with
    | true => exact ⟨⟨fun _ => h.mp rfl, fun _ => rfl⟩, ⟨fun hc => (nomatch hc), fun h' => absurd (h.mp rfl) h'⟩⟩
    | false => exact ⟨⟨fun hc => (nomatch hc), fun h' => (nomatch h.mpr h')⟩, ⟨fun _ h' => (nomatch h.mpr h'), fun _ => rfl⟩⟩
  refine ⟨h1, fun a ha => (h1 a a ha ha).1.mpr (hM.lawful.rel_refl a ha), fun d s hd hs => ?_⟩
  obtain ⟨c, e, hw, hr⟩ := hM.lawful.copy_other d s hd hs
  exact ⟨c, e, (h1 c s hw hs).1.mpr hr⟩

end laws2

/-- A name of a type without floating point numbers. -/
theorem noFloats_iff (t : DataType) (h : (match t.kind with | .items _ _ fl => fl | _ => false) = false) : t.NoFloats := by
  intro sc n e
  rw [e] at h
  cases h

/-- `AttributeLayer`, `NodeGeometry` and `TestEntity` are such classes (and so are tables of them, and graphs). -/
theorem C50_plain_entities : IsPlain (entitySpec attributeLayerSpecs) ∧ IsPlain (entitySpec nodeGeometrySpecs) ∧
    IsPlain (entitySpec testEntitySpecs) :=
  ⟨.entity _ (.base (noFloats_iff _ rfl) .nil), .entity _ (.base (noFloats_iff _ rfl) .nil),
    .entity _ (.base (noFloats_iff _ rfl) (.base (noFloats_iff _ rfl) .nil))⟩

/-- A class whose `Clear` gives a default object, and whose `DeepCopy` from null does the same as `Clear`: graphs, indexed vectors, tables of
anything, and entities all of whose managed variables are such. -/
theorem C50_clear_gives_default :
    (∀ {α : Type} [NodeType α] (st : Stored α) (a r s : Bool), Clears (graphMF st a r s) (graphSpec st a r s)) ∧
    (∀ t, Clears (idxMF t) (idxSpec t)) ∧
    (∀ {K V : Type} [DecidableEq K] (st : Stored K) (M : Managed V) (S : ClassSpec V) (zk ne : Bool) (ord : TableOrder (K × Option V)),
      Clears (tableMF st M zk ne ord) (tableSpec st S zk ne)) ∧
    (∀ {fs : List Field} {ss : FieldSpecs fs}, FieldSpecs.All @Clears ss → Clears (entityMF fs) (entitySpec ss)) :=
  ⟨fun st a r s => graph_clears st a r s, idx_clears, fun st M S zk ne ord => table_clears st M S zk ne ord, fun h => entity_clears h⟩

section tables2

variable (oLayers : TableOrder (EntityRef × Option AttributeLayer)) (oV2 : TableOrder (EntityRef × Option (IdxVec fvec2Type.Val)))
  (oTan oBit oNrm : TableOrder (EntityRef × Option (IdxVec fvec3Type.Val))) (oV4 : TableOrder (EntityRef × Option (IdxVec fvec4Type.Val)))
  (oVar : TableOrder (EntityRef × Option Varying)) (oNodes : TableOrder (EntityRef × Option NodeEnt))
  (oGeo : TableOrder (EntityRef × Option NodeGeometry))

/-- All the entities of the repository are such. -/
theorem C50_repository_entities_clear (oScene : TableOrder (PackageRef × Option (SceneLayer oNodes oGeo))) :
    Clears (entityMF attributeLayerFields) (entitySpec attributeLayerSpecs) ∧ Clears (entityMF nodeFields) (entitySpec nodeSpecs) ∧
    Clears (entityMF nodeGeometryFields) (entitySpec nodeGeometrySpecs) ∧ Clears (entityMF testEntityFields) (entitySpec testEntitySpecs) ∧
    Clears (entityMF (sceneLayerFields oNodes oGeo)) (entitySpec (sceneLayerSpecs oNodes oGeo)) ∧
    Clears (entityMF (sceneFields oNodes oGeo oScene)) (entitySpec (sceneSpecs oNodes oGeo oScene)) ∧
    Clears (entityMF (meshFields oLayers oV2 oTan oBit oNrm oV4 oVar)) (entitySpec (meshSpecs oLayers oV2 oTan oBit oNrm oV4 oVar)) :=
  ⟨entity_clears (.base .nil), entity_clears (.base (.base (.base (.base .nil)))), entity_clears (.base .nil), entity_clears (.base (.base .nil)),
    entity_clears (.base (.sub (graph_clears _ _ _ _) (.sub (table_clears _ _ _ _ _ _) (.sub (table_clears _ _ _ _ _ _) .nil)))),
    entity_clears (.sub (table_clears _ _ _ _ _ _) .nil),
    entity_clears (.sub (table_clears _ _ _ _ _ _) (.sub (table_clears _ _ _ _ _ _) (.sub (table_clears _ _ _ _ _ _)
      (.sub (table_clears _ _ _ _ _ _) (.sub (table_clears _ _ _ _ _ _) (.sub (table_clears _ _ _ _ _ _) (.sub (table_clears _ _ _ _ _ _) .nil)))))))⟩

/-- Copying an entity to itself loses the contents of its tables: a `Scene` loses all its layers. -/
theorem C50_self_copy_of_scene_loses_layers (oScene : TableOrder (PackageRef × Option (SceneLayer oNodes oGeo)))
    (layers : Table PackageRef (SceneLayer oNodes oGeo)) :
    (entityMF (sceneFields oNodes oGeo oScene)).copy .self (layers, ()) = .ok () ([], ()) := rfl

end tables2

/-- Copying an entity of base values and graphs to itself keeps it. -/
theorem C50_self_copy_kept {fs : List Field} {ss : FieldSpecs fs} (h : FieldSpecs.All @KeepsSelf ss) : KeepsSelf (entityMF fs) (entitySpec ss) :=
  entity_keepsSelf h

/-- **False** for Varying, and so for an entity with one: `Clear` keeps the type and the object, while `DeepCopy` from null and the default
have none. -/
theorem C50_false_for_varying (v : Varying) (hv : varyingSpec.wf v) (hi : v.data ≠ none) :
    (∃ c, varyingMF.clear v = .ok () c ∧ c.data ≠ none ∧ c.ty = v.ty ∧ c.ct = v.ct) ∧
    (∃ c, varyingMF.copy .null v = .ok () c ∧ c.data = none) ∧ varyingMF.init.data = none := by
  refine ⟨?_, ?_, rfl⟩
  · rcases varying_cases v hv with hn | ⟨i, j, t, c, x, rfl, h1, h2⟩
    · exact absurd hn hi
    · refine ⟨⟨_, _, some ⟨t, c, c.zero t.zero⟩⟩, ?_, by simp, rfl, rfl⟩
      show Varying.clear _ = _
      rw [Varying.clear, Prog.bind_ok (Prog.get_apply _), if_neg (by simp), dynamic_ok h1 h2]
      rfl
  · obtain ⟨d', e, hn, _⟩ := deinitialize_ok hv
    refine ⟨d', ?_, hn⟩
    show Varying.copy .null v = _
    rw [Varying.copy, Prog.bind_ok e, if_neg (by decide)]
    rfl

end ISD
