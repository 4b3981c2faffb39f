import Verif.Props.Encoding
import Verif.Spec.Layout

/-!
# C69: the stored form of objects is the documented layout
-/

namespace ISD

attribute [local irreducible] dynTable DynClass.all findTypeClass

variable {V : Type} {M : Managed V} {S : ClassSpec V}

theorem tableNodes_bytes {K V : Type} [DecidableEq K] (st : Stored K) (S : ClassSpec V) (zk ne fl : Bool) (t : Table K V) :
    ((tableSpec st S zk ne).nodes t).bytes fl = Layout.table fl st (fun v => (S.nodes v).bytes fl) t := by
  simp only [tableSpec, Nodes.bytes, Node.bytes]
  rw [tableElems_bodies, List.append_nil]
  rfl

theorem graphNodes_bytes {α : Type} [NodeType α] (st : Stored α) (a r s fl : Bool) (g : Graph α) :
    ((graphSpec st a r s).nodes g).bytes fl = Layout.graph fl st g := by
  simp only [graphSpec, Nodes.bytes, Node.bytes]
  rw [List.append_nil]
  rfl

theorem idxNodes_bytes (t : DataType) (fl : Bool) (v : IdxVec t.Val) : ((idxSpec t).nodes v).bytes fl = Layout.indexedVector fl t v := by
  simp only [idxSpec, Nodes.bytes, Node.bytes]
  rw [List.append_nil]
  rfl

theorem varyingNodes_bytes (fl : Bool) (v : Varying) : (varyingSpec.nodes v).bytes fl = Layout.varying fl v := by
  simp only [varyingSpec, Nodes.bytes, Node.bytes]
  unfold Layout.varying
  rw [List.append_assoc]
  congr 2
  cases v.data with
  | none => simp only [Option.elim, Nodes.bytes]
  | some o => simp only [Option.elim, Nodes.bytes, Node.bytes, List.append_nil]

theorem length_mem_flatMap {α β : Type} (f : α → List β) {a : α} : ∀ {l : List α}, a ∈ l → (f a).length ≤ (l.flatMap f).length
  | b :: l, h => by
    rw [List.flatMap_cons, List.length_append]
    rcases List.mem_cons.mp h with rfl | h
    · omega
    · have := length_mem_flatMap f h
      omega

theorem sect_length (fl : Bool) (k y : Bytes) : y.length ≤ (Spec.sect fl k y).length := by
  unfold Spec.sect Spec.largeBlock
  simp only [List.length_append]
  omega

theorem fieldsNodes_bytes (fl : Bool) : ∀ {fs : List Field} {ss : FieldSpecs fs}, AreFields ss → ∀ v b, ss.wf v → ss.rel .storable v v →
    ((ss.nodes v).bytes fl).length < 2 ^ 59 → Layout.Fields fl (fun M v b => StoredAs M v fl b ∧ b.length < 2 ^ 59) fs v b → b = (ss.nodes v).bytes fl
  | _, _, .nil, _, _, _, _, _, h => h
  | _, _, .base (t := t) (c := c) (k := k) (rest := rest) _ _ hf, v, b, hw, hr, hl, h => by
    obtain ⟨b', rfl, h⟩ := h
    have e : ((FieldSpecs.base k t c rest).nodes v).bytes fl = Spec.typed fl t c k v.1 ++ (rest.nodes v.2).bytes fl := rfl
    rw [e, List.length_append] at hl
    rw [e, fieldsNodes_bytes fl hf v.2 b' hw hr.2 (by omega) h]
  | _, _, .sub (k := k) (M := M) (S := S) (rest := rest) _ hM hf, v, b, hw, hr, hl, h => by
    obtain ⟨y, b', rfl, ⟨hy, hyl⟩, h⟩ := h
    have e : ((FieldSpecs.sub k M S rest).nodes v).bytes fl = Spec.sect fl k ((S.nodes v.1).bytes fl) ++ (rest.nodes v.2).bytes fl := rfl
    rw [e, List.length_append] at hl
    have := sect_length fl k ((S.nodes v.1).bytes fl)
    rw [e, fieldsNodes_bytes fl hf v.2 b' hw.2 hr.2 (by omega) h, storedAs_unique hM ⟨hw.1, hr.1, by omega⟩ hyl hy]

theorem fields_exist (fl : Bool) : ∀ {fs : List Field} {ss : FieldSpecs fs}, AreFields ss → ∀ v, ss.wf v → ss.rel .storable v v →
    ((ss.nodes v).bytes fl).length < 2 ^ 59 →
    Layout.Fields fl (fun M v b => StoredAs M v fl b ∧ b.length < 2 ^ 59) fs v ((ss.nodes v).bytes fl)
  | _, _, .nil, _, _, _, _ => rfl
  | _, _, .base (t := t) (c := c) (k := k) (rest := rest) _ _ hf, v, hw, hr, hl => by
    have e : ((FieldSpecs.base k t c rest).nodes v).bytes fl = Spec.typed fl t c k v.1 ++ (rest.nodes v.2).bytes fl := rfl
    rw [e, List.length_append] at hl
    exact ⟨_, rfl, fields_exist fl hf v.2 hw hr.2 (by omega)⟩
  | _, _, .sub (k := k) (M := M) (S := S) (rest := rest) _ hM hf, v, hw, hr, hl => by
    have e : ((FieldSpecs.sub k M S rest).nodes v).bytes fl = Spec.sect fl k ((S.nodes v.1).bytes fl) ++ (rest.nodes v.2).bytes fl := rfl
    rw [e, List.length_append] at hl
    have := sect_length fl k ((S.nodes v.1).bytes fl)
    exact ⟨_, _, rfl, ⟨storedAs_nodes hM ⟨hw.1, hr.1, by omega⟩, by omega⟩, fields_exist fl hf v.2 hw.2 hr.2 (by omega)⟩

/-! ## C69 -/

/-- **C69** for directed graphs. -/
theorem C69_graph {α : Type} [NodeType α] (st : Stored α) (h : st.Good) (a r s fl : Bool) (g : Graph α) (hg : g.Valid)
    (hl : (Layout.graph fl st g).length < 2 ^ 59) : StoredAs (graphMF st a r s) g fl (Layout.graph fl st g) := by
  rw [← graphNodes_bytes st a r s fl g] at hl ⊢
  exact storedAs_nodes (.graph st h a r s) ⟨hg, ⟨fun _ => Iff.rfl, fun _ => Iff.rfl⟩, hl⟩

/-- **C69** for indexed vectors. -/
theorem C69_indexed_vector (t : DataType) (ht : t ∈ allTypes) (fl : Bool) (v : IdxVec t.Val) (hl : (Layout.indexedVector fl t v).length < 2 ^ 59) :
    StoredAs (idxMF t) v fl (Layout.indexedVector fl t v) := by
  rw [← idxNodes_bytes t fl v] at hl ⊢
  exact storedAs_nodes (.idx t ht) ⟨trivial, idx_storable v, hl⟩

/-- **C69** for Varying objects that are initialised. -/
theorem C69_varying (fl : Bool) (v : Varying) (hw : varyingSpec.wf v) (hi : v.data ≠ none) (hl : (Layout.varying fl v).length < 2 ^ 59) :
    StoredAs varyingMF v fl (Layout.varying fl v) := by
  rw [← varyingNodes_bytes fl v] at hl ⊢
  refine storedAs_nodes .varying ⟨hw, ?_, hl⟩
  rcases e : v.data with _ | ⟨t, c, x⟩
  · exact absurd e hi
  · exact .inr ⟨_, _, e, e, rfl, rfl, .mk _ _ _ _ (base_storable _)⟩

/-- **C69** for tables: the objects in the table are stored in the sections in their own stored form, in the order of the keys. -/
theorem C69_table {K : Type} [DecidableEq K] (st : Stored K) (h : st.Good) (hM : IsClass M S) (zk ne : Bool) (ord : TableOrder (K × Option V))
    (fl : Bool) (t : Table K V) (ht : Storable (tableSpec st S zk ne) fl t) (object : V → Bytes)
    (ho : ∀ k v, (k, some v) ∈ t → StoredAs M v fl (object v) ∧ (object v).length < 2 ^ 59) :
    StoredAs (tableMF st M zk ne ord) t fl (Layout.table fl st object t) := by
  have := storedAs_nodes (.table st h hM zk ne ord) ht
  rw [tableNodes_bytes] at this
  have hs := ht.small
  rw [tableNodes_bytes] at hs
  have e : (t.map fun e => e.2.elim [] object) = t.map fun e => e.2.elim [] fun v => (S.nodes v).bytes fl := by
    refine List.map_congr_left ?_
    rintro ⟨k, _ | v⟩ hm
    · rfl
    · have hso : S.rel .storable v v := by
        have h1 := ht.initialised k
        rw [(find_iff ht.wf.1 k _).mpr hm] at h1
        cases h1 with
        | some h1 => cases h1 with
          | some h1 => exact h1
      refine storedAs_unique hM ⟨ht.wf.2 k v hm, hso, ?_⟩ (ho k v hm).2 (ho k v hm).1
      refine Nat.lt_of_le_of_lt ?_ hs
      unfold Layout.table Spec.sectArray Spec.largeBlock
      simp only [List.length_append, Option.elim]
      have : ((S.nodes v).bytes fl).length ≤ ((t.map fun e => e.2.elim [] fun v => (S.nodes v).bytes fl).flatMap (Spec.element fl)).length := by
        refine Nat.le_trans ?_ (length_mem_flatMap (Spec.element fl) (List.mem_map.mpr ⟨_, hm, rfl⟩))
        show _ ≤ (Spec.element fl ((S.nodes v).bytes fl)).length
        unfold Spec.element
        rw [List.length_append]
        exact Nat.le_add_left _ _
      simp only [Option.elim] at this
      omega
  unfold Layout.table at this ⊢
  rwa [e]

/-- **C69** for entities: the variables in the order of their declaration, base values as their blocks and the others as sections with their
own stored form. -/
theorem C69_entity {fs : List Field} {ss : FieldSpecs fs} (hf : AreFields ss) (hne : fs ≠ []) (fl : Bool) (v : FieldsVal fs)
    (hv : Storable (entitySpec ss) fl v) :
    (∃ b, Layout.Fields fl (fun M v b => StoredAs M v fl b ∧ b.length < 2 ^ 59) fs v b) ∧
    ∀ b, Layout.Fields fl (fun M v b => StoredAs M v fl b ∧ b.length < 2 ^ 59) fs v b → StoredAs (entityMF fs) v fl b := by
  refine ⟨⟨_, fields_exist fl hf v hv.wf hv.initialised hv.small⟩, fun b hb => ?_⟩
  rw [fieldsNodes_bytes fl hf v b hv.wf hv.initialised hv.small hb]
  exact storedAs_nodes (.entity ss hf hne) hv

/-! ## The entities of the repository -/

/-- **C69** for `AttributeLayer`. -/
theorem C69_AttributeLayer (fl : Bool) (v : AttributeLayer) (hl : (Layout.attributeLayer fl v).length < 2 ^ 59) :
    StoredAs (entityMF attributeLayerFields) v fl (Layout.attributeLayer fl v) := by
  have e : ((entitySpec attributeLayerSpecs).nodes v).bytes fl = Layout.attributeLayer fl v := List.append_nil _
  rw [← e] at hl ⊢
  exact storedAs_nodes attributeLayer_isClass ⟨trivial, ⟨base_storable _, trivial⟩, hl⟩

theorem node_bytes (fl : Bool) (v : NodeEnt) : ((entitySpec nodeSpecs).nodes v).bytes fl = Layout.node fl v := by
  unfold Layout.node
  simp only [List.append_assoc]
  show _ ++ (_ ++ (_ ++ (_ ++ []))) = _
  rw [List.append_nil]
  rfl

/-- **C69** for `Node`. -/
theorem C69_Node (fl : Bool) (v : NodeEnt) (hl : (Layout.node fl v).length < 2 ^ 59) :
    StoredAs (entityMF nodeFields) v fl (Layout.node fl v) := by
  rw [← node_bytes] at hl ⊢
  exact storedAs_nodes node_isClass ⟨trivial, ⟨base_storable _, base_storable _, base_storable _, base_storable _, trivial⟩, hl⟩

theorem nodeGeometry_bytes (fl : Bool) (v : NodeGeometry) : ((entitySpec nodeGeometrySpecs).nodes v).bytes fl = Layout.nodeGeometry fl v :=
  List.append_nil _

/-- **C69** for `NodeGeometry`. -/
theorem C69_NodeGeometry (fl : Bool) (v : NodeGeometry) (hl : (Layout.nodeGeometry fl v).length < 2 ^ 59) :
    StoredAs (entityMF nodeGeometryFields) v fl (Layout.nodeGeometry fl v) := by
  rw [← nodeGeometry_bytes] at hl ⊢
  exact storedAs_nodes nodeGeometry_isClass ⟨trivial, ⟨base_storable _, trivial⟩, hl⟩

/-- **C69** for `TestEntity`. -/
theorem C69_TestEntity (fl : Bool) (v : FieldsVal testEntityFields) (hl : (Layout.testEntity fl v).length < 2 ^ 59) :
    StoredAs (entityMF testEntityFields) v fl (Layout.testEntity fl v) := by
  have e : ((entitySpec testEntitySpecs).nodes v).bytes fl = Layout.testEntity fl v := by
    show _ ++ (_ ++ []) = _
    rw [List.append_nil]
    rfl
  rw [← e] at hl ⊢
  exact storedAs_nodes testEntity_isClass ⟨trivial, ⟨base_storable _, base_storable _, trivial⟩, hl⟩

section tables

variable (oLayers : TableOrder (EntityRef × Option AttributeLayer)) (oV2 : TableOrder (EntityRef × Option (IdxVec fvec2Type.Val)))
  (oTan oBit oNrm : TableOrder (EntityRef × Option (IdxVec fvec3Type.Val))) (oV4 : TableOrder (EntityRef × Option (IdxVec fvec4Type.Val)))
  (oVar : TableOrder (EntityRef × Option Varying)) (oNodes : TableOrder (EntityRef × Option NodeEnt))
  (oGeo : TableOrder (EntityRef × Option NodeGeometry))

theorem sceneLayer_parts (fl : Bool) (name : Bytes) (g : Graph EntityRef) (nodes : Table EntityRef NodeEnt) (geos : Table EntityRef NodeGeometry) :
      Spec.typed fl stringTy .none (key "Name") name ++
      (Spec.sect fl (key "Graph") (((graphSpec entityRefStored true true false).nodes g).bytes fl) ++
      (Spec.sect fl (key "Nodes") (((tableSpec entityRefStored (entitySpec nodeSpecs) false false).nodes nodes).bytes fl) ++
      (Spec.sect fl (key "Geometries") (((tableSpec entityRefStored (entitySpec nodeGeometrySpecs) false false).nodes geos).bytes fl) ++ []))) =
    Layout.sceneLayerParts fl name g nodes geos := by
  rw [graphNodes_bytes, tableNodes_bytes, tableNodes_bytes, List.append_nil, funext (node_bytes fl), funext (nodeGeometry_bytes fl)]
  unfold Layout.sceneLayerParts
  simp only [List.append_assoc]

theorem sceneLayer_bytes (fl : Bool) (v : SceneLayer oNodes oGeo) :
    ((entitySpec (sceneLayerSpecs oNodes oGeo)).nodes v).bytes fl = Layout.sceneLayer fl v :=
  sceneLayer_parts fl v.1 v.2.1 v.2.2.1 v.2.2.2.1

/-- **C69** for `SceneLayer`. -/
theorem C69_SceneLayer (fl : Bool) (name : Bytes) (graph : Graph EntityRef) (nodes : Table EntityRef NodeEnt) (geos : Table EntityRef NodeGeometry)
    (hg : graph.Valid) (h1 : nodes.Ok) (h2 : geos.Ok) (hl : (Layout.sceneLayerParts fl name graph nodes geos).length < 2 ^ 59) :
    StoredAs (entityMF (sceneLayerFields oNodes oGeo)) (name, graph, nodes, geos, ()) fl (Layout.sceneLayerParts fl name graph nodes geos) := by
  have e := sceneLayer_bytes oNodes oGeo fl (name, graph, nodes, geos, ())
  rw [show Layout.sceneLayerParts fl name graph nodes geos = Layout.sceneLayer (oNodes := oNodes) (oGeo := oGeo) fl (name, graph, nodes, geos, ()) from rfl,
    ← e] at hl ⊢
  exact storedAs_nodes (sceneLayer_isClass oNodes oGeo) ⟨⟨hg, ⟨h1, fun _ _ _ => trivial⟩, ⟨h2, fun _ _ _ => trivial⟩, trivial⟩,
    sceneLayer_storable oNodes oGeo name graph nodes geos h1 h2, hl⟩

theorem scene_parts (fl : Bool) (layers : Table PackageRef (SceneLayer oNodes oGeo)) :
    Spec.sect fl (key "Layers") (((tableSpec packageRefStored (entitySpec (sceneLayerSpecs oNodes oGeo)) false false).nodes layers).bytes fl) ++ [] =
    Layout.scene fl layers := by
  rw [tableNodes_bytes, List.append_nil, funext (sceneLayer_bytes oNodes oGeo fl)]
  rfl

/-- **C69** for `Scene`. -/
theorem C69_Scene (oScene : TableOrder (PackageRef × Option (SceneLayer oNodes oGeo))) (fl : Bool) (layers : Table PackageRef (SceneLayer oNodes oGeo))
    (ht : layers.Ok) (h : ∀ k l, (k, some l) ∈ layers → Graph.Valid l.2.1 ∧ Table.Ok l.2.2.1 ∧ Table.Ok l.2.2.2.1)
    (hl : (Layout.scene fl layers).length < 2 ^ 59) :
    StoredAs (entityMF (sceneFields oNodes oGeo oScene)) (layers, ()) fl (Layout.scene fl layers) := by
  have e : ((entitySpec (sceneSpecs oNodes oGeo oScene)).nodes (layers, ())).bytes fl = Layout.scene fl layers := scene_parts oNodes oGeo fl layers
  rw [← e] at hl ⊢
  exact storedAs_nodes (scene_isClass oNodes oGeo oScene)
    ⟨⟨⟨ht, fun k l hm => ⟨(h k l hm).1, ⟨(h k l hm).2.1, fun _ _ _ => trivial⟩, ⟨(h k l hm).2.2, fun _ _ _ => trivial⟩, trivial⟩⟩, trivial⟩,
    ⟨table_storable ht fun k l hm => sceneLayer_storable oNodes oGeo l.1 l.2.1 l.2.2.1 l.2.2.2.1 (h k l hm).2.1 (h k l hm).2.2, trivial⟩, hl⟩

theorem mesh_parts (fl : Bool) (layers : Table EntityRef AttributeLayer) (tex : Table EntityRef (IdxVec fvec2Type.Val))
    (tan bit nrm : Table EntityRef (IdxVec fvec3Type.Val)) (col : Table EntityRef (IdxVec fvec4Type.Val)) (cust : Table EntityRef Varying) :
      Spec.sect fl (key "Layers") (((tableSpec entityRefStored (entitySpec attributeLayerSpecs) false false).nodes layers).bytes fl) ++
      (Spec.sect fl (key "TextureCoordsData") (((tableSpec entityRefStored (idxSpec fvec2Type) false false).nodes tex).bytes fl) ++
      (Spec.sect fl (key "TangentsData") (((tableSpec entityRefStored (idxSpec fvec3Type) false false).nodes tan).bytes fl) ++
      (Spec.sect fl (key "BitangentsData") (((tableSpec entityRefStored (idxSpec fvec3Type) false false).nodes bit).bytes fl) ++
      (Spec.sect fl (key "NormalsData") (((tableSpec entityRefStored (idxSpec fvec3Type) false false).nodes nrm).bytes fl) ++
      (Spec.sect fl (key "ColorsData") (((tableSpec entityRefStored (idxSpec fvec4Type) false false).nodes col).bytes fl) ++
      (Spec.sect fl (key "CustomData") (((tableSpec entityRefStored varyingSpec false false).nodes cust).bytes fl) ++ [])))))) =
    Layout.mesh fl layers tex tan bit nrm col cust := by
  have ea : (fun v => ((entitySpec attributeLayerSpecs).nodes v).bytes fl) = Layout.attributeLayer fl := funext fun v => List.append_nil _
  simp only [tableNodes_bytes, List.append_nil]
  rw [ea, funext (idxNodes_bytes fvec2Type fl), funext (idxNodes_bytes fvec3Type fl), funext (idxNodes_bytes fvec4Type fl),
    funext (varyingNodes_bytes fl)]
  unfold Layout.mesh
  simp only [List.append_assoc]

/-- **C69** for `Mesh`. -/
theorem C69_Mesh (fl : Bool) (layers : Table EntityRef AttributeLayer) (tex : Table EntityRef (IdxVec fvec2Type.Val))
    (tan bit nrm : Table EntityRef (IdxVec fvec3Type.Val)) (col : Table EntityRef (IdxVec fvec4Type.Val)) (cust : Table EntityRef Varying)
    (h1 : layers.Ok) (h2 : tex.Ok) (h3 : tan.Ok) (h4 : bit.Ok) (h5 : nrm.Ok) (h6 : col.Ok) (h7 : cust.Ok)
    (hc : ∀ k v, (k, some v) ∈ cust → varyingSpec.wf v ∧ v.data ≠ none)
    (hl : (Layout.mesh fl layers tex tan bit nrm col cust).length < 2 ^ 59) :
    StoredAs (entityMF (meshFields oLayers oV2 oTan oBit oNrm oV4 oVar)) (layers, tex, tan, bit, nrm, col, cust, ()) fl
      (Layout.mesh fl layers tex tan bit nrm col cust) := by
  have e : ((entitySpec (meshSpecs oLayers oV2 oTan oBit oNrm oV4 oVar)).nodes (layers, tex, tan, bit, nrm, col, cust, ())).bytes fl =
    Layout.mesh fl layers tex tan bit nrm col cust := mesh_parts fl layers tex tan bit nrm col cust
  rw [← e] at hl ⊢
  refine storedAs_nodes (mesh_isClass oLayers oV2 oTan oBit oNrm oV4 oVar)
    ⟨⟨⟨h1, fun _ _ _ => trivial⟩, ⟨h2, fun _ _ _ => trivial⟩, ⟨h3, fun _ _ _ => trivial⟩, ⟨h4, fun _ _ _ => trivial⟩, ⟨h5, fun _ _ _ => trivial⟩,
      ⟨h6, fun _ _ _ => trivial⟩, ⟨h7, fun k v hm => (hc k v hm).1⟩, trivial⟩,
    ⟨table_storable h1 fun _ _ _ => ⟨base_storable _, trivial⟩, table_storable h2 fun _ _ _ => idx_storable _,
      table_storable h3 fun _ _ _ => idx_storable _, table_storable h4 fun _ _ _ => idx_storable _,
      table_storable h5 fun _ _ _ => idx_storable _, table_storable h6 fun _ _ _ => idx_storable _,
      table_storable h7 fun k v hm => ?_, trivial⟩, hl⟩
  rcases e : v.data with _ | ⟨t, c, x⟩
  · exact absurd e (hc k v hm).2
  · exact .inr ⟨_, _, e, e, rfl, rfl, .mk _ _ _ _ (base_storable _)⟩

end tables

/-- A `Node` named "A". -/
def demoNode : NodeEnt := ([65], (#v[1, 2, 3] : Vector (Word 4) 3), (#v[4, 5, 6] : Vector (Word 4) 3), (#v[7, 8, 9] : Vector (Word 4) 3), ())

/-- Its bytes in a stream of the machine's byte order. -/
def demoNodeBytes : Bytes :=
  [0xe0, 14, 0, 0, 0, 0, 0, 0, 0, 4, 78, 97, 109, 101, 1, 0, 0, 0, 0, 0, 0, 0, 65,
   6, 23, 1, 0, 0, 0, 2, 0, 0, 0, 3, 0, 0, 0, 84, 114, 97, 110, 115, 108, 97, 116, 105, 111, 110,
   6, 20, 4, 0, 0, 0, 5, 0, 0, 0, 6, 0, 0, 0, 82, 111, 116, 97, 116, 105, 111, 110,
   6, 17, 7, 0, 0, 0, 8, 0, 0, 0, 9, 0, 0, 0, 83, 99, 97, 108, 101]

theorem demoNode_layout : Layout.node false demoNode = demoNodeBytes := by decide +kernel

example : StoredAs (entityMF nodeFields) demoNode false demoNodeBytes := by
  rw [← demoNode_layout]
  exact C69_Node false demoNode (by rw [demoNode_layout]; decide)

end ISD
