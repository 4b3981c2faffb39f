import Verif.Spec.Managed
import Verif.Model.Entities

/-!
# Specification: the stored form of objects

The bytes that store an object, built from the blocks of `Spec.Format`, class by class. Nothing here refers to the programs that write or
read, nor to the trees of `ClassSpec.nodes`.
-/

namespace ISD.Layout

/-- A directed graph: its roots, then source and target of every edge, both in ascending order. -/
def graph {α : Type} [NodeType α] (fl : Bool) (st : Stored α) (g : Graph α) : Bytes :=
  Spec.typed fl st.ty .vector (key "Roots") (g.roots.map st.toVal) ++
  Spec.typed fl st.ty .vector (key "Edges") (g.edges.flatMap fun e => [st.toVal e.1, st.toVal e.2])

/-- A table: its keys, then an array of sections with the objects in the same order, an empty one for a null. -/
def table {K V : Type} (fl : Bool) (st : Stored K) (object : V → Bytes) (t : Table K V) : Bytes :=
  Spec.typed fl st.ty .vector (key "IDs") (t.map fun e => st.toVal e.1) ++
  Spec.sectArray fl (key "Entities") (some (t.map fun e => e.2.elim [] object)) none

/-- An indexed vector: one indexed array. -/
def indexedVector (fl : Bool) (t : DataType) (v : IdxVec t.Val) : Bytes := Spec.typed fl t .idxVector (key "Values") v

/-- A Varying: the numbers of its type and container, then the value. -/
def varying (fl : Bool) (v : Varying) : Bytes :=
  Spec.typed fl u16Type .none (key "Type") (u16Val (v.ty.setWidth 16)) ++
  Spec.typed fl u16Type .none (key "ContainerType") (u16Val (v.ct.setWidth 16)) ++
  v.data.elim [] fun o => Spec.typed fl o.t o.c (key "Data") o.v

/-- The variables of an entity in the order of their declaration: a base value as its block, an object of a managed class as a section with
its stored form. `stored` says what the stored form of an object is. -/
def Fields (fl : Bool) (stored : {V : Type} → Managed V → V → Bytes → Prop) : (fs : List Field) → FieldsVal fs → Bytes → Prop
  | [], _, b => b = []
  | .base k t c :: fs, v, b => ∃ b', b = Spec.typed fl t c k v.1 ++ b' ∧ Fields fl stored fs v.2 b'
  | .sub k _ M :: fs, v, b => ∃ y b', b = Spec.sect fl k y ++ b' ∧ stored M v.1 y ∧ Fields fl stored fs v.2 b'

/-! ## The entities of the repository -/

/-- `AttributeLayer`. -/
def attributeLayer (fl : Bool) (v : AttributeLayer) : Bytes := Spec.typed fl stringTy .none (key "Name") v.1

/-- `Node`. -/
def node (fl : Bool) (v : NodeEnt) : Bytes :=
  Spec.typed fl stringTy .none (key "Name") v.1 ++ Spec.typed fl fvec3Type .none (key "Translation") v.2.1 ++
  Spec.typed fl fvec3Type .none (key "Rotation") v.2.2.1 ++ Spec.typed fl fvec3Type .none (key "Scale") v.2.2.2.1

/-- `NodeGeometry`. -/
def nodeGeometry (fl : Bool) (v : NodeGeometry) : Bytes := Spec.typed fl packageRefType .none (key "Geometry") v.1

/-- `TestEntity`. -/
def testEntity (fl : Bool) (v : FieldsVal testEntityFields) : Bytes :=
  Spec.typed fl stringTy .none (key "Name") v.1 ++ Spec.typed fl stringTy .optionalValue (key "OptionalText") v.2.1

section tables

variable {oNodes : TableOrder (EntityRef × Option NodeEnt)} {oGeo : TableOrder (EntityRef × Option NodeGeometry)}

/-- `SceneLayer`. -/
def sceneLayerParts (fl : Bool) (name : Bytes) (g : Graph EntityRef) (nodes : Table EntityRef NodeEnt) (geos : Table EntityRef NodeGeometry) : Bytes :=
  Spec.typed fl stringTy .none (key "Name") name ++
  Spec.sect fl (key "Graph") (graph fl entityRefStored g) ++
  Spec.sect fl (key "Nodes") (table fl entityRefStored (node fl) nodes) ++
  Spec.sect fl (key "Geometries") (table fl entityRefStored (nodeGeometry fl) geos)

/-- `SceneLayer`. -/
def sceneLayer (fl : Bool) (v : SceneLayer oNodes oGeo) : Bytes := sceneLayerParts fl v.1 v.2.1 v.2.2.1 v.2.2.2.1

/-- `Scene`. -/
def scene (fl : Bool) (layers : Table PackageRef (SceneLayer oNodes oGeo)) : Bytes :=
  Spec.sect fl (key "Layers") (table fl packageRefStored (sceneLayer fl) layers)

/-- `Mesh`. -/
def mesh (fl : Bool) (layers : Table EntityRef AttributeLayer) (tex : Table EntityRef (IdxVec fvec2Type.Val))
    (tan bit nrm : Table EntityRef (IdxVec fvec3Type.Val)) (col : Table EntityRef (IdxVec fvec4Type.Val)) (cust : Table EntityRef Varying) : Bytes :=
  Spec.sect fl (key "Layers") (table fl entityRefStored (attributeLayer fl) layers) ++
  Spec.sect fl (key "TextureCoordsData") (table fl entityRefStored (indexedVector fl fvec2Type) tex) ++
  Spec.sect fl (key "TangentsData") (table fl entityRefStored (indexedVector fl fvec3Type) tan) ++
  Spec.sect fl (key "BitangentsData") (table fl entityRefStored (indexedVector fl fvec3Type) bit) ++
  Spec.sect fl (key "NormalsData") (table fl entityRefStored (indexedVector fl fvec3Type) nrm) ++
  Spec.sect fl (key "ColorsData") (table fl entityRefStored (indexedVector fl fvec4Type) col) ++
  Spec.sect fl (key "CustomData") (table fl entityRefStored (varying fl) cust)

end tables

end ISD.Layout
