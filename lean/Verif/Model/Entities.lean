import Verif.Model.Managed
import Verif.Proofs.Order

/-!
# The entities of the repository (CodeGenerator/Entities)

(`Proofs.Order` supplies the proof that `entity_ref` has the order `std::set` needs.)
-/

namespace ISD

/-! ## The entities of the repository (CodeGenerator/Entities) -/

/-- Geometry/AttributeLayer.py 4-8. -/
def attributeLayerFields : List Field := [.base (key "Name") stringTy .none]

/-- Nodes/Node.py 4-11. -/
def nodeFields : List Field :=
  [.base (key "Name") stringTy .none, .base (key "Translation") fvec3Type .none, .base (key "Rotation") fvec3Type .none,
   .base (key "Scale") fvec3Type .none]

/-- Nodes/NodeGeometry.py 4-7. -/
def nodeGeometryFields : List Field := [.base (key "Geometry") packageRefType .none]

/-- Testing/TestEntity.py 4-9. -/
def testEntityFields : List Field := [.base (key "Name") stringTy .none, .base (key "OptionalText") stringTy .optionalValue]

/-- Contents of an `AttributeLayer`. -/
abbrev AttributeLayer := FieldsVal attributeLayerFields
/-- Contents of a `Node`. -/
abbrev NodeEnt := FieldsVal nodeFields
/-- Contents of a `NodeGeometry`. -/
abbrev NodeGeometry := FieldsVal nodeGeometryFields

section tables

variable (oLayers : TableOrder (EntityRef × Option AttributeLayer)) (oV2 : TableOrder (EntityRef × Option (IdxVec fvec2Type.Val)))
  (oTan oBit oNrm : TableOrder (EntityRef × Option (IdxVec fvec3Type.Val))) (oV4 : TableOrder (EntityRef × Option (IdxVec fvec4Type.Val)))
  (oVar : TableOrder (EntityRef × Option Varying)) (oNodes : TableOrder (EntityRef × Option NodeEnt))
  (oGeo : TableOrder (EntityRef × Option NodeGeometry))

/-- Scene/SceneLayer.py 4-20. -/
def sceneLayerFields : List Field :=
  [.base (key "Name") stringTy .none,
   .sub (key "Graph") (Graph EntityRef) (graphMF entityRefStored true true false),
   .sub (key "Nodes") _ (tableMF entityRefStored (entityMF nodeFields) false false oNodes),
   .sub (key "Geometries") _ (tableMF entityRefStored (entityMF nodeGeometryFields) false false oGeo)]

/-- Contents of a `SceneLayer`. -/
abbrev SceneLayer := FieldsVal (sceneLayerFields oNodes oGeo)

/-- Scene/Scene.py 4-12. -/
def sceneFields (oScene : TableOrder (PackageRef × Option (SceneLayer oNodes oGeo))) : List Field :=
  [.sub (key "Layers") _ (tableMF packageRefStored (entityMF (sceneLayerFields oNodes oGeo)) false false oScene)]

/-- Geometry/Mesh.py 4-27. -/
def meshFields : List Field :=
  [.sub (key "Layers") _ (tableMF entityRefStored (entityMF attributeLayerFields) false false oLayers),
   .sub (key "TextureCoordsData") _ (tableMF entityRefStored (idxMF fvec2Type) false false oV2),
   .sub (key "TangentsData") _ (tableMF entityRefStored (idxMF fvec3Type) false false oTan),
   .sub (key "BitangentsData") _ (tableMF entityRefStored (idxMF fvec3Type) false false oBit),
   .sub (key "NormalsData") _ (tableMF entityRefStored (idxMF fvec3Type) false false oNrm),
   .sub (key "ColorsData") _ (tableMF entityRefStored (idxMF fvec4Type) false false oV4),
   .sub (key "CustomData") _ (tableMF entityRefStored varyingMF false false oVar)]

end tables

end ISD
