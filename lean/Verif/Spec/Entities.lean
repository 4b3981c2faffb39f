import Verif.Model.Entities
import Verif.Spec.Managed

/-! # Specifications of the entities of the repository, variable by variable -/

namespace ISD

/-- See `attributeLayerFields`. -/
def attributeLayerSpecs : FieldSpecs attributeLayerFields := .base _ _ _ .nil
/-- See `nodeFields`. -/
def nodeSpecs : FieldSpecs nodeFields := .base _ _ _ (.base _ _ _ (.base _ _ _ (.base _ _ _ .nil)))
/-- See `nodeGeometryFields`. -/
def nodeGeometrySpecs : FieldSpecs nodeGeometryFields := .base _ _ _ .nil
/-- See `testEntityFields`. -/
def testEntitySpecs : FieldSpecs testEntityFields := .base _ _ _ (.base _ _ _ .nil)

section tables

variable (oLayers : TableOrder (EntityRef × Option AttributeLayer)) (oV2 : TableOrder (EntityRef × Option (IdxVec fvec2Type.Val)))
  (oTan oBit oNrm : TableOrder (EntityRef × Option (IdxVec fvec3Type.Val))) (oV4 : TableOrder (EntityRef × Option (IdxVec fvec4Type.Val)))
  (oVar : TableOrder (EntityRef × Option Varying)) (oNodes : TableOrder (EntityRef × Option NodeEnt))
  (oGeo : TableOrder (EntityRef × Option NodeGeometry))

/-- See `sceneLayerFields`. -/
def sceneLayerSpecs : FieldSpecs (sceneLayerFields oNodes oGeo) :=
  .base _ _ _ (.sub _ _ (graphSpec entityRefStored true true false)
    (.sub _ _ (tableSpec entityRefStored (entitySpec nodeSpecs) false false)
      (.sub _ _ (tableSpec entityRefStored (entitySpec nodeGeometrySpecs) false false) .nil)))

/-- See `sceneFields`. -/
def sceneSpecs (oScene : TableOrder (PackageRef × Option (SceneLayer oNodes oGeo))) : FieldSpecs (sceneFields oNodes oGeo oScene) :=
  .sub _ _ (tableSpec packageRefStored (entitySpec (sceneLayerSpecs oNodes oGeo)) false false) .nil

/-- See `meshFields`. -/
def meshSpecs : FieldSpecs (meshFields oLayers oV2 oTan oBit oNrm oV4 oVar) :=
  .sub _ _ (tableSpec entityRefStored (entitySpec attributeLayerSpecs) false false)
    (.sub _ _ (tableSpec entityRefStored (idxSpec fvec2Type) false false)
      (.sub _ _ (tableSpec entityRefStored (idxSpec fvec3Type) false false)
        (.sub _ _ (tableSpec entityRefStored (idxSpec fvec3Type) false false)
          (.sub _ _ (tableSpec entityRefStored (idxSpec fvec3Type) false false)
            (.sub _ _ (tableSpec entityRefStored (idxSpec fvec4Type) false false)
              (.sub _ _ (tableSpec entityRefStored varyingSpec false false) .nil))))))

end tables

end ISD
