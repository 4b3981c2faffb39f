import Verif.Model.Generator

/-!
# The descriptions of the entities of the repository (CodeGenerator/Entities)
-/

namespace ISD.Generator

/-- Geometry/AttributeLayer.py 7-13. -/
def attributeLayerDescription : Entity where
  name := "AttributeLayer"
  vars := [{ type := "string", name := "Name" }]

/-- Geometry/Mesh.py 7-30. -/
def meshDescription : Entity where
  name := "Mesh"
  dependencies := [{ name := "EntityTable", includeInHeader := true }, { name := "AttributeLayer", includeInHeader := true },
    { name := "IndexedVector", includeInHeader := true }, { name := "Varying" }]
  templates := [{ name := "attribute_layers", template := "EntityTable", types := ["entity_ref", "AttributeLayer"] },
    { name := "attribute_layers_fvec2", template := "EntityTable", types := ["entity_ref", "IndexedVector<fvec2>"] },
    { name := "attribute_layers_fvec3", template := "EntityTable", types := ["entity_ref", "IndexedVector<fvec3>"] },
    { name := "attribute_layers_fvec4", template := "EntityTable", types := ["entity_ref", "IndexedVector<fvec4>"] },
    { name := "attribute_layers_custom", template := "EntityTable", types := ["entity_ref", "Varying"] }]
  vars := [{ type := "attribute_layers", name := "Layers" }, { type := "attribute_layers_fvec2", name := "TextureCoordsData" },
    { type := "attribute_layers_fvec3", name := "TangentsData" }, { type := "attribute_layers_fvec3", name := "BitangentsData" },
    { type := "attribute_layers_fvec3", name := "NormalsData" }, { type := "attribute_layers_fvec4", name := "ColorsData" },
    { type := "attribute_layers_custom", name := "CustomData" }]

/-- Nodes/Node.py 7-16. -/
def nodeDescription : Entity where
  name := "Node"
  dependencies := [{ name := "DataValuePointers", includeInHeader := true }]
  vars := [{ type := "string", name := "Name" }, { type := "fvec3", name := "Translation" }, { type := "fvec3", name := "Rotation" },
    { type := "fvec3", name := "Scale" }]

/-- Nodes/NodeGeometry.py 7-12. -/
def nodeGeometryDescription : Entity where
  name := "NodeGeometry"
  vars := [{ type := "package_ref", name := "Geometry" }]

/-- Scene/Scene.py 7-15. -/
def sceneDescription : Entity where
  name := "Scene"
  dependencies := [{ name := "EntityTable", includeInHeader := true }, { name := "SceneLayer", includeInHeader := true }]
  templates := [{ name := "scene_layers", template := "EntityTable", types := ["package_ref", "SceneLayer"] }]
  vars := [{ type := "scene_layers", name := "Layers" }]

/-- Scene/SceneLayer.py 7-22. -/
def sceneLayerDescription : Entity where
  name := "SceneLayer"
  dependencies := [{ name := "DirectedGraph", includeInHeader := true }, { name := "EntityTable", includeInHeader := true },
    { name := "Node", includeInHeader := true }, { name := "NodeGeometry", includeInHeader := true }]
  templates := [{ name := "scene_graph", template := "DirectedGraph", types := ["entity_ref"], flags := ["Acyclic", "Rooted"] },
    { name := "nodes", template := "EntityTable", types := ["entity_ref", "Node"] },
    { name := "node_geometries", template := "EntityTable", types := ["entity_ref", "NodeGeometry"] }]
  vars := [{ type := "string", name := "Name" }, { type := "scene_graph", name := "Graph" }, { type := "nodes", name := "Nodes" },
    { type := "node_geometries", name := "Geometries" }]

/-- Testing/TestEntity.py 7-14. -/
def testEntityDescription : Entity where
  name := "TestEntity"
  vars := [{ type := "string", name := "Name" }, { type := "string", name := "OptionalText", optional := true }]

end ISD.Generator
