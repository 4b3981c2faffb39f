import Verif.Model.Descriptions
import Verif.Proofs.CppClass
import Verif.Props.InPlace

/-!
# C89: the generated code does what the description of the entity says
-/

namespace ISD
open Generator

/-- The text of the header file is the one of the model, and so is that of the source file. -/
theorem Generator.Entity.Valid.textOk {e : Entity} (h : e.Valid) : Cpp.TextOk e where
  name := h.name.plain
  deps := h.dependencies
  vars v hv := ⟨(h.vars v hv).1.plain, (h.vars v hv).2, h.indexed v hv, h.managed v hv⟩
  templates t ht :=
    have ⟨h1, h2, h3, h4, h5, h6⟩ := h.templates t ht
    ⟨h1.plain, h2, h4, h5, h3, h6⟩

/-- **C89.** For every valid description and all classes that its templates stand for: the header file and the source file that the generator
writes, compiled, are the class with the variables of the description, in order, under their names, whose managing functions do to each
variable what they have to do. -/
theorem C89_generated_class {T : Cpp.Templates} {e : Entity} (h : e.Valid) {fs : List Field} (hf : fieldsOf T e.templates e.vars = some fs) :
    Cpp.compile T (text (createEntityHeader e)) (text (createEntitySource e)) = some ⟨FieldsVal fs, (entityMF fs).toClass⟩ :=
  Cpp.compile_generated h.textOk (fun t ht => (h.templates t ht).1.base) h.distinct hf

/-- The variables of a description, if the templates stand for managed classes. -/
theorem Generator.fieldsOf_areFields {T : Cpp.Templates} (hT : ∀ n u V M, T n u = some ⟨V, M⟩ → ∃ S, IsClass M S) (ts : List Template)
    (vs : List Var) (hk : ∀ v ∈ vs, v.name.length ≤ 40) (fs : List Field) (h : fieldsOf T ts vs = some fs) :
    fs.length = vs.length ∧ ∃ ss : FieldSpecs fs, AreFields ss := by
  induction vs generalizing fs with
  | nil =>
    cases h
    exact ⟨rfl, .nil, .nil⟩
  | cons v vs ih =>
    rw [fieldsOf] at h
    cases hf : fieldOf T ts v with
    | none => rw [hf] at h; exact nomatch h
    | some f =>
      cases hfs : fieldsOf T ts vs with
      | none => rw [hf, hfs] at h; exact nomatch h
      | some fs' =>
        rw [hf, hfs] at h
        cases h
        obtain ⟨hl, ss, hss⟩ := ih (fun v hv => hk v (List.mem_cons_of_mem _ hv)) fs' hfs
        have hk1 : (key v.name).length ≤ 40 := by
          rw [key, List.length_map]
          exact hk v (List.mem_cons_self ..)
        refine ⟨by rw [List.length_cons, List.length_cons, hl], ?_⟩
        rw [fieldOf] at hf
        cases hb : allTypes.find? fun t => t.name == v.type with
        | some t =>
          rw [hb] at hf
          cases hf
          exact ⟨.base _ _ _ ss, .base hk1 (List.mem_of_find?_eq_some hb) hss⟩
        | none =>
          rw [hb] at hf
          cases htm : ts.find? fun t => t.name == v.type with
          | none => rw [htm] at hf; exact nomatch hf
          | some tm =>
            rw [htm] at hf
            cases hTu : T v.name.toList tm.use with
            | none => simp only [hTu] at hf; exact nomatch hf
            | some x =>
              obtain ⟨V, M⟩ := x
              simp only [hTu] at hf
              cases hf
              obtain ⟨S, hS⟩ := hT _ _ _ _ hTu
              exact ⟨.sub _ M S ss, .sub hk1 hS hss⟩

/-- **C89, with the other properties.** If the templates stand for classes of the library, the compiled class is one of the classes for which
the properties of managed classes are proved. -/
theorem C89_generated_is_class {T : Cpp.Templates} (hT : ∀ n u V M, T n u = some ⟨V, M⟩ → ∃ S, IsClass M S) {e : Entity} (h : e.Valid)
    (hk : ∀ v ∈ e.vars, v.name.length ≤ 40) (hne : e.vars ≠ []) {fs : List Field} (hf : fieldsOf T e.templates e.vars = some fs) :
    ∃ (V : Type) (M : Managed V) (S : ClassSpec V), IsClass M S ∧
      Cpp.compile T (text (createEntityHeader e)) (text (createEntitySource e)) = some ⟨V, M.toClass⟩ := by
  obtain ⟨hl, ss, hss⟩ := fieldsOf_areFields hT e.templates e.vars hk fs hf
  refine ⟨FieldsVal fs, entityMF fs, entitySpec ss, .entity ss hss ?_, C89_generated_class h hf⟩
  rintro rfl
  cases hv : e.vars with
  | nil => exact hne hv
  | cons v vs => rw [hv] at hl; exact nomatch hl

/-- **C89, end to end.** An object of the compiled class that can be stored is written by its `Write`, behind anything; its `Read`, on a new
object, gives an object with the same contents, and stops behind what was written; and `==` says that the two are equal (unless there are NaNs
in them). -/
theorem C89_generated_round_trip {T : Cpp.Templates} (hT : ∀ n u V M, T n u = some ⟨V, M⟩ → ∃ S, IsClass M S) {e : Entity} (h : e.Valid)
    (hk : ∀ v ∈ e.vars, v.name.length ≤ 40) (hne : e.vars ≠ []) {fs : List Field} (hf : fieldsOf T e.templates e.vars = some fs) :
    ∃ (V : Type) (c : Cpp.Class V) (S : ClassSpec V),
      Cpp.compile T (text (createEntityHeader e)) (text (createEntitySource e)) = some ⟨V, c⟩ ∧ S.wf c.init ∧
      ∀ v, S.wf v → S.rel .storable v v → ∀ (w : EWriter) (_ : w.Idle) (s : WStream) (_ : Ready s) (fresh : Bytes → Nat)
        (_ : s.dataSize + ((S.nodes v).bytes s.flip).length < 2 ^ 60),
        ∃ s' block, c.write fresh v (w, s) = .ok true (w, s') ∧ s'.content = s.content ++ block ∧
          ∀ (L : Leftover) (env : REnv) (fresh' : Bytes → Nat) (r : EReader) (post : Bytes), (∀ n, env.allocOk n = true) → r.Idle →
            (s'.content ++ post).length < 2 ^ 60 →
            ∃ v', c.read L env fresh' ((r, ⟨s'.content ++ post, s.content.length, s.flip⟩), c.init) =
                .ok true ((r, ⟨s'.content ++ post, s'.content.length, s.flip⟩), v') ∧
              S.wf v' ∧ S.rel .exact v' v ∧ (c.eq false v' v = some true ↔ S.rel .cpp v v) := by
  obtain ⟨V, M, S, hM, hc⟩ := C89_generated_is_class hT h hk hne hf
  refine ⟨V, M.toClass, S, hc, hM.lawful.init_wf, ?_⟩
  intro v hw hs w hi s hr fresh hz
  obtain ⟨s', block, h1, h2, h3, h4, h5⟩ := C41_classes_round_trip hM v hw hs w hi s hr fresh hz
  refine ⟨s', block, h1, h4, ?_⟩
  intro L env fresh' r post he hri hsz
  obtain ⟨v', e1, h6, h7, h8⟩ := h5 env fresh' r post M.init he hri hsz hM.lawful.init_wf hM.lawful.init_dest
  refine ⟨v', ?_, h6, h7, h8⟩
  have := C63_same_read hM L env fresh' M.init hM.lawful.init_wf (r, ⟨s'.content ++ post, s.content.length, s.flip⟩)
  show M.readInPlace L env fresh' ((r, ⟨s'.content ++ post, s.content.length, s.flip⟩), M.init) = _
  revert this
  match M.readInPlace L env fresh' ((r, ⟨s'.content ++ post, s.content.length, s.flip⟩), M.init) with
  | .ok true (st', w) =>
    intro h
    rw [e1] at h
    cases h
    rfl
  | .ok false (st', w) => intro h; rw [e1] at h; cases h
  | .throw (st', w) => intro h; rw [e1] at h; cases h
  | .ub => intro h; rw [e1] at h; cases h

/-! ## The repository -/

section
variable (oLayers : TableOrder (EntityRef × Option AttributeLayer)) (oV2 : TableOrder (EntityRef × Option (IdxVec fvec2Type.Val)))
  (oTan oBit oNrm : TableOrder (EntityRef × Option (IdxVec fvec3Type.Val))) (oV4 : TableOrder (EntityRef × Option (IdxVec fvec4Type.Val)))
  (oVar : TableOrder (EntityRef × Option Varying))
  (oNodes : TableOrder (EntityRef × Option NodeEnt)) (oGeo : TableOrder (EntityRef × Option NodeGeometry))
  (oScene : TableOrder (PackageRef × Option (SceneLayer oNodes oGeo)))

/-- What the templates of the repository stand for. The flags of `EntityTable` are left out there; they are 0 then (ISD_EntityTable.h). -/
def libraryTemplates : Cpp.Templates := fun n u =>
  if u = ⟨"EntityTable".toList, ["entity_ref".toList, "AttributeLayer".toList], []⟩ then
    some ⟨_, tableMF entityRefStored (entityMF attributeLayerFields) false false oLayers⟩
  else if u = ⟨"EntityTable".toList, ["entity_ref".toList, "IndexedVector<fvec2>".toList], []⟩ then
    some ⟨_, tableMF entityRefStored (idxMF fvec2Type) false false oV2⟩
  else if u = ⟨"EntityTable".toList, ["entity_ref".toList, "IndexedVector<fvec3>".toList], []⟩ then
    some ⟨_, tableMF entityRefStored (idxMF fvec3Type) false false
      (if n = "TangentsData".toList then oTan else if n = "BitangentsData".toList then oBit else oNrm)⟩
  else if u = ⟨"EntityTable".toList, ["entity_ref".toList, "IndexedVector<fvec4>".toList], []⟩ then
    some ⟨_, tableMF entityRefStored (idxMF fvec4Type) false false oV4⟩
  else if u = ⟨"EntityTable".toList, ["entity_ref".toList, "Varying".toList], []⟩ then
    some ⟨_, tableMF entityRefStored varyingMF false false oVar⟩
  else if u = ⟨"DirectedGraph".toList, ["entity_ref".toList], ["Acyclic".toList, "Rooted".toList]⟩ then
    some ⟨_, graphMF entityRefStored true true false⟩
  else if u = ⟨"EntityTable".toList, ["entity_ref".toList, "Node".toList], []⟩ then
    some ⟨_, tableMF entityRefStored (entityMF nodeFields) false false oNodes⟩
  else if u = ⟨"EntityTable".toList, ["entity_ref".toList, "NodeGeometry".toList], []⟩ then
    some ⟨_, tableMF entityRefStored (entityMF nodeGeometryFields) false false oGeo⟩
  else if u = ⟨"EntityTable".toList, ["package_ref".toList, "SceneLayer".toList], []⟩ then
    some ⟨_, tableMF packageRefStored (entityMF (sceneLayerFields oNodes oGeo)) false false oScene⟩
  else none

theorem fields_attributeLayer (T : Cpp.Templates) : fieldsOf T attributeLayerDescription.templates attributeLayerDescription.vars = some attributeLayerFields := by rfl
theorem fields_node (T : Cpp.Templates) : fieldsOf T nodeDescription.templates nodeDescription.vars = some nodeFields := by rfl
theorem fields_nodeGeometry (T : Cpp.Templates) : fieldsOf T nodeGeometryDescription.templates nodeGeometryDescription.vars = some nodeGeometryFields := by rfl
theorem fields_testEntity (T : Cpp.Templates) : fieldsOf T testEntityDescription.templates testEntityDescription.vars = some testEntityFields := by rfl
theorem fields_sceneLayer : fieldsOf (libraryTemplates oLayers oV2 oTan oBit oNrm oV4 oVar oNodes oGeo oScene) sceneLayerDescription.templates
  sceneLayerDescription.vars = some (sceneLayerFields oNodes oGeo) := by rfl
theorem fields_scene : fieldsOf (libraryTemplates oLayers oV2 oTan oBit oNrm oV4 oVar oNodes oGeo oScene) sceneDescription.templates
  sceneDescription.vars = some (sceneFields oNodes oGeo oScene) := by rfl
theorem fields_mesh : fieldsOf (libraryTemplates oLayers oV2 oTan oBit oNrm oV4 oVar oNodes oGeo oScene) meshDescription.templates
  meshDescription.vars = some (meshFields oLayers oV2 oTan oBit oNrm oV4 oVar) := by rfl

theorem libraryTemplates_classes (n : Cpp.Name) (u : Cpp.Use) (V : Type) (M : Managed V)
    (h : libraryTemplates oLayers oV2 oTan oBit oNrm oV4 oVar oNodes oGeo oScene n u = some ⟨V, M⟩) : ∃ S, IsClass M S := by
  unfold libraryTemplates at h
  have fvec2 : fvec2Type ∈ allTypes := List.mem_of_find?_eq_some (show getBaseType "fvec2" = some fvec2Type from rfl)
  have fvec3 : fvec3Type ∈ allTypes := List.mem_of_find?_eq_some (show getBaseType "fvec3" = some fvec3Type from rfl)
  have fvec4 : fvec4Type ∈ allTypes := List.mem_of_find?_eq_some (show getBaseType "fvec4" = some fvec4Type from rfl)
  iterate 9
    first
    | (split at h; · cases h; first
        | exact ⟨_, .table _ entityRef_good attributeLayer_isClass _ _ _⟩
        | exact ⟨_, .table _ entityRef_good (.idx _ fvec2) _ _ _⟩
        | exact ⟨_, .table _ entityRef_good (.idx _ fvec3) _ _ _⟩
        | exact ⟨_, .table _ entityRef_good (.idx _ fvec4) _ _ _⟩
        | exact ⟨_, .table _ entityRef_good .varying _ _ _⟩
        | exact ⟨_, .graph _ entityRef_good _ _ _⟩
        | exact ⟨_, .table _ entityRef_good node_isClass _ _ _⟩
        | exact ⟨_, .table _ entityRef_good nodeGeometry_isClass _ _ _⟩
        | exact ⟨_, .table _ packageRef_good (sceneLayer_isClass oNodes oGeo) _ _ _⟩)
  exact nomatch h

end

instance (s : String) : Decidable (Cpp.Plain s) :=
  decidable_of_iff (s.toList ≠ [] ∧ (∀ c ∈ s.toList, Cpp.isId c) ∧ Cpp.word s.toList = .id s.toList)
    ⟨fun h => ⟨h.1, h.2.1, h.2.2⟩, fun h => ⟨h.nonempty, h.chars, h.word⟩⟩

instance (s : String) : Decidable (NewName s) :=
  decidable_of_iff (Cpp.Plain s ∧ s.toList.head?.all (fun c => c.isDigit == false) ∧ s ∉ keywords ∧ s ∉ builtinTypes ∧ (getBaseType s).isNone)
    ⟨fun h => ⟨h.1, fun c hc => by
        have := h.2.1
        rw [Option.mem_def.1 hc] at this
        exact eq_of_beq this, h.2.2.1, h.2.2.2.1, Option.isNone_iff_eq_none.1 h.2.2.2.2⟩,
      fun h => ⟨h.plain, by
        have := h.digit
        cases hh : s.toList.head? with
        | none => rfl
        | some c => exact beq_of_eq (this c (by rw [hh]; rfl)), h.keyword, h.builtin, Option.isNone_iff_eq_none.2 h.base⟩⟩

theorem valid_attributeLayer : attributeLayerDescription.Valid where
  name := by decide +kernel
  dependencies := by decide +kernel
  templates := fun _ h => nomatch h
  vars := by decide +kernel
  indexed := by decide +kernel
  managed := by decide +kernel
  distinct := by decide +kernel

theorem valid_mesh : meshDescription.Valid where
  name := by decide +kernel
  dependencies := by decide +kernel
  templates := by
    have hi : ∀ a, Cpp.Plain a → TypeArgument ("IndexedVector" ++ "<" ++ a ++ ">") := fun a ha => .inr ⟨_, a, by decide +kernel, ha, rfl⟩
    intro t ht
    simp only [meshDescription, List.mem_cons, List.not_mem_nil, or_false] at ht
    rcases ht with rfl | rfl | rfl | rfl | rfl <;>
      refine ⟨by decide +kernel, by decide +kernel, by decide +kernel, by decide +kernel, ?_, fun _ h => nomatch h⟩ <;>
      intro x hx <;> simp only [List.mem_cons, List.not_mem_nil, or_false] at hx <;> rcases hx with rfl | rfl
    · exact .inl (by decide +kernel)
    · exact .inl (by decide +kernel)
    · exact .inl (by decide +kernel)
    · exact hi "fvec2" (by decide +kernel)
    · exact .inl (by decide +kernel)
    · exact hi "fvec3" (by decide +kernel)
    · exact .inl (by decide +kernel)
    · exact hi "fvec4" (by decide +kernel)
    · exact .inl (by decide +kernel)
    · exact .inl (by decide +kernel)
  vars := by decide +kernel
  indexed := by decide +kernel
  managed := by decide +kernel
  distinct := by decide +kernel

theorem valid_node : nodeDescription.Valid where
  name := by decide +kernel
  dependencies := by decide +kernel
  templates := fun _ h => nomatch h
  vars := by decide +kernel
  indexed := by decide +kernel
  managed := by decide +kernel
  distinct := by decide +kernel

theorem valid_nodeGeometry : nodeGeometryDescription.Valid where
  name := by decide +kernel
  dependencies := by decide +kernel
  templates := fun _ h => nomatch h
  vars := by decide +kernel
  indexed := by decide +kernel
  managed := by decide +kernel
  distinct := by decide +kernel

theorem valid_testEntity : testEntityDescription.Valid where
  name := by decide +kernel
  dependencies := by decide +kernel
  templates := fun _ h => nomatch h
  vars := by decide +kernel
  indexed := by decide +kernel
  managed := by decide +kernel
  distinct := by decide +kernel

theorem valid_sceneLayer : sceneLayerDescription.Valid where
  name := by decide +kernel
  dependencies := by decide +kernel
  templates := by
    intro t ht
    simp only [sceneLayerDescription, List.mem_cons, List.not_mem_nil, or_false] at ht
    rcases ht with rfl | rfl | rfl <;>
      exact ⟨by decide +kernel, by decide +kernel, by decide +kernel, by decide +kernel, fun x hx => .inl ((by decide +kernel : ∀ x ∈ _, Cpp.Plain x) x hx),
        by decide +kernel⟩
  vars := by decide +kernel
  indexed := by decide +kernel
  managed := by decide +kernel
  distinct := by decide +kernel

theorem valid_scene : sceneDescription.Valid where
  name := by decide +kernel
  dependencies := by decide +kernel
  templates := by
    intro t ht
    simp only [sceneDescription, List.mem_cons, List.not_mem_nil, or_false] at ht
    subst ht
    exact ⟨by decide +kernel, by decide +kernel, by decide +kernel, by decide +kernel, fun x hx => .inl ((by decide +kernel : ∀ x ∈ _, Cpp.Plain x) x hx),
        by decide +kernel⟩
  vars := by decide +kernel
  indexed := by decide +kernel
  managed := by decide +kernel
  distinct := by decide +kernel


/-- **C89, the repository.** For each of the entities that are described in the repository, and all orders in which tables can list their
elements: the generated files are the class that the other properties speak about. -/
theorem C89_repository (oLayers : TableOrder (EntityRef × Option AttributeLayer)) (oV2 : TableOrder (EntityRef × Option (IdxVec fvec2Type.Val)))
    (oTan oBit oNrm : TableOrder (EntityRef × Option (IdxVec fvec3Type.Val))) (oV4 : TableOrder (EntityRef × Option (IdxVec fvec4Type.Val)))
    (oVar : TableOrder (EntityRef × Option Varying)) (oNodes : TableOrder (EntityRef × Option NodeEnt))
    (oGeo : TableOrder (EntityRef × Option NodeGeometry)) (oScene : TableOrder (PackageRef × Option (SceneLayer oNodes oGeo))) :
    let T := libraryTemplates oLayers oV2 oTan oBit oNrm oV4 oVar oNodes oGeo oScene
    let class_ := fun e : Entity => Cpp.compile T (text (createEntityHeader e)) (text (createEntitySource e))
    class_ attributeLayerDescription = some ⟨_, (entityMF attributeLayerFields).toClass⟩ ∧
    class_ meshDescription = some ⟨_, (entityMF (meshFields oLayers oV2 oTan oBit oNrm oV4 oVar)).toClass⟩ ∧
    class_ nodeDescription = some ⟨_, (entityMF nodeFields).toClass⟩ ∧
    class_ nodeGeometryDescription = some ⟨_, (entityMF nodeGeometryFields).toClass⟩ ∧
    class_ sceneDescription = some ⟨_, (entityMF (sceneFields oNodes oGeo oScene)).toClass⟩ ∧
    class_ sceneLayerDescription = some ⟨_, (entityMF (sceneLayerFields oNodes oGeo)).toClass⟩ ∧
    class_ testEntityDescription = some ⟨_, (entityMF testEntityFields).toClass⟩ :=
  ⟨C89_generated_class valid_attributeLayer (fields_attributeLayer _), C89_generated_class valid_mesh (fields_mesh ..),
    C89_generated_class valid_node (fields_node _), C89_generated_class valid_nodeGeometry (fields_nodeGeometry _),
    C89_generated_class valid_scene (fields_scene ..), C89_generated_class valid_sceneLayer (fields_sceneLayer ..),
    C89_generated_class valid_testEntity (fields_testEntity _)⟩

/-- `C89_generated_round_trip` applies to the layers of a scene: there are templates in their description. -/
example (oLayers : TableOrder (EntityRef × Option AttributeLayer)) (oV2 : TableOrder (EntityRef × Option (IdxVec fvec2Type.Val)))
    (oTan oBit oNrm : TableOrder (EntityRef × Option (IdxVec fvec3Type.Val))) (oV4 : TableOrder (EntityRef × Option (IdxVec fvec4Type.Val)))
    (oVar : TableOrder (EntityRef × Option Varying)) (oNodes : TableOrder (EntityRef × Option NodeEnt))
    (oGeo : TableOrder (EntityRef × Option NodeGeometry)) (oScene : TableOrder (PackageRef × Option (SceneLayer oNodes oGeo))) :=
  C89_generated_round_trip (T := libraryTemplates oLayers oV2 oTan oBit oNrm oV4 oVar oNodes oGeo oScene)
    (fun n u V M h => libraryTemplates_classes _ _ _ _ _ _ _ _ _ _ n u V M h) valid_sceneLayer (by decide +kernel) (fun h => nomatch h) (fields_sceneLayer ..)

/-- A variable that has an index and is no vector. -/
def strayIndex : Entity where
  name := "Stray"
  vars := [{ type := "float", name := "Value", indexed := true }]

/-- An optional variable of a managed class. -/
def optionalManaged : Entity where
  name := "Stray"
  templates := [{ name := "nodes", template := "EntityTable", types := ["entity_ref", "Node"] }]
  vars := [{ type := "nodes", name := "Nodes", optional := true }]

/-- What `Valid` leaves out: for a variable that has an index and is no vector the generator writes a declaration without a container and without
`= {}`, so a new object has no defined value there; and an optional variable of a managed class is declared, but its managing functions are called as
if it were not optional. -/
theorem C89_false_for_stray_flags (T : Cpp.Templates) :
    Cpp.compile T (text (createEntityHeader strayIndex)) (text (createEntitySource strayIndex)) = none ∧
    Cpp.compile T (text (createEntityHeader optionalManaged)) (text (createEntitySource optionalManaged)) = none := by
  constructor
  · have h : Cpp.parseHeader (Cpp.tokens (text (createEntityHeader strayIndex))) =
        some ⟨"Stray".toList, [], [⟨(.none, "float".toList), "Value".toList, false⟩]⟩ := by decide +kernel
    rw [Cpp.compile, h]
    rfl
  · have h : Cpp.parseHeader (Cpp.tokens (text (createEntityHeader optionalManaged))) =
        some ⟨"Stray".toList, [("nodes".toList, ⟨"EntityTable".toList, ["entity_ref".toList, "Node".toList], []⟩)],
          [⟨(.optionalValue, "nodes".toList), "Nodes".toList, false⟩]⟩ := by decide +kernel
    rw [Cpp.compile, h]
    have : Cpp.members T [("nodes".toList, ⟨"EntityTable".toList, ["entity_ref".toList, "Node".toList], []⟩)]
          [⟨(.optionalValue, "nodes".toList), "Nodes".toList, false⟩] = none := by
      simp only [Cpp.members, Cpp.member, List.find?, beq_self_eq_true]
      cases T "Nodes".toList ⟨"EntityTable".toList, ["entity_ref".toList, "Node".toList], []⟩ with
      | none => rfl
      | some x => rfl
    simp only [this]
    rfl
end ISD
