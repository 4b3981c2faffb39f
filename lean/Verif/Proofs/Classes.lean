import Verif.Proofs.ManagedEntity
import Verif.Spec.Entities

/-! # Every managed class is lawful; consequences -/

namespace ISD

mutual
  theorem IsClass.lawful : ∀ {V : Type} {M : Managed V} {S : ClassSpec V}, IsClass M S → Lawful M S
    | _, _, _, @IsClass.graph _ _ st h a r s => graph_lawful st h a r s
    | _, _, _, .idx t h => idx_lawful t h
    | _, _, _, .varying => varying_lawful
    | _, _, _, @IsClass.table _ _ _ st h _ _ hM zk ne ord => table_lawful hM.lawful st h zk ne ord
    | _, _, _, .entity ss h hne => entity_lawful h.good hne
  theorem AreFields.good : ∀ {fs : List Field} {ss : FieldSpecs fs}, AreFields ss → ss.Good
    | _, _, .nil => .nil
    | _, _, .base hk ht h => .base hk ht h.good
    | _, _, .sub hk hM h => .sub hk hM.lawful h.good
end

section lawful

variable {V : Type} {M : Managed V} {S : ClassSpec V}

theorem exact_comp_le (R : BaseRel) : (BaseRel.exact.comp R).Le R :=
  ⟨fun _ _ _ ⟨_, h1, h2⟩ => h1 ▸ h2, fun h => h.2⟩

theorem comp_exact_le (R : BaseRel) : (R.comp .exact).Le R :=
  ⟨fun _ _ _ ⟨_, h1, h2⟩ => h2 ▸ h1, fun h => h.1⟩

theorem exact_flip : BaseRel.exact.flip.Le .exact := ⟨fun _ _ _ h => h.symm, id⟩

theorem Lawful.exact_symm (hM : Lawful M S) {a b : V} (h : S.rel .exact a b) : S.rel .exact b a := hM.rel_mono exact_flip (hM.rel_flip h)

theorem Lawful.exact_trans (hM : Lawful M S) {R : BaseRel} {a b c : V} (h1 : S.rel .exact a b) (h2 : S.rel R b c) : S.rel R a c :=
  hM.rel_mono (exact_comp_le R) (hM.rel_comp h1 h2)

theorem Lawful.trans_exact (hM : Lawful M S) {R : BaseRel} {a b c : V} (h1 : S.rel R a b) (h2 : S.rel .exact b c) : S.rel R a c :=
  hM.rel_mono (comp_exact_le R) (hM.rel_comp h1 h2)

/-- An object with the same contents compares equal exactly when the contents compare equal to themselves. -/
theorem Lawful.equals_copy (hM : Lawful M S) {a b : V} (ha : S.wf a) (hb : S.wf b) (h : S.rel .exact a b) :
    M.equals a b = some true ↔ S.rel .cpp b b := by
  obtain ⟨r, e, hr⟩ := hM.equals_ok a b ha hb
  rw [e, Option.some.injEq, hr]
  exact ⟨fun h' => hM.exact_trans (hM.exact_symm h) h', fun h' => hM.exact_trans h h'⟩

theorem Lawful.roundTrips (hM : Lawful M S) {v : V} (hw : S.wf v) (hs : S.rel .storable v v) : RoundTrips M S v S.destOk := by
  intro w hww s hss fresh hsz
  have hl := hss.good.content_len
  obtain ⟨s', e, h⟩ := hM.write_ok v hw hs fresh s.flip w s s.content hww hss.at (by omega)
  refine ⟨s', _, e, h.ready, h.flip, h.content, fun env fresh' r post dest he hr hsm hwd hdo => ?_⟩
  obtain ⟨v', hc, hw', hrel⟩ := hM.read_ok v dest hw hs hwd hdo env fresh' s.flip he
  have hh : Has (s'.content ++ post) s.content.length ((S.nodes v).bytes s.flip) := by rw [h.content]; exact Has.mid _ _ _
  refine ⟨v', ?_, hw', hrel, hM.equals_copy hw' hw hrel⟩
  rw [hc r _ _ hr hsm hh, h.content, List.length_append]

end lawful

/-! ## Equality of base values -/

theorem ieeeEq_symm {e m a b : Nat} (h : ieeeEq e m a b = true) : ieeeEq e m b a = true := by
  simp only [ieeeEq, Bool.and_eq_true, Bool.or_eq_true, beq_iff_eq] at h ⊢
  obtain ⟨⟨h1, h2⟩, h3⟩ := h
  exact ⟨⟨h2, h1⟩, h3.elim (fun h => .inl h.symm) fun h => .inr ⟨h.2, h.1⟩⟩

theorem ieeeEq_trans {e m a b c : Nat} (h : ieeeEq e m a b = true) (h' : ieeeEq e m b c = true) : ieeeEq e m a c = true := by
  simp only [ieeeEq, Bool.and_eq_true, Bool.or_eq_true, beq_iff_eq] at h h' ⊢
  obtain ⟨⟨h1, h2⟩, h3⟩ := h
  obtain ⟨⟨_, h5⟩, h6⟩ := h'
  refine ⟨⟨h1, h5⟩, ?_⟩
  rcases h3 with rfl | h3
  · exact h6
  · rcases h6 with rfl | h6
    · exact .inr h3
    · exact .inr ⟨h3.1, h6.2⟩

theorem sc_symm {fl : Bool} {sc : Sc} {a b : sc.Val} (h : Sc.equal fl sc a b = true) : Sc.equal fl sc b a = true := by
  cases sc with
  | w1 => exact (beq_iff_eq.mpr (beq_iff_eq.mp h).symm)
  | w2 => exact (beq_iff_eq.mpr (beq_iff_eq.mp h).symm)
  | w4 =>
    cases fl
    · exact (beq_iff_eq.mpr (beq_iff_eq.mp h).symm)
    · exact ieeeEq_symm h
  | w8 =>
    cases fl
    · exact (beq_iff_eq.mpr (beq_iff_eq.mp h).symm)
    · exact ieeeEq_symm h
  | uuid => exact (UUID.equal_iff b a).mpr ((UUID.equal_iff a b).mp h).symm
  | hash => exact (Hash.equal_iff b a).mpr ((Hash.equal_iff a b).mp h).symm

theorem sc_trans {fl : Bool} {sc : Sc} {a b c : sc.Val} (h : Sc.equal fl sc a b = true) (h' : Sc.equal fl sc b c = true) :
    Sc.equal fl sc a c = true := by
  cases sc with
  | w1 => exact (beq_iff_eq.mpr ((beq_iff_eq.mp h).trans (beq_iff_eq.mp h')))
  | w2 => exact (beq_iff_eq.mpr ((beq_iff_eq.mp h).trans (beq_iff_eq.mp h')))
  | w4 =>
    cases fl
    · exact (beq_iff_eq.mpr ((beq_iff_eq.mp h).trans (beq_iff_eq.mp h')))
    · exact ieeeEq_trans h h'
  | w8 =>
    cases fl
    · exact (beq_iff_eq.mpr ((beq_iff_eq.mp h).trans (beq_iff_eq.mp h')))
    · exact ieeeEq_trans h h'
  | uuid => exact (UUID.equal_iff a c).mpr (((UUID.equal_iff a b).mp h).trans ((UUID.equal_iff b c).mp h'))
  | hash => exact (Hash.equal_iff a c).mpr (((Hash.equal_iff a b).mp h).trans ((Hash.equal_iff b c).mp h'))

theorem zipAll_iff {α : Type} {n : Nat} (eq : α → α → Bool) (a b : Vector α n) :
    ((a.toList.zip b.toList).all fun p => eq p.1 p.2) = true ↔ ∀ i (h : i < n), eq a[i] b[i] = true := by
  rw [List.all_eq_true]
  constructor
  · intro h i hi
    have := h (a[i], b[i]) (List.mem_iff_getElem.mpr ⟨i, by simpa using hi, by simp⟩)
    exact this
  · intro h p hp
    obtain ⟨i, hi, rfl⟩ := List.mem_iff_getElem.mp hp
    have hi' : i < n := by simpa using hi
    simpa using h i hi'

theorem kind_symm : {k : Kind} → {a b : k.Val} → DataType.equal.go k a b = true → DataType.equal.go k b a = true
  | .bool, _, _, h => beq_iff_eq.mpr (beq_iff_eq.mp h).symm
  | .string, _, _, h => beq_iff_eq.mpr (beq_iff_eq.mp h).symm
  | .items _ _ _, _, _, h => (zipAll_iff _ _ _).mpr fun i hi => sc_symm ((zipAll_iff _ _ _).mp h i hi)

theorem kind_trans : {k : Kind} → {a b c : k.Val} → DataType.equal.go k a b = true → DataType.equal.go k b c = true →
    DataType.equal.go k a c = true
  | .bool, _, _, _, h, h' => beq_iff_eq.mpr ((beq_iff_eq.mp h).trans (beq_iff_eq.mp h'))
  | .string, _, _, _, h, h' => beq_iff_eq.mpr ((beq_iff_eq.mp h).trans (beq_iff_eq.mp h'))
  | .items _ _ _, _, _, _, h, h' => (zipAll_iff _ _ _).mpr fun i hi =>
      sc_trans ((zipAll_iff _ _ _).mp h i hi) ((zipAll_iff _ _ _).mp h' i hi)

theorem cpp_flip : BaseRel.cpp.flip.Le .cpp := ⟨fun _ _ _ h => kind_symm h, id⟩

theorem cpp_comp : (BaseRel.cpp.comp .cpp).Le .cpp := ⟨fun _ _ _ ⟨_, h, h'⟩ => kind_trans h h', fun h => h.1⟩

/-- The scalars of the type are not floating point numbers. -/
def DataType.NoFloats (t : DataType) : Prop := ∀ sc n, t.kind ≠ .items sc n true

theorem sc_equal_iff {sc : Sc} {a b : sc.Val} : Sc.equal false sc a b = true ↔ a = b := by
  cases sc with
  | w1 => exact beq_iff_eq
  | w2 => exact beq_iff_eq
  | w4 => exact beq_iff_eq
  | w8 => exact beq_iff_eq
  | uuid => exact UUID.equal_iff a b
  | hash => exact Hash.equal_iff a b

theorem equal_iff_eq (t : DataType) (h : t.NoFloats) (a b : t.Val) : t.equal a b = true ↔ a = b := by
  obtain ⟨nm, vt, avt, kind, ov⟩ := t
  cases kind with
  | bool => exact beq_iff_eq
  | string => exact beq_iff_eq
  | items sc n fl =>
    cases fl with
    | true => exact absurd rfl (h sc n)
    | false =>
      refine (zipAll_iff _ _ _).trans ⟨fun h => Vector.ext fun i hi => sc_equal_iff.mp (h i hi), fun h i hi => ?_⟩
      have h' : (a : Vector sc.Val n) = b := h
      rw [h']
      exact sc_equal_iff.mpr rfl

/-! ## The entities of the repository -/

theorem string_mem : stringTy ∈ allTypes := by decide +kernel
theorem fvec2_mem : fvec2Type ∈ allTypes := by decide +kernel
theorem fvec3_mem : fvec3Type ∈ allTypes := by decide +kernel
theorem fvec4_mem : fvec4Type ∈ allTypes := by decide +kernel
theorem entityRef_good : entityRefStored.Good := ⟨by decide +kernel, fun _ => rfl⟩
theorem packageRef_good : packageRefStored.Good := ⟨by decide +kernel, fun _ => rfl⟩

theorem attributeLayer_isClass : IsClass (entityMF attributeLayerFields) (entitySpec attributeLayerSpecs) :=
  .entity _ (.base (by decide) string_mem .nil) (by simp [attributeLayerFields])

theorem node_isClass : IsClass (entityMF nodeFields) (entitySpec nodeSpecs) :=
  .entity _ (.base (by decide) string_mem (.base (by decide) fvec3_mem (.base (by decide) fvec3_mem (.base (by decide) fvec3_mem .nil))))
    (by simp [nodeFields])

theorem nodeGeometry_isClass : IsClass (entityMF nodeGeometryFields) (entitySpec nodeGeometrySpecs) :=
  .entity _ (.base (by decide) packageRef_good.mem .nil) (by simp [nodeGeometryFields])

theorem testEntity_isClass : IsClass (entityMF testEntityFields) (entitySpec testEntitySpecs) :=
  .entity _ (.base (by decide) string_mem (.base (by decide) string_mem .nil)) (by simp [testEntityFields])

section tables

variable (oLayers : TableOrder (EntityRef × Option AttributeLayer)) (oV2 : TableOrder (EntityRef × Option (IdxVec fvec2Type.Val)))
  (oTan oBit oNrm : TableOrder (EntityRef × Option (IdxVec fvec3Type.Val))) (oV4 : TableOrder (EntityRef × Option (IdxVec fvec4Type.Val)))
  (oVar : TableOrder (EntityRef × Option Varying)) (oNodes : TableOrder (EntityRef × Option NodeEnt))
  (oGeo : TableOrder (EntityRef × Option NodeGeometry))

theorem sceneLayer_isClass : IsClass (entityMF (sceneLayerFields oNodes oGeo)) (entitySpec (sceneLayerSpecs oNodes oGeo)) :=
  .entity _ (.base (by decide) string_mem (.sub (by decide) (.graph _ entityRef_good _ _ _)
    (.sub (by decide) (.table _ entityRef_good node_isClass _ _ _)
      (.sub (by decide) (.table _ entityRef_good nodeGeometry_isClass _ _ _) .nil)))) (by simp [sceneLayerFields])

theorem scene_isClass (oScene : TableOrder (PackageRef × Option (SceneLayer oNodes oGeo))) :
    IsClass (entityMF (sceneFields oNodes oGeo oScene)) (entitySpec (sceneSpecs oNodes oGeo oScene)) :=
  .entity _ (.sub (by decide) (.table _ packageRef_good (sceneLayer_isClass oNodes oGeo) _ _ _) .nil) (by simp [sceneFields])

theorem mesh_isClass : IsClass (entityMF (meshFields oLayers oV2 oTan oBit oNrm oV4 oVar)) (entitySpec (meshSpecs oLayers oV2 oTan oBit oNrm oV4 oVar)) :=
  .entity _ (.sub (by decide) (.table _ entityRef_good attributeLayer_isClass _ _ _)
    (.sub (by decide) (.table _ entityRef_good (.idx _ fvec2_mem) _ _ _)
      (.sub (by decide) (.table _ entityRef_good (.idx _ fvec3_mem) _ _ _)
        (.sub (by decide) (.table _ entityRef_good (.idx _ fvec3_mem) _ _ _)
          (.sub (by decide) (.table _ entityRef_good (.idx _ fvec3_mem) _ _ _)
            (.sub (by decide) (.table _ entityRef_good (.idx _ fvec4_mem) _ _ _)
              (.sub (by decide) (.table _ entityRef_good .varying _ _ _) .nil))))))) (by simp [meshFields])

end tables

end ISD
