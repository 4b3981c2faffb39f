import Verif.Proofs.HostileEntity
import Verif.Props.SectionEnds

/-!
# C58, C59: reading whole objects from arbitrary bytes
-/

namespace ISD

attribute [local irreducible] dynTable DynClass.all findTypeClass

/-- Reading an object of the class from the bytes `d` ends normally or with an exception without leaving the bounds of any object, whatever
the position, the reader, the (well formed) destination and the allocations that fail; the stream stays on the same bytes with a cursor
between the old position and the end; and if `Read` returns true the object has the invariants of its class (distinct keys in tables, sorted
sets in graphs, type numbers of a Varying that fit its data) and can be written again (every Varying in it is initialised). -/
def ReadsSafely {V : Type} (M : Managed V) (S : ClassSpec V) (d : Bytes) (fl : Bool) : Prop :=
  ∀ (env : REnv) (fresh : Bytes → Nat) (dest : V) (r : EReader) (p : Nat), S.wf dest → p ≤ d.length →
    match M.read env fresh dest (r, ⟨d, p, fl⟩) with
    | .ok res st => (st.2.data = d ∧ st.2.flip = fl ∧ p ≤ st.2.pos ∧ st.2.pos ≤ d.length) ∧
        ∀ v, res = some v → S.wf v ∧ S.rel .storable v v
    | .throw st => st.2.data = d ∧ st.2.flip = fl ∧ p ≤ st.2.pos ∧ st.2.pos ≤ d.length
    | .ub => False

theorem SafeReads.safely {V : Type} {M : Managed V} {S : ClassSpec V} {d : Bytes} {fl : Bool} (h : SafeReads M S d fl) :
    ReadsSafely M S d fl := by
  intro env fresh dest r p hw hp
  have := h env fresh dest hw r p hp
  revert this
  cases M.read env fresh dest (r, ⟨d, p, fl⟩) with
  | ok a st =>
    rintro ⟨p', e, h1, h2, h3⟩
    exact ⟨⟨by rw [e], by rw [e], by rw [e]; exact h1, by rw [e]; exact h2⟩, h3⟩
  | throw st =>
    rintro ⟨p', e, h1, h2⟩
    exact ⟨by rw [e], by rw [e], by rw [e]; exact h1, by rw [e]; exact h2⟩
  | ub => exact id

/-- Single values, and containers of types with one scalar per element (or bools or strings). -/
def Harmless (t : DataType) (c : Container) (_ : Bytes) : Prop :=
  c = .none ∨ c = .optionalValue ∨ ∀ sc n f, t.kind = .items sc n f → n = 1

theorem harmless_counts (d : Bytes) (fl : Bool) : CountsOk Harmless d fl := by
  intro t c k h p _
  refine .inl ?_
  rcases h with h | h | h
  · exact .inl h
  · exact .inr (.inl h)
  · exact .inr (.inr fun sc n f e m _ _ _ _ => by rw [h sc n f e]; exact Nat.one_dvd m)

/-- **C58**: for every class — graph, indexed vector, table of such classes or generated entity — all of whose base values are single values
or containers of types with one scalar per element, reading any bytes is safe. -/
theorem C58_hostile_objects_partial {V : Type} {M : Managed V} {S : ClassSpec V} (h : OnlyReads Harmless M S) (d : Bytes) (hd : d.length < 2 ^ 60)
    (fl : Bool) : ReadsSafely M S d fl := (h.safe hd (harmless_counts d fl)).safely

theorem harmless_single (t : DataType) (k : Bytes) : Harmless t .none k := .inl rfl
theorem harmless_refs (c : Container) (k : Bytes) : Harmless entityRefType c k ∧ Harmless packageRefType c k := by
  constructor
  · refine .inr (.inr fun sc n f e => ?_)
    cases e; rfl
  · refine .inr (.inr fun sc n f e => ?_)
    cases e; rfl

theorem attributeLayer_reads : OnlyReads Harmless (entityMF attributeLayerFields) (entitySpec attributeLayerSpecs) :=
  .entity _ (.base (by decide) string_mem (.inl rfl) .nil)

theorem node_reads : OnlyReads Harmless (entityMF nodeFields) (entitySpec nodeSpecs) :=
  .entity _ (.base (by decide) string_mem (.inl rfl) (.base (by decide) fvec3_mem (.inl rfl) (.base (by decide) fvec3_mem (.inl rfl)
    (.base (by decide) fvec3_mem (.inl rfl) .nil))))

theorem nodeGeometry_reads : OnlyReads Harmless (entityMF nodeGeometryFields) (entitySpec nodeGeometrySpecs) :=
  .entity _ (.base (by decide) packageRef_good.mem (.inl rfl) .nil)

theorem testEntity_reads : OnlyReads Harmless (entityMF testEntityFields) (entitySpec testEntitySpecs) :=
  .entity _ (.base (by decide) string_mem (.inl rfl) (.base (by decide) string_mem (.inr (.inl rfl)) .nil))

section tables

variable (oLayers : TableOrder (EntityRef × Option AttributeLayer)) (oV2 : TableOrder (EntityRef × Option (IdxVec fvec2Type.Val)))
  (oTan oBit oNrm : TableOrder (EntityRef × Option (IdxVec fvec3Type.Val))) (oV4 : TableOrder (EntityRef × Option (IdxVec fvec4Type.Val)))
  (oVar : TableOrder (EntityRef × Option Varying)) (oNodes : TableOrder (EntityRef × Option NodeEnt))
  (oGeo : TableOrder (EntityRef × Option NodeGeometry))

theorem sceneLayer_reads : OnlyReads Harmless (entityMF (sceneLayerFields oNodes oGeo)) (entitySpec (sceneLayerSpecs oNodes oGeo)) :=
  .entity _ (.base (by decide) string_mem (.inl rfl)
    (.sub (by decide) (.graph _ entityRef_good (harmless_refs _ _).1 (harmless_refs _ _).1 _ _ _)
      (.sub (by decide) (.table _ entityRef_good (harmless_refs _ _).1 node_reads _ _ _)
        (.sub (by decide) (.table _ entityRef_good (harmless_refs _ _).1 nodeGeometry_reads _ _ _) .nil))))

theorem scene_reads (oScene : TableOrder (PackageRef × Option (SceneLayer oNodes oGeo))) :
    OnlyReads Harmless (entityMF (sceneFields oNodes oGeo oScene)) (entitySpec (sceneSpecs oNodes oGeo oScene)) :=
  .entity _ (.sub (by decide) (.table _ packageRef_good (harmless_refs _ _).2 (sceneLayer_reads oNodes oGeo) _ _ _) .nil)

/-- **C58** for the entities of the repository without arrays of vectors: any bytes can be read into an `AttributeLayer`, `Node`,
`NodeGeometry`, `TestEntity`, `SceneLayer` or `Scene` safely. -/
theorem C58_repository_entities (oScene : TableOrder (PackageRef × Option (SceneLayer oNodes oGeo))) (d : Bytes) (hd : d.length < 2 ^ 60)
    (fl : Bool) :
    ReadsSafely (entityMF attributeLayerFields) (entitySpec attributeLayerSpecs) d fl ∧
    ReadsSafely (entityMF nodeFields) (entitySpec nodeSpecs) d fl ∧
    ReadsSafely (entityMF nodeGeometryFields) (entitySpec nodeGeometrySpecs) d fl ∧
    ReadsSafely (entityMF testEntityFields) (entitySpec testEntitySpecs) d fl ∧
    ReadsSafely (entityMF (sceneLayerFields oNodes oGeo)) (entitySpec (sceneLayerSpecs oNodes oGeo)) d fl ∧
    ReadsSafely (entityMF (sceneFields oNodes oGeo oScene)) (entitySpec (sceneSpecs oNodes oGeo oScene)) d fl :=
  ⟨C58_hostile_objects_partial attributeLayer_reads d hd fl, C58_hostile_objects_partial node_reads d hd fl, C58_hostile_objects_partial nodeGeometry_reads d hd fl,
    C58_hostile_objects_partial testEntity_reads d hd fl, C58_hostile_objects_partial (sceneLayer_reads oNodes oGeo) d hd fl,
    C58_hostile_objects_partial (scene_reads oNodes oGeo oScene) d hd fl⟩

/-- Wherever in the bytes there is the code of an array of a type with `n` scalars per element, followed 10 bytes later by one of the
names, the number of scalars declared there (8 bytes, behind the name and two bytes) is a multiple of `n`. -/
def CountsAreMultiples (names : List Bytes) (d : Bytes) (fl : Bool) : Prop :=
  ∀ t ∈ allTypes, ∀ sc n f, t.kind = .items sc n f → ∀ name ∈ names, ∀ p m, m < 2 ^ 64 →
    d[p]? = some (UInt8.ofNat t.avt) → (d.drop (p + 10)).take name.length = name →
    (d.drop (p + 12 + name.length)).take 8 = Spec.number fl 8 m → n ∣ m

/-- The base values a class may read: the harmless ones, and those with one of the names. -/
def HarmlessOr (names : List Bytes) (t : DataType) (c : Container) (k : Bytes) : Prop :=
  Harmless t c k ∨ (t ∈ allTypes ∧ k ∈ names)

theorem counts_of_multiples {names : List Bytes} {d : Bytes} {fl : Bool} (h : CountsAreMultiples names d fl) :
    CountsOk (HarmlessOr names) d fl := by
  intro t c k hk p hp
  rcases hk with hk | ⟨ht, hk⟩
  · exact harmless_counts d fl t c k hk p hp
  · refine .inl (.inr (.inr fun sc n f e m hm h1 h2 h3 => ?_))
    refine h t ht sc n f e k hk p m hm ?_ h2.take ?_
    · obtain ⟨a, b, rfl, rfl⟩ := h1
      simp
    · have := h3.take
      rwa [number_length] at this

/-- **C58** for every class whose base values are harmless or have one of the names: safe on all bytes in which the counts under these names
are multiples. -/
theorem C58_named_arrays_partial {V : Type} {M : Managed V} {S : ClassSpec V} {names : List Bytes} (h : OnlyReads (HarmlessOr names) M S) (d : Bytes)
    (hd : d.length < 2 ^ 60) (fl : Bool) (hc : CountsAreMultiples names d fl) : ReadsSafely M S d fl :=
  (h.safe hd (counts_of_multiples hc)).safely

theorem mesh_reads : OnlyReads (HarmlessOr [key "Values", key "Data"]) (entityMF (meshFields oLayers oV2 oTan oBit oNrm oV4 oVar))
    (entitySpec (meshSpecs oLayers oV2 oTan oBit oNrm oV4 oVar)) :=
  have hr : ∀ k, HarmlessOr [key "Values", key "Data"] entityRefType .vector k := fun k => .inl (harmless_refs _ k).1
  have hv : ∀ t ∈ allTypes, ∀ c, HarmlessOr [key "Values", key "Data"] t c (key "Values") := fun t ht c => .inr ⟨ht, by simp⟩
  .entity _ (.sub (by decide) (.table _ entityRef_good (hr _) (.entity _ (.base (by decide) string_mem (.inl (.inl rfl)) .nil)) _ _ _)
    (.sub (by decide) (.table _ entityRef_good (hr _) (.idx _ fvec2_mem (hv _ fvec2_mem _)) _ _ _)
      (.sub (by decide) (.table _ entityRef_good (hr _) (.idx _ fvec3_mem (hv _ fvec3_mem _)) _ _ _)
        (.sub (by decide) (.table _ entityRef_good (hr _) (.idx _ fvec3_mem (hv _ fvec3_mem _)) _ _ _)
          (.sub (by decide) (.table _ entityRef_good (hr _) (.idx _ fvec3_mem (hv _ fvec3_mem _)) _ _ _)
            (.sub (by decide) (.table _ entityRef_good (hr _) (.idx _ fvec4_mem (hv _ fvec4_mem _)) _ _ _)
              (.sub (by decide) (.table _ entityRef_good (hr _) (.varying fun t ht c => .inr ⟨ht, by simp⟩) _ _ _) .nil)))))))

/-- **C58** for `Mesh`, whose tables hold arrays of vectors (and Varying objects of any type): safe on all bytes in which the counts of
such arrays are multiples. Without the condition it is false, `C58_false_for_Mesh`. -/
theorem C58_Mesh_partial (d : Bytes) (hd : d.length < 2 ^ 60) (fl : Bool) (h : CountsAreMultiples [key "Values", key "Data"] d fl) :
    ReadsSafely (entityMF (meshFields oLayers oV2 oTan oBit oNrm oV4 oVar)) (entitySpec (meshSpecs oLayers oV2 oTan oBit oNrm oV4 oVar)) d fl :=
  C58_named_arrays_partial (mesh_reads oLayers oV2 oTan oBit oNrm oV4 oVar) d hd fl h

end tables

/-- A table section with these ids and element bodies. -/
def rawTable (name : Bytes) (ids : List entityRefType.Val) (bodies : List Bytes) : Bytes :=
  Spec.sect false name (Spec.typed false entityRefType .vector (key "IDs") ids ++ Spec.sectArray false (key "Entities") (some bodies) none)

/-- A `Mesh` file with one texture coordinate layer that declares (and holds) a single float where pairs are expected. -/
def hostileMesh : Bytes :=
  rawTable (key "Layers") [] [] ++
  rawTable (key "TextureCoordsData") [entityRefStored.toVal EntityRef.null]
    [Spec.largeBlock false 0x45 (key "Values") (Spec.arrayHeader false 4 1 (some []) ++ [0, 0, 0, 0])]

/-- The `Mesh` class, with some order of the tables. -/
abbrev demoMeshFields : List Field := meshFields frontOrder frontOrder frontOrder frontOrder frontOrder frontOrder frontOrder

/-- Does the call run into undefined behaviour? -/
def Res.isUb {σ α : Type} : Res σ α → Bool
  | .ub => true
  | _ => false

/-- **C58 is false for `Mesh`** without the condition: reading this file writes behind the end of a vector. -/
theorem C58_false_for_Mesh :
    ((entityMF demoMeshFields).read luckyEnv (fun _ => 1) (fieldsInit _) (EReader.create 0 0, ⟨hostileMesh, 0, false⟩)).isUb = true := by
  decide +kernel

/-- A check of `CountsAreMultiples` for one place. -/
def countsCheckAt (names : List Bytes) (d : Bytes) : Bool :=
  names.all fun name => !decide ((d.drop 10).take name.length = name) || allTypes.all fun t =>
    match t.kind with
    | .items _ n _ => !decide (d.head? = some (UInt8.ofNat t.avt)) || fromLE ((d.drop (12 + name.length)).take 8) % n == 0
    | _ => true

/-- A check of `CountsAreMultiples` for one file. -/
def countsCheck (names : List Bytes) : Bytes → Bool
  | [] => true
  | b :: d => countsCheckAt names (b :: d) && countsCheck names d

theorem countsCheck_sound {names : List Bytes} {d : Bytes} (h : countsCheck names d = true) : CountsAreMultiples names d false := by
  intro t ht sc n f e name hn p m hm h1 h2 h3
  have hp : p < d.length := by
    apply Decidable.byContradiction
    intro hc
    rw [List.getElem?_eq_none (by omega)] at h1
    cases h1
  have hat : countsCheckAt names (d.drop p) = true := by
    clear h1 h2 h3
    induction d generalizing p with
    | nil => cases hp
    | cons b d ih =>
      rw [countsCheck, Bool.and_eq_true] at h
      cases p with
      | zero => exact h.1
      | succ p => exact ih h.2 p (by simpa using hp)
  have := List.all_eq_true.mp hat name hn
  rw [List.drop_drop, List.drop_drop, List.head?_drop, h1, h2, ← Nat.add_assoc, h3, Spec.number, if_neg (by decide), lsbFirst_eq,
    fromLE_leBytes, Nat.mod_eq_of_lt (by omega)] at this
  have := List.all_eq_true.mp (by simpa using this) t ht
  rw [e] at this
  exact Nat.dvd_of_mod_eq_zero (by simpa using this)

/-- A `Mesh` file with one texture coordinate under the null id. -/
def goodMesh : Bytes :=
  rawTable (key "Layers") [] [] ++
  rawTable (key "TextureCoordsData") [entityRefStored.toVal EntityRef.null]
    [Spec.typed false fvec2Type .idxVector (key "Values") ⟨[(#v[0, 0x3f800000] : Vector (Word 4) 2)], [0, 0]⟩] ++
  rawTable (key "TangentsData") [] [] ++ rawTable (key "BitangentsData") [] [] ++ rawTable (key "NormalsData") [] [] ++
  rawTable (key "ColorsData") [] [] ++ rawTable (key "CustomData") [] []

/-- The condition of `C58_Mesh_partial` holds for it, and it is accepted. -/
example : CountsAreMultiples [key "Values", key "Data"] goodMesh false := countsCheck_sound (by decide +kernel)

example : (match (entityMF demoMeshFields).read luckyEnv (fun _ => 1) (fieldsInit _) (EReader.create 0 0, ⟨goodMesh, 0, false⟩) with
    | .ok (some v) st => decide ((Table.find (K := EntityRef) (V := IdxVec fvec2Type.Val) v.2.1 EntityRef.null).isSome = true ∧ st.2.pos = goodMesh.length)
    | _ => false) = true := by decide +kernel

/-- Did the call return true? -/
def Res.accepted {σ α : Type} : Res σ (Option α) → Bool
  | .ok (some _) _ => true
  | _ => false

theorem Res.accepted_iff {σ α : Type} {r : Res σ (Option α)} (h : r.accepted = true) : ∃ v st, r = .ok (some v) st := by
  match r with
  | .ok (some v) st => exact ⟨v, st, rfl⟩

/-- A file with something behind it that is accepted as a `Scene` (see C42), so that `C59` has a case that no `Write` made. -/
example : ∃ v st, (entityMF demoSceneFields).read luckyEnv (fun _ => 1) (fieldsInit _) (EReader.create 0 0, ⟨longSection, 0, false⟩) =
    .ok (some v) st := Res.accepted_iff (by decide +kernel)

/-- C18: the array of one `fvec2` cut behind its first number is refused safely. -/
example : MemorySafe (readTyped luckyEnv fvec2Type .vector [65] []) ([7] ++ (Spec.typed true fvec2Type .vector [65] [(#v[1, 2] : Vector (Word 4) 2)]).take 25) 1
    true :=
  (C18_truncated_read_fails_safely_partial luckyEnv fvec2Type fvec2_mem .vector [65] (by decide) [] [(#v[1, 2] : Vector (Word 4) 2)] true [7] 25
    (by decide +kernel) (by decide +kernel) (.inl (by decide))).1

/-! ## C59 -/

mutual
  theorem IsClass.onlyReads : ∀ {V : Type} {M : Managed V} {S : ClassSpec V}, IsClass M S → OnlyReads (fun _ _ _ => True) M S
    | _, _, _, @IsClass.graph _ _ st h a r s => .graph st h trivial trivial a r s
    | _, _, _, .idx t h => .idx t h trivial
    | _, _, _, .varying => .varying fun _ _ _ => trivial
    | _, _, _, @IsClass.table _ _ _ st h _ _ hM zk ne ord => .table st h trivial hM.onlyReads zk ne ord
    | _, _, _, .entity ss h _ => .entity ss h.onlyRead
  theorem AreFields.onlyRead : ∀ {fs : List Field} {ss : FieldSpecs fs}, AreFields ss → FieldsOnlyRead (fun _ _ _ => True) ss
    | _, _, .nil => .nil
    | _, _, .base hk ht h => .base hk ht trivial h.onlyRead
    | _, _, .sub hk hM h => .sub hk hM.onlyReads h.onlyRead
end

/-- Whatever the bytes were: an object that `Read` returned true for has the invariants of its class, and every Varying in it is
initialised. (No condition on the counts: a read that went on after leaving the bounds of an object is not a read that returned true.) -/
theorem C59_accepted_is_well_formed {V : Type} {M : Managed V} {S : ClassSpec V} (hM : IsClass M S) {d : Bytes} (hd : d.length < 2 ^ 60)
    {fl : Bool} (env : REnv) (fresh : Bytes → Nat) (dest : V) (hw : S.wf dest) (r : EReader) (p : Nat) (hp : p ≤ d.length)
    (v : V) (st : RSt) (e : M.read env fresh dest (r, ⟨d, p, fl⟩) = .ok (some v) st) :
    (st.2.data = d ∧ st.2.flip = fl ∧ p ≤ st.2.pos ∧ st.2.pos ≤ d.length) ∧ S.wf v ∧ S.rel .storable v v := by
  have := hM.onlyReads.safe (U := True) (fl := fl) hd (fun _ _ _ _ _ _ => .inr trivial) env fresh dest hw r p hp
  rw [e] at this
  obtain ⟨p', e', h1, h2, h3⟩ := this
  exact ⟨⟨by rw [e'], by rw [e'], by rw [e']; exact h1, by rw [e']; exact h2⟩, h3 v rfl⟩

/-- **C59**: whatever bytes an object was read from, if `Read` returned true the object can be written again, and reading that gives an
object with the same contents; for every class. -/
theorem C59_accepted_can_be_stored {V : Type} {M : Managed V} {S : ClassSpec V} (hM : IsClass M S) {d : Bytes} (hd : d.length < 2 ^ 60)
    {fl : Bool} (env : REnv) (fresh : Bytes → Nat) (dest : V) (hw : S.wf dest) (r : EReader) (p : Nat) (hp : p ≤ d.length)
    (v : V) (st : RSt) (e : M.read env fresh dest (r, ⟨d, p, fl⟩) = .ok (some v) st) : RoundTrips M S v S.destOk := by
  obtain ⟨-, h1, h2⟩ := C59_accepted_is_well_formed hM hd env fresh dest hw r p hp v st e
  exact C41_classes_round_trip hM v h1 h2

end ISD
