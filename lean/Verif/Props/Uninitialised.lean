import Verif.Proofs.Indep
import Verif.Props.HostileEntity

/-!
# C83: uninitialised memory

The key of a block is read into a local array that is not initialised (ISD_EntityReaderTemplates.inl 61, 145), and for the blocks with a size
field of 8 bytes the number of bytes read is not checked (62-69).
-/

namespace ISD

attribute [local irreducible] dynTable DynClass.all findTypeClass

/-- Two runs in the same circumstances, except for what happens to be in the uninitialised array. -/
def SameButForJunk (env env' : REnv) : Prop := env'.allocOk = env.allocOk

section use

variable {σ α : Type} {π : σ → RStream} {B : Prop} {acc : α → σ → Prop} {x0 x1 : Prog σ α} {s : σ}

theorem Indep.inside (h : Indep π B acc x0 x1) (hs : Sane (π s)) :
    (∀ a s', x0 s = .ok a s' → (π s').pos < (π s).data.length → x1 s = .ok a s') ∧
    (∀ s', x0 s = .throw s' → (π s').pos < (π s).data.length → x1 s = .throw s') := by
  have hm := h.m0 s hs
  constructor
  · intro a s' e hp
    obtain h1 | ⟨h1, -⟩ := h.run s hs
    · exact h1.symm.trans e
    · rw [e] at h1 hm
      have h2 : (π s').pos = (π s').data.length := h1
      rw [hm.1] at h2
      omega
  · intro s' e hp
    obtain h1 | ⟨h1, -⟩ := h.run s hs
    · exact h1.symm.trans e
    · rw [e] at h1 hm
      have h2 : (π s').pos = (π s').data.length := h1
      rw [hm.1] at h2
      omega

theorem Indep.agree (h : Indep π B acc x0 x1) (hs : Sane (π s)) {a a' : α} {s0 s1 : σ} (e0 : x0 s = .ok a s0) (e1 : x1 s = .ok a' s1)
    (h0 : acc a s0) (h1 : acc a' s1) : a' = a ∧ s1 = s0 := by
  obtain h2 | ⟨-, -, h2, -⟩ := h.run s hs
  · rw [e0, e1] at h2
    cases h2
    exact ⟨rfl, rfl⟩
  · exact h2.elim (fun h2 => absurd h0 (h2 _ _ e0)) fun h2 => absurd h1 (h2 _ _ e1)

theorem Indep.certain (h : Indep π B acc x0 x1) (hB : B) (hs : Sane (π s)) {a : α} {s0 : σ} (e0 : x0 s = .ok a s0) (h0 : acc a s0) :
    x1 s = .ok a s0 := by
  obtain h2 | ⟨-, -, -, h2⟩ := h.run s hs
  · exact h2.symm.trans e0
  · exact absurd h0 ((h2 hB).1 _ _ e0)

end use

/-- **C83** for the typed read calls, every type, container and name: whatever the bytes,
* a read that ends in front of the end of the stream — returning true or false, or throwing — does the same whatever the uninitialised memory;
* two reads that differ in the uninitialised memory and both return true give the same value and leave the stream in the same state;
* unless the variable may be absent and is a string, vector or indexed vector, a read that returns true does so whatever the uninitialised memory. -/
theorem C83_values_partial (env env' : REnv) (he : SameButForJunk env env') (t : DataType) (c : Container) (k : Bytes) (hk : k.length ≤ 40)
    (dest : c.Val t.Val) (d : Bytes) (hd : d.length < 2 ^ 60) (p : Nat) (hp : p ≤ d.length) (fl : Bool) :
    (∀ r s', readTyped env t c k dest ⟨d, p, fl⟩ = .ok r s' → s'.pos < d.length → readTyped env' t c k dest ⟨d, p, fl⟩ = .ok r s') ∧
    (∀ s', readTyped env t c k dest ⟨d, p, fl⟩ = .throw s' → s'.pos < d.length → readTyped env' t c k dest ⟨d, p, fl⟩ = .throw s') ∧
    (∀ v v' s' s'', readTyped env t c k dest ⟨d, p, fl⟩ = .ok (some v) s' → readTyped env' t c k dest ⟨d, p, fl⟩ = .ok (some v') s'' →
      v' = v ∧ s'' = s') ∧
    (c ≠ .optionalVector → c ≠ .optionalIdxVector → (c = .optionalValue → t.kind ≠ .string) →
      ∀ v s', readTyped env t c k dest ⟨d, p, fl⟩ = .ok (some v) s' → readTyped env' t c k dest ⟨d, p, fl⟩ = .ok (some v) s') := by
  have hs : Sane (id (⟨d, p, fl⟩ : RStream)) := ⟨hp, hd⟩
  have h := typed_indep (B := False) he t c k (by omega) dest fun h => h.elim
  refine ⟨(h.inside hs).1, (h.inside hs).2, fun v v' s' s'' e0 e1 => ?_, fun h1 h2 h3 v s' e0 => ?_⟩
  · obtain ⟨e, e'⟩ := h.agree hs e0 e1 (fun h => nomatch h) (fun h => nomatch h)
    cases e
    exact ⟨rfl, e'⟩
  · have hB : LargeOptional t c = false := by
      cases c with
      | none => rfl
      | vector => rfl
      | idxVector => rfl
      | optionalVector => exact absurd rfl h1
      | optionalIdxVector => exact absurd rfl h2
      | optionalValue =>
        have h4 := h3 rfl
        show t.kind.isLarge = false
        cases hkind : t.kind with
        | string => exact absurd hkind h4
        | bool => rfl
        | items _ _ _ => rfl
    exact (typed_indep (B := True) he t c k (by omega) dest fun _ => hB).certain trivial hs e0 (fun h => nomatch h)

/-- **C83** for the calls that open a section or an array of sections (which may be allowed to be absent, with or without an index). -/
theorem C83_sections_partial (env env' : REnv) (he : SameButForJunk env env') (fresh : Nat) (k : Bytes) (hk : k.length ≤ 40) (na wi : Bool)
    (rd : EReader) (d : Bytes) (hd : d.length < 2 ^ 60) (p : Nat) (hp : p ≤ d.length) (fl : Bool) :
    (∀ r st, beginReadSection env fresh k na (rd, ⟨d, p, fl⟩) = .ok r st → st.2.pos < d.length →
      beginReadSection env' fresh k na (rd, ⟨d, p, fl⟩) = .ok r st) ∧
    (∀ q q' st st', beginReadSection env fresh k na (rd, ⟨d, p, fl⟩) = .ok (q, true) st →
      beginReadSection env' fresh k na (rd, ⟨d, p, fl⟩) = .ok (q', true) st' → q' = q ∧ st' = st) ∧
    (∀ r st, beginReadSectionsArray env fresh k na wi (rd, ⟨d, p, fl⟩) = .ok r st → st.2.pos < d.length →
      beginReadSectionsArray env' fresh k na wi (rd, ⟨d, p, fl⟩) = .ok r st) ∧
    (∀ q n idx q' n' idx' st st', beginReadSectionsArray env fresh k na wi (rd, ⟨d, p, fl⟩) = .ok (q, n, true, idx) st →
      beginReadSectionsArray env' fresh k na wi (rd, ⟨d, p, fl⟩) = .ok (q', n', true, idx') st' → q' = q ∧ n' = n ∧ idx' = idx ∧ st' = st) ∧
    (na = false → ∀ q n idx st, beginReadSectionsArray env fresh k na wi (rd, ⟨d, p, fl⟩) = .ok (q, n, true, idx) st →
      beginReadSectionsArray env' fresh k na wi (rd, ⟨d, p, fl⟩) = .ok (q, n, true, idx) st) := by
  have hs : Sane (rd, (⟨d, p, fl⟩ : RStream)).2 := ⟨hp, hd⟩
  have h := beginSection_indep (B := False) (env0 := env) (env1 := env') fresh k (by omega) na fun h => h.elim
  have h' := beginArray_indep (B := False) he fresh k (by omega) na wi fun h => h.elim
  refine ⟨(h.inside hs).1, fun q q' st st' e0 e1 => ?_, (h'.inside hs).1, fun q n idx q' n' idx' st st' e0 e1 => ?_, fun hna q n idx st e0 => ?_⟩
  · obtain ⟨e, e'⟩ := h.agree hs e0 e1 ⟨rfl, fun h => h.elim⟩ ⟨rfl, fun h => h.elim⟩
    cases e
    exact ⟨rfl, e'⟩
  · obtain ⟨e, e'⟩ := h'.agree hs e0 e1 rfl rfl
    cases e
    exact ⟨rfl, rfl, rfl, e'⟩
  · exact (beginArray_indep (B := True) he fresh k (by omega) na wi fun _ => hna).certain trivial hs e0 rfl

mutual
  theorem IsClass.definite : ∀ {V : Type} {M : Managed V} {S : ClassSpec V}, IsClass M S → Definite False M
    | _, _, _, @IsClass.graph _ _ st h a r s => .graph st h a r s
    | _, _, _, .idx t h => .idx t h
    | _, _, _, .varying => .varying id
    | _, _, _, @IsClass.table _ _ _ st h _ _ hM zk ne ord => .table st h hM.definite zk ne ord
    | _, _, _, .entity ss h hne => .entity h.definite hne
  theorem AreFields.definite : ∀ {fs : List Field} {ss : FieldSpecs fs}, AreFields ss → DefiniteFields False fs
    | _, _, .nil => .nil
    | _, _, .base hk ht h => .base hk ht (fun h => h.elim) h.definite
    | _, _, .sub hk hM h => .sub hk hM.definite h.definite
end

/-- **C83** for whole objects of every class — graph, table, indexed vector, Varying or generated entity, nested in any way — read into any object
whatever is left in variables whose read fails. -/
theorem C83_objects_partial {V : Type} {M : Managed V} {S : ClassSpec V} (hM : IsClass M S) (env env' : REnv) (he : SameButForJunk env env')
    (L : Leftover) (fresh : Bytes → Nat) (dest : V) (rd : EReader) (d : Bytes) (hd : d.length < 2 ^ 60) (p : Nat) (hp : p ≤ d.length) (fl : Bool) :
    (∀ b st v, M.readInPlace L env fresh ((rd, ⟨d, p, fl⟩), dest) = .ok b (st, v) → st.2.pos < d.length →
      M.readInPlace L env' fresh ((rd, ⟨d, p, fl⟩), dest) = .ok b (st, v)) ∧
    (∀ st v, M.readInPlace L env fresh ((rd, ⟨d, p, fl⟩), dest) = .throw (st, v) → st.2.pos < d.length →
      M.readInPlace L env' fresh ((rd, ⟨d, p, fl⟩), dest) = .throw (st, v)) ∧
    (∀ st st' v v', M.readInPlace L env fresh ((rd, ⟨d, p, fl⟩), dest) = .ok true (st, v) →
      M.readInPlace L env' fresh ((rd, ⟨d, p, fl⟩), dest) = .ok true (st', v') → v' = v ∧ st' = st) := by
  have hs : Sane ((rd, (⟨d, p, fl⟩ : RStream)), dest).1.2 := ⟨hp, hd⟩
  have h := hM.definite.alike env env' he L fresh
  refine ⟨fun b st v => (h.inside hs).1 b (st, v), fun st v => (h.inside hs).2 (st, v), fun st st' v v' e0 e1 => ?_⟩
  obtain ⟨-, e⟩ := h.agree hs e0 e1 rfl rfl
  cases e
  exact ⟨rfl, rfl⟩

/-- **C83** in full for classes without variables that may be absent and are strings, vectors or indexed vectors, and without a `Varying` (which
can hold such a variable): what is accepted does not depend on uninitialised memory. -/
theorem C83_definite_classes {V : Type} {M : Managed V} (hM : Definite True M) (env env' : REnv) (he : SameButForJunk env env')
    (L : Leftover) (fresh : Bytes → Nat) (dest : V) (rd : EReader) (d : Bytes) (hd : d.length < 2 ^ 60) (p : Nat) (hp : p ≤ d.length) (fl : Bool)
    (st : RSt) (v : V) : M.readInPlace L env fresh ((rd, ⟨d, p, fl⟩), dest) = .ok true (st, v) ↔
      M.readInPlace L env' fresh ((rd, ⟨d, p, fl⟩), dest) = .ok true (st, v) := by
  have hs : Sane ((rd, (⟨d, p, fl⟩ : RStream)), dest).1.2 := ⟨hp, hd⟩
  exact ⟨fun e => (hM.alike env env' he L fresh).certain trivial hs e rfl, fun e => (hM.alike env' env he.symm L fresh).certain trivial hs e rfl⟩

theorem attributeLayer_definite : Definite True (entityMF attributeLayerFields) :=
  .entity (.base (by decide) string_mem (fun _ => rfl) .nil) (by simp [attributeLayerFields])

theorem node_definite : Definite True (entityMF nodeFields) :=
  .entity (.base (by decide) string_mem (fun _ => rfl) (.base (by decide) fvec3_mem (fun _ => rfl) (.base (by decide) fvec3_mem (fun _ => rfl)
    (.base (by decide) fvec3_mem (fun _ => rfl) .nil)))) (by simp [nodeFields])

theorem nodeGeometry_definite : Definite True (entityMF nodeGeometryFields) :=
  .entity (.base (by decide) packageRef_good.mem (fun _ => rfl) .nil) (by simp [nodeGeometryFields])

/-- Five of the entities of the repository are of this kind: `AttributeLayer`, `Node`, `NodeGeometry`, `SceneLayer` and `Scene`. -/
theorem C83_repository_entities (oNodes : TableOrder (EntityRef × Option NodeEnt)) (oGeo : TableOrder (EntityRef × Option NodeGeometry))
    (oScene : TableOrder (PackageRef × Option (SceneLayer oNodes oGeo))) :
    Definite True (entityMF attributeLayerFields) ∧ Definite True (entityMF nodeFields) ∧ Definite True (entityMF nodeGeometryFields) ∧
    Definite True (entityMF (sceneLayerFields oNodes oGeo)) ∧ Definite True (entityMF (sceneFields oNodes oGeo oScene)) := by
  have h : Definite True (entityMF (sceneLayerFields oNodes oGeo)) :=
    .entity (.base (by decide) string_mem (fun _ => rfl) (.sub (by decide) (.graph _ entityRef_good _ _ _)
      (.sub (by decide) (.table _ entityRef_good node_definite _ _ _)
        (.sub (by decide) (.table _ entityRef_good nodeGeometry_definite _ _ _) .nil)))) (by simp [sceneLayerFields])
  exact ⟨attributeLayer_definite, node_definite, nodeGeometry_definite, h,
    .entity (.sub (by decide) (.table _ packageRef_good h _ _ _) .nil) (by simp [sceneFields])⟩

/-- Every allocation succeeds; the key buffer happens to hold these bytes. -/
def junkEnv (k : Bytes) : REnv := ⟨fun _ => true, Vector.ofFn fun i => k.getD i.val 0⟩

/-- How a read of an object ended: 0 returned false, 1 returned true, 2 threw, 3 undefined behaviour. -/
def Res.boolCode {σ : Type} : Res σ Bool → Nat
  | .ok false _ => 0
  | .ok true _ => 1
  | .throw _ => 2
  | .ub => 3

/-- Nothing is left behind. -/
def keepLeftover : Leftover := ⟨fun _ _ _ _ v => v⟩

/-- A `TestEntity`, cut off in the block of its last variable — in front of the name "OptionalText" — whose size field says that the block ends there. -/
def cutFile : Bytes :=
  [0xe0] ++ Spec.number false 8 (1 + 4 + 8 + 1) ++ [4] ++ key "Name" ++ Spec.number false 8 1 ++ [88] ++
  [0xe0] ++ Spec.number false 8 1 ++ [12]

/-- **C83 is false in general**: this `TestEntity` is accepted if the uninitialised array happens to hold "OptionalText" — as it may after another
`TestEntity` was read — and refused otherwise. -/
theorem C83_false_for_optionals : SameButForJunk (junkEnv (key "OptionalText")) (junkEnv []) ∧ cutFile.length = 33 ∧
    ((entityMF testEntityFields).readInPlace keepLeftover (junkEnv (key "OptionalText")) (fun _ => 1)
      ((EReader.create 0 0, ⟨cutFile, 0, false⟩), fieldsInit _)).boolCode = 1 ∧
    ((entityMF testEntityFields).readInPlace keepLeftover (junkEnv []) (fun _ => 1)
      ((EReader.create 0 0, ⟨cutFile, 0, false⟩), fieldsInit _)).boolCode = 0 := by
  refine ⟨rfl, by decide +kernel, by decide +kernel, by decide +kernel⟩

/-- With the block complete the same file is accepted whatever the uninitialised array, as is a prefix that is a whole `AttributeLayer`; both read
up to the end of the stream or in front of it. -/
example : ∀ k ∈ [[], key "OptionalText", key "Name"],
    ((entityMF testEntityFields).readInPlace keepLeftover (junkEnv k) (fun _ => 1)
      ((EReader.create 0 0, ⟨cutFile.take 23 ++ ([0xe0] ++ Spec.number false 8 13 ++ [12] ++ key "OptionalText"), 0, false⟩), fieldsInit _)).boolCode = 1 ∧
    ((entityMF attributeLayerFields).readInPlace keepLeftover (junkEnv k) (fun _ => 1)
      ((EReader.create 0 0, ⟨cutFile, 0, false⟩), fieldsInit _)).boolCode = 1 := by
  decide +kernel

/-- Also opening a section that must be there can depend on the uninitialised array (the reads inside of it then fail). -/
theorem C83_false_for_sections : ∃ d : Bytes, d.length = 10 ∧
    (match beginReadSection (junkEnv [65]) 1 [65] false (EReader.create 0 0, ⟨d, 0, false⟩) with | .ok (_, b) _ => b | _ => false) = true ∧
    (match beginReadSection (junkEnv []) 1 [65] false (EReader.create 0 0, ⟨d, 0, false⟩) with | .ok (_, b) _ => b | _ => false) = false :=
  ⟨[0xd0] ++ Spec.number false 8 0 ++ [1], by decide +kernel, by decide +kernel, by decide +kernel⟩

end ISD
