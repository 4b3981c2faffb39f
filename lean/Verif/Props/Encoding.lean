import Verif.Props.Memory

/-!
# C61, C62: objects and their stored form
-/

namespace ISD

attribute [local irreducible] dynTable DynClass.all findTypeClass

variable {V : Type} {M : Managed V} {S : ClassSpec V}

/-- `Write` of `v` to any stream of that byte order with room for it, behind what is there already and with any idle writer, returns true and
appends the bytes `b`. -/
def StoredAs (M : Managed V) (v : V) (fl : Bool) (b : Bytes) : Prop :=
  ∀ (w : EWriter) (_ : w.Idle) (s : WStream) (_ : Ready s) (_ : s.flip = fl) (fresh : Bytes → Nat) (_ : s.dataSize + b.length < 2 ^ 60),
    ∃ s', M.write fresh v (w, s) = .ok true (w, s') ∧ Ready s' ∧ s'.flip = s.flip ∧ s'.content = s.content ++ b

/-- A well formed object whose Varying parts are initialised and whose stored form is less than 2^59 bytes. -/
structure Storable (S : ClassSpec V) (fl : Bool) (v : V) : Prop where
  wf : S.wf v
  initialised : S.rel .storable v v
  small : ((S.nodes v).bytes fl).length < 2 ^ 59

theorem storedAs_nodes (hM : IsClass M S) {v : V} {fl : Bool} (hv : Storable S fl v) : StoredAs M v fl ((S.nodes v).bytes fl) := by
  rintro w hw s hs rfl fresh hsz
  have hl := hs.good.content_len
  obtain ⟨s', e, h⟩ := hM.lawful.write_ok v hv.wf hv.initialised fresh s.flip w s s.content hw hs.at (by omega)
  exact ⟨s', e, h.ready, h.flip, h.content⟩

theorem storedAs_unique (hM : IsClass M S) {v : V} {fl : Bool} (hv : Storable S fl v) {b : Bytes} (hb : b.length < 2 ^ 59)
    (h : StoredAs M v fl b) : b = (S.nodes v).bytes fl := by
  have hi : (EWriter.create 0 0).Idle := ⟨rfl, rfl, rfl, rfl⟩
  have hsz : (demoStream fl).dataSize < 2 ^ 59 := by cases fl <;> decide
  have hs := hv.small
  obtain ⟨s1, e1, _, _, c1⟩ := h _ hi _ (demo_ready fl) rfl (fun _ => 0) (by omega)
  obtain ⟨s2, e2, _, _, c2⟩ := storedAs_nodes hM hv _ hi _ (demo_ready fl) rfl (fun _ => 0) (by omega)
  rw [e1] at e2
  cases e2
  rw [c1] at c2
  exact List.append_cancel_left c2

/-- Every storable object is stored as one block, the same wherever and by whomever it is written. -/
theorem C61_block_exists (hM : IsClass M S) (v : V) (fl : Bool) (hv : Storable S fl v) :
    ∃ b, b.length < 2 ^ 59 ∧ StoredAs M v fl b ∧ ∀ b', b'.length < 2 ^ 59 → StoredAs M v fl b' → b' = b :=
  ⟨_, hv.small, storedAs_nodes hM hv, fun _ h1 h2 => storedAs_unique hM hv h1 h2⟩

/-- **C61**: objects with different contents are stored as different blocks, and no block is the beginning of another: if the blocks of `a`
and `b`, whatever follows them, are the beginning of the same bytes, then they are the same block and `a` and `b` have the same contents. -/
theorem C61_different_contents_different_bytes (hM : IsClass M S) (fl : Bool) (a b : V) (ha : Storable S fl a) (hb : Storable S fl b)
    (x y : Bytes) (hx : StoredAs M a fl x) (hy : StoredAs M b fl y) (p q : Bytes) (hxy : x ++ p = y ++ q) (hsz : (x ++ p).length < 2 ^ 59) :
    S.rel .exact a b ∧ x = y := by
  have hl := List.length_append (as := x) (bs := p)
  have hl' := List.length_append (as := y) (bs := q)
  rw [← hxy] at hl'
  have ex := storedAs_unique hM ha (by omega) hx
  have ey := storedAs_unique hM hb (by omega) hy
  have hr : (EReader.create 0 0).Idle := ⟨rfl, rfl, rfl, rfl⟩
  have hM' := hM.lawful
  obtain ⟨a', h1, hwa, ra⟩ := hM'.read_ok a M.init ha.wf ha.initialised hM'.init_wf hM'.init_dest luckyEnv (fun _ => 0) fl luckyEnv_lucky
  obtain ⟨b', h2, hwb, rb⟩ := hM'.read_ok b M.init hb.wf hb.initialised hM'.init_wf hM'.init_dest luckyEnv (fun _ => 0) fl luckyEnv_lucky
  have hsm : Small (x ++ p) := by unfold Small; omega
  have r1 := h1 _ (x ++ p) 0 hr hsm (by rw [ex]; exact Has.mid [] _ _)
  have r2 := h2 _ (x ++ p) 0 hr hsm (by rw [hxy, ey]; exact Has.mid [] _ _)
  rw [r1] at r2
  injection r2 with e1 e2
  cases e1
  injection e2 with _ e2
  injection e2 with _ e2
  rw [← ex, ← ey] at e2
  refine ⟨hM'.exact_trans (hM'.exact_symm ra) rb, ?_⟩
  have := congrArg (List.take x.length) hxy
  rw [List.take_left, show x.length = y.length by omega, List.take_left] at this
  exact this

/-- **C61** for values: under the same key, different values of a type and container are stored as different blocks, and no block is the
beginning of another. -/
theorem C61_values (t : DataType) (ht : t ∈ allTypes) (c : Container) (k : Bytes) (hk : k.length ≤ 40) (fl : Bool) (a b : c.Val t.Val)
    (p q : Bytes) (h : Spec.typed fl t c k a ++ p = Spec.typed fl t c k b ++ q) (hsz : (Spec.typed fl t c k a ++ p).length < 2 ^ 60) : a = b := by
  obtain ⟨dest, hd⟩ : ∃ dest : c.Val t.Val, DestOk t c dest := by
    cases c with
    | none => exact ⟨a, trivial⟩
    | optionalValue => exact ⟨none, trivial⟩
    | vector => exact ⟨[], fun _ => rfl⟩
    | optionalVector => exact ⟨none, trivial⟩
    | idxVector => exact ⟨⟨[], []⟩, fun _ => rfl⟩
    | optionalIdxVector => exact ⟨none, trivial⟩
  have h1 := readTyped_consumes luckyEnv_lucky (allTypes_ok t ht) c k hk dest a fl _ 0 hsz (Has.mid [] _ p)
  have h2 := readTyped_consumes luckyEnv_lucky (allTypes_ok t ht) c k hk dest b fl _ 0 hsz (by rw [h]; exact Has.mid [] _ q)
  rw [h1] at h2
  injection h2 with e1 e2
  rw [readInto_ok hd, readInto_ok hd] at e1
  exact Option.some.inj e1

/-- **C60** applied to what was written: reading back the block of an object succeeds with every allocator that grants requests of at most
four times the length of the stream. -/
theorem C60_reading_back_needs_little_memory (hM : IsClass M S) (fl : Bool) (v : V) (hv : Storable S fl v) (x : Bytes) (hx : StoredAs M v fl x)
    (pre post : Bytes) (hsz : (pre ++ x ++ post).length < 2 ^ 59) (env : REnv) (hB : GrantsUpTo (4 * (pre ++ x ++ post).length) env)
    (fresh : Bytes → Nat) (r : EReader) (hr : r.Idle) (dest : V) (hd : S.wf dest) (hdo : S.destOk dest) :
    ∃ v', M.read env fresh dest (r, ⟨pre ++ x ++ post, pre.length, fl⟩) = .ok (some v') (r, ⟨pre ++ x ++ post, (pre ++ x).length, fl⟩) ∧
      S.wf v' ∧ S.rel .exact v' v := by
  have h1 := List.length_append (as := pre ++ x) (bs := post)
  have h2 := List.length_append (as := pre) (bs := x)
  have ex := storedAs_unique hM hv (by omega) hx
  obtain ⟨v', hc, hw, hrel⟩ := hM.lawful.read_ok v dest hv.wf hv.initialised hd hdo ⟨fun _ => true, env.junkKey⟩ fresh fl fun _ => rfl
  have hsm : Small (pre ++ x ++ post) := by unfold Small; omega
  have r1 := hc r _ pre.length hr hsm (by rw [← ex]; exact Has.mid pre x post)
  have r2 := C60_accepted_object_needs_little_memory_partial hM ⟨fun _ => true, env.junkKey⟩ env fresh dest hd r _ hsm pre.length (by omega) fl rfl hB _ _ r1
  refine ⟨v', ?_, hw, hrel⟩
  rw [r2, h2, ← ex]

/-! ## C62 -/

mutual
  /-- A class without tables inside. -/
  inductive NoTables : {V : Type} → Managed V → ClassSpec V → Prop where
    | graph {α : Type} [NodeType α] (st : Stored α) (h : st.Good) (acyclic rooted singleRoot : Bool) :
        NoTables (graphMF st acyclic rooted singleRoot) (graphSpec st acyclic rooted singleRoot)
    | idx (t : DataType) (h : t ∈ allTypes) : NoTables (idxMF t) (idxSpec t)
    | varying : NoTables varyingMF varyingSpec
    | entity {fs : List Field} (ss : FieldSpecs fs) (h : NoTableFields ss) (hne : fs ≠ []) : NoTables (entityMF fs) (entitySpec ss)
  /-- See `NoTables`. -/
  inductive NoTableFields : {fs : List Field} → FieldSpecs fs → Prop where
    | nil : NoTableFields .nil
    | base {k t c fs} {rest : FieldSpecs fs} (hk : k.length ≤ 40) (ht : t ∈ allTypes) (h : NoTableFields rest) : NoTableFields (.base k t c rest)
    | sub {k V} {M : Managed V} {S : ClassSpec V} {fs} {rest : FieldSpecs fs} (hk : k.length ≤ 40) (hM : NoTables M S) (h : NoTableFields rest) :
        NoTableFields (.sub k M S rest)
end

mutual
  theorem NoTables.isClass : ∀ {V : Type} {M : Managed V} {S : ClassSpec V}, NoTables M S → IsClass M S
    | _, _, _, @NoTables.graph _ _ st h a r s => .graph st h a r s
    | _, _, _, .idx t h => .idx t h
    | _, _, _, .varying => .varying
    | _, _, _, .entity ss h hne => .entity ss h.areFields hne
  theorem NoTableFields.areFields : ∀ {fs : List Field} {ss : FieldSpecs fs}, NoTableFields ss → AreFields ss
    | _, _, .nil => .nil
    | _, _, .base hk ht h => .base hk ht h.areFields
    | _, _, .sub hk hM h => .sub hk hM.isClass h.areFields
end

mutual
  theorem NoTables.same_nodes : ∀ {V : Type} {M : Managed V} {S : ClassSpec V}, NoTables M S → ∀ a b, S.wf a → S.wf b → S.rel .storable a b →
      S.nodes a = S.nodes b
    | _, _, _, @NoTables.graph _ _ st h _ _ _, a, b, ha, hb, hr => by
      have e1 := OrdSet.sorted_ext ha.1 hb.1 hr.1
      have e2 := OrdSet.sorted_ext ha.2 hb.2 hr.2
      show Nodes.cons _ _ = Nodes.cons _ _
      rw [e1, e2]
    | _, _, _, .idx t h, a, b, ha, hb, hr => by rw [IdxRel.eq hr]
    | _, _, _, .varying, a, b, ha, hb, hr => by
      rcases hr with ⟨_, _, h⟩ | ⟨o, p, h1, h2, h3, h4, h5⟩
      · exact h.elim
      · obtain ⟨at', ac, ad⟩ := a
        obtain ⟨bt, bc, bd⟩ := b
        dsimp only at h1 h2 h3 h4
        subst h1 h2 h3 h4
        cases h5 with
        | mk t c x y h => rw [Container.Rel.eq h]
    | _, _, _, .entity ss h hne, a, b, ha, hb, hr => h.same_nodes a b ha hb hr
  theorem NoTableFields.same_nodes : ∀ {fs : List Field} {ss : FieldSpecs fs}, NoTableFields ss → ∀ a b, ss.wf a → ss.wf b →
      ss.rel .storable a b → ss.nodes a = ss.nodes b
    | _, _, .nil, a, b, ha, hb, hr => rfl
    | _, _, .base hk ht h, a, b, ha, hb, hr => by
      have e1 := Container.Rel.eq hr.1
      have e2 := h.same_nodes a.2 b.2 ha hb hr.2
      show Nodes.cons _ _ = Nodes.cons _ _
      rw [e1, e2]
    | _, _, .sub hk hM h, a, b, ha, hb, hr => by
      have e1 := hM.same_nodes a.1 b.1 ha.1 hb.1 hr.1
      have e2 := h.same_nodes a.2 b.2 ha.2 hb.2 hr.2
      show Nodes.cons _ _ = Nodes.cons _ _
      rw [e1, e2]
end

/-- **C62** for classes without tables: objects with the same contents are stored as the same bytes. -/
theorem C62_same_contents_same_bytes_partial (hM : NoTables M S) (fl : Bool) (a b : V) (ha : Storable S fl a) (hb : Storable S fl b)
    (hab : S.rel .exact a b) (x y : Bytes) (hx : x.length < 2 ^ 59) (hy : y.length < 2 ^ 59) (hsx : StoredAs M a fl x) (hsy : StoredAs M b fl y) :
    x = y := by
  rw [storedAs_unique hM.isClass ha hx hsx, storedAs_unique hM.isClass hb hy hsy,
    hM.same_nodes a b ha.wf hb.wf (hM.isClass.lawful.exact_trans hab hb.initialised)]

/-- **C62** for classes without tables: an object read back is stored as the same bytes as the original. -/
theorem C62_read_and_write_again_partial (hM : NoTables M S) (fl : Bool) (v : V) (hv : Storable S fl v) (x : Bytes) (hx : x.length < 2 ^ 59)
    (hs : StoredAs M v fl x) (env : REnv) (hB : GrantsUpTo (4 * x.length) env) (fresh : Bytes → Nat) (r : EReader) (hr : r.Idle) (dest : V) (hd : S.wf dest)
    (hdo : S.destOk dest) :
    ∃ v' st, M.read env fresh dest (r, ⟨x, 0, fl⟩) = .ok (some v') st ∧ st.2.pos = x.length ∧ StoredAs M v' fl x := by
  have hc := hM.isClass
  have ex := storedAs_unique hc hv hx hs
  obtain ⟨v', h1, hw, hrel⟩ := hc.lawful.read_ok v dest hv.wf hv.initialised hd hdo ⟨fun _ => true, env.junkKey⟩ fresh fl fun _ => rfl
  have hsm : Small x := by unfold Small; omega
  have r1 := h1 r x 0 hr hsm (by rw [← ex]; simpa using Has.mid [] x [])
  have r2 := C60_accepted_object_needs_little_memory_partial hc ⟨fun _ => true, env.junkKey⟩ env fresh dest hd r x hsm 0 (Nat.zero_le _) fl rfl hB _ _ r1
  have hs1 : S.rel .storable v' v := hc.lawful.exact_trans hrel hv.initialised
  have hn := hM.same_nodes v' v hw hv.wf hs1
  have hv' : Storable S fl v' := ⟨hw, hc.lawful.trans_exact hs1 (hc.lawful.exact_symm hrel), by rw [hn]; exact hv.small⟩
  refine ⟨v', _, r2, by show 0 + _ = _; rw [← ex]; omega, ?_⟩
  have := storedAs_nodes hc hv'
  rwa [hn, ← ex] at this

/-- A `SceneLayer` table holds its entries in no order of its own; the two tables of geometries here have the same (null) entries. -/
def twoKeys (flip : Bool) : Table EntityRef NodeGeometry :=
  let a := EntityRef.null
  let b : EntityRef := ⟨{ EntityRef.null.id with d1 := 1 }⟩
  if flip then [(a, none), (b, none)] else [(b, none), (a, none)]

/-- The table of geometries. -/
abbrev geometryTable : Managed (Table EntityRef NodeGeometry) := tableMF entityRefStored (entityMF nodeGeometryFields) false false frontOrder

/-- Its specification. -/
abbrev geometryTableSpec : ClassSpec (Table EntityRef NodeGeometry) := tableSpec entityRefStored (entitySpec nodeGeometrySpecs) false false

theorem twoKeys_nodup (b : Bool) : ((twoKeys b).map Prod.fst).Nodup := by cases b <;> decide +kernel

theorem twoKeys_storable (fl b : Bool) : Storable geometryTableSpec fl (twoKeys b) where
  wf := ⟨twoKeys_nodup b, fun k v h => by cases b <;> simp [twoKeys] at h⟩
  initialised := fun k => .refl fun x hx => .refl fun v hv => by
    subst hv
    have := (find_iff (twoKeys_nodup b) k _).mp hx
    cases b <;> simp [twoKeys] at this
  small := by cases fl <;> cases b <;> decide +kernel

/-- **C62 is false for tables**: two tables with the same contents can be stored as different bytes (in the order in which the map
enumerates its entries). -/
theorem C62_false_for_tables : IsClass geometryTable geometryTableSpec ∧ geometryTableSpec.rel .exact (twoKeys true) (twoKeys false) ∧
    ∃ x y, StoredAs geometryTable (twoKeys true) false x ∧ StoredAs geometryTable (twoKeys false) false y ∧ x ≠ y := by
  have hc : IsClass geometryTable geometryTableSpec := .table _ entityRef_good nodeGeometry_isClass _ _ _
  refine ⟨hc, fun k => ?_, _, _, storedAs_nodes hc (twoKeys_storable false true), storedAs_nodes hc (twoKeys_storable false false), by decide +kernel⟩
  rw [find_perm (t := twoKeys true) (t' := twoKeys false) (List.Perm.swap _ _ _) (twoKeys_nodup true)]
  exact .refl fun x hx => .refl fun v hv => by
    subst hv
    have := (find_iff (twoKeys_nodup false) k _).mp hx
    simp [twoKeys] at this

theorem largeBlock_len (fl : Bool) (vt : Nat) (k p q : Bytes) (h : p.length = q.length) :
    (Spec.largeBlock fl vt k p).length = (Spec.largeBlock fl vt k q).length := by
  simp only [Spec.largeBlock, List.length_append, h]

theorem array_length_perm (fl : Bool) (t : DataType) (k : Bytes) (a b : List t.Val) (h : a.Perm b) :
    (Spec.array fl t k (some a) none).length = (Spec.array fl t k (some b) none).length := by
  obtain ⟨nm, vt, avt, kind, ov⟩ := t
  have hl := h.length_eq
  cases kind with
  | bool =>
    refine largeBlock_len fl avt k _ _ ?_
    simp only [Option.elim, List.length_append, packBools_length, hl]
  | items sc n f =>
    refine largeBlock_len fl avt k _ _ ?_
    simp only [Option.elim, List.length_append, hl]
    congr 1
    exact (List.Perm.flatMap_right _ (List.Perm.flatMap_right _ h)).length_eq
  | string =>
    refine largeBlock_len fl avt k _ _ ?_
    simp only [Option.elim, List.length_append, hl]
    congr 1
    exact (List.Perm.flatMap_right _ h).length_eq

theorem flatMap_length_congr {α β γ : Type} (f : α → List γ) (g : β → List γ) : ∀ {a : List α} {b : List β},
    a.map (fun x => (f x).length) = b.map (fun x => (g x).length) → (a.flatMap f).length = (b.flatMap g).length
  | [], [], _ => rfl
  | x :: a, y :: b, h => by
    rw [List.map_cons, List.map_cons] at h
    injection h with h1 h2
    rw [List.flatMap_cons, List.flatMap_cons, List.length_append, List.length_append, h1, flatMap_length_congr f g h2]

theorem table_keys_perm {K V : Type} [DecidableEq K] {a b : Table K V} {R : V → V → Prop} (ha : (a.map Prod.fst).Nodup) (hb : (b.map Prod.fst).Nodup)
    (h : ∀ k, OptRel (OptRel R) (a.find k) (b.find k)) : (a.map Prod.fst).Perm (b.map Prod.fst) := by
  refine (List.perm_ext_iff_of_nodup ha hb).mpr fun k => ?_
  constructor
  · intro hm
    obtain ⟨⟨k', v⟩, hv, rfl⟩ := List.mem_map.mp hm
    have := h k'
    rw [(find_iff ha k' v).mpr hv] at this
    generalize e : b.find k' = o at this
    cases this with
    | some _ => exact List.mem_map.mpr ⟨_, (find_iff hb k' _).mp e, rfl⟩
  · intro hm
    obtain ⟨⟨k', v⟩, hv, rfl⟩ := List.mem_map.mp hm
    have := h k'
    rw [(find_iff hb k' v).mpr hv] at this
    generalize e : a.find k' = o at this
    cases this with
    | some _ => exact List.mem_map.mpr ⟨_, (find_iff ha k' _).mp e, rfl⟩

theorem table_sum {K V : Type} [DecidableEq K] {a : Table K V} (ha : (a.map Prod.fst).Nodup) (f : Option V → Nat) :
    (a.map fun e => f e.2) = (a.map Prod.fst).map fun k => f ((a.find k).getD none) := by
  rw [List.map_map]
  refine List.map_congr_left ?_
  rintro ⟨k, v⟩ hm
  show f v = f ((a.find k).getD none)
  rw [(find_iff ha k v).mpr hm]
  rfl

theorem tableElems_bodies {K V : Type} (nodes : V → Nodes) (fl : Bool) : ∀ t : Table K V,
    (tableElems nodes t).bodies fl = t.map fun e => e.2.elim [] fun v => (nodes v).bytes fl
  | [] => rfl
  | (k, none) :: rest => by
    show [] :: _ = [] :: _
    rw [tableElems_bodies nodes fl rest]
  | (k, some v) :: rest => by
    show (nodes v).bytes fl :: _ = (nodes v).bytes fl :: _
    rw [tableElems_bodies nodes fl rest]

theorem table_same_length {K V : Type} [DecidableEq K] (st : Stored K) (S : ClassSpec V) (zk ne fl : Bool) (a b : Table K V)
    (ha : (a.map Prod.fst).Nodup) (hb : (b.map Prod.fst).Nodup) (h : ∀ k, OptRel (OptRel (S.rel .storable)) (a.find k) (b.find k))
    (ih : ∀ k v w, (k, some v) ∈ a → (k, some w) ∈ b → S.rel .storable v w → ((S.nodes v).bytes fl).length = ((S.nodes w).bytes fl).length) :
    (((tableSpec st S zk ne).nodes a).bytes fl).length = (((tableSpec st S zk ne).nodes b).bytes fl).length := by
  have hp := table_keys_perm ha hb h
  have hl := hp.length_eq
  rw [List.length_map, List.length_map] at hl
  simp only [tableSpec, Nodes.bytes, Node.bytes, Spec.typed, List.length_append, tableElems_bodies]
  have e1 : (Spec.array fl st.ty (key "IDs") (some (a.map fun e => st.toVal e.1)) none).length =
      (Spec.array fl st.ty (key "IDs") (some (b.map fun e => st.toVal e.1)) none).length := by
    refine array_length_perm _ _ _ _ _ ?_
    have := hp.map st.toVal
    rwa [List.map_map, List.map_map] at this
  rw [e1]
  congr 2
  unfold Spec.sectArray
  refine largeBlock_len _ _ _ _ _ ?_
  simp only [Option.elim, List.length_append, List.length_map, hl]
  congr 1
  rw [List.length_flatMap, List.length_flatMap, List.map_map, List.map_map]
  let g : Option V → Nat := fun o => (Spec.element fl (o.elim [] fun v => (S.nodes v).bytes fl)).length
  have ea := table_sum ha g
  have eb := table_sum hb g
  have ec : ((b.map Prod.fst).map fun k => g ((b.find k).getD none)) = (b.map Prod.fst).map fun k => g ((a.find k).getD none) := by
    refine List.map_congr_left fun k _ => ?_
    have hk := h k
    have iha := ih k
    generalize e1 : a.find k = o1 at hk
    generalize e2 : b.find k = o2 at hk
    cases hk with
    | none => rfl
    | some hk => cases hk with
      | none => rfl
      | @some v w hk =>
        have := iha v w ((find_iff ha k _).mp e1) ((find_iff hb k _).mp e2) hk
        show (Spec.element fl _).length = (Spec.element fl _).length
        unfold Spec.element
        simp only [Option.getD, Option.elim, List.length_append, this]
  have : (a.map fun e => g e.2).sum = (b.map fun e => g e.2).sum := by
    rw [ea, eb, ec]
    exact (hp.map _).sum_nat
  exact this

theorem sect_same_length (fl : Bool) (k p q : Bytes) (h : p.length = q.length) : (Spec.sect fl k p).length = (Spec.sect fl k q).length :=
  largeBlock_len fl _ k p q h

mutual
  theorem IsClass.same_length (fl : Bool) : ∀ {V : Type} {M : Managed V} {S : ClassSpec V}, IsClass M S → ∀ a b, S.wf a → S.wf b →
      S.rel .storable a b → ((S.nodes a).bytes fl).length = ((S.nodes b).bytes fl).length
    | _, _, _, @IsClass.graph _ _ st h x y z, a, b, ha, hb, hr => by rw [(@NoTables.graph _ _ st h x y z).same_nodes a b ha hb hr]
    | _, _, _, .idx t h, a, b, ha, hb, hr => by rw [(NoTables.idx t h).same_nodes a b ha hb hr]
    | _, _, _, .varying, a, b, ha, hb, hr => by rw [NoTables.varying.same_nodes a b ha hb hr]
    | _, _, _, @IsClass.table _ _ _ st h M S hM zk ne ord, a, b, ha, hb, hr =>
      table_same_length st S zk ne fl a b ha.1 hb.1 hr fun k v w hv hw hvw => hM.same_length fl v w (ha.2 k v hv) (hb.2 k w hw) hvw
    | _, _, _, .entity ss h hne, a, b, ha, hb, hr => h.same_length fl a b ha hb hr
  theorem AreFields.same_length (fl : Bool) : ∀ {fs : List Field} {ss : FieldSpecs fs}, AreFields ss → ∀ a b, ss.wf a → ss.wf b →
      ss.rel .storable a b → ((ss.nodes a).bytes fl).length = ((ss.nodes b).bytes fl).length
    | _, _, .nil, a, b, ha, hb, hr => rfl
    | _, _, .base (k := k) (t := t) (c := c) (rest := rest) hk ht h, a, b, ha, hb, hr => by
      have e1 := Container.Rel.eq hr.1
      have e2 := h.same_length fl a.2 b.2 ha hb hr.2
      show (Spec.typed fl t c k a.1 ++ (rest.nodes a.2).bytes fl).length = (Spec.typed fl t c k b.1 ++ (rest.nodes b.2).bytes fl).length
      rw [List.length_append, List.length_append, e1, e2]
    | _, _, .sub (k := k) (S := S) (rest := rest) hk hM h, a, b, ha, hb, hr => by
      have e1 := hM.same_length fl a.1 b.1 ha.1 hb.1 hr.1
      have e2 := h.same_length fl a.2 b.2 ha.2 hb.2 hr.2
      show (Spec.sect fl k ((S.nodes a.1).bytes fl) ++ (rest.nodes a.2).bytes fl).length =
        (Spec.sect fl k ((S.nodes b.1).bytes fl) ++ (rest.nodes b.2).bytes fl).length
      rw [List.length_append, List.length_append, sect_same_length fl k _ _ e1, e2]
end

/-- **C62** for all classes: objects with the same contents are stored as the same number of bytes, whatever the order of tables inside. -/
theorem C62_same_contents_same_size (hM : IsClass M S) (fl : Bool) (a b : V) (ha : Storable S fl a) (hb : Storable S fl b)
    (hab : S.rel .exact a b) (x y : Bytes) (hx : x.length < 2 ^ 59) (hy : y.length < 2 ^ 59) (hsx : StoredAs M a fl x) (hsy : StoredAs M b fl y) :
    x.length = y.length := by
  rw [storedAs_unique hM ha hx hsx, storedAs_unique hM hb hy hsy,
    hM.same_length fl a b ha.wf hb.wf (hM.lawful.exact_trans hab hb.initialised)]

/-- The hypotheses of C61 and C62 hold for, e.g., a graph and a layer. -/
example : Storable (graphSpec packageRefStored true true true) true ringGraph ∧
    NoTables (graphMF packageRefStored true true true) (graphSpec packageRefStored true true true) :=
  ⟨⟨((Graph.Valid.empty.insertEdge _ _).insertEdge _ _).insertEdge _ _, ⟨fun _ => Iff.rfl, fun _ => Iff.rfl⟩, by decide +kernel⟩, .graph _ packageRef_good _ _ _⟩

end ISD
