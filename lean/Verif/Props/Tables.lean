import Verif.Proofs.Classes

/-!
# C33 – C37, C53: stored graphs, and tables of entities
-/

namespace ISD

/-! ## C33 -/

/-- **C33.** Every graph over every node type that can be stored: writing returns true, and reading it back, into any graph object and
whatever else is in the stream, returns true with exactly the roots and edges that were written. -/
theorem C33_graphs_round_trip {α : Type} [NodeType α] (st : Stored α) (hst : st.Good) (acyclic rooted singleRoot : Bool) (g : Graph α)
    (hg : g.Valid) (w : EWriter) (hw : w.Idle) (s : WStream) (hs : Ready s) (fresh : Bytes → Nat)
    (hsize : s.dataSize + (((graphSpec st acyclic rooted singleRoot).nodes g).bytes s.flip).length < 2 ^ 60) :
    ∃ s' block, (graphMF st acyclic rooted singleRoot).write fresh g (w, s) = .ok true (w, s') ∧ Ready s' ∧ s'.flip = s.flip ∧
      s'.content = s.content ++ block ∧
      ∀ (env : REnv) (fresh' : Bytes → Nat) (r : EReader) (post : Bytes) (dest : Graph α), (∀ n, env.allocOk n = true) → r.Idle →
        (s'.content ++ post).length < 2 ^ 60 →
        (graphMF st acyclic rooted singleRoot).read env fresh' dest (r, ⟨s'.content ++ post, s.content.length, s.flip⟩) =
          .ok (some g) (r, ⟨s'.content ++ post, s'.content.length, s.flip⟩) := by
  have hM := graph_lawful st hst acyclic rooted singleRoot
  have hrt := hM.roundTrips (v := g) hg ⟨fun _ => Iff.rfl, fun _ => Iff.rfl⟩
  obtain ⟨s', block, h1, h2, h3, h4, h5⟩ := hrt w hw s hs fresh hsize
  refine ⟨s', block, h1, h2, h3, h4, fun env fresh' r post dest he hr hsm => ?_⟩
  obtain ⟨v', e1, e2, e3, _⟩ := h5 env fresh' r post Graph.empty he hr hsm Graph.Valid.empty trivial
  have : v' = g := (graph_rel_eq e2 hg).mp e3
  subst this
  exact e1

/-- Graphs over `entity_ref` and over `package_ref` are among them. -/
theorem C33_reference_nodes : entityRefStored.Good ∧ packageRefStored.Good := ⟨entityRef_good, packageRef_good⟩

/-- Three nodes in a ring. -/
def ringGraph : Graph PackageRef :=
  let p (i : Byte) : PackageRef := ⟨⟨Vector.replicate 32 i⟩⟩
  ((Graph.empty.insertEdge (p 1) (p 2)).insertEdge (p 2) (p 3)).insertEdge (p 3) (p 1)

example : ringGraph.Valid ∧ ringGraph.edges.length = 3 ∧
    (demoStream true).dataSize + (((graphSpec packageRefStored true true true).nodes ringGraph).bytes true).length < 2 ^ 60 :=
  ⟨((Graph.Valid.empty.insertEdge _ _).insertEdge _ _).insertEdge _ _, by decide +kernel, by decide +kernel⟩

/-! ## C34 -/

section tables

variable {K V : Type} [DecidableEq K]

/-- The keys are different, as in every `std::unordered_map`. -/
def Table.Ok (t : Table K V) : Prop := (t.map Prod.fst).Nodup

/-- **C34.** For any equality `eq` of the values: `Equals` of two tables, whatever the order their entries come in, is true exactly when
every key is in both or in neither, and where it is in both, both values are null or both are there and equal. -/
theorem C34_tables_compare_as_maps (st : Stored K) (M : Managed V) (eq : V → V → Bool) (heq : ∀ a b, M.equals a b = some (eq a b))
    (zk ne : Bool) (ord : TableOrder (K × Option V)) (l r : Table K V) (hl : l.Ok) (hr : r.Ok) :
    ∃ b, (tableMF st M zk ne ord).equals l r = some b ∧
      (b = true ↔ (∀ k, (∃ x, (k, x) ∈ l) ↔ ∃ x, (k, x) ∈ r) ∧
        ∀ k x y, (k, x) ∈ l → (k, y) ∈ r → (x = none ∧ y = none) ∨ ∃ a b, x = some a ∧ y = some b ∧ eq a b = true) := by
  obtain ⟨b, e, h⟩ := tableEquals_ok (M := M) (wf := fun _ => True) (rel := fun a b => eq a b = true)
    (fun a b _ _ => ⟨_, heq a b, Iff.rfl⟩) st zk ne ord l r ⟨hl, fun _ _ _ => trivial⟩ ⟨hr, fun _ _ _ => trivial⟩
  refine ⟨b, e, h.trans ⟨fun h => ⟨fun k => ?_, fun k x y hx hy => ?_⟩, fun ⟨h1, h2⟩ k => ?_⟩⟩
  · have := h k
    constructor
    · rintro ⟨x, hx⟩
      rw [(find_iff hl k x).mpr hx] at this
      generalize e' : r.find k = y at this
      cases this
      exact ⟨_, (find_iff hr k _).mp e'⟩
    · rintro ⟨x, hx⟩
      rw [(find_iff hr k x).mpr hx] at this
      generalize e' : l.find k = y at this
      cases this
      exact ⟨_, (find_iff hl k _).mp e'⟩
  · have := h k
    rw [(find_iff hl k x).mpr hx, (find_iff hr k y).mpr hy] at this
    cases this with
    | some h =>
      cases h with
      | none => exact .inl ⟨rfl, rfl⟩
      | some h => exact .inr ⟨_, _, rfl, rfl, h⟩
  · rcases el : l.find k with _ | x
    · rcases er : r.find k with _ | y
      · exact .none
      · obtain ⟨x, hx⟩ := (h1 k).mpr ⟨y, (find_iff hr k y).mp er⟩
        rw [(find_iff hl k x).mpr hx] at el; cases el
    · obtain ⟨y, hy⟩ := (h1 k).mp ⟨x, (find_iff hl k x).mp el⟩
      rw [(find_iff hr k y).mpr hy]
      rcases h2 k x y ((find_iff hl k x).mp el) hy with ⟨rfl, rfl⟩ | ⟨a, b, rfl, rfl, h⟩
      · exact .some .none
      · exact .some (.some h)

/-- The result does not depend on the order of the entries on either side. -/
theorem C34_order_does_not_matter (st : Stored K) (M : Managed V) (eq : V → V → Bool) (heq : ∀ a b, M.equals a b = some (eq a b))
    (zk ne : Bool) (ord ord' : TableOrder (K × Option V)) (l l' r r' : Table K V) (hl : l.Ok) (hr : r.Ok) (pl : l.Perm l') (pr : r.Perm r') :
    (tableMF st M zk ne ord).equals l r = (tableMF st M zk ne ord').equals l' r' := by
  obtain ⟨b, e, h⟩ := C34_tables_compare_as_maps st M eq heq zk ne ord l r hl hr
  obtain ⟨b', e', h'⟩ := C34_tables_compare_as_maps st M eq heq zk ne ord' l' r' ((pl.map Prod.fst).nodup_iff.mp hl)
    ((pr.map Prod.fst).nodup_iff.mp hr)
  rw [e, e', Bool.eq_iff_iff.mpr (h.trans (Iff.trans ?_ h'.symm))]
  simp only [pl.mem_iff, pr.mem_iff]

/-! ## C35 -/

/-- **C35** (partial: another object as source). Copying a table, by assignment or by construction, whatever the destination held and in
whatever order the new map keeps its entries: the copy has exactly the keys of the source, null where the source has null, and values with
the same contents; the copy compares equal to the source exactly when the values of the source compare equal to themselves. -/
theorem C35_copies_partial (st : Stored K) {M : Managed V} {S : ClassSpec V} (hM : IsClass M S) (hst : st.Good) (zk ne : Bool)
    (ord : TableOrder (K × Option V)) (d s : Table K V) (hs : (tableSpec st S zk ne).wf s) :
    ∃ c, (tableMF st M zk ne ord).copy (.other s) d = .ok () c ∧ (tableMF st M zk ne ord).construct s [] = .ok () c ∧ c.Ok ∧
      (∀ k, (k, none) ∈ c ↔ (k, none) ∈ s) ∧
      (∀ k v, (k, some v) ∈ c → ∃ v', (k, some v') ∈ s ∧ S.rel .exact v v') ∧
      (∀ k v, (k, some v) ∈ s → ∃ v', (k, some v') ∈ c ∧ S.rel .exact v' v) ∧
      ((tableMF st M zk ne ord).equals c s = some true ↔ ∀ k v, (k, some v) ∈ s → S.rel .cpp v v) := by
  have hL := table_lawful hM.lawful st hst zk ne ord
  obtain ⟨xs, e, hx⟩ := copyLoop_ok hM.lawful ord s [] hs.2
  obtain ⟨hw, hr⟩ := addAll_ok st zk ne ord hs.1 hx
  refine ⟨_, e, e, hw.1, fun k => ?_, fun k v hm => ?_, fun k v hm => ?_, ?_⟩
  · have h := hr k
    constructor
    · intro hm
      rw [(find_iff hw.1 k _).mpr hm] at h
      generalize e' : Table.find s k = y at h
      cases h with | some h => cases h; exact (find_iff hs.1 k _).mp e'
    · intro hm
      rw [(find_iff hs.1 k _).mpr hm] at h
      generalize e' : Table.find (Table.addAll ord [] xs) k = y at h
      cases h with | some h => cases h; exact (find_iff hw.1 k _).mp e'
  · have h := hr k
    rw [(find_iff hw.1 k _).mpr hm] at h
    generalize e' : Table.find s k = y at h
    cases h with | some h => cases h with | some h => exact ⟨_, (find_iff hs.1 k _).mp e', h⟩
  · have h := hr k
    rw [(find_iff hs.1 k _).mpr hm] at h
    generalize e' : Table.find (Table.addAll ord [] xs) k = y at h
    cases h with | some h => cases h with | some h => exact ⟨_, (find_iff hw.1 k _).mp e', h⟩
  · refine (hL.equals_copy hw hs hr).trans ⟨fun h k v hm => ?_, fun h k => ?_⟩
    · have h := h k
      rw [(find_iff hs.1 k _).mpr hm] at h
      cases h with | some h => cases h with | some h => exact h
    · exact OptRel.refl fun x hx => OptRel.refl fun v hv => h k v ((find_iff hs.1 k _).mp (hv ▸ hx))

/-- **C35 is false** for an object copied to itself: every table ends up empty. -/
theorem C35_self_copy_empties (st : Stored K) (M : Managed V) (zk ne : Bool) (ord : TableOrder (K × Option V)) (t : Table K V) :
    (tableMF st M zk ne ord).copy .self t = .ok () [] := rfl

/-! ## C36 -/

/-- **C36.** Every table of every kind of entity in every order of entries: it round trips into any table, and the copy is kept in whatever
order the destination's map chooses. (`rel .storable` is the condition that no uninitialised Varying is inside, see C40.) -/
theorem C36_tables_round_trip (st : Stored K) {M : Managed V} {S : ClassSpec V} (hM : IsClass M S) (hst : st.Good) (zk ne : Bool)
    (ord : TableOrder (K × Option V)) (t : Table K V) (ht : t.Ok) (hv : ∀ k v, (k, some v) ∈ t → S.wf v ∧ S.rel .storable v v) :
    RoundTrips (tableMF st M zk ne ord) (tableSpec st S zk ne) t (fun _ => True) := by
  have hw : (tableSpec st S zk ne).wf t := ⟨ht, fun k v h => (hv k v h).1⟩
  refine (table_lawful hM.lawful st hst zk ne ord).roundTrips hw fun k => ?_
  exact OptRel.refl fun x hx => OptRel.refl fun v hx' => (hv k v ((find_iff ht k _).mp (hx' ▸ hx))).2

/-- What "the same contents" means for tables: the same keys, null for null, and the same contents per value. -/
theorem C36_same_contents (st : Stored K) (S : ClassSpec V) (zk ne : Bool) (a b : Table K V) (ha : a.Ok) (hb : b.Ok)
    (h : (tableSpec st S zk ne).rel .exact a b) :
    (∀ k, (∃ x, (k, x) ∈ a) ↔ ∃ x, (k, x) ∈ b) ∧
    ∀ k x y, (k, x) ∈ a → (k, y) ∈ b → (x = none ∧ y = none) ∨ ∃ v v', x = some v ∧ y = some v' ∧ S.rel .exact v v' := by
  constructor
  · intro k
    have := h k
    constructor
    · rintro ⟨x, hx⟩
      rw [(find_iff ha k x).mpr hx] at this
      generalize e' : Table.find b k = y at this
      cases this
      exact ⟨_, (find_iff hb k _).mp e'⟩
    · rintro ⟨x, hx⟩
      rw [(find_iff hb k x).mpr hx] at this
      generalize e' : Table.find a k = y at this
      cases this
      exact ⟨_, (find_iff ha k _).mp e'⟩
  · intro k x y hx hy
    have := h k
    rw [(find_iff ha k x).mpr hx, (find_iff hb k y).mpr hy] at this
    cases this with
    | some h =>
      cases h with
      | none => exact .inl ⟨rfl, rfl⟩
      | some h => exact .inr ⟨_, _, rfl, rfl, h⟩

/-! ## C37 -/

/-- **C37.** For values whose validation always ends with the reports `rep v` and the result true: `Validate` of a table ends with exactly
one way: the result true, and the reports are one NullNotAllowed when the zero key is there and not allowed, then per entry, in the order
of the entries, one NullNotAllowed for a null entity when these are not allowed, and the reports of the entity otherwise. -/
theorem C37_table_validation (st : Stored K) (M : Managed V) (rep : V → List Nat) (hrep : ∀ v rs b, M.validate v rs b ↔ rs = rep v ∧ b = true)
    (zk ne : Bool) (ord : TableOrder (K × Option V)) (t : Table K V) (ht : t.Ok) (rs : List Nat) (b : Bool) :
    (tableMF st M zk ne ord).validate t rs b ↔ b = true ∧
      rs = (if zk = false ∧ st.zero ∈ t.map Prod.fst then [Graph.nullNotAllowed] else []) ++
        t.flatMap fun e => match e.2 with
          | none => if ne then [] else [Graph.nullNotAllowed]
          | some v => rep v := by
  have key : ∀ (t : Table K V) rs b, TableValidates M (!ne) t rs b ↔ b = true ∧ rs = t.flatMap fun e => match e.2 with
      | none => if ne then [] else [Graph.nullNotAllowed]
      | some v => rep v := by
    intro t
    induction t with
    | nil =>
      intro rs b
      constructor
      · intro h; cases h; exact ⟨rfl, rfl⟩
      · rintro ⟨rfl, rfl⟩; exact .nil
    | cons e t ih =>
      obtain ⟨k, x⟩ := e
      intro rs b
      cases x with
      | none =>
        constructor
        · intro h
          cases h with
          | null _ _ rs2 _ h =>
            obtain ⟨h1, h2⟩ := (ih _ _).mp h
            refine ⟨h1, ?_⟩
            rw [List.flatMap_cons, ← h2]
            cases ne <;> rfl
        · rintro ⟨rfl, rfl⟩
          have := TableValidates.null (M := M) (noNull := !ne) k t _ true ((ih _ true).mpr ⟨rfl, rfl⟩)
          cases ne <;> exact this
      | some v =>
        constructor
        · intro h
          cases h with
          | value _ _ _ rv rs2 _ hv h =>
            obtain ⟨h1, h2⟩ := (ih _ _).mp h
            refine ⟨h1, ?_⟩
            rw [List.flatMap_cons, ← h2, ((hrep _ _ _).mp hv).1]
          | fail _ _ _ _ hv => cases ((hrep _ _ _).mp hv).2
        · rintro ⟨rfl, rfl⟩
          exact .value k v t _ _ true ((hrep _ _ _).mpr ⟨rfl, rfl⟩) ((ih _ true).mpr ⟨rfl, rfl⟩)
  have hz : (if (!zk && (t.find st.zero).isSome) = true then [Graph.nullNotAllowed] else []) =
      (if zk = false ∧ st.zero ∈ t.map Prod.fst then [Graph.nullNotAllowed] else []) := by
    have : ((!zk && (t.find st.zero).isSome) = true) ↔ (zk = false ∧ st.zero ∈ t.map Prod.fst) := by
      rw [Bool.and_eq_true, Bool.not_eq_true', Option.isSome_iff_exists]
      simp only [find_iff ht, List.mem_map, Prod.exists, exists_and_right, exists_eq_right]
    by_cases h : zk = false ∧ st.zero ∈ t.map Prod.fst
    · rw [if_pos h, if_pos (this.mpr h)]
    · rw [if_neg h, if_neg fun h' => h (this.mp h')]
  show (∃ rs', TableValidates M (!ne) t rs' b ∧ rs = _ ++ rs') ↔ _
  rw [hz]
  constructor
  · rintro ⟨rs', h, rfl⟩
    obtain ⟨h1, h2⟩ := (key t _ _).mp h
    exact ⟨h1, by rw [h2]⟩
  · rintro ⟨rfl, rfl⟩
    exact ⟨_, (key t _ _).mpr ⟨rfl, rfl⟩, rfl⟩

/-- The number of errors is the sum over the parts, whatever the order of the entries. -/
theorem C37_error_count (st : Stored K) (M : Managed V) (rep : V → List Nat) (hrep : ∀ v rs b, M.validate v rs b ↔ rs = rep v ∧ b = true)
    (zk ne : Bool) (ord : TableOrder (K × Option V)) (t : Table K V) (ht : t.Ok) (rs : List Nat) (b : Bool)
    (h : (tableMF st M zk ne ord).validate t rs b) :
    rs.length = (if zk = false ∧ st.zero ∈ t.map Prod.fst then 1 else 0) + (if ne then 0 else (t.countP fun e => e.2.isNone)) +
      ((t.filterMap Prod.snd).map fun v => (rep v).length).sum := by
  obtain ⟨rfl, rfl⟩ := (C37_table_validation st M rep hrep zk ne ord t ht rs b).mp h
  rw [List.length_append, Nat.add_assoc]
  congr 1
  · split <;> rfl
  · induction t with
    | nil => cases ne <;> rfl
    | cons e t ih =>
      have ht' : Table.Ok t := (List.nodup_cons.mp ht).2
      obtain ⟨k, x⟩ := e
      rw [List.flatMap_cons, List.length_append]
      have ih' := ih ht' ((C37_table_validation st M rep hrep zk ne ord t ht' _ true).mpr ⟨rfl, rfl⟩)
      rw [ih', List.countP_cons, List.filterMap_cons]
      cases x with
      | none => cases ne <;> simp <;> omega
      | some v => cases ne <;> simp <;> omega

/-- A table with a null entry and an entity without errors meets the hypotheses: one error. -/
example : ∃ rs, (tableMF entityRefStored (graphMF entityRefStored true false false) true false (TableOrder.mk (fun l e => e :: l) (fun _ _ => .refl _))).validate
    [(EntityRef.null, none)] rs true ∧ rs = [Graph.nullNotAllowed] :=
  ⟨_, ⟨_, .null _ _ _ _ .nil, rfl⟩, rfl⟩

/-! ## C53 -/

/-- **C53.** `Insert( key )` is safe exactly when the key is absent or has an entity. A new key gets a default entity and nothing else
changes; a key with an entity keeps it, and the table does not change at all. -/
theorem C53_insert (M : Managed V) (ord : TableOrder (K × Option V)) (t : Table K V) (ht : t.Ok) (k : K) :
    ((∀ x, (k, x) ∉ t) → ∃ t', Table.insertKey M ord k t = .ok M.init t' ∧ t'.Perm ((k, some M.init) :: t)) ∧
    (∀ v, (k, some v) ∈ t → Table.insertKey M ord k t = .ok v t) ∧
    (Table.insertKey M ord k t = .ub ↔ (k, none) ∈ t) := by
  have A : (∀ x, (k, x) ∉ t) → ∃ t', Table.insertKey M ord k t = .ok M.init t' ∧ t'.Perm ((k, some M.init) :: t) := by
    intro h
    have hf : t.find k = none := by
      rcases e : t.find k with _ | x
      · rfl
      · exact absurd ((find_iff ht k x).mp e) (h x)
    have hp := ord.perm t (k, some M.init)
    refine ⟨ord.place t (k, some M.init), ?_, hp⟩
    have hok : Table.Ok (ord.place t (k, some M.init)) := by
      refine (hp.map Prod.fst).nodup_iff.mpr (List.nodup_cons.mpr ⟨fun hm => ?_, ht⟩)
      obtain ⟨⟨k', x⟩, hm', rfl⟩ := List.mem_map.mp hm
      exact h x hm'
    have he : Table.emplace ord t k (some M.init) = (ord.place t (k, some M.init), true) := by
      rw [Table.emplace, hf]; rfl
    rw [Table.insertKey, he]
    dsimp only
    rw [(find_iff hok k (some M.init)).mpr (hp.mem_iff.mpr (List.mem_cons_self ..))]
  have B : ∀ x, (k, x) ∈ t → Table.emplace ord t k (some M.init) = (t, false) := by
    intro x hx
    rw [Table.emplace, (find_iff ht k x).mpr hx]; rfl
  have C : ∀ v, (k, some v) ∈ t → Table.insertKey M ord k t = .ok v t := by
    intro v hv
    rw [Table.insertKey, B _ hv]
    dsimp only
    rw [(find_iff ht k _).mpr hv]
  refine ⟨A, C, fun h => ?_, fun h => ?_⟩
  · by_cases hx : ∃ x, (k, x) ∈ t
    · obtain ⟨x, hx⟩ := hx
      cases x with
      | none => exact hx
      | some v => rw [C v hx] at h; cases h
    · obtain ⟨t', e, -⟩ := A fun x hx' => hx ⟨x, hx'⟩
      rw [e] at h; cases h
  · rw [Table.insertKey, B _ h]
    dsimp only
    rw [(find_iff ht k _).mpr h]

/-- `table[ key ]` is safe exactly when the key has an entity, and then gives it and changes nothing. -/
theorem C53_index (ord : TableOrder (K × Option V)) (t : Table K V) (ht : t.Ok) (k : K) :
    (∀ v, (k, some v) ∈ t → Table.index ord k t = .ok v t) ∧
    ((∀ v, (k, some v) ∉ t) → Table.index ord k t = .ub) := by
  constructor
  · intro v hv
    have : Table.emplace ord t k none = (t, false) := by rw [Table.emplace, (find_iff ht k _).mpr hv]; rfl
    rw [Table.index, this]
    dsimp only
    rw [(find_iff ht k _).mpr hv]
  · intro h
    by_cases hx : ∃ x, (k, x) ∈ t
    · obtain ⟨x, hx⟩ := hx
      cases x with
      | some v => exact absurd hx (h v)
      | none =>
        have : Table.emplace ord t k none = (t, false) := by rw [Table.emplace, (find_iff ht k _).mpr hx]; rfl
        rw [Table.index, this]
        dsimp only
        rw [(find_iff ht k _).mpr hx]
    · have hf : t.find k = none := by
        rcases e : t.find k with _ | x
        · rfl
        · exact absurd ⟨x, (find_iff ht k x).mp e⟩ hx
      have he : Table.emplace ord t k (none : Option V) = (ord.place t (k, none), true) := by rw [Table.emplace, hf]; rfl
      have hp := ord.perm t (k, none)
      have hok : Table.Ok (ord.place t (k, none)) := by
        refine (hp.map Prod.fst).nodup_iff.mpr (List.nodup_cons.mpr ⟨fun hm => ?_, ht⟩)
        obtain ⟨⟨k', x⟩, hm', rfl⟩ := List.mem_map.mp hm
        exact hx ⟨x, hm'⟩
      rw [Table.index, he]
      dsimp only
      rw [(find_iff hok k none).mpr (hp.mem_iff.mpr (List.mem_cons_self ..))]

/-- A table that has the null entry, and one that does not have the key. -/
example : Table.Ok [(1, some true), (2, (none : Option Bool))] := by unfold Table.Ok; decide

end tables

end ISD
