import Verif.Proofs.ForeignReads
import Verif.Props.InPlace

/-!
# C81: objects written by other programs

`Stands` (Spec/Foreign.lean) is the format of objects as a relation: which bytes stand for which object, whoever wrote them. Every such bytes are
read; whatever is read stands for the object that was delivered, except that the declared size of the last section of an entity is not looked
at (`lax`, see C42).
-/

namespace ISD

attribute [local irreducible] dynTable DynClass.all findTypeClass

variable {V : Type} {M : Managed V} {S : ClassSpec V}

/-- **C81.** Bytes in the format are read, into whatever object: `Read` returns true, the object has the contents the bytes stand for, the cursor is
right behind them, and the reader can be used on. -/
theorem C81_every_stored_object_is_read (hM : IsClass M S) (fl : Bool) (v : V) (x : Bytes) (hx : Stands false fl M S v x) (dest : V)
    (hd : S.wf dest) (hdo : S.destOk dest) : ReadsBack M S fl v x dest := by
  intro pre post env fresh r L hsz hr hB
  have h1 := List.length_append (as := pre ++ x) (bs := post)
  have h2 := List.length_append (as := pre) (bs := x)
  obtain ⟨v', hc, hw, hrel⟩ := hx.readAs dest hd hdo ⟨fun _ => true, env.junkKey⟩ fresh fun _ => rfl
  have hsm : Small (pre ++ x ++ post) := by unfold Small; omega
  have r1 := hc r _ pre.length hr hsm (Has.mid pre x post)
  have r2 := C60_accepted_object_needs_little_memory_partial hM ⟨fun _ => true, env.junkKey⟩ env fresh dest hd r _ hsm pre.length (by omega) fl rfl hB _ _ r1
  rw [← h2] at r2
  refine ⟨v', ?_, hw, hrel⟩
  have := C63_same_read hM L env fresh dest hd (r, ⟨pre ++ x ++ post, pre.length, fl⟩)
  revert this
  match M.readInPlace L env fresh ((r, ⟨pre ++ x ++ post, pre.length, fl⟩), dest) with
  | .ok true (st', w) => intro h; rw [r2] at h; cases h; rfl
  | .ok false (st', w) => intro h; rw [r2] at h; cases h
  | .throw (st', w) => intro h; rw [r2] at h; cases h
  | .ub => intro h; rw [r2] at h; cases h

/-- **C81.** Whatever the stream holds and whoever wrote it: if a read into an object returns true before the end of the stream, the bytes it went
over stand for the object as it is now. -/
theorem C81_accepted_objects_stand (hM : IsClass M S) (d : Bytes) (hd : d.length < 2 ^ 60) (fl : Bool) (p : Nat) (hp : p ≤ d.length) (dest : V)
    (hw : S.wf dest) (hdo : S.destOk dest) (L : Leftover) (env : REnv) (fresh : Bytes → Nat) (r : EReader) (v : V) (st : RSt)
    (e : M.readInPlace L env fresh ((r, ⟨d, p, fl⟩), dest) = .ok true (st, v)) (hend : st.2.pos < d.length) :
    ∃ pre x post, d = pre ++ x ++ post ∧ p = pre.length ∧ st.2 = ⟨d, (pre ++ x).length, fl⟩ ∧ Stands true fl M S v x := by
  have hr := C63_same_read hM L env fresh dest hw (r, ⟨d, p, fl⟩)
  rw [e] at hr
  dsimp only at hr
  have := hM.found (fl := fl) hd env fresh dest hw hdo r p hp
  rw [hr] at this
  obtain ⟨p', es, h1, h2, h3⟩ := this
  rw [es] at hend
  obtain ⟨b, hb, ⟨pre, post, hp1, hp2⟩, rfl⟩ := h3 v rfl hend
  refine ⟨pre, b, post, hp1, hp2.symm, ?_, hb⟩
  rw [es, List.length_append, hp2]

/-! ## What this library writes -/

theorem sect_eq (fl : Bool) (k b : Bytes) : Spec.sect fl k b = Spec.sectHead fl k (1 + k.length + b.length) ++ b := by
  simp only [Spec.sect, Spec.largeBlock, Spec.sectHead]

theorem written_block {t : DataType} (ht : t ∈ allTypes) {fl : Bool} {c : Container} {k : Bytes} {v : c.Val t.Val}
    (hl : (Spec.typed fl t c k v).length < 2 ^ 60) : Spec.TypedBlock fl t c k v (Spec.typed fl t c k v) :=
  typed_isBlock (allTypes_ok t ht) fl c k v hl

theorem pairs_flatMap {α : Type} (es : List (α × α)) : Spec.pairs (es.flatMap fun e => [e.1, e.2]) = es := by
  induction es with
  | nil => rfl
  | cons e es ih => simp only [List.flatMap_cons, List.cons_append, List.nil_append, Spec.pairs, ih]

theorem written_elems {K : Type} {fl : Bool} (ih : ∀ v, S.wf v → S.rel .storable v v → ((S.nodes v).bytes fl).length < 2 ^ 60 →
    Stands false fl M S v ((S.nodes v).bytes fl)) (hne : ∀ v, S.nodes v ≠ .nil) : ∀ (t : Table K V), (∀ k v, (k, some v) ∈ t → S.wf v ∧ S.rel .storable v v) →
      (((tableElems S.nodes t).bodies fl).flatMap (Spec.element fl)).length < 2 ^ 60 →
      StandElems false fl M S (t.map Prod.snd) (((tableElems S.nodes t).bodies fl).flatMap (Spec.element fl))
  | [], _, _ => .nil M S
  | (k, none) :: t, hw, hl => by
    rw [tableElems, Elems.bodies, List.flatMap_cons, List.length_append] at hl
    exact .null M S _ _ (written_elems ih hne t (fun k v hm => hw k v (List.mem_cons_of_mem _ hm)) (by omega))
  | (k, some v) :: t, hw, hl => by
    rw [tableElems, Elems.bodies, List.flatMap_cons, List.length_append, element_length] at hl
    obtain ⟨h1, h2⟩ := hw k v List.mem_cons_self
    exact .value M S v _ _ _ (ih v h1 h2 (by rw [show Option.elim (some v) Nodes.nil S.nodes = S.nodes v from rfl] at hl; omega))
      (nodes_bytes_ne (hne v) fl) (written_elems ih hne t (fun k v hm => hw k v (List.mem_cons_of_mem _ hm)) (by omega))

mutual
  theorem IsClass.written (fl : Bool) : ∀ {V : Type} {M : Managed V} {S : ClassSpec V}, IsClass M S → ∀ v, S.wf v → S.rel .storable v v →
      ((S.nodes v).bytes fl).length < 2 ^ 60 → Stands false fl M S v ((S.nodes v).bytes fl)
    | _, _, _, @IsClass.graph _ _ st h a r s, v, hw, hs, hl => by
      simp only [graphSpec, Nodes.bytes, Node.bytes, List.append_nil, List.length_append] at hl ⊢
      refine .graph st h a r s v _ _ _ _ (written_block (c := .vector) h.mem (by omega)) (written_block (c := .vector) h.mem (by omega)) (fun n => ?_) fun e => ?_
      · rw [map_inv h]
      · rw [flatMap_inv h, pairs_flatMap]
    | _, _, _, .idx t h, v, hw, hs, hl => by
      simp only [idxSpec, Nodes.bytes, Node.bytes, List.append_nil] at hl ⊢
      exact .idx t h v _ (written_block (c := .idxVector) h hl)
    | _, _, _, .varying, v, hw, hs, hl => by
      rcases varying_cases v hw with hn | ⟨i, j, t, c, x, rfl, h1, h2⟩
      · rcases hs with ⟨_, _, h⟩ | ⟨o, p, h, _⟩
        · exact h.elim
        · rw [hn] at h; cases h
      · obtain ⟨hi, hj⟩ := ids_small h1 h2
        have w16 : ∀ {n : Nat}, n < 2 ^ 16 → (BitVec.ofNat 32 n).setWidth 16 = BitVec.ofNat 16 n := by
          intro n hn
          apply BitVec.eq_of_toNat_eq
          simp only [BitVec.toNat_setWidth, BitVec.toNat_ofNat]
          omega
        rw [varying_bytes, w16 hi, w16 hj] at hl ⊢
        rw [← List.append_assoc] at hl ⊢
        simp only [List.length_append] at hl
        exact .varying i j t c x _ _ _ h1 h2 (written_block (c := .none) u16_mem (by omega)) (written_block (c := .none) u16_mem (by omega))
          (written_block (typeId_mem h1) (by omega))
    | _, _, _, @IsClass.table _ _ _ st h M S hM zk ne ord, t, hw, hs, hl => by
      rw [table_bytes, Spec.sectArray, Option.elim_some, bodies_length, tableElems_length] at hl ⊢
      rw [List.length_append, largeBlock_length, List.length_append] at hl
      have hk : t.map Prod.fst = (t.map fun e => st.toVal e.1).map st.ofVal := by
        rw [List.map_map]; exact List.map_congr_left fun e _ => (h.inv e.1).symm
      exact .table st h M S hM zk ne ord t t _ 0 _ _ (.refl _) hk hw.1 (written_block (c := .vector) h.mem (by omega)) (by decide) rfl rfl
        (written_elems (fun v => hM.written fl v) hM.lawful.nodes_ne t (fun k v hm => ⟨hw.2 k v hm, rel_storable_mem hw hs hm⟩) (by omega))
    | _, _, _, .entity ss h hne, v, hw, hs, hl => .entity ss v _ (h.written fl v hw hs hl)
  theorem AreFields.written (fl : Bool) : ∀ {fs : List Field} {ss : FieldSpecs fs}, AreFields ss → ∀ v : FieldsVal fs, ss.wf v → ss.rel .storable v v →
      ((ss.nodes v).bytes fl).length < 2 ^ 60 → StandFields false fl ss v ((ss.nodes v).bytes fl)
    | _, _, .nil, _, _, _, _ => .nil
    | _, _, @AreFields.base k t c fs rest hk ht h, v, hw, hs, hl => by
      have hl : (Spec.typed fl t c k v.1 ++ (rest.nodes v.2).bytes fl).length < 2 ^ 60 := hl
      rw [List.length_append] at hl
      exact .base k hk t ht c rest v.1 v.2 _ _ (written_block ht (by omega)) (h.written fl v.2 hw hs.2 (by omega))
    | _, _, @AreFields.sub k V M S fs rest hk hM h, v, hw, hs, hl => by
      have hl : (Spec.sect fl k ((S.nodes v.1).bytes fl) ++ (rest.nodes v.2).bytes fl).length < 2 ^ 60 := hl
      rw [List.length_append, Spec.sect, largeBlock_length] at hl
      show StandFields false fl _ _ (Spec.sect fl k ((S.nodes v.1).bytes fl) ++ (rest.nodes v.2).bytes fl)
      rw [sect_eq]
      exact .sub k hk M S rest v.1 v.2 _ _ _ (by omega) (.inl ⟨nodes_bytes_ne (hM.lawful.nodes_ne _) fl, rfl⟩) (hM.written fl v.1 hw.1 hs.1 (by omega))
        (h.written fl v.2 hw.2 hs.2 (by omega))
end

/-- **C81.** What `Write` stores is in the format and stands for the object. -/
theorem C81_what_is_written_stands (hM : IsClass M S) (fl : Bool) (v : V) (hv : Storable S fl v) (x : Bytes) (hx : StoredAs M v fl x)
    (hl : x.length < 2 ^ 59) : Stands false fl M S v x := by
  rw [storedAs_unique hM hv (by omega) hx]
  exact hM.written fl v hv.wf hv.initialised (by have := hv.small; omega)

/-- **C81.** The format is unambiguous: bytes that begin with a stored object stand for one object only, and tell where it ends. -/
theorem C81_unambiguous (hM : IsClass M S) (fl : Bool) (v w : V) (x y p q : Bytes) (hsz : (x ++ p).length < 2 ^ 60) (h : x ++ p = y ++ q)
    (hx : Stands false fl M S v x) (hy : Stands false fl M S w y) : S.rel .exact v w ∧ x = y ∧ p = q := by
  have hL := hM.lawful
  obtain ⟨a, h1, -, ra⟩ := hx.readAs M.init hL.init_wf hL.init_dest luckyEnv (fun _ => 0) luckyEnv_lucky
  obtain ⟨b, h2, -, rb⟩ := hy.readAs M.init hL.init_wf hL.init_dest luckyEnv (fun _ => 0) luckyEnv_lucky
  have r1 := h1 (EReader.create 0 0) (x ++ p) 0 (rcreate_idle _ _) hsz (Has.mid [] x p)
  have r2 := h2 (EReader.create 0 0) (x ++ p) 0 (rcreate_idle _ _) hsz (by rw [h]; exact Has.mid [] y q)
  rw [r1] at r2
  simp only [Res.ok.injEq, Option.some.injEq, Prod.mk.injEq, RStream.mk.injEq, true_and, and_true, Nat.zero_add] at r2
  obtain ⟨rfl, e2⟩ := r2
  exact ⟨hL.exact_trans (hL.exact_symm ra) rb, List.append_inj h e2⟩

/-! ## Cases -/

/-- **C81**: the exception is needed. `longSection` (C42) is accepted, but does not begin with an object in the format: its last section declares one
size and holds another. -/
theorem C81_last_section_size_not_checked (v : FieldsVal demoSceneFields) (x post : Bytes) (h : longSection = x ++ post) :
    ¬ Stands false false (entityMF demoSceneFields) (entitySpec (sceneSpecs frontOrder frontOrder frontOrder)) v x := by
  intro hx
  obtain ⟨a, h1, -, -⟩ := hx.readAs (fieldsInit _) ⟨⟨List.nodup_nil, fun k v h => (nomatch h)⟩, trivial⟩ ⟨trivial, trivial⟩ luckyEnv (fun _ => 1) luckyEnv_lucky
  have r1 := h1 (EReader.create 0 0) longSection 0 (rcreate_idle _ _) (show longSection.length < 2 ^ 60 by decide +kernel) (by rw [h]; exact Has.mid [] x post)
  have r2 := C42_false_for_the_last_section
  rw [r1] at r2
  cases r2

/-- Two references, and their stored values. -/
def foreignA : EntityRef := ⟨⟨1, 0, 0, Vector.replicate 8 0⟩⟩
def foreignB : EntityRef := ⟨⟨2, 0, 0, Vector.replicate 8 0⟩⟩

/-- A graph as another program may have stored it: its root twice, its edges not in order and one of them twice. -/
def foreignGraph : Bytes :=
  Spec.typed false entityRefType .vector (key "Roots") ([foreignA, foreignA].map entityRefStored.toVal) ++
  Spec.typed false entityRefType .vector (key "Edges") ([foreignB, foreignA, foreignA, foreignB, foreignB, foreignA].map entityRefStored.toVal)

/-- **C81**: these bytes are in the format and stand for the graph with that root and those two edges, which this library would store in other
bytes. -/
theorem C81_stored_by_another_program :
    Stands false false (graphMF entityRefStored true true false) (graphSpec entityRefStored true true false)
      ⟨[foreignA], [(foreignA, foreignB), (foreignB, foreignA)]⟩ foreignGraph ∧
    foreignGraph.length = 178 ∧
    (((graphSpec entityRefStored true true false).nodes ⟨[foreignA], [(foreignA, foreignB), (foreignB, foreignA)]⟩).bytes false).length = 130 := by
  refine ⟨.graph entityRefStored entityRef_good true true false _ _ _ _ _ (written_block (c := .vector) entityRef_good.mem (by decide +kernel))
    (written_block (c := .vector) entityRef_good.mem (by decide +kernel)) (fun n => ?_) (fun e => ?_), by decide +kernel, by decide +kernel⟩
  · exact Iff.trans (b := n ∈ [foreignA, foreignA]) (by simp) (Iff.of_eq (congrArg (n ∈ ·) (map_inv entityRef_good _).symm))
  · exact Iff.trans (b := e ∈ Spec.pairs [foreignB, foreignA, foreignA, foreignB, foreignB, foreignA])
      (by simp only [Spec.pairs, List.mem_cons, List.not_mem_nil, or_false]
          exact ⟨fun h => h.elim (fun h => .inr (.inl h)) .inl, fun h => h.elim .inr fun h => h.elim .inl .inr⟩)
      (Iff.of_eq (congrArg (e ∈ Spec.pairs ·) (map_inv entityRef_good _).symm))

end ISD
