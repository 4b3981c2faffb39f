import Verif.Proofs.EntityEnds
import Verif.Props.Hostile

/-! # Reading whole objects from arbitrary bytes -/

namespace ISD

attribute [local irreducible] dynTable DynClass.all findTypeClass

set_option linter.unusedVariables false

/-! ## What the classes read -/

mutual
  /-- The base values the class reads are all among those that `H` allows (by type, container and name). -/
  inductive OnlyReads (H : DataType → Container → Bytes → Prop) : {V : Type} → Managed V → ClassSpec V → Prop where
    | graph {α : Type} [NodeType α] (st : Stored α) (h : st.Good) (h1 : H st.ty .vector (key "Roots")) (h2 : H st.ty .vector (key "Edges"))
        (acyclic rooted singleRoot : Bool) : OnlyReads H (graphMF st acyclic rooted singleRoot) (graphSpec st acyclic rooted singleRoot)
    | idx (t : DataType) (h : t ∈ allTypes) (h1 : H t .idxVector (key "Values")) : OnlyReads H (idxMF t) (idxSpec t)
    | varying (h : ∀ t ∈ allTypes, ∀ c, H t c (key "Data")) : OnlyReads H varyingMF varyingSpec
    | table {K V : Type} [DecidableEq K] (st : Stored K) (h : st.Good) (h1 : H st.ty .vector (key "IDs")) {M : Managed V} {S : ClassSpec V}
        (hM : OnlyReads H M S) (zeroKeys nullEntities : Bool) (ord : TableOrder (K × Option V)) :
        OnlyReads H (tableMF st M zeroKeys nullEntities ord) (tableSpec st S zeroKeys nullEntities)
    | entity {fs : List Field} (ss : FieldSpecs fs) (h : FieldsOnlyRead H ss) : OnlyReads H (entityMF fs) (entitySpec ss)
  /-- See `OnlyReads`. -/
  inductive FieldsOnlyRead (H : DataType → Container → Bytes → Prop) : {fs : List Field} → FieldSpecs fs → Prop where
    | nil : FieldsOnlyRead H .nil
    | base {k t c fs} {rest : FieldSpecs fs} (hk : k.length ≤ 40) (ht : t ∈ allTypes) (h1 : H t c k) (h : FieldsOnlyRead H rest) :
        FieldsOnlyRead H (.base k t c rest)
    | sub {k V} {M : Managed V} {S : ClassSpec V} {fs} {rest : FieldSpecs fs} (hk : k.length ≤ 40) (hM : OnlyReads H M S)
        (h : FieldsOnlyRead H rest) : FieldsOnlyRead H (.sub k M S rest)
end

/-! ## Programs on a reader -/

/-- As `Wp`, for a routine on a reader object. -/
def RWp {α : Type} (d : Bytes) (fl : Bool) (p : Nat) (r : Res RSt α) (Q : α → EReader → Nat → Prop) (U : Prop := False) : Prop :=
  match r with
  | .ok a st => ∃ p', st.2 = ⟨d, p', fl⟩ ∧ p ≤ p' ∧ p' ≤ d.length ∧ Q a st.1 p'
  | .throw st => ∃ p', st.2 = ⟨d, p', fl⟩ ∧ p ≤ p' ∧ p' ≤ d.length
  | .ub => U

namespace RWp

theorem weaken {α : Type} {d : Bytes} {fl : Bool} {p : Nat} {r : Res RSt α} {Q : α → EReader → Nat → Prop} {U : Prop} (h : RWp d fl p r Q) :
    RWp d fl p r Q U := by
  cases r with
  | ok a s => exact h
  | throw s => exact h
  | ub => exact h.elim

variable {α β : Type} {U : Prop} {d : Bytes} {fl : Bool} {p : Nat} {rd : EReader}

theorem bind {x : Prog RSt α} {f : α → Prog RSt β} {P : α → EReader → Nat → Prop} {Q : β → EReader → Nat → Prop}
    (hx : RWp d fl p (x (rd, ⟨d, p, fl⟩)) P U)
    (hf : ∀ a r p', p ≤ p' → p' ≤ d.length → P a r p' → RWp d fl p' (f a (r, ⟨d, p', fl⟩)) Q U) :
    RWp d fl p ((x >>= f) (rd, ⟨d, p, fl⟩)) Q U := by
  rw [Prog.bind_apply]
  cases e : x (rd, ⟨d, p, fl⟩) with
  | ok a s =>
    rw [e] at hx
    obtain ⟨r, s⟩ := s
    obtain ⟨p', hs, h1, h2, h3⟩ := hx
    dsimp only at hs h3
    subst hs
    have := hf a r p' h1 h2 h3
    show RWp d fl p (f a (r, ⟨d, p', fl⟩)) Q U
    revert this
    cases f a (r, ⟨d, p', fl⟩) with
    | ok b s => rintro ⟨p2, e2, h4, h5, h6⟩; exact ⟨p2, e2, Nat.le_trans h1 h4, h5, h6⟩
    | throw s => rintro ⟨p2, e2, h4, h5⟩; exact ⟨p2, e2, Nat.le_trans h1 h4, h5⟩
    | ub => exact id
  | throw s => rw [e] at hx; exact hx
  | ub => rw [e] at hx; exact hx

theorem pure {a : α} {Q : α → EReader → Nat → Prop} (hp : p ≤ d.length) (h : Q a rd p) :
    RWp d fl p ((Pure.pure a : Prog RSt α) (rd, ⟨d, p, fl⟩)) Q U := ⟨p, rfl, Nat.le_refl _, hp, h⟩

theorem get {f : RSt → Prog RSt β} {Q : β → EReader → Nat → Prop} (h : RWp d fl p (f (rd, ⟨d, p, fl⟩) (rd, ⟨d, p, fl⟩)) Q U) :
    RWp d fl p ((Prog.get >>= f) (rd, ⟨d, p, fl⟩)) Q U := h

theorem ite {c : Prop} [Decidable c] {x y : Prog RSt α} {Q : α → EReader → Nat → Prop}
    (h1 : c → RWp d fl p (x (rd, ⟨d, p, fl⟩)) Q U) (h2 : ¬ c → RWp d fl p (y (rd, ⟨d, p, fl⟩)) Q U) :
    RWp d fl p ((if c then x else y) (rd, ⟨d, p, fl⟩)) Q U := by
  by_cases h : c
  · rw [if_pos h]; exact h1 h
  · rw [if_neg h]; exact h2 h

theorem mono {r : Res RSt α} {P Q : α → EReader → Nat → Prop} (h : RWp d fl p r P U)
    (hm : ∀ a r p', p ≤ p' → p' ≤ d.length → P a r p' → Q a r p') : RWp d fl p r Q U := by
  cases r with
  | ok a s => obtain ⟨p', e, h1, h2, h3⟩ := h; exact ⟨p', e, h1, h2, hm a _ p' h1 h2 h3⟩
  | throw s => exact h
  | ub => exact h

theorem onR {x : Prog RStream α} {Q : α → Nat → Prop} (h : Wp d fl p (x ⟨d, p, fl⟩) Q U) :
    RWp d fl p (onRStream x (rd, ⟨d, p, fl⟩)) (fun a r p' => r = rd ∧ Q a p') U := by
  unfold onRStream
  dsimp only
  cases e : x ⟨d, p, fl⟩ with
  | ok a s => rw [e] at h; obtain ⟨p', rfl, h1, h2, h3⟩ := h; exact ⟨p', rfl, h1, h2, rfl, h3⟩
  | throw s => rw [e] at h; obtain ⟨p', rfl, h1, h2⟩ := h; exact ⟨p', rfl, h1, h2⟩
  | ub => rw [e] at h; exact h

theorem metaR {env : REnv} {e : Nat} {wi : Bool} {Q : Option (Nat × Nat × List (Word 4)) → Nat → Prop}
    (h : Wp d fl p (readArrayMetadataAndIndex env e wi ⟨d, p, fl⟩) Q U) :
    RWp d fl p (readSectionsMetadata env e wi (rd, ⟨d, p, fl⟩)) (fun m r p' => (∃ n, r = { rd with activeArraySize := n } ∧
      ∀ k c idx, m = some (k, c, idx) → n = c) ∧ Q m p') U := by
  unfold readSectionsMetadata
  dsimp only
  cases e1 : readArrayMetadataAndIndex env e wi ⟨d, p, fl⟩ with
  | ok a s =>
    rw [e1] at h
    obtain ⟨p', rfl, h1, h2, h3⟩ := h
    refine ⟨p', rfl, h1, h2, ⟨_, rfl, fun k c idx hm => ?_⟩, h3⟩
    subst hm
    rw [metadataCount_eq e1, Option.getD_some]
  | throw s => rw [e1] at h; obtain ⟨p', rfl, h1, h2⟩ := h; exact ⟨p', rfl, h1, h2⟩
  | ub => rw [e1] at h; exact h

theorem inSub {x : Prog RSt α} {r : EReader} {Q : α → EReader → Nat → Prop} (hr : rd.activeSubsection = some r)
    (h : RWp d fl p (x (r, ⟨d, p, fl⟩)) Q U) :
    RWp d fl p (inRSubsection x (rd, ⟨d, p, fl⟩)) (fun a r' p' => ∃ r2, r' = { rd with activeSubsection := some r2 } ∧ Q a r2 p') U := by
  unfold inRSubsection
  dsimp only
  rw [hr]
  dsimp only
  cases e : x (r, ⟨d, p, fl⟩) with
  | ok a s => rw [e] at h; obtain ⟨r2, s⟩ := s; obtain ⟨p', hs, h1, h2, h3⟩ := h; exact ⟨p', hs, h1, h2, r2, rfl, h3⟩
  | throw s => rw [e] at h; obtain ⟨r2, s⟩ := s; obtain ⟨p', hs, h1, h2⟩ := h; exact ⟨p', hs, h1, h2⟩
  | ub => rw [e] at h; exact h

end RWp

/-! ## The section calls -/

section calls

variable {d : Bytes} {fl : Bool} {p : Nat} {rd : EReader}

theorem emptyLarge_wp (hp : p ≤ d.length) (na : Bool) (e : Nat) :
    Wp d fl p (endReadEmptyLargeBlock (α := Unit) na e ⟨d, p, fl⟩) fun st _ => na = false → st = .fail := by
  rw [endReadEmptyLargeBlock]
  refine Wp.ite (fun h => ?_) fun _ => Wp.pure hp fun _ => rfl
  refine Wp.bind (endLarge_wp fl hp e) fun b p' h1 h2 h3 => ?_
  exact Wp.ite (fun _ => Wp.pure h2 fun _ => rfl) fun _ => Wp.pure h2 fun h' => by rw [h'] at h; cases h

theorem beginSection_rwp (env : REnv) (hd : Small d) (hp : p ≤ d.length) (fresh : Nat) (key : Bytes) (hk : key.length ≤ 40) :
    RWp d fl p (beginReadSection env fresh key false (rd, ⟨d, p, fl⟩)) fun x r _ => x.2 = true →
      x.1 = some fresh ∧ ∃ sub, r.activeSubsection = some sub := by
  rw [beginReadSection]
  refine .get (.ite (fun _ => .pure hp (by simp)) fun _ => ?_)
  refine .bind (.onR (beginLarge_wp env fl hd hp vtSubsection (by decide) key hk)) fun e r p1 h1 h2 h3 => ?_
  refine .ite (fun _ => .pure h2 (by simp)) fun _ => .get (.ite (fun _ => ?_) fun _ => ?_)
  · refine .bind (.onR (emptyLarge_wp h2 false e)) fun st r p2 h4 h5 h6 => ?_
    obtain rfl := h6.2 rfl
    exact .pure h5 (by simp)
  · exact ⟨p1, rfl, Nat.le_refl _, h2, fun _ => ⟨rfl, _, rfl⟩⟩

theorem endSection_rwp (hp : p ≤ d.length) (a : Nat) :
    RWp d fl p (endReadSection (some a) (rd, ⟨d, p, fl⟩)) fun _ _ _ => True := by
  rw [endReadSection]
  refine .get (.ite (fun _ => .pure hp trivial) fun h => ?_)
  dsimp only at h ⊢
  cases e : rd.activeSubsection with
  | none => rw [EReader.subPtr, e] at h; simp at h
  | some sub =>
    dsimp only
    refine .bind (.onR (endLarge_wp fl hp _)) fun b r p1 h1 h2 h3 => ?_
    exact .ite (fun _ => .pure h2 trivial) fun _ => ⟨p1, rfl, Nat.le_refl _, h2, trivial⟩

theorem beginArray_rwp (env : REnv) (hd : Small d) (hp : p ≤ d.length) (fresh : Nat) (key : Bytes) (hk : key.length ≤ 40) (wi : Bool) :
    RWp d fl p (beginReadSectionsArray env fresh key false wi (rd, ⟨d, p, fl⟩)) fun x r _ => x.2.2.1 = true →
      x.1 = some fresh ∧ ∃ sub, r.activeSubsection = some sub := by
  rw [beginReadSectionsArray]
  refine .get (.ite (fun _ => .pure hp (by simp)) fun _ => ?_)
  refine .bind (.onR (beginLarge_wp env fl hd hp vtArraySubsection (by decide) key hk)) fun e r p1 h1 h2 h3 => ?_
  refine .ite (fun _ => .pure h2 (by simp)) fun _ => .get (.ite (fun _ => ?_) fun _ => ?_)
  · refine .bind (.onR (emptyLarge_wp h2 false e)) fun st r p2 h4 h5 h6 => ?_
    obtain rfl := h6.2 rfl
    exact .pure h5 (by simp)
  · refine .bind (.metaR (meta_wp env fl hd h2 e wi)) fun m r p2 h4 h5 h6 => ?_
    cases m with
    | none => exact .pure h5 (by simp)
    | some m => exact ⟨p2, rfl, Nat.le_refl _, h5, fun _ => ⟨rfl, _, rfl⟩⟩

theorem beginInArray_rwp (hd : Small d) (hp : p ≤ d.length) (a i : Nat) (w : Bool) :
    RWp d fl p (beginReadSectionInArray (some a) i w (rd, ⟨d, p, fl⟩)) fun x r _ => x.1 = true → ∃ sub, r.activeSubsection = some sub := by
  rw [beginReadSectionInArray]
  refine .get (.ite (fun _ => .pure hp (by simp)) fun h => .ite (fun _ => .pure hp (by simp)) fun _ =>
    .ite (fun _ => .pure hp (by simp)) fun _ => ?_)
  refine .bind (.onR (u64_wp fl hd hp)) fun size r p1 h1 h2 h3 => ?_
  obtain ⟨rfl, -⟩ := h3
  have hs : ∃ sub, r.activeSubsection = some sub := by
    dsimp only at h
    cases e : r.activeSubsection with
    | none => rw [EReader.subPtr, e] at h; simp at h
    | some sub => exact ⟨sub, rfl⟩
  refine .bind (P := fun _ r' _ => ∃ sub, r'.activeSubsection = some sub) ⟨p1, rfl, Nat.le_refl _, h2, hs⟩ fun _ r' p2 h4 h5 h6 => ?_
  refine .ite (fun _ => .ite (fun _ => .pure h5 (by simp)) fun _ => .pure h5 fun _ => h6) fun _ => .pure h5 fun _ => h6

theorem endInArray_rwp (hp : p ≤ d.length) (ptr : Option Nat) (i : Nat) :
    RWp d fl p (endReadSectionInArray ptr i (rd, ⟨d, p, fl⟩)) fun _ r _ => r = rd := by
  rw [endReadSectionInArray]
  exact .get (.ite (fun _ => .pure hp rfl) fun _ => .ite (fun _ => .pure hp rfl) fun _ => .pure hp rfl)

theorem endArray_rwp (hp : p ≤ d.length) (a : Nat) :
    RWp d fl p (endReadSectionsArray (some a) (rd, ⟨d, p, fl⟩)) fun _ _ _ => True := by
  rw [endReadSectionsArray]
  refine .get (.ite (fun _ => .pure hp trivial) fun h => .ite (fun _ => .pure hp trivial) fun _ => ?_)
  dsimp only at h ⊢
  cases e : rd.activeSubsection with
  | none => rw [EReader.subPtr, e] at h; simp at h
  | some sub =>
    dsimp only
    refine .bind (.onR (endLarge_wp fl hp _)) fun b r p1 h1 h2 h3 => ?_
    exact .ite (fun _ => .pure h2 trivial) fun _ => ⟨p1, rfl, Nat.le_refl _, h2, trivial⟩

end calls

/-! ## The classes -/

/-- The object has the invariants of its class and can be written: every Varying in it is initialised. -/
def ClassSpec.Sound {V : Type} (S : ClassSpec V) (v : V) : Prop := S.wf v ∧ S.rel .storable v v

/-- Reading an object of the class from these bytes, at any position, with any reader and destination, is safe (or `U`) and makes an object
with the invariants of the class that can be written. -/
def SafeReads {V : Type} (M : Managed V) (S : ClassSpec V) (d : Bytes) (fl : Bool) (U : Prop := False) : Prop :=
  ∀ (env : REnv) (fresh : Bytes → Nat) (v : V), S.wf v → ∀ (rd : EReader) (p : Nat), p ≤ d.length →
    RWp d fl p (M.read env fresh v (rd, ⟨d, p, fl⟩)) (fun r _ _ => ∀ v', r = some v' → S.Sound v') U

/-- The bytes have right counts for all the reads in `H`, or `U`. -/
def CountsOk (H : DataType → Container → Bytes → Prop) (d : Bytes) (fl : Bool) (U : Prop := False) : Prop :=
  ∀ t c k, H t c k → ∀ p, p ≤ d.length → CountOk d fl p t c k ∨ U

section classes

variable {H : DataType → Container → Bytes → Prop} {U : Prop} {d : Bytes} {fl : Bool}

theorem baseRead_rwp (env : REnv) (hd : Small d) {t : DataType} {c : Container} {k : Bytes} (ht : t ∈ allTypes) (hk : k.length ≤ 40)
    (dest : c.Val t.Val) {p : Nat} (hp : p ≤ d.length) (hc : CountOk d fl p t c k ∨ U) (rd : EReader) :
    RWp d fl p (EReader.read env t c k dest (rd, ⟨d, p, fl⟩)) (fun _ _ _ => True) U :=
  .mono (.onR (readTyped_wp env fl hd hp (allTypes_ok t ht) c k hk dest hc)) fun _ _ _ _ _ _ => trivial

theorem insertPairs_valid {α : Type} [NodeType α] : ∀ (l : List α) (g : Graph α), g.Valid → (insertPairs g l).Valid
  | [], _, h => h
  | [_], _, h => h
  | a :: b :: rest, g, h => insertPairs_valid rest _ (h.insertEdge a b)

theorem graph_safe {α : Type} [NodeType α] {st : Stored α} (h : st.Good) (h1 : H st.ty .vector (key "Roots"))
    (h2 : H st.ty .vector (key "Edges")) (a r s : Bool) (hd : Small d) (hc : CountsOk H d fl U) :
    SafeReads (graphMF st a r s) (graphSpec st a r s) d fl U := by
  intro env fresh v hv rd p hp
  refine .bind (baseRead_rwp env hd h.mem (by decide) _ hp (hc _ _ _ h1 _ hp) rd) fun x r1 p1 _ g1 _ => ?_
  cases x with
  | none => exact .pure g1 fun v' e => (nomatch e)
  | some roots =>
    refine .bind (baseRead_rwp env hd h.mem (by decide) _ g1 (hc _ _ _ h2 _ g1) r1) fun y r2 p2 _ g2 _ => ?_
    cases y with
    | none => exact .pure g2 fun v' e => (nomatch e)
    | some pairs =>
      refine .pure g2 fun v' e => ?_
      obtain rfl := Option.some.inj e
      exact ⟨insertPairs_valid _ _ ⟨OrdSet.sorted_ofList _, List.Pairwise.nil⟩, fun _ => Iff.rfl, fun _ => Iff.rfl⟩

theorem idx_safe {t : DataType} (h : t ∈ allTypes) (h1 : H t .idxVector (key "Values")) (hd : Small d) (hc : CountsOk H d fl U) :
    SafeReads (idxMF t) (idxSpec t) d fl U := by
  intro env fresh v hv rd p hp
  refine .bind (baseRead_rwp env hd h (by decide) _ hp (hc _ _ _ h1 _ hp) rd) fun x r1 p1 _ g1 _ => ?_
  cases x with
  | none => exact .pure g1 fun v' e => (nomatch e)
  | some x => exact .pure g1 fun v' e => ⟨trivial, Container.Rel.refl (fun _ => rfl) .idxVector v'⟩

theorem onVarying_rwp {v : Varying} {q : Prog Varying Bool} {b : Bool} {v' : Varying} (h : q v = .ok b v') {p : Nat} (hp : p ≤ d.length) (rd : EReader) :
    RWp d fl p (onVarying v q (rd, ⟨d, p, fl⟩)) (fun x r _ => x = (b, v') ∧ r = rd) U := by
  unfold onVarying
  rw [h]
  exact ⟨p, rfl, Nat.le_refl _, hp, rfl, rfl⟩

/-- `SetType` on a well formed Varying succeeds exactly for the registered pairs. -/
theorem setType_any {v : Varying} (h : varyingSpec.wf v) (dt ct : Word 4) :
    Varying.setType dt ct v = .ok (newType dt ct).isSome ⟨dt, ct, newType dt ct⟩ := by
  obtain ⟨v', e, _, _⟩ := deinitialize_ok h
  rw [Varying.setType, Prog.bind_ok e, if_neg (by decide)]
  rfl

theorem newType_wf (dt ct : Word 4) : varyingSpec.wf ⟨dt, ct, newType dt ct⟩ ∧
    ∀ o, newType dt ct = some o → ∃ cl, findTypeClass dt ct = some cl ∧ o.t ∈ allTypes ∧ o.madeBy cl = true := by
  have key : ∀ o, newType dt ct = some o → ∃ cl, findTypeClass dt ct = some cl ∧ Spec.TypeId cl.dt o.t ∧ Spec.ContainerId cl.ct o.c ∧
      dt = BitVec.ofNat 32 cl.dt ∧ ct = BitVec.ofNat 32 cl.ct ∧ o.madeBy cl = true := by
    intro o ho
    unfold newType at ho
    obtain ⟨cl, e, rfl⟩ := Option.map_eq_some_iff.mp ho
    obtain ⟨h1, h2, h3, h4⟩ := find_ids e
    exact ⟨cl, e, h1, h2, h3, h4, decide_eq_true ⟨rfl, rfl⟩⟩
  refine ⟨fun o ho => ?_, fun o ho => ?_⟩
  · obtain ⟨cl, _, h1, h2, h3, h4, _⟩ := key o ho
    exact ⟨_, _, h1, h2, h3, h4⟩
  · obtain ⟨cl, h0, h1, _, _, _, h5⟩ := key o ho
    exact ⟨cl, h0, typeId_mem h1, h5⟩

theorem varying_safe (h : ∀ t ∈ allTypes, ∀ c, H t c (key "Data")) (hd : Small d) (hc : CountsOk H d fl U) :
    SafeReads varyingMF varyingSpec d fl U := by
  intro env fresh v hv rd p hp
  obtain ⟨v1, e1, hn, -⟩ := deinitialize_ok hv
  have hw1 : varyingSpec.wf v1 := fun o ho => by rw [hn] at ho; cases ho
  show RWp d fl p (Varying.read env v (rd, ⟨d, p, fl⟩)) _ U
  rw [Varying.read]
  refine .bind (onVarying_rwp e1 hp rd) fun x r1 p1 _ g1 hx => ?_
  obtain ⟨rfl, rfl⟩ := hx
  dsimp only
  refine .bind (baseRead_rwp env hd u16_mem (by decide) _ g1 (.inl (.inl rfl)) r1) fun x r2 p2 _ g2 _ => ?_
  cases x with
  | none => exact .pure g2 fun v' e => (nomatch e)
  | some ty =>
    refine .bind (baseRead_rwp env hd u16_mem (by decide) _ g2 (.inl (.inl rfl)) r2) fun x r3 p3 _ g3 _ => ?_
    cases x with
    | none => exact .pure g3 fun v' e => (nomatch e)
    | some ct =>
      dsimp only
      generalize BitVec.setWidth 32 (u16Of ty) = dt
      generalize BitVec.setWidth 32 (u16Of ct) = ct
      refine .bind (onVarying_rwp (setType_any hw1 dt ct) g3 r3) fun x r4 p4 _ g4 hx => ?_
      obtain ⟨rfl, rfl⟩ := hx
      dsimp only
      refine .ite (fun _ => .pure g4 fun v' e => (nomatch e)) fun hs => ?_
      obtain ⟨hw, hf⟩ := newType_wf dt ct
      cases ho : newType dt ct with
      | none => exact .pure g4 fun v' e => (nomatch e)
      | some o =>
        dsimp only
        obtain ⟨cl, hfind, hmem, hmade⟩ := hf o ho
        rw [hfind]
        dsimp only
        rw [if_pos hmade]
        refine .bind (baseRead_rwp env hd hmem (by decide) _ g4 (hc _ _ _ (h _ hmem _) _ g4) r4) fun x r5 p5 _ g5 _ => ?_
        cases x with
        | none => exact .pure g5 fun v' e => (nomatch e)
        | some x =>
          refine .pure g5 fun v' e => ?_
          obtain rfl := Option.some.inj e
          refine ⟨fun o' ho' => ?_, .inr ⟨_, _, rfl, rfl, rfl, rfl, .mk _ _ _ _ (Container.Rel.refl (fun _ => rfl) _ _)⟩⟩
          obtain rfl := Option.some.inj ho'
          obtain ⟨i, j, a1, a2, a3, a4⟩ := hw o ho
          exact ⟨i, j, a1, a2, a3, a4⟩

section table

variable {K V : Type} [DecidableEq K] {M : Managed V} {S : ClassSpec V}

/-- The keys are distinct and the values sound. -/
def TableWf (S : ClassSpec V) (t : Table K V) : Prop := (t.map Prod.fst).Nodup ∧ ∀ k v, (k, some v) ∈ t → S.Sound v

theorem TableWf.emplace {ord : TableOrder (K × Option V)} {t : Table K V} (h : TableWf S t) {k : K} (hk : ¬ (t.find k).isSome = true)
    {x : Option V} (hx : ∀ v, x = some v → S.Sound v) : TableWf S (t.emplace ord k x).1 := by
  have hf : t.find k = none := by
    cases e : t.find k with
    | none => rfl
    | some y => rw [e] at hk; exact absurd rfl hk
  rw [emplace_new hf]
  have hp := ord.perm t (k, x)
  refine ⟨?_, fun k' v hm => ?_⟩
  · rw [(hp.map Prod.fst).nodup_iff, List.map_cons, List.nodup_cons]
    exact ⟨(find_none k).mp hf, h.1⟩
  · rcases List.mem_cons.mp (hp.mem_iff.mp hm) with e | hm
    · cases e; exact hx v rfl
    · exact h.2 k' v hm

theorem TableWf.sound {t : Table K V} (h : TableWf S t) (st : Stored K) (zk ne : Bool) : (tableSpec st S zk ne).Sound t := by
  refine ⟨⟨h.1, fun k v hm => (h.2 k v hm).1⟩, fun k => .refl fun x hx => .refl fun v hv => ?_⟩
  subst hv
  exact (h.2 k v ((find_iff h.1 k _).mp hx)).2

theorem readLoop_safe (hM : SafeReads M S d fl U) (hi : S.wf M.init) (hd : Small d) (env : REnv) (fresh : Bytes → Nat)
    (ord : TableOrder (K × Option V)) (a : Nat) : ∀ (ks : List K) (i : Nat) (t : Table K V), TableWf S t → ∀ (rd : EReader) (p : Nat), p ≤ d.length →
      RWp d fl p (tableReadLoop M ord env fresh (some a) i ks t (rd, ⟨d, p, fl⟩)) (fun r _ _ => ∀ t', r = some t' → TableWf S t') U
  | [], i, t, ht, rd, p, hp => by
    rw [tableReadLoop]
    exact .pure hp fun t' e => Option.some.inj e ▸ ht
  | k :: ks, i, t, ht, rd, p, hp => by
    rw [tableReadLoop]
    refine .bind (beginInArray_rwp hd hp a i true).weaken fun x r1 p1 _ g1 hx => ?_
    obtain ⟨ok, hasData⟩ := x
    dsimp only at hx ⊢
    refine .ite (fun _ => .pure g1 fun t' e => (nomatch e)) fun hok => .ite (fun _ => .pure g1 fun t' e => (nomatch e)) fun hk => ?_
    obtain ⟨sub, hsub⟩ := hx (by simpa using hok)
    refine .ite (fun _ => ?_) fun _ => ?_
    · refine .bind (.inSub hsub (hM env fresh _ hi sub p1 g1)) fun x r2 p2 _ g2 hx => ?_
      obtain ⟨r3, -, hx⟩ := hx
      cases x with
      | none => exact .pure g2 fun t' e => (nomatch e)
      | some v =>
        refine .bind (endInArray_rwp g2 _ _).weaken fun b r4 p4 _ g4 _ => ?_
        refine .ite (fun _ => .pure g4 fun t' e => (nomatch e)) fun _ => ?_
        exact readLoop_safe hM hi hd env fresh ord a ks (i + 1) _ (ht.emplace hk fun v' e => by cases e; exact hx v rfl) _ _ g4
    · refine .bind (endInArray_rwp g1 _ _).weaken fun b r4 p4 _ g4 _ => ?_
      refine .ite (fun _ => .pure g4 fun t' e => (nomatch e)) fun _ => ?_
      exact readLoop_safe hM hi hd env fresh ord a ks (i + 1) _ (ht.emplace (x := none) hk fun v' e => (nomatch e)) _ _ g4

theorem table_safe {st : Stored K} (h : st.Good) (h1 : H st.ty .vector (key "IDs")) (hM : SafeReads M S d fl U) (hi : S.wf M.init)
    (zk ne : Bool) (ord : TableOrder (K × Option V)) (hd : Small d) (hc : CountsOk H d fl U) :
    SafeReads (tableMF st M zk ne ord) (tableSpec st S zk ne) d fl U := by
  intro env fresh v hv rd p hp
  refine .bind (baseRead_rwp env hd h.mem (by decide) _ hp (hc _ _ _ h1 _ hp) rd) fun x r1 p1 _ g1 _ => ?_
  cases x with
  | none => exact .pure g1 fun v' e => (nomatch e)
  | some keys =>
    refine .bind (beginArray_rwp env hd g1 _ _ (by decide) false).weaken fun x r2 p2 _ g2 hx => ?_
    obtain ⟨ptr, count, b, idx⟩ := x
    cases b with
    | false => exact .pure g2 fun v' e => (nomatch e)
    | true =>
      obtain ⟨rfl, -⟩ := hx rfl
      dsimp only
      refine .ite (fun _ => .pure g2 fun v' e => (nomatch e)) fun _ => ?_
      refine .bind (readLoop_safe hM hi hd env fresh ord _ _ 0 [] ⟨List.nodup_nil, fun _ _ h => absurd h List.not_mem_nil⟩ r2 p2 g2) fun x r3 p3 _ g3 hx => ?_
      cases x with
      | none => exact .pure g3 fun v' e => (nomatch e)
      | some t =>
        refine .bind (endArray_rwp g3 _).weaken fun b r4 p4 _ g4 _ => ?_
        refine .ite (fun _ => .pure g4 fun v' e => (nomatch e)) fun _ => .pure g4 fun v' e => ?_
        obtain rfl := Option.some.inj e
        exact (hx _ rfl).sound st zk ne

end table

/-- The variables of an entity, one after the other. -/
inductive FieldsSafe (H : DataType → Container → Bytes → Prop) (d : Bytes) (fl : Bool) (U : Prop) : {fs : List Field} → FieldSpecs fs → Prop where
  | nil : FieldsSafe H d fl U .nil
  | base {k t c fs} {rest : FieldSpecs fs} (hk : k.length ≤ 40) (ht : t ∈ allTypes) (h1 : H t c k) (h : FieldsSafe H d fl U rest) :
      FieldsSafe H d fl U (.base k t c rest)
  | sub {k V} {M : Managed V} {S : ClassSpec V} {fs} {rest : FieldSpecs fs} (hk : k.length ≤ 40) (hM : SafeReads M S d fl U)
      (h : FieldsSafe H d fl U rest) : FieldsSafe H d fl U (.sub k M S rest)

theorem fields_safe (hd : Small d) (hc : CountsOk H d fl U) {fs : List Field} {ss : FieldSpecs fs} (h : FieldsSafe H d fl U ss)
    (env : REnv) (fresh : Bytes → Nat) (v : FieldsVal fs) (hv : ss.wf v) (rd : EReader) (p : Nat) (hp : p ≤ d.length) :
    RWp d fl p (fieldsRead env fresh fs v (rd, ⟨d, p, fl⟩)) (fun r _ _ => ∀ v', r = some v' → (entitySpec ss).Sound v') U := by
  induction h generalizing rd p with
  | nil => rw [fieldsRead]; exact .pure hp fun v' e => ⟨trivial, trivial⟩
  | @base k t c fs rest hk ht h1 h ih =>
    rw [fieldsRead]
    refine .bind (baseRead_rwp env hd ht hk _ hp (hc _ _ _ h1 _ hp) rd) fun x r1 p1 _ g1 _ => ?_
    cases x with
    | none => exact .pure g1 fun v' e => (nomatch e)
    | some x =>
      refine .bind (ih v.2 hv r1 p1 g1) fun y r2 p2 _ g2 hy => ?_
      cases y with
      | none => exact .pure g2 fun v' e => (nomatch e)
      | some y => exact .pure g2 fun v' e => Option.some.inj e ▸ ⟨(hy y rfl).1, Container.Rel.refl (fun _ => rfl) _ _, (hy y rfl).2⟩
  | @sub k V M S fs rest hk hM h ih =>
    rw [fieldsRead]
    refine .bind (beginSection_rwp env hd hp _ k hk).weaken fun x r1 p1 _ g1 hx => ?_
    obtain ⟨ptr, b⟩ := x
    cases b with
    | false => cases ptr <;> exact .pure g1 fun v' e => (nomatch e)
    | true =>
      obtain ⟨rfl, sub, hsub⟩ := hx rfl
      dsimp only
      refine .bind (.inSub hsub (hM env fresh _ hv.1 sub p1 g1)) fun x r2 p2 _ g2 hx => ?_
      obtain ⟨r3, -, hx⟩ := hx
      cases x with
      | none => exact .pure g2 fun v' e => (nomatch e)
      | some x =>
        refine .bind (endSection_rwp g2 _).weaken fun b r4 p4 _ g4 _ => ?_
        refine .bind (ih v.2 hv.2 r4 p4 g4) fun y r5 p5 _ g5 hy => ?_
        cases y with
        | none => exact .pure g5 fun v' e => (nomatch e)
        | some y => exact .pure g5 fun v' e => Option.some.inj e ▸ ⟨⟨(hx x rfl).1, (hy y rfl).1⟩, (hx x rfl).2, (hy y rfl).2⟩

mutual
  theorem OnlyReads.init_wf : ∀ {V : Type} {M : Managed V} {S : ClassSpec V}, OnlyReads H M S → S.wf M.init
    | _, _, _, @OnlyReads.graph _ _ _ st h h1 h2 a r s => Graph.Valid.empty
    | _, _, _, .idx t h h1 => trivial
    | _, _, _, .varying h => varying_wf_none _ _
    | _, _, _, @OnlyReads.table _ _ _ _ st h h1 _ _ hM zk ne ord => ⟨List.nodup_nil, fun _ _ h => absurd h List.not_mem_nil⟩
    | _, _, _, .entity ss h => h.init_wf
  theorem FieldsOnlyRead.init_wf : ∀ {fs : List Field} {ss : FieldSpecs fs}, FieldsOnlyRead H ss → ss.wf (fieldsInit fs)
    | _, _, .nil => trivial
    | _, _, .base hk ht h1 h => h.init_wf
    | _, _, .sub hk hM h => ⟨hM.init_wf, h.init_wf⟩
end

mutual
  theorem OnlyReads.safe (hd : Small d) (hc : CountsOk H d fl U) :
      ∀ {V : Type} {M : Managed V} {S : ClassSpec V}, OnlyReads H M S → SafeReads M S d fl U
    | _, _, _, @OnlyReads.graph _ _ _ st h h1 h2 a r s => graph_safe h h1 h2 a r s hd hc
    | _, _, _, .idx t h h1 => idx_safe h h1 hd hc
    | _, _, _, .varying h => varying_safe h hd hc
    | _, _, _, @OnlyReads.table _ _ _ _ st h h1 _ _ hM zk ne ord => table_safe h h1 (hM.safe hd hc) hM.init_wf zk ne ord hd hc
    | _, _, _, .entity ss h => fun env fresh v hv rd p hp => fields_safe hd hc (h.safe hd hc) env fresh v hv rd p hp
  theorem FieldsOnlyRead.safe (hd : Small d) (hc : CountsOk H d fl U) :
      ∀ {fs : List Field} {ss : FieldSpecs fs}, FieldsOnlyRead H ss → FieldsSafe H d fl U ss
    | _, _, .nil => .nil
    | _, _, .base hk ht h1 h => .base hk ht h1 (h.safe hd hc)
    | _, _, .sub hk hM h => .sub hk (hM.safe hd hc) (h.safe hd hc)
end

end classes

end ISD
