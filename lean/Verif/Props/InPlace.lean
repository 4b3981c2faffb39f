import Verif.Proofs.InPlace
import Verif.Props.Encoding

/-!
# C63: objects after a read that failed
-/

namespace ISD

attribute [local irreducible] dynTable DynClass.all findTypeClass

variable {V : Type} {M : Managed V} {S : ClassSpec V}

/-- The objects a program can have: new ones, ones it has filled itself, and whatever they have become by `Clear`, `DeepCopy` (from null,
itself or another such object), copy construction, and `Read` of any bytes with any reader — one that returned true, one that returned
false or one that threw. -/
inductive Reachable (M : Managed V) (S : ClassSpec V) : V → Prop where
  | new : Reachable M S M.init
  | filled {v : V} : S.wf v → Reachable M S v
  | cleared {v v' : V} : Reachable M S v → M.clear v = .ok () v' → Reachable M S v'
  | copiedNull {v v' : V} : Reachable M S v → M.copy .null v = .ok () v' → Reachable M S v'
  | copiedSelf {v v' : V} : Reachable M S v → M.copy .self v = .ok () v' → Reachable M S v'
  | copied {v s v' : V} : Reachable M S v → Reachable M S s → M.copy (.other s) v = .ok () v' → Reachable M S v'
  | constructed {s v' : V} : Reachable M S s → M.construct s M.init = .ok () v' → Reachable M S v'
  | read {v v' : V} {L : Leftover} {env : REnv} {fresh : Bytes → Nat} {st st' : RSt} {b : Bool} :
      Reachable M S v → M.readInPlace L env fresh (st, v) = .ok b (st', v') → Reachable M S v'
  | readThrew {v v' : V} {L : Leftover} {env : REnv} {fresh : Bytes → Nat} {st st' : RSt} :
      Reachable M S v → M.readInPlace L env fresh (st, v) = .throw (st', v') → Reachable M S v'

/-- The two descriptions of `Read` agree: the result of the call and the reader after it are those of `read`, and when the call returns
true the contents of the object are the ones `read` gives. -/
theorem C63_same_read (hM : IsClass M S) (L : Leftover) (env : REnv) (fresh : Bytes → Nat) (v : V) (hv : S.wf v) (st : RSt) :
    match M.readInPlace L env fresh (st, v) with
    | .ok true (st', v') => M.read env fresh v st = .ok (some v') st'
    | .ok false (st', _) => M.read env fresh v st = .ok none st'
    | .throw (st', _) => M.read env fresh v st = .throw st'
    | .ub => M.read env fresh v st = .ub := by
  have := hM.inPlace L env fresh v hv st
  revert this
  unfold InPlaceSim
  match M.readInPlace L env fresh (st, v) with
  | .ok true (st', v') => exact fun h => h.1
  | .ok false (st', v') => exact fun h => h.1
  | .throw (st', v') => exact fun h => h.1
  | .ub => exact id

/-- **C63**: whatever reads of an object have failed, and wherever, it has the invariants of its class (distinct keys in tables, sorted sets
in graphs, type numbers of a Varying that fit its data). -/
theorem C63_failed_reads_leave_valid_objects (hM : IsClass M S) (v : V) (h : Reachable M S v) : S.wf v := by
  have hL := hM.lawful
  induction h with
  | new => exact hL.init_wf
  | filled h => exact h
  | cleared h e ih =>
    obtain ⟨v', e', hw⟩ := hL.clear_ok _ ih
    rw [e] at e'; cases e'; exact hw
  | copiedNull h e ih =>
    obtain ⟨v', e', hw⟩ := hL.copy_null _ ih
    rw [e] at e'; cases e'; exact hw
  | copiedSelf h e ih =>
    obtain ⟨v', e', hw⟩ := hL.copy_self _ ih
    rw [e] at e'; cases e'; exact hw
  | copied h hs e ih ihs =>
    obtain ⟨v', e', hw, _⟩ := hL.copy_other _ _ ih ihs
    rw [e] at e'; cases e'; exact hw
  | constructed hs e ihs =>
    obtain ⟨v', e', hw, _⟩ := hL.construct_ok _ ihs
    rw [e] at e'; cases e'; exact hw
  | @read v v' L env fresh st st' b h e ih =>
    have := hM.inPlace L env fresh v ih st
    rw [e] at this
    cases b <;> exact this.2
  | @readThrew v v' L env fresh st st' h e ih =>
    have := hM.inPlace L env fresh v ih st
    rw [e] at this
    exact this.2

/-- So such an object can be cleared, copied, compared with any other and validated; none of that fails. -/
theorem C63_still_usable (hM : IsClass M S) (a b : V) (ha : Reachable M S a) (hb : Reachable M S b) :
    (∃ v', M.clear a = .ok () v') ∧ (∃ v', M.copy .null a = .ok () v') ∧ (∃ v', M.copy .self a = .ok () v') ∧
    (∃ v', M.copy (.other b) a = .ok () v' ∧ S.rel .exact v' b) ∧ (∃ v', M.construct a M.init = .ok () v' ∧ S.rel .exact v' a) ∧
    (∃ r, M.equals a b = some r) ∧ ∃ rs, M.validate a rs true := by
  have hL := hM.lawful
  have ha := C63_failed_reads_leave_valid_objects hM a ha
  have hb := C63_failed_reads_leave_valid_objects hM b hb
  obtain ⟨v1, e1, _⟩ := hL.clear_ok a ha
  obtain ⟨v2, e2, _⟩ := hL.copy_null a ha
  obtain ⟨v3, e3, _⟩ := hL.copy_self a ha
  obtain ⟨v4, e4, _, r4⟩ := hL.copy_other a b ha hb
  obtain ⟨v5, e5, _, r5⟩ := hL.construct_ok a ha
  obtain ⟨r, e6, _⟩ := hL.equals_ok a b ha hb
  obtain ⟨rs, e7, _⟩ := hL.validate_ok a ha
  exact ⟨⟨v1, e1⟩, ⟨v2, e2⟩, ⟨v3, e3⟩, ⟨v4, e4, r4⟩, ⟨v5, e5, r5⟩, ⟨r, e6⟩, ⟨rs, e7⟩⟩

/-- Reading the block `x` of `v`, behind anything and before anything, into `dest`: returns true, gives the contents of `v`, and stops behind
the block. -/
def ReadsBack (M : Managed V) (S : ClassSpec V) (fl : Bool) (v : V) (x : Bytes) (dest : V) : Prop :=
  ∀ (pre post : Bytes) (env : REnv) (fresh : Bytes → Nat) (r : EReader) (L : Leftover), (pre ++ x ++ post).length < 2 ^ 59 → r.Idle →
    GrantsUpTo (4 * (pre ++ x ++ post).length) env →
    ∃ v', M.readInPlace L env fresh ((r, ⟨pre ++ x ++ post, pre.length, fl⟩), dest) =
        .ok true ((r, ⟨pre ++ x ++ post, (pre ++ x).length, fl⟩), v') ∧ S.wf v' ∧ S.rel .exact v' v

theorem readsBack (hM : IsClass M S) (fl : Bool) (v : V) (hv : Storable S fl v) (x : Bytes) (hx : StoredAs M v fl x) (dest : V)
    (hd : S.wf dest) (hdo : S.destOk dest) : ReadsBack M S fl v x dest := by
  intro pre post env fresh r L hsz hr hB
  obtain ⟨v', e, hw, hrel⟩ := C60_reading_back_needs_little_memory hM fl v hv x hx pre post hsz env hB fresh r hr dest hd hdo
  refine ⟨v', ?_, hw, hrel⟩
  have := C63_same_read hM L env fresh dest hd (r, ⟨pre ++ x ++ post, pre.length, fl⟩)
  revert this
  match M.readInPlace L env fresh ((r, ⟨pre ++ x ++ post, pre.length, fl⟩), dest) with
  | .ok true (st', w) =>
    intro h
    rw [e] at h
    cases h
    rfl
  | .ok false (st', w) => intro h; rw [e] at h; cases h
  | .throw (st', w) => intro h; rw [e] at h; cases h
  | .ub => intro h; rw [e] at h; cases h

theorem zero_dest (t : DataType) (c : Container) : DestOk t c (c.zero t.zero) := by
  cases c with
  | vector => exact fun _ => rfl
  | idxVector => exact fun _ => rfl
  | _ => trivial

mutual
  theorem IsClass.clear_dest : ∀ {V : Type} {M : Managed V} {S : ClassSpec V}, IsClass M S → ∀ v v', M.clear v = .ok () v' → S.destOk v'
    | _, _, _, @IsClass.graph _ _ _ _ _ _ _, _, _, _ => trivial
    | _, _, _, .idx t h, _, _, e => by cases e; exact fun _ => rfl
    | _, _, _, .varying, _, _, _ => trivial
    | _, _, _, @IsClass.table _ _ _ _ _ _ _ _ _ _ _, _, _, _ => trivial
    | _, _, _, .entity ss h _, v, v', e => h.clear_dest v v' e
  theorem AreFields.clear_dest : ∀ {fs : List Field} {ss : FieldSpecs fs}, AreFields ss → ∀ v v' : FieldsVal fs, fieldsClear fs v = .ok () v' →
      ss.destOk v'
    | _, _, .nil, _, _, _ => trivial
    | _, _, @AreFields.base k t c fs rest hk ht h, v, v', e => by
      rw [fieldsClear] at e
      unfold onFields at e
      dsimp only [Prog.set] at e
      revert e
      cases e2 : fieldsClear fs v.2 with
      | ok u w => intro e; cases e; exact ⟨zero_dest t c, h.clear_dest _ _ e2⟩
      | throw w => intro e; cases e
      | ub => intro e; cases e
    | _, _, @AreFields.sub k V M S fs rest hk hM h, v, v', e => by
      rw [fieldsClear] at e
      unfold onFields at e
      revert e
      cases e1 : M.clear v.1 with
      | ok u a =>
        dsimp only
        cases e2 : fieldsClear fs v.2 with
        | ok u w => intro e; cases e; exact ⟨hM.clear_dest _ _ e1, h.clear_dest _ _ e2⟩
        | throw w => intro e; cases e
        | ub => intro e; cases e
      | throw a => intro e; cases e
      | ub => intro e; cases e
end

/-- **C63**: after any failed reads, `Clear` and reading the block of a storable object gives that object, for every class. -/
theorem C63_clear_and_read_again (hM : IsClass M S) (fl : Bool) (v : V) (hv : Storable S fl v) (x : Bytes) (hx : StoredAs M v fl x) (dest : V)
    (hd : Reachable M S dest) : ∃ dest', M.clear dest = .ok () dest' ∧ ReadsBack M S fl v x dest' := by
  have hw := C63_failed_reads_leave_valid_objects hM dest hd
  obtain ⟨d, e, hwd⟩ := hM.lawful.clear_ok dest hw
  exact ⟨d, e, readsBack hM fl v hv x hx d hwd (hM.clear_dest _ _ e)⟩

mutual
  /-- No vector and no indexed vector of a type that is stored through another one (`entity_ref`, `package_ref`) is a variable. -/
  inductive NoRefVectors : {V : Type} → Managed V → ClassSpec V → Prop where
    | graph {α : Type} [NodeType α] (st : Stored α) (acyclic rooted singleRoot : Bool) :
        NoRefVectors (graphMF st acyclic rooted singleRoot) (graphSpec st acyclic rooted singleRoot)
    | idx (t : DataType) (h : t.overrides = false) : NoRefVectors (idxMF t) (idxSpec t)
    | varying : NoRefVectors varyingMF varyingSpec
    | table {K V : Type} [DecidableEq K] (st : Stored K) (M : Managed V) (S : ClassSpec V)
        (zeroKeys nullEntities : Bool) (ord : TableOrder (K × Option V)) :
        NoRefVectors (tableMF st M zeroKeys nullEntities ord) (tableSpec st S zeroKeys nullEntities)
    | entity {fs : List Field} (ss : FieldSpecs fs) (h : NoRefVectorFields ss) : NoRefVectors (entityMF fs) (entitySpec ss)
  /-- The variables. -/
  inductive NoRefVectorFields : {fs : List Field} → FieldSpecs fs → Prop where
    | nil : NoRefVectorFields .nil
    | base {k t c fs} {rest : FieldSpecs fs} (ht : t.overrides = false ∨ (c ≠ .vector ∧ c ≠ .idxVector)) (h : NoRefVectorFields rest) :
        NoRefVectorFields (.base k t c rest)
    | sub {k V} {M : Managed V} {S : ClassSpec V} {fs} {rest : FieldSpecs fs} (hM : NoRefVectors M S) (h : NoRefVectorFields rest) :
        NoRefVectorFields (.sub k M S rest)
end

mutual
  theorem NoRefVectors.dest : ∀ {V : Type} {M : Managed V} {S : ClassSpec V}, NoRefVectors M S → ∀ v, S.destOk v
    | _, _, _, @NoRefVectors.graph _ _ _ _ _ _, _ => trivial
    | _, _, _, .idx t h, _ => fun h' => by rw [h] at h'; cases h'
    | _, _, _, .varying, _ => trivial
    | _, _, _, @NoRefVectors.table _ _ _ _ _ _ _ _ _, _ => trivial
    | _, _, _, .entity ss h, v => h.dest v
  theorem NoRefVectorFields.dest : ∀ {fs : List Field} {ss : FieldSpecs fs}, NoRefVectorFields ss → ∀ v : FieldsVal fs, ss.destOk v
    | _, _, .nil, _ => trivial
    | _, _, @NoRefVectorFields.base k t c fs rest ht h, v => by
      refine ⟨?_, h.dest v.2⟩
      cases c with
      | vector =>
        rcases ht with h | h
        · exact fun h' => by rw [h] at h'; cases h'
        · exact absurd rfl h.1
      | idxVector =>
        rcases ht with h | h
        · exact fun h' => by rw [h] at h'; cases h'
        · exact absurd rfl h.2
      | _ => trivial
    | _, _, .sub hM h, v => ⟨hM.dest v.1, h.dest v.2⟩
end

/-- **C63**: after any failed reads, reading the block of a storable object straight away gives that object. Missing: classes with a vector
or an indexed vector of references among their variables, for which it is false (see below). -/
theorem C63_read_again_partial (hM : IsClass M S) (hn : NoRefVectors M S) (fl : Bool) (v : V) (hv : Storable S fl v) (x : Bytes)
    (hx : StoredAs M v fl x) (dest : V) (hd : Reachable M S dest) : ReadsBack M S fl v x dest :=
  readsBack hM fl v hv x hx dest (C63_failed_reads_leave_valid_objects hM dest hd) (hn.dest dest)

/-! ## A vector of references -/

/-- An entity with a vector of references and a bool. -/
def refsFields : List Field := [.base (key "Refs") entityRefType .vector, .base (key "Flag") boolType .none]

/-- Its specification. -/
def refsSpecs : FieldSpecs refsFields := .base _ _ _ (.base _ _ _ .nil)

theorem refs_isClass : IsClass (entityMF refsFields) (entitySpec refsSpecs) :=
  .entity _ (.base (by decide) (by decide +kernel) (.base (by decide) (by decide +kernel) .nil)) (by decide)

/-- One reference. -/
def oneRef : FieldsVal refsFields := ([#v[⟨1, 2, 3, #v[1, 2, 3, 4, 5, 6, 7, 8]⟩]], true, ())

/-- The block of the entity. -/
def oneRefBlock : Bytes := ((entitySpec refsSpecs).nodes oneRef).bytes false

/-- Number of references left in the object, and whether the read returned true. -/
def refsLeft : Res (RSt × FieldsVal refsFields) Bool → Option (Bool × Nat)
  | .ok b (_, v) => some (b, List.length (α := entityRefType.Val) v.1)
  | _ => none

/-- Keeps everything. -/
def keepAll : Leftover := ⟨fun _ _ _ _ v => v⟩

theorem refs_storable : Storable (entitySpec refsSpecs) false oneRef :=
  ⟨trivial, ⟨base_storable _, base_storable _, trivial⟩, by decide +kernel⟩

/-- **C63 is false with a vector of references**: reading a truncated block into a new object returns false, and reading the complete block
into the same object afterwards returns true and gives an object with the reference twice. -/
theorem C63_false_for_reference_vectors : IsClass (entityMF refsFields) (entitySpec refsSpecs) ∧ Storable (entitySpec refsSpecs) false oneRef ∧
    StoredAs (entityMF refsFields) oneRef false oneRefBlock ∧
    ∃ st v' st'' v'', (entityMF refsFields).readInPlace keepAll luckyEnv (fun _ => 0)
        ((EReader.create 0 0, ⟨oneRefBlock.dropLast, 0, false⟩), (entityMF refsFields).init) = .ok false (st, v') ∧
      (entityMF refsFields).readInPlace keepAll luckyEnv (fun _ => 0) ((EReader.create 0 0, ⟨oneRefBlock, 0, false⟩), v') = .ok true (st'', v'') ∧
      ¬ (entitySpec refsSpecs).rel .exact v'' oneRef := by
  refine ⟨refs_isClass, refs_storable, storedAs_nodes refs_isClass refs_storable, ?_⟩
  have h : ∃ st v', (entityMF refsFields).readInPlace keepAll luckyEnv (fun _ => 0)
        ((EReader.create 0 0, ⟨oneRefBlock.dropLast, 0, false⟩), (entityMF refsFields).init) = .ok false (st, v') ∧
      refsLeft ((entityMF refsFields).readInPlace keepAll luckyEnv (fun _ => 0) ((EReader.create 0 0, ⟨oneRefBlock, 0, false⟩), v')) = some (true, 2) := by
    have : (match (entityMF refsFields).readInPlace keepAll luckyEnv (fun _ => 0)
        ((EReader.create 0 0, ⟨oneRefBlock.dropLast, 0, false⟩), (entityMF refsFields).init) with
      | .ok false (_, v') => refsLeft ((entityMF refsFields).readInPlace keepAll luckyEnv (fun _ => 0) ((EReader.create 0 0, ⟨oneRefBlock, 0, false⟩), v'))
      | _ => none) = some (true, 2) := by decide +kernel
    revert this
    cases (entityMF refsFields).readInPlace keepAll luckyEnv (fun _ => 0)
        ((EReader.create 0 0, ⟨oneRefBlock.dropLast, 0, false⟩), (entityMF refsFields).init) with
    | ok b s =>
      cases b with
      | false => exact fun h => ⟨s.1, s.2, rfl, h⟩
      | true => intro h; cases h
    | throw s => intro h; cases h
    | ub => intro h; cases h
  obtain ⟨st, v', e, h2⟩ := h
  revert h2
  generalize e2 : (entityMF refsFields).readInPlace keepAll luckyEnv (fun _ => 0) ((EReader.create 0 0, ⟨oneRefBlock, 0, false⟩), v') = res
  cases res with
  | ok b s =>
    intro h2
    obtain ⟨st2, v2⟩ := s
    injection h2 with h2
    injection h2 with h3 h4
    subst h3
    refine ⟨st, v', st2, v2, e, e2, fun hr => ?_⟩
    have := Container.Rel.eq hr.1
    rw [this] at h4
    exact absurd h4 (by decide)
  | throw s => intro h; cases h
  | ub => intro h; cases h

/-- The generated entities have no such vectors; e.g. `SceneLayer`, whose tables hold geometries with a vector of floats. -/
example (oNodes : TableOrder (EntityRef × Option NodeEnt)) (oGeo : TableOrder (EntityRef × Option NodeGeometry)) :
    NoRefVectors (entityMF (sceneLayerFields oNodes oGeo)) (entitySpec (sceneLayerSpecs oNodes oGeo)) :=
  .entity _ (.base (.inl rfl) (.sub (.graph ..) (.sub (.table ..) (.sub (.table ..) .nil))))

/-- An object left by a failed read that then reads the block wrongly, as in the theorem above. -/
example : ∃ v, Reachable (entityMF refsFields) (entitySpec refsSpecs) v ∧ ¬ ReadsBack (entityMF refsFields) (entitySpec refsSpecs) false oneRef oneRefBlock v := by
  obtain ⟨_, _, _, st, v', st2, v2, e, e2, hne⟩ := C63_false_for_reference_vectors
  refine ⟨v', .read .new e, fun h => hne ?_⟩
  obtain ⟨v3, e3, _, hr⟩ := h [] [] luckyEnv (fun _ => 0) (EReader.create 0 0) keepAll (by decide +kernel) ⟨rfl, rfl, rfl, rfl⟩ (fun _ _ => rfl)
  rw [List.nil_append, List.append_nil] at e3
  rw [show ([] : Bytes).length = 0 from rfl, e2] at e3
  cases e3
  exact hr

end ISD
