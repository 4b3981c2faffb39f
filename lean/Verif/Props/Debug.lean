import Verif.Proofs.DebugCalls
import Verif.Props.WrongType
import Verif.Proofs.Order

/-!
# C84: debug builds

With `_DEBUG` defined, `ISDSanityCheckDebugMacro` and `ISDSanityCheckCoreDebugMacro` throw `std::runtime_error` if their condition fails; without
it they are empty (ISD_Types.h 24-30). `Model/Debug.lean` has the routines with these checks.
-/

namespace ISD

attribute [local irreducible] dynTable DynClass.all findTypeClass

/-- **C84** for writing: a program that uses an `EntityWriter` with the data types of the library and names of at most 40 bytes does the same in
both builds, from every state of writer and stream: the same results, the same bytes, the same exceptions. -/
theorem C84_writing {α : Type} (q : WriterProgram α) (h : q.Ok) (st : WSt) : q.run .debug st = q.run .release st := by rw [q.debug h]

/-- **C84**, the names of more than 40 bytes: in the debug build `Write` throws before anything is written, and `Read` throws or returns false; it
never touches memory out of bounds (the release build does, `C84_release_overruns`). -/
theorem C84_long_names {t : DataType} (ht : t ∈ allTypes) (c : Container) (key : Bytes) (hk : 40 < key.length) (v : c.Val t.Val) :
    (∀ s, Debug.writeTyped t c key v s = .throw s) ∧
    (∀ env d p fl, d.length < 2 ^ 60 → p ≤ d.length →
      (∃ s', Debug.readTyped env t c key v ⟨d, p, fl⟩ = .throw s') ∨ ∃ s', Debug.readTyped env t c key v ⟨d, p, fl⟩ = .ok none s') := by
  have hn : ¬ key.length ≤ 40 := by omega
  refine ⟨fun s => by rw [typed_debug ht, if_neg hn]; rfl, fun env d p fl hd hp => ?_⟩
  have hb : ∀ vt s, Debug.beginReadLargeBlock env vt key s = .throw s := fun vt s => check_fail hn
  have hsing : ∀ vt sc n ea, (∃ s', Debug.readSingleItems env vt sc n key ea ⟨d, p, fl⟩ = .throw s') ∨
      ∃ s', Debug.readSingleItems env vt sc n key ea ⟨d, p, fl⟩ = .ok .fail s' := by
    intro vt sc n ea
    rw [Debug.readSingleItems, Prog.bind_ok (Prog.get_apply _)]
    dsimp only
    have hw := u8_wp fl hd hp
    rw [Prog.bind_apply]
    cases e : RStream.readU8 ⟨d, p, fl⟩ with
    | ub => rw [e] at hw; exact hw.elim
    | throw s' => exact .inl ⟨s', rfl⟩
    | ok a s' =>
      dsimp only
      by_cases ha : a ≠ vt
      · rw [if_pos ha]; exact .inr ⟨_, rfl⟩
      · rw [if_neg ha]; exact .inl ⟨_, check_fail hn⟩
  have hstr : ∀ ea, Debug.readSingleString env key ea ⟨d, p, fl⟩ = .throw ⟨d, p, fl⟩ := fun ea => by
    rw [Debug.readSingleString]; exact Prog.bind_throw (hb _ _)
  have hone : ∀ ea, (∃ s', Debug.readSingle env t key ea ⟨d, p, fl⟩ = .throw s') ∨ ∃ s', Debug.readSingle env t key ea ⟨d, p, fl⟩ = .ok .fail s' := by
    intro ea
    obtain ⟨nm, vt, avt, k, ov⟩ := t
    cases k with
    | string => exact .inl ⟨_, hstr ea⟩
    | bool =>
      show (∃ s', Debug.readSingleBool env key ea ⟨d, p, fl⟩ = .throw s') ∨ _
      change _ ∨ ∃ s', Debug.readSingleBool env key ea ⟨d, p, fl⟩ = .ok .fail s'
      rw [Debug.readSingleBool]
      exact (hsing 0x01 .w1 1 ea).imp (fun ⟨s', h⟩ => ⟨s', Prog.bind_throw h⟩) fun ⟨s', h⟩ => ⟨s', Prog.bind_ok h⟩
    | items sc n hh =>
      exact (hsing vt sc n ea).imp (fun ⟨s', h⟩ => ⟨s', Prog.bind_throw h⟩) fun ⟨s', h⟩ => ⟨s', Prog.bind_ok h⟩
  have harr : ∀ ea wi, Debug.readArray env t key ea wi ⟨d, p, fl⟩ = .throw ⟨d, p, fl⟩ := by
    intro ea wi
    obtain ⟨nm, vt, avt, k, ov⟩ := t
    cases k with
    | string => exact Prog.bind_throw (hb _ _)
    | bool => exact Prog.bind_throw (hb _ _)
    | items sc n hh => exact Prog.bind_throw (hb _ _)
  cases c with
  | none => exact (hone false).imp (fun ⟨s', h⟩ => ⟨s', Prog.bind_throw h⟩) fun ⟨s', h⟩ => ⟨s', Prog.bind_ok h⟩
  | optionalValue => exact (hone true).imp (fun ⟨s', h⟩ => ⟨s', Prog.bind_throw h⟩) fun ⟨s', h⟩ => ⟨s', Prog.bind_ok h⟩
  | vector => exact .inl ⟨_, Prog.bind_throw (harr _ _)⟩
  | optionalVector => exact .inl ⟨_, Prog.bind_throw (harr _ _)⟩
  | idxVector => exact .inl ⟨_, Prog.bind_throw (harr _ _)⟩
  | optionalIdxVector => exact .inl ⟨_, Prog.bind_throw (harr _ _)⟩

/-- **C84** for the typed read calls, whatever the bytes:
* except for the indexed vectors, and the optional values without a name, both builds do the same;
* in these cases too, one build accepts exactly what the other accepts, with the same value and the same position;
* and the only other thing a debug build may do is to throw. -/
theorem C84_values_partial (env : REnv) {t : DataType} (ht : t ∈ allTypes) (c : Container) (key : Bytes) (hk : key.length ≤ 40) (dest : c.Val t.Val)
    (d : Bytes) (hd : d.length < 2 ^ 60) (p : Nat) (hp : p ≤ d.length) (fl : Bool) :
    (c ≠ .idxVector → c ≠ .optionalIdxVector → (c = .optionalValue → key ≠ []) →
      Debug.readTyped env t c key dest ⟨d, p, fl⟩ = readTyped env t c key dest ⟨d, p, fl⟩) ∧
    (∀ v s', Debug.readTyped env t c key dest ⟨d, p, fl⟩ = .ok (some v) s' ↔ readTyped env t c key dest ⟨d, p, fl⟩ = .ok (some v) s') ∧
    (Debug.readTyped env t c key dest ⟨d, p, fl⟩ = readTyped env t c key dest ⟨d, p, fl⟩ ∨
      ∃ s', Debug.readTyped env t c key dest ⟨d, p, fl⟩ = .throw s') := by
  have hs : Sane (id (⟨d, p, fl⟩ : RStream)) := ⟨hp, hd⟩
  have h := typed_tracks env ht c key hk dest
  refine ⟨fun h1 h2 h3 => h.eq ?_ hs, fun v s' => ?_, ?_⟩
  · cases c with
    | none => exact id
    | vector => exact id
    | optionalVector => exact id
    | optionalValue => exact h3 rfl
    | idxVector => exact absurd rfl h1
    | optionalIdxVector => exact absurd rfl h2
  · obtain e | ⟨-, ⟨s1, e⟩, hj⟩ := h _ hs
    · rw [e]
    · rw [e]
      exact ⟨(fun h => nomatch h), fun h => absurd (fun h => nomatch h) (hj _ _ h)⟩
  · exact (h _ hs).imp id fun h => h.2.1

/-- **C84** for any program over an `EntityReader` (data types of the library, names of at most 40 bytes), from every state of the reader and whatever
the bytes: both builds do the same, or the debug build throws; and they do the same if no index is read and no optional value without a name. -/
theorem C84_reading_partial {α : Type} (env : REnv) (q : ReaderProgram α) (h : q.Ok) (rd : EReader) (d : Bytes) (hd : d.length < 2 ^ 60) (p : Nat)
    (hp : p ≤ d.length) (fl : Bool) :
    (q.run .debug env (rd, ⟨d, p, fl⟩) = q.run .release env (rd, ⟨d, p, fl⟩) ∨ ∃ st, q.run .debug env (rd, ⟨d, p, fl⟩) = .throw st) ∧
    (q.Plain → q.run .debug env (rd, ⟨d, p, fl⟩) = q.run .release env (rd, ⟨d, p, fl⟩)) := by
  have hs : Sane (rd, (⟨d, p, fl⟩ : RStream)).2 := ⟨hp, hd⟩
  constructor
  · exact (q.tracks env h (B := True) (fun h => absurd trivial h) _ hs).imp id fun h => h.2.1
  · exact fun hpl => (q.tracks env h (B := False) fun _ => hpl).eq id hs

/-- **C84** for whole objects of any managed class: writing and reading them are programs as above; written, an object gives the same bytes in both
builds; and on any bytes, one build accepts exactly what the other accepts, with the same object. -/
theorem C84_objects {V : Type} {M : Managed V} {S : ClassSpec V} (hM : IsClass M S) (fresh : Bytes → Nat) (v : V) :
    (∃ q : WriterProgram Bool, q.Ok ∧ q.run .release = M.write fresh v ∧ q.run .debug = M.write fresh v) ∧
    (∀ env, ∃ q : ReaderProgram (Option V), q.Ok ∧ q.run .release env = M.read env fresh v ∧
      ∀ rd d p fl, d.length < 2 ^ 60 → p ≤ d.length →
        (∀ v' st, q.run .debug env (rd, ⟨d, p, fl⟩) = .ok (some v') st ↔ M.read env fresh v (rd, ⟨d, p, fl⟩) = .ok (some v') st) ∧
        (q.run .debug env (rd, ⟨d, p, fl⟩) = M.read env fresh v (rd, ⟨d, p, fl⟩) ∨ ∃ st, q.run .debug env (rd, ⟨d, p, fl⟩) = .throw st)) := by
  constructor
  · obtain ⟨q, h1, h2⟩ := IsClass.writes hM fresh v
    exact ⟨q, h1, h2, (q.debug h1).trans h2⟩
  · intro env
    obtain ⟨q, h1, h2, h3⟩ := IsClass.readsInDebug hM env fresh v
    refine ⟨q, h1, h2, fun rd d p fl hd hp => ?_⟩
    have hs : Sane (rd, (⟨d, p, fl⟩ : RStream)).2 := ⟨hp, hd⟩
    obtain e | ⟨-, ⟨st, e⟩, hj⟩ := h3 _ hs
    · exact ⟨fun v' st => by rw [e], .inl e⟩
    · refine ⟨fun v' st => ?_, .inr ⟨_, e⟩⟩
      rw [e]
      exact ⟨(fun h => nomatch h), fun h => absurd (fun h => nomatch h) (hj _ _ h)⟩

section childEdges
open OrdSet Graph

theorem mem_childEdges {α : Type} [NodeType α] {edges : List (α × α)} (h : OrdSet.Sorted edges) {a : α} {e : α × α}
    (he : e ∈ between (fromLower (a, NodeType.inf) edges) (fromUpper (a, NodeType.sup) edges)) : e ∈ edges ∧ e.1 = a := by
  have h1 : fromLower (a, (NodeType.inf : α)) edges = edges.filter fun e => !SOrd.lt e.1 a := by
    rw [fromLower, dropWhile_filter h _ (fun x y hxy hy => SOrd.trans _ _ _ hxy hy)]
    congr 1; funext e; rw [Bool.eq_iff_iff, Bool.not_eq_true', Bool.not_eq_true', ← Bool.not_eq_true, ← Bool.not_eq_true, lt_inf_iff]
  have h2 : fromUpper (a, (NodeType.sup : α)) edges = edges.filter fun e => SOrd.lt a e.1 := by
    rw [fromUpper, dropWhile_filter h]
    · congr 1; funext e
      rw [Bool.not_not, Bool.eq_iff_iff, sup_lt_iff]
    · intro x y hxy hy
      rw [Bool.not_eq_true'] at hy ⊢
      rw [Bool.eq_false_iff] at hy ⊢
      intro hc
      exact hy (SOrd.trans _ _ _ hc hxy)
  rw [h1, h2, between, take_filter h] at he
  · simp only [List.mem_filter, Bool.and_eq_true, Bool.not_eq_true'] at he
    obtain ⟨he, h3, h4⟩ := he
    refine ⟨he, ?_⟩
    rcases lt_trans_iff.mp h3 with h5 | h5
    · rw [h5] at h4; cases h4
    · exact h5
  · intro x y hxy hx
    have hxy : pairLt x y = true := hxy
    rw [Bool.not_eq_true'] at hx ⊢
    rw [Bool.eq_false_iff] at hx ⊢
    intro hc
    rcases (pairLt_iff x y).mp hxy with h3 | ⟨h3, -⟩
    · exact hx (SOrd.trans _ _ _ h3 hc)
    · rw [h3] at hx; exact hx hc
  · intro x y hxy hx
    have hxy : pairLt x y = true := hxy
    rcases (pairLt_iff x y).mp hxy with h3 | ⟨h3, -⟩
    · exact SOrd.trans _ _ _ hx h3
    · rw [← h3]; exact hx
  · intro e he
    rw [Bool.not_eq_true']; exact asymm he

end childEdges

/-- **C84**, the graphs: the checks of both validations (ISD_DirectedGraph.h 276, 332) never fail; the edges they go through from a node start in it. -/
theorem C84_graphs {α : Type} [NodeType α] {edges : List (α × α)} (h : OrdSet.Sorted edges) (a : α) :
    ∃ passed, Graph.children edges a = passed.map Prod.snd ∧
      passed = OrdSet.between (OrdSet.fromLower (a, NodeType.inf) edges) (OrdSet.fromUpper (a, NodeType.sup) edges) ∧ ∀ e ∈ passed, e.1 = a :=
  ⟨_, rfl, rfl, fun _ he => (mem_childEdges h he).2⟩

/-- **C84**, the tables: the check of `EntityTable::MF::Read` (ISD_EntityTable.h 214) never fails; an array of sections that may not be absent and was begun
has a reader. -/
theorem C84_tables (env : REnv) (fresh : Nat) (k : Bytes) (wi : Bool) (st st' : RSt) (q : Option Nat) (n : Nat) (idx : List (Word 4))
    (h : beginReadSectionsArray env fresh k false wi st = .ok (q, n, true, idx) st') : q = some fresh := by
  rw [beginReadSectionsArray, Prog.bind_ok (Prog.get_apply _)] at h
  by_cases h1 : st.1.activeSubsection.isSome = true
  · rw [if_pos h1] at h; cases h
  rw [if_neg h1] at h
  obtain ⟨e, s1, -, h2⟩ := Prog.bind_eq_ok h
  by_cases h3 : e = 0
  · rw [if_pos h3] at h2; cases h2
  rw [if_neg h3, Prog.bind_ok (Prog.get_apply _)] at h2
  by_cases h4 : e = s1.2.pos
  · rw [if_pos h4] at h2
    cases h2
  · rw [if_neg h4] at h2
    obtain ⟨r, s2, -, h5⟩ := Prog.bind_eq_ok h2
    rcases r with _ | ⟨a, b, c⟩
    · cases h5
    · cases h5; rfl

/-- An array of `u16` values with an index, whose size ends it inside its header. -/
def cutIndexBytes (vt : Nat) : Bytes :=
  [UInt8.ofNat vt] ++ Spec.number false 8 3 ++ [1] ++ [107] ++ Spec.number false 2 0x102 ++ Spec.number false 8 0 ++ Spec.number false 8 0

/-- "Debug and release builds do the same" is false: on an indexed array that ends inside its header `Read` throws in the debug build and returns
false in the release build; `BeginReadSectionsArray` throws in the one and returns true in the other; the read of an optional value without a name throws
in the one and returns false in the other where the bytes end after the type. -/
theorem C84_false_in_general :
    Debug.readTyped luckyEnv u16Type .idxVector [107] ⟨[], []⟩ ⟨cutIndexBytes 0x43, 0, false⟩ = .throw ⟨cutIndexBytes 0x43, 21, false⟩ ∧
    readTyped luckyEnv u16Type .idxVector [107] ⟨[], []⟩ ⟨cutIndexBytes 0x43, 0, false⟩ = .ok none ⟨cutIndexBytes 0x43, 29, false⟩ ∧
    (∃ st, Debug.beginReadSectionsArray luckyEnv 1 [107] false true (EReader.create 0 0, ⟨cutIndexBytes 0xd1, 0, false⟩) = .throw st) ∧
    (∃ st, beginReadSectionsArray luckyEnv 1 [107] false true (EReader.create 0 0, ⟨cutIndexBytes 0xd1, 0, false⟩) = .ok (some 1, 0, true, []) st) ∧
    Debug.readTyped luckyEnv u16Type .optionalValue [] none ⟨[0x03], 0, false⟩ = .throw ⟨[0x03], 1, false⟩ ∧
    readTyped luckyEnv u16Type .optionalValue [] none ⟨[0x03], 0, false⟩ = .ok none ⟨[0x03], 1, false⟩ := by
  refine ⟨by rfl, by rfl, ⟨_, by rfl⟩, ⟨_, by rfl⟩, by rfl, by rfl⟩

/-- Writes a value, and a section with a vector in it. -/
def demoWriterProgram : WriterProgram Bool :=
  .call (.write u16Type .none (key "n") #v[(5 : Word 2)]) fun _ =>
  .call (.beginSection 1 (key "s")) fun p =>
  .inner (.call (.write u16Type .vector (key "v") [#v[(6 : Word 2)], #v[(7 : Word 2)]]) .done) fun _ =>
  .call (.endSection p) .done

/-- Reads all of it back. -/
def demoReaderProgram : ReaderProgram (Option (List (Vector (Word 2) 1))) :=
  .call (.read u16Type .none (key "n") #v[(0 : Word 2)]) fun _ =>
  .call (.beginSection 1 (key "s") false) fun p =>
  .inner (.call (.read u16Type .vector (key "v") []) .done) fun r =>
  .call (.endSection p.1) fun _ => .done r

theorem u16_ok : u16Type ∈ allTypes := by decide

theorem demoWriterProgram_ok : demoWriterProgram.Ok :=
  ⟨⟨u16_ok, by decide⟩, fun _ => ⟨by show _ ≤ _; decide, fun _ => ⟨⟨⟨u16_ok, by decide⟩, fun _ => trivial⟩, fun _ => ⟨trivial, fun _ => trivial⟩⟩⟩⟩

theorem demoReaderProgram_ok : demoReaderProgram.Ok :=
  ⟨⟨u16_ok, by decide⟩, fun _ => ⟨by show _ ≤ _; decide, fun _ => ⟨⟨⟨u16_ok, by decide⟩, fun _ => trivial⟩, fun _ => ⟨trivial, fun _ => trivial⟩⟩⟩⟩

theorem demoReaderProgram_plain : demoReaderProgram.Plain :=
  ⟨⟨by decide, by decide, by decide⟩, fun _ => ⟨trivial, fun _ => ⟨⟨⟨by decide, by decide, by decide⟩, fun _ => trivial⟩, fun _ => ⟨trivial, fun _ => trivial⟩⟩⟩⟩

/-- What was returned, and the state after it. -/
def Res.returned {σ α : Type} : Res σ α → Option (α × σ)
  | .ok a s => some (a, s)
  | _ => none

/-- In the release build a name of 41 bytes can be written, and reading it back writes past the end of an array of 40 bytes. -/
theorem C84_release_overruns :
    ((writeTyped u16Type .none (List.replicate 41 65) #v[(5 : Word 2)] ⟨[], 0, 0, 0, false, fun _ _ => true, 0⟩).returned.map
      fun r => (r.1, r.2.content)) = some (true, [3, 43, 5, 0] ++ List.replicate 41 65) ∧
    ∀ env, readTyped env u16Type .none (List.replicate 41 65) #v[(0 : Word 2)] ⟨[3, 43, 5, 0] ++ List.replicate 41 65, 0, false⟩ = .ub :=
  ⟨by decide +kernel, fun _ => by rfl⟩

/-- The programs of `C84_writing` and `C84_reading_partial` include useful ones: this one succeeds, and reads back what was written. -/
example : ((demoWriterProgram.run .debug (EWriter.create 0 0, ⟨[], 0, 0, 0, false, fun _ _ => true, 0⟩)).returned.bind fun w =>
    (demoReaderProgram.run .debug luckyEnv (EReader.create 0 0, ⟨w.2.2.content, 0, false⟩)).returned.map fun r => (w.1, r.1)) =
      some (true, some [#v[(6 : Word 2)], #v[(7 : Word 2)]]) := by
  decide +kernel

/-- `C84_objects`, `C84_long_names` and `C84_graphs` apply. -/
example (fresh : Bytes → Nat) := C84_objects testEntity_isClass fresh
example := C84_long_names u16_ok .vector (List.replicate 41 65) (by decide) []
example : OrdSet.between (OrdSet.fromLower ((⟨1#8⟩ : Unsigned 1), (NodeType.inf : Unsigned 1)) [(⟨0#8⟩, ⟨1#8⟩), (⟨1#8⟩, ⟨0#8⟩), (⟨1#8⟩, ⟨2#8⟩), (⟨2#8⟩, ⟨1#8⟩)])
    (OrdSet.fromUpper (⟨1#8⟩, (NodeType.sup : Unsigned 1)) [(⟨0#8⟩, ⟨1#8⟩), (⟨1#8⟩, ⟨0#8⟩), (⟨1#8⟩, ⟨2#8⟩), (⟨2#8⟩, ⟨1#8⟩)]) =
      [(⟨1#8⟩, ⟨0#8⟩), (⟨1#8⟩, ⟨2#8⟩)] := by decide

end ISD
