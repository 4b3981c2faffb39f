import Verif.Proofs.OverExec
import Verif.Props.RoundTrip

/-!
# C92: the text of the overloads of `Write` and `Read`
-/

namespace ISD

open Over

/-- **C92**, the files. ISD_EntityWriter.cpp and ISD_EntityReader.cpp are made of constructors and specialisations (`parse`), and each has exactly one
specialisation for every container of every data type, and none for anything else. -/
theorem C92_one_overload_for_each_type :
    ∃ ws rs, parse writerCtor (text writerLines) = some ws ∧ parse readerCtors (text readerLines) = some rs ∧
      (ws.map Fn.ty).Nodup ∧ (rs.map Fn.ty).Nodup ∧
      ∀ c name, ((c, name) ∈ ws.map Fn.ty ↔ ∃ d ∈ allTypes, d.name.toList = name) ∧
        ((c, name) ∈ rs.map Fn.ty ↔ ∃ d ∈ allTypes, d.name.toList = name) := by
  refine ⟨writerFile, readerFile, parse_writer, parse_reader, writer_keys ▸ keys_nodup, reader_keys ▸ keys_nodup, ?_⟩
  have hk : ∀ c name, (c, name) ∈ keys ↔ ∃ d ∈ allTypes, d.name.toList = name := by
    intro c name
    constructor
    · intro h
      simp only [keys, List.mem_flatMap, List.mem_map, Prod.mk.injEq] at h
      obtain ⟨b, hb, t, ht, c', -, -, h⟩ := h
      have := listed b hb t ht
      obtain ⟨d, hd, e⟩ := this
      exact ⟨d, hd, e.trans h⟩
    · rintro ⟨d, hd, rfl⟩
      obtain ⟨b, t, h⟩ := row_of hd
      rw [keys]
      exact List.mem_flatMap.mpr ⟨b, h.inTable, List.mem_flatMap.mpr ⟨t, h.inBase, List.mem_map.mpr ⟨c, mem_containers c, by rw [h.name]⟩⟩⟩
  intro c name
  rw [writer_keys, reader_keys]
  exact ⟨hk c name, hk c name⟩

/-- **C92**, writing. To run the text of `Write` for a container of a data type is to do what the model does (`writeTyped`, of which the other properties
speak): the same bytes, the same result, the same exceptions, for every value, key and stream. The calls of one overload by another nest two deep. -/
theorem C92_write_text {ws : List Fn} (h : parse writerCtor (text writerLines) = some ws) (d : DataType) (hd : d ∈ allTypes) (c : Container)
    (v : c.Val d.Val) (key : Bytes) (n : Nat) :
    writeText ws key (n + 2) (c, d.name.toList) (Obj.of (K := d.kind) c v) = writeTyped d c key v := by
  rw [parse_writer, Option.some.injEq] at h
  subst h
  exact write_all hd key n c v

/-- **C92**, reading: the same for `Read`, for every value that the destination held before. -/
theorem C92_read_text {rs : List Fn} (h : parse readerCtors (text readerLines) = some rs) (d : DataType) (hd : d ∈ allTypes) (c : Container)
    (dest : c.Val d.Val) (env : REnv) (key : Bytes) (n : Nat) :
    readText rs env key (n + 2) (c, d.name.toList) (Obj.of (K := d.kind) c dest) =
      (do let r ← readTyped env d c key dest
          return r.map (Obj.of c)) := by
  rw [parse_reader, Option.some.injEq] at h
  subst h
  exact read_all hd env key n c dest

/-- The vectors of a destination are empty. -/
def EmptyDest {α : Type} : (c : Container) → c.Val α → Prop
  | .vector, v => v = []
  | .idxVector, v => v.values = []
  | _, _ => True

/-- **C92**, both ways. For every container of every data type, every value and every key that a reader takes: the text of `Write` returns true and appends one
block, and the text of `Read`, run on that block with a destination whose vectors are empty, returns true, leaves the value in the destination, and stops behind
the block. -/
theorem C92_text_round_trip {ws rs : List Fn} (hws : parse writerCtor (text writerLines) = some ws) (hrs : parse readerCtors (text readerLines) = some rs)
    (d : DataType) (hd : d ∈ allTypes) (c : Container) (v : c.Val d.Val) (w : WStream) (hw : Ready w) (key : Bytes) (hk : key.length ≤ 40)
    (hf : FitsIn w key d c v) (n : Nat) :
    ∃ w' block, writeText ws key (n + 2) (c, d.name.toList) (Obj.of (K := d.kind) c v) w = .ok true w' ∧ w'.content = w.content ++ block ∧
      ∀ (env : REnv) (post : Bytes) (dest : c.Val d.Val), (∀ n, env.allocOk n = true) → (w'.content ++ post).length < 2 ^ 60 → EmptyDest c dest →
        readText rs env key (n + 2) (c, d.name.toList) (Obj.of (K := d.kind) c dest) ⟨w'.content ++ post, w.content.length, w.flip⟩ =
          .ok (some (Obj.of c v)) ⟨w'.content ++ post, w'.content.length, w.flip⟩ := by
  obtain ⟨w', block, e, -, -, hc, hr⟩ := round_trip hd hw key hk c v hf
  refine ⟨w', block, (C92_write_text hws d hd c v key n) ▸ e, hc, fun env post dest he hs hempty => ?_⟩
  rw [C92_read_text hrs d hd c dest env key n]
  refine (Prog.bind_ok (hr env post dest he hs)).trans ?_
  have : readInto d c dest v = v := by
    cases c with
    | vector =>
      have h0 : dest = [] := hempty
      subst h0
      show (if d.overrides then List.append [] v else v) = v
      split <;> rfl
    | idxVector =>
      have h0 : dest.values = [] := hempty
      show (if d.overrides then (⟨dest.values ++ v.values, v.index⟩ : IdxVec d.Val) else v) = v
      rw [h0]
      split <;> rfl
    | none => rfl
    | optionalValue => rfl
    | optionalVector => rfl
    | optionalIdxVector => rfl
  show Res.ok (some (Obj.of c (readInto d c dest v))) _ = _
  rw [this]

/-- A case: an indexed vector of entity references, which are stored as uuids. -/
example : ∃ d ∈ allTypes, d.name = "entity_ref" ∧ d.overrides = true ∧ ∃ v : IdxVec d.Val, v.values.length = 2 ∧ v.index.length = 3 ∧
    FitsIn (demoStream true) [0x61] d .idxVector v :=
  ⟨⟨"entity_ref", 0x12, 0x52, .items .uuid 1 false, true⟩, by decide +kernel, rfl, rfl,
    ⟨[#v[⟨1, 2, 3, #v[4, 5, 6, 7, 8, 9, 10, 11]⟩], #v[⟨5, 6, 7, Vector.replicate 8 8⟩]], [0#32, 1#32, 0#32]⟩, rfl, rfl, by unfold FitsIn; decide +kernel⟩

end ISD
