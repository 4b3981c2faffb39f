import Verif.Spec.TypeTable
import Verif.Props.WrongType

/-!
# C73: the documented value types
-/

namespace ISD

/-- **C73**. The types the library stores are exactly the documented ones, with the documented codes and sizes. -/
theorem C73_documented_types :
    allTypes.map (fun t => (⟨t.name, t.vt, t.avt, t.bytes⟩ : Spec.TypeRow)) = Spec.typeTable := by
  decide +kernel

theorem row_of {t : DataType} (ht : t ∈ allTypes) {row : Spec.TypeRow} (hrow : row ∈ Spec.typeTable) (hn : t.name = row.name) :
    t.vt = row.code ∧ t.avt = row.arrayCode ∧ t.bytes = row.bytes := by
  have : ∀ t ∈ allTypes, ∀ row ∈ Spec.typeTable, t.name = row.name → t.vt = row.code ∧ t.avt = row.arrayCode ∧ t.bytes = row.bytes := by
    decide +kernel
  exact this t ht row hrow hn

theorem single_value {t : DataType} (ht : t.kind ≠ .string) (fl : Bool) (key : Bytes) (v : t.Val) :
    ∃ value : Bytes, value.length = t.bytes ∧ Spec.single fl t key (some v) = Spec.smallBlock t.vt value key := by
  obtain ⟨nm, vt, avt, kind, ov⟩ := t
  cases kind with
  | bool => exact ⟨_, rfl, rfl⟩
  | items sc n f => exact ⟨Spec.scalars fl sc (Vector.toList v), by rw [DataType.bytes, scalars_length, Vector.length_toList, Nat.mul_comm], rfl⟩
  | string => exact absurd rfl ht

/-- **C73**. Writing a value of a documented type (other than a string) appends its documented code, one byte that counts what follows, the value
in its documented number of bytes, and the key. -/
theorem C73_value_on_disk {t : DataType} (ht : t ∈ allTypes) {row : Spec.TypeRow} (hrow : row ∈ Spec.typeTable) (hn : t.name = row.name)
    (hs : row.name ≠ "string") {w : WStream} (hw : Ready w) (key : Bytes) (v : t.Val) (hf : FitsIn w key t .none v) :
    ∃ w' value, writeTyped t .none key v w = .ok true w' ∧ value.length = row.bytes ∧
      w'.content = w.content ++ [UInt8.ofNat row.code, UInt8.ofNat (row.bytes + key.length)] ++ value ++ key := by
  obtain ⟨w', e, -, -, hc⟩ := writes ht hw key .none v hf
  have hk : t.kind ≠ .string := by
    have : ∀ t ∈ allTypes, t.kind = .string → t.name = "string" := by decide +kernel
    exact fun hk => hs (hn ▸ this t ht hk)
  obtain ⟨value, hl, hb⟩ := single_value hk w.flip key v
  obtain ⟨h1, -, h3⟩ := row_of ht hrow hn
  refine ⟨w', value, e, by rw [hl, h3], ?_⟩
  rw [hc, show Spec.typed w.flip t .none key v = _ from hb, Spec.smallBlock, hl, h1, h3]
  simp only [List.append_assoc]

theorem array_values {t : DataType} (hk : ∃ sc n f, t.kind = .items sc n f) (fl : Bool) (key : Bytes) (l : List t.Val) :
    ∃ payload : Bytes, payload.length = 10 + l.length * t.bytes ∧ Spec.array fl t key (some l) none = Spec.largeBlock fl t.avt key payload := by
  obtain ⟨nm, vt, avt, kind, ov⟩ := t
  obtain ⟨sc, n, f, hk⟩ := hk
  dsimp only at hk
  subst hk
  refine ⟨Spec.arrayHeader fl sc.size (l.length * n) none ++ Spec.scalars fl sc (l.flatMap Vector.toList), ?_, rfl⟩
  rw [List.length_append, arrayHeader_length, scalars_length]
  have : (l.flatMap Vector.toList).length = l.length * n := by
    induction l with
    | nil => simp
    | cons a l ih => rw [List.flatMap_cons, List.length_append, ih, Vector.length_toList, List.length_cons, Nat.add_mul]; omega
  rw [this, DataType.bytes]
  simp only [Nat.mul_assoc, Nat.mul_comm n]
  rfl

/-- **C73**. Writing a vector of a documented type (bools are packed, C15, and strings have no fixed size) appends its documented array code, eight
bytes that count what follows, the key, ten bytes of array header, and the documented number of bytes per element. -/
theorem C73_vector_on_disk {t : DataType} (ht : t ∈ allTypes) {row : Spec.TypeRow} (hrow : row ∈ Spec.typeTable) (hn : t.name = row.name)
    (hs : row.name ≠ "string") (hb : row.name ≠ "bool") {w : WStream} (hw : Ready w) (key : Bytes) (l : List t.Val)
    (hf : FitsIn w key t .vector l) :
    ∃ w' size payload, writeTyped t .vector key l w = .ok true w' ∧ size.length = 8 ∧ payload.length = 10 + l.length * row.bytes ∧
      w'.content = w.content ++ [UInt8.ofNat row.arrayCode] ++ size ++ [UInt8.ofNat key.length] ++ key ++ payload := by
  obtain ⟨w', e, -, -, hc⟩ := writes ht hw key .vector l hf
  have hk : ∃ sc n f, t.kind = .items sc n f := by
    have : ∀ t ∈ allTypes, (t.kind = .string → t.name = "string") ∧ (t.kind = .bool → t.name = "bool") := by decide +kernel
    cases h : t.kind with
    | bool => exact absurd (hn ▸ (this t ht).2 h) hb
    | string => exact absurd (hn ▸ (this t ht).1 h) hs
    | items sc n f => exact ⟨sc, n, f, rfl⟩
  obtain ⟨payload, hl, hb⟩ := array_values hk w.flip key l
  obtain ⟨-, h2, h3⟩ := row_of ht hrow hn
  refine ⟨w', Spec.number w.flip 8 (1 + key.length + payload.length), payload, e, number_length _ _ _, by rw [hl, h3], ?_⟩
  rw [hc, show Spec.typed w.flip t .vector key l = _ from hb, Spec.largeBlock, h2]
  simp only [List.append_assoc]

/-- **C73**. The table tells the types apart: two documented types with the same code and the same size are the same type, or a reference and what
it refers by. -/
theorem C73_told_apart {a b : Spec.TypeRow} (ha : a ∈ Spec.typeTable) (hb : b ∈ Spec.typeTable) (hc : a.code = b.code ∨ a.arrayCode = b.arrayCode)
    (hs : a.bytes = b.bytes) : a = b ∨ Spec.Alias a.name b.name := by
  have : ∀ a ∈ Spec.typeTable, ∀ b ∈ Spec.typeTable, a.code = b.code ∨ a.arrayCode = b.arrayCode → a.bytes = b.bytes → a = b ∨ Spec.Alias a.name b.name := by
    decide +kernel
  exact this a ha b hb hc hs

/-- **C73**. A present value or array of one type is refused when it is read as another type under its key, unless one is a reference and the
other what it refers by: for all pairs of types, containers and values. (Other keys: see C17.) -/
theorem C73_other_type_refused (env : REnv) {t t0 : DataType} (ht : t ∈ allTypes) (ht0 : t0 ∈ allTypes) (hne : t.name ≠ t0.name)
    (hal : ¬ Spec.Alias t.name t0.name) (c c0 : Container) {key : Bytes} (hk : key.length ≤ 40)
    (dest : c.Val t.Val) (v0 : c0.Val t0.Val) (hv : present c0 v0 = true) (fl : Bool) (pre post : Bytes)
    (hd : (pre ++ Spec.typed fl t0 c0 key v0 ++ post).length < 2 ^ 60) (v' : c.Val t.Val) (s' : RStream) :
    readTyped env t c key dest ⟨pre ++ Spec.typed fl t0 c0 key v0 ++ post, pre.length, fl⟩ ≠ .ok (some v') s' := by
  have hw : t.vt ≠ t0.vt ∨ t.kind ≠ t0.kind := by
    have : ∀ t ∈ allTypes, ∀ t0 ∈ allTypes, t.name ≠ t0.name → ¬ Spec.Alias t.name t0.name → t.vt ≠ t0.vt ∨ t.kind ≠ t0.kind := by decide +kernel
    exact this t ht t0 ht0 hne hal
  refine C17_wrong_type_or_key_refused_partial env t ht c key hk dest t0 ht0 c0 key hk v0 fl pre post hd (fun _ _ => rfl) ?_ v' s'
  rcases hw with hw | hw
  · exact .inr (.inl hw)
  · exact .inr (.inr (.inr (.inl ⟨hv, .inl hw⟩)))

/-- A `mat3` of floats takes 36 bytes. -/
example (m : Vector (Word 4) 9) : ∃ t ∈ allTypes, ∃ row ∈ Spec.typeTable, t.name = row.name ∧ row.name = "fmat3" ∧ row.bytes = 36 ∧
    ∃ v : t.Val, HEq v m := ⟨⟨"fmat3", 0x0f, 0x4f, .items .w4 9 true, false⟩, by decide +kernel, ⟨"fmat3", 0x0f, 0x4f, 36⟩, by decide +kernel, rfl, rfl, rfl, m, HEq.rfl⟩

/-- A vector of four floats is not read as a quaternion. -/
example (x : Vector (Word 4) 4) (v' : Vector (Word 4) 4) (s' : RStream) :
    readTyped luckyEnv ⟨"fquat", 0x11, 0x51, .items .w4 4 true, false⟩ .none [65] (Vector.replicate 4 0)
      ⟨[7] ++ Spec.typed false ⟨"fvec4", 0x07, 0x47, .items .w4 4 true, false⟩ .none [65] x ++ [8], 1, false⟩ ≠ .ok (some v') s' :=
  C73_other_type_refused luckyEnv (t := ⟨"fquat", 0x11, 0x51, .items .w4 4 true, false⟩) (t0 := ⟨"fvec4", 0x07, 0x47, .items .w4 4 true, false⟩)
    (by decide +kernel) (by decide +kernel) (by decide) (by decide) .none .none (by decide) _ x rfl false [7] [8]
    (by simp [Spec.typed, Spec.single, Spec.smallBlock, scalars_length, Sc.size]) v' s'

end ISD
