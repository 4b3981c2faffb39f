import Verif.Proofs.ReadTyped

/-!
# C10-C16, C43: values, containers and blocks
-/

namespace ISD

open RStream

/-- A write stream a writer can be at work on: healthy (every allocation succeeds) and positioned at the end of its content. -/
structure Ready (w : WStream) : Prop where
  good : w.Good
  atEnd : w.pos = w.dataSize

/-- Writing `v` returns `true` and appends one block to the stream; reading at the place of the block with type `t'` and container
`c'` returns `result`, stopping right behind the block, whatever follows in the stream and whatever the destination held. -/
def WritesAndReads (w : WStream) (key : Bytes) (t : DataType) (c : Container) (v : c.Val t.Val) (t' : DataType) (c' : Container)
    (result : (dest : c'.Val t'.Val) → c'.Val t'.Val) : Prop :=
  ∃ w' block, writeTyped t c key v w = .ok true w' ∧ Ready w' ∧ w'.flip = w.flip ∧ w'.content = w.content ++ block ∧
    ∀ (env : REnv) (post : Bytes) (dest : c'.Val t'.Val), (∀ n, env.allocOk n = true) → (w'.content ++ post).length < 2 ^ 60 →
      readTyped env t' c' key dest ⟨w'.content ++ post, w.content.length, w.flip⟩ =
        .ok (some (result dest)) ⟨w'.content ++ post, w'.content.length, w.flip⟩

/-- Writing `v` returns `true` and appends one block; a read of type `t'` and container `c'` at the place of the block returns `false`. -/
def WritesAndRefuses (w : WStream) (key : Bytes) (t : DataType) (c : Container) (v : c.Val t.Val) (t' : DataType) (c' : Container) :
    Prop :=
  ∃ w' block, writeTyped t c key v w = .ok true w' ∧ w'.content = w.content ++ block ∧
    ∀ (env : REnv) (post : Bytes) (dest : c'.Val t'.Val), (∀ n, env.allocOk n = true) → (w'.content ++ post).length < 2 ^ 60 →
      ∃ s', readTyped env t' c' key dest ⟨w'.content ++ post, w.content.length, w.flip⟩ = .ok none s'

/-- The block of this value fits into an address space. -/
def FitsIn (w : WStream) (key : Bytes) (t : DataType) (c : Container) (v : c.Val t.Val) : Prop :=
  w.dataSize + (Spec.typed w.flip t c key v).length < 2 ^ 60

theorem Ready.at {w : WStream} (h : Ready w) : WAt w w.content w.flip :=
  ⟨h.good, by rw [WStream.file, h.good.content_len, h.atEnd]⟩

theorem WAt.ready {w : WStream} {c : Bytes} {fl : Bool} (h : WAt w c fl) : Ready w :=
  ⟨h.good, by rw [h.pos, ← h.content, h.good.content_len]⟩

theorem writes {t : DataType} (ht : t ∈ allTypes) {w : WStream} (hw : Ready w) (key : Bytes) (c : Container) (v : c.Val t.Val)
    (hf : FitsIn w key t c v) :
    ∃ w', writeTyped t c key v w = .ok true w' ∧ Ready w' ∧ w'.flip = w.flip ∧
      w'.content = w.content ++ Spec.typed w.flip t c key v := by
  obtain ⟨w', e, h⟩ := writeTyped_appends (allTypes_ok t ht) c key v w.flip w _ hw.at
    (by rw [hw.good.content_len]; unfold FitsIn at hf; omega)
  exact ⟨w', e, h.ready, h.flip, h.content⟩

theorem round_trip {t : DataType} (ht : t ∈ allTypes) {w : WStream} (hw : Ready w) (key : Bytes) (hk : key.length ≤ 40)
    (c : Container) (v : c.Val t.Val) (hf : FitsIn w key t c v) :
    WritesAndReads w key t c v t c (fun dest => readInto t c dest v) := by
  obtain ⟨w', e, hr, hfl, hc⟩ := writes ht hw key c v hf
  refine ⟨w', _, e, hr, hfl, hc, fun env post dest he hs => ?_⟩
  have h : Has (w'.content ++ post) w.content.length (Spec.typed w.flip t c key v) := by
    rw [hc]; exact Has.mid _ _ _
  have := readTyped_consumes he (allTypes_ok t ht) c key hk dest v w.flip _ _ hs h
  rw [this, hc, List.length_append]

/-- **C10.** Every value of every data type: the write returns true, and reading it back under the same key returns true and the same
value, and stops right behind it. -/
theorem C10_single_values_round_trip (t : DataType) (ht : t ∈ allTypes) (w : WStream) (hw : Ready w) (key : Bytes)
    (hk : key.length ≤ 40) (v : t.Val) (hf : FitsIn w key t .none v) :
    WritesAndReads w key t .none v t .none (fun _ => v) :=
  round_trip ht hw key hk .none v hf

theorem readSingleItems_absent (env : REnv) (vt : Nat) (hvt : vt < 256) (sc : Sc) (n : Nat) (h0 : 0 < sc.size * n)
    (key : Bytes) (hk : key.length ≤ 40) (fl : Bool) {d : Bytes} {pos : Nat} (hd : Small d)
    (h : Has d pos (Spec.smallBlock vt [] key)) :
    ∃ s', readSingleItems env vt sc n key false ⟨d, pos, fl⟩ = .ok .fail s' := by
  obtain ⟨h1, h2, h3, h4⟩ := h.small
  rw [List.length_nil, Nat.zero_add] at h2
  have e1 := readU8_byte (fl := fl) hd hvt h1
  have e2 := readU8_byte (fl := fl) hd (by omega) h2
  rw [readSingleItems, Prog.bind_ok (Prog.get_apply _), Prog.bind_ok e1, if_neg (by simp), Prog.bind_ok e2, if_pos (by omega),
    if_pos (by decide)]
  exact ⟨_, rfl⟩

theorem absent_refused {env : REnv} {t : DataType} (ht : t.Ok) (key : Bytes) (hk : key.length ≤ 40) (fl : Bool)
    {d : Bytes} {pos : Nat} (hd : Small d) (h : Has d pos (Spec.single fl t key none)) :
    ∃ s', readSingle env t key false ⟨d, pos, fl⟩ = .ok .fail s' := by
  obtain ⟨nm, vt, avt, kind, ov⟩ := t
  cases kind with
  | bool =>
    obtain ⟨h1, h2⟩ := ht
    simp only at h1 h2
    subst h1 h2
    obtain ⟨s', e⟩ := readSingleItems_absent env 1 (by decide) .w1 1 (by decide) key hk fl hd h
    refine ⟨s', ?_⟩
    show readSingleBool env key false _ = _
    rw [readSingleBool, Prog.bind_ok e]
    rfl
  | items sc n f =>
    obtain ⟨h0, h1, h2, h3, -⟩ := ht
    have h0' : 0 < sc.size * n := Nat.mul_pos (by cases sc <;> decide) h0
    simp only at h3
    obtain ⟨s', e⟩ := readSingleItems_absent env vt (by omega) sc n h0' key hk fl hd h
    refine ⟨s', ?_⟩
    show ((readSingleItems env vt sc n key false) >>= _) _ = _
    rw [Prog.bind_ok e]
    rfl
  | string =>
    obtain ⟨h1, h2⟩ := ht
    simp only at h1 h2
    subst h1 h2
    have e1 := beginReadLarge_has env hd (by decide) hk h
    rw [Option.elim_none, List.length_nil, Nat.add_zero] at e1
    show ∃ s', readSingleString env key false _ = _
    rw [readSingleString, show vtString = 0xe0 from rfl, Prog.bind_ok e1, if_neg (by omega), Prog.bind_ok (Prog.get_apply _),
      if_pos rfl, if_neg (by simp)]
    exact ⟨_, rfl⟩

/-- **C11.** An optional value reads back equal: absent stays absent, every present value (zero and the empty string included) stays
present; and an absent value is refused by a reader that wants a value. -/
theorem C11_optional_values (t : DataType) (ht : t ∈ allTypes) (w : WStream) (hw : Ready w) (key : Bytes)
    (hk : key.length ≤ 40) (v : Option t.Val) (hf : FitsIn w key t .optionalValue v) :
    WritesAndReads w key t .optionalValue v t .optionalValue (fun _ => v) ∧
    (v = none → WritesAndRefuses w key t .optionalValue v t .none) := by
  refine ⟨round_trip ht hw key hk .optionalValue v hf, ?_⟩
  rintro rfl
  obtain ⟨w', e, hr, hfl, hc⟩ := writes ht hw key .optionalValue none hf
  refine ⟨w', _, e, hc, fun env post dest he hs => ?_⟩
  have h : Has (w'.content ++ post) w.content.length (Spec.single w.flip t key none) := by
    rw [hc]; exact Has.mid _ _ _
  obtain ⟨s', e'⟩ := absent_refused (env := env) (allTypes_ok t ht) key hk w.flip hs h
  exact ⟨s', by rw [readTyped, Prog.bind_ok e']; rfl⟩

/-- A mandatory value and a present optional value are the same block, so either can be read as the other. -/
theorem C11_present_reads_as_mandatory (t : DataType) (ht : t ∈ allTypes) (w : WStream) (hw : Ready w) (key : Bytes)
    (hk : key.length ≤ 40) (v : t.Val) (hf : FitsIn w key t .none v) :
    WritesAndReads w key t .none v t .optionalValue (fun _ => some v) ∧
    WritesAndReads w key t .optionalValue (some v) t .none (fun _ => v) := by
  constructor
  · obtain ⟨w', b, e, h1, h2, h3, -⟩ := round_trip ht hw key hk .none v hf
    obtain ⟨w2, b2, e2, g1, g2, g3, g4⟩ := round_trip ht hw key hk .optionalValue (some v) hf
    have : w2 = w' := by
      have := e.symm.trans e2
      simpa using this.symm
    subst this
    exact ⟨w2, b, e, h1, h2, h3, g4⟩
  · obtain ⟨w', b, e, h1, h2, h3, h4⟩ := round_trip ht hw key hk .none v hf
    exact ⟨w', b, e, h1, h2, h3, h4⟩

/-- **C12.** Vectors and optional vectors of every element type, every length and content, read back as the same sequence (or the same
absence). The two types stored through another type (`entity_ref`, `package_ref`) append in the plain vector overload, so for them the
destination must start empty (see C43). -/
theorem C12_vectors_round_trip (t : DataType) (ht : t ∈ allTypes) (w : WStream) (hw : Ready w) (key : Bytes)
    (hk : key.length ≤ 40) :
    (∀ v : List t.Val, FitsIn w key t .vector v →
      WritesAndReads w key t .vector v t .vector (fun dest => if t.overrides then List.append dest v else v)) ∧
    (∀ v : Option (List t.Val), FitsIn w key t .optionalVector v →
      WritesAndReads w key t .optionalVector v t .optionalVector (fun _ => v)) :=
  ⟨fun v hf => round_trip ht hw key hk .vector v hf, fun v hf => round_trip ht hw key hk .optionalVector v hf⟩

theorem readMeta_mismatch {env : REnv} {d : Bytes} {pos : Nat} {fl : Bool} (k n : Nat) (hk : k < 256) (hn : n < 2 ^ 64)
    (index : Option (List (Word 4))) (hd : Small d) (h : Has d pos (Spec.arrayHeader fl k n index)) (blockEnd : Nat) (wi : Bool)
    (hwi : wi ≠ index.isSome) :
    ∃ s', readArrayMetadataAndIndex env blockEnd wi ⟨d, pos, fl⟩ = .ok none s' := by
  obtain ⟨f1, f2, f3⟩ := flag_fields k hk index.isSome
  unfold Spec.arrayHeader at h
  rw [Has.append, Has.append, List.length_append, number_length, number_length, ← Nat.add_assoc] at h
  obtain ⟨⟨h1, h2⟩, h3⟩ := h
  have e1 := readU16_has (fl := fl) hd (by split <;> omega) h1
  have e2 := readU64_has (fl := fl) hd hn h2
  cases index with
  | none =>
    simp only [Option.isSome_none, Bool.false_eq_true, if_false, ne_eq, iff_false, Decidable.not_not] at f1 f2 f3 e1
    rw [readArrayMetadataAndIndex, Prog.bind_ok (Prog.get_apply _), Prog.bind_ok e1, f1, if_neg (by rw [f2]; simp), Prog.bind_ok e2,
      if_neg (by rw [f3]; simp), if_pos (by simpa using hwi)]
    exact ⟨_, rfl⟩
  | some idx =>
    simp only [Option.isSome_some, if_true, ne_eq, iff_true] at f1 f2 f3 e1
    rw [readArrayMetadataAndIndex, Prog.bind_ok (Prog.get_apply _), Prog.bind_ok e1, f1, if_neg (by rw [f2]; simp), Prog.bind_ok e2,
      if_pos f3, if_pos (by simpa using hwi)]
    exact ⟨_, rfl⟩

theorem array_mismatch {env : REnv} {t : DataType} (ht : t.Ok) (key : Bytes) (hk : key.length ≤ 40) (fl ea wi : Bool)
    (v : List t.Val) (index : Option (List (Word 4))) (hwi : wi ≠ index.isSome)
    {d : Bytes} {pos : Nat} (hd : Small d) (h : Has d pos (Spec.array fl t key (some v) index)) :
    ∃ s', readArray env t key ea wi ⟨d, pos, fl⟩ = .ok .fail s' := by
  obtain ⟨nm, vt, avt, kind, ov⟩ := t
  cases kind with
  | bool =>
    obtain ⟨h1, h2⟩ := ht
    simp only at h1 h2
    subst h1 h2
    have e1 := beginReadLarge_has env hd (by decide) hk h
    obtain ⟨h2, h3, hl⟩ := readFrame h
    rw [packBools_length] at hl
    rw [Option.elim_some, List.length_append, arrayHeader_length] at e1
    obtain ⟨s', e2⟩ := readMeta_mismatch (env := env) 0 v.length (by decide) (by omega) index hd h2
      (pos + 10 + key.length + (10 + index.elim 0 (fun l => 8 + l.length * 4) + (Spec.packBools v).length)) wi hwi
    refine ⟨s', ?_⟩
    show readArrayBool env key ea wi _ = _
    rw [readArrayBool, Prog.bind_ok e1, if_neg (by omega), Prog.bind_ok (Prog.get_apply _), if_neg (by dsimp only; omega),
      Prog.bind_ok e2]
    rfl
  | items sc n f =>
    obtain ⟨h0, h1, h2, h3, h4⟩ := ht
    simp only at h3 h4
    have e1 := beginReadLarge_has env hd (by omega) hk h
    have hs0 : 0 < sc.size := by cases sc <;> decide
    have hs1 : sc.size < 256 := by cases sc <;> decide
    obtain ⟨h2, h3, hl⟩ := readFrame h
    have hle : v.length * n ≤ v.length * n * sc.size := Nat.le_mul_of_pos_right _ hs0
    rw [scalars_length, flat_length] at hl
    rw [Option.elim_some, List.length_append, arrayHeader_length] at e1
    obtain ⟨s', e2⟩ := readMeta_mismatch (env := env) sc.size (v.length * n) hs1 (by omega) index hd h2
      (pos + 10 + key.length + (10 + index.elim 0 (fun l => 8 + l.length * 4) +
        (Spec.scalars fl sc (v.flatMap Vector.toList)).length)) wi hwi
    refine ⟨s', ?_⟩
    show readArrayItems env avt sc n key ea wi _ = _
    rw [readArrayItems, Prog.bind_ok e1, if_neg (by omega), Prog.bind_ok (Prog.get_apply _), if_neg (by dsimp only; omega),
      Prog.bind_ok e2]
    rfl
  | string =>
    obtain ⟨h1, h2⟩ := ht
    simp only at h1 h2
    subst h1 h2
    have e1 := beginReadLarge_has env hd (by decide) hk h
    obtain ⟨h2, h3, hl⟩ := readFrame h
    have hge := strings_ge fl v
    rw [Option.elim_some, List.length_append, arrayHeader_length] at e1
    obtain ⟨s', e2⟩ := readMeta_mismatch (env := env) 0 v.length (by decide) (by omega) index hd h2
      (pos + 10 + key.length + (10 + index.elim 0 (fun l => 8 + l.length * 4) + (v.flatMap (Spec.sizedString fl)).length)) wi hwi
    refine ⟨s', ?_⟩
    show readArrayString env key ea wi _ = _
    rw [readArrayString, show vtArrayString = 0xe1 from rfl, Prog.bind_ok e1, if_neg (by omega), Prog.bind_ok (Prog.get_apply _),
      if_neg (by dsimp only; omega), Prog.bind_ok e2]
    rfl

/-- **C13.** Indexed vectors and optional indexed vectors read back with the same values and the same index (with the destination of the
plain indexed vector empty for the appending types, see C43); a present indexed array is refused by a reader that wants no index, and
a present plain array by a reader that wants one. -/
theorem C13_indexed_vectors (t : DataType) (ht : t ∈ allTypes) (w : WStream) (hw : Ready w) (key : Bytes)
    (hk : key.length ≤ 40) :
    (∀ v : IdxVec t.Val, FitsIn w key t .idxVector v →
      WritesAndReads w key t .idxVector v t .idxVector
        (fun dest => ⟨(if t.overrides then dest.values else []) ++ v.values, v.index⟩)) ∧
    (∀ v : Option (IdxVec t.Val), FitsIn w key t .optionalIdxVector v →
      WritesAndReads w key t .optionalIdxVector v t .optionalIdxVector (fun _ => v)) ∧
    (∀ v : IdxVec t.Val, FitsIn w key t .idxVector v →
      WritesAndRefuses w key t .idxVector v t .vector ∧ WritesAndRefuses w key t .idxVector v t .optionalVector) ∧
    (∀ v : List t.Val, FitsIn w key t .vector v →
      WritesAndRefuses w key t .vector v t .idxVector ∧ WritesAndRefuses w key t .vector v t .optionalIdxVector) := by
  refine ⟨fun v hf => ?_, fun v hf => round_trip ht hw key hk .optionalIdxVector v hf, fun v hf => ?_, fun v hf => ?_⟩
  · obtain ⟨w', b, h1, h2, h3, h4, h5⟩ := round_trip ht hw key hk .idxVector v hf
    refine ⟨w', b, h1, h2, h3, h4, fun env post dest he hs => ?_⟩
    rw [h5 env post dest he hs]
    cases ho : t.overrides <;> simp [readInto, ho]
  · obtain ⟨w', e, hr, hfl, hc⟩ := writes ht hw key .idxVector v hf
    constructor
    all_goals
      refine ⟨w', _, e, hc, fun env post dest he hs => ?_⟩
      have h : Has (w'.content ++ post) w.content.length (Spec.array w.flip t key (some v.values) (some v.index)) := by
        rw [hc]; exact Has.mid _ _ _
    · obtain ⟨s', e'⟩ := array_mismatch (env := env) (allTypes_ok t ht) key hk w.flip false false _ _ (by simp) hs h
      exact ⟨s', by rw [readTyped, Prog.bind_ok e']; rfl⟩
    · obtain ⟨s', e'⟩ := array_mismatch (env := env) (allTypes_ok t ht) key hk w.flip true false _ _ (by simp) hs h
      exact ⟨s', by rw [readTyped, Prog.bind_ok e']; rfl⟩
  · obtain ⟨w', e, hr, hfl, hc⟩ := writes ht hw key .vector v hf
    constructor
    all_goals
      refine ⟨w', _, e, hc, fun env post dest he hs => ?_⟩
      have h : Has (w'.content ++ post) w.content.length (Spec.array w.flip t key (some v) none) := by
        rw [hc]; exact Has.mid _ _ _
    · obtain ⟨s', e'⟩ := array_mismatch (env := env) (allTypes_ok t ht) key hk w.flip false true _ _ (by simp) hs h
      exact ⟨s', by rw [readTyped, Prog.bind_ok e']; rfl⟩
    · obtain ⟨s', e'⟩ := array_mismatch (env := env) (allTypes_ok t ht) key hk w.flip true true _ _ (by simp) hs h
      exact ⟨s', by rw [readTyped, Prog.bind_ok e']; rfl⟩

/-- The string type of the table. -/
def stringType : DataType := ⟨"string", 0xe0, 0xe1, .string, false⟩

/-- **C14.** Strings of any bytes, alone, optional, in vectors and in indexed vectors, read back exactly; the empty string, present, is
not confused with an absent one. -/
theorem C14_strings_binary_safe (w : WStream) (hw : Ready w) (key : Bytes) (hk : key.length ≤ 40) :
    stringType ∈ allTypes ∧
    (∀ s : Bytes, FitsIn w key stringType .none s → WritesAndReads w key stringType .none s stringType .none (fun _ => s)) ∧
    (∀ s : Option Bytes, FitsIn w key stringType .optionalValue s →
      WritesAndReads w key stringType .optionalValue s stringType .optionalValue (fun _ => s)) ∧
    (∀ l : List Bytes, FitsIn w key stringType .vector l →
      WritesAndReads w key stringType .vector l stringType .vector (fun _ => l)) ∧
    (∀ l : Option (List Bytes), FitsIn w key stringType .optionalVector l →
      WritesAndReads w key stringType .optionalVector l stringType .optionalVector (fun _ => l)) ∧
    (∀ l : IdxVec Bytes, FitsIn w key stringType .idxVector l →
      WritesAndReads w key stringType .idxVector l stringType .idxVector (fun _ => l)) := by
  have hm : stringType ∈ allTypes := by decide +kernel
  exact ⟨hm, fun s hf => round_trip hm hw key hk .none s hf, fun s hf => round_trip hm hw key hk .optionalValue s hf,
    fun s hf => round_trip hm hw key hk .vector s hf, fun s hf => round_trip hm hw key hk .optionalVector s hf,
    fun s hf => round_trip hm hw key hk .idxVector s hf⟩

/-- The bool type of the table. -/
def boolType : DataType := ⟨"bool", 0x01, 0x41, .bool, false⟩

theorem bit_test (b : Byte) (i : Nat) (hi : i < 8) :
    (b &&& (1 : UInt8) <<< UInt8.ofNat i != 0) = b.toNat.testBit i := by
  have : ∀ b : BitVec 8, ∀ i : Fin 8, (b &&& (1#8 <<< i.val) != 0#8) = b.toNat.testBit i.val := by decide +kernel
  have := this b.toBitVec ⟨i, hi⟩
  rw [show b.toNat = b.toBitVec.toNat from rfl, ← this]
  have e : ((b &&& (1 : UInt8) <<< UInt8.ofNat i) != 0) = ((b &&& (1 : UInt8) <<< UInt8.ofNat i).toBitVec != 0#8) := by
    rw [bne, bne]
    congr 1
    rw [Bool.eq_iff_iff, beq_iff_eq, beq_iff_eq]
    exact ⟨fun h => by rw [h]; rfl, fun h => UInt8.toBitVec_inj.mp h⟩
  rw [e, UInt8.toBitVec_and]
  congr 2
  have : ∀ i : Fin 8, ((1 : UInt8) <<< UInt8.ofNat i.val).toBitVec = 1#8 <<< i.val := by decide
  exact this ⟨i, hi⟩

/-- **C15.** A vector of bools of any length: the block ends in exactly `⌈n/8⌉` payload bytes behind its fixed head, element `i` is bit
`i%8` of byte `i/8`, the unused bits of the last byte are zero, and the vector reads back unchanged. -/
theorem C15_bool_packing (w : WStream) (hw : Ready w) (key : Bytes) (hk : key.length ≤ 40) (l : List Bool)
    (hf : FitsIn w key boolType .vector l) :
    (∃ w' head packed, writeTyped boolType .vector key l w = .ok true w' ∧ w'.content = w.content ++ head ++ packed ∧
      head.length = 20 + key.length ∧ packed.length = (l.length + 7) / 8 ∧
      ∀ i (h : i / 8 < packed.length), packed[i / 8].toNat.testBit (i % 8) = l.getD i false) ∧
    WritesAndReads w key boolType .vector l boolType .vector (fun _ => l) := by
  have hm : boolType ∈ allTypes := by decide +kernel
  refine ⟨?_, round_trip hm hw key hk .vector l hf⟩
  obtain ⟨w', e, hr, hfl, hc⟩ := writes hm hw key .vector l hf
  refine ⟨w', Spec.largeBlock w.flip 0x41 key [] |>.take 1 |>.append
    (Spec.number w.flip 8 (1 + key.length + (Spec.arrayHeader w.flip 0 l.length none ++ Spec.packBools l).length) ++
      [UInt8.ofNat key.length] ++ key ++ Spec.arrayHeader w.flip 0 l.length none), Spec.packBools l, e, ?_, ?_, packBools_length l, ?_⟩
  · rw [hc]
    simp only [Spec.typed, Spec.array, boolType, Spec.largeBlock, Option.elim_some, List.append_assoc, List.append_eq]
    simp
  · simp only [List.append_eq, List.length_append, number_length, arrayHeader_length, Spec.largeBlock, List.length_take]
    simp
    omega
  · intro i h
    rw [← bit_test _ _ (Nat.mod_lt _ (by decide))]
    have hb := h
    rw [packBools_length] at hb
    have : (Spec.packBools l)[i / 8] = (Spec.packBools l).getD (i / 8) 0 := by
      rw [List.getD_eq_getElem?_getD, List.getElem?_eq_getElem h]; rfl
    rw [this]
    by_cases hi : i < l.length
    · exact packBools_test l i hi
    · have hlt : i / 8 < (Spec.packBools l).length := h
      rw [List.getD_eq_getElem?_getD, List.getElem?_eq_getElem hlt]
      simp only [Spec.packBools, List.getElem_map, List.getElem_range, Option.getD_some]
      rw [packedByte_eq, bits_test _ _ (Nat.mod_lt _ (by decide)), Nat.div_add_mod]

/-- How far to skip over a block, knowing only the documented layout (ISD_Types.h 63-86): below 0x40 the second byte counts the rest,
else the following 8 bytes do. -/
def Spec.skip (fl : Bool) : Bytes → Option Nat
  | vt :: rest =>
    if vt.toNat < 0x40 then rest.head?.map fun n => 2 + n.toNat
    else
      let size := rest.take 8
      let le := if fl then size.reverse else size
      some (9 + (le.zipIdx.map fun (b, i) => b.toNat * 256 ^ i).sum)
  | [] => none

theorem zipIdx_sum (l : Bytes) (k : Nat) :
    ((l.zipIdx k).map fun (b, i) => b.toNat * 256 ^ i).sum = 256 ^ k * fromLE l := by
  induction l generalizing k with
  | nil => rfl
  | cons b l ih =>
    rw [List.zipIdx_cons, List.map_cons, List.sum_cons, ih, fromLE, Nat.mul_add, Nat.pow_succ, Nat.mul_assoc]
    dsimp only
    rw [Nat.mul_comm b.toNat]

theorem skip_large (fl : Bool) (vt : Nat) (h1 : 0x40 ≤ vt) (h2 : vt < 256) (key payload rest : Bytes)
    (hl : (Spec.largeBlock fl vt key payload).length < 2 ^ 64) :
    Spec.skip fl (Spec.largeBlock fl vt key payload ++ rest) = some (Spec.largeBlock fl vt key payload).length := by
  rw [largeBlock_length] at hl
  have e : Spec.largeBlock fl vt key payload ++ rest =
      UInt8.ofNat vt :: (Spec.number fl 8 (1 + key.length + payload.length) ++
        ([UInt8.ofNat key.length] ++ key ++ payload ++ rest)) := by
    simp [Spec.largeBlock]
  have hv : (UInt8.ofNat vt).toNat = vt := by rw [UInt8.toNat_ofNat']; exact Nat.mod_eq_of_lt h2
  rw [e, largeBlock_length, Spec.skip, hv, if_neg (by omega)]
  dsimp only
  rw [List.take_left' (by simp)]
  have hn : (if fl = true then (Spec.number fl 8 (1 + key.length + payload.length)).reverse
      else Spec.number fl 8 (1 + key.length + payload.length)) = leBytes 8 (1 + key.length + payload.length) := by
    cases fl
    · simp [Spec.number, lsbFirst_eq]
    · simp [Spec.number, msbFirst_eq]
  have hz := zipIdx_sum (leBytes 8 (1 + key.length + payload.length)) 0
  rw [hn, hz, fromLE_leBytes, Nat.mod_eq_of_lt (by omega)]
  simp only [Nat.pow_zero, Option.some.injEq]
  omega

theorem skip_small (fl : Bool) (vt : Nat) (h1 : vt < 0x40) (value key rest : Bytes) (hl : value.length + key.length < 256) :
    Spec.skip fl (Spec.smallBlock vt value key ++ rest) = some (Spec.smallBlock vt value key).length := by
  have hv : (UInt8.ofNat vt).toNat = vt := by rw [UInt8.toNat_ofNat']; exact Nat.mod_eq_of_lt (by omega)
  rw [smallBlock_length, Spec.smallBlock]
  simp only [List.cons_append, Spec.skip, hv, if_pos h1, List.head?_cons, Option.map_some, Option.some.injEq, UInt8.toNat_ofNat']
  rw [Nat.mod_eq_of_lt (by omega)]
  omega

theorem skip_typed (fl : Bool) (t : DataType) (ht : t.Ok) (c : Container) (key : Bytes) (hk : key.length ≤ 40) (v : c.Val t.Val)
    (rest : Bytes) (hl : (Spec.typed fl t c key v).length < 2 ^ 64) :
    Spec.skip fl (Spec.typed fl t c key v ++ rest) = some (Spec.typed fl t c key v).length := by
  have hsingle : ∀ v : Option t.Val, (Spec.single fl t key v).length < 2 ^ 64 →
      Spec.skip fl (Spec.single fl t key v ++ rest) = some (Spec.single fl t key v).length := by
    intro v hl
    obtain ⟨nm, vt, avt, kind, ov⟩ := t
    cases kind with
    | bool =>
      refine skip_small fl vt ?_ _ key rest ?_
      · have := ht.1; simp only at this; omega
      · cases v <;> simp <;> omega
    | items sc n f =>
      obtain ⟨h0, h1, h2, h3, h4⟩ := ht
      refine skip_small fl vt h3 _ key rest ?_
      cases v with
      | none => simp; omega
      | some x =>
        rw [Option.elim_some, scalars_length, Vector.length_toList, Nat.mul_comm]; omega
    | string =>
      have := ht.1; simp only at this
      exact skip_large fl vt (by omega) (by omega) key _ rest hl
  have harray : ∀ (v : Option (List t.Val)) (index : Option (List (Word 4))), (Spec.array fl t key v index).length < 2 ^ 64 →
      Spec.skip fl (Spec.array fl t key v index ++ rest) = some (Spec.array fl t key v index).length := by
    intro v index hl
    obtain ⟨nm, vt, avt, kind, ov⟩ := t
    cases kind with
    | bool =>
      have := ht.2; simp only at this
      exact skip_large fl avt (by omega) (by omega) key _ rest hl
    | items sc n f =>
      obtain ⟨h0, h1, h2, h3, h4⟩ := ht
      simp only at h3 h4
      exact skip_large fl avt (by omega) (by omega) key _ rest hl
    | string =>
      have := ht.2; simp only at this
      exact skip_large fl avt (by omega) (by omega) key _ rest hl
  cases c with
  | none => exact hsingle _ hl
  | optionalValue => exact hsingle _ hl
  | vector => exact harray _ _ hl
  | optionalVector => exact harray _ _ hl
  | idxVector => exact harray _ _ hl
  | optionalIdxVector => exact harray _ _ hl

/-- **C16** (values; for sections see `C16_sections`). Whatever is written, what it appended can be skipped by the documented rule, whatever follows. -/
theorem C16_blocks_self_delimiting (t : DataType) (ht : t ∈ allTypes) (w : WStream) (hw : Ready w) (c : Container) (key : Bytes)
    (hk : key.length ≤ 40) (v : c.Val t.Val) (hf : FitsIn w key t c v) :
    ∃ w' block, writeTyped t c key v w = .ok true w' ∧ w'.content = w.content ++ block ∧
      ∀ rest, Spec.skip w.flip (block ++ rest) = some block.length := by
  obtain ⟨w', e, hr, hfl, hc⟩ := writes ht hw key c v hf
  refine ⟨w', _, e, hc, fun rest => skip_typed w.flip t (allTypes_ok t ht) c key hk v rest ?_⟩
  unfold FitsIn at hf
  omega

/-- **C43 is false**: for the types stored through another type (`entity_ref`, `package_ref`) a successful read of a vector or an
indexed vector puts the stored elements behind the previous contents of the destination. -/
theorem C43_false_for_refs (t : DataType) (ht : t ∈ allTypes) (hov : t.overrides = true) (w : WStream) (hw : Ready w) (key : Bytes)
    (hk : key.length ≤ 40) :
    (∀ v : List t.Val, FitsIn w key t .vector v → WritesAndReads w key t .vector v t .vector (fun dest => List.append dest v)) ∧
    (∀ v : IdxVec t.Val, FitsIn w key t .idxVector v →
      WritesAndReads w key t .idxVector v t .idxVector (fun dest => ⟨dest.values ++ v.values, v.index⟩)) := by
  constructor
  · intro v hf
    have := (C12_vectors_round_trip t ht w hw key hk).1 v hf
    rwa [hov] at this
  · intro v hf
    have := (C13_indexed_vectors t ht w hw key hk).1 v hf
    rwa [hov] at this

/-- The two types concerned. -/
theorem C43_which_types : (allTypes.filter DataType.overrides).map DataType.name = ["entity_ref", "package_ref"] := by decide +kernel

/-- **C43**, the true part: for every other type, and for the other containers of every type, a successful read leaves exactly what was
stored, whatever the destination held. Missing from the full claim: vector and idx_vector of `entity_ref` and `package_ref`. -/
theorem C43_read_replaces_partial (t : DataType) (ht : t ∈ allTypes) (w : WStream) (hw : Ready w) (key : Bytes)
    (hk : key.length ≤ 40) (c : Container) (hc : t.overrides = false ∨ (c ≠ .vector ∧ c ≠ .idxVector)) (v : c.Val t.Val)
    (hf : FitsIn w key t c v) : WritesAndReads w key t c v t c (fun _ => v) := by
  have h := round_trip ht hw key hk c v hf
  have : (fun dest => readInto t c dest v) = fun _ => v := by
    funext dest
    cases c <;> simp_all [readInto]
  rwa [this] at h

/-! The hypotheses are met, and the statements are not about empty data: a fresh stream, flipped, and non-trivial values. -/

/-- A fresh stream. -/
def demoStream (fl : Bool) : WStream :=
  { mem := List.replicate 4 0, dataSize := 0, pos := 0, reserved := 4, flip := fl, allocOk := fun _ _ => true, allocNo := 1 }

theorem demo_ready (fl : Bool) : Ready (demoStream fl) :=
  ⟨⟨⟨rfl, by simp [demoStream], by simp [demoStream], by simp [demoStream], rfl⟩, fun _ _ => rfl⟩, rfl⟩

example : FitsIn (demoStream true) [0x61] stringType .vector ([[1, 0, 2], [], [0]] : List Bytes) := by unfold FitsIn; decide +kernel
example : FitsIn (demoStream true) [0x61] boolType .vector ([true, false, true, true, false, false, true, false, true] : List Bool) := by
  unfold FitsIn; decide +kernel
example : ∃ t ∈ allTypes, t.overrides = true ∧ ∃ v : List t.Val, v.length = 2 ∧ FitsIn (demoStream false) [0x61] t .vector v :=
  ⟨⟨"entity_ref", 0x12, 0x52, .items .uuid 1 false, true⟩, by decide +kernel, rfl,
    [#v[⟨1#32, 2#16, 3#16, #v[1,2,3,4,5,6,7,8]⟩], #v[⟨0#32, 0#16, 3#16, #v[1,2,3,4,5,6,7,8]⟩]], rfl, by unfold FitsIn; decide +kernel⟩

end ISD
