import Verif.Props.Hostile

/-!
# C17: reading with the wrong type or the wrong key
-/

namespace ISD

open RStream

/-! ## Written blocks are blocks -/

/-- The container stores several items. -/
def Container.isArray : Container → Bool
  | .none => false
  | .optionalValue => false
  | _ => true

/-- The container has an index. -/
def Container.hasIndex : Container → Bool
  | .idxVector => true
  | .optionalIdxVector => true
  | _ => false

/-- Bytes of a present small value. -/
def DataType.bytes (t : DataType) : Nat :=
  match t.kind with
  | .bool => 1
  | .items sc n _ => sc.size * n
  | .string => 0

/-- Bytes of one scalar. -/
def DataType.scalarSize (t : DataType) : Nat :=
  match t.kind with
  | .items sc _ _ => sc.size
  | _ => 0

theorem u8_ofNat_inj {a b : Nat} (ha : a < 256) (hb : b < 256) (h : UInt8.ofNat a = UInt8.ofNat b) : a = b := by
  have := congrArg UInt8.toNat h
  rwa [UInt8.toNat_ofNat', UInt8.toNat_ofNat', Nat.mod_eq_of_lt ha, Nat.mod_eq_of_lt hb] at this

theorem code_unique {d : Bytes} {p a b : Nat} (ha : Has d p [UInt8.ofNat a]) (hb : Has d p [UInt8.ofNat b]) (h1 : a < 256)
    (h2 : b < 256) : a = b := by
  have := ha.unique hb rfl
  exact u8_ofNat_inj h1 h2 (by simpa using this)

theorem blockCode_lt {t : DataType} (ht : t.Ok) (c : Container) : blockCode t c < 256 := by
  obtain ⟨nm, vt, avt, kind, ov⟩ := t
  cases kind with
  | bool => obtain ⟨h1, h2⟩ := ht; simp only at h1 h2; cases c <;> simp [blockCode, h1, h2]
  | items sc n f => obtain ⟨h0, h1, h2, h3, h4⟩ := ht; simp only at h3 h4; cases c <;> simp only [blockCode] <;> omega
  | string => obtain ⟨h1, h2⟩ := ht; simp only at h1 h2; cases c <;> simp [blockCode, h1, h2]

/-- The value type code tells the family, whether it is an array, and whether it is stored small. -/
theorem codes (t t0 : DataType) (ht : t ∈ allTypes) (ht0 : t0 ∈ allTypes) (c c0 : Container) (h : blockCode t c = blockCode t0 c0) :
    t.vt = t0.vt ∧ c.isArray = c0.isArray ∧ isSmall t c = isSmall t0 c0 := by
  have key : ∀ t ∈ allTypes, ∀ t0 ∈ allTypes, (t.vt = t0.vt → (t.kind != .string) = (t0.kind != .string)) ∧
      (t.avt = t0.avt → t.vt = t0.vt) ∧ t.vt ≠ t0.avt := by decide +kernel
  obtain ⟨h1, h2, h3⟩ := key t ht t0 ht0
  obtain ⟨-, -, h4⟩ := key t0 ht0 t ht
  have e1 : t.vt = t0.vt → t.vt = t0.vt ∧ false = false ∧ (t.kind != .string) = (t0.kind != .string) := fun h => ⟨h, rfl, h1 h⟩
  have e2 : t.avt = t0.avt → t.vt = t0.vt ∧ true = true ∧ false = false := fun h => ⟨h2 h, rfl, rfl⟩
  cases c <;> cases c0 <;> first | exact e1 h | exact e2 h | exact absurd h h3 | exact absurd h.symm h4

/-- Within a family the size of the scalars determines how values are stored. -/
theorem same_storage : ∀ t ∈ allTypes, ∀ t0 ∈ allTypes, t.vt = t0.vt →
    (t.scalarSize = t0.scalarSize ∨ t.bytes = t0.bytes → t.kind = t0.kind) ∧ (t.kind = .string → t0.kind = .string) ∧
    (t.kind ≠ .string → t.bytes ≠ 0) := by
  decide +kernel

theorem packBools_testBit (l : List Bool) (i : Nat) (h : i < l.length) :
    l[i]? = some (((Spec.packBools l).getD (i / 8) 0).toNat.testBit (i % 8)) := by
  have h1 := packBools_test l i h
  have h2 : l.getD i false = l[i] := by rw [List.getD_eq_getElem?_getD, List.getElem?_eq_getElem h, Option.getD_some]
  rw [h2] at h1
  rw [List.getElem?_eq_getElem h, ← h1]
  have hlt : i % 8 < 8 := Nat.mod_lt _ (by decide)
  generalize (Spec.packBools l).getD (i / 8) 0 = x
  generalize i % 8 = k at *
  have : ∀ (x : Fin 256) (k : Fin 8), (UInt8.ofNat x.val &&& (1 : UInt8) <<< UInt8.ofNat k.val != 0) = (UInt8.ofNat x.val).toNat.testBit k.val := by
    decide +kernel
  have := this ⟨x.toNat, x.toNat_lt⟩ ⟨k, hlt⟩
  simp only [UInt8.ofNat_toNat] at this
  rw [this]

/-- What the writer's format specification calls the block of a value is a block of that value. -/
theorem typed_isBlock {t : DataType} (ht : t.Ok) (fl : Bool) (c : Container) (key : Bytes) (v : c.Val t.Val)
    (hl : (Spec.typed fl t c key v).length < 2 ^ 60) : Spec.TypedBlock fl t c key v (Spec.typed fl t c key v) := by
  obtain ⟨nm, vt, avt, kind, ov⟩ := t
  have hsingle : ∀ v : Option (Kind.Val kind), Spec.SingleBlock fl ⟨nm, vt, avt, kind, ov⟩ key v
      (Spec.single fl ⟨nm, vt, avt, kind, ov⟩ key v) := by
    intro v
    cases kind with
    | bool =>
      cases v with
      | none => rfl
      | some b => exact ⟨if b then 1 else 0, by cases b <;> simp, rfl⟩
    | items sc n f => cases v <;> rfl
    | string => cases v <;> rfl
  have hflags : ∀ (size : Nat) (index : Option (List (Word 4))), size < 256 →
      (size + if index.isSome then 0x100 else 0) < 2 ^ 16 ∧ (size + if index.isSome then 0x100 else 0).testBit 9 = false ∧
      (size + if index.isSome then 0x100 else 0).testBit 8 = index.isSome ∧ (size + if index.isSome then 0x100 else 0) % 256 = size := by
    intro size index hs
    simp only [Nat.testBit_eq_decide_div_mod_eq]
    cases index <;> simp <;> omega
  have hhead : ∀ (size count : Nat) (index : Option (List (Word 4))), Spec.arrayHeader fl size count index =
      Spec.looseHeader fl (size + if index.isSome then 0x100 else 0) count index := by
    intro size count index; cases index <;> rfl
  have harray : ∀ (items : Option (List (Kind.Val kind))) (index : Option (List (Word 4))),
      (Spec.array fl ⟨nm, vt, avt, kind, ov⟩ key items index).length < 2 ^ 60 →
      Spec.ArrayBlock fl ⟨nm, vt, avt, kind, ov⟩ key items index (Spec.array fl ⟨nm, vt, avt, kind, ov⟩ key items index) := by
    intro items index hl
    cases items with
    | none => cases kind <;> rfl
    | some l =>
      cases kind with
      | bool =>
        obtain ⟨h1, h2, h3, h4⟩ := hflags 0 index (by decide)
        simp only [Spec.array, Option.elim_some, largeBlock_length, List.length_append, packBools_length] at hl
        refine ⟨_, l.length, Spec.packBools l, h1, h2, h3, trivial, by omega, ⟨rfl, packBools_length l, fun i hi => packBools_testBit l i hi⟩, ?_⟩
        rw [← hhead]; rfl
      | items sc n f =>
        obtain ⟨h5, h6, -⟩ := ht
        have hs : sc.size < 256 := by cases sc <;> decide
        obtain ⟨h1, h2, h3, h4⟩ := hflags sc.size index hs
        simp only [Spec.array, Option.elim_some, largeBlock_length, List.length_append, scalars_length, flat_length] at hl
        have := sc.size_pos
        have := Nat.le_mul_of_pos_right (l.length * n) this
        refine ⟨_, l.length * n, Spec.scalars fl sc (l.flatMap Vector.toList), h1, h2, h3, h4, by omega, ⟨rfl, rfl⟩, ?_⟩
        rw [← hhead]; rfl
      | string =>
        obtain ⟨h1, h2, h3, h4⟩ := hflags 0 index (by decide)
        simp only [Spec.array, Option.elim_some, largeBlock_length, List.length_append] at hl
        have : l.length ≤ (l.flatMap (Spec.sizedString fl)).length := by
          clear hl
          induction l with
          | nil => simp
          | cons x l ih => simp only [List.flatMap_cons, List.length_append, List.length_cons, Spec.sizedString, number_length]; omega
        refine ⟨_, l.length, l.flatMap (Spec.sizedString fl), h1, h2, h3, trivial, by omega, ⟨rfl, rfl⟩, ?_⟩
        rw [← hhead]; rfl
  cases c with
  | none => exact hsingle (some v)
  | optionalValue => exact hsingle v
  | vector => exact harray (some v) none hl
  | optionalVector => exact harray v none hl
  | idxVector => exact harray (some v.values) (some v.index) hl
  | optionalIdxVector => exact harray _ _ hl

/-! ## Two blocks at the same place -/

theorem large_unique {d : Bytes} {p vt vt0 : Nat} {key key0 payload payload0 : Bytes} {fl : Bool} (hd : Small d)
    (hk : key.length ≤ 40) (hk0 : key0.length ≤ 40) (h : Has d p (Spec.largeBlock fl vt key payload))
    (h0 : Has d p (Spec.largeBlock fl vt0 key0 payload0)) : key = key0 ∧ payload = payload0 := by
  have hl := h.len
  have hl0 := h0.len
  rw [largeBlock_length] at hl hl0
  have hd' : d.length < 2 ^ 60 := hd
  obtain ⟨a1, a2, a3, a4, a5⟩ := h.large
  obtain ⟨b1, b2, b3, b4, b5⟩ := h0.large
  have hn := number_inj fl 8 (by omega) (by omega) (a2.unique b2 (by simp))
  have hkl : key.length = key0.length := code_unique a3 b3 (by omega) (by omega)
  rw [← hkl] at b5
  exact ⟨a4.unique b4 hkl, a5.unique b5 (by omega)⟩

theorem small_unique {d : Bytes} {p vt vt0 : Nat} {key key0 value value0 : Bytes}
    (hk : value.length + key.length < 256) (hk0 : value0.length + key0.length < 256) (h : Has d p (Spec.smallBlock vt value key))
    (h0 : Has d p (Spec.smallBlock vt0 value0 key0)) : value ++ key = value0 ++ key0 := by
  obtain ⟨a1, a2, a3, a4⟩ := h.small
  obtain ⟨b1, b2, b3, b4⟩ := h0.small
  have hn := code_unique a2 b2 hk hk0
  have ha : Has d (p + 2) (value ++ key) := Has.append.mpr ⟨a3, a4⟩
  have hb : Has d (p + 2) (value0 ++ key0) := Has.append.mpr ⟨b3, b4⟩
  exact ha.unique hb (by simpa using hn)

/-- A small block stores the value and the key one behind the other. -/
theorem smallTyped_size {t : DataType} (ht : t.Ok) {c : Container} (h : isSmall t c = true) {fl : Bool} {key : Bytes} {v : c.Val t.Val}
    {block : Bytes} (hb : Spec.TypedBlock fl t c key v block) :
    ∃ value, block = Spec.smallBlock (blockCode t c) value key ∧ value.length = (if present c v then t.bytes else 0) ∧
      value.length ≤ 128 := by
  obtain ⟨nm, vt, avt, kind, ov⟩ := t
  have key_fact : ∀ v : Option (Kind.Val kind), Spec.SingleBlock fl ⟨nm, vt, avt, kind, ov⟩ key v block → kind ≠ .string →
      ∃ value, block = Spec.smallBlock vt value key ∧
        value.length = (if v.isSome then DataType.bytes ⟨nm, vt, avt, kind, ov⟩ else 0) ∧ value.length ≤ 128 := by
    intro v hb hk
    cases kind with
    | bool =>
      cases v with
      | none => exact ⟨_, hb, by simp, by simp⟩
      | some b =>
        obtain ⟨x, -, hx⟩ := hb
        exact ⟨_, hx, by simp [DataType.bytes], by simp⟩
    | items sc n f =>
      obtain ⟨h0, h1, h2, h3, h4⟩ := ht
      cases v with
      | none => exact ⟨_, hb, by simp, by simp⟩
      | some b =>
        have hl : (Spec.scalars fl sc b.toList).length = sc.size * n := by rw [scalars_length, Vector.length_toList, Nat.mul_comm]
        exact ⟨_, hb, by rw [Option.elim_some, hl]; rfl, by rw [Option.elim_some, hl]; exact h1⟩
    | string => exact absurd rfl hk
  cases c with
  | none => exact key_fact (some v) hb (by simpa [isSmall] using h)
  | optionalValue => exact key_fact v hb (by simpa [isSmall] using h)
  | vector => cases h
  | optionalVector => cases h
  | idxVector => cases h
  | optionalIdxVector => cases h

/-- A large block says whether there is a value, and for arrays the size of the scalars and whether there is an index. -/
theorem largeTyped {t : DataType} (ht : t.Ok) {c : Container} (h : isSmall t c = false) {fl : Bool} {key : Bytes} {v : c.Val t.Val}
    {block : Bytes} (hb : Spec.TypedBlock fl t c key v block) :
    ∃ payload, block = Spec.largeBlock fl (blockCode t c) key payload ∧ (payload = [] ↔ present c v = false) ∧
      (c.isArray = true → present c v = true → ∃ flags rest, payload = Spec.number fl 2 flags ++ rest ∧ flags < 2 ^ 16 ∧
        flags.testBit 8 = c.hasIndex ∧ (t.kind ≠ .string → t.kind ≠ .bool → flags % 256 = t.scalarSize)) := by
  obtain ⟨nm, vt, avt, kind, ov⟩ := t
  have hsingle : ∀ v : Option (Kind.Val kind), Spec.SingleBlock fl ⟨nm, vt, avt, kind, ov⟩ key v block → kind = .string →
      ∃ payload, block = Spec.largeBlock fl vt key payload ∧ (payload = [] ↔ v.isSome = false) := by
    rintro v hb rfl
    cases v with
    | none => exact ⟨[], hb, by simp⟩
    | some x =>
      refine ⟨Spec.sizedString fl x, hb, ?_⟩
      have : (Spec.sizedString fl x).length ≠ 0 := by simp [Spec.sizedString]
      simpa using fun h => this (by rw [h]; rfl)
  have harray : ∀ (items : Option (List (Kind.Val kind))) (index : Option (List (Word 4))),
      Spec.ArrayBlock fl ⟨nm, vt, avt, kind, ov⟩ key items index block →
      ∃ payload, block = Spec.largeBlock fl avt key payload ∧ (payload = [] ↔ items.isSome = false) ∧
        (items.isSome = true → ∃ flags rest, payload = Spec.number fl 2 flags ++ rest ∧ flags < 2 ^ 16 ∧
          flags.testBit 8 = index.isSome ∧ (kind ≠ .string → kind ≠ .bool → flags % 256 = DataType.scalarSize ⟨nm, vt, avt, kind, ov⟩)) := by
    intro items index hb
    cases items with
    | none => exact ⟨[], hb, by simp, by simp⟩
    | some l =>
      obtain ⟨flags, count, body, h1, h2, h3, h4, h5, h6, h7⟩ := hb
      refine ⟨_, h7, ?_, fun _ => ?_⟩
      · have : (Spec.looseHeader fl flags count index ++ body).length ≠ 0 := by
          simp [Spec.looseHeader]
        simpa only [Option.isSome_some, Bool.true_eq_false, iff_false] using fun h => this (by rw [h]; rfl)
      · simp only [Spec.looseHeader, List.append_assoc]
        refine ⟨flags, _, rfl, h1, h3, fun hk1 hk2 => ?_⟩
        cases kind with
        | bool => exact absurd rfl hk2
        | items sc n f => exact h4
        | string => exact absurd rfl hk1
  cases c with
  | none =>
    obtain ⟨pl, h1, h2⟩ := hsingle (some v) hb (by simpa [isSmall] using h)
    exact ⟨pl, h1, h2, fun hx => by cases hx⟩
  | optionalValue =>
    obtain ⟨pl, h1, h2⟩ := hsingle v hb (by simpa [isSmall] using h)
    exact ⟨pl, h1, h2, fun hx => by cases hx⟩
  | vector =>
    obtain ⟨pl, h1, h2, h3⟩ := harray (some v) none hb
    exact ⟨pl, h1, h2, fun _ hp => h3 hp⟩
  | optionalVector =>
    obtain ⟨pl, h1, h2, h3⟩ := harray v none hb
    exact ⟨pl, h1, h2, fun _ hp => h3 hp⟩
  | idxVector =>
    obtain ⟨pl, h1, h2, h3⟩ := harray (some v.values) (some v.index) hb
    exact ⟨pl, h1, h2, fun _ hp => h3 hp⟩
  | optionalIdxVector =>
    cases v with
    | none =>
      obtain ⟨pl, h1, h2, h3⟩ := harray none none hb
      exact ⟨pl, h1, h2, fun _ hp => by cases hp⟩
    | some v =>
      obtain ⟨pl, h1, h2, h3⟩ := harray (some v.values) (some v.index) hb
      exact ⟨pl, h1, h2, fun _ hp => h3 hp⟩

theorem isSmall_facts {t : DataType} {c : Container} (h : isSmall t c = true) : t.kind ≠ .string ∧ c.hasIndex = false := by
  cases c with
  | none => exact ⟨by simpa [isSmall] using h, rfl⟩
  | optionalValue => exact ⟨by simpa [isSmall] using h, rfl⟩
  | vector => cases h
  | optionalVector => cases h
  | idxVector => cases h
  | optionalIdxVector => cases h

theorem notArray_facts {t : DataType} {c : Container} (h : isSmall t c = false) (ha : c.isArray = false) :
    t.kind = .string ∧ c.hasIndex = false := by
  cases c with
  | none => exact ⟨by simpa [isSmall] using h, rfl⟩
  | optionalValue => exact ⟨by simpa [isSmall] using h, rfl⟩
  | vector => cases ha
  | optionalVector => cases ha
  | idxVector => cases ha
  | optionalIdxVector => cases ha

/-! ## C17 -/

/-- What a successful read of a block written for something else has in common with it. -/
theorem C17_core (env : REnv) (t : DataType) (ht : t ∈ allTypes) (c : Container) (key : Bytes) (hk : key.length ≤ 40)
    (dest : c.Val t.Val) (t0 : DataType) (ht0 : t0 ∈ allTypes) (c0 : Container) (key0 : Bytes) (hk0 : key0.length ≤ 40)
    (v0 : c0.Val t0.Val) (fl : Bool) (d : Bytes) (hd : d.length < 2 ^ 60) (p : Nat) (h0 : Has d p (Spec.typed fl t0 c0 key0 v0))
    (hsuf : isSmall t0 c0 = true → key <:+ key0 ∨ key0 <:+ key → key = key0)
    (v' : c.Val t.Val) (s' : RStream) (h : readTyped env t c key dest ⟨d, p, fl⟩ = .ok (some v') s') :
    ∃ v, v' = readInto t c dest v ∧ key = key0 ∧ t.vt = t0.vt ∧ c.isArray = c0.isArray ∧ present c v = present c0 v0 ∧
      (present c v = true → t.kind = t0.kind ∧ (t.kind ≠ .string ∨ p + (Spec.typed fl t0 c0 key0 v0).length < d.length → c.hasIndex = c0.hasIndex)) := by
  have hok := allTypes_ok t ht
  have hok0 := allTypes_ok t0 ht0
  have hlen0 := h0.len
  obtain ⟨-, -, h3, h4⟩ := (readTyped_wp env fl hd (by omega) hok c key hk dest (.inr trivial)).result h
  obtain ⟨v, e, ho⟩ := h4 v' rfl
  refine ⟨v, e, ?_⟩
  have hb0 := typed_isBlock hok0 fl c0 key0 v0 (by omega)
  generalize Spec.typed fl t0 c0 key0 v0 = block0 at *
  have hc : blockCode t c = blockCode t0 c0 := by
    have hcode0 : Has d p [UInt8.ofNat (blockCode t0 c0)] := by
      cases hs0 : isSmall t0 c0 with
      | true => obtain ⟨value, rfl, -, -⟩ := smallTyped_size hok0 hs0 hb0; exact h0.small.1
      | false => obtain ⟨payload, rfl, -⟩ := largeTyped hok0 hs0 hb0; exact h0.large.1
    have hcode : Has d p [UInt8.ofNat (blockCode t c)] := by
      cases hs : isSmall t c with
      | true =>
        obtain ⟨block, hb, hh, -⟩ := ho.block (Or.inr (Or.inl hs))
        obtain ⟨value, rfl, -, -⟩ := smallTyped_size hok hs hb; exact hh.small.1
      | false =>
        cases hp : present c v with
        | true => obtain ⟨payload, -, hh, -⟩ := ho.full hs hp; exact hh.large.1
        | false => exact (ho.absent hs hp).code
    exact code_unique hcode hcode0 (blockCode_lt hok c) (blockCode_lt hok0 c0)
  obtain ⟨hvt, harr, hsm⟩ := codes t t0 ht ht0 c c0 hc
  obtain ⟨hst, hstr, -⟩ := same_storage t ht t0 ht0 hvt
  have hpos := (same_storage t ht t ht rfl).2.2
  have hpos0 := (same_storage t0 ht0 t0 ht0 rfl).2.2
  cases hs : isSmall t c with
  | true =>
    rw [hs] at hsm
    obtain ⟨block, hb, hh, -⟩ := ho.block (Or.inr (Or.inl hs))
    obtain ⟨value, rfl, hv1, hv2⟩ := smallTyped_size hok hs hb
    obtain ⟨value0, rfl, hv3, hv4⟩ := smallTyped_size hok0 hsm.symm hb0
    have hu := small_unique (by omega) (by omega) hh h0
    have hkey : key = key0 := by
      apply hsuf hsm.symm
      have e1 : key <:+ value0 ++ key0 := by rw [← hu]; exact List.suffix_append _ _
      have e2 : key0 <:+ value0 ++ key0 := List.suffix_append _ _
      exact List.suffix_or_suffix_of_suffix e1 e2
    subst hkey
    have hvl : value.length = value0.length := by
      have := congrArg List.length hu
      simp only [List.length_append] at this; omega
    rw [hv1, hv3] at hvl
    obtain ⟨hns, hi⟩ := isSmall_facts hs
    obtain ⟨hns0, hi0⟩ := isSmall_facts hsm.symm
    have hidx : c.hasIndex = c0.hasIndex := hi.trans hi0.symm
    have := hpos hns
    have := hpos0 hns0
    refine ⟨rfl, hvt, harr, ?_, fun hp => ⟨?_, fun _ => hidx⟩⟩
    · cases e1 : present c v <;> cases e2 : present c0 v0 <;> rw [e1, e2] at hvl <;> simp at hvl ⊢ <;> omega
    · apply hst
      rw [hp] at hvl
      cases e2 : present c0 v0 <;> rw [e2] at hvl <;> simp at hvl
      · omega
      · exact Or.inr hvl
  | false =>
    rw [hs] at hsm
    obtain ⟨payload0, rfl, hp0, ha0⟩ := largeTyped hok0 hsm.symm hb0
    cases hp : present c v with
    | true =>
      obtain ⟨payload, hne, hh, hend⟩ := ho.full hs hp
      obtain ⟨rfl, rfl⟩ := large_unique hd hk hk0 hh h0
      have hpr : present c0 v0 = true := by
        cases e : present c0 v0 with
        | true => rfl
        | false => exact absurd (hp0.mpr e) hne
      refine ⟨rfl, hvt, harr, hpr.symm, fun _ => ?_⟩
      have hblk : t.kind ≠ .string ∨ p + (Spec.largeBlock fl (blockCode t0 c0) key payload).length < d.length → c.isArray = true →
          (t.kind ≠ .string → t.kind ≠ .bool → t0.kind ≠ .string → t0.kind ≠ .bool → t.scalarSize = t0.scalarSize) ∧ c.hasIndex = c0.hasIndex := by
        intro hx hca
        obtain ⟨block, hb, hh2, -⟩ := ho.block (by
          rcases hx with hx | hx
          · exact Or.inr (Or.inr ⟨hx, hp⟩)
          · left; rw [hend]
            rw [largeBlock_length] at hx ⊢; exact hx)
        obtain ⟨payload2, rfl, hp2, ha2⟩ := largeTyped hok hs hb
        obtain ⟨-, rfl⟩ := large_unique hd hk hk hh2 hh
        obtain ⟨flags, rest, e1, e2, e3, e4⟩ := ha2 hca hp
        obtain ⟨flags0, rest0, f1, f2, f3, f4⟩ := ha0 (harr ▸ hca) hpr
        rw [e1] at f1
        have := (List.append_inj f1 (by simp)).1
        have hfl : flags = flags0 := number_inj fl 2 (by omega) (by omega) this
        subst hfl
        exact ⟨fun a b a0 b0 => (e4 a b).symm.trans (f4 a0 b0), e3.symm.trans f3⟩
      cases hca : c.isArray with
      | false =>
        obtain ⟨hstr', hi⟩ := notArray_facts hs hca
        obtain ⟨-, hi0⟩ := notArray_facts hsm.symm (harr ▸ hca)
        exact ⟨by rw [hstr', hstr hstr'], fun _ => hi.trans hi0.symm⟩
      | true =>
        refine ⟨?_, fun hx => (hblk hx hca).2⟩
        by_cases hs1 : t.kind = .string
        · rw [hs1, hstr hs1]
        · have hs2 : t0.kind ≠ .string := fun hc => hs1 ((same_storage t0 ht0 t ht hvt.symm).2.1 hc)
          by_cases hb1 : t.kind = .bool
          · apply hst
            have : t0.kind = .bool := by
              have key : ∀ t ∈ allTypes, ∀ t0 ∈ allTypes, t.vt = t0.vt → t.kind = .bool → t0.kind = .bool := by decide +kernel
              exact key t ht t0 ht0 hvt hb1
            left; simp [DataType.scalarSize, hb1, this]
          · have hb2 : t0.kind ≠ .bool := by
              have key : ∀ t ∈ allTypes, ∀ t0 ∈ allTypes, t.vt = t0.vt → t.kind = .bool → t0.kind = .bool := by decide +kernel
              exact fun hc => hb1 (key t0 ht0 t ht hvt.symm hc)
            exact hst (Or.inl ((hblk (Or.inl hs1) hca).1 hs1 hb1 hs2 hb2))
    | false =>
      have hL := ho.absent hs hp
      obtain ⟨b1, b2, b3, b4, b5⟩ := h0.large
      rw [largeBlock_length] at hlen0
      rcases hL.rest with ⟨size, hsz, h9, hsize, he, hp1, hkl, -, hkey⟩ | ⟨hc, -⟩
      · have hkk : key.length = key0.length := code_unique (hkl (by omega)) b3 (by omega) (by omega)
        have hk' : key = key0 := (hkey (by omega)).unique b4 hkk
        have hn := number_inj fl 8 (by omega) (by omega) (hsize.unique b2 (by simp))
        have hpe : payload0 = [] := by
          apply List.eq_nil_of_length_eq_zero
          rw [wrap64] at he
          omega
        exact ⟨hk', hvt, harr, (hp0.mp hpe).symm, fun hx => by cases hx⟩
      · omega

/-- **C17**, the true part: a written value is refused by a read with another key, another kind of value (family of the type, single or
array), another width of the scalars, with or without index instead of the other way round, or of a mandatory value where an absent
optional was written. For values stored in a small block (numbers, vectors, bools, ids) the two keys must not be proper suffixes of each
other — without that the claim is false (`C17_false_width`, `C17_false_absent`, `C17_false_present`). For an absent optional only the
family is stored, not the width. (Refused: `Read` does not return true. The index of a string array is only checked if something follows the block. C19 says
when the refusal is also memory safe.) -/
theorem C17_wrong_type_or_key_refused_partial (env : REnv) (t : DataType) (ht : t ∈ allTypes) (c : Container) (key : Bytes)
    (hk : key.length ≤ 40) (dest : c.Val t.Val) (t0 : DataType) (ht0 : t0 ∈ allTypes) (c0 : Container) (key0 : Bytes)
    (hk0 : key0.length ≤ 40) (v0 : c0.Val t0.Val) (fl : Bool) (pre post : Bytes)
    (hd : (pre ++ Spec.typed fl t0 c0 key0 v0 ++ post).length < 2 ^ 60)
    (hsuf : isSmall t0 c0 = true → key <:+ key0 ∨ key0 <:+ key → key = key0)
    (hwrong : key ≠ key0 ∨ t.vt ≠ t0.vt ∨ c.isArray ≠ c0.isArray ∨
      (present c0 v0 = true ∧ (t.kind ≠ t0.kind ∨ (c.hasIndex ≠ c0.hasIndex ∧ (t.kind ≠ .string ∨ post ≠ [])))) ∨
      (present c0 v0 = false ∧ (c = .none ∨ c = .vector ∨ c = .idxVector)))
    (v' : c.Val t.Val) (s' : RStream) :
    readTyped env t c key dest ⟨pre ++ Spec.typed fl t0 c0 key0 v0 ++ post, pre.length, fl⟩ ≠ .ok (some v') s' := by
  intro h
  obtain ⟨v, -, h1, h2, h3, h4, h5⟩ := C17_core env t ht c key hk dest t0 ht0 c0 key0 hk0 v0 fl _ hd pre.length (Has.mid _ _ _) hsuf
    v' s' h
  rcases hwrong with hw | hw | hw | ⟨hp, hw⟩ | ⟨hp, hw⟩
  · exact hw h1
  · exact hw h2
  · exact hw h3
  · obtain ⟨h6, h7⟩ := h5 (h4.trans hp)
    rcases hw with hw | ⟨hw, hx⟩
    · exact hw h6
    · refine hw (h7 (hx.imp_right fun hpost => ?_))
      have : post.length ≠ 0 := fun hc => hpost (List.eq_nil_of_length_eq_zero hc)
      simp only [List.length_append]; omega
  · rw [hp] at h4
    rcases hw with rfl | rfl | rfl <;> cases h4

/-- `i32` and `i64` (any two integer widths behave alike). -/
def i32Type : DataType := ⟨"i32", 0x02, 0x42, .items .w4 1 false, false⟩
def i64Type : DataType := ⟨"i64", 0x02, 0x42, .items .w8 1 false, false⟩

theorem i32_mem : i32Type ∈ allTypes := by decide +kernel
theorem i64_mem : i64Type ∈ allTypes := by decide +kernel

/-- Reading a value of one scalar from a small block with the right bytes succeeds. -/
theorem read_raw_small (env : REnv) (he : env.Lucky) (t : DataType) (ht : t ∈ allTypes) (sc : Sc) (f : Bool)
    (hkind : t.kind = .items sc 1 f) (value key : Bytes) (hv : value.length = sc.size) (hk : key.length ≤ 40)
    (fl : Bool) (dest : Container.none.Val t.Val) (pre post : Bytes) (hd : (pre ++ Spec.smallBlock t.vt value key ++ post).length < 2 ^ 60) :
    ∃ v, readTyped env t .none key dest ⟨pre ++ Spec.smallBlock t.vt value key ++ post, pre.length, fl⟩ =
      .ok (some v) ⟨pre ++ Spec.smallBlock t.vt value key ++ post, pre.length + (Spec.smallBlock t.vt value key).length, fl⟩ := by
  have hok := allTypes_ok t ht
  obtain ⟨nm, vt, avt, kind, ov⟩ := t
  obtain rfl : kind = .items sc 1 f := hkind
  obtain ⟨x, hx⟩ := scalar_surj fl sc value hv
  have hb : Spec.typed fl ⟨nm, vt, avt, .items sc 1 f, ov⟩ .none key (#v[x] : Vector sc.Val 1) = Spec.smallBlock vt value key := by
    show Spec.smallBlock vt (Spec.scalars fl sc [x]) key = _
    rw [← hx]; simp [Spec.scalars]
  have hr := readTyped_consumes he hok .none key hk dest (#v[x] : Vector sc.Val 1) fl
  rw [hb] at hr
  exact ⟨_, hr _ _ hd (Has.mid pre _ post)⟩

/-- **C17 is false** for widths: an `i32` written under a key of four bytes `a` followed by `rest` is read as an `i64` under `rest`. -/
theorem C17_false_width (env : REnv) (he : env.Lucky) (w : Word 4) (a rest : Bytes) (ha : a.length = 4) (hk : rest.length ≤ 36)
    (fl : Bool) (dest : Container.none.Val i64Type.Val) (pre post : Bytes)
    (hd : (pre ++ Spec.typed fl i32Type .none (a ++ rest) (#v[w] : Vector (Word 4) 1) ++ post).length < 2 ^ 60) :
    ∃ v s', readTyped env i64Type .none rest dest
      ⟨pre ++ Spec.typed fl i32Type .none (a ++ rest) (#v[w] : Vector (Word 4) 1) ++ post, pre.length, fl⟩ = .ok (some v) s' := by
  have hb : Spec.typed fl i32Type .none (a ++ rest) (#v[w] : Vector (Word 4) 1) =
      Spec.smallBlock 0x02 (Spec.scalars fl .w4 [w] ++ a) rest := by
    show Spec.smallBlock 0x02 (Spec.scalars fl .w4 [w]) (a ++ rest) = _
    simp [Spec.smallBlock, Nat.add_assoc]
  rw [hb] at hd ⊢
  obtain ⟨v, hv⟩ := read_raw_small env he i64Type i64_mem .w8 false rfl (Spec.scalars fl .w4 [w] ++ a) rest
    (by rw [List.length_append, scalars_length, ha]; rfl) (by omega) fl dest pre post hd
  exact ⟨v, _, hv⟩

/-- **C17 is false** for absent optionals: an absent optional written under a key of four bytes `a` followed by `rest` is read as an `i32`
under `rest`. -/
theorem C17_false_absent (env : REnv) (he : env.Lucky) (a rest : Bytes) (ha : a.length = 4) (hk : rest.length ≤ 36)
    (fl : Bool) (dest : Container.none.Val i32Type.Val) (pre post : Bytes)
    (hd : (pre ++ Spec.typed fl i32Type .optionalValue (a ++ rest) none ++ post).length < 2 ^ 60) :
    ∃ v s', readTyped env i32Type .none rest dest
      ⟨pre ++ Spec.typed fl i32Type .optionalValue (a ++ rest) none ++ post, pre.length, fl⟩ = .ok (some v) s' := by
  have hb : Spec.typed fl i32Type .optionalValue (a ++ rest) none = Spec.smallBlock 0x02 a rest := by
    show Spec.smallBlock 0x02 [] (a ++ rest) = _
    simp [Spec.smallBlock]
  rw [hb] at hd ⊢
  obtain ⟨v, hv⟩ := read_raw_small env he i32Type i32_mem .w4 false rfl a rest (by rw [ha]; rfl) (by omega) fl dest pre post hd
  exact ⟨v, _, hv⟩

/-- **C17 is false** for present values: an `i32` written under a key is read as an absent optional under another key, namely the bytes of
the number followed by the key. -/
theorem C17_false_present (env : REnv) (he : env.Lucky) (w : Word 4) (key : Bytes) (hk : key.length ≤ 36)
    (fl : Bool) (dest : Container.optionalValue.Val i32Type.Val) (pre post : Bytes)
    (hd : (pre ++ Spec.typed fl i32Type .none key (#v[w] : Vector (Word 4) 1) ++ post).length < 2 ^ 60) :
    ∃ s', readTyped env i32Type .optionalValue (Spec.number fl 4 w.toNat ++ key) dest
      ⟨pre ++ Spec.typed fl i32Type .none key (#v[w] : Vector (Word 4) 1) ++ post, pre.length, fl⟩ = .ok (some none) s' := by
  have hb : Spec.typed fl i32Type .none key (#v[w] : Vector (Word 4) 1) =
      Spec.typed fl i32Type .optionalValue (Spec.number fl 4 w.toNat ++ key) none := by
    show Spec.smallBlock 0x02 (Spec.scalars fl .w4 [w]) key = Spec.smallBlock 0x02 [] (Spec.number fl 4 w.toNat ++ key)
    simp [Spec.smallBlock, Spec.scalars, Spec.scalar]
  rw [hb] at hd ⊢
  exact ⟨_, readTyped_consumes he (allTypes_ok _ i32_mem) .optionalValue _ (by rw [List.length_append, number_length]; omega) dest none fl
    _ _ hd (Has.mid _ _ _)⟩

/-! ## The hypotheses are met -/

/-- A reader whose allocations all succeed. -/
def luckyEnv : REnv := ⟨fun _ => true, Vector.replicate 40 0⟩

theorem luckyEnv_lucky : luckyEnv.Lucky := fun _ => rfl

/-- C17: an `i32` under "width" is refused as an `i64` under the same key, and as an `i32` under "depth". -/
example (w : Word 4) (v' : Container.none.Val i64Type.Val) (s' : RStream) :
    readTyped luckyEnv i64Type .none [119, 105, 100, 116, 104] (#v[0] : Vector (Word 8) 1)
      ⟨[7] ++ Spec.typed true i32Type .none [119, 105, 100, 116, 104] (#v[w] : Vector (Word 4) 1) ++ [8, 9], 1, true⟩ ≠ .ok (some v') s' :=
  C17_wrong_type_or_key_refused_partial luckyEnv i64Type i64_mem .none _ (by decide) _ i32Type i32_mem .none _ (by decide) _ true [7] [8, 9]
    (by simp [Spec.typed, Spec.single, i32Type, Spec.smallBlock, scalars_length, Sc.size]) (fun _ _ => rfl)
    (Or.inr (Or.inr (Or.inr (Or.inl ⟨rfl, Or.inl (by decide)⟩)))) v' s'

example (w : Word 4) (v' : Container.none.Val i32Type.Val) (s' : RStream) :
    readTyped luckyEnv i32Type .none [100, 101, 112, 116, 104] (#v[0] : Vector (Word 4) 1)
      ⟨[7] ++ Spec.typed true i32Type .none [119, 105, 100, 116, 104] (#v[w] : Vector (Word 4) 1) ++ [8, 9], 1, true⟩ ≠ .ok (some v') s' :=
  C17_wrong_type_or_key_refused_partial luckyEnv i32Type i32_mem .none _ (by decide) _ i32Type i32_mem .none _ (by decide) _ true [7] [8, 9]
    (by simp [Spec.typed, Spec.single, i32Type, Spec.smallBlock, scalars_length, Sc.size])
    (fun _ h => absurd h (by decide)) (Or.inl (by decide)) v' s'

/-- C18: half of a string block is refused. -/
example (v' : Bytes) (s' : RStream) :
    readTyped luckyEnv stringType .none [65] [] ⟨[7] ++ (Spec.typed false stringType .none [65] [66, 67, 68]).take 15, 1, false⟩ ≠
      .ok (some v') s' :=
  C18_truncation_refused_partial luckyEnv stringType (by decide +kernel) .none [65] (by decide) [] stringType (by decide +kernel) .none [65]
    (by decide) [66, 67, 68] false [7] 15 (by decide) (by decide) (Or.inl (by decide)) v' s'

/-- C19: four arbitrary bytes. -/
example (d : Bytes) (hd : d.length = 4) : MemorySafe (readTyped luckyEnv stringType .vector [65] []) d 2 true :=
  C19_hostile_bytes_partial luckyEnv stringType (by decide +kernel) .vector [65] (by decide) [] d (by omega) 2 (by omega) true
    (Or.inr (Or.inr (by intro sc n f h; cases h)))

/-- C19 is false: a block with one float, read as a vector of `fvec3`. -/
example : ∃ t ∈ allTypes, t.name = "fvec3" ∧ ∀ x : Word 4,
    readTyped luckyEnv t .vector [65] [] ⟨[7] ++ Spec.largeBlock false t.avt [65]
      (Spec.arrayHeader false 4 1 none ++ Spec.scalars false .w4 [x]) ++ [], 1, false⟩ = .ub := by
  refine ⟨⟨"fvec3", 0x06, 0x46, .items .w4 3 true, false⟩, by decide +kernel, rfl, fun x => ?_⟩
  refine C19_false_for_multi_scalar_arrays luckyEnv luckyEnv_lucky _ (by decide +kernel) .w4 3 true rfl [65] (by decide) [x] (show ¬ 3 ∣ 1 by decide) [7] []
    false [] ?_
  simp [largeBlock_length, arrayHeader_length, scalars_length, Sc.size]

/-- C20 and C52: a successful read. -/
example : ∃ v s', readTyped luckyEnv stringType .none [65] [] ⟨[7] ++ Spec.typed false stringType .none [65] [66, 67, 68] ++ [1], 1, false⟩ =
    .ok (some v) s' := by
  have h := readTyped_consumes luckyEnv_lucky (allTypes_ok stringType (by decide +kernel)) .none [65] (by decide) ([] : Bytes)
    ([66, 67, 68] : Bytes) false ([7] ++ Spec.typed false stringType .none [65] [66, 67, 68] ++ [1]) 1
    (by show List.length _ < _; decide) (Has.mid [7] _ [1])
  exact ⟨_, _, h⟩

end ISD
