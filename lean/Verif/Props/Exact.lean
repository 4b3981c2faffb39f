import Verif.Props.AnyBlock
import Verif.Props.WrongType
import Verif.Props.Hostile
/-!
# What is accepted in place of what was written

C17 and C18 are false as stated (see `C17_false_*` and `C18_false_for_empty_key`). Here is exactly when: a block written for any value of any type, whole or cut, and a
read of any type, container and name.
-/
namespace ISD
open RStream

/-- The small blocks of a type: any bytes of the right number. -/
theorem small_blocks {t : DataType} (ht : t.Ok) {c : Container} (h : isSmall t c = true) (fl : Bool) (key block : Bytes) :
    (∃ v, Spec.TypedBlock fl t c key v block) ↔
      ∃ x, block = Spec.smallBlock t.vt x key ∧ (x.length = t.bytes ∨ x = [] ∧ c = .optionalValue) := by
  obtain ⟨nm, vt, avt, kind, ov⟩ := t
  have hs : kind ≠ .string := by cases c <;> simp_all [isSmall]
  have hsome : (∃ v, Spec.SingleBlock fl ⟨nm, vt, avt, kind, ov⟩ key (some v) block) ↔
      ∃ x, block = Spec.smallBlock vt x key ∧ x.length = DataType.bytes ⟨nm, vt, avt, kind, ov⟩ := by
    cases kind with
    | string => exact absurd rfl hs
    | bool =>
      constructor
      · rintro ⟨b, x, -, e⟩
        exact ⟨[x], e, rfl⟩
      · rintro ⟨x, e, hl⟩
        obtain ⟨y, rfl⟩ := List.length_eq_one_iff.mp hl
        exact ⟨decide (y ≠ 0), y, by by_cases h0 : y = 0 <;> simp [h0], e⟩
    | items sc n f =>
      constructor
      · rintro ⟨b, e⟩
        refine ⟨_, e, ?_⟩
        rw [Option.elim_some, scalars_length, Vector.length_toList, Nat.mul_comm]; rfl
      · rintro ⟨x, e, hl⟩
        obtain ⟨l, hn, hl'⟩ := scalars_surj fl sc n x (by rw [hl, DataType.bytes, Nat.mul_comm])
        refine ⟨⟨l.toArray, by simpa using hn⟩, ?_⟩
        show block = Spec.smallBlock vt (Spec.scalars fl sc _) key
        rw [e, ← hl']
        congr 1
  have hnone : Spec.SingleBlock fl ⟨nm, vt, avt, kind, ov⟩ key none block ↔ block = Spec.smallBlock vt [] key := by
    cases kind with
    | string => exact absurd rfl hs
    | bool => exact Iff.rfl
    | items sc n f => exact Iff.rfl
  cases c with
  | none =>
    refine hsome.trans ⟨fun ⟨x, e, hl⟩ => ⟨x, e, .inl hl⟩, fun ⟨x, e, hl⟩ => ⟨x, e, hl.resolve_right fun h => nomatch h.2⟩⟩
  | optionalValue =>
    constructor
    · rintro ⟨v, hv⟩
      cases v with
      | none => exact ⟨[], hnone.mp hv, .inr ⟨rfl, rfl⟩⟩
      | some v =>
        obtain ⟨x, e, hl⟩ := hsome.mp ⟨v, hv⟩
        exact ⟨x, e, .inl hl⟩
    · rintro ⟨x, e, hl | ⟨rfl, -⟩⟩
      · obtain ⟨v, hv⟩ := hsome.mpr ⟨x, e, hl⟩
        exact ⟨some v, hv⟩
      · exact ⟨none, hnone.mpr e⟩
  | vector => cases h
  | optionalVector => cases h
  | idxVector => cases h
  | optionalIdxVector => cases h

/-- **C17**, exactly, for the values that are stored in small blocks (everything single but strings): a block that was written for anything — any type, container, name and
value — is accepted by a read with another type, container and name if and only if it is a small block of the same family, and the bytes of its value followed by its name
(`drop 2`) end with the name asked for and what stands before it is as long as a value of the type asked for, or nothing if that value may be absent. -/
theorem C17_small_exact (env : REnv) (t : DataType) (ht : t ∈ allTypes) (c : Container) (key : Bytes) (hk : key.length ≤ 40) (dest : c.Val t.Val)
    (hs : isSmall t c = true) (t0 : DataType) (ht0 : t0 ∈ allTypes) (c0 : Container) (key0 : Bytes) (hk0 : key0.length ≤ 40) (v0 : c0.Val t0.Val)
    (fl : Bool) (pre block post : Bytes) (hblock : block = Spec.typed fl t0 c0 key0 v0) (hd : (pre ++ block ++ post).length < 2 ^ 60)
    (hm : GrantsUpTo (4 * (pre ++ block ++ post).length) env) :
    (∃ v' s', readTyped env t c key dest ⟨pre ++ block ++ post, pre.length, fl⟩ = .ok (some v') s') ↔
    isSmall t0 c0 = true ∧ t.vt = t0.vt ∧ ∃ x, block.drop 2 = x ++ key ∧ (x.length = t.bytes ∨ x = [] ∧ c = .optionalValue) := by
  have hok := allTypes_ok t ht
  have hok0 := allTypes_ok t0 ht0
  have hl : (pre ++ block ++ post).length = pre.length + block.length + post.length := by simp only [List.length_append]
  have hb0 := typed_isBlock hok0 fl c0 key0 v0 (by rw [← hblock]; omega)
  rw [← hblock] at hb0
  have hcode : ∀ {t : DataType} {c : Container}, isSmall t c = true → blockCode t c = t.vt := by
    intro t c h; cases c <;> first | rfl | cases h
  have hsz : ∀ x : Bytes, x.length = t.bytes ∨ x = [] ∧ c = .optionalValue → x.length ≤ 128 := by
    rintro x (h | ⟨rfl, -⟩)
    · rw [h]
      obtain ⟨nm, vt, avt, kind, ov⟩ := t
      cases kind with
      | bool => show 1 ≤ 128; decide
      | string => exact Nat.zero_le _
      | items sc n f => exact hok.2.1
    · exact Nat.zero_le _
  constructor
  · rintro ⟨v', s', h⟩
    obtain ⟨v, pre', b, post', e, hp, hb, -, -⟩ := (C80_accepted_exactly env t ht c key hk dest fl _ hd hm pre.length (by simp) v' s' (.inr hs)).mp h
    rw [List.append_assoc, List.append_assoc] at e
    obtain ⟨-, e⟩ := List.append_inj e hp
    obtain ⟨x, rfl, hx⟩ := (small_blocks hok hs fl key b).mp ⟨v, hb⟩
    have hxl := hsz x hx
    have hlow : t.vt < 0x40 := by rw [← hcode hs]; exact (smallTyped hok hs hb).1
    -- the first byte tells the family
    cases hs0 : isSmall t0 c0 with
    | false =>
      exfalso
      obtain ⟨h1, h2⟩ := blockCode_large hok0 hs0
      obtain ⟨payload, hv, -⟩ := largeTyped hok0 hs0 hb0
      rw [hv] at e
      simp only [Spec.smallBlock, Spec.largeBlock, List.cons_append, List.nil_append, List.cons.injEq, List.append_assoc] at e
      have := congrArg UInt8.toNat e.1
      rw [UInt8.toNat_ofNat', UInt8.toNat_ofNat', Nat.mod_eq_of_lt (by omega), Nat.mod_eq_of_lt (by omega)] at this
      omega
    | true =>
      obtain ⟨h1, value, hv, hvl⟩ := smallTyped hok0 hs0 hb0
      rw [hcode hs0] at h1 hv
      rw [hv] at e ⊢
      simp only [Spec.smallBlock, List.cons_append, List.nil_append, List.cons.injEq, List.append_assoc] at e
      obtain ⟨e1, e2, e3⟩ := e
      have ev : t.vt = t0.vt := by
        have := congrArg UInt8.toNat e1
        rw [UInt8.toNat_ofNat', UInt8.toNat_ofNat', Nat.mod_eq_of_lt (by omega), Nat.mod_eq_of_lt (by omega)] at this
        exact this.symm
      have el : value.length + key0.length = x.length + key.length := by
        have := congrArg UInt8.toNat e2
        rwa [UInt8.toNat_ofNat', UInt8.toNat_ofNat', Nat.mod_eq_of_lt (by omega), Nat.mod_eq_of_lt (by omega)] at this
      refine ⟨rfl, ev, x, ?_, hx⟩
      rw [← List.append_assoc, ← List.append_assoc] at e3
      exact (List.append_inj e3 (by simpa using el)).1
  · rintro ⟨hs0, hv, x, hx, hx'⟩
    have hxl := hsz x hx'
    obtain ⟨h1, value, hvb, hvl⟩ := smallTyped hok0 hs0 hb0
    rw [hcode hs0] at h1 hvb
    have e : block = Spec.smallBlock t.vt x key := by
      rw [hvb] at hx ⊢
      have hx : value ++ key0 = x ++ key := hx
      have := congrArg List.length hx
      simp only [List.length_append] at this
      simp only [Spec.smallBlock, List.append_assoc, hx, this, hv]
    obtain ⟨v, hb⟩ := (small_blocks hok hs fl key block).mpr ⟨x, e, hx'⟩
    exact ⟨_, _, C80_every_block_is_read env t ht c key hk dest v fl pre block post hd hm hb⟩

/-- The flags decide whether the index asked for is there. -/
theorem metadata_flag (env : REnv) (be : Nat) (wi : Bool) {d : Bytes} {p : Nat} {fl : Bool} (hd : Small d) {flags : Nat} (hf : flags < 2 ^ 16)
    (h : Has d p (Spec.number fl 2 flags)) (hw : flags.testBit 8 ≠ wi) (m : Nat × Nat × List (Word 4)) (s' : RStream) :
    readArrayMetadataAndIndex env be wi ⟨d, p, fl⟩ ≠ .ok (some m) s' := by
  intro hr
  have e1 := readU16_has (fl := fl) hd hf h
  rw [readArrayMetadataAndIndex, Prog.bind_ok (Prog.get_apply _), Prog.bind_ok e1] at hr
  dsimp only at hr
  by_cases h2 : flags &&& 0x200 ≠ 0
  · rw [if_pos h2] at hr; cases hr
  rw [if_neg h2] at hr
  obtain ⟨c, s1, h3, h4⟩ := Prog.bind_eq_ok hr
  by_cases hb : flags &&& 0x100 ≠ 0
  · rw [if_pos hb] at h4
    have : wi = false := by
      rw [(and_bit flags 8).mp hb] at hw; cases wi <;> simp_all
    rw [this] at h4
    cases h4
  · rw [if_neg hb] at h4
    have : wi = true := by
      have : flags.testBit 8 = false := by
        cases e : flags.testBit 8 with
        | false => rfl
        | true => exact absurd ((and_bit flags 8).mpr e) hb
      rw [this] at hw; cases wi <;> simp_all
    rw [this] at h4
    cases h4

theorem stringArray_flag (env : REnv) {key : Bytes} (hk : key.length ≤ 40) (ea wi : Bool) {d : Bytes} {p : Nat} {fl : Bool} (hd : Small d) {flags : Nat} {rest : Bytes}
    (hf : flags < 2 ^ 16) (h : Has d p (Spec.largeBlock fl vtArrayString key (Spec.number fl 2 flags ++ rest))) (hw : flags.testBit 8 ≠ wi)
    (s' : RStream) (x : RStatus (List Bytes × List (Word 4))) (hr : readArrayString env key ea wi ⟨d, p, fl⟩ = .ok x s') : x = .fail := by
  have e := beginReadLarge_has env hd (by decide) hk h
  have hh := h.large.2.2.2.2
  rw [readArrayString, Prog.bind_ok e, if_neg (by omega), Prog.bind_ok (Prog.get_apply _)] at hr
  dsimp only at hr
  rw [if_neg (by simp)] at hr
  obtain ⟨m, s1, h1, h2⟩ := Prog.bind_eq_ok hr
  cases m with
  | none => cases h2; rfl
  | some m => exact absurd h1 (metadata_flag env _ wi hd hf hh.left hw m s1)

/-- An accepted block begins with the code of what is read. -/
theorem accepted_code (env : REnv) (t : DataType) (ht : t ∈ allTypes) (c : Container) (key : Bytes) (hk : key.length ≤ 40)
    (dest : c.Val t.Val) (t0 : DataType) (ht0 : t0 ∈ allTypes) (c0 : Container) (key0 : Bytes)
    (v0 : c0.Val t0.Val) (fl : Bool) (d : Bytes) (hd : d.length < 2 ^ 60) (p : Nat) (h0 : Has d p (Spec.typed fl t0 c0 key0 v0))
    (v' : c.Val t.Val) (s' : RStream) (h : readTyped env t c key dest ⟨d, p, fl⟩ = .ok (some v') s') : blockCode t c = blockCode t0 c0 := by
  have hok := allTypes_ok t ht
  have hok0 := allTypes_ok t0 ht0
  have hlen0 := h0.len
  obtain ⟨-, -, h3, h4⟩ := (readTyped_wp env fl hd (by omega) hok c key hk dest (.inr trivial)).result h
  obtain ⟨v, e, ho⟩ := h4 v' rfl
  have hb0 := typed_isBlock hok0 fl c0 key0 v0 (by omega)
  generalize Spec.typed fl t0 c0 key0 v0 = block0 at *
  have hcode0 : Has d p [UInt8.ofNat (blockCode t0 c0)] := by
    cases hs0 : isSmall t0 c0 with
    | true => obtain ⟨value, rfl, -, -⟩ := smallTyped_size hok0 hs0 hb0; exact h0.small.1
    | false => obtain ⟨payload, rfl, -⟩ := largeTyped hok0 hs0 hb0; exact h0.large.1
  have hcode : Has d p [UInt8.ofNat (blockCode t c)] := by
    cases hs : isSmall t c with
    | true =>
      obtain ⟨block, hb, hh, -⟩ := ho.block (Or.inr (Or.inl hs))
      obtain ⟨value, rfl, -, -⟩ := smallTyped_size hok hs hb; exact hh.small.1
    | false =>
      cases hp : present c v with
      | true => obtain ⟨payload, -, hh, -⟩ := ho.full hs hp; exact hh.large.1
      | false => exact (ho.absent hs hp).code
  exact code_unique hcode hcode0 (blockCode_lt hok c) (blockCode_lt hok0 c0)

/-- A string or array may be absent. -/
def Container.mayBeAbsent : Container → Bool
  | .optionalValue | .optionalVector | .optionalIdxVector => true
  | _ => false

theorem same_avt : ∀ t ∈ allTypes, ∀ t0 ∈ allTypes, t.vt = t0.vt → t.avt = t0.avt := by decide +kernel

/-- The same bytes are what is written for a value of the other type and container. -/
theorem same_block {t : DataType} (ht : t ∈ allTypes) (c : Container) (key : Bytes) (hs : isSmall t c = false) {t0 : DataType} (ht0 : t0 ∈ allTypes) (c0 : Container)
    (v0 : c0.Val t0.Val) (fl : Bool) (hv : t.vt = t0.vt) (ha : c.isArray = c0.isArray) (hs0 : isSmall t0 c0 = false)
    (hp : if present c0 v0 then t.kind = t0.kind ∧ c.hasIndex = c0.hasIndex else c.mayBeAbsent = true) :
    ∃ v : c.Val t.Val, Spec.typed fl t c key v = Spec.typed fl t0 c0 key v0 := by
  have hav := same_avt t ht t0 ht0 hv
  have hok := allTypes_ok t ht
  have hok0 := allTypes_ok t0 ht0
  obtain ⟨nm, vt, avt, kind, ov⟩ := t
  obtain ⟨nm0, vt0, avt0, kind0, ov0⟩ := t0
  obtain rfl : vt = vt0 := hv
  obtain rfl : avt = avt0 := hav
  cases hpr : present c0 v0 with
  | true =>
    rw [hpr, if_pos rfl] at hp
    obtain ⟨hk, hi⟩ := hp
    obtain rfl : kind = kind0 := hk
    cases kind <;> cases c0 <;> cases c <;> (try cases ha) <;> (try cases hi) <;> (try cases hs) <;> (try cases hs0) <;>
      first
      | exact ⟨v0, rfl⟩
      | exact ⟨some v0, rfl⟩
      | (cases v0 with
         | none => cases hpr
         | some w => first | exact ⟨w, rfl⟩ | exact ⟨some w, rfl⟩)
  | false =>
    rw [hpr, if_neg (by simp)] at hp
    cases kind <;> cases kind0 <;> cases c <;> cases hp <;> cases c0 <;> (try cases ha) <;> (try cases hs) <;> (try cases hs0) <;>
      first
      | (cases hpr; done)
      | (cases v0 with
         | some w => cases hpr
         | none => exact ⟨none, rfl⟩)

/-- **C17**, exactly, for strings, vectors and indexed vectors: a block that was written for anything — any type, container, name and value — is accepted by a read with
another type, container and name if and only if it was written under the same name, as the same family of values, single or array alike, and with a value of the same scalars and
with or without index alike, or as absent and the value asked for may be absent. -/
theorem C17_large_exact (env : REnv) (t : DataType) (ht : t ∈ allTypes) (c : Container) (key : Bytes) (hk : key.length ≤ 40) (dest : c.Val t.Val)
    (hs : isSmall t c = false) (t0 : DataType) (ht0 : t0 ∈ allTypes) (c0 : Container) (key0 : Bytes) (hk0 : key0.length ≤ 40) (v0 : c0.Val t0.Val)
    (fl : Bool) (pre block post : Bytes) (hblock : block = Spec.typed fl t0 c0 key0 v0) (hd : (pre ++ block ++ post).length < 2 ^ 60)
    (hm : GrantsUpTo (4 * (pre ++ block ++ post).length) env) :
    (∃ v' s', readTyped env t c key dest ⟨pre ++ block ++ post, pre.length, fl⟩ = .ok (some v') s') ↔
    key = key0 ∧ t.vt = t0.vt ∧ c.isArray = c0.isArray ∧
      (if present c0 v0 then t.kind = t0.kind ∧ c.hasIndex = c0.hasIndex else c.mayBeAbsent = true) := by
  subst hblock
  have hok := allTypes_ok t ht
  have hok0 := allTypes_ok t0 ht0
  have hh := Has.mid pre (Spec.typed fl t0 c0 key0 v0) post
  constructor
  · rintro ⟨v', s', h⟩
    have hc := accepted_code env t ht c key hk dest t0 ht0 c0 key0 v0 fl _ hd _ hh v' s' h
    obtain ⟨hvt, harr, hsm⟩ := codes t t0 ht ht0 c c0 hc
    rw [hs] at hsm
    obtain ⟨v, -, h1, h2, h3, h4, h5⟩ := C17_core env t ht c key hk dest t0 ht0 c0 key0 hk0 v0 fl _ hd _ hh (by rw [← hsm]; exact fun h => nomatch h) v' s' h
    refine ⟨h1, h2, h3, ?_⟩
    cases hp : present c0 v0 with
    | false =>
      rw [if_neg (by simp)]
      rw [hp] at h4
      cases c <;> first | rfl | cases h4
    | true =>
      rw [if_pos rfl]
      obtain ⟨h6, h7⟩ := h5 (h4.trans hp)
      refine ⟨h6, ?_⟩
      by_cases hstr : t.kind = .string
      · -- the flags of the written block are looked at
        cases hca : c.isArray with
        | false =>
          obtain ⟨-, hi⟩ := notArray_facts hs hca
          obtain ⟨-, hi0⟩ := notArray_facts hsm.symm (harr ▸ hca)
          exact hi.trans hi0.symm
        | true =>
          have hb0 := typed_isBlock hok0 fl c0 key0 v0 (by simp only [List.length_append] at hd; omega)
          generalize Spec.typed fl t0 c0 key0 v0 = block0 at *
          obtain ⟨payload, rfl, -, ha⟩ := largeTyped hok0 hsm.symm hb0
          obtain ⟨flags, rest, rfl, f2, f3, -⟩ := ha (harr ▸ hca) hp
          rw [← hc, ← h1] at hh hd h
          apply Classical.byContradiction
          intro hne
          rw [← f3] at hne
          obtain ⟨nm, vt, avt, kind, ov⟩ := t
          obtain rfl : kind = .string := hstr
          obtain ⟨-, rfl⟩ := hok
          cases c <;> (try cases hca) <;>
          · obtain ⟨x, s1, g1, g2⟩ := Prog.bind_eq_ok h
            have := stringArray_flag env hk _ _ hd f2 hh (Ne.symm hne) s1 x g1
            subst this
            cases g2
      · exact h7 (.inl hstr)
  · rintro ⟨rfl, hv, ha, hp⟩
    have hs0 : isSmall t0 c0 = false := by
      cases hca : c.isArray with
      | false =>
        have hstr := (same_storage t ht t0 ht0 hv).2.1 (notArray_facts hs hca).1
        cases c0 <;> simp [isSmall, hstr]
      | true =>
        rw [hca] at ha
        cases c0 <;> first | rfl | cases ha
    obtain ⟨v, hv⟩ := same_block ht c key hs ht0 c0 v0 fl hv ha hs0 hp
    have hb := typed_isBlock hok fl c key v (by rw [hv]; simp only [List.length_append] at hd; omega)
    rw [hv] at hb
    exact ⟨_, _, C80_every_block_is_read env t ht c key hk dest v fl pre _ post hd hm hb⟩


/-- The number in eight bytes that were read. -/
def numberOf (fl : Bool) (image : Bytes) : Nat :=
  BitVec.toNat (w := 64) ((wordsOf 8 1 (if fl then swapByteOrder 8 image 1 else image)).headD (0#64 : Word 8))

theorem readU64_raw {s s' : RStream} {bs : Bytes} (h : readRaw 8 8 s = .ok bs s') (hl : bs.length ≤ 8) :
    readU64 s = .ok (numberOf s.flip (bs ++ List.replicate (8 - bs.length) 0)) s' := by
  have hi : ([(0#64 : Word 8)] : List (Word 8)).flatMap Word.image = List.replicate 8 0 := by decide
  have e : readItems .w8 1 [Sc.zero .w8] s = .ok (bs.length / 8, wordsOf 8 1 (if s.flip then swapByteOrder 8 (bs ++ List.replicate (8 - bs.length) 0) 1
      else bs ++ List.replicate (8 - bs.length) 0)) s' := by
    show readWords (k := 8) 1 [(0#64 : Word 8)] s = _
    rw [readWords, Prog.bind_ok (Prog.get_apply _)]
    dsimp only
    rw [hi]
    rw [show wrap64 (1 * 8) = 8 from rfl, show (List.replicate 8 (0 : Byte)).length = 8 from rfl, Prog.bind_ok h, List.drop_replicate]
    cases s.flip with
    | false => rfl
    | true =>
      rw [if_pos rfl, if_neg]
      · rfl
      · simp only [List.length_append, List.length_replicate]; omega
  exact (Prog.bind_ok (x := readOne .w8) (Prog.bind_ok e)).trans rfl

theorem readU64_padded {d : Bytes} {p : Nat} (fl : Bool) (hd : d.length < 2 ^ 59) (hp : p ≤ d.length) (h : d.length < p + 8) {n : Nat} (hn : n < 2 ^ 64)
    (he : Spec.number fl 8 n = d.drop p ++ List.replicate (p + 8 - d.length) 0) :
    readU64 ⟨d, p, fl⟩ = .ok n ⟨d, d.length, fl⟩ := by
  let d' := d ++ List.replicate (p + 8 - d.length) (0 : Byte)
  have hl' : d'.length = p + 8 := by simp only [d', List.length_append, List.length_replicate]; omega
  have hdrop : d'.drop p = d.drop p ++ List.replicate (p + 8 - d.length) 0 := by
    simp only [d']; rw [List.drop_append_of_le_length hp]
  have hh : Has d' p (Spec.number fl 8 n) := by
    rw [he, ← hdrop]
    exact ⟨d'.take p, [], by simp, by rw [List.length_take]; omega⟩
  have hs : Small d' := by show d'.length < 2 ^ 60; omega
  have hfull := readU64_has (fl := fl) hs hn hh
  have e1 : readRaw 8 8 ⟨d, p, fl⟩ = .ok (d.drop p) ⟨d, d.length, fl⟩ :=
    readRaw_short (s := ⟨d, p, fl⟩) (n := 8) (cap := 8) (show d.length < 2 ^ 64 by omega) hp h (show p + 8 < 2 ^ 64 by omega)
      (show d.length - p ≤ 8 by omega)
  have e2 := readRaw_has (fl := fl) hs hh 8 8 (by rw [number_length]) (Nat.le_refl _)
  have f1 := readU64_raw e1 (by rw [List.length_drop]; omega)
  have f2 := readU64_raw e2 (by rw [number_length]; omega)
  rw [hfull] at f2
  rw [f1]
  have : d.drop p ++ List.replicate (8 - (d.drop p).length) 0 = Spec.number fl 8 n ++ List.replicate (8 - (Spec.number fl 8 n).length) 0 := by
    rw [number_length, he, Nat.sub_self, List.replicate_zero, List.append_nil, List.length_drop]
    congr 2; omega
  rw [this]
  simp only [Res.ok.injEq] at f2
  rw [← f2.1]

theorem fromLE_zeros : ∀ j, fromLE (List.replicate j 0) = 0
  | 0 => rfl
  | j + 1 => by
    rw [List.replicate_succ]
    simp only [fromLE, fromLE_zeros j]
    rfl

theorem number_cut {fl : Bool} {n size : Nat} {a b : Bytes} {j : Nat} (hn : n < 2 ^ 64) (hs : size < 2 ^ 64) (h : Spec.number fl 8 n = a ++ List.replicate j 0)
    (h' : Spec.number fl 8 size = a ++ b) (hj : b.length = j) : n ≤ size := by
  have e1 := fromLE_leBytes 8 n
  have e2 := fromLE_leBytes 8 size
  rw [Nat.mod_eq_of_lt (by simpa using hn)] at e1
  rw [Nat.mod_eq_of_lt (by simpa using hs)] at e2
  cases fl with
  | false =>
    rw [Spec.number, if_neg (by decide), lsbFirst_eq] at h h'
    rw [h, fromLE_append, fromLE_zeros] at e1
    rw [h', fromLE_append] at e2
    omega
  | true =>
    rw [Spec.number, if_pos rfl, msbFirst_eq] at h h'
    have h := congrArg List.reverse h
    have h' := congrArg List.reverse h'
    rw [List.reverse_reverse, List.reverse_append, List.reverse_replicate] at h
    rw [List.reverse_reverse, List.reverse_append] at h'
    rw [h, fromLE_append, fromLE_zeros, List.length_replicate] at e1
    rw [h', fromLE_append, List.length_reverse, hj] at e2
    omega


theorem begin_cut (env : REnv) {code : Nat} (hc : code < 256) {d : Bytes} {p : Nat} {fl : Bool} (hd : d.length < 2 ^ 59) (hp : p < d.length)
    (h9 : d.length < p + 9) (hb : Has d p [UInt8.ofNat code]) {n : Nat} (hn : n < 2 ^ 60)
    (he : Spec.number fl 8 n = d.drop (p + 1) ++ List.replicate (p + 9 - d.length) 0) :
    beginReadLargeBlock env code [] ⟨d, p, fl⟩ = .ok (if n = 0 then d.length else 0) ⟨d, d.length, fl⟩ := by
  have hs : Small d := by show d.length < 2 ^ 60; omega
  have e1 := readU8_byte (fl := fl) hs hc hb
  have e2 := readU64_padded fl hd (p := p + 1) (by omega) (by omega) (n := n) (by omega) (by rw [he])
  have e3 := u8_eof fl hs
  have e4 : readKey env 0 ⟨d, d.length, fl⟩ = .ok (0, env.junkKey.toList) ⟨d, d.length, fl⟩ := by
    rw [readKey, Prog.bind_ok (raw_eof fl hs 0 40 (by decide))]; rfl
  have hw : wrap64 (d.length + n) = d.length + n := Nat.mod_eq_of_lt (by omega)
  have hz : (RStream.mk d d.length fl).size = d.length := rfl
  rw [beginReadLargeBlock, Prog.bind_ok e1, if_neg (by simp), Prog.bind_ok e2, Prog.bind_ok (Prog.get_apply _)]
  dsimp only
  rw [hw, hz]
  by_cases h0 : n = 0
  · subst h0
    rw [if_neg (by omega), Prog.bind_ok e3, if_neg (by simp), show ([] : Bytes).length = 0 from rfl, Prog.bind_ok e4]
    rfl
  · rw [if_pos (by omega), if_neg h0]; rfl

theorem begin_other (env : REnv) {code : Nat} (key : Bytes) {d : Bytes} {p : Nat} {fl : Bool} (hd : Small d) {b : Byte} (hb : Has d p [b])
    (h : b ≠ UInt8.ofNat code) : beginReadLargeBlock env code key ⟨d, p, fl⟩ = .ok 0 ⟨d, p + 1, fl⟩ := by
  have e1 := readU8_byte (fl := fl) (n := b.toNat) hd b.toNat_lt (by simpa using hb)
  rw [beginReadLargeBlock, Prog.bind_ok e1, if_pos]
  · rfl
  · intro e
    exact h (by rw [← e]; simp)

theorem begin_at_end (env : REnv) {code : Nat} (key : Bytes) {d : Bytes} {fl : Bool} (hd : Small d) (hc : 0 < code) :
    beginReadLargeBlock env code key ⟨d, d.length, fl⟩ = .ok 0 ⟨d, d.length, fl⟩ := by
  rw [beginReadLargeBlock, Prog.bind_ok (u8_eof fl hd), if_pos (by omega)]
  rfl

theorem end_here {s : RStream} {e : Nat} (h : s.pos = e) : endReadLargeBlock e s = .ok true s := by
  rw [endReadLargeBlock, Prog.bind_ok (Prog.get_apply _), h, beq_self_eq_true]; rfl

theorem block_status {α : Type} {env : REnv} {code : Nat} {key : Bytes} {s s' : RStream} {e : Nat} (hb : beginReadLargeBlock env code key s = .ok e s')
    (K : Nat → Prog RStream (RStatus α)) (x : Prog RStream (RStatus α))
    (hx : x = beginReadLargeBlock env code key >>= fun e => if e = 0 then pure .fail else Prog.get >>= fun s => if e = s.pos then
      endReadEmptyLargeBlock true e else K e) : (e = 0 → x s = .ok .fail s') ∧ (e ≠ 0 → s'.pos = e → x s = .ok .successEmpty s') := by
  subst hx
  rw [Prog.bind_ok hb]
  constructor
  · intro h; rw [if_pos h]; rfl
  · intro h h'
    rw [if_neg h, Prog.bind_ok (Prog.get_apply _), if_pos h'.symm, endReadEmptyLargeBlock, if_pos rfl, Prog.bind_ok (end_here h')]
    rfl

theorem array_status {env : REnv} {t : DataType} (ht : t.Ok) {key : Bytes} {wi : Bool} {s s' : RStream} {e : Nat}
    (hb : beginReadLargeBlock env t.avt key s = .ok e s') :
    (e = 0 → readArray env t key true wi s = .ok .fail s') ∧ (e ≠ 0 → s'.pos = e → readArray env t key true wi s = .ok .successEmpty s') := by
  obtain ⟨nm, vt, avt, kind, ov⟩ := t
  cases kind with
  | bool =>
    obtain ⟨-, rfl⟩ := ht
    exact block_status hb _ (readArrayBool env key true wi) rfl
  | items sc n _ => exact block_status hb _ (readArrayItems env avt sc n key true wi) rfl
  | string =>
    obtain ⟨-, rfl⟩ := ht
    exact block_status hb _ (readArrayString env key true wi) rfl

theorem string_status {env : REnv} {key : Bytes} {s s' : RStream} {e : Nat} (hb : beginReadLargeBlock env vtString key s = .ok e s') :
    (e = 0 → readSingleString env key true s = .ok .fail s') ∧ (e ≠ 0 → s'.pos = e → readSingleString env key true s = .ok .successEmpty s') := by
  rw [readSingleString, Prog.bind_ok hb]
  constructor
  · intro h; rw [if_pos h]; rfl
  · intro h h'
    rw [if_neg h, Prog.bind_ok (Prog.get_apply _), if_pos h', if_pos rfl, Prog.bind_ok (end_here h')]
    rfl

/-- Reading a string or array that may be absent, by what the start of its block gives. -/
theorem optional_large (env : REnv) {t : DataType} (ht : t.Ok) (c : Container) (key : Bytes) (dest : c.Val t.Val) (hs : isSmall t c = false)
    (hc : c = .optionalValue ∨ c = .optionalVector ∨ c = .optionalIdxVector) {s s' : RStream} {e : Nat}
    (hb : beginReadLargeBlock env (blockCode t c) key s = .ok e s') :
    (e = 0 → readTyped env t c key dest s = .ok none s') ∧ (e ≠ 0 → s'.pos = e → ∃ v, readTyped env t c key dest s = .ok (some v) s') := by
  rcases hc with rfl | rfl | rfl
  · obtain ⟨nm, vt, avt, kind, ov⟩ := t
    cases kind with
    | bool => cases hs
    | items sc n h => simp [isSmall] at hs
    | string =>
      obtain ⟨rfl, -⟩ := ht
      have h := string_status (show beginReadLargeBlock env vtString key s = .ok e s' from hb)
      exact ⟨fun h0 => Prog.bind_ok (h.1 h0), fun h0 h1 => ⟨none, Prog.bind_ok (h.2 h0 h1)⟩⟩
  · have h := array_status (wi := false) ht (show beginReadLargeBlock env t.avt key s = .ok e s' from hb)
    exact ⟨fun h0 => Prog.bind_ok (h.1 h0), fun h0 h1 => ⟨none, Prog.bind_ok (h.2 h0 h1)⟩⟩
  · have h := array_status (wi := true) ht (show beginReadLargeBlock env t.avt key s = .ok e s' from hb)
    exact ⟨fun h0 => Prog.bind_ok (h.1 h0), fun h0 h1 => ⟨none, Prog.bind_ok (h.2 h0 h1)⟩⟩


/-- **C18**, exactly: of a block written for any value, a proper prefix of `m` bytes at the end of the stream is accepted by a read if and only if it is a read, under the empty key, of
a string, vector or indexed vector that may be absent, the first byte is the type it expects, and the prefix ends inside the size field with nothing but zeros of it. -/
theorem C18_exact (env : REnv) (t : DataType) (ht : t ∈ allTypes) (c : Container) (key : Bytes)
    (hk : key.length ≤ 40) (dest : c.Val t.Val) (t0 : DataType) (ht0 : t0 ∈ allTypes) (c0 : Container) (key0 : Bytes)
    (hk0 : key0.length ≤ 40) (v0 : c0.Val t0.Val) (fl : Bool) (pre block : Bytes) (hblock : block = Spec.typed fl t0 c0 key0 v0) (m : Nat)
    (hm : m < block.length) (hd : pre.length + block.length < 2 ^ 59) :
    (∃ v' s', readTyped env t c key dest ⟨pre ++ block.take m, pre.length, fl⟩ = .ok (some v') s') ↔
    key = [] ∧ isSmall t c = false ∧ (c = .optionalValue ∨ c = .optionalVector ∨ c = .optionalIdxVector) ∧
      1 ≤ m ∧ m ≤ 8 ∧ block.take m = UInt8.ofNat (blockCode t c) :: List.replicate (m - 1) 0 := by
  have hl : (pre ++ block.take m).length = pre.length + m := by rw [List.length_append, List.length_take]; omega
  have hok := allTypes_ok t ht
  have hskip := skip_typed fl t0 (allTypes_ok t0 ht0) c0 key0 hk0 v0 [] (by rw [← hblock]; omega)
  rw [List.append_nil, ← hblock] at hskip
  -- only these reads can accept anything
  have hcand : (∃ v' s', readTyped env t c key dest ⟨pre ++ block.take m, pre.length, fl⟩ = .ok (some v') s') →
      key = [] ∧ isSmall t c = false ∧ (c = .optionalValue ∨ c = .optionalVector ∨ c = .optionalIdxVector) ∧ m < 9 := by
    rintro ⟨v', s', h⟩
    obtain ⟨-, -, h3, v, -, h4⟩ := C20_success_consumes_declared_block env t ht c key hk dest _ (by omega) pre.length (by omega) fl v' s' h
    rw [hl] at h3
    rcases h4 with ⟨n, hn, hp⟩ | ⟨h1, h2, h5, h6, -⟩
    · rw [List.drop_left] at hn
      have := skip_take fl _ m n hskip hm hn
      omega
    · rw [hl] at h6
      refine ⟨h1, h2, ?_, by omega⟩
      cases c <;> simp_all [present]
  by_cases hc : key = [] ∧ isSmall t c = false ∧ (c = .optionalValue ∨ c = .optionalVector ∨ c = .optionalIdxVector) ∧ m < 9
  rotate_left
  · constructor
    · exact fun h => absurd (hcand h) hc
    · rintro ⟨h1, h2, h3, h4, h5, -⟩
      exact absurd ⟨h1, h2, h3, by omega⟩ hc
  obtain ⟨rfl, hsm, hopt, hm9⟩ := hc
  obtain ⟨hc1, hc2⟩ := blockCode_large hok hsm
  have hsmall : Small (pre ++ block.take m) := by show _ < 2 ^ 60; omega
  by_cases hm0 : m = 0
  · subst hm0
    have hb := begin_at_end env (code := blockCode t c) [] (fl := fl) hsmall (by omega)
    have := (optional_large env hok c [] dest hsm hopt hb).1 rfl
    have hpl : (pre ++ block.take 0).length = pre.length := by rw [hl]; rfl
    rw [hpl] at this
    rw [this]
    constructor
    · rintro ⟨v', s', h⟩; cases h
    · rintro ⟨-, -, -, h, -⟩; omega
  obtain ⟨b, rest, hbr⟩ : ∃ b rest, block = b :: rest := by
    cases block with
    | nil => exact absurd hm (by simp)
    | cons b rest => exact ⟨b, rest, rfl⟩
  have htake : block.take m = b :: rest.take (m - 1) := by
    rw [hbr]; cases m with
    | zero => exact absurd rfl hm0
    | succ m => rfl
  have hhas : Has (pre ++ block.take m) pre.length [b] := by
    rw [htake]; exact ⟨pre, rest.take (m - 1), by simp, rfl⟩
  by_cases hbc : b = UInt8.ofNat (blockCode t c)
  rotate_left
  · have hb := begin_other env (code := blockCode t c) [] (fl := fl) hsmall hhas hbc
    have := (optional_large env hok c [] dest hsm hopt hb).1 rfl
    rw [this]
    constructor
    · rintro ⟨v', s', h⟩; cases h
    · rintro ⟨-, -, -, -, -, h⟩
      rw [htake] at h
      exact absurd (List.cons.inj h).1 hbc
  -- the number read from what is there of the size field
  have hblen : block.length = rest.length + 1 := by rw [hbr]; rfl
  have hbv : b.toNat = blockCode t c := by rw [hbc, UInt8.toNat_ofNat']; exact Nat.mod_eq_of_lt hc2
  have hlong : 8 ≤ rest.length := by
    have h := hskip
    rw [hbr, Spec.skip, hbv, if_neg (by omega)] at h
    simp only [Option.some.injEq, List.length_cons] at h
    omega
  have hrest : ∃ size, size < 2 ^ 60 ∧ ∃ tail, rest = Spec.number fl 8 size ++ tail := by
    obtain ⟨size, hsz, hnum⟩ := number_surj fl 8 (rest.take 8) (by rw [List.length_take]; omega)
    refine ⟨size, ?_, rest.drop 8, by rw [hnum, List.take_append_drop]⟩
    have h := skip_head (d := block) (p := 0) (size := size) fl hc1 hc2 (by simpa using hsz)
      (by rw [← hbc, hbr]; exact ⟨[], rest, rfl, rfl⟩)
      (by rw [hnum, hbr]; exact ⟨[b], rest.drop 8, by simp, rfl⟩)
    rw [List.drop_zero, hskip] at h
    simp only [Option.some.injEq] at h
    omega
  obtain ⟨size, hsize, tail, htail⟩ := hrest
  obtain ⟨n, hn, hnum⟩ := number_surj fl 8 (rest.take (m - 1) ++ List.replicate (9 - m) 0) (by
    rw [List.length_append, List.length_take, List.length_replicate, htail, List.length_append, number_length]; omega)
  have htk : rest.take (m - 1) = (Spec.number fl 8 size).take (m - 1) := by
    rw [htail, List.take_append_of_le_length (by rw [number_length]; omega)]
  have hle : n ≤ size := number_cut (a := rest.take (m - 1)) (b := (Spec.number fl 8 size).drop (m - 1)) (by simpa using hn) (by omega) hnum
    (by rw [htk, List.take_append_drop]) (by rw [List.length_drop, number_length]; omega)
  have hdrop : (pre ++ block.take m).drop (pre.length + 1) = rest.take (m - 1) := by
    rw [htake, show pre ++ b :: rest.take (m - 1) = (pre ++ [b]) ++ rest.take (m - 1) by simp, List.drop_left' (by simp)]
  have hzero : Spec.number fl 8 0 = List.replicate 8 0 := by cases fl <;> decide
  have hb := begin_cut env hc2 (fl := fl) (d := pre ++ block.take m) (p := pre.length) (by omega) (by omega) (by omega) (by rw [← hbc]; exact hhas) (n := n) (by omega)
    (by rw [hnum, hl, hdrop]; congr 2; omega)
  have hr := optional_large env hok c [] dest hsm hopt hb
  by_cases hn0 : n = 0
  · rw [if_pos hn0] at hr
    obtain ⟨v, hv⟩ := hr.2 (by omega) rfl
    refine ⟨fun _ => ⟨rfl, hsm, hopt, by omega, by omega, ?_⟩, fun _ => ⟨v, _, hv⟩⟩
    rw [htake, hbc]
    congr 1
    rw [hn0, hzero] at hnum
    have h := congrArg (List.take (m - 1)) hnum
    rw [List.take_replicate, List.take_left' (by rw [List.length_take]; omega), Nat.min_eq_left (by omega)] at h
    exact h.symm
  · rw [if_neg hn0] at hr
    rw [hr.1 rfl]
    constructor
    · rintro ⟨v', s', h⟩; cases h
    · rintro ⟨-, -, -, -, -, h⟩
      rw [htake] at h
      have h := (List.cons.inj h).2
      rw [h, List.replicate_append_replicate, show m - 1 + (9 - m) = 8 by omega, ← hzero] at hnum
      exact absurd (number_inj fl 8 hn (by decide) hnum) hn0

/-- An `i32` under the name `abcdx` is accepted as an `i64` under `x`, and as nothing else than this or an `i32` under `abcdx` among these. -/
example (env : REnv) (hm : ∀ n, env.allocOk n = true) (dest : Word 8) (dest' : Word 4) (w : Word 4) :
    (∃ v' s', readTyped env i64Type .none [120] (#v[dest] : Vector (Word 8) 1) ⟨[] ++ Spec.typed false i32Type .none [97, 98, 99, 100, 120] (#v[w] : Vector (Word 4) 1) ++ [], 0, false⟩ =
      .ok (some v') s') ∧
    ¬ (∃ v' s', readTyped env i32Type .none [120] (#v[dest'] : Vector (Word 4) 1) ⟨[] ++ Spec.typed false i32Type .none [97, 98, 99, 100, 120] (#v[w] : Vector (Word 4) 1) ++ [], 0, false⟩ =
      .ok (some v') s') := by
  have hb : (Spec.typed false i32Type .none [97, 98, 99, 100, 120] (#v[w] : Vector (Word 4) 1)).drop 2 = Spec.number false 4 w.toNat ++ [97, 98, 99, 100] ++ [120] := by
    show Spec.scalars false .w4 [w] ++ [97, 98, 99, 100, 120] = _
    simp [Spec.scalars, Spec.scalar]
  have hl : ([] ++ Spec.typed false i32Type .none [97, 98, 99, 100, 120] (#v[w] : Vector (Word 4) 1) ++ []).length = 11 := by
    rw [List.nil_append, List.append_nil]
    have := congrArg List.length hb
    simp only [List.length_drop, List.length_append, number_length, List.length_cons, List.length_nil] at this
    omega
  constructor
  · exact (C17_small_exact env i64Type i64_mem .none [120] (by decide) _ rfl i32Type i32_mem .none _ (by decide) _ false [] _ [] rfl (by rw [hl]; decide)
      (fun _ _ => hm _)).mpr ⟨rfl, rfl, _, hb, .inl (by rw [List.length_append, number_length]; rfl)⟩
  · intro h
    obtain ⟨-, -, x, hx, h' | h'⟩ := (C17_small_exact env i32Type i32_mem .none [120] (by decide) _ rfl i32Type i32_mem .none _ (by decide) _ false [] _ [] rfl (by rw [hl]; decide)
      (fun _ _ => hm _)).mp h
    · rw [hb] at hx
      have := congrArg List.length hx
      simp only [List.length_append, number_length, List.length_cons, List.length_nil, h'] at this
      exact absurd this (by decide)
    · cases h'.2

/-- A vector of strings is accepted as an optional vector of strings, not as one with an index, nor as a vector of numbers. -/
example (env : REnv) (hm : ∀ n, env.allocOk n = true) (l : List Bytes) (pre post : Bytes) (hd : (pre ++ Spec.typed true stringType .vector [107] l ++ post).length < 2 ^ 60) :
    (∃ v' s', readTyped env stringType .optionalVector [107] none ⟨pre ++ Spec.typed true stringType .vector [107] l ++ post, pre.length, true⟩ = .ok (some v') s') ∧
    ¬ (∃ v' s', readTyped env stringType .idxVector [107] ⟨[], []⟩ ⟨pre ++ Spec.typed true stringType .vector [107] l ++ post, pre.length, true⟩ = .ok (some v') s') ∧
    ¬ (∃ v' s', readTyped env i32Type .vector [107] [] ⟨pre ++ Spec.typed true stringType .vector [107] l ++ post, pre.length, true⟩ = .ok (some v') s') := by
  refine ⟨?_, ?_, ?_⟩
  · exact (C17_large_exact env stringType (by decide +kernel) .optionalVector [107] (by decide) _ rfl stringType (by decide +kernel) .vector [107] (by decide) l true pre _ post rfl hd
      (fun _ _ => hm _)).mpr ⟨rfl, rfl, rfl, rfl, rfl⟩
  · intro h
    have := (C17_large_exact env stringType (by decide +kernel) .idxVector [107] (by decide) _ rfl stringType (by decide +kernel) .vector [107] (by decide) l true pre _ post rfl hd
      (fun _ _ => hm _)).mp h
    exact nomatch this.2.2.2.2
  · intro h
    have := (C17_large_exact env i32Type i32_mem .vector [107] (by decide) _ rfl stringType (by decide +kernel) .vector [107] (by decide) l true pre _ post rfl hd
      (fun _ _ => hm _)).mp h
    exact nomatch this.2.1

/-- A string of 247 bytes, little endian, under the empty name (its block counts 256 bytes): its first byte, alone or with the first byte of its size, is accepted as an absent string,
and no other cut is. -/
example (env : REnv) (x : Bytes) (hx : x.length = 247) (m : Nat) (hm : m < (Spec.typed false stringType .optionalValue [] (some x)).length) :
    (∃ v' s', readTyped env stringType .optionalValue [] none ⟨[] ++ (Spec.typed false stringType .optionalValue [] (some x)).take m, 0, false⟩ = .ok (some v') s') ↔ m = 1 ∨ m = 2 := by
  have hb : Spec.typed false stringType .optionalValue [] (some x) = [0xe0, 0, 1, 0, 0, 0, 0, 0, 0, 0] ++ Spec.number false 8 247 ++ x := by
    show [0xe0] ++ Spec.number false 8 (1 + 0 + (Spec.number false 8 x.length ++ x).length) ++ [0] ++ [] ++ (Spec.number false 8 x.length ++ x) = _
    rw [List.length_append, number_length, hx, show Spec.number false 8 (1 + 0 + (8 + 247)) = [0, 1, 0, 0, 0, 0, 0, 0] by decide +kernel]
    simp
  refine (C18_exact env stringType (by decide +kernel) .optionalValue [] (by decide) none stringType (by decide +kernel) .optionalValue [] (by decide) (some x) false [] _ rfl m hm
    (by rw [hb]; simp only [List.length_append, number_length, hx]; decide)).trans ?_
  rw [hb]
  constructor
  · rintro ⟨-, -, -, h1, h2, h3⟩
    rcases m with _ | _ | _ | m
    · omega
    · exact .inl rfl
    · exact .inr rfl
    · simp [List.replicate_succ] at h3
  · rintro (rfl | rfl)
    · exact ⟨rfl, rfl, .inl rfl, by decide, by decide, rfl⟩
    · exact ⟨rfl, rfl, .inl rfl, by decide, by decide, rfl⟩

end ISD
