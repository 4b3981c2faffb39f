import Verif.Proofs.WriteStream

/-! # C08, C09: byte order helpers and hex printing -/

namespace ISD

theorem valueFromBE16_inv (bs : Bytes) (h : bs.length = 2) : beFromValue16 (valueFromBE16 bs) = bs := by
  have e : bs = beFromValue16 (Word.ofImage 2 bs.reverse) := by
    rw [beFromValue16_eq, Word.image_ofImage _ (by simpa using h), List.reverse_reverse]
  have := valueFromBE16_be (Word.ofImage 2 bs.reverse) []
  rw [List.append_nil, ← e] at this
  rw [this, ← e]

theorem valueFromBE32_inv (bs : Bytes) (h : bs.length = 4) : beFromValue32 (valueFromBE32 bs) = bs := by
  have e : bs = beFromValue32 (Word.ofImage 4 bs.reverse) := by
    rw [beFromValue32_eq, Word.image_ofImage _ (by simpa using h), List.reverse_reverse]
  have := valueFromBE32_be (Word.ofImage 4 bs.reverse) []
  rw [List.append_nil, ← e] at this
  rw [this, ← e]

theorem valueFromBE64_inv (bs : Bytes) (h : bs.length = 8) : beFromValue64 (valueFromBE64 bs) = bs := by
  have e : bs = beFromValue64 (Word.ofImage 8 bs.reverse) := by
    rw [beFromValue64_eq, Word.image_ofImage _ (by simpa using h), List.reverse_reverse]
  have := valueFromBE64_be (Word.ofImage 8 bs.reverse) []
  rw [List.append_nil, ← e] at this
  rw [this, ← e]

/-- **C08.** `value_from_bigendian` undoes `bigendian_from_value`, for any bytes that follow. -/
theorem C08_from_to (a : Word 2) (b : Word 4) (c : Word 8) (r : Bytes) :
    valueFromBE16 (beFromValue16 a ++ r) = a ∧ valueFromBE32 (beFromValue32 b ++ r) = b ∧
    valueFromBE64 (beFromValue64 c ++ r) = c :=
  ⟨valueFromBE16_be a r, valueFromBE32_be b r, valueFromBE64_be c r⟩

/-- **C08.** `bigendian_from_value` undoes `value_from_bigendian` on every byte pattern. -/
theorem C08_to_from (a b c : Bytes) (ha : a.length = 2) (hb : b.length = 4) (hc : c.length = 8) :
    beFromValue16 (valueFromBE16 a) = a ∧ beFromValue32 (valueFromBE32 b) = b ∧ beFromValue64 (valueFromBE64 c) = c :=
  ⟨valueFromBE16_inv a ha, valueFromBE32_inv b hb, valueFromBE64_inv c hc⟩

/-- **C08.** The bytes come out most significant first. -/
theorem C08_msb_first (a : Word 2) (b : Word 4) (c : Word 8) :
    beFromValue16 a = Spec.msbFirst 2 a.toNat ∧ beFromValue32 b = Spec.msbFirst 4 b.toNat ∧
    beFromValue64 c = Spec.msbFirst 8 c.toNat := by
  simp only [msbFirst_eq, beFromValue16_eq, beFromValue32_eq, beFromValue64_eq, Word.image, and_self]

/-- **C08.** `swap_byte_order` on an array of `n` words of 2, 4 or 8 bytes, applied twice, restores the memory. -/
theorem C08_swap_involutive (k : Nat) (hk : k = 2 ∨ k = 4 ∨ k = 8) (m : Bytes) (n : Nat) (h : n * k ≤ m.length) :
    swapByteOrder k (swapByteOrder k m n) n = m :=
  swapByteOrder_involutive k hk m n h

/-- **C08.** `swap_byte_order` reverses the bytes of each word and touches nothing behind the array. -/
theorem C08_swap_reverses (k : Nat) (hk : k = 2 ∨ k = 4 ∨ k = 8) (words : List Bytes) (h : ∀ w ∈ words, w.length = k)
    (rest : Bytes) :
    swapByteOrder k (words.flatten ++ rest) words.length = (words.map List.reverse).flatten ++ rest :=
  swapByteOrder_flatMap k hk words h rest

example : swapByteOrder 4 [1, 2, 3, 4, 5, 6, 7, 8, 9] 2 = [4, 3, 2, 1, 8, 7, 6, 5, 9] := by decide
example : beFromValue32 0x01020304#32 = [1, 2, 3, 4] := by decide

/-! ## Hex -/

namespace Spec

/-- The value of a lower case hex digit. -/
def hexVal (c : Char) : Option Nat :=
  if '0' ≤ c ∧ c ≤ '9' then some (c.toNat - '0'.toNat)
  else if 'a' ≤ c ∧ c ≤ 'f' then some (c.toNat - 'a'.toNat + 10)
  else none

/-- Parse hex digits, most significant first; `none` on any other character. -/
def parseHex : List Char → Option Nat
  | cs => cs.foldl (fun acc c => match acc, hexVal c with
    | some n, some d => some (16 * n + d)
    | _, _ => none) (some 0)

/-- The number a byte list stands for, most significant byte first. -/
def beNumber (bs : Bytes) : Nat := bs.foldl (fun n b => 256 * n + b.toNat) 0

end Spec

theorem hexVal_hexChar {n : Nat} (h : n < 16) : Spec.hexVal (hexChar n) = some n := by
  have : ∀ n : Fin 16, Spec.hexVal (hexChar n.val) = some n.val := by decide
  exact this ⟨n, h⟩

theorem hi_nibble (b : Byte) : (b >>> 4 &&& 0xf).toNat = b.toNat / 16 := by
  have h := b.toNat_lt
  rw [UInt8.toNat_and, UInt8.toNat_shiftRight]
  change (_ >>> 4 &&& (2 ^ 4 - 1)) = _
  rw [Nat.and_two_pow_sub_one_eq_mod, Nat.shiftRight_eq_div_pow]
  omega

theorem lo_nibble (b : Byte) : (b &&& 0xf).toNat = b.toNat % 16 := by
  rw [UInt8.toNat_and]
  change (_ &&& (2 ^ 4 - 1)) = _
  rw [Nat.and_two_pow_sub_one_eq_mod]

theorem parse_aux (bs : Bytes) (n : Nat) :
    (bytesToHex bs).foldl (fun acc c => match acc, Spec.hexVal c with
      | some n, some d => some (16 * n + d)
      | _, _ => none) (some n) = some (bs.foldl (fun n b => 256 * n + b.toNat) n) := by
  induction bs generalizing n with
  | nil => rfl
  | cons b bs ih =>
    have h := b.toNat_lt
    rw [bytesToHex, hi_nibble, lo_nibble]
    simp only [List.foldl_cons, hexVal_hexChar (show b.toNat / 16 < 16 by omega),
      hexVal_hexChar (show b.toNat % 16 < 16 by omega)]
    rw [ih]
    congr 2
    omega

theorem bytesToHex_length (bs : Bytes) : (bytesToHex bs).length = 2 * bs.length := by
  induction bs with
  | nil => rfl
  | cons b bs ih => simp only [bytesToHex, List.length_cons, ih]; omega

theorem bytesToHex_append (a b : Bytes) : bytesToHex (a ++ b) = bytesToHex a ++ bytesToHex b := by
  induction a with
  | nil => rfl
  | cons x a ih => simp [bytesToHex, ih]

theorem bytesToHex_lower (bs : Bytes) : ∀ c ∈ bytesToHex bs, c ∈ "0123456789abcdef".toList := by
  have hc : ∀ n : Fin 16, hexChar n.val ∈ "0123456789abcdef".toList := by decide
  induction bs with
  | nil => simp [bytesToHex]
  | cons b bs ih =>
    have h := b.toNat_lt
    intro c hm
    rw [bytesToHex, hi_nibble, lo_nibble] at hm
    rcases List.mem_cons.mp hm with rfl | hm
    · exact hc ⟨b.toNat / 16, by omega⟩
    rcases List.mem_cons.mp hm with rfl | hm
    · exact hc ⟨b.toNat % 16, by omega⟩
    · exact ih c hm

theorem bytesToHex_inj {a b : Bytes} (h : bytesToHex a = bytesToHex b) : a = b := by
  induction a generalizing b with
  | nil =>
    cases b with
    | nil => rfl
    | cons x b => cases h
  | cons x a ih =>
    cases b with
    | nil => cases h
    | cons y b =>
      rw [bytesToHex, bytesToHex, hi_nibble, lo_nibble, hi_nibble, lo_nibble] at h
      simp only [List.cons.injEq] at h
      obtain ⟨h1, h2, h3⟩ := h
      have hx := x.toNat_lt
      have hy := y.toNat_lt
      have e1 : x.toNat / 16 = y.toNat / 16 := by
        have := congrArg Spec.hexVal h1
        rw [hexVal_hexChar (by omega), hexVal_hexChar (by omega)] at this
        exact Option.some.inj this
      have e2 : x.toNat % 16 = y.toNat % 16 := by
        have := congrArg Spec.hexVal h2
        rw [hexVal_hexChar (by omega), hexVal_hexChar (by omega)] at this
        exact Option.some.inj this
      have : x = y := UInt8.toNat_inj.mp (by omega)
      rw [this, ih h3]

theorem beNumber_reverse (bs : Bytes) : Spec.beNumber bs.reverse = fromLE bs := by
  induction bs with
  | nil => rfl
  | cons b bs ih =>
    rw [Spec.beNumber] at ih ⊢
    rw [List.reverse_cons, List.foldl_append, ih, fromLE]
    simp; omega

theorem beNumber_image {k : Nat} (w : Word k) : Spec.beNumber w.image.reverse = w.toNat := by
  rw [beNumber_reverse, Word.image, fromLE_leBytes, pow256]
  exact Nat.mod_eq_of_lt w.isLt

/-- **C09.** `bytes_to_hex_string`: two characters per byte, all lower case hex digits, parsing them gives the number the bytes spell
most significant first, and distinct buffers print differently. -/
theorem C09_bytes (bs : Bytes) :
    (bytesToHex bs).length = 2 * bs.length ∧
    (∀ c ∈ bytesToHex bs, c ∈ "0123456789abcdef".toList) ∧
    Spec.parseHex (bytesToHex bs) = some (Spec.beNumber bs) ∧
    (∀ bs', bytesToHex bs' = bytesToHex bs → bs' = bs) :=
  ⟨bytesToHex_length bs, bytesToHex_lower bs, parse_aux bs 0, fun _ h => bytesToHex_inj h⟩

/-- **C09.** `value_to_hex_string` of integers: fixed width, and parsing the digits gives the value back. -/
theorem C09_values (a : Byte) (b : Word 2) (c : Word 4) (d : Word 8) :
    (hexU8 a).length = 2 ∧ Spec.parseHex (hexU8 a) = some a.toNat ∧
    (hexU16 b).length = 4 ∧ Spec.parseHex (hexU16 b) = some b.toNat ∧
    (hexU32 c).length = 8 ∧ Spec.parseHex (hexU32 c) = some c.toNat ∧
    (hexU64 d).length = 16 ∧ Spec.parseHex (hexU64 d) = some d.toNat := by
  have h : ∀ bs, Spec.parseHex (bytesToHex bs) = some (Spec.beNumber bs) := fun bs => parse_aux bs 0
  refine ⟨rfl, ?_, rfl, ?_, rfl, ?_, rfl, ?_⟩
  · rw [hexU8, h]; simp [Spec.beNumber]
  · rw [hexU16, h, beFromValue16_eq, beNumber_image]
  · rw [hexU32, h, beFromValue32_eq, beNumber_image]
  · rw [hexU64, h, beFromValue64_eq, beNumber_image]

/-- **C09.** Distinct integers print differently. -/
theorem C09_values_injective :
    (∀ a b, hexU8 a = hexU8 b → a = b) ∧ (∀ a b, hexU16 a = hexU16 b → a = b) ∧
    (∀ a b, hexU32 a = hexU32 b → a = b) ∧ (∀ a b, hexU64 a = hexU64 b → a = b) := by
  refine ⟨?_, ?_, ?_, ?_⟩
  · intro a b h
    have := bytesToHex_inj h
    simpa using this
  all_goals
    intro a b h
    have := bytesToHex_inj h
    simp only [beFromValue16_eq, beFromValue32_eq, beFromValue64_eq, List.reverse_inj] at this
    exact Word.image_inj this

/-- **C09.** A uuid prints as 36 characters in groups of 8-4-4-4-12 hex digits, which are those of its parts; the digits without the
dashes are the hex digits of the 16 bytes that are stored for it. -/
theorem C09_uuid (u : UUID) :
    (hexUUID u).length = 36 ∧
    ∃ g1 g2 g3 g4 g5 : List Char, hexUUID u = g1 ++ '-' :: (g2 ++ '-' :: (g3 ++ '-' :: (g4 ++ '-' :: g5))) ∧
      g1.length = 8 ∧ g2.length = 4 ∧ g3.length = 4 ∧ g4.length = 4 ∧ g5.length = 12 ∧
      Spec.parseHex g1 = some u.d1.toNat ∧ Spec.parseHex g2 = some u.d2.toNat ∧ Spec.parseHex g3 = some u.d3.toNat ∧
      g1 ++ g2 ++ g3 ++ g4 ++ g5 = bytesToHex (Spec.uuid u) := by
  have hv := C09_values 0
  have h4 : (bytesToHex (u.d4.toList.take 2)).length = 4 := by rw [bytesToHex_length]; simp
  have h5 : (bytesToHex (u.d4.toList.drop 2)).length = 12 := by rw [bytesToHex_length]; simp
  have h1 := (hv 0 u.d1 0).2.2.2.2.1
  have h2 := (hv u.d2 0 0).2.2.1
  have h3 := (hv u.d3 0 0).2.2.1
  refine ⟨?_, hexU32 u.d1, hexU16 u.d2, hexU16 u.d3, bytesToHex (u.d4.toList.take 2), bytesToHex (u.d4.toList.drop 2),
    by simp [hexUUID], h1, h2, h3, h4, h5, (hv 0 u.d1 0).2.2.2.2.2.1, (hv u.d2 0 0).2.2.2.1, (hv u.d3 0 0).2.2.2.1, ?_⟩
  · simp only [hexUUID, List.length_append, h1, h2, h3, h4, h5, List.length_singleton]
  · rw [specUuid_eq, UUID.wire, hexU32, hexU16, hexU16, ← bytesToHex_append, ← bytesToHex_append, ← bytesToHex_append,
      ← bytesToHex_append, List.append_assoc _ (List.take 2 _), List.take_append_drop]

/-- **C09.** Distinct uuids and hashes print differently. -/
theorem C09_uuid_hash_injective : (∀ a b, hexUUID a = hexUUID b → a = b) ∧ (∀ a b, hexHash a = hexHash b → a = b) := by
  constructor
  · intro a b h
    have inj := C09_values_injective
    have l1 : (hexU32 a.d1).length = (hexU32 b.d1).length := rfl
    have l2 : (hexU16 a.d2).length = (hexU16 b.d2).length := rfl
    have l3 : (hexU16 a.d3).length = (hexU16 b.d3).length := rfl
    have l4 : (bytesToHex (a.d4.toList.take 2)).length = (bytesToHex (b.d4.toList.take 2)).length := by
      simp [bytesToHex_length]
    simp only [hexUUID, List.append_assoc] at h
    obtain ⟨e1, h⟩ := List.append_inj h l1
    obtain ⟨_, h⟩ := List.append_inj h rfl
    obtain ⟨e2, h⟩ := List.append_inj h l2
    obtain ⟨_, h⟩ := List.append_inj h rfl
    obtain ⟨e3, h⟩ := List.append_inj h l3
    obtain ⟨_, h⟩ := List.append_inj h rfl
    obtain ⟨e4, h⟩ := List.append_inj h l4
    obtain ⟨_, e5⟩ := List.append_inj h rfl
    have e4 := bytesToHex_inj e4
    have e5 := bytesToHex_inj e5
    have e6 : a.d4 = b.d4 := by
      apply Vector.toList_inj.mp
      rw [← List.take_append_drop 2 a.d4.toList, ← List.take_append_drop 2 b.d4.toList, e4, e5]
    cases a; cases b
    simp only [UUID.mk.injEq]
    exact ⟨inj.2.2.1 _ _ e1, inj.2.1 _ _ e2, inj.2.1 _ _ e3, e6⟩
  · intro a b h
    have := bytesToHex_inj h
    cases a; cases b
    congr 1
    exact Vector.toList_inj.mp this

example : String.ofList (hexU32 0x0218a782#32) = "0218a782" := by decide

end ISD
