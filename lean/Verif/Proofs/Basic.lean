import Verif.Model.Endian

/-! # Lemmas on byte images, big-endian helpers and byte swapping -/

namespace ISD

@[simp] theorem leBytes_length (k n : Nat) : (leBytes k n).length = k := by
  induction k generalizing n with
  | zero => rfl
  | succ k ih => simp [leBytes, ih]

theorem fromLE_leBytes (k n : Nat) : fromLE (leBytes k n) = n % 256 ^ k := by
  induction k generalizing n with
  | zero => simp [leBytes, fromLE, Nat.mod_one]
  | succ k ih =>
    have h : (UInt8.ofNat (n % 256)).toNat = n % 256 := by
      simp only [UInt8.toNat_ofNat']
      exact Nat.mod_eq_of_lt (Nat.mod_lt _ (by decide))
    rw [leBytes, fromLE, ih, h, Nat.pow_succ, Nat.mul_comm (256 ^ k) 256, Nat.mod_mul]

theorem fromLE_lt (bs : Bytes) : fromLE bs < 256 ^ bs.length := by
  induction bs with
  | nil => simp [fromLE]
  | cons b bs ih =>
    simp only [fromLE, List.length_cons, Nat.pow_succ]
    have := b.toNat_lt
    omega

theorem leBytes_fromLE (bs : Bytes) : leBytes bs.length (fromLE bs) = bs := by
  induction bs with
  | nil => rfl
  | cons b bs ih =>
    have h := b.toNat_lt
    have h1 : (b.toNat + 256 * fromLE bs) % 256 = b.toNat := by omega
    have h2 : (b.toNat + 256 * fromLE bs) / 256 = fromLE bs := by omega
    simp [leBytes, fromLE, h1, h2, ih]

theorem fromLE_append (a b : Bytes) : fromLE (a ++ b) = fromLE a + 256 ^ a.length * fromLE b := by
  induction a with
  | nil => simp [fromLE]
  | cons x a ih =>
    simp only [List.cons_append, fromLE, ih, List.length_cons, Nat.pow_succ, Nat.mul_add]
    rw [Nat.mul_comm (256 ^ a.length) 256, Nat.mul_assoc]
    omega

theorem pow256 (k : Nat) : 256 ^ k = 2 ^ (8 * k) := by
  rw [Nat.pow_mul]

@[simp] theorem Word.image_length {k : Nat} (w : Word k) : w.image.length = k := by simp [Word.image]

@[simp] theorem Word.ofImage_image {k : Nat} (w : Word k) : Word.ofImage k w.image = w := by
  apply BitVec.eq_of_toNat_eq
  simp [Word.ofImage, Word.image, fromLE_leBytes, pow256]

theorem Word.image_ofImage {k : Nat} (bs : Bytes) (h : bs.length = k) : (Word.ofImage k bs).image = bs := by
  subst h
  have := fromLE_lt bs
  rw [pow256] at this
  simp [Word.ofImage, Word.image, Nat.mod_eq_of_lt this, leBytes_fromLE]

theorem Word.image_inj {k : Nat} {a b : Word k} (h : a.image = b.image) : a = b := by
  rw [← Word.ofImage_image a, ← Word.ofImage_image b, h]

/-! ## big-endian helpers -/

theorem mask8 {i : Nat} (h : i < 8) : (255#16).getLsbD i = true := by
  have : ∀ i : Fin 8, (255#16).getLsbD i = true := by decide
  exact this ⟨i, h⟩
theorem mask16 {i : Nat} (h : i < 16) : (65535#32).getLsbD i = true := by
  have : ∀ i : Fin 16, (65535#32).getLsbD i = true := by decide
  exact this ⟨i, h⟩
theorem mask32 {i : Nat} (h : i < 32) : (4294967295#64).getLsbD i = true := by
  have : ∀ i : Fin 32, (4294967295#64).getLsbD i = true := by decide
  exact this ⟨i, h⟩

@[simp] theorem beFromValue16_length (v : Word 2) : (beFromValue16 v).length = 2 := rfl
@[simp] theorem beFromValue32_length (v : Word 4) : (beFromValue32 v).length = 4 := rfl
@[simp] theorem beFromValue64_length (v : Word 8) : (beFromValue64 v).length = 8 := rfl

theorem valueFromBE16_be (v : Word 2) (r : Bytes) : valueFromBE16 (beFromValue16 v ++ r) = v := by
  apply BitVec.eq_of_getLsbD_eq
  intro i hi
  simp only [valueFromBE16, beFromValue16, List.cons_append, List.getD_cons_zero, List.getD_cons_succ]
  by_cases h : i < 8
  · simp [h, mask8 h]; omega
  · have h1 : i - 8 < 8 := by omega
    have h2 : 8 + (i - 8) = i := by omega
    simp [h, h1, h2, mask8 h1, hi]

theorem valueFromBE32_be (v : Word 4) (r : Bytes) : valueFromBE32 (beFromValue32 v ++ r) = v := by
  have e : (beFromValue32 v ++ r).drop 2 = beFromValue16 ((v &&& 0xffff#32).setWidth 16) ++ r := rfl
  rw [valueFromBE32, e, beFromValue32, List.append_assoc, valueFromBE16_be, valueFromBE16_be]
  apply BitVec.eq_of_getLsbD_eq
  intro i hi
  by_cases h : i < 16
  · simp [h, mask16 h]; omega
  · have h1 : i - 16 < 16 := by omega
    have h2 : 16 + (i - 16) = i := by omega
    simp [h, h1, h2, mask16 h1, hi]

theorem valueFromBE64_be (v : Word 8) (r : Bytes) : valueFromBE64 (beFromValue64 v ++ r) = v := by
  have e : (beFromValue64 v ++ r).drop 4 = beFromValue32 ((v &&& 0xffffffff#64).setWidth 32) ++ r := rfl
  rw [valueFromBE64, e, beFromValue64, List.append_assoc, valueFromBE32_be, valueFromBE32_be]
  apply BitVec.eq_of_getLsbD_eq
  intro i hi
  by_cases h : i < 32
  · simp [h, mask32 h]; omega
  · have h1 : i - 32 < 32 := by omega
    have h2 : 32 + (i - 32) = i := by omega
    simp [h, h1, h2, mask32 h1, hi]

/-- The big-endian bytes are the little endian image reversed. -/
theorem beFromValue16_eq (v : Word 2) : beFromValue16 v = v.image.reverse := by
  have hv : v.toNat < 65536 := v.isLt
  have e1 : UInt8.ofBitVec ((v >>> 8 &&& 0xff#16).setWidth 8) = UInt8.ofNat (v.toNat / 256 % 256) := by
    apply UInt8.toNat_inj.mp
    rw [UInt8.toNat_ofBitVec, BitVec.toNat_setWidth, BitVec.toNat_and, BitVec.toNat_ushiftRight,
      Nat.shiftRight_eq_div_pow, UInt8.toNat_ofNat']
    change (_ &&& (2 ^ 8 - 1)) % _ = _
    rw [Nat.and_two_pow_sub_one_eq_mod]
  have e2 : UInt8.ofBitVec ((v &&& 0xff#16).setWidth 8) = UInt8.ofNat (v.toNat % 256) := by
    apply UInt8.toNat_inj.mp
    rw [UInt8.toNat_ofBitVec, BitVec.toNat_setWidth, BitVec.toNat_and, UInt8.toNat_ofNat']
    change (_ &&& (2 ^ 8 - 1)) % _ = _
    rw [Nat.and_two_pow_sub_one_eq_mod]
  simp only [beFromValue16, e1, e2, Word.image, leBytes, List.reverse_cons, List.reverse_nil, List.nil_append,
    List.cons_append]

theorem leBytes_add (a b n : Nat) : leBytes (a + b) n = leBytes a n ++ leBytes b (n / 256 ^ a) := by
  induction a generalizing n with
  | zero => simp [leBytes]
  | succ a ih =>
    rw [Nat.add_right_comm, leBytes, leBytes, ih, List.cons_append, Nat.div_div_eq_div_mul, Nat.pow_succ,
      Nat.mul_comm 256]

theorem leBytes_mod (k n : Nat) : leBytes k (n % 256 ^ k) = leBytes k n := by
  have := leBytes_fromLE (leBytes k n)
  rw [fromLE_leBytes, leBytes_length] at this
  exact this

theorem beFromValue32_eq (v : Word 4) : beFromValue32 v = v.image.reverse := by
  have e1 : ((v >>> 16 &&& 0xffff#32).setWidth 16).toNat = v.toNat / 256 ^ 2 % 256 ^ 2 := by
    rw [BitVec.toNat_setWidth, BitVec.toNat_and, BitVec.toNat_ushiftRight, Nat.shiftRight_eq_div_pow]
    change (_ &&& (2 ^ 16 - 1)) % _ = _
    rw [Nat.and_two_pow_sub_one_eq_mod, Nat.mod_mod]
  have e2 : ((v &&& 0xffff#32).setWidth 16).toNat = v.toNat % 256 ^ 2 := by
    rw [BitVec.toNat_setWidth, BitVec.toNat_and]
    change (_ &&& (2 ^ 16 - 1)) % _ = _
    rw [Nat.and_two_pow_sub_one_eq_mod, Nat.mod_mod]
  rw [beFromValue32, beFromValue16_eq, beFromValue16_eq]
  unfold Word.image
  rw [e1, e2, leBytes_mod, leBytes_mod, ← List.reverse_append, ← leBytes_add]

theorem beFromValue64_eq (v : Word 8) : beFromValue64 v = v.image.reverse := by
  have e1 : ((v >>> 32 &&& 0xffffffff#64).setWidth 32).toNat = v.toNat / 256 ^ 4 % 256 ^ 4 := by
    rw [BitVec.toNat_setWidth, BitVec.toNat_and, BitVec.toNat_ushiftRight, Nat.shiftRight_eq_div_pow]
    change (_ &&& (2 ^ 32 - 1)) % _ = _
    rw [Nat.and_two_pow_sub_one_eq_mod, Nat.mod_mod]
  have e2 : ((v &&& 0xffffffff#64).setWidth 32).toNat = v.toNat % 256 ^ 4 := by
    rw [BitVec.toNat_setWidth, BitVec.toNat_and]
    change (_ &&& (2 ^ 32 - 1)) % _ = _
    rw [Nat.and_two_pow_sub_one_eq_mod, Nat.mod_mod]
  rw [beFromValue64, beFromValue32_eq, beFromValue32_eq]
  unfold Word.image
  rw [e1, e2, leBytes_mod, leBytes_mod, ← List.reverse_append, ← leBytes_add]

theorem two_cases (bs : Bytes) (h : bs.length = 2) : ∃ a b, bs = [a, b] := by
  match bs, h with
  | [a, b], _ => exact ⟨a, b, rfl⟩
theorem four_cases (bs : Bytes) (h : bs.length = 4) : ∃ a b c d, bs = [a, b, c, d] := by
  match bs, h with
  | [a, b, c, d], _ => exact ⟨a, b, c, d, rfl⟩
theorem eight_cases (bs : Bytes) (h : bs.length = 8) :
    ∃ a b c d e f g i, bs = [a, b, c, d, e, f, g, i] := by
  match bs, h with
  | [a, b, c, d, e, f, g, i], _ => exact ⟨a, b, c, d, e, f, g, i, rfl⟩

/-! ## swapping -/

/-- The widths for which `swap_byte_order` exists. -/
def SwapWidth (k : Nat) : Prop := k = 2 ∨ k = 4 ∨ k = 8

theorem swapWord_append (k : Nat) (hk : SwapWidth k) (a r : Bytes) (h : a.length = k) :
    swapWord k (a ++ r) = a.reverse ++ r := by
  rcases hk with rfl | rfl | rfl
  · obtain ⟨a, b, rfl⟩ := two_cases a h; rfl
  · obtain ⟨a, b, c, d, rfl⟩ := four_cases a h; rfl
  · obtain ⟨a, b, c, d, e, f, g, i, rfl⟩ := eight_cases a h; rfl

theorem swapByteOrder_flatMap (k : Nat) (hk : SwapWidth k) (ws : List Bytes) (h : ∀ w ∈ ws, w.length = k)
    (r : Bytes) :
    swapByteOrder k (ws.flatten ++ r) ws.length = (ws.map List.reverse).flatten ++ r := by
  induction ws with
  | nil => rfl
  | cons w ws ih =>
    have hw : w.length = k := h w (by simp)
    have ih := ih (fun w hw => h w (by simp [hw]))
    simp only [List.flatten_cons, List.append_assoc, List.length_cons, swapByteOrder, List.map_cons]
    rw [swapWord_append k hk w _ hw, List.take_left' (by simp [hw]), List.drop_left' (by simp [hw]), ih]

/-- Cut a byte list in words of `k` bytes. -/
theorem exists_words (k : Nat) (n : Nat) (bs : Bytes) (h : bs.length = n * k) :
    ∃ ws : List Bytes, ws.length = n ∧ (∀ w ∈ ws, w.length = k) ∧ bs = ws.flatten := by
  induction n generalizing bs with
  | zero => exact ⟨[], rfl, by simp, by simpa using h⟩
  | succ n ih =>
    have hk : k ≤ bs.length := by rw [h, Nat.succ_mul]; omega
    obtain ⟨ws, h1, h2, h3⟩ := ih (bs.drop k) (by rw [List.length_drop, h, Nat.succ_mul]; omega)
    refine ⟨bs.take k :: ws, by simp [h1], ?_, ?_⟩
    · intro w hw
      rcases List.mem_cons.mp hw with rfl | hw
      · simp; omega
      · exact h2 w hw
    · simp [← h3]

theorem swapByteOrder_length (k : Nat) (hk : SwapWidth k) (m : Bytes) (n : Nat) (h : n * k ≤ m.length) :
    (swapByteOrder k m n).length = m.length := by
  obtain ⟨ws, h1, h2, h3⟩ := exists_words k n (m.take (n * k)) (by simp; omega)
  have e : m = ws.flatten ++ m.drop (n * k) := by rw [← h3]; simp
  have hr : ((ws.map List.reverse).flatten).length = ws.flatten.length := by
    simp [List.length_flatten, List.map_map, Function.comp_def]
  rw [e, ← h1, swapByteOrder_flatMap k hk ws h2]
  simp only [List.length_append, hr]

theorem swapByteOrder_involutive (k : Nat) (hk : SwapWidth k) (m : Bytes) (n : Nat) (h : n * k ≤ m.length) :
    swapByteOrder k (swapByteOrder k m n) n = m := by
  obtain ⟨ws, h1, h2, h3⟩ := exists_words k n (m.take (n * k)) (by simp; omega)
  have e : m = ws.flatten ++ m.drop (n * k) := by rw [← h3]; simp
  rw [e, ← h1, swapByteOrder_flatMap k hk ws h2]
  have := swapByteOrder_flatMap k hk (ws.map List.reverse)
    (by intro w hw; obtain ⟨a, ha, rfl⟩ := List.mem_map.mp hw; simp [h2 a ha]) (m.drop (n * k))
  rw [List.length_map] at this
  rw [h1] at this ⊢
  rw [this]
  simp [List.map_map, Function.comp_def]

theorem takeVec_toList (n : Nat) (bs : Bytes) (h : n ≤ bs.length) : (takeVec n bs).toList = bs.take n := by
  apply List.ext_getElem
  · simp [h]
  · intro i h1 h2
    simp at h1 h2
    have h3 : i < bs.length := by omega
    simp [takeVec, h3]

theorem takeVec_append {n : Nat} (v : Vector Byte n) (r : Bytes) : takeVec n (v.toList ++ r) = v := by
  apply Vector.toList_inj.mp
  rw [takeVec_toList _ _ (by simp)]
  exact List.take_left' (by simp)

@[simp] theorem UUID.wire_length (u : UUID) : u.wire.length = 16 := by simp [UUID.wire]

theorem UUID.ofWire_wire (u : UUID) (r : Bytes) : UUID.ofWire (u.wire ++ r) = u := by
  cases u with
  | mk d1 d2 d3 d4 =>
    have e4 : (UUID.wire ⟨d1, d2, d3, d4⟩ ++ r).drop 4 = beFromValue16 d2 ++ (beFromValue16 d3 ++ (d4.toList ++ r)) := by
      simp [UUID.wire, List.append_assoc]; exact List.drop_left' rfl
    have e6 : (UUID.wire ⟨d1, d2, d3, d4⟩ ++ r).drop 6 = beFromValue16 d3 ++ (d4.toList ++ r) := by
      rw [show (6 : Nat) = 4 + 2 from rfl, ← List.drop_drop, e4]; exact List.drop_left' rfl
    have e8 : (UUID.wire ⟨d1, d2, d3, d4⟩ ++ r).drop 8 = d4.toList ++ r := by
      have := congrArg (List.drop 2) e6
      rw [List.drop_drop] at this; rw [this]; exact List.drop_left' rfl
    have e0 : UUID.wire ⟨d1, d2, d3, d4⟩ ++ r = beFromValue32 d1 ++ (beFromValue16 d2 ++ (beFromValue16 d3 ++ (d4.toList ++ r))) := by
      simp [UUID.wire, List.append_assoc]
    simp only [UUID.ofWire, e4, e6, e8, valueFromBE16_be, takeVec_append]
    rw [e0, valueFromBE32_be]

end ISD
