import Verif.Proofs.WriteBlocks
import Verif.Model.Reader

/-! # Packed bool arrays -/

namespace ISD

open WStream

/-- The value of eight bits. -/
def bits8 (f : Nat → Bool) : Nat := ((List.range 8).map fun i => if f i then 2 ^ i else 0).sum

theorem bits8_eq (f : Nat → Bool) : bits8 f =
    (if f 0 then 1 else 0) + ((if f 1 then 2 else 0) + ((if f 2 then 4 else 0) + ((if f 3 then 8 else 0) +
    ((if f 4 then 16 else 0) + ((if f 5 then 32 else 0) + ((if f 6 then 64 else 0) + ((if f 7 then 128 else 0) + 0))))))) := rfl

theorem packedByte_eq (l : List Bool) (j : Nat) : Spec.packedByte l j = UInt8.ofNat (bits8 fun i => l.getD (8 * j + i) false) := rfl

theorem bits_test_all : ∀ b0 b1 b2 b3 b4 b5 b6 b7 : Bool, ∀ k : Fin 8,
    ((UInt8.ofNat ((if b0 then 1 else 0) + ((if b1 then 2 else 0) + ((if b2 then 4 else 0) + ((if b3 then 8 else 0) +
      ((if b4 then 16 else 0) + ((if b5 then 32 else 0) + ((if b6 then 64 else 0) + ((if b7 then 128 else 0) + 0)))))))) &&&
      (1 : UInt8) <<< UInt8.ofNat k.val) != 0) = [b0, b1, b2, b3, b4, b5, b6, b7].getD k.val false := by
  decide +kernel

theorem bits_set_all : ∀ b0 b1 b2 b3 b4 b5 b6 b7 : Bool, ∀ k : Fin 8,
    UInt8.ofNat ((if b0 then 1 else 0) + ((if b1 then 2 else 0) + ((if b2 then 4 else 0) + ((if b3 then 8 else 0) +
      ((if b4 then 16 else 0) + ((if b5 then 32 else 0) + ((if b6 then 64 else 0) + ((if b7 then 128 else 0) + 0)))))))) |||
      (1 : UInt8) <<< UInt8.ofNat k.val =
    UInt8.ofNat ((if b0 || k.val == 0 then 1 else 0) + ((if b1 || k.val == 1 then 2 else 0) + ((if b2 || k.val == 2 then 4 else 0) +
      ((if b3 || k.val == 3 then 8 else 0) + ((if b4 || k.val == 4 then 16 else 0) + ((if b5 || k.val == 5 then 32 else 0) +
      ((if b6 || k.val == 6 then 64 else 0) + ((if b7 || k.val == 7 then 128 else 0) + 0)))))))) := by
  decide +kernel

theorem bits_test (f : Nat → Bool) (k : Nat) (hk : k < 8) :
    ((UInt8.ofNat (bits8 f) &&& (1 : UInt8) <<< UInt8.ofNat k) != 0) = f k := by
  have := bits_test_all (f 0) (f 1) (f 2) (f 3) (f 4) (f 5) (f 6) (f 7) ⟨k, hk⟩
  rw [bits8_eq, this]
  match k, hk with
  | 0, _ => rfl
  | 1, _ => rfl
  | 2, _ => rfl
  | 3, _ => rfl
  | 4, _ => rfl
  | 5, _ => rfl
  | 6, _ => rfl
  | 7, _ => rfl

theorem bits_set (f : Nat → Bool) (k : Nat) (hk : k < 8) :
    UInt8.ofNat (bits8 f) ||| (1 : UInt8) <<< UInt8.ofNat k = UInt8.ofNat (bits8 fun i => f i || k == i) := by
  have := bits_set_all (f 0) (f 1) (f 2) (f 3) (f 4) (f 5) (f 6) (f 7) ⟨k, hk⟩
  rw [bits8_eq, bits8_eq, this]

theorem shift3 (i : Nat) : i >>> 3 = i / 8 := by rw [Nat.shiftRight_eq_div_pow]
theorem and7 (i : Nat) : i &&& 7 = i % 8 := Nat.and_two_pow_sub_one_eq_mod i 3

theorem getD_snoc (l : List Bool) (b : Bool) (m : Nat) :
    (l ++ [b]).getD m false = if m = l.length then b else l.getD m false := by
  simp only [List.getD_eq_getElem?_getD]
  by_cases h : m < l.length
  · rw [List.getElem?_append_left h, if_neg (by omega)]
  · by_cases h2 : m = l.length
    · subst h2; simp
    · rw [if_neg h2, List.getElem?_eq_none (by simp; omega), List.getElem?_eq_none (by omega)]

theorem packedByte_snoc_false (l : List Bool) (j : Nat) : Spec.packedByte (l ++ [false]) j = Spec.packedByte l j := by
  rw [packedByte_eq, packedByte_eq]
  congr 2
  funext i
  rw [getD_snoc]
  split
  · rename_i h
    rw [List.getD_eq_getElem?_getD, List.getElem?_eq_none (by omega)]; rfl
  · rfl

theorem packedByte_snoc_true (l : List Bool) (j : Nat) :
    Spec.packedByte (l ++ [true]) j =
      if j = l.length / 8 then Spec.packedByte l j ||| (1 : UInt8) <<< UInt8.ofNat (l.length % 8) else Spec.packedByte l j := by
  split
  · rename_i h
    rw [packedByte_eq, packedByte_eq, bits_set _ _ (Nat.mod_lt _ (by decide))]
    congr 2
    funext i
    rw [getD_snoc]
    by_cases hi : 8 * j + i = l.length
    · rw [if_pos hi]
      by_cases h8 : i < 8
      · have : (l.length % 8 == i) = true := by rw [beq_iff_eq]; omega
        rw [this]; simp
      · omega
    · rw [if_neg hi]
      have : (l.length % 8 == i) = false := by rw [beq_eq_false_iff_ne]; omega
      rw [this]; simp
  · rename_i h
    have e : ∀ i < 8, (l ++ [true]).getD (8 * j + i) false = l.getD (8 * j + i) false := by
      intro i hi
      rw [getD_snoc, if_neg (by omega)]
    rw [packedByte_eq, packedByte_eq, bits8_eq, bits8_eq]
    simp only [e 0 (by decide), e 1 (by decide), e 2 (by decide), e 3 (by decide), e 4 (by decide), e 5 (by decide),
      e 6 (by decide), e 7 (by decide)]

theorem modify_map_range (m k : Nat) (_ : k < m) (g h : Nat → Byte) (f : Byte → Byte) (e1 : h k = f (g k)) (e2 : ∀ j, j ≠ k → h j = g j) :
    ((List.range m).map g).modify k f = (List.range m).map h := by
  apply List.ext_getElem
  · simp
  · intro i h1 h2
    simp only [List.length_modify, List.length_map, List.length_range] at h1
    rw [List.getElem_modify]
    simp only [List.getElem_map, List.getElem_range]
    split
    · rename_i h; subst h; exact e1.symm
    · rename_i h; exact (e2 i (fun h' => h h'.symm)).symm

theorem packLoop_ok (s : WStream) (m : Nat) (rest done : List Bool) (hm : done.length + rest.length ≤ 8 * m) :
    packLoop done.length rest ((List.range m).map (Spec.packedByte done)) s =
      .ok ((List.range m).map (Spec.packedByte (done ++ rest))) s := by
  induction rest generalizing done with
  | nil => rw [List.append_nil]; rfl
  | cons b rest ih =>
    simp only [List.length_cons] at hm
    have e := ih (done ++ [b]) (by simp; omega)
    rw [List.length_append, List.length_singleton, List.append_assoc, List.singleton_append] at e
    rw [packLoop]
    cases b with
    | false =>
      have h : Spec.packedByte (done ++ [false]) = Spec.packedByte done := funext (packedByte_snoc_false done)
      rw [h] at e
      exact e
    | true =>
      have hlt : done.length / 8 < m := by omega
      rw [shift3, and7]
      rw [if_pos rfl, if_neg (by simp; omega)]
      rw [modify_map_range m (done.length / 8) hlt _ (Spec.packedByte (done ++ [true]))]
      · exact e
      · rw [packedByte_snoc_true, if_pos rfl]
      · intro j hj
        rw [packedByte_snoc_true, if_neg hj]

theorem packedByte_nil (j : Nat) : Spec.packedByte [] j = 0 := by
  rw [packedByte_eq]; rfl

theorem packLoop_all (s : WStream) (l : List Bool) :
    packLoop 0 l (List.replicate ((l.length + 7) / 8) 0) s = .ok (Spec.packBools l) s := by
  have := packLoop_ok s ((l.length + 7) / 8) l [] (by simp; omega)
  have e : (List.range ((l.length + 7) / 8)).map (Spec.packedByte []) = List.replicate ((l.length + 7) / 8) 0 := by
    rw [List.eq_replicate_iff]
    refine ⟨by simp, ?_⟩
    intro b hb
    obtain ⟨j, _, rfl⟩ := List.mem_map.mp hb
    exact packedByte_nil j
  rw [e] at this
  exact this

@[simp] theorem packBools_length (l : List Bool) : (Spec.packBools l).length = (l.length + 7) / 8 := by simp [Spec.packBools]

theorem packBools_test (l : List Bool) (i : Nat) (h : i < l.length) :
    ((Spec.packBools l).getD (i / 8) 0 &&& (1 : UInt8) <<< UInt8.ofNat (i % 8) != 0) = l.getD i false := by
  have hlt : i / 8 < (Spec.packBools l).length := by rw [packBools_length]; omega
  rw [List.getD_eq_getElem?_getD, List.getElem?_eq_getElem hlt]
  simp only [Spec.packBools, List.getElem_map, List.getElem_range, Option.getD_some]
  rw [packedByte_eq, bits_test _ _ (Nat.mod_lt _ (by decide)), Nat.div_add_mod]

theorem unpackLoop_ok (s : RStream) (l : List Bool) (i count : Nat) (h : i + count = l.length) :
    unpackLoop (Spec.packBools l) i count s = .ok (l.drop i) s := by
  induction count generalizing i with
  | zero => rw [unpackLoop, List.drop_eq_nil_of_le (by omega)]; rfl
  | succ count ih =>
    have hi : i < l.length := by omega
    rw [unpackLoop, shift3, and7, if_neg (by rw [packBools_length]; omega), packBools_test l i hi]
    rw [Prog.bind_ok (ih (i + 1) (by omega)), List.drop_eq_getElem_cons hi, List.getD_eq_getElem?_getD,
      List.getElem?_eq_getElem hi]
    rfl

end ISD
