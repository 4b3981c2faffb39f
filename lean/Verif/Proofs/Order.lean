import Verif.Model.Order
import Verif.Proofs.Basic

/-! # Proofs about the order of identifiers -/

namespace ISD

theorem memcmp_self (a : Bytes) : memcmp a a = 0 := by
  induction a with
  | nil => rfl
  | cons x a ih => rw [memcmp, if_neg (by omega), if_neg (by omega), ih]

theorem memcmp_trans : ∀ (a b c : Bytes), a.length = b.length → b.length = c.length → memcmp a b < 0 → memcmp b c < 0 → memcmp a c < 0
  | x :: a, y :: b, z :: c, h1, h2, h3, h4 => by
    have ih := memcmp_trans a b c (by simpa using h1) (by simpa using h2)
    rw [memcmp] at h3 h4 ⊢
    by_cases hxz : x.toNat < z.toNat
    · rw [if_pos hxz]; omega
    · rw [if_neg hxz]
      have h5 : ¬ y.toNat < x.toNat := by
        intro hc; rw [if_neg (by omega), if_pos hc] at h3; omega
      have h6 : ¬ z.toNat < y.toNat := by
        intro hc; rw [if_neg (by omega), if_pos hc] at h4; omega
      rw [if_neg (by omega), if_neg h5] at h3
      rw [if_neg (by omega), if_neg h6] at h4
      rw [if_neg (by omega)]
      exact ih h3 h4
  | [], [], _, _, _, h3, _ => by simp [memcmp] at h3
  | _ :: _, _ :: _, [], _, h2, _, _ => by simp at h2
  | [], _ :: _, _, h1, _, _, _ => by simp at h1
  | _ :: _, [], _, h1, _, _, _ => by simp at h1

theorem memcmp_tri : ∀ (a b : Bytes), a.length = b.length → memcmp a b < 0 ∨ a = b ∨ memcmp b a < 0
  | [], [], _ => by simp
  | x :: a, y :: b, h => by
    rw [memcmp, memcmp]
    by_cases h1 : x.toNat < y.toNat
    · left; rw [if_pos h1]; omega
    · by_cases h2 : y.toNat < x.toNat
      · right; right; rw [if_pos h2]; omega
      · have hxy : x = y := UInt8.toNat_inj.mp (by omega)
        rw [if_neg h1, if_neg h2, if_neg h2, if_neg h1]
        rcases memcmp_tri a b (by simpa using h) with h3 | h3 | h3
        · exact Or.inl h3
        · exact Or.inr (Or.inl (by rw [hxy, h3]))
        · exact Or.inr (Or.inr h3)
  | [], _ :: _, h => by simp at h
  | _ :: _, [], h => by simp at h

/-- Nothing is below the all-zero object. -/
theorem memcmp_zero : ∀ (a : Bytes) (n : Nat), ¬ memcmp a (List.replicate n 0) < 0
  | [], _ => by simp [memcmp]
  | x :: a, 0 => by simp [memcmp]
  | x :: a, n + 1 => by
    rw [List.replicate_succ, memcmp]
    have := memcmp_zero a n
    rw [if_neg (by simp)]
    split <;> omega

/-- Nothing is above the all-ones object. -/
theorem memcmp_ones : ∀ (a : Bytes) (n : Nat), ¬ memcmp (List.replicate n 0xff) a < 0
  | [], n => by cases n <;> simp [memcmp, List.replicate_succ]
  | x :: a, 0 => by simp [memcmp]
  | x :: a, n + 1 => by
    rw [List.replicate_succ, memcmp]
    have := memcmp_ones a n
    have hx : x.toNat < 256 := x.toNat_lt
    have h255 : (0xff : UInt8).toNat = 255 := rfl
    rw [if_neg (by omega)]
    split <;> omega

@[simp] theorem UUID.image_length (u : UUID) : u.image.length = 16 := by simp [UUID.image]

theorem UUID.image_inj {a b : UUID} (h : a.image = b.image) : a = b := by
  unfold UUID.image at h
  obtain ⟨h, h4⟩ := List.append_inj h (by simp)
  obtain ⟨h, h3⟩ := List.append_inj h (by simp)
  obtain ⟨h1, h2⟩ := List.append_inj h (by simp)
  cases a; cases b
  simp only [UUID.mk.injEq]
  exact ⟨Word.image_inj h1, Word.image_inj h2, Word.image_inj h3, Vector.toList_inj.mp h4⟩

theorem Hash.image_inj {a b : Hash} (h : a.digest.toList = b.digest.toList) : a = b := by
  cases a; cases b
  simp only [Hash.mk.injEq]
  exact Vector.toList_inj.mp h

theorem fromLE_inj {a b : Bytes} (hl : a.length = b.length) (h : fromLE a = fromLE b) : a = b := by
  have h1 := leBytes_fromLE a
  rw [← h1, hl, h, leBytes_fromLE]

/-- Objects are equal if all their words are. -/
theorem words_ext (k : Nat) : ∀ (n : Nat) (a b : Bytes), a.length = n * k → b.length = n * k →
    (∀ i < n, wordAt k a i = wordAt k b i) → a = b
  | 0, a, b, ha, hb, _ => by
    rw [List.eq_nil_of_length_eq_zero (show a.length = 0 by omega), List.eq_nil_of_length_eq_zero (show b.length = 0 by omega)]
  | n + 1, a, b, ha, hb, h => by
    rw [Nat.add_mul, Nat.one_mul] at ha hb
    have h0 := h 0 (by omega)
    have h1 : a.take k = b.take k := by
      refine fromLE_inj (by rw [List.length_take, List.length_take]; omega) ?_
      simpa [wordAt] using h0
    have h2 : a.drop k = b.drop k := by
      refine words_ext k n _ _ (by rw [List.length_drop]; omega) (by rw [List.length_drop]; omega) fun i hi => ?_
      have := h (i + 1) (by omega)
      simpa [wordAt, List.drop_drop, Nat.add_mul, Nat.add_comm] using this
    rw [← List.take_append_drop k a, h1, h2, List.take_append_drop]

theorem UUID.equal_iff (a b : UUID) : UUID.equal a b = true ↔ a = b := by
  constructor
  · intro h
    simp only [UUID.equal, Bool.and_eq_true, decide_eq_true_eq] at h
    obtain ⟨⟨⟨h0, h1⟩, h2⟩, h3⟩ := h
    refine UUID.image_inj (words_ext 4 4 _ _ (by simp) (by simp) fun i hi => ?_)
    match i, hi with
    | 0, _ => exact h0
    | 1, _ => exact h1
    | 2, _ => exact h2
    | 3, _ => exact h3
  · rintro rfl; simp [UUID.equal]

theorem Hash.equal_iff (a b : Hash) : Hash.equal a b = true ↔ a = b := by
  constructor
  · intro h
    simp only [Hash.equal, Bool.and_eq_true, decide_eq_true_eq] at h
    obtain ⟨⟨⟨h0, h1⟩, h2⟩, h3⟩ := h
    refine Hash.image_inj (words_ext 8 4 _ _ (by simp) (by simp) fun i hi => ?_)
    match i, hi with
    | 0, _ => exact h0
    | 1, _ => exact h1
    | 2, _ => exact h2
    | 3, _ => exact h3
  · rintro rfl; simp [Hash.equal]

theorem Hash.notEqual_eq (a b : Hash) : Hash.notEqual a b = !Hash.equal a b := by
  simp [Hash.notEqual, Hash.equal, Bool.not_and]

theorem UUID.image_sup : UUID.sup.image = List.replicate 16 0xff := by decide
theorem UUID.image_zero : UUID.zero.image = List.replicate 16 0 := by decide

theorem Hash.image_sup : Hash.sup.digest.toList = List.replicate 32 0xff := by decide
theorem Hash.image_zero : Hash.zero.digest.toList = List.replicate 32 0 := by decide

/-- A `uuid` as a node type. -/
instance : NodeType UUID where
  lt := UUID.less
  irrefl a := by simp [UUID.less, memcmp_self]
  trans a b c h1 h2 := by
    simp only [UUID.less, decide_eq_true_eq] at h1 h2 ⊢
    exact memcmp_trans _ _ _ (by simp) (by simp) h1 h2
  tri a b := by
    simp only [UUID.less, decide_eq_true_eq]
    rcases memcmp_tri a.image b.image (by simp) with h | h | h
    · exact Or.inl h
    · exact Or.inr (Or.inl (UUID.image_inj h))
    · exact Or.inr (Or.inr h)
  inf := UUID.zero
  sup := UUID.sup
  inf_le a := by
    simp only [UUID.less, decide_eq_false_iff_not, UUID.image_zero]
    exact memcmp_zero _ _
  le_sup a := by
    simp only [UUID.less, decide_eq_false_iff_not, UUID.image_sup]
    exact memcmp_ones _ _

/-- A `hash` as a node type. -/
instance : NodeType Hash where
  lt := Hash.less
  irrefl a := by simp [Hash.less, memcmp_self]
  trans a b c h1 h2 := by
    simp only [Hash.less, decide_eq_true_eq] at h1 h2 ⊢
    exact memcmp_trans _ _ _ (by simp) (by simp) h1 h2
  tri a b := by
    simp only [Hash.less, decide_eq_true_eq]
    rcases memcmp_tri a.digest.toList b.digest.toList (by simp) with h | h | h
    · exact Or.inl h
    · exact Or.inr (Or.inl (Hash.image_inj h))
    · exact Or.inr (Or.inr h)
  inf := Hash.zero
  sup := Hash.sup
  inf_le a := by
    simp only [Hash.less, decide_eq_false_iff_not, Hash.image_zero]
    exact memcmp_zero _ _
  le_sup a := by
    simp only [Hash.less, decide_eq_false_iff_not, Hash.image_sup]
    exact memcmp_ones _ _

/-- An `entity_ref` as a node type. -/
instance : NodeType EntityRef where
  lt := EntityRef.less
  irrefl a := SOrd.irrefl a.id
  trans a b c := SOrd.trans a.id b.id c.id
  tri a b := by
    rcases SOrd.tri a.id b.id with h | h | h
    · exact Or.inl h
    · exact Or.inr (Or.inl (by cases a; cases b; exact congrArg _ h))
    · exact Or.inr (Or.inr h)
  inf := ⟨UUID.zero⟩
  sup := ⟨UUID.sup⟩
  inf_le a := NodeType.inf_le a.id
  le_sup a := NodeType.le_sup a.id

/-- A `package_ref` as a node type. -/
instance : NodeType PackageRef where
  lt := PackageRef.less
  irrefl a := SOrd.irrefl a.h
  trans a b c := SOrd.trans a.h b.h c.h
  tri a b := by
    rcases SOrd.tri a.h b.h with h | h | h
    · exact Or.inl h
    · exact Or.inr (Or.inl (by cases a; cases b; exact congrArg _ h))
    · exact Or.inr (Or.inr h)
  inf := ⟨Hash.zero⟩
  sup := ⟨Hash.sup⟩
  inf_le a := NodeType.inf_le a.h
  le_sup a := NodeType.le_sup a.h

/-- An unsigned integer as a node type. -/
instance (k : Nat) : NodeType (Unsigned k) where
  lt := Unsigned.less
  irrefl a := by simp [Unsigned.less, BitVec.ult]
  trans a b c h1 h2 := by
    simp only [Unsigned.less, BitVec.ult, decide_eq_true_eq] at h1 h2 ⊢; omega
  tri a b := by
    cases a; cases b
    simp only [Unsigned.less, BitVec.ult, decide_eq_true_eq, Unsigned.mk.injEq, BitVec.toNat_eq]; omega
  inf := ⟨0⟩
  sup := ⟨BitVec.allOnes _⟩
  inf_le a := by simp [Unsigned.less, BitVec.ult]
  le_sup a := by
    have := a.w.isLt
    simp only [Unsigned.less, BitVec.ult, decide_eq_false_iff_not, BitVec.toNat_allOnes]; omega

/-- A signed integer (of at least one byte) as a node type. -/
instance (k : Nat) : NodeType (Signed (k + 1)) where
  lt := Signed.less
  irrefl a := by simp [Signed.less, BitVec.slt]
  trans a b c h1 h2 := by
    simp only [Signed.less, BitVec.slt, decide_eq_true_eq] at h1 h2 ⊢; omega
  tri a b := by
    cases a; cases b
    simp only [Signed.less, BitVec.slt, decide_eq_true_eq, Signed.mk.injEq, ← BitVec.toInt_inj]; omega
  inf := ⟨BitVec.intMin _⟩
  sup := ⟨BitVec.intMax _⟩
  inf_le a := by
    have h1 := @BitVec.le_toInt (8 * (k + 1)) a.w
    simp only [Signed.less, BitVec.slt, decide_eq_false_iff_not]
    rw [BitVec.toInt_intMin_of_pos (by omega)]
    omega
  le_sup a := by
    have h1 := @BitVec.toInt_lt (8 * (k + 1)) a.w
    simp only [Signed.less, BitVec.slt, decide_eq_false_iff_not]
    rw [BitVec.toInt_intMax]
    omega

end ISD
