import Verif.Proofs.Order
import Verif.Proofs.OrdSet

/-! # Order of identifiers (C49) -/

namespace ISD

namespace Spec

/-- The first differing byte of two objects is smaller in the first. -/
def FirstDifferenceSmaller (a b : Bytes) : Prop :=
  ∃ (p : Bytes) (x y : Byte) (a' b' : Bytes), a = p ++ x :: a' ∧ b = p ++ y :: b' ∧ x.toNat < y.toNat

/-- What `std::set`, `std::map` and `std::unordered_map` need of a key type with `<`, `==` and `std::hash`: `==` is identity, exactly one
of `a < b`, `a == b`, `b < a` holds, `<` is transitive, lies between `inf` and `sup`, and equal keys have equal hash codes. -/
structure GoodKey {α : Type} (less equal : α → α → Bool) (hashCode : α → Nat) (inf sup : α) : Prop where
  equal_iff : ∀ a b, equal a b = true ↔ a = b
  irrefl : ∀ a, less a a = false
  asymm : ∀ a b, less a b = true → less b a = false
  trans : ∀ a b c, less a b = true → less b c = true → less a c = true
  total : ∀ a b, less a b = true ∨ equal a b = true ∨ less b a = true
  inf_least : ∀ a, equal inf a = true ∨ less inf a = true
  sup_greatest : ∀ a, equal a sup = true ∨ less a sup = true
  hash_congr : ∀ a b, equal a b = true → hashCode a = hashCode b
  hash_size : ∀ a, hashCode a < 2 ^ 64

end Spec

open Spec

theorem memcmp_iff : ∀ (a b : Bytes), a.length = b.length → (memcmp a b < 0 ↔ FirstDifferenceSmaller a b)
  | [], [], _ => by
    simp only [memcmp, FirstDifferenceSmaller]
    constructor
    · intro h; omega
    · rintro ⟨p, x, y, a', b', h, -⟩; simp at h
  | [], _ :: _, h => by simp at h
  | _ :: _, [], h => by simp at h
  | x :: a, y :: b, h => by
    have ih := memcmp_iff a b (by simpa using h)
    rw [memcmp]
    by_cases h1 : x.toNat < y.toNat
    · rw [if_pos h1]
      exact ⟨fun _ => ⟨[], x, y, a, b, rfl, rfl, h1⟩, fun _ => by omega⟩
    · rw [if_neg h1]
      by_cases h2 : y.toNat < x.toNat
      · rw [if_pos h2]
        constructor
        · intro h; omega
        · rintro ⟨p, x', y', a', b', e1, e2, h3⟩
          cases p with
          | nil => simp only [List.nil_append, List.cons.injEq] at e1 e2; rw [e1.1, e2.1] at h2; omega
          | cons z p => simp only [List.cons_append, List.cons.injEq] at e1 e2; rw [e1.1, e2.1] at h2; omega
      · rw [if_neg h2, ih]
        have hxy : x = y := UInt8.toNat_inj.mp (by omega)
        constructor
        · rintro ⟨p, x', y', a', b', e1, e2, h3⟩
          exact ⟨x :: p, x', y', a', b', by rw [e1]; rfl, by rw [e2, hxy]; rfl, h3⟩
        · rintro ⟨p, x', y', a', b', e1, e2, h3⟩
          cases p with
          | nil => simp only [List.nil_append, List.cons.injEq] at e1 e2; rw [← e1.1, ← e2.1] at h3; omega
          | cons z p =>
            simp only [List.cons_append, List.cons.injEq] at e1 e2
            exact ⟨p, x', y', a', b', e1.2, e2.2, h3⟩

theorem wordAt_lt (k : Nat) (m : Bytes) (i : Nat) : wordAt k m i < 256 ^ k := by
  have h := fromLE_lt ((m.drop (i * k)).take k)
  refine Nat.lt_of_lt_of_le h (Nat.pow_le_pow_right (by omega) ?_)
  rw [List.length_take]; omega

theorem GoodKey.ofNode {α : Type} [NodeType α] (equal : α → α → Bool) (hashCode : α → Nat)
    (he : ∀ a b, equal a b = true ↔ a = b) (hh : ∀ a, hashCode a < 2 ^ 64) :
    GoodKey SOrd.lt equal hashCode (NodeType.inf : α) NodeType.sup where
  equal_iff := he
  irrefl := SOrd.irrefl
  asymm a b h := OrdSet.asymm h
  trans := SOrd.trans
  total a b := by rw [he]; exact SOrd.tri a b
  inf_least a := by
    rcases SOrd.tri (NodeType.inf : α) a with h | h | h
    · exact Or.inr h
    · exact Or.inl ((he _ _).mpr h)
    · rw [NodeType.inf_le] at h; cases h
  sup_greatest a := by
    rcases SOrd.tri a (NodeType.sup : α) with h | h | h
    · exact Or.inr h
    · exact Or.inl ((he _ _).mpr h)
    · rw [NodeType.le_sup] at h; cases h
  hash_congr a b h := by rw [(he a b).mp h]
  hash_size := hh

theorem UUID.hash_size (a : UUID) : a.hashCode < 2 ^ 64 :=
  Nat.xor_lt_two_pow (wordAt_lt 8 _ _) (wordAt_lt 8 _ _)

theorem Hash.hash_size (a : Hash) : a.hashCode < 2 ^ 64 :=
  Nat.xor_lt_two_pow (Nat.xor_lt_two_pow (Nat.xor_lt_two_pow (wordAt_lt 8 _ _) (wordAt_lt 8 _ _)) (wordAt_lt 8 _ _)) (wordAt_lt 8 _ _)

/-- **C49** for `uuid`: `<` compares the memory of the two objects byte by byte, and is a good key order. -/
theorem C49_uuid : (∀ a b : UUID, UUID.less a b = true ↔ FirstDifferenceSmaller a.image b.image) ∧
    GoodKey UUID.less UUID.equal UUID.hashCode UUID.zero UUID.sup :=
  ⟨fun a b => by rw [UUID.less, decide_eq_true_iff]; exact memcmp_iff _ _ (by simp),
    GoodKey.ofNode (α := UUID) UUID.equal UUID.hashCode UUID.equal_iff UUID.hash_size⟩

/-- **C49** for `hash`; `!=` is the negation of `==`. -/
theorem C49_hash : (∀ a b : Hash, Hash.less a b = true ↔ FirstDifferenceSmaller a.digest.toList b.digest.toList) ∧
    (∀ a b : Hash, Hash.notEqual a b = true ↔ a ≠ b) ∧ GoodKey Hash.less Hash.equal Hash.hashCode Hash.zero Hash.sup :=
  ⟨fun a b => by rw [Hash.less, decide_eq_true_iff]; exact memcmp_iff _ _ (by simp),
    fun a b => by rw [Hash.notEqual_eq, Bool.not_eq_true', ← Bool.not_eq_true, Hash.equal_iff],
    GoodKey.ofNode (α := Hash) Hash.equal Hash.hashCode Hash.equal_iff Hash.hash_size⟩

/-- **C49** for `entity_ref`: the order is that of the uuid, a reference is true as a boolean exactly if it is not null. -/
theorem C49_entity_ref : (∀ a b : EntityRef, EntityRef.less a b = true ↔ FirstDifferenceSmaller a.id.image b.id.image) ∧
    (∀ a : EntityRef, a.toBool = true ↔ a ≠ EntityRef.null) ∧
    GoodKey EntityRef.less EntityRef.equal EntityRef.hashCode EntityRef.null ⟨UUID.sup⟩ :=
  ⟨fun a b => C49_uuid.1 a.id b.id,
    fun a => by
      rw [EntityRef.toBool, Bool.not_eq_true', ← Bool.not_eq_true, UUID.equal_iff, EntityRef.null]
      cases a; simp,
    GoodKey.ofNode (α := EntityRef) EntityRef.equal _
      (fun a b => by rw [EntityRef.equal, UUID.equal_iff]; cases a; cases b; simp) (fun a => UUID.hash_size a.id)⟩

/-- **C49** for `package_ref`. -/
theorem C49_package_ref : (∀ a b : PackageRef, PackageRef.less a b = true ↔ FirstDifferenceSmaller a.h.digest.toList b.h.digest.toList) ∧
    (∀ a : PackageRef, a.toBool = true ↔ a ≠ PackageRef.null) ∧
    GoodKey PackageRef.less PackageRef.equal PackageRef.hashCode PackageRef.null ⟨Hash.sup⟩ :=
  ⟨fun a b => C49_hash.1 a.h b.h,
    fun a => by
      rw [PackageRef.toBool, C49_hash.2.1, PackageRef.null]
      cases a; simp,
    GoodKey.ofNode (α := PackageRef) PackageRef.equal _
      (fun a b => by rw [PackageRef.equal, Hash.equal_iff]; cases a; cases b; simp) (fun a => Hash.hash_size a.h)⟩

/-- Moving an `entity_ref` onto itself loses it. -/
theorem C49_self_move_loses (a : EntityRef) : (EntityRef.moveAssign true a).1 = EntityRef.null := rfl

/-- The order is not that of the printed text: a uuid with first field 1 is above one with first field 256. -/
example : UUID.less ⟨256#32, 0, 0, Vector.replicate 8 0⟩ ⟨1#32, 0, 0, Vector.replicate 8 0⟩ = true := by decide
example : UUID.less UUID.zero UUID.sup = true := by decide

end ISD
