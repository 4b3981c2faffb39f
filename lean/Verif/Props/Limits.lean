import Verif.Model.Limits
import Verif.Spec.Limits
import Verif.Spec.TypeTable
import Verif.Model.Managed
import Verif.Proofs.Basic

/-!
# C93: the limits of every type
-/

namespace ISD
namespace LimitsProof
open Limits Spec
set_option maxRecDepth 20000
set_option linter.unusedSimpArgs false

/-- The bound of each kind of part. -/
def boundPart (lo : Bool) (o : PartOrder) (sc : Option Sc) : Part :=
  match sc with
  | none => .word 8 (if lo then 0 else 1)
  | some .uuid => .bytes (List.replicate 16 (if lo then 0 else 255))
  | some .hash => .bytes (List.replicate 32 (if lo then 0 else 255))
  | some sc =>
    let w := 8 * sc.size
    match o with
    | .signed => .word w (if lo then 2 ^ (w - 1) else 2 ^ (w - 1) - 1)
    | .ieee => .word w ((if lo then 2 ^ (w - 1) else 0) + infinite w - 1)
    | _ => .word w (if lo then 0 else 2 ^ w - 1)

/-- The scalar of a kind. -/
def scOf : Kind → Option Sc
  | .bool => none
  | .items sc _ _ => some sc
  | .string => none

/-- The order suits the kind. -/
def suits (o : PartOrder) : Kind → Bool
  | .bool => o == .unsigned
  | .string => o == .bytes
  | .items .uuid _ _ => o == .bytes
  | .items .hash _ _ => o == .bytes
  | .items .w4 _ _ => o != .bytes
  | .items .w8 _ _ => o != .bytes
  | .items _ _ _ => o != .bytes && o != .ieee

/-- How many parts a kind has. -/
def countOf : Kind → Nat
  | .bool => 1
  | .items _ n _ => n
  | .string => 1

theorem bounds_all : ∀ t ∈ allTypes, t.kind ≠ .string →
    (value t .inf).map (parts t.kind) = some (List.replicate (partCount t.name) (boundPart true (partOrder t.name) (scOf t.kind))) ∧
    (value t .sup).map (parts t.kind) = some (List.replicate (partCount t.name) (boundPart false (partOrder t.name) (scOf t.kind))) := by
  decide +kernel

theorem suits_all : ∀ t ∈ allTypes, suits (partOrder t.name) t.kind = true ∧ countOf t.kind = partCount t.name ∧
    (t.kind = .string → t.name = "string") := by
  decide +kernel

theorem count_parts (k : Kind) (v : k.Val) : (parts k v).length = countOf k := by
  cases k with
  | bool => rfl
  | items sc n fl => simp [parts, countOf]
  | string => rfl

theorem not_lt_zeros : ∀ (l : List Nat), ¬ l < List.replicate l.length 0
  | [], h => by cases h
  | a :: l, h => by
    rw [List.length_cons, List.replicate_succ, List.cons_lt_cons_iff] at h
    rcases h with h | ⟨-, h⟩
    · omega
    · exact not_lt_zeros l h

theorem not_ones_lt : ∀ (l : List Nat), (∀ b ∈ l, b ≤ 255) → ¬ List.replicate l.length 255 < l
  | [], _, h => by cases h
  | a :: l, hb, h => by
    rw [List.length_cons, List.replicate_succ, List.cons_lt_cons_iff] at h
    rcases h with h | ⟨-, h⟩
    · have := hb a (by simp)
      omega
    · exact not_ones_lt l (fun b hm => hb b (by simp [hm])) h

theorem image_length (u : UUID) : u.image.length = 16 := by
  simp [UUID.image]

theorem bytes_le (l : Bytes) : ∀ b ∈ l.map (fun b => b.toNat), b ≤ 255 := by
  intro b hb
  obtain ⟨x, -, rfl⟩ := List.mem_map.1 hb
  have := x.toNat_lt
  omega

theorem bytes_lo (l : Bytes) (n : Nat) (h : l.length = n) : ¬ l.map (fun b => b.toNat) < List.replicate n 0 := by
  have := not_lt_zeros (l.map fun b => b.toNat)
  rwa [List.length_map, h] at this

theorem bytes_hi (l : Bytes) (n : Nat) (h : l.length = n) : ¬ List.replicate n 255 < l.map (fun b => b.toNat) := by
  have := not_ones_lt (l.map fun b => b.toNat) (bytes_le l)
  rwa [List.length_map, h] at this


theorem part_lo (o : PartOrder) (sc : Sc) (n : Nat) (fl : Bool) (h : suits o (.items sc n fl) = true) (x : sc.Val) :
    Less o (part sc x) (boundPart true o (some sc)) ↔ MinusInfinity o (part sc x) := by
  cases sc with
  | uuid =>
    cases o with
    | bytes => exact ⟨fun h => absurd h (bytes_lo _ _ (image_length x)), fun h => nomatch h⟩
    | _ => cases h
  | hash =>
    cases o with
    | bytes => exact ⟨fun h => absurd h (bytes_lo _ _ (by simp)), fun h => nomatch h⟩
    | _ => cases h
  | w1 =>
    have hx := BitVec.isLt x
    cases o <;> first | (cases h; done) | (simp only [part, boundPart, Sc.size, Less, MinusInfinity, twos, isNaN, ieeeKey, magnitude, infinite] at *; simp at *; try omega)
  | w2 =>
    have hx := BitVec.isLt x
    cases o <;> first | (cases h; done) | (simp only [part, boundPart, Sc.size, Less, MinusInfinity, twos, isNaN, ieeeKey, magnitude, infinite] at *; simp at *; try omega)
  | w4 =>
    have hx := BitVec.isLt x
    cases o <;> first | (cases h; done) | (simp only [part, boundPart, Sc.size, Less, MinusInfinity, twos, isNaN, ieeeKey, magnitude, infinite] at *; simp at *; try omega)
  | w8 =>
    have hx := BitVec.isLt x
    cases o <;> first | (cases h; done) | (simp only [part, boundPart, Sc.size, Less, MinusInfinity, twos, isNaN, ieeeKey, magnitude, infinite] at *; simp at *; try omega)

theorem part_hi (o : PartOrder) (sc : Sc) (n : Nat) (fl : Bool) (h : suits o (.items sc n fl) = true) (x : sc.Val) :
    Less o (boundPart false o (some sc)) (part sc x) ↔ PlusInfinity o (part sc x) := by
  cases sc with
  | uuid =>
    cases o with
    | bytes => exact ⟨fun h => absurd h (bytes_hi _ _ (image_length x)), fun h => nomatch h⟩
    | _ => cases h
  | hash =>
    cases o with
    | bytes => exact ⟨fun h => absurd h (bytes_hi _ _ (by simp)), fun h => nomatch h⟩
    | _ => cases h
  | w1 =>
    have hx := BitVec.isLt x
    cases o <;> first | (cases h; done) | (simp only [part, boundPart, Sc.size, Less, PlusInfinity, twos, isNaN, ieeeKey, magnitude, infinite] at *; simp at *; try omega)
  | w2 =>
    have hx := BitVec.isLt x
    cases o <;> first | (cases h; done) | (simp only [part, boundPart, Sc.size, Less, PlusInfinity, twos, isNaN, ieeeKey, magnitude, infinite] at *; simp at *; try omega)
  | w4 =>
    have hx := BitVec.isLt x
    cases o <;> first | (cases h; done) | (simp only [part, boundPart, Sc.size, Less, PlusInfinity, twos, isNaN, ieeeKey, magnitude, infinite] at *; simp at *; try omega)
  | w8 =>
    have hx := BitVec.isLt x
    cases o <;> first | (cases h; done) | (simp only [part, boundPart, Sc.size, Less, PlusInfinity, twos, isNaN, ieeeKey, magnitude, infinite] at *; simp at *; try omega)

theorem kind_lo (o : PartOrder) (k : Kind) (v : k.Val) (hk : k ≠ .string) (hs : suits o k = true) {p : Part} (h1 : p ∈ parts k v) :
    Less o p (boundPart true o (scOf k)) ↔ MinusInfinity o p := by
  cases k with
  | bool =>
    cases o with
    | unsigned =>
      rw [parts, List.mem_singleton] at h1
      rw [h1]
      exact ⟨fun h => absurd h (Nat.not_lt_zero _), fun h => nomatch h⟩
    | _ => cases hs
  | items sc n fl =>
    obtain ⟨x, -, hx⟩ := List.mem_map.1 h1
    rw [← hx]
    exact part_lo o sc n fl hs x
  | string => exact absurd rfl hk

theorem kind_hi (o : PartOrder) (k : Kind) (v : k.Val) (hk : k ≠ .string) (hs : suits o k = true) {p : Part} (h1 : p ∈ parts k v) :
    Less o (boundPart false o (scOf k)) p ↔ PlusInfinity o p := by
  cases k with
  | bool =>
    cases o with
    | unsigned =>
      rw [parts, List.mem_singleton] at h1
      rw [h1]
      refine ⟨fun h => absurd h ?_, fun h => nomatch h⟩
      show ¬ 1 < _
      split <;> decide
    | _ => cases hs
  | items sc n fl =>
    obtain ⟨x, -, hx⟩ := List.mem_map.1 h1
    rw [← hx]
    exact part_hi o sc n fl hs x
  | string => exact absurd rfl hk

theorem inf_string : ∀ t ∈ allTypes, t.kind = .string → (value t .inf).map (parts t.kind) = some [.bytes []] ∧
    (value t .sup).isNone = true := by
  decide +kernel

instance (p : Part) : Decidable (AllZero p) := by
  cases p <;> simp only [AllZero] <;> infer_instance

theorem zero_all : ∀ t ∈ allTypes, value t .zero = some t.zero := by decide +kernel

theorem mem_zip_replicate {α β : Type} {l : List α} {n : Nat} {c : β} {p : α × β} (h : p ∈ l.zip (List.replicate n c)) :
    p.1 ∈ l ∧ p.2 = c :=
  ⟨(List.of_mem_zip h).1, (List.mem_replicate.1 (List.of_mem_zip h).2).2⟩

end LimitsProof

open Limits Spec LimitsProof

/-- **C93.** Every type has an `inf`, with as many parts as a value of the type has, and no part of any value is below it, except minus
infinity in the floating point types (and that is the only one). -/
theorem C93_inf_is_least {t : DataType} (ht : t ∈ allTypes) : ∃ least : t.Val, value t .inf = some least ∧
    (parts t.kind least).length = partCount t.name ∧ ∀ v : t.Val, (parts t.kind v).length = partCount t.name ∧
    ∀ p ∈ (parts t.kind v).zip (parts t.kind least), (Less (partOrder t.name) p.1 p.2 ↔ MinusInfinity (partOrder t.name) p.1) := by
  obtain ⟨hs, hc, hn⟩ := suits_all t ht
  by_cases hk : t.kind = .string
  · have h := (inf_string t ht hk).1
    obtain ⟨least, e, hp⟩ := Option.map_eq_some_iff.1 h
    refine ⟨least, e, by rw [count_parts, hc], fun v => ⟨by rw [count_parts, hc], fun p hm => ?_⟩⟩
    rw [hp] at hm
    have ho : partOrder t.name = .bytes := by rw [hn hk]; decide
    have h2 := (List.of_mem_zip hm).2
    rw [List.mem_singleton] at h2
    rw [ho, h2]
    cases h1 : p.1 with
    | word w n => exact ⟨fun h => h, fun h => h⟩
    | bytes l => exact ⟨fun h => (by cases h), fun h => nomatch h⟩
  · obtain ⟨least, e, hp⟩ := Option.map_eq_some_iff.1 (bounds_all t ht hk).1
    refine ⟨least, e, by rw [count_parts, hc], fun v => ⟨by rw [count_parts, hc], fun p hm => ?_⟩⟩
    rw [hp] at hm
    obtain ⟨h1, h2⟩ := mem_zip_replicate hm
    rw [h2]
    exact kind_lo _ _ v hk hs h1

/-- **C93.** Every type but `string` has a `sup`, and no part of any value is above it, except plus infinity in the floating point types
(and that is the only one). -/
theorem C93_sup_is_greatest {t : DataType} (ht : t ∈ allTypes) (hk : t.name ≠ "string") : ∃ greatest : t.Val, value t .sup = some greatest ∧
    (parts t.kind greatest).length = partCount t.name ∧ ∀ v : t.Val, (parts t.kind v).length = partCount t.name ∧
    ∀ p ∈ (parts t.kind v).zip (parts t.kind greatest), (Less (partOrder t.name) p.2 p.1 ↔ PlusInfinity (partOrder t.name) p.1) := by
  obtain ⟨hs, hc, hn⟩ := suits_all t ht
  have hk : t.kind ≠ .string := fun h => hk (hn h)
  obtain ⟨least, e, hp⟩ := Option.map_eq_some_iff.1 (bounds_all t ht hk).2
  refine ⟨least, e, by rw [count_parts, hc], fun v => ⟨by rw [count_parts, hc], fun p hm => ?_⟩⟩
  rw [hp] at hm
  obtain ⟨h1, h2⟩ := mem_zip_replicate hm
  rw [h2]
  exact kind_hi _ _ v hk hs h1

/-- **C93.** `string` has no `sup`, and none is possible: above every string there is another. -/
theorem C93_no_greatest_string {t : DataType} (ht : t ∈ allTypes) (hk : t.name = "string") :
    value t .sup = none ∧ ∀ a : Bytes, ∃ b : Bytes, ∃ p q, parts .string a = [p] ∧ parts .string b = [q] ∧ Less (partOrder t.name) p q := by
  constructor
  · revert t
    decide +kernel
  · intro a
    refine ⟨a ++ [0], _, _, rfl, rfl, ?_⟩
    rw [hk]
    show List.map (fun (b : Byte) => b.toNat) a < List.map (fun (b : Byte) => b.toNat) (a ++ [0])
    rw [List.map_append]
    induction a with
    | nil => exact List.nil_lt_cons _ _
    | cons x l ih => exact List.cons_lt_cons_iff.2 (.inr ⟨rfl, ih⟩)

/-- **C93.** Every type has a `zero`: each of its parts is zero, and it is what a variable of the type holds at first and after `Clear`. -/
theorem C93_zero_is_zero {t : DataType} (ht : t ∈ allTypes) : ∃ z : t.Val, value t .zero = some z ∧ z = t.zero ∧
    (parts t.kind z).length = partCount t.name ∧ ∀ p ∈ parts t.kind z, AllZero p := by
  refine ⟨t.zero, zero_all t ht, rfl, by rw [count_parts, (suits_all t ht).2.1], ?_⟩
  have h : ∀ t ∈ allTypes, ∀ p ∈ parts t.kind t.zero, AllZero p := by decide +kernel
  exact h t ht

/-- **C93.** The header declares one `data_type_information` for each documented type and no other, the source defines the same rows, each
with the members that are declared, and the number of values times the size of one is the documented size (0 for `string`, whose size
varies). -/
theorem C93_one_row_for_each_type :
    (headerRows.map Row.type).Perm (typeTable.map TypeRow.name) ∧ sourceRows.Perm headerRows ∧ (headerRows.map Row.type).Nodup ∧
    (∀ r ∈ headerRows, (defined r).map Prod.fst = declared r) ∧
    ∀ r ∈ headerRows, ∃ whole ∈ typeTable, ∃ one ∈ typeTable, whole.name = r.type ∧ one.name = r.value ∧
      whole.bytes = r.count * one.bytes ∧ r.count = partCount r.type := by
  decide +kernel

/-- The theorems are about real types. -/
example : (value ⟨"i8vec2", 0x08, 0x48, .items .w1 2 false, false⟩ .inf) = some #v[0x80#8, 0x80#8] := by decide +kernel
example : (value ⟨"fvec2", 0x05, 0x45, .items .w4 2 true, false⟩ .sup) = some #v[0x7f7fffff#32, 0x7f7fffff#32] := by decide +kernel
example : Less .ieee (.word 32 0xff800000) (.word 32 0xff7fffff) := ⟨by decide, by decide, by decide⟩

end ISD
