import Verif.Proofs.ReadStream

/-! # Reads from arbitrary streams -/

namespace ISD

open RStream

theorem readRaw_any {s : RStream} {n cap : Nat} (hs : s.size < 2 ^ 63) (hp : s.pos ≤ s.size) (hn : n < 2 ^ 63) (hc : n ≤ cap) :
    readRaw n cap s = .ok ((s.data.drop s.pos).take n) { s with pos := min (s.pos + n) s.size } := by
  by_cases h : s.pos + n ≤ s.size
  · rw [readRaw_ok (by omega) h hc, Nat.min_eq_left h]
  · rw [readRaw_short (by omega) hp (by omega) (by omega) (by omega), Nat.min_eq_right (by omega),
      List.take_of_length_le (by rw [List.length_drop]; unfold RStream.size at *; omega)]

theorem wordsOf_length (k n : Nat) (bs : Bytes) : (wordsOf k n bs).length = n := by
  induction n generalizing bs with
  | zero => rfl
  | succ n ih => simp [wordsOf, ih]

theorem hashesOf_length (n : Nat) (bs : Bytes) : (hashesOf n bs).length = n := by
  induction n generalizing bs with
  | zero => rfl
  | succ n ih => simp [hashesOf, ih]

theorem avail_length {s : RStream} (_ : s.pos ≤ s.size) (n : Nat) :
    ((s.data.drop s.pos).take n).length = min n (s.size - s.pos) := by
  rw [List.length_take, List.length_drop]; rfl

theorem min_mul_div (a b k : Nat) (hk : 0 < k) : min (a * k) b / k = min a (b / k) := by
  rcases Nat.le_total (a * k) b with h | h
  · rw [Nat.min_eq_left h, Nat.mul_div_cancel _ hk, Nat.min_eq_left ((Nat.le_div_iff_mul_le hk).mpr h)]
  · rw [Nat.min_eq_right h, Nat.min_eq_right]
    exact Nat.div_le_of_le_mul (by rwa [Nat.mul_comm] at h)

/-- Any typed read: the count of whole items available, the cursor moved over what there is. -/
def ReadsSome (p : Prog RStream (Nat × List α)) (s : RStream) (count size : Nat) : Prop :=
  ∃ vals, p s = .ok (min count ((s.size - s.pos) / size), vals) { s with pos := min (s.pos + count * size) s.size } ∧
    vals.length = count

theorem readWords_any {k : Nat} (hk : SwapWidth k) {s : RStream} {count : Nat} {dest : List (Word k)} (hs : s.size < 2 ^ 63)
    (hp : s.pos ≤ s.size) (hn : count * k < 2 ^ 63) (hd : dest.length = count) : ReadsSome (readWords count dest) s count k := by
  have hk0 : 0 < k := by rcases hk with rfl | rfl | rfl <;> decide
  have hi : (dest.flatMap Word.image).length = count * k := by rw [flatMap_image_length, hd]
  have hw : wrap64 (count * k) = count * k := Nat.mod_eq_of_lt (by omega)
  have e := readRaw_any (cap := count * k) hs hp hn (Nat.le_refl _)
  have hl := avail_length hp (count * k)
  have hlen : ((s.data.drop s.pos).take (count * k) ++
      (dest.flatMap Word.image).drop ((s.data.drop s.pos).take (count * k)).length).length = count * k := by
    rw [List.length_append, List.length_drop, hi, hl]; omega
  simp only [ReadsSome, readWords, Prog.bind_apply, Prog.get_apply, hi, hw, e]
  cases hf : s.flip with
  | false =>
    simp only [Bool.false_eq_true, if_false, Prog.pure_apply, hl, min_mul_div _ _ _ hk0, hd]
    exact ⟨_, rfl, wordsOf_length ..⟩
  | true =>
    simp only [if_true]
    rw [if_neg (by omega)]
    simp only [Prog.pure_apply, hl, min_mul_div _ _ _ hk0, hd]
    exact ⟨_, rfl, wordsOf_length ..⟩

theorem readByteWords_any {s : RStream} {count : Nat} {dest : List (Word 1)} (hs : s.size < 2 ^ 63)
    (hp : s.pos ≤ s.size) (hn : count < 2 ^ 63) (hd : dest.length = count) : ReadsSome (readByteWords count dest) s count 1 := by
  have hi : (dest.flatMap Word.image).length = count := by rw [flatMap_image_length, hd, Nat.mul_one]
  have e := readRaw_any (cap := count) hs hp hn (Nat.le_refl _)
  have hl := avail_length hp count
  simp only [ReadsSome, readByteWords, Prog.bind_apply, hi, e, hl, hd, Nat.mul_one, Nat.div_one, Prog.pure_apply]
  exact ⟨_, rfl, wordsOf_length ..⟩

theorem readHashes_any {s : RStream} {count : Nat} {dest : List Hash} (hs : s.size < 2 ^ 63)
    (hp : s.pos ≤ s.size) (hn : count * 32 < 2 ^ 63) (hd : dest.length = count) : ReadsSome (readHashes count dest) s count 32 := by
  have hi : (dest.flatMap fun h => h.digest.toList).length = count * 32 := by rw [hashes_length, hd, Nat.mul_comm]
  have hw : wrap64 (32 * count) = count * 32 := by rw [Nat.mul_comm]; exact Nat.mod_eq_of_lt (by omega)
  have e := readRaw_any (cap := count * 32) hs hp hn (Nat.le_refl _)
  have hl := avail_length hp (count * 32)
  simp only [ReadsSome, readHashes, Prog.bind_apply, hi, hw, e, hl, hd, min_mul_div _ _ 32 (by decide), Prog.pure_apply]
  exact ⟨_, rfl, hashesOf_length ..⟩

theorem readUUIDs_any {s : RStream} {i count : Nat} {dest : List UUID} (hs : s.size < 2 ^ 63)
    (hp : s.pos ≤ s.size) (hd : dest.length = i + count) :
    ∃ vals, readUUIDs i count dest s =
      .ok (i + min count ((s.size - s.pos) / 16), vals) { s with pos := min (s.pos + count * 16) s.size } ∧
      vals.length = dest.length := by
  induction count generalizing s i dest with
  | zero =>
    refine ⟨dest, ?_, rfl⟩
    rw [readUUIDs, Nat.zero_min, Nat.zero_mul, Nat.add_zero, Nat.min_eq_left (by simpa using hp)]
    rfl
  | succ count ih =>
    have e := readRaw_any (n := 16) (cap := 16) hs hp (by decide) (Nat.le_refl _)
    have hl := avail_length hp 16
    rw [readUUIDs, Prog.bind_ok e]
    by_cases h : s.pos + 16 ≤ s.size
    · rw [if_neg (by omega), if_neg (by omega)]
      have hp2 : min (s.pos + 16) s.size = s.pos + 16 := Nat.min_eq_left h
      rw [hp2]
      obtain ⟨vals, e2, hv⟩ := ih (s := { s with pos := s.pos + 16 }) (i := i + 1)
        (dest := dest.set i ⟨valueFromBE32 ((s.data.drop s.pos).take 16), valueFromBE16 (((s.data.drop s.pos).take 16).drop 4),
          valueFromBE16 (((s.data.drop s.pos).take 16).drop 6), takeVec 8 (((s.data.drop s.pos).take 16).drop 8)⟩)
        hs h (by simp; omega)
      refine ⟨vals, ?_, by simpa using hv⟩
      rw [e2]
      have e3 : ({ s with pos := s.pos + 16 } : RStream).size = s.size := rfl
      simp only [e3, Res.ok.injEq, Prod.mk.injEq, RStream.mk.injEq, true_and, and_true]
      constructor
      · omega
      · congr 1; omega
    · rw [if_pos (by omega)]
      refine ⟨dest, ?_, rfl⟩
      simp only [Prog.pure_apply, Res.ok.injEq, Prod.mk.injEq, RStream.mk.injEq, true_and, and_true]
      omega

theorem readItems_any {s : RStream} (sc : Sc) {count : Nat} {dest : List sc.Val} (hs : s.size < 2 ^ 63)
    (hp : s.pos ≤ s.size) (hn : count * sc.size < 2 ^ 63) (hd : dest.length = count) :
    ReadsSome (readItems sc count dest) s count sc.size := by
  cases sc with
  | w1 => exact readByteWords_any hs hp (by rw [← Nat.mul_one count]; exact hn) hd
  | w2 => exact readWords_any (k := 2) (Or.inl rfl) hs hp hn hd
  | w4 => exact readWords_any (k := 4) (Or.inr (Or.inl rfl)) hs hp hn hd
  | w8 => exact readWords_any (k := 8) (Or.inr (Or.inr rfl)) hs hp hn hd
  | uuid =>
    obtain ⟨vals, e, hv⟩ := readUUIDs_any (i := 0) (count := count) (dest := dest) hs hp (by rw [Nat.zero_add]; exact hd)
    rw [Nat.zero_add] at e
    exact ⟨vals, e, hv.trans hd⟩
  | hash => exact readHashes_any hs hp hn hd

end ISD
