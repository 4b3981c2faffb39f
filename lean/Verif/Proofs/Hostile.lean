import Verif.Proofs.ReadAny
import Verif.Proofs.ReadTyped

/-! # Reading from arbitrary bytes: what every read does, whatever the stream holds -/

namespace ISD

open RStream

/-- The call started at position `p` of the bytes `d` does not leave the bounds of any object, leaves the stream on the same bytes with
a cursor that has not moved back and is not past the end, and its result satisfies `Q`. Exceptions are allowed. With `U` also leaving the
bounds is allowed. -/
def Wp {α : Type} (d : Bytes) (fl : Bool) (p : Nat) (r : Res RStream α) (Q : α → Nat → Prop) (U : Prop := False) : Prop :=
  match r with
  | .ok a s => ∃ p', s = ⟨d, p', fl⟩ ∧ p ≤ p' ∧ p' ≤ d.length ∧ Q a p'
  | .throw s => ∃ p', s = ⟨d, p', fl⟩ ∧ p ≤ p' ∧ p' ≤ d.length
  | .ub => U

theorem Wp.weaken {α : Type} {d : Bytes} {fl : Bool} {p : Nat} {r : Res RStream α} {Q : α → Nat → Prop} {U : Prop} (h : Wp d fl p r Q) :
    Wp d fl p r Q U := by
  cases r with
  | ok a s => exact h
  | throw s => exact h
  | ub => exact h.elim

theorem Wp.anyUb {α : Type} {d : Bytes} {fl : Bool} {p : Nat} {r : Res RStream α} {Q : α → Nat → Prop} {U V : Prop} (h : Wp d fl p r Q V)
    (hU : U) : Wp d fl p r Q U := by
  cases r with
  | ok a s => exact h
  | throw s => exact h
  | ub => exact hU

theorem Wp.bind {α β : Type} {d : Bytes} {fl : Bool} {p : Nat} {x : Prog RStream α} {f : α → Prog RStream β} {P : α → Nat → Prop}
    {Q : β → Nat → Prop} {U : Prop} (hx : Wp d fl p (x ⟨d, p, fl⟩) P U)
    (hf : ∀ a p', p ≤ p' → p' ≤ d.length → P a p' → Wp d fl p' (f a ⟨d, p', fl⟩) Q U) :
    Wp d fl p ((x >>= f) ⟨d, p, fl⟩) Q U := by
  rw [Prog.bind_apply]
  cases e : x ⟨d, p, fl⟩ with
  | ok a s =>
    rw [e] at hx
    obtain ⟨p', rfl, h1, h2, h3⟩ := hx
    have := hf a p' h1 h2 h3
    show Wp d fl p (f a ⟨d, p', fl⟩) Q U
    revert this
    cases f a ⟨d, p', fl⟩ with
    | ok b s => rintro ⟨p2, e2, h4, h5, h6⟩; exact ⟨p2, e2, Nat.le_trans h1 h4, h5, h6⟩
    | throw s => rintro ⟨p2, e2, h4, h5⟩; exact ⟨p2, e2, Nat.le_trans h1 h4, h5⟩
    | ub => exact id
  | throw s => rw [e] at hx; exact hx
  | ub => rw [e] at hx; exact hx

theorem Wp.pure {α : Type} {d : Bytes} {fl : Bool} {p : Nat} {a : α} {Q : α → Nat → Prop} {U : Prop} (hp : p ≤ d.length) (h : Q a p) :
    Wp d fl p ((Pure.pure a : Prog RStream α) ⟨d, p, fl⟩) Q U := ⟨p, rfl, Nat.le_refl _, hp, h⟩

theorem Wp.get {β : Type} {d : Bytes} {fl : Bool} {p : Nat} {f : RStream → Prog RStream β} {Q : β → Nat → Prop}
    {U : Prop} (h : Wp d fl p (f ⟨d, p, fl⟩ ⟨d, p, fl⟩) Q U) : Wp d fl p ((Prog.get >>= f) ⟨d, p, fl⟩) Q U := h

theorem Wp.ite {α : Type} {d : Bytes} {fl : Bool} {p : Nat} {c : Prop} [Decidable c] {x y : Prog RStream α} {Q : α → Nat → Prop}
    {U : Prop} (h1 : c → Wp d fl p (x ⟨d, p, fl⟩) Q U) (h2 : ¬ c → Wp d fl p (y ⟨d, p, fl⟩) Q U) :
    Wp d fl p ((if c then x else y) ⟨d, p, fl⟩) Q U := by
  by_cases h : c
  · rw [if_pos h]; exact h1 h
  · rw [if_neg h]; exact h2 h

theorem Wp.mono {α : Type} {d : Bytes} {fl : Bool} {p : Nat} {r : Res RStream α} {P Q : α → Nat → Prop} {U : Prop} (h : Wp d fl p r P U)
    (hm : ∀ a p', p ≤ p' → p' ≤ d.length → P a p' → Q a p') : Wp d fl p r Q U := by
  cases r with
  | ok a s => obtain ⟨p', e, h1, h2, h3⟩ := h; exact ⟨p', e, h1, h2, hm a p' h1 h2 h3⟩
  | throw s => exact h
  | ub => exact h

/-! ## Every run of bytes is the image of some values -/

theorem Has.slice {d : Bytes} {p n : Nat} (h : p + n ≤ d.length) : Has d p ((d.drop p).take n) :=
  ⟨d.take p, d.drop (p + n), by
    rw [← List.drop_drop, List.append_assoc, List.take_append_drop, List.take_append_drop], by simp; omega⟩

theorem Has.unique {d : Bytes} {p : Nat} {a b : Bytes} (ha : Has d p a) (hb : Has d p b) (h : a.length = b.length) : a = b := by
  rw [← ha.take, ← hb.take, h]

theorem number_surj (fl : Bool) (k : Nat) (bs : Bytes) (h : bs.length = k) : ∃ n, n < 256 ^ k ∧ Spec.number fl k n = bs := by
  subst h
  cases fl with
  | false => exact ⟨fromLE bs, fromLE_lt bs, by simp [Spec.number, lsbFirst_eq, leBytes_fromLE]⟩
  | true =>
    refine ⟨fromLE bs.reverse, by simpa using fromLE_lt bs.reverse, ?_⟩
    have := leBytes_fromLE bs.reverse
    rw [List.length_reverse] at this
    simp [Spec.number, msbFirst_eq, this]

theorem number_inj (fl : Bool) (k : Nat) {a b : Nat} (ha : a < 256 ^ k) (hb : b < 256 ^ k)
    (h : Spec.number fl k a = Spec.number fl k b) : a = b := by
  have : leBytes k a = leBytes k b := by
    cases fl with
    | false => simpa [Spec.number, lsbFirst_eq] using h
    | true => simpa [Spec.number, msbFirst_eq] using h
  have h2 := congrArg fromLE this
  rwa [fromLE_leBytes, fromLE_leBytes, Nat.mod_eq_of_lt ha, Nat.mod_eq_of_lt hb] at h2

theorem scalar_surj (fl : Bool) (sc : Sc) (bs : Bytes) (h : bs.length = sc.size) : ∃ v, Spec.scalar fl sc v = bs := by
  cases sc with
  | w1 =>
    obtain ⟨n, hn, e⟩ := number_surj fl 1 bs h
    exact ⟨BitVec.ofNat 8 n, by simp only [Spec.scalar, toNat_ofNat_lt (w := 8) hn, e]⟩
  | w2 =>
    obtain ⟨n, hn, e⟩ := number_surj fl 2 bs h
    exact ⟨BitVec.ofNat 16 n, by simp only [Spec.scalar, toNat_ofNat_lt (w := 16) hn, e]⟩
  | w4 =>
    obtain ⟨n, hn, e⟩ := number_surj fl 4 bs h
    exact ⟨BitVec.ofNat 32 n, by simp only [Spec.scalar, toNat_ofNat_lt (w := 32) hn, e]⟩
  | w8 =>
    obtain ⟨n, hn, e⟩ := number_surj fl 8 bs h
    exact ⟨BitVec.ofNat 64 n, by simp only [Spec.scalar, toNat_ofNat_lt (w := 64) hn, e]⟩
  | uuid =>
    have h : bs.length = 16 := h
    obtain ⟨n1, h1, e1⟩ := number_surj true 4 (bs.take 4) (by simp; omega)
    obtain ⟨n2, h2, e2⟩ := number_surj true 2 ((bs.drop 4).take 2) (by simp; omega)
    obtain ⟨n3, h3, e3⟩ := number_surj true 2 ((bs.drop 6).take 2) (by simp; omega)
    refine ⟨⟨BitVec.ofNat 32 n1, BitVec.ofNat 16 n2, BitVec.ofNat 16 n3, takeVec 8 (bs.drop 8)⟩, ?_⟩
    simp only [Spec.scalar, Spec.uuid]
    rw [toNat_ofNat_lt (w := 32) h1, toNat_ofNat_lt (w := 16) h2, toNat_ofNat_lt (w := 16) h3]
    rw [takeVec_toList _ _ (by simp; omega)]
    have n4 : ∀ k n, Spec.msbFirst k n = Spec.number true k n := fun k n => rfl
    rw [n4, n4, n4, e1, e2, e3, List.append_assoc, List.append_assoc]
    have e8 : (bs.drop 8).take 8 = bs.drop 8 := List.take_of_length_le (by simp; omega)
    rw [e8]
    have a1 : (bs.drop 6).take 2 ++ bs.drop 8 = bs.drop 6 := by
      have := List.take_append_drop 2 (bs.drop 6)
      rwa [List.drop_drop] at this
    have a2 : (bs.drop 4).take 2 ++ bs.drop 6 = bs.drop 4 := by
      have := List.take_append_drop 2 (bs.drop 4)
      rwa [List.drop_drop] at this
    rw [a1, a2, List.take_append_drop]
  | hash =>
    refine ⟨⟨takeVec 32 bs⟩, ?_⟩
    have h : bs.length = 32 := h
    simp only [Spec.scalar]
    rw [takeVec_toList _ _ (by omega), List.take_of_length_le (by omega)]

theorem Sc.size_pos (sc : Sc) : 0 < sc.size := by cases sc <;> decide

theorem scalars_surj (fl : Bool) (sc : Sc) (n : Nat) (bs : Bytes) (h : bs.length = n * sc.size) :
    ∃ l : List sc.Val, l.length = n ∧ Spec.scalars fl sc l = bs := by
  induction n generalizing bs with
  | zero =>
    refine ⟨[], rfl, ?_⟩
    rw [Nat.zero_mul] at h
    rw [List.eq_nil_of_length_eq_zero h]; rfl
  | succ n ih =>
    rw [Nat.succ_mul] at h
    obtain ⟨v, hv⟩ := scalar_surj fl sc (bs.take sc.size) (by simp; omega)
    obtain ⟨l, hl, e⟩ := ih (bs.drop sc.size) (by simp; omega)
    refine ⟨v :: l, by simp [hl], ?_⟩
    show Spec.scalar fl sc v ++ Spec.scalars fl sc l = bs
    rw [hv, e, List.take_append_drop]

/-! ## The elementary reads -/

theorem raw_wp {d : Bytes} {p : Nat} (fl : Bool) (hd : Small d) (hp : p ≤ d.length) {n cap : Nat} (hn : n < 2 ^ 63) (hc : n ≤ cap) :
    Wp d fl p (readRaw n cap ⟨d, p, fl⟩) fun bs p' => p' = min (p + n) d.length ∧ Has d p bs ∧ bs.length = p' - p := by
  rw [readRaw_any (s := ⟨d, p, fl⟩) (by simp only [RStream.size]; omega) hp hn hc]
  refine ⟨_, rfl, by simp only [RStream.size]; omega, by simp only [RStream.size]; omega, rfl, ?_, ?_⟩
  · have : (d.drop p).take n = (d.drop p).take (min n (d.length - p)) := by
      rw [← List.take_take]
      congr 1
      exact (List.take_of_length_le (by simp)).symm
    dsimp only
    rw [this]
    exact Has.slice (by omega)
  · simp only [List.length_take, List.length_drop, RStream.size]; omega

theorem items_wp {d : Bytes} {p : Nat} (fl : Bool) (hd : Small d) (hp : p ≤ d.length) (sc : Sc) {n : Nat} {dest : List sc.Val}
    (hn : n * sc.size < 2 ^ 63) (hl : dest.length = n) :
    Wp d fl p (readItems sc n dest ⟨d, p, fl⟩) fun r p' => r.2.length = n ∧ p' = min (p + n * sc.size) d.length ∧
      (p + n * sc.size ≤ d.length → r.1 = n ∧ Has d p (Spec.scalars fl sc r.2)) ∧ (d.length < p + n * sc.size → r.1 < n) := by
  by_cases h : p + n * sc.size ≤ d.length
  · obtain ⟨l, hl2, e⟩ := scalars_surj fl sc n ((d.drop p).take (n * sc.size)) (by simp; omega)
    have hh : Has d p (Spec.scalars fl sc l) := by rw [e]; exact Has.slice h
    rw [readItems_has sc l dest hd hh n hl2.symm hl]
    exact ⟨_, rfl, by omega, by rw [hl2]; omega, hl2, by rw [hl2]; omega, fun _ => ⟨rfl, hh⟩, fun hc => absurd h (by omega)⟩
  · obtain ⟨vals, e, hv⟩ := readItems_any (s := ⟨d, p, fl⟩) sc (by simp only [RStream.size]; omega) hp hn hl
    rw [e]
    simp only [RStream.size]
    refine ⟨_, rfl, by omega, by omega, hv, rfl, fun hc => absurd hc h, fun _ => ?_⟩
    have : (d.length - p) / sc.size < n := Nat.div_lt_of_lt_mul (by rw [Nat.mul_comm]; omega)
    show min _ _ < n
    omega

theorem raw_any {d : Bytes} {p : Nat} (fl : Bool) (hd : Small d) (hp : p ≤ d.length) {n cap : Nat} (hn : n < 2 ^ 64 - 2 ^ 60) :
    Wp d fl p (readRaw n cap ⟨d, p, fl⟩) (fun bs p' => p' = min (p + n) d.length ∧ bs.length = p' - p ∧ bs.length ≤ cap) True := by
  have hd' : d.length < 2 ^ 60 := hd
  have e1 : wrap64 (p + n) = p + n := Nat.mod_eq_of_lt (by omega)
  rw [readRaw, Prog.bind_ok (Prog.get_apply _)]
  dsimp only
  have hS : (RStream.mk d p fl).size = d.length := rfl
  generalize (RStream.mk d p fl).size = S at hS ⊢
  rw [e1]
  by_cases h : p + n > S
  · rw [if_pos h, if_pos h, sub64_of_le (by omega) (by omega)]
    by_cases h2 : cap < S - p ∨ S < p + (S - p)
    · rw [if_pos h2]; trivial
    · rw [if_neg h2]
      refine ⟨S, rfl, by omega, by omega, by omega, ?_, ?_⟩
      · simp; omega
      · simp; omega
  · rw [if_neg h, if_neg h]
    by_cases h2 : cap < n ∨ S < p + n
    · rw [if_pos h2]; trivial
    · rw [if_neg h2]
      refine ⟨p + n, rfl, by omega, by omega, by omega, ?_, ?_⟩
      · simp; omega
      · simp; omega

theorem words_short {k : Nat} {d : Bytes} {p : Nat} (fl : Bool) (hd : Small d) (hp : p ≤ d.length) (hk : 0 < k) {n : Nat} {dest : List (Word k)}
    (hn : n * k < 2 ^ 64 - 2 ^ 60) (hl : dest.length < n) :
    Wp d fl p (readWords n dest ⟨d, p, fl⟩) (fun r _ => r.1 < n) True := by
  rw [readWords]
  refine .get ?_
  dsimp only
  have hw : wrap64 (n * k) = n * k := Nat.mod_eq_of_lt (by omega)
  rw [hw]
  refine .bind (raw_any fl hd hp hn) fun bs p' h1 h2 h3 => ?_
  have hlt : bs.length / k < n := by
    have := h3.2.2
    rw [flatMap_image_length] at this
    have := Nat.mul_lt_mul_of_pos_right hl hk
    exact Nat.div_lt_of_lt_mul (by rw [Nat.mul_comm]; omega)
  refine .ite (fun _ => .ite (fun _ => trivial) fun _ => .pure h2 hlt) fun _ => .pure h2 hlt

theorem uuids_short {d : Bytes} (fl : Bool) (hd : Small d) : ∀ (n i : Nat) (dest : List UUID) (p : Nat), p ≤ d.length → i ≤ dest.length →
    dest.length < i + n → Wp d fl p (readUUIDs i n dest ⟨d, p, fl⟩) (fun r _ => r.1 < i + n) True
  | 0, i, dest, p, hp, hi, hl => absurd hl (by omega)
  | n + 1, i, dest, p, hp, hi, hl => by
    rw [readUUIDs]
    refine .bind (raw_any fl hd hp (by decide)) fun bs p' h1 h2 h3 => ?_
    refine .ite (fun _ => .pure h2 (by show i < _; omega)) fun _ => .ite (fun _ => trivial) fun h => ?_
    refine .mono (uuids_short fl hd n (i + 1) _ p' h2 (by simp; omega) (by simp; omega)) fun _ _ _ _ h => by omega

/-- Reading more items than there is room for is undefined, or finds less in the stream. -/
theorem items_short {d : Bytes} {p : Nat} (fl : Bool) (hd : Small d) (hp : p ≤ d.length) (sc : Sc) {n : Nat} {dest : List sc.Val}
    (hn : n * sc.size < 2 ^ 64 - 2 ^ 60) (hl : dest.length < n) :
    Wp d fl p (readItems sc n dest ⟨d, p, fl⟩) (fun r _ => r.1 < n) True := by
  cases sc with
  | w1 =>
    show Wp d fl p (readByteWords n dest ⟨d, p, fl⟩) _ True
    rw [readByteWords]
    refine .bind (raw_any fl hd hp (by rw [← Nat.mul_one n]; exact hn)) fun bs p' h1 h2 h3 => .pure h2 ?_
    have := h3.2.2
    rw [flatMap_image_length] at this
    show bs.length < n
    omega
  | w2 => exact words_short (k := 2) fl hd hp (by decide) hn hl
  | w4 => exact words_short (k := 4) fl hd hp (by decide) hn hl
  | w8 => exact words_short (k := 8) fl hd hp (by decide) hn hl
  | uuid =>
    refine .mono (uuids_short fl hd n 0 dest p hp (Nat.zero_le _) (by omega)) fun _ _ _ _ h => by omega
  | hash =>
    show Wp d fl p (readHashes n dest ⟨d, p, fl⟩) _ True
    have hn : n * 32 < 2 ^ 64 - 2 ^ 60 := hn
    rw [readHashes, show wrap64 (32 * n) = n * 32 by rw [Nat.mul_comm]; exact Nat.mod_eq_of_lt (by omega)]
    refine .bind (raw_any fl hd hp hn) fun bs p' h1 h2 h3 => .pure h2 ?_
    have := h3.2.2
    rw [hashes_length] at this
    show bs.length / 32 < n
    omega

/-- What a fixed size number read gives: the number in the stream, or the cursor at the end when it does not fit. -/
structure NumRead (d : Bytes) (fl : Bool) (p k n p' : Nat) : Prop where
  lt : n < 256 ^ k
  full : p + k ≤ d.length → p' = p + k ∧ Has d p (Spec.number fl k n)
  cut : d.length < p + k → p' = d.length
  eof : p = d.length → n = 0

theorem raw_eof {d : Bytes} (fl : Bool) (hd : Small d) (n cap : Nat) (hn : n < 2 ^ 63) :
    readRaw n (n + cap) ⟨d, d.length, fl⟩ = .ok [] ⟨d, d.length, fl⟩ := by
  have e1 := readRaw_any (s := ⟨d, d.length, fl⟩) (n := n) (cap := n + cap) (by simp only [RStream.size]; omega) (Nat.le_refl _) hn
    (by omega)
  simp only [RStream.size, List.drop_length, List.take_nil] at e1
  rwa [Nat.min_eq_right (by omega)] at e1

theorem u8_eof {d : Bytes} (fl : Bool) (hd : Small d) : readU8 ⟨d, d.length, fl⟩ = .ok 0 ⟨d, d.length, fl⟩ := by
  have e : readItems .w1 1 [Sc.zero .w1] ⟨d, d.length, fl⟩ = .ok (0, [(0#8 : Word 1)]) ⟨d, d.length, fl⟩ := by
    show readByteWords 1 [(0#8 : Word 1)] _ = _
    exact (Prog.bind_ok (raw_eof fl hd 1 0 (by decide))).trans rfl
  exact (Prog.bind_ok (x := readOne .w1) (Prog.bind_ok e)).trans rfl

theorem u16_eof {d : Bytes} (fl : Bool) (hd : Small d) : readU16 ⟨d, d.length, fl⟩ = .ok 0 ⟨d, d.length, fl⟩ := by
  have e : readItems .w2 1 [Sc.zero .w2] ⟨d, d.length, fl⟩ = .ok (0, [(0#16 : Word 2)]) ⟨d, d.length, fl⟩ := by
    show readWords (k := 2) 1 [(0#16 : Word 2)] _ = _
    rw [readWords, Prog.bind_ok (Prog.get_apply _)]
    exact (Prog.bind_ok (raw_eof fl hd 2 0 (by decide))).trans (by cases fl <;> rfl)
  exact (Prog.bind_ok (x := readOne .w2) (Prog.bind_ok e)).trans rfl

theorem u64_eof {d : Bytes} (fl : Bool) (hd : Small d) : readU64 ⟨d, d.length, fl⟩ = .ok 0 ⟨d, d.length, fl⟩ := by
  have e : readItems .w8 1 [Sc.zero .w8] ⟨d, d.length, fl⟩ = .ok (0, [(0#64 : Word 8)]) ⟨d, d.length, fl⟩ := by
    show readWords (k := 8) 1 [(0#64 : Word 8)] _ = _
    rw [readWords, Prog.bind_ok (Prog.get_apply _)]
    exact (Prog.bind_ok (raw_eof fl hd 8 0 (by decide))).trans (by cases fl <;> rfl)
  exact (Prog.bind_ok (x := readOne .w8) (Prog.bind_ok e)).trans rfl

theorem u8_wp {d : Bytes} {p : Nat} (fl : Bool) (hd : Small d) (hp : p ≤ d.length) :
    Wp d fl p (readU8 ⟨d, p, fl⟩) (NumRead d fl p 1) := by
  by_cases h : p + 1 ≤ d.length
  · obtain ⟨n, hn, e⟩ := number_surj fl 1 ((d.drop p).take 1) (by simp; omega)
    have hh : Has d p (Spec.number fl 1 n) := by rw [e]; exact Has.slice h
    rw [readU8_has hd hn hh]
    exact ⟨_, rfl, by omega, by omega, hn, fun _ => ⟨rfl, hh⟩, by omega, by omega⟩
  · have : p = d.length := by omega
    subst this
    rw [u8_eof fl hd]
    exact ⟨_, rfl, by omega, by omega, by decide, by omega, by omega, by omega⟩

theorem u16_wp {d : Bytes} {p : Nat} (fl : Bool) (hd : Small d) (hp : p ≤ d.length) :
    Wp d fl p (readU16 ⟨d, p, fl⟩) (NumRead d fl p 2) := by
  by_cases h : p + 2 ≤ d.length
  · obtain ⟨n, hn, e⟩ := number_surj fl 2 ((d.drop p).take 2) (by simp; omega)
    have hh : Has d p (Spec.number fl 2 n) := by rw [e]; exact Has.slice h
    rw [readU16_has hd hn hh]
    exact ⟨_, rfl, by omega, by omega, hn, fun _ => ⟨rfl, hh⟩, by omega, by omega⟩
  · by_cases hq : p = d.length
    · subst hq
      rw [u16_eof fl hd]
      exact ⟨_, rfl, by omega, by omega, by decide, by omega, by omega, by omega⟩
    · rw [readU16, readOne]
      refine Wp.bind (P := fun _ p' => p' = d.length) (Wp.bind (items_wp fl hd hp .w2 (by decide) rfl) ?_) ?_
      · intro a p' h1 h2 h3
        refine Wp.pure h2 ?_
        have := h3.2.1
        simp only [Sc.size] at this
        omega
      · rintro a p' h1 h2 rfl
        refine Wp.pure h2 ?_
        exact ⟨BitVec.isLt (w := 16) a, by omega, fun _ => rfl, by omega⟩

theorem u64_wp {d : Bytes} {p : Nat} (fl : Bool) (hd : Small d) (hp : p ≤ d.length) :
    Wp d fl p (readU64 ⟨d, p, fl⟩) (NumRead d fl p 8) := by
  by_cases h : p + 8 ≤ d.length
  · obtain ⟨n, hn, e⟩ := number_surj fl 8 ((d.drop p).take 8) (by simp; omega)
    have hh : Has d p (Spec.number fl 8 n) := by rw [e]; exact Has.slice h
    rw [readU64_has hd hn hh]
    exact ⟨_, rfl, by omega, by omega, hn, fun _ => ⟨rfl, hh⟩, by omega, by omega⟩
  · by_cases hq : p = d.length
    · subst hq
      rw [u64_eof fl hd]
      exact ⟨_, rfl, by omega, by omega, by decide, by omega, by omega, by omega⟩
    · rw [readU64, readOne]
      refine Wp.bind (P := fun _ p' => p' = d.length) (Wp.bind (items_wp fl hd hp .w8 (by decide) rfl) ?_) ?_
      · intro a p' h1 h2 h3
        refine Wp.pure h2 ?_
        have := h3.2.1
        simp only [Sc.size] at this
        omega
      · rintro a p' h1 h2 rfl
        refine Wp.pure h2 ?_
        exact ⟨BitVec.isLt (w := 64) a, by omega, fun _ => rfl, by omega⟩

theorem key_wp (env : REnv) {d : Bytes} {p : Nat} (fl : Bool) (hd : Small d) (hp : p ≤ d.length) {k : Nat} (hk : k ≤ 40) :
    Wp d fl p (readKey env k ⟨d, p, fl⟩) fun r p' => p' = min (p + k) d.length ∧ (p + k ≤ d.length → r.1 = k ∧ Has d p (r.2.take k)) ∧
      (d.length < p + k → r.1 < k) := by
  rw [readKey]
  refine Wp.bind (raw_wp fl hd hp (by omega) hk) ?_
  rintro bs p' h1 h2 ⟨h3, h4, h5⟩
  refine Wp.pure h2 ⟨h3, fun h => ?_, fun h => ?_⟩
  · have : bs.length = k := by omega
    refine ⟨this, ?_⟩
    dsimp only
    rw [List.take_left' this]
    exact h4
  · dsimp only; omega

theorem resizeTo_wp (env : REnv) {d : Bytes} {p : Nat} (fl : Bool) (hp : p ≤ d.length) (n elem : Nat) :
    Wp d fl p (resizeTo env n elem ⟨d, p, fl⟩) fun _ p' => p' = p ∧ n * elem < 2 ^ 63 := by
  rw [resizeTo]
  refine Wp.ite (fun _ => ⟨p, rfl, Nat.le_refl _, hp⟩) (fun h => Wp.pure hp ⟨rfl, ?_⟩)
  omega

theorem resizeBool_wp (env : REnv) {d : Bytes} {p : Nat} (fl : Bool) (hp : p ≤ d.length) (n : Nat) :
    Wp d fl p (resizeBool env n ⟨d, p, fl⟩) fun _ p' => p' = p ∧ n < 2 ^ 63 := by
  rw [resizeBool]
  refine Wp.ite (fun _ => ⟨p, rfl, Nat.le_refl _, hp⟩) (fun h => Wp.pure hp ⟨rfl, ?_⟩)
  omega

theorem endLarge_wp {d : Bytes} {p : Nat} (fl : Bool) (hp : p ≤ d.length) (e : Nat) :
    Wp d fl p (endReadLargeBlock e ⟨d, p, fl⟩) fun b p' => p' = p ∧ (b = true ↔ p = e) := by
  rw [endReadLargeBlock]
  exact Wp.get (Wp.pure hp ⟨rfl, by simp⟩)

/-! ## Large blocks -/

/-- What a successful `begin_read_large_block` tells: `e` is the returned end and `p1` the position behind the key. -/
structure LargeHead (d : Bytes) (fl : Bool) (p vt : Nat) (key : Bytes) (e p1 : Nat) : Prop where
  fits : e ≤ d.length
  code : Has d p [UInt8.ofNat vt]
  rest : (∃ size, size < 2 ^ 64 ∧ p + 9 ≤ d.length ∧ Has d (p + 1) (Spec.number fl 8 size) ∧ e = wrap64 (p + 9 + size) ∧
      p1 = min (p + 10 + key.length) d.length ∧ (p + 9 < d.length → Has d (p + 9) [UInt8.ofNat key.length]) ∧
      (p + 9 = d.length → key = []) ∧ (p + 10 + key.length ≤ d.length → Has d (p + 10) key)) ∨
    (d.length < p + 9 ∧ key = [] ∧ p1 = d.length)

theorem beginLarge_wp (env : REnv) {d : Bytes} {p : Nat} (fl : Bool) (hd : Small d) (hp : p ≤ d.length) (vt : Nat) (hv : 0 < vt)
    (key : Bytes) (hk : key.length ≤ 40) :
    Wp d fl p (beginReadLargeBlock env vt key ⟨d, p, fl⟩) fun e p1 => e ≠ 0 → LargeHead d fl p vt key e p1 := by
  rw [beginReadLargeBlock]
  refine Wp.bind (u8_wp fl hd hp) fun vt' p1 h1 h2 n1 => ?_
  refine Wp.ite (fun _ => Wp.pure h2 (by simp)) fun hvt => ?_
  have hvt : vt' = vt := by simpa using hvt
  subst hvt
  have hlt : p + 1 ≤ d.length := by
    apply Decidable.byContradiction
    intro hc
    have := n1.eof (by omega)
    omega
  obtain ⟨rfl, hcode⟩ := n1.full hlt
  rw [number_one] at hcode
  refine Wp.bind (u64_wp fl hd h2) fun size p2 h3 h4 n2 => ?_
  refine Wp.get ?_
  dsimp only [RStream.size]
  refine Wp.ite (fun _ => Wp.pure h4 (by simp)) fun hfit => ?_
  refine Wp.bind (u8_wp fl hd h4) fun kl p3 h5 h6 n3 => ?_
  refine Wp.ite (fun _ => Wp.pure h6 (by simp)) fun hkl => ?_
  have hkl : kl = key.length := by simpa using hkl
  subst hkl
  refine Wp.bind (key_wp env fl hd h6 hk) fun r p4 h7 h8 n4 => ?_
  refine Wp.ite (fun _ => Wp.pure h8 (by simp)) fun hkey => ?_
  have hkey : key = r.2.take key.length := by simpa using hkey
  refine Wp.pure h8 fun _ => ⟨by omega, hcode, ?_⟩
  by_cases h9 : p + 1 + 8 ≤ d.length
  · left
    obtain ⟨rfl, hs⟩ := n2.full h9
    refine ⟨size, n2.lt, h9, hs, rfl, ?_, ?_, ?_, ?_⟩
    · have := n4.1
      by_cases h10 : p + 1 + 8 + 1 ≤ d.length
      · have := (n3.full h10).1; omega
      · have e1 := n3.eof (by omega)
        have e2 := n3.cut (by omega)
        omega
    · intro h10
      have := (n3.full (by omega)).2
      rwa [number_one] at this
    · intro h10
      have := n3.eof (by omega)
      exact List.eq_nil_of_length_eq_zero this
    · intro h11
      have e1 := (n3.full (by omega)).1
      subst e1
      have := (n4.2.1 (by omega)).2
      rw [← hkey] at this
      exact this
  · right
    have e1 := n2.cut (by omega)
    subst e1
    have e2 := n3.eof rfl
    have e3 := n3.cut (by omega)
    refine ⟨by omega, List.eq_nil_of_length_eq_zero e2, ?_⟩
    have := n4.1
    omega

end ISD
