import Verif.Model.Packet
import Verif.Proofs.ReadAny
import Verif.Proofs.Hostile

/-!
# C48: the packet header
-/

namespace ISD

open RStream Packet

/-- Reading one uuid never fails: it takes 16 bytes or what is left. -/
theorem readUUID_any {d : Bytes} {p : Nat} {fl : Bool} (hd : Small d) (hp : p ≤ d.length) :
    ∃ v, readOne .uuid ⟨d, p, fl⟩ = .ok v ⟨d, min (p + 16) d.length, fl⟩ := by
  have hd' : d.length < 2 ^ 60 := hd
  obtain ⟨vals, e, -⟩ := readItems_any (s := ⟨d, p, fl⟩) (count := 1) (dest := [Sc.uuid.zero]) .uuid
    (show d.length < 2 ^ 63 by omega) hp (by decide) (by simp)
  refine ⟨vals.headD Sc.uuid.zero, ?_⟩
  rw [readOne, Prog.bind_ok e]
  show Res.ok _ (⟨d, min (p + 1 * 16) d.length, fl⟩ : RStream) = _
  rw [Nat.one_mul]

/-- What `FromMemoryStream` does when a whole 16 byte header is there: three magic bytes, version, flags, three bytes of
padding, and the 8 bytes of the data size `n` in the byte order then in force. -/
theorem C48_header {d : Bytes} {p : Nat} {fl : Bool} (hd : Small d) (magic pad : Bytes) (version flags n : Nat)
    (hm : magic.length = 3) (hpad : pad.length = 3) (hv : version < 256) (hf : flags < 256) (hn : n < 2 ^ 64)
    (junk junkPad : Bytes) (hj : junk.length = 3) (hjp : junkPad.length = 3)
    (h : Has d p (magic ++ (Spec.number fl 1 version ++ (Spec.number fl 1 flags ++ (pad ++
      Spec.number (fl || decide (flags % 2 = 1)) 8 n))))) :
    fromMemoryStream junk junkPad ⟨d, p, fl⟩ =
      if magic ≠ [0x49, 0x53, 0x44] then .ok .eInvalid ⟨d, p + 8, fl⟩
      else if (p + 16 + n) % 2 ^ 64 > d.length then .ok .eInvalid ⟨d, p + 16, fl || decide (flags % 2 = 1)⟩
      else .ok .ok ⟨d, min (p + 48) d.length, fl || decide (flags % 2 = 1)⟩ := by
  have h1 := h.left
  have h2 := h.right
  have h3 := h2.right
  have h4 := h3.right
  have h5 := h4.right
  have l1 : ∀ n, (Spec.number fl 1 n).length = 1 := fun n => number_length _ _ _
  rw [l1] at h3 h4 h5
  rw [l1] at h4 h5
  rw [hm] at h2 h3 h4 h5
  rw [hpad] at h5
  have e1 := readRaw_has (fl := fl) hd h1 3 junk.length hm.symm (by omega)
  rw [hm] at e1
  have e2 := readU8_has (fl := fl) hd hv h2.left
  have e3 := readU8_has (fl := fl) hd hf h3.left
  have e4 := readRaw_has (fl := fl) hd h4.left 3 junkPad.length hpad.symm (by omega)
  rw [hpad] at e4
  have e5 := readU64_has (fl := fl || decide (flags % 2 = 1)) hd hn h5
  have hover : over magic junk = magic := by
    unfold over
    rw [hm, ← hj, List.drop_length, List.append_nil]
  rw [fromMemoryStream, Prog.bind_ok e1]
  rw [hover, Prog.bind_ok e2, Prog.bind_ok e3, Prog.bind_ok e4]
  by_cases hmag : magic = [0x49, 0x53, 0x44]
  · rw [if_neg (fun h => h hmag), if_neg (fun h => h hmag)]
    have hflip : checkByteOrder flags ⟨d, p + 3 + 1 + 1 + 3, fl⟩ = .ok () ⟨d, p + 3 + 1 + 1 + 3, fl || decide (flags % 2 = 1)⟩ := by
      unfold checkByteOrder
      rw [Nat.and_one_is_mod]
      rcases Nat.mod_two_eq_zero_or_one flags with e | e
      · rw [e]
        rw [if_neg (by decide)]
        show Res.ok () _ = _
        simp
      · rw [e]
        rw [if_pos (by decide)]
        show Res.ok () _ = _
        simp
    have hl := h.len
    have l8 : (Spec.number (fl || decide (flags % 2 = 1)) 8 n).length = 8 := number_length _ _ _
    simp only [List.length_append, l1, hm, hpad, l8] at hl
    rw [Prog.bind_ok hflip, Prog.bind_ok e5, Prog.bind_ok (Prog.get_apply _)]
    dsimp only
    have e6 : p + 3 + 1 + 1 + 3 + 8 = p + 16 := by omega
    rw [e6]
    show (if (p + 16 + n) % 2 ^ 64 > d.length then _ else _ : Prog RStream Status) _ = _
    by_cases hsz : (p + 16 + n) % 2 ^ 64 > d.length
    · rw [if_pos hsz, if_pos hsz, Prog.pure_apply]
    · rw [if_neg hsz, if_neg hsz]
      obtain ⟨v, e7⟩ := readUUID_any (d := d) (p := p + 16) (fl := fl || decide (flags % 2 = 1)) hd (by omega)
      obtain ⟨w, e8⟩ := readUUID_any (d := d) (p := min (p + 16 + 16) d.length) (fl := fl || decide (flags % 2 = 1)) hd
        (Nat.min_le_right _ _)
      rw [Prog.bind_ok e7, Prog.bind_ok e8, Prog.pure_apply]
      have : min (min (p + 16 + 16) d.length + 16) d.length = min (p + 48) d.length := by omega
      rw [this]
  · rw [if_pos hmag, if_pos hmag, Prog.pure_apply]

/-- **C48**, for a stream in its initial byte order that holds a whole header whose data size does not come within 1 EiB
of 2^64: the result is `Ok` exactly if the magic is "ISD" and the data size fits in what follows the header, and byte
flipping is on afterwards exactly if the magic is right and the file is big endian.

Missing: data sizes near 2^64 (`C48_false_size_wraps`), streams that were flipping already (`C48_false_stays_flipped`),
streams with less than 16 bytes left (`C48_false_short_stream`). -/
theorem C48_accepts_partial {d : Bytes} {p : Nat} (hd : Small d) (magic pad : Bytes) (version flags n : Nat)
    (hm : magic.length = 3) (hpad : pad.length = 3) (hv : version < 256) (hf : flags < 256) (hn : n < 2 ^ 64 - 2 ^ 60)
    (junk junkPad : Bytes) (hj : junk.length = 3) (hjp : junkPad.length = 3)
    (h : Has d p (magic ++ (Spec.number false 1 version ++ (Spec.number false 1 flags ++ (pad ++
      Spec.number (decide (flags % 2 = 1)) 8 n))))) :
    ∃ st p' fl', fromMemoryStream junk junkPad ⟨d, p, false⟩ = .ok st ⟨d, p', fl'⟩ ∧
      (st = .ok ↔ magic = [0x49, 0x53, 0x44] ∧ p + 16 + n ≤ d.length) ∧ (st ≠ .ok → st = .eInvalid) ∧
      (fl' = true ↔ magic = [0x49, 0x53, 0x44] ∧ flags % 2 = 1) ∧ p' ≤ d.length := by
  have hl := h.len
  have l1 : ∀ n, (Spec.number false 1 n).length = 1 := fun n => number_length _ _ _
  have l8 : ∀ b, (Spec.number b 8 n).length = 8 := fun b => number_length _ _ _
  simp only [List.length_append, l1, hm, hpad, l8] at hl
  have hd' : d.length < 2 ^ 60 := hd
  rw [C48_header (fl := false) hd magic pad version flags n hm hpad hv hf (by omega) junk junkPad hj hjp
    (by rw [Bool.false_or]; exact h)]
  have hw : (p + 16 + n) % 2 ^ 64 = p + 16 + n := Nat.mod_eq_of_lt (by omega)
  rw [hw, Bool.false_or]
  by_cases hmag : magic = [0x49, 0x53, 0x44]
  · rw [if_neg (fun h => h hmag)]
    by_cases hsz : p + 16 + n > d.length
    · rw [if_pos hsz]
      exact ⟨_, _, _, rfl, ⟨fun h => (nomatch h), fun h => by omega⟩, fun _ => rfl,
        ⟨fun h => ⟨hmag, of_decide_eq_true h⟩, fun h => decide_eq_true h.2⟩, by omega⟩
    · rw [if_neg hsz]
      exact ⟨_, _, _, rfl, ⟨fun _ => ⟨hmag, by omega⟩, fun _ => rfl⟩, fun h => absurd rfl h,
        ⟨fun h => ⟨hmag, of_decide_eq_true h⟩, fun h => decide_eq_true h.2⟩, Nat.min_le_right _ _⟩
  · rw [if_pos hmag]
    exact ⟨_, _, _, rfl, ⟨fun h => (nomatch h), fun h => absurd h.1 hmag⟩, fun _ => rfl,
      ⟨fun h => (nomatch h), fun h => absurd h.1 hmag⟩, by omega⟩

/-! ## Where it is false -/

/-- A header that declares 2^64 - 16 bytes, with nothing behind it. -/
def wrapPacket : Bytes := [0x49, 0x53, 0x44, 0, 0, 0, 0, 0, 0xf0, 0xff, 0xff, 0xff, 0xff, 0xff, 0xff, 0xff]

/-- False: the sum of position and data size wraps, and the header is accepted. -/
theorem C48_false_size_wraps :
    ∃ s', fromMemoryStream [0, 0, 0] [0, 0, 0] ⟨wrapPacket, 0, false⟩ = .ok .ok s' ∧ wrapPacket.length = 16 ∧
      fromLE (wrapPacket.drop 8) = 2 ^ 64 - 16 :=
  ⟨⟨wrapPacket, 16, false⟩, by decide +kernel, rfl, by decide +kernel⟩

/-- A little endian header without data. -/
def littlePacket : Bytes := [0x49, 0x53, 0x44, 0, 0, 0, 0, 0, 0, 0, 0, 0, 0, 0, 0, 0]

/-- False: a stream that was flipping stays so for a little endian file. -/
theorem C48_false_stays_flipped :
    fromMemoryStream [0, 0, 0] [0, 0, 0] ⟨littlePacket, 0, true⟩ = .ok .ok ⟨littlePacket, 16, true⟩ := by
  decide +kernel

/-- False: on an empty stream the magic is whatever the uninitialised header held; with "ISD" on the stack the result is
`Ok`. -/
theorem C48_false_short_stream :
    fromMemoryStream [0x49, 0x53, 0x44] [0, 0, 0] ⟨[], 0, false⟩ = .ok .ok ⟨[], 0, false⟩ := by
  decide +kernel

/-! ## Cases -/

/-- A big endian packet with 32 bytes of ids. -/
def bigPacket : Bytes := [0x49, 0x53, 0x44, 0, 1, 0, 0, 0, 0, 0, 0, 0, 0, 0, 0, 32] ++ List.replicate 32 7

example : fromMemoryStream [0, 0, 0] [0, 0, 0] ⟨bigPacket, 0, false⟩ = .ok .ok ⟨bigPacket, 48, true⟩ := by
  decide +kernel

/-- It meets the hypotheses of `C48_accepts_partial`. -/
example : Has bigPacket 0 ([0x49, 0x53, 0x44] ++ (Spec.number false 1 0 ++ (Spec.number false 1 1 ++ ([0, 0, 0] ++
    Spec.number (decide (1 % 2 = 1)) 8 32)))) :=
  ⟨[], List.replicate 32 7, by decide, rfl⟩

end ISD
