import Verif.Model.Writer
import Verif.Spec.Format
import Verif.Proofs.WriteStream

/-! # The writer's blocks are those of the format specification -/

namespace ISD

open WStream

/-- The stream is healthy, holds exactly `c`, and its position is the end. -/
structure WAt (s : WStream) (c : Bytes) (fl : Bool) : Prop where
  good : s.Good
  file : s.file = ⟨c, c.length, fl⟩

theorem WAt.pos {s : WStream} {c : Bytes} {fl : Bool} (h : WAt s c fl) : s.pos = c.length := congrArg Spec.File.pos h.file
theorem WAt.content {s : WStream} {c : Bytes} {fl : Bool} (h : WAt s c fl) : s.content = c := congrArg Spec.File.content h.file
theorem WAt.flip {s : WStream} {c : Bytes} {fl : Bool} (h : WAt s c fl) : s.flip = fl := congrArg Spec.File.flip h.file

/-- From any healthy stream at its end, the routine returns `a` and appends exactly `bs`. -/
def Appends {α : Type} (p : Prog WStream α) (fl : Bool) (a : α) (bs : Bytes) : Prop :=
  ∀ s c, WAt s c fl → c.length + bs.length < 2 ^ 63 → ∃ s', p s = .ok a s' ∧ WAt s' (c ++ bs) fl

theorem write_end (c bs : Bytes) (fl : Bool) :
    (⟨c, c.length, fl⟩ : Spec.File).write bs = ⟨c ++ bs, (c ++ bs).length, fl⟩ := by
  simp only [Spec.File.write, List.take_length, List.length_append, Spec.File.mk.injEq, and_true]
  rw [List.drop_eq_nil_of_le (by omega), List.append_nil]

theorem writeItems_appends (sc : Sc) (l : List sc.Val) (fl : Bool) : Appends (writeItems sc l) fl () (Spec.scalars fl sc l) := by
  intro s c h hb
  rw [scalars_length] at hb
  obtain ⟨s', e, g, f⟩ := writeItems_runs h.good sc l (by rw [h.pos]; omega)
  rw [h.flip, h.file, write_end] at f
  exact ⟨s', e, g, f⟩

theorem writeBytes_appends (bs : Bytes) (fl : Bool) : Appends (writeBytes bs) fl () bs := by
  intro s c h hb
  obtain ⟨s', e, g, f⟩ := writeRaw_runs h.good (bs := bs) (by rw [h.pos]; omega)
  rw [h.file, write_end] at f
  exact ⟨s', e, g, f⟩

theorem number_one (fl : Bool) (n : Nat) : Spec.number fl 1 n = [UInt8.ofNat n] := by
  have e : UInt8.ofNat (n % 256) = UInt8.ofNat n := by
    apply UInt8.toNat_inj.mp
    simp only [UInt8.toNat_ofNat']
    exact Nat.mod_mod n 256
  cases fl <;> simp [Spec.number, msbFirst_eq, lsbFirst_eq, leBytes, e]

theorem number_mod (fl : Bool) (k n : Nat) : Spec.number fl k (n % 256 ^ k) = Spec.number fl k n := by
  simp only [Spec.number, msbFirst_eq, lsbFirst_eq, leBytes_mod]

theorem writeU8_appends (n : Nat) (fl : Bool) : Appends (writeU8 n) fl () [UInt8.ofNat n] := by
  have := writeItems_appends .w1 [(BitVec.ofNat 8 n : Word 1)] fl
  have e : Spec.scalars fl .w1 [(BitVec.ofNat 8 n : Word 1)] = [UInt8.ofNat n] := by
    simp only [Spec.scalars, List.flatMap_cons, List.flatMap_nil, List.append_nil, Spec.scalar, BitVec.toNat_ofNat]
    rw [← number_one fl n]
    exact number_mod fl 1 n
  rw [e] at this
  exact this

theorem writeU16_appends (n : Nat) (fl : Bool) : Appends (writeU16 n) fl () (Spec.number fl 2 n) := by
  have := writeItems_appends .w2 [(BitVec.ofNat 16 n : Word 2)] fl
  have e : Spec.scalars fl .w2 [(BitVec.ofNat 16 n : Word 2)] = Spec.number fl 2 n := by
    simp only [Spec.scalars, List.flatMap_cons, List.flatMap_nil, List.append_nil, Spec.scalar, BitVec.toNat_ofNat]
    exact number_mod fl 2 n
  rw [e] at this
  exact this

theorem writeU64_appends (n : Nat) (fl : Bool) : Appends (writeU64 n) fl () (Spec.number fl 8 n) := by
  have := writeItems_appends .w8 [(BitVec.ofNat 64 n : Word 8)] fl
  have e : Spec.scalars fl .w8 [(BitVec.ofNat 64 n : Word 8)] = Spec.number fl 8 n := by
    simp only [Spec.scalars, List.flatMap_cons, List.flatMap_nil, List.append_nil, Spec.scalar, BitVec.toNat_ofNat]
    exact number_mod fl 8 n
  rw [e] at this
  exact this

/-- Overwriting the 8 bytes at an earlier position and coming back to the end. -/
theorem patch_at {s : WStream} {fl : Bool} (a old rest : Bytes) (hold : old.length = 8) (n : Nat)
    (h : WAt s (a ++ old ++ rest) fl) (hb : (a ++ old ++ rest).length < 2 ^ 63) :
    ∃ s1 s2 s3, setPosition a.length s = .ok () s1 ∧ writeU64 n s1 = .ok () s2 ∧
      setPosition (a ++ old ++ rest).length s2 = .ok () s3 ∧ WAt s3 (a ++ Spec.number fl 8 n ++ rest) fl := by
  have hle : a.length ≤ (a ++ old ++ rest).length := by simp only [List.length_append]; omega
  obtain ⟨s1, e1, g1, f1⟩ := setPosition_runs h.good (n := a.length) (by omega)
  rw [h.file] at f1
  have f1' : s1.file = ⟨a ++ old ++ rest, a.length, fl⟩ := by
    rw [f1, Spec.File.seek]
    simp only [Spec.File.mk.injEq, and_true]
    rw [Nat.sub_eq_zero_of_le hle]; simp
  have hp1 : s1.pos = a.length := congrArg Spec.File.pos f1'
  have hf1 : s1.flip = fl := congrArg Spec.File.flip f1'
  have hsc : Spec.scalars fl .w8 [(BitVec.ofNat 64 n : Word 8)] = Spec.number fl 8 n := by
    simp only [Spec.scalars, List.flatMap_cons, List.flatMap_nil, List.append_nil, Spec.scalar, BitVec.toNat_ofNat]
    exact number_mod fl 8 n
  obtain ⟨s2, e2, g2, f2⟩ := writeItems_runs g1 .w8 [(BitVec.ofNat 64 n : Word 8)]
    (by rw [hp1]; show a.length + 1 * 8 < 2 ^ 64; simp only [List.length_append] at hb; omega)
  rw [hf1, hsc, f1'] at f2
  have f2' : s2.file = ⟨a ++ Spec.number fl 8 n ++ rest, a.length + 8, fl⟩ := by
    rw [f2, Spec.File.write]
    simp only [Spec.File.mk.injEq, number_length, and_true]
    rw [List.append_assoc a old rest, List.take_left, ← List.append_assoc a old rest,
      List.drop_left' (by rw [List.length_append, hold])]
  have hlen : (a ++ old ++ rest).length = (a ++ Spec.number fl 8 n ++ rest).length := by
    simp only [List.length_append, number_length, hold]
  obtain ⟨s3, e3, g3, f3⟩ := setPosition_runs g2 (n := (a ++ old ++ rest).length) (by omega)
  refine ⟨s1, s2, s3, e1, e2, e3, g3, ?_⟩
  rw [f3, f2', Spec.File.seek]
  simp only [Spec.File.mk.injEq, and_true]
  rw [Nat.sub_eq_zero_of_le (by omega), hlen]; simp

theorem sub64_of_le {a b : Nat} (h : b ≤ a) (ha : a < 2 ^ 64) : sub64 a b = a - b := by
  unfold sub64
  rw [Nat.add_comm, Nat.add_sub_assoc h, Nat.add_mod_left, Nat.mod_eq_of_lt (by omega)]

/-- The head of a large block while it is open. -/
def openHeader (fl : Bool) (vt : Nat) (key : Bytes) : Bytes :=
  [UInt8.ofNat vt] ++ Spec.number fl 8 maxInt64 ++ [UInt8.ofNat key.length] ++ key

theorem openHeader_length (fl : Bool) (vt : Nat) (key : Bytes) : (openHeader fl vt key).length = key.length + 10 := by
  simp only [openHeader, List.length_append, List.length_singleton, number_length]; omega

theorem largeBlock_length (fl : Bool) (vt : Nat) (key payload : Bytes) :
    (Spec.largeBlock fl vt key payload).length = key.length + 10 + payload.length := by
  simp only [Spec.largeBlock, List.length_append, List.length_singleton, number_length]; omega

theorem beginLarge_appends (vt : Nat) (key : Bytes) (fl : Bool) :
    Appends (beginWriteLargeBlock vt key) fl true (openHeader fl vt key) := by
  intro s c h hb
  rw [openHeader_length] at hb
  obtain ⟨s1, e1, h1⟩ := writeU8_appends vt fl s c h (by simp; omega)
  obtain ⟨s2, e2, h2⟩ := writeU64_appends maxInt64 fl s1 _ h1 (by simp; omega)
  obtain ⟨s3, e3, h3⟩ := writeU8_appends key.length fl s2 _ h2 (by simp; omega)
  obtain ⟨s4, e4, h4⟩ := writeBytes_appends key fl s3 _ h3 (by simp; omega)
  refine ⟨s4, ?_, ?_⟩
  · have hp : s4.pos = wrap64 (s.pos + key.length + 10) := by
      rw [h4.pos, h.pos, wrap64, Nat.mod_eq_of_lt (by omega)]
      simp only [List.length_append, List.length_singleton, number_length]; omega
    simp only [beginWriteLargeBlock, Prog.bind_apply, Prog.get_apply, e1, e2, e3, e4, hp, Prog.pure_apply, beq_self_eq_true]
  · simpa only [openHeader, List.append_assoc] using h4

theorem endLarge_ok {s : WStream} {c : Bytes} {fl : Bool} (vt : Nat) (key payload : Bytes)
    (h : WAt s (c ++ openHeader fl vt key ++ payload) fl) (hb : (c ++ openHeader fl vt key ++ payload).length < 2 ^ 63)
    (start : Nat) (hs : start = c.length) :
    ∃ s', endWriteLargeBlock start s = .ok true s' ∧ WAt s' (c ++ Spec.largeBlock fl vt key payload) fl := by
  subst hs
  have e : c ++ openHeader fl vt key ++ payload =
      (c ++ [UInt8.ofNat vt]) ++ Spec.number fl 8 maxInt64 ++ ([UInt8.ofNat key.length] ++ key ++ payload) := by
    simp only [openHeader, List.append_assoc]
  have hlen : (c ++ openHeader fl vt key ++ payload).length = c.length + (key.length + 10) + payload.length := by
    simp only [List.length_append, openHeader_length]
  have hpos := h.pos
  rw [e] at h
  have hb' := hb
  rw [e] at hb'
  have hsz : sub64 (sub64 s.pos c.length) 9 = 1 + key.length + payload.length := by
    rw [hpos, hlen, sub64_of_le (a := c.length + (key.length + 10) + payload.length) (b := c.length) (by omega) (by omega),
      sub64_of_le (by omega) (by omega)]
    omega
  obtain ⟨s1, s2, s3, e1, e2, e3, h3⟩ :=
    patch_at (c ++ [UInt8.ofNat vt]) (Spec.number fl 8 maxInt64) ([UInt8.ofNat key.length] ++ key ++ payload) (by simp)
      (1 + key.length + payload.length) h hb'
  have hw : wrap64 (c.length + 1) = (c ++ [UInt8.ofNat vt]).length := by
    rw [wrap64, Nat.mod_eq_of_lt (by omega)]; simp
  rw [← e, ← hpos] at e3
  refine ⟨s3, ?_, ?_⟩
  · simp only [endWriteLargeBlock, Prog.bind_apply, Prog.get_apply, hsz, hw, e1, e2, e3, Prog.pure_apply]
    rw [decide_eq_true (by omega)]
  · simpa only [Spec.largeBlock, List.append_assoc] using h3


/-! ## Values -/

theorem ofNat_mod (n : Nat) : UInt8.ofNat (n % 256) = UInt8.ofNat n := by
  apply UInt8.toNat_inj.mp
  simp only [UInt8.toNat_ofNat']
  exact Nat.mod_mod n 256

theorem smallBlock_length (vt : Nat) (value key : Bytes) :
    (Spec.smallBlock vt value key).length = 2 + value.length + key.length := by
  simp only [Spec.smallBlock, List.length_append, List.length_cons, List.length_nil]

theorem writeSingleItems_appends (vt : Nat) (sc : Sc) (n : Nat) (hn : 0 < sc.size * n) (key : Bytes)
    (v : Option (Vector sc.Val n)) (fl : Bool) :
    Appends (writeSingleItems vt sc n key v) fl true
      (Spec.smallBlock vt (v.elim [] fun x => Spec.scalars fl sc x.toList) key) := by
  intro s c h hb
  rw [smallBlock_length] at hb
  cases v with
  | none =>
    simp only [Option.elim_none, List.length_nil] at hb
    obtain ⟨s1, e1, h1⟩ := writeU8_appends vt fl s c h (by simp; omega)
    obtain ⟨s2, e2, h2⟩ := writeU8_appends ((0 + key.length) % 256) fl s1 _ h1 (by simp; omega)
    obtain ⟨s3, e3, h3⟩ := writeBytes_appends key fl s2 _ h2 (by simp; omega)
    refine ⟨s3, ?_, ?_⟩
    · have hp : s3.pos = wrap64 (s.pos + 2 + (0 + key.length)) := by
        rw [h3.pos, h.pos, wrap64, Nat.mod_eq_of_lt (b := 2 ^ 64) (by omega)]
        simp only [List.length_append, List.length_singleton]; omega
      simp only [writeSingleItems, Option.isSome_none, Bool.false_eq_true, if_false, Prog.bind_apply, Prog.get_apply, e1, e2,
        Prog.when, gt_iff_lt, Nat.lt_irrefl, Prog.pure_apply, e3, hp, beq_self_eq_true]
    · simpa only [Spec.smallBlock, Option.elim_none, List.length_nil, List.append_assoc, ofNat_mod, List.append_nil,
        List.cons_append, List.nil_append] using h3
  | some x =>
    have hlen : (Spec.scalars fl sc x.toList).length = sc.size * n := by
      rw [scalars_length, Vector.length_toList, Nat.mul_comm]
    simp only [Option.elim_some, hlen] at hb
    obtain ⟨s1, e1, h1⟩ := writeU8_appends vt fl s c h (by simp; omega)
    obtain ⟨s2, e2, h2⟩ := writeU8_appends ((sc.size * n + key.length) % 256) fl s1 _ h1 (by simp; omega)
    obtain ⟨s3, e3, h3⟩ := writeItems_appends sc x.toList fl s2 _ h2
      (by simp only [hlen, List.length_append, List.length_singleton]; omega)
    obtain ⟨s4, e4, h4⟩ := writeBytes_appends key fl s3 _ h3
      (by simp only [hlen, List.length_append, List.length_singleton]; omega)
    refine ⟨s4, ?_, ?_⟩
    · have hp : s4.pos = wrap64 (s.pos + 2 + (sc.size * n + key.length)) := by
        rw [h4.pos, h.pos, wrap64, Nat.mod_eq_of_lt (b := 2 ^ 64) (by omega)]
        simp only [List.length_append, List.length_singleton, hlen]; omega
      simp only [writeSingleItems, Option.isSome_some, if_true, Prog.bind_apply, Prog.get_apply, e1, e2,
        Prog.when, gt_iff_lt, hn, Option.elim_some, e3, Prog.pure_apply, e4, hp, beq_self_eq_true]
    · simpa only [Spec.smallBlock, Option.elim_some, hlen, List.append_assoc, ofNat_mod,
        List.cons_append, List.nil_append] using h4

theorem scalars_bool (fl b : Bool) :
    Spec.scalars fl .w1 (#v[if b then 1#8 else 0#8] : Vector (Word 1) 1).toList = [if b then 1 else 0] := by
  cases b <;> cases fl <;> decide

theorem writeSingleBool_appends (key : Bytes) (v : Option Bool) (fl : Bool) :
    Appends (writeSingleBool key v) fl true (Spec.smallBlock 0x01 (v.elim [] fun b => [if b then 1 else 0]) key) := by
  have := writeSingleItems_appends 0x01 .w1 1 (by decide) key
    (v.map fun b => (#v[if b then 1#8 else 0#8] : Vector (Word 1) 1)) fl
  cases v with
  | none => exact this
  | some b =>
    simp only [Option.map_some, Option.elim_some, scalars_bool] at this
    exact this

theorem writeSingleString_appends (key : Bytes) (v : Option Bytes) (fl : Bool) :
    Appends (writeSingleString key v) fl true (Spec.largeBlock fl 0xe0 key (v.elim [] (Spec.sizedString fl))) := by
  intro s c h hb
  rw [largeBlock_length] at hb
  have hO := openHeader_length fl vtString key
  obtain ⟨s1, e1, h1⟩ := beginLarge_appends vtString key fl s c h (by rw [hO]; omega)
  cases v with
  | none =>
    have h1' : WAt s1 (c ++ openHeader fl vtString key ++ []) fl := by rw [List.append_nil]; exact h1
    obtain ⟨s2, e2, h2⟩ := endLarge_ok vtString key [] h1' (by simp only [List.append_nil, List.length_append, hO]; omega) s.pos h.pos
    refine ⟨s2, ?_, h2⟩
    simp only [writeSingleString, Prog.bind_apply, Prog.get_apply, e1, Bool.not_true, Bool.false_eq_true, if_false, e2,
      Prog.pure_apply]
  | some str =>
    have hl : (Spec.sizedString fl str).length = 8 + str.length := by
      simp only [Spec.sizedString, List.length_append, number_length]
    simp only [Option.elim_some, hl] at hb
    obtain ⟨s2, e2, h2⟩ := writeU64_appends str.length fl s1 _ h1 (by simp only [List.length_append, hO, number_length]; omega)
    obtain ⟨s3, e3, h3⟩ : ∃ s3, Prog.when (str.length > 0) (writeBytes str) s2 = .ok () s3 ∧
        WAt s3 (c ++ openHeader fl vtString key ++ Spec.number fl 8 str.length ++ str) fl := by
      by_cases h0 : str.length > 0
      · simp only [Prog.when, if_pos h0]
        exact writeBytes_appends str fl s2 _ h2 (by simp only [List.length_append, hO, number_length]; omega)
      · have : str = [] := List.eq_nil_of_length_eq_zero (by omega)
        subst this
        refine ⟨s2, by simp only [Prog.when, if_neg h0, Prog.pure_apply], ?_⟩
        rw [List.append_nil]; exact h2
    have h3' : WAt s3 (c ++ openHeader fl vtString key ++ Spec.sizedString fl str) fl := by
      simpa only [Spec.sizedString, List.append_assoc] using h3
    obtain ⟨s4, e4, h4⟩ := endLarge_ok vtString key _ h3' (by simp only [List.length_append, hO, hl]; omega) s.pos h.pos
    refine ⟨s4, ?_, h4⟩
    have hp : s4.pos = wrap64 (s1.pos + wrap64 (str.length + 8)) := by
      rw [h4.pos, h1.pos, wrap64, wrap64, Nat.mod_eq_of_lt (a := str.length + 8) (by omega), Nat.mod_eq_of_lt]
      · simp only [List.length_append, largeBlock_length, hO, hl]; omega
      · simp only [List.length_append, hO]; omega
    simp only [writeSingleString, Prog.bind_apply, Prog.get_apply, e1, Bool.not_true, Bool.false_eq_true, if_false, e2, e3, e4,
      hp, bne_self_eq_false, Prog.pure_apply]

theorem lor_256 (n : Nat) (h : n < 256) : 0x100 ||| n = n + 0x100 := by
  have := Nat.two_pow_add_eq_or_of_lt (i := 8) (b := n) h 1
  rw [show (2 ^ 8 * 1 : Nat) = 0x100 from rfl] at this
  rw [← this, Nat.add_comm]

theorem idx_scalars (fl : Bool) (idx : List (Word 4)) :
    Spec.scalars fl .w4 idx = idx.flatMap fun w => Spec.number fl 4 w.toNat := rfl

theorem idx_length (fl : Bool) (idx : List (Word 4)) :
    (idx.flatMap fun w => Spec.number fl 4 w.toNat).length = idx.length * 4 := scalars_length fl .w4 idx

theorem arrayHeader_length (fl : Bool) (k n : Nat) (index : Option (List (Word 4))) :
    (Spec.arrayHeader fl k n index).length = 10 + index.elim 0 (fun l => 8 + l.length * 4) := by
  cases index with
  | none => simp only [Spec.arrayHeader, List.length_append, number_length, List.length_nil, Option.elim_none]
  | some l => simp only [Spec.arrayHeader, List.length_append, number_length, idx_length, Option.elim_some]

theorem writeArrayMeta_appends (itemSize count : Nat) (hs : itemSize < 256) (index : Option (List (Word 4))) (fl : Bool) :
    Appends (writeArrayMetadataAndIndex itemSize count index) fl true (Spec.arrayHeader fl itemSize count index) := by
  intro s c h hb
  rw [arrayHeader_length] at hb
  cases index with
  | none =>
    simp only [Option.elim_none] at hb
    obtain ⟨s1, e1, h1⟩ := writeU16_appends (0 ||| itemSize) fl s c h (by simp; omega)
    obtain ⟨s2, e2, h2⟩ := writeU64_appends count fl s1 _ h1 (by simp only [List.length_append, number_length]; omega)
    refine ⟨s2, ?_, ?_⟩
    · have hp : s2.pos = wrap64 (s.pos + 2 + 8 + 0) := by
        rw [h2.pos, h.pos, wrap64, Nat.mod_eq_of_lt (by omega)]
        simp only [List.length_append, number_length]
      simp only [writeArrayMetadataAndIndex, Option.isSome_none, Bool.false_eq_true, if_false, Prog.bind_apply, Prog.get_apply,
        e1, e2, hp, Prog.pure_apply, beq_self_eq_true]
    · simpa only [Spec.arrayHeader, Option.isSome_none, Bool.false_eq_true, if_false, Nat.add_zero, Nat.zero_or, List.append_nil,
        List.append_assoc] using h2
  | some idx =>
    simp only [Option.elim_some] at hb
    obtain ⟨s1, e1, h1⟩ := writeU16_appends (0x100 ||| itemSize) fl s c h (by simp; omega)
    obtain ⟨s2, e2, h2⟩ := writeU64_appends count fl s1 _ h1 (by simp; omega)
    obtain ⟨s3, e3, h3⟩ := writeU64_appends idx.length fl s2 _ h2 (by simp; omega)
    obtain ⟨s4, e4, h4⟩ := writeItems_appends .w4 idx fl s3 _ h3
      (by simp only [List.length_append, number_length, scalars_length, Sc.size]; omega)
    refine ⟨s4, ?_, ?_⟩
    · have hp : s4.pos = wrap64 (s.pos + 2 + 8 + (idx.length * 4 + 8)) := by
        rw [h4.pos, h.pos, wrap64, Nat.mod_eq_of_lt (by omega)]
        simp only [List.length_append, number_length, scalars_length, Sc.size]; omega
      simp only [writeArrayMetadataAndIndex, Option.isSome_some, if_true, Prog.bind_apply, Prog.get_apply,
        e1, e2, e3, e4, hp, Prog.pure_apply, beq_self_eq_true]
    · rw [lor_256 _ hs] at h4
      simpa only [Spec.arrayHeader, Option.isSome_some, if_true, List.append_assoc, idx_scalars] using h4

/-- The common frame of the three array writers: header, payload, patch. -/
theorem frame_ok {s : WStream} {c : Bytes} {fl : Bool} (vt : Nat) (key payload : Bytes) (h : WAt s c fl)
    (hb : c.length + (Spec.largeBlock fl vt key payload).length < 2 ^ 63) (body : Prog WStream Unit)
    (hbody : Appends body fl () payload) :
    ∃ s1 s2 s3, beginWriteLargeBlock vt key s = .ok true s1 ∧ body s1 = .ok () s2 ∧
      endWriteLargeBlock s.pos s2 = .ok true s3 ∧ WAt s3 (c ++ Spec.largeBlock fl vt key payload) fl := by
  rw [largeBlock_length] at hb
  have hO := openHeader_length fl vt key
  obtain ⟨s1, e1, h1⟩ := beginLarge_appends vt key fl s c h (by rw [hO]; omega)
  obtain ⟨s2, e2, h2⟩ := hbody s1 _ h1 (by simp only [List.length_append, hO]; omega)
  obtain ⟨s3, e3, h3⟩ := endLarge_ok vt key payload h2 (by simp only [List.length_append, hO]; omega) s.pos h.pos
  exact ⟨s1, s2, s3, e1, e2, e3, h3⟩

theorem flat_length {α : Type} {n : Nat} (l : List (Vector α n)) : (l.flatMap Vector.toList).length = l.length * n := by
  induction l with
  | nil => simp
  | cons v l ih => rw [List.flatMap_cons, List.length_append, ih, Vector.length_toList, List.length_cons, Nat.succ_mul, Nat.add_comm]

theorem writeArrayItems_appends (vt : Nat) (sc : Sc) (n : Nat) (key : Bytes)
    (items : Option (List (Vector sc.Val n))) (index : Option (List (Word 4))) (fl : Bool) :
    Appends (writeArrayItems vt sc n key items index) fl true (Spec.largeBlock fl vt key
      (items.elim [] fun l => Spec.arrayHeader fl sc.size (l.length * n) index ++ Spec.scalars fl sc (l.flatMap Vector.toList))) := by
  intro s c h hb
  have hsz : sc.size < 256 := by cases sc <;> decide
  have hsz0 : 0 < sc.size := by cases sc <;> decide
  cases items with
  | none =>
    obtain ⟨s1, s2, s3, e1, e2, e3, h3⟩ := frame_ok vt key [] h hb (pure ()) (by
      intro s c h _; exact ⟨s, rfl, by rw [List.append_nil]; exact h⟩)
    cases e2
    refine ⟨s3, ?_, h3⟩
    simp only [writeArrayItems, Prog.bind_apply, Prog.get_apply, e1, Bool.not_true, Bool.false_eq_true, if_false, e3,
      Prog.pure_apply]
  | some l =>
    have hlb := hb
    simp only [Option.elim_some, largeBlock_length, List.length_append, scalars_length, flat_length, arrayHeader_length] at hlb
    have hln : l.length * n < 2 ^ 63 := by
      have : l.length * n * 1 ≤ l.length * n * sc.size := Nat.mul_le_mul_left _ hsz0
      omega
    have hw : wrap64 (l.length * n) = l.length * n := Nat.mod_eq_of_lt (by omega)
    have hO := openHeader_length fl vt key
    obtain ⟨s1, e1, h1⟩ := beginLarge_appends vt key fl s c h (by rw [hO]; omega)
    obtain ⟨s2, e2, h2⟩ := writeArrayMeta_appends sc.size (l.length * n) hsz index fl s1 _ h1
      (by simp only [List.length_append, hO, arrayHeader_length]; omega)
    obtain ⟨s3, e3, h3⟩ := writeItems_appends sc (l.flatMap Vector.toList) fl s2 _ h2
      (by simp only [List.length_append, hO, arrayHeader_length, scalars_length, flat_length]; omega)
    have h3' := h3
    rw [List.append_assoc] at h3'
    obtain ⟨s4, e4, h4⟩ := endLarge_ok vt key _ h3'
      (by simp only [List.length_append, hO, arrayHeader_length, scalars_length, flat_length]; omega) s.pos h.pos
    by_cases h0 : l.length * n > 0
    · refine ⟨s4, ?_, h4⟩
      have hp : s3.pos = wrap64 (s2.pos + l.length * n * sc.size) := by
        rw [h3.pos, h2.pos, wrap64, Nat.mod_eq_of_lt]
        · rw [List.length_append, scalars_length, flat_length]
        · simp only [List.length_append, hO, arrayHeader_length]; omega
      simp only [writeArrayItems, Prog.bind_apply, Prog.get_apply, e1, Bool.not_true, Bool.false_eq_true, if_false, hw, e2, e3,
        e4, hp, bne_self_eq_false, Prog.pure_apply, Prog.ite_apply, if_pos h0]
    · have hnil : l.flatMap Vector.toList = [] := List.eq_nil_of_length_eq_zero (by rw [flat_length]; omega)
      have hs : Spec.scalars fl sc (l.flatMap Vector.toList) = [] := by rw [hnil]; rfl
      rw [hs, List.append_nil] at h4 h3'
      have h2' := h2
      obtain ⟨s4, e4, h4⟩ := endLarge_ok vt key _ h2 (by simp only [List.length_append, hO, arrayHeader_length]; omega) s.pos h.pos
      refine ⟨s4, ?_, ?_⟩
      · simp only [writeArrayItems, Prog.bind_apply, Prog.get_apply, e1, Bool.not_true, Bool.false_eq_true, if_false, hw, e2,
          e4, Prog.pure_apply, Prog.ite_apply, if_neg h0]
      · simpa only [Option.elim_some, hs, List.append_nil] using h4

end ISD
