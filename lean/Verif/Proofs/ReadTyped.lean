import Verif.Proofs.ReadBlocks

/-! # Arrays -/

namespace ISD

open RStream


theorem and_ff (n : Nat) : n &&& 0xff = n % 256 := Nat.and_two_pow_sub_one_eq_mod n 8

theorem and_bit (n i : Nat) : n &&& 2 ^ i ≠ 0 ↔ n.testBit i = true := by
  constructor
  · intro h
    apply Decidable.byContradiction
    intro hb
    apply h
    apply Nat.eq_of_testBit_eq
    intro j
    rw [Nat.testBit_and, Nat.testBit_two_pow]
    by_cases hij : i = j
    · subst hij; simp at hb; simp [hb]
    · simp [hij]
  · intro h e
    have := congrArg (Nat.testBit · i) e
    simp [Nat.testBit_and, h] at this

theorem flag_fields (k : Nat) (hk : k < 256) (b : Bool) :
    (k + if b then 0x100 else 0) &&& 0xff = k ∧ ((k + if b then 0x100 else 0) &&& 0x200 = 0) ∧
      ((k + if b then 0x100 else 0) &&& 0x100 ≠ 0 ↔ b = true) := by
  refine ⟨by rw [and_ff]; split <;> omega, ?_, ?_⟩
  · apply Decidable.byContradiction
    intro h
    have := (and_bit _ 9).mp h
    rw [Nat.testBit, Nat.shiftRight_eq_div_pow] at this
    have e : (k + if b then 0x100 else 0) / 2 ^ 9 = 0 := by rw [Nat.div_eq_zero_iff]; right; split <;> omega
    rw [e] at this
    simp at this
  · rw [show (0x100 : Nat) = 2 ^ 8 from rfl, and_bit, Nat.testBit, Nat.shiftRight_eq_div_pow]
    cases b with
    | false =>
      have e : (k + 0) / 2 ^ 8 = 0 := by rw [Nat.div_eq_zero_iff]; right; omega
      simp only [Bool.false_eq_true, if_false, e]; decide
    | true =>
      have e : (k + 2 ^ 8) / 2 ^ 8 = 1 := by omega
      simp only [if_true, e]; decide

theorem readMeta_has {env : REnv} (he : env.Lucky) {d : Bytes} {pos : Nat} {fl : Bool} (k n : Nat) (hk : k < 256) (hn : n < 2 ^ 64)
    (index : Option (List (Word 4))) (hd : Small d) (h : Has d pos (Spec.arrayHeader fl k n index)) (blockEnd : Nat)
    (hbe : pos + (Spec.arrayHeader fl k n index).length ≤ blockEnd) (hbe2 : blockEnd ≤ d.length) :
    readArrayMetadataAndIndex env blockEnd index.isSome ⟨d, pos, fl⟩ =
      .ok (some (k, n, index.getD [])) ⟨d, pos + (Spec.arrayHeader fl k n index).length, fl⟩ := by
  obtain ⟨f1, f2, f3⟩ := flag_fields k hk index.isSome
  rw [arrayHeader_length] at hbe ⊢
  unfold Spec.arrayHeader at h
  rw [Has.append, Has.append, List.length_append, number_length, number_length, ← Nat.add_assoc] at h
  obtain ⟨⟨h1, h2⟩, h3⟩ := h
  have e1 := readU16_has (fl := fl) hd (by split <;> omega) h1
  have e2 := readU64_has (fl := fl) hd hn h2
  cases index with
  | none =>
    simp only [Option.isSome_none, Bool.false_eq_true, if_false, ne_eq, iff_false, Decidable.not_not] at f1 f2 f3 e1
    simp only [Option.elim_none] at hbe ⊢
    have hw : wrap64 (pos + 2 + 8) = pos + 2 + 8 := Nat.mod_eq_of_lt (by omega)
    rw [readArrayMetadataAndIndex, Prog.bind_ok (Prog.get_apply _), Prog.bind_ok e1, f1, if_neg (by rw [f2]; simp), Prog.bind_ok e2,
      if_neg (by rw [f3]; simp), if_neg (by simp), Prog.bind_ok (Prog.get_apply _), if_neg (by rw [hw]; simp [Sc.size]), Prog.pure_apply]
    rfl
  | some idx =>
    simp only [Option.isSome_some, if_true, ne_eq, iff_true] at f1 f2 f3 e1
    simp only [Option.elim_some] at hbe ⊢
    rw [Has.append, number_length, ← idx_scalars] at h3
    have hb := h3.2.len
    rw [scalars_length] at hb
    simp only [Sc.size] at hb
    have e3 := readU64_has (fl := fl) hd (by omega) h3.1
    have e4 := readItems_has .w4 idx (List.replicate idx.length (Sc.zero .w4)) hd h3.2 idx.length rfl (by simp)
    have hs : sub64 blockEnd (pos + 2 + 8 + 8) = blockEnd - (pos + 18) := sub64_of_le (by omega) (by omega)
    have hw : wrap64 (pos + 2 + 8 + 8 + idx.length * 4) = pos + 2 + 8 + 8 + idx.length * 4 := by
      rw [wrap64, Nat.mod_eq_of_lt (by omega)]
    have c1 : ¬ idx.length > (blockEnd - (pos + 18)) / 4 := by omega
    rw [readArrayMetadataAndIndex, Prog.bind_ok (Prog.get_apply _), Prog.bind_ok e1, f1, if_neg (by rw [f2]; simp), Prog.bind_ok e2,
      if_pos f3, if_neg (by simp), Prog.bind_ok e3, Prog.bind_ok (Prog.get_apply _),
      if_neg (show ¬ idx.length > sub64 blockEnd (pos + 2 + 8 + 8) / 4 by rw [hs]; exact c1),
      Prog.bind_ok (resizeTo_ok he (by omega) _), Prog.bind_ok e4]
    dsimp only
    rw [Prog.bind_ok (Prog.get_apply _), if_neg (by rw [hw]; simp [Sc.size]), Prog.pure_apply]
    simp only [Res.ok.injEq, RStream.mk.injEq, true_and, and_true, Sc.size, Option.getD_some]
    omega

/-- The frame of every array read: the header of the block. -/
theorem readFrame {d : Bytes} {pos : Nat} {fl : Bool} {vt : Nat} {key a b : Bytes}
    (h : Has d pos (Spec.largeBlock fl vt key (a ++ b))) :
    Has d (pos + 10 + key.length) a ∧ Has d (pos + 10 + key.length + a.length) b ∧
      pos + 10 + key.length + a.length + b.length ≤ d.length := by
  obtain ⟨-, -, -, -, h5⟩ := h.large
  exact ⟨h5.left, h5.right, h5.right.len⟩

theorem readEmpty_none {α : Type} (e : Nat) (s : RStream) (h : s.pos = e) :
    endReadEmptyLargeBlock (α := α) true e s = .ok .successEmpty s := by
  rw [endReadEmptyLargeBlock, if_pos rfl, Prog.bind_ok (endReadLarge_ok h), if_neg (by decide), Prog.pure_apply]

theorem groupVals_flat {α : Type} (n : Nat) (z : α) (l : List (Vector α n)) :
    groupVals n z l.length (l.flatMap Vector.toList) = l := by
  induction l with
  | nil => rfl
  | cons v l ih =>
    rw [List.length_cons, groupVals, List.flatMap_cons, List.drop_left' (by simp), ih]
    congr 1
    apply Vector.ext
    intro i hi
    rw [Vector.getElem_ofFn]
    simp only [List.getD_eq_getElem?_getD]
    rw [List.getElem?_append_left (by simpa using hi), List.getElem?_eq_getElem (by simpa using hi)]
    simp

theorem readArrayItems_some {env : REnv} (he : env.Lucky) (vt : Nat) (hvt : vt < 256) (sc : Sc) (n : Nat) (h0 : 0 < n)
    (key : Bytes) (hk : key.length ≤ 40) (ea : Bool) (fl : Bool) (l : List (Vector sc.Val n)) (index : Option (List (Word 4))) :
    Consumes (readArrayItems env vt sc n key ea index.isSome) fl (.success (l, index.getD []))
      (Spec.largeBlock fl vt key
        (Spec.arrayHeader fl sc.size (l.length * n) index ++ Spec.scalars fl sc (l.flatMap Vector.toList))) := by
  intro d pos hd h
  have e1 := beginReadLarge_has env hd hvt hk h
  obtain ⟨h2, h3, hl⟩ := readFrame h
  have hs0 : 0 < sc.size := by cases sc <;> decide
  have hs1 : sc.size < 256 := by cases sc <;> decide
  have hsl : (Spec.scalars fl sc (l.flatMap Vector.toList)).length = l.length * n * sc.size := by
    rw [scalars_length, flat_length]
  have hle : l.length * n ≤ l.length * n * sc.size := Nat.le_mul_of_pos_right _ hs0
  rw [largeBlock_length]
  rw [List.length_append] at e1 ⊢
  rw [hsl] at e1 hl ⊢
  have e2 := readMeta_has he sc.size (l.length * n) hs1 (by omega) index hd h2
    (pos + 10 + key.length + ((Spec.arrayHeader fl sc.size (l.length * n) index).length + l.length * n * sc.size)) (by omega) (by omega)
  have hH : 10 ≤ (Spec.arrayHeader fl sc.size (l.length * n) index).length := by rw [arrayHeader_length]; omega
  have e3 := readItems_has sc (l.flatMap Vector.toList) (List.replicate (l.length * n) sc.zero) hd h3 (l.length * n)
    (flat_length l).symm (by simp)
  rw [flat_length] at e3
  have hdiv : l.length * n / n = l.length := Nat.mul_div_cancel _ h0
  have hg := groupVals_flat n sc.zero l
  generalize (Spec.arrayHeader fl sc.size (l.length * n) index).length = H at *
  have hsub : sub64 (pos + 10 + key.length + (H + l.length * n * sc.size)) (pos + 10 + key.length + H) / sc.size = l.length * n := by
    rw [sub64_of_le (by omega) (by omega)]
    rw [show pos + 10 + key.length + (H + l.length * n * sc.size) - (pos + 10 + key.length + H) = l.length * n * sc.size by omega]
    exact Nat.mul_div_cancel _ hs0
  have hE : pos + 10 + key.length + H + l.length * n * sc.size = pos + 10 + key.length + (H + l.length * n * sc.size) := by omega
  have hE' : pos + (key.length + 10 + (H + l.length * n * sc.size)) = pos + 10 + key.length + (H + l.length * n * sc.size) := by omega
  have hr : l.length * (sc.size * n) < 2 ^ 63 := by
    have : l.length * (sc.size * n) = l.length * n * sc.size := by rw [Nat.mul_comm sc.size, Nat.mul_assoc]
    omega
  rw [hE'] 
  rw [hE] at e3
  generalize hEE : pos + 10 + key.length + (H + l.length * n * sc.size) = E at *
  have c1 : ¬ E = 0 := by omega
  have c2 : ¬ E = (⟨d, pos + 10 + key.length, fl⟩ : RStream).pos := by show ¬ E = pos + 10 + key.length; omega
  have c3 : ¬ l.length * n > sub64 E (⟨d, pos + 10 + key.length + H, fl⟩ : RStream).pos / sc.size := by
    show ¬ l.length * n > sub64 E (pos + 10 + key.length + H) / sc.size
    omega
  rw [readArrayItems, Prog.bind_ok e1, if_neg c1, Prog.bind_ok (Prog.get_apply _), if_neg c2, Prog.bind_ok e2]
  dsimp only
  rw [if_neg (by simp), Prog.bind_ok (Prog.get_apply _), if_neg c3, hdiv, Prog.bind_ok (resizeTo_ok he hr _), Prog.bind_ok e3]
  dsimp only
  rw [if_neg (by simp), Prog.bind_ok (endReadLarge_ok (s := ⟨d, E, fl⟩) (e := E) rfl), if_neg (by decide), Prog.pure_apply, hg]

theorem readArrayItems_none (env : REnv) (vt : Nat) (hvt : vt < 256) (sc : Sc) (n : Nat) 
    (key : Bytes) (hk : key.length ≤ 40) (fl wi : Bool) :
    Consumes (readArrayItems env vt sc n key true wi) fl .successEmpty (Spec.largeBlock fl vt key []) := by
  intro d pos hd h
  have e1 := beginReadLarge_has env hd hvt hk h
  rw [largeBlock_length]
  simp only [List.length_nil, Nat.add_zero] at e1 ⊢
  rw [readArrayItems, Prog.bind_ok e1, if_neg (by omega), Prog.bind_ok (Prog.get_apply _), if_pos rfl,
    readEmpty_none _ (⟨d, pos + 10 + key.length, fl⟩ : RStream) rfl]
  simp only [Res.ok.injEq, RStream.mk.injEq, true_and, and_true]
  omega

theorem readArrayBool_some {env : REnv} (he : env.Lucky)
    (key : Bytes) (hk : key.length ≤ 40) (ea : Bool) (fl : Bool) (l : List Bool) (index : Option (List (Word 4))) :
    Consumes (readArrayBool env key ea index.isSome) fl (.success (l, index.getD []))
      (Spec.largeBlock fl 0x41 key (Spec.arrayHeader fl 0 l.length index ++ Spec.packBools l)) := by
  intro d pos hd h
  have e1 := beginReadLarge_has env hd (by decide) hk h
  obtain ⟨h2, h3, hl⟩ := readFrame h
  rw [largeBlock_length]
  rw [List.length_append] at e1 ⊢
  have e3 := readRaw_has (fl := fl) hd h3 ((l.length + 7) / 8) ((l.length + 7) / 8) (packBools_length l).symm (Nat.le_refl _)
  rw [packBools_length] at e1 hl e3 ⊢
  have e2 := readMeta_has he 0 l.length (by decide) (by omega) index hd h2
    (pos + 10 + key.length + ((Spec.arrayHeader fl 0 l.length index).length + (l.length + 7) / 8)) (by omega) (by omega)
  have hH : 10 ≤ (Spec.arrayHeader fl 0 l.length index).length := by rw [arrayHeader_length]; omega
  generalize (Spec.arrayHeader fl 0 l.length index).length = H at *
  have hsub : sub64 (pos + 10 + key.length + (H + (l.length + 7) / 8)) (pos + 10 + key.length + H) = (l.length + 7) / 8 := by
    rw [sub64_of_le (by omega) (by omega)]; omega
  have hE : pos + 10 + key.length + H + (l.length + 7) / 8 = pos + 10 + key.length + (H + (l.length + 7) / 8) := by omega
  have hE' : pos + (key.length + 10 + (H + (l.length + 7) / 8)) = pos + 10 + key.length + (H + (l.length + 7) / 8) := by omega
  rw [hE'] 
  rw [hE] at e3
  generalize hEE : pos + 10 + key.length + (H + (l.length + 7) / 8) = E at *
  have c1 : ¬ E = 0 := by omega
  have c2 : ¬ E = (⟨d, pos + 10 + key.length, fl⟩ : RStream).pos := by show ¬ E = pos + 10 + key.length; omega
  have hw : wrap64 (l.length + 7) / 8 = (l.length + 7) / 8 := by rw [wrap64, Nat.mod_eq_of_lt (by omega)]
  have c3 : ¬ (l.length + 7) / 8 > sub64 E (⟨d, pos + 10 + key.length + H, fl⟩ : RStream).pos := by
    show ¬ (l.length + 7) / 8 > sub64 E (pos + 10 + key.length + H)
    omega
  have hu := unpackLoop_ok ⟨d, E, fl⟩ l 0 l.length (Nat.zero_add _)
  rw [List.drop_zero] at hu
  have hp : Spec.packBools l ++ List.replicate ((l.length + 7) / 8 - (Spec.packBools l).length) 0 = Spec.packBools l := by simp
  rw [readArrayBool, Prog.bind_ok e1, if_neg c1, Prog.bind_ok (Prog.get_apply _), if_neg c2, Prog.bind_ok e2]
  dsimp only
  rw [Prog.bind_ok (Prog.get_apply _), hw, if_neg c3, Prog.bind_ok (resizeBool_ok he (by omega) _),
    Prog.bind_ok (resizeTo_ok he (by omega) _), Prog.bind_ok e3, hp, Prog.bind_ok hu,
    Prog.bind_ok (endReadLarge_ok (s := ⟨d, E, fl⟩) (e := E) rfl), if_neg (by decide), Prog.pure_apply]

theorem readArrayBool_none (env : REnv) (key : Bytes) (hk : key.length ≤ 40) (fl wi : Bool) :
    Consumes (readArrayBool env key true wi) fl .successEmpty (Spec.largeBlock fl 0x41 key []) := by
  intro d pos hd h
  have e1 := beginReadLarge_has env hd (by decide) hk h
  rw [largeBlock_length]
  simp only [List.length_nil, Nat.add_zero] at e1 ⊢
  rw [readArrayBool, Prog.bind_ok e1, if_neg (by omega), Prog.bind_ok (Prog.get_apply _), if_pos rfl,
    readEmpty_none _ (⟨d, pos + 10 + key.length, fl⟩ : RStream) rfl]
  simp only [Res.ok.injEq, RStream.mk.injEq, true_and, and_true]
  omega

theorem readStrings_has {env : REnv} (he : env.Lucky) {d : Bytes} {fl : Bool} (hd : Small d) (l : List Bytes) (pos blockEnd : Nat)
    (h : Has d pos (l.flatMap (Spec.sizedString fl))) (hb : pos + (l.flatMap (Spec.sizedString fl)).length ≤ blockEnd)
    (hb2 : blockEnd ≤ d.length) :
    readStrings env blockEnd l.length ⟨d, pos, fl⟩ = .ok (some l) ⟨d, pos + (l.flatMap (Spec.sizedString fl)).length, fl⟩ := by
  induction l generalizing pos with
  | nil => rfl
  | cons x l ih =>
    rw [List.flatMap_cons] at h hb ⊢
    rw [List.length_append, sizedString_length] at hb ⊢
    have hr := h.right
    rw [sizedString_length] at hr
    have hx := h.left
    rw [Spec.sizedString, Has.append, number_length] at hx
    have hl := hx.2.len
    have e1 := readU64_has (fl := fl) hd (by omega) hx.1
    have e2 := readRaw_has (fl := fl) hd hx.2 x.length x.length rfl (Nat.le_refl _)
    have e3 := ih (pos + (8 + x.length)) hr (by omega)
    rw [← Nat.add_assoc] at e3
    have c : ¬ x.length > sub64 blockEnd (⟨d, pos + 8, fl⟩ : RStream).pos := by
      show ¬ x.length > sub64 blockEnd (pos + 8)
      rw [sub64_of_le (by omega) (by omega)]; omega
    rw [List.length_cons, readStrings, Prog.bind_ok e1, Prog.bind_ok (Prog.get_apply _), if_neg c,
      Prog.bind_ok (resizeTo_ok he (by omega) _), Prog.bind_ok e2, if_neg (fun hc => hc.2 rfl), Prog.bind_ok e3]
    simp only [Prog.pure_apply, Res.ok.injEq, RStream.mk.injEq, true_and, and_true]
    omega

theorem readArrayString_some {env : REnv} (he : env.Lucky)
    (key : Bytes) (hk : key.length ≤ 40) (ea : Bool) (fl : Bool) (l : List Bytes) (index : Option (List (Word 4))) :
    Consumes (readArrayString env key ea index.isSome) fl (.success (l, index.getD []))
      (Spec.largeBlock fl 0xe1 key (Spec.arrayHeader fl 0 l.length index ++ l.flatMap (Spec.sizedString fl))) := by
  intro d pos hd h
  have e1 := beginReadLarge_has env hd (by decide) hk h
  obtain ⟨h2, h3, hl⟩ := readFrame h
  rw [largeBlock_length]
  rw [List.length_append] at e1 ⊢
  have hge := strings_ge fl l
  have e2 := readMeta_has he 0 l.length (by decide) (by omega) index hd h2
    (pos + 10 + key.length + ((Spec.arrayHeader fl 0 l.length index).length + (l.flatMap (Spec.sizedString fl)).length))
    (by omega) (by omega)
  have e3 := readStrings_has he hd l _
    (pos + 10 + key.length + ((Spec.arrayHeader fl 0 l.length index).length + (l.flatMap (Spec.sizedString fl)).length))
    h3 (by omega) (by omega)
  have hH : 10 ≤ (Spec.arrayHeader fl 0 l.length index).length := by rw [arrayHeader_length]; omega
  generalize (Spec.arrayHeader fl 0 l.length index).length = H at *
  generalize (l.flatMap (Spec.sizedString fl)).length = N at *
  have hsub : sub64 (pos + 10 + key.length + (H + N)) (pos + 10 + key.length + H) = N := by
    rw [sub64_of_le (by omega) (by omega)]; omega
  have hE : pos + 10 + key.length + H + N = pos + 10 + key.length + (H + N) := by omega
  have hE' : pos + (key.length + 10 + (H + N)) = pos + 10 + key.length + (H + N) := by omega
  rw [hE'] 
  rw [hE] at e3
  generalize hEE : pos + 10 + key.length + (H + N) = E at *
  have c1 : ¬ E = 0 := by omega
  have c2 : ¬ E = (⟨d, pos + 10 + key.length, fl⟩ : RStream).pos := by show ¬ E = pos + 10 + key.length; omega
  have c3 : ¬ l.length > sub64 E (⟨d, pos + 10 + key.length + H, fl⟩ : RStream).pos / 8 := by
    show ¬ l.length > sub64 E (pos + 10 + key.length + H) / 8
    omega
  rw [readArrayString, show vtArrayString = 0xe1 from rfl, Prog.bind_ok e1, if_neg c1, Prog.bind_ok (Prog.get_apply _), if_neg c2, Prog.bind_ok e2]
  dsimp only
  rw [Prog.bind_ok (Prog.get_apply _), if_neg c3, Prog.bind_ok (resizeTo_ok he (by omega) _), Prog.bind_ok e3]
  dsimp only
  rw [Prog.bind_ok (endReadLarge_ok (s := ⟨d, E, fl⟩) (e := E) rfl), if_neg (by decide), Prog.pure_apply]

theorem readArrayString_none (env : REnv) (key : Bytes) (hk : key.length ≤ 40) (fl wi : Bool) :
    Consumes (readArrayString env key true wi) fl .successEmpty (Spec.largeBlock fl 0xe1 key []) := by
  intro d pos hd h
  have e1 := beginReadLarge_has env hd (by decide) hk h
  rw [largeBlock_length]
  simp only [List.length_nil, Nat.add_zero] at e1 ⊢
  rw [readArrayString, show vtArrayString = 0xe1 from rfl, Prog.bind_ok e1, if_neg (by omega), Prog.bind_ok (Prog.get_apply _), if_pos rfl,
    readEmpty_none _ (⟨d, pos + 10 + key.length, fl⟩ : RStream) rfl]
  simp only [Res.ok.injEq, RStream.mk.injEq, true_and, and_true]
  omega

/-! ## Any type in any container -/

/-- How a status reports a possibly absent value. -/
def RStatus.ofOption {α : Type} : Option α → RStatus α
  | none => .successEmpty
  | some a => .success a

theorem readSingle_consumes {env : REnv} (he : env.Lucky) {t : DataType} (ht : t.Ok) (key : Bytes) (hk : key.length ≤ 40)
    (v : Option t.Val) (ea : Bool) (hea : v = none → ea = true) (fl : Bool) :
    Consumes (readSingle env t key ea) fl (RStatus.ofOption v) (Spec.single fl t key v) := by
  obtain ⟨nm, vt, avt, kind, ov⟩ := t
  cases kind with
  | bool =>
    obtain ⟨h1, h2⟩ := ht
    simp only at h1 h2
    subst h1 h2
    cases v with
    | none => cases hea rfl; exact readSingleBool_none env key hk fl
    | some b => exact readSingleBool_some env key hk ea fl b
  | items sc n f =>
    obtain ⟨h0, h1, h2, h3, -⟩ := ht
    have h0' : 0 < sc.size * n := Nat.mul_pos (by cases sc <;> decide) h0
    simp only at h3
    cases v with
    | none =>
      cases hea rfl
      intro d pos hd h
      have e := readSingleItems_none env vt (by omega) sc n h0' key hk fl d pos hd h
      show ((readSingleItems env vt sc n key true) >>= _) _ = _
      rw [Prog.bind_ok e]
      rfl
    | some b =>
      intro d pos hd h
      have e := readSingleItems_some env vt (by omega) sc n h1 key hk ea fl b.toList (by simp) d pos hd h
      show ((readSingleItems env vt sc n key ea) >>= _) _ = _
      rw [Prog.bind_ok e]
      have : (Vector.ofFn fun i : Fin n => b.toList.getD i.val sc.zero) = b := by
        apply Vector.ext
        intro i hi
        rw [Vector.getElem_ofFn, List.getD_eq_getElem?_getD, List.getElem?_eq_getElem (by simpa using hi)]
        simp
      show Res.ok (RStatus.success (Vector.ofFn fun i : Fin n => b.toList.getD i.val sc.zero)) _ = _
      rw [this]
      rfl
  | string =>
    obtain ⟨h1, h2⟩ := ht
    simp only at h1 h2
    subst h1 h2
    cases v with
    | none => cases hea rfl; exact readSingleString_none env key hk fl
    | some b => exact readSingleString_some he key hk ea fl b

theorem readArray_consumes {env : REnv} (he : env.Lucky) {t : DataType} (ht : t.Ok) (key : Bytes) (hk : key.length ≤ 40)
    (v : Option (List t.Val)) (index : Option (List (Word 4))) (ea wi : Bool) (hea : v = none → ea = true)
    (hwi : v.isSome → wi = index.isSome) (fl : Bool) :
    Consumes (readArray env t key ea wi) fl (RStatus.ofOption (v.map fun l => (l, index.getD [])))
      (Spec.array fl t key v index) := by
  obtain ⟨nm, vt, avt, kind, ov⟩ := t
  cases kind with
  | bool =>
    obtain ⟨h1, h2⟩ := ht
    simp only at h1 h2
    subst h1 h2
    cases v with
    | none => cases hea rfl; exact readArrayBool_none env key hk fl wi
    | some b => cases hwi rfl; exact readArrayBool_some he key hk ea fl b index
  | items sc n f =>
    obtain ⟨h0, h1, h2, h3, h4⟩ := ht
    simp only at h3 h4
    cases v with
    | none => cases hea rfl; exact readArrayItems_none env avt (by omega) sc n key hk fl wi
    | some b => cases hwi rfl; exact readArrayItems_some he avt (by omega) sc n h0 key hk ea fl b index
  | string =>
    obtain ⟨h1, h2⟩ := ht
    simp only at h1 h2
    subst h1 h2
    cases v with
    | none => cases hea rfl; exact readArrayString_none env key hk fl wi
    | some b => cases hwi rfl; exact readArrayString_some he key hk ea fl b index

/-- What a successful read leaves in the destination: the value, except that the two overloads that append
(vectors and indexed vectors of types stored through another type) put it behind the previous contents. -/
def readInto (t : DataType) : (c : Container) → (dest v : c.Val t.Val) → c.Val t.Val
  | .vector, dest, v => if t.overrides then List.append dest v else v
  | .idxVector, dest, v => if t.overrides then ⟨dest.values ++ v.values, v.index⟩ else v
  | .none, _, v => v
  | .optionalValue, _, v => v
  | .optionalVector, _, v => v
  | .optionalIdxVector, _, v => v

/-- Every typed read accepts the block of the format specification, consumes exactly that block, and returns its value. -/
theorem readTyped_consumes {env : REnv} (he : env.Lucky) {t : DataType} (ht : t.Ok) (c : Container) (key : Bytes)
    (hk : key.length ≤ 40) (dest v : c.Val t.Val) (fl : Bool) :
    Consumes (readTyped env t c key dest) fl (some (readInto t c dest v)) (Spec.typed fl t c key v) := by
  intro d pos hd h
  cases c with
  | none =>
    have e := readSingle_consumes he ht key hk (some v) false (by simp) fl d pos hd h
    rw [readTyped, Prog.bind_ok e]; rfl
  | optionalValue =>
    have e := readSingle_consumes he ht key hk v true (by simp) fl d pos hd h
    rw [readTyped, Prog.bind_ok e]
    cases v <;> rfl
  | vector =>
    have e := readArray_consumes he ht key hk (some v) none false false (by simp) (by simp) fl d pos hd h
    rw [readTyped, Prog.bind_ok e]; rfl
  | optionalVector =>
    have e := readArray_consumes he ht key hk v none true false (by simp) (by simp) fl d pos hd h
    rw [readTyped, Prog.bind_ok e]
    cases v <;> rfl
  | idxVector =>
    have e := readArray_consumes he ht key hk (some v.values) (some v.index) false true (by simp) (by simp) fl d pos hd h
    rw [readTyped, Prog.bind_ok e]; rfl
  | optionalIdxVector =>
    have e := readArray_consumes he ht key hk (Option.map IdxVec.values v) (Option.map IdxVec.index v) true true
      (by simp) (by cases v <;> simp) fl d pos hd h
    rw [readTyped, Prog.bind_ok e]
    cases v <;> rfl

end ISD
