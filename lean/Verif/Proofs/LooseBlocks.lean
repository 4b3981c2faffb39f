import Verif.Proofs.ReadTyped
import Verif.Spec.Accept

/-!
# Reads of blocks in the documented format that no writer of this library produces
-/

namespace ISD

open RStream

theorem looseHeader_length (fl : Bool) (f n : Nat) (index : Option (List (Word 4))) :
    (Spec.looseHeader fl f n index).length = 10 + index.elim 0 (fun l => 8 + l.length * 4) := by
  cases index with
  | none => simp only [Spec.looseHeader, List.length_append, number_length, List.length_nil, Option.elim_none]
  | some l => simp only [Spec.looseHeader, List.length_append, number_length, idx_length, Option.elim_some]

theorem readMeta_loose {env : REnv} (he : env.Lucky) {d : Bytes} {pos : Nat} {fl : Bool} (f n : Nat) (hf : f < 2 ^ 16) (hn : n < 2 ^ 64)
    (index : Option (List (Word 4))) (h9 : f.testBit 9 = false) (h8 : f.testBit 8 = index.isSome) (hd : Small d)
    (h : Has d pos (Spec.looseHeader fl f n index)) (blockEnd : Nat)
    (hbe : pos + (Spec.looseHeader fl f n index).length ≤ blockEnd) (hbe2 : blockEnd ≤ d.length) :
    readArrayMetadataAndIndex env blockEnd index.isSome ⟨d, pos, fl⟩ =
      .ok (some (f % 256, n, index.getD [])) ⟨d, pos + (Spec.looseHeader fl f n index).length, fl⟩ := by
  have f1 := and_ff f
  have f2 : ¬ f &&& 0x200 ≠ 0 := fun hc => by
    have := (and_bit f 9).mp hc
    rw [h9] at this
    exact nomatch this
  have f3 : f &&& 0x100 ≠ 0 ↔ index.isSome = true := by
    rw [← h8]; exact and_bit f 8
  rw [looseHeader_length] at hbe ⊢
  unfold Spec.looseHeader at h
  rw [Has.append, Has.append, List.length_append, number_length, number_length, ← Nat.add_assoc] at h
  obtain ⟨⟨h1, h2⟩, h3⟩ := h
  have e1 := readU16_has (fl := fl) hd hf h1
  have e2 := readU64_has (fl := fl) hd hn h2
  cases index with
  | none =>
    have f4 : ¬ f &&& 0x100 ≠ 0 := fun hc => nomatch f3.mp hc
    simp only [Option.elim_none] at hbe ⊢
    have hw : wrap64 (pos + 2 + 8) = pos + 2 + 8 := Nat.mod_eq_of_lt (by omega)
    rw [readArrayMetadataAndIndex, Prog.bind_ok (Prog.get_apply _), Prog.bind_ok e1, f1, if_neg f2, Prog.bind_ok e2,
      if_neg f4, if_neg (by simp), Prog.bind_ok (Prog.get_apply _), if_neg (by rw [hw]; simp), Prog.pure_apply]
    rfl
  | some idx =>
    have f4 := f3.mpr rfl
    simp only [Option.elim_some] at hbe ⊢
    rw [Has.append, number_length, ← idx_scalars] at h3
    have hb := h3.2.len
    rw [scalars_length] at hb
    simp only [Sc.size] at hb
    have e3 := readU64_has (fl := fl) hd (by omega) h3.1
    have e4 := readItems_has .w4 idx (List.replicate idx.length (Sc.zero .w4)) hd h3.2 idx.length rfl (by simp)
    have hs : sub64 blockEnd (pos + 2 + 8 + 8) = blockEnd - (pos + 18) := sub64_of_le (by omega) (by omega)
    have hw : wrap64 (pos + 2 + 8 + 8 + idx.length * 4) = pos + 2 + 8 + 8 + idx.length * 4 := by
      rw [wrap64, Nat.mod_eq_of_lt (by omega)]
    have c1 : ¬ idx.length > (blockEnd - (pos + 18)) / 4 := by omega
    rw [readArrayMetadataAndIndex, Prog.bind_ok (Prog.get_apply _), Prog.bind_ok e1, f1, if_neg f2, Prog.bind_ok e2,
      if_pos f4, if_neg (by simp), Prog.bind_ok e3, Prog.bind_ok (Prog.get_apply _),
      if_neg (show ¬ idx.length > sub64 blockEnd (pos + 2 + 8 + 8) / 4 by rw [hs]; exact c1),
      Prog.bind_ok (resizeTo_ok he (by omega) _), Prog.bind_ok e4]
    dsimp only
    rw [Prog.bind_ok (Prog.get_apply _), if_neg (by rw [hw]; simp [Sc.size]), Prog.pure_apply]
    simp only [Res.ok.injEq, RStream.mk.injEq, true_and, and_true, Sc.size, Option.getD_some]
    omega

theorem readArrayItems_loose {env : REnv} (he : env.Lucky) (vt : Nat) (hvt : vt < 256) (sc : Sc) (n : Nat) (h0 : 0 < n)
    (key : Bytes) (hk : key.length ≤ 40) (ea : Bool) (fl : Bool) (l : List (Vector sc.Val n)) (index : Option (List (Word 4)))
    (f : Nat) (hf : f < 2 ^ 16) (h9 : f.testBit 9 = false) (h8 : f.testBit 8 = index.isSome) (hsz : f % 256 = sc.size) :
    Consumes (readArrayItems env vt sc n key ea index.isSome) fl (.success (l, index.getD []))
      (Spec.largeBlock fl vt key
        (Spec.looseHeader fl f (l.length * n) index ++ Spec.scalars fl sc (l.flatMap Vector.toList))) := by
  intro d pos hd h
  have e1 := beginReadLarge_has env hd hvt hk h
  obtain ⟨h2, h3, hl⟩ := readFrame h
  have hs0 : 0 < sc.size := by cases sc <;> decide
  have hsl : (Spec.scalars fl sc (l.flatMap Vector.toList)).length = l.length * n * sc.size := by
    rw [scalars_length, flat_length]
  have hle : l.length * n ≤ l.length * n * sc.size := Nat.le_mul_of_pos_right _ hs0
  rw [largeBlock_length]
  rw [List.length_append] at e1 ⊢
  rw [hsl] at e1 hl ⊢
  have e2 := readMeta_loose he f (l.length * n) hf (by omega) index h9 h8 hd h2
    (pos + 10 + key.length + ((Spec.looseHeader fl f (l.length * n) index).length + l.length * n * sc.size)) (by omega) (by omega)
  have hH : 10 ≤ (Spec.looseHeader fl f (l.length * n) index).length := by rw [looseHeader_length]; omega
  have e3 := readItems_has sc (l.flatMap Vector.toList) (List.replicate (l.length * n) sc.zero) hd h3 (l.length * n)
    (flat_length l).symm (by simp)
  rw [flat_length] at e3
  have hdiv : l.length * n / n = l.length := Nat.mul_div_cancel _ h0
  have hg := groupVals_flat n sc.zero l
  generalize (Spec.looseHeader fl f (l.length * n) index).length = H at *
  have hsub : sub64 (pos + 10 + key.length + (H + l.length * n * sc.size)) (pos + 10 + key.length + H) / sc.size = l.length * n := by
    rw [sub64_of_le (by omega) (by omega)]
    rw [show pos + 10 + key.length + (H + l.length * n * sc.size) - (pos + 10 + key.length + H) = l.length * n * sc.size by omega]
    exact Nat.mul_div_cancel _ hs0
  have hE : pos + 10 + key.length + H + l.length * n * sc.size = pos + 10 + key.length + (H + l.length * n * sc.size) := by omega
  have hE' : pos + (key.length + 10 + (H + l.length * n * sc.size)) = pos + 10 + key.length + (H + l.length * n * sc.size) := by omega
  have hr : l.length * (sc.size * n) < 2 ^ 63 := by
    have : l.length * (sc.size * n) = l.length * n * sc.size := by rw [Nat.mul_comm sc.size, Nat.mul_assoc]
    omega
  rw [hE'] 
  rw [hE] at e3
  generalize hEE : pos + 10 + key.length + (H + l.length * n * sc.size) = E at *
  have c1 : ¬ E = 0 := by omega
  have c2 : ¬ E = (⟨d, pos + 10 + key.length, fl⟩ : RStream).pos := by show ¬ E = pos + 10 + key.length; omega
  have c3 : ¬ l.length * n > sub64 E (⟨d, pos + 10 + key.length + H, fl⟩ : RStream).pos / sc.size := by
    show ¬ l.length * n > sub64 E (pos + 10 + key.length + H) / sc.size
    omega
  rw [readArrayItems, Prog.bind_ok e1, if_neg c1, Prog.bind_ok (Prog.get_apply _), if_neg c2, Prog.bind_ok e2]
  dsimp only
  rw [if_neg (by rw [hsz]; simp), Prog.bind_ok (Prog.get_apply _), if_neg c3, hdiv, Prog.bind_ok (resizeTo_ok he hr _), Prog.bind_ok e3]
  dsimp only
  rw [if_neg (by simp), Prog.bind_ok (endReadLarge_ok (s := ⟨d, E, fl⟩) (e := E) rfl), if_neg (by decide), Prog.pure_apply, hg]

theorem byte_test (x : Byte) (k : Nat) (hk : k < 8) : (x &&& (1 : UInt8) <<< UInt8.ofNat k != 0) = x.toNat.testBit k := by
  have : ∀ (x : Fin 256) (k : Fin 8), (UInt8.ofNat x.val &&& (1 : UInt8) <<< UInt8.ofNat k.val != 0) = (UInt8.ofNat x.val).toNat.testBit k.val := by
    decide +kernel
  have := this ⟨x.toNat, x.toNat_lt⟩ ⟨k, hk⟩
  simpa only [UInt8.ofNat_toNat] using this

/-- Unpacking a body whose bits are the values. -/
theorem unpackLoop_loose (s : RStream) (body : Bytes) (l : List Bool) (hb : body.length = (l.length + 7) / 8)
    (ht : ∀ i, i < l.length → l[i]? = some ((body.getD (i / 8) 0).toNat.testBit (i % 8))) :
    ∀ n i, i + n = l.length → unpackLoop body i n s = .ok (l.drop i) s := by
  intro n
  induction n with
  | zero => intro i hi; rw [Nat.add_zero] at hi; subst hi; rw [List.drop_length]; rfl
  | succ n ih =>
    intro i hi
    have hlt : i < l.length := by omega
    have e := ht i hlt
    rw [List.getElem?_eq_getElem hlt, Option.some.injEq] at e
    rw [unpackLoop, shift3, and7, if_neg (by omega), byte_test _ _ (Nat.mod_lt _ (by decide)), ← e]
    rw [Prog.bind_ok (ih (i + 1) (by omega)), List.drop_eq_getElem_cons hlt]
    rfl

theorem readArrayBool_loose {env : REnv} (he : env.Lucky)
    (key : Bytes) (hk : key.length ≤ 40) (ea : Bool) (fl : Bool) (l : List Bool) (index : Option (List (Word 4)))
    (f : Nat) (hf : f < 2 ^ 16) (h9 : f.testBit 9 = false) (h8 : f.testBit 8 = index.isSome) (body : Bytes)
    (hb : body.length = (l.length + 7) / 8) (ht : ∀ i, i < l.length → l[i]? = some ((body.getD (i / 8) 0).toNat.testBit (i % 8))) :
    Consumes (readArrayBool env key ea index.isSome) fl (.success (l, index.getD []))
      (Spec.largeBlock fl 0x41 key (Spec.looseHeader fl f l.length index ++ body)) := by
  intro d pos hd h
  have e1 := beginReadLarge_has env hd (by decide) hk h
  obtain ⟨h2, h3, hl⟩ := readFrame h
  rw [largeBlock_length]
  rw [List.length_append] at e1 ⊢
  have e3 := readRaw_has (fl := fl) hd h3 ((l.length + 7) / 8) ((l.length + 7) / 8) hb.symm (Nat.le_refl _)
  have hp : body ++ List.replicate ((l.length + 7) / 8 - body.length) 0 = body := by rw [hb]; simp
  have hu := unpackLoop_loose (body := body) (s := ⟨d, pos + 10 + key.length + ((Spec.looseHeader fl f l.length index).length + (l.length + 7) / 8), fl⟩)
    l hb ht l.length 0 (Nat.zero_add _)
  rw [List.drop_zero] at hu
  rw [hb] at e1 hl e3 ⊢
  have e2 := readMeta_loose he f l.length hf (by omega) index h9 h8 hd h2
    (pos + 10 + key.length + ((Spec.looseHeader fl f l.length index).length + (l.length + 7) / 8)) (by omega) (by omega)
  have hH : 10 ≤ (Spec.looseHeader fl f l.length index).length := by rw [looseHeader_length]; omega
  generalize (Spec.looseHeader fl f l.length index).length = H at *
  have hsub : sub64 (pos + 10 + key.length + (H + (l.length + 7) / 8)) (pos + 10 + key.length + H) = (l.length + 7) / 8 := by
    rw [sub64_of_le (by omega) (by omega)]; omega
  have hE : pos + 10 + key.length + H + (l.length + 7) / 8 = pos + 10 + key.length + (H + (l.length + 7) / 8) := by omega
  have hE' : pos + (key.length + 10 + (H + (l.length + 7) / 8)) = pos + 10 + key.length + (H + (l.length + 7) / 8) := by omega
  rw [hE'] 
  rw [hE] at e3
  generalize hEE : pos + 10 + key.length + (H + (l.length + 7) / 8) = E at *
  have c1 : ¬ E = 0 := by omega
  have c2 : ¬ E = (⟨d, pos + 10 + key.length, fl⟩ : RStream).pos := by show ¬ E = pos + 10 + key.length; omega
  have hw : wrap64 (l.length + 7) / 8 = (l.length + 7) / 8 := by rw [wrap64, Nat.mod_eq_of_lt (by omega)]
  have c3 : ¬ (l.length + 7) / 8 > sub64 E (⟨d, pos + 10 + key.length + H, fl⟩ : RStream).pos := by
    show ¬ (l.length + 7) / 8 > sub64 E (pos + 10 + key.length + H)
    omega
  rw [readArrayBool, Prog.bind_ok e1, if_neg c1, Prog.bind_ok (Prog.get_apply _), if_neg c2, Prog.bind_ok e2]
  dsimp only
  rw [Prog.bind_ok (Prog.get_apply _), hw, if_neg c3, Prog.bind_ok (resizeBool_ok he (by omega) _),
    Prog.bind_ok (resizeTo_ok he (by omega) _), Prog.bind_ok e3, hp, Prog.bind_ok hu,
    Prog.bind_ok (endReadLarge_ok (s := ⟨d, E, fl⟩) (e := E) rfl), if_neg (by decide), Prog.pure_apply]

theorem readArrayString_loose {env : REnv} (he : env.Lucky)
    (key : Bytes) (hk : key.length ≤ 40) (ea : Bool) (fl : Bool) (l : List Bytes) (index : Option (List (Word 4)))
    (f : Nat) (hf : f < 2 ^ 16) (h9 : f.testBit 9 = false) (h8 : f.testBit 8 = index.isSome) :
    Consumes (readArrayString env key ea index.isSome) fl (.success (l, index.getD []))
      (Spec.largeBlock fl 0xe1 key (Spec.looseHeader fl f l.length index ++ l.flatMap (Spec.sizedString fl))) := by
  intro d pos hd h
  have e1 := beginReadLarge_has env hd (by decide) hk h
  obtain ⟨h2, h3, hl⟩ := readFrame h
  rw [largeBlock_length]
  rw [List.length_append] at e1 ⊢
  have hge := strings_ge fl l
  have e2 := readMeta_loose he f l.length hf (by omega) index h9 h8 hd h2
    (pos + 10 + key.length + ((Spec.looseHeader fl f l.length index).length + (l.flatMap (Spec.sizedString fl)).length))
    (by omega) (by omega)
  have e3 := readStrings_has he hd l _
    (pos + 10 + key.length + ((Spec.looseHeader fl f l.length index).length + (l.flatMap (Spec.sizedString fl)).length))
    h3 (by omega) (by omega)
  have hH : 10 ≤ (Spec.looseHeader fl f l.length index).length := by rw [looseHeader_length]; omega
  generalize (Spec.looseHeader fl f l.length index).length = H at *
  generalize (l.flatMap (Spec.sizedString fl)).length = N at *
  have hsub : sub64 (pos + 10 + key.length + (H + N)) (pos + 10 + key.length + H) = N := by
    rw [sub64_of_le (by omega) (by omega)]; omega
  have hE : pos + 10 + key.length + H + N = pos + 10 + key.length + (H + N) := by omega
  have hE' : pos + (key.length + 10 + (H + N)) = pos + 10 + key.length + (H + N) := by omega
  rw [hE'] 
  rw [hE] at e3
  generalize hEE : pos + 10 + key.length + (H + N) = E at *
  have c1 : ¬ E = 0 := by omega
  have c2 : ¬ E = (⟨d, pos + 10 + key.length, fl⟩ : RStream).pos := by show ¬ E = pos + 10 + key.length; omega
  have c3 : ¬ l.length > sub64 E (⟨d, pos + 10 + key.length + H, fl⟩ : RStream).pos / 8 := by
    show ¬ l.length > sub64 E (pos + 10 + key.length + H) / 8
    omega
  rw [readArrayString, show vtArrayString = 0xe1 from rfl, Prog.bind_ok e1, if_neg c1, Prog.bind_ok (Prog.get_apply _), if_neg c2, Prog.bind_ok e2]
  dsimp only
  rw [Prog.bind_ok (Prog.get_apply _), if_neg c3, Prog.bind_ok (resizeTo_ok he (by omega) _), Prog.bind_ok e3]
  dsimp only
  rw [Prog.bind_ok (endReadLarge_ok (s := ⟨d, E, fl⟩) (e := E) rfl), if_neg (by decide), Prog.pure_apply]

theorem readSingleBool_loose (env : REnv) (key : Bytes) (hk : key.length ≤ 40) (ea : Bool) (fl : Bool) (x : Byte) (b : Bool)
    (hx : x ≠ 0 ↔ b = true) :
    Consumes (readSingleBool env key ea) fl (.success b) (Spec.smallBlock 1 [x] key) := by
  intro d pos hd h
  have hs : [x] = Spec.scalars fl .w1 [x.toBitVec] := by
    have : ∀ x : Fin 256, ∀ fl : Bool, [UInt8.ofNat x.val] = Spec.scalars fl .w1 [(UInt8.ofNat x.val).toBitVec] := by decide +kernel
    have := this ⟨x.toNat, x.toNat_lt⟩ fl
    simpa only [UInt8.ofNat_toNat] using this
  rw [hs] at h ⊢
  have e := readSingleItems_some env 1 (by decide) .w1 1 (by decide) key hk ea fl _ rfl d pos hd h
  rw [readSingleBool, Prog.bind_ok e]
  have e2 : (x.toBitVec != 0#8) = b := by
    by_cases c : x = 0
    · have : b = false := by
        cases b
        · rfl
        · exact absurd c (hx.mpr rfl)
      subst c this; rfl
    · rw [hx.mp c]
      refine bne_iff_ne.mpr fun hc => c ?_
      exact UInt8.toBitVec_inj.mp hc
  show Res.ok (RStatus.success (x.toBitVec != 0#8)) _ = _
  rw [e2]

theorem readSingle_loose {env : REnv} (he : env.Lucky) {t : DataType} (ht : t.Ok) (key : Bytes) (hk : key.length ≤ 40)
    (v : Option t.Val) (ea : Bool) (hea : v = none → ea = true) (fl : Bool) (block : Bytes) (hb : Spec.SingleBlock fl t key v block) :
    Consumes (readSingle env t key ea) fl (RStatus.ofOption v) block := by
  have hc := readSingle_consumes he ht key hk v ea hea fl
  obtain ⟨nm, vt, avt, kind, ov⟩ := t
  cases kind with
  | bool =>
    cases v with
    | none => rw [show block = _ from hb]; exact hc
    | some b =>
      obtain ⟨x, hx, e⟩ := hb
      obtain ⟨h1, h2⟩ := ht
      simp only at h1 h2
      subst h1 h2 e
      exact readSingleBool_loose env key hk ea fl x b hx
  | items sc n f => cases v <;> (rw [show block = _ from hb]; exact hc)
  | string => cases v <;> (rw [show block = _ from hb]; exact hc)

theorem readArray_loose {env : REnv} (he : env.Lucky) {t : DataType} (ht : t.Ok) (key : Bytes) (hk : key.length ≤ 40)
    (v : Option (List t.Val)) (index : Option (List (Word 4))) (ea wi : Bool) (hea : v = none → ea = true)
    (hwi : v.isSome → wi = index.isSome) (fl : Bool) (block : Bytes) (hb : Spec.ArrayBlock fl t key v index block) :
    Consumes (readArray env t key ea wi) fl (RStatus.ofOption (v.map fun l => (l, index.getD []))) block := by
  cases v with
  | none =>
    have hc := readArray_consumes he ht key hk none index ea wi hea hwi fl
    rw [show block = _ from hb]
    obtain ⟨nm, vt, avt, kind, ov⟩ := t
    cases kind <;> exact hc
  | some l =>
    cases hwi rfl
    obtain ⟨f, n, body, hf, h9, h8, hsz, hn, hbody, e⟩ := hb
    subst e
    obtain ⟨nm, vt, avt, kind, ov⟩ := t
    cases kind with
    | bool =>
      obtain ⟨h1, h2⟩ := ht
      simp only at h1 h2
      subst h1 h2
      obtain ⟨rfl, hb1, hb2⟩ := hbody
      exact readArrayBool_loose he key hk ea fl l index f hf h9 h8 body hb1 hb2
    | items sc n f =>
      obtain ⟨h0, h1, h2, h3, h4⟩ := ht
      simp only at h3 h4
      obtain ⟨rfl, rfl⟩ := hbody
      exact readArrayItems_loose he avt (by omega) sc n h0 key hk ea fl l index _ hf h9 h8 hsz
    | string =>
      obtain ⟨h1, h2⟩ := ht
      simp only at h1 h2
      subst h1 h2
      obtain ⟨rfl, rfl⟩ := hbody
      exact readArrayString_loose he key hk ea fl l index f hf h9 h8

theorem readTyped_loose {env : REnv} (he : env.Lucky) {t : DataType} (ht : t.Ok) (c : Container) (key : Bytes)
    (hk : key.length ≤ 40) (dest v : c.Val t.Val) (fl : Bool) (block : Bytes) (hb : Spec.TypedBlock fl t c key v block) :
    Consumes (readTyped env t c key dest) fl (some (readInto t c dest v)) block := by
  intro d pos hd h
  cases c with
  | none =>
    have e := readSingle_loose he ht key hk (some v) false (by simp) fl block hb d pos hd h
    rw [readTyped, Prog.bind_ok e]; rfl
  | optionalValue =>
    have e := readSingle_loose he ht key hk v true (by simp) fl block hb d pos hd h
    rw [readTyped, Prog.bind_ok e]
    cases v <;> rfl
  | vector =>
    have e := readArray_loose he ht key hk (some v) none false false (by simp) (by simp) fl block hb d pos hd h
    rw [readTyped, Prog.bind_ok e]; rfl
  | optionalVector =>
    have e := readArray_loose he ht key hk v none true false (by simp) (by simp) fl block hb d pos hd h
    rw [readTyped, Prog.bind_ok e]
    cases v <;> rfl
  | idxVector =>
    have e := readArray_loose he ht key hk (some v.values) (some v.index) false true (by simp) (by simp) fl block hb d pos hd h
    rw [readTyped, Prog.bind_ok e]; rfl
  | optionalIdxVector =>
    have e := readArray_loose he ht key hk (Option.map IdxVec.values v) (Option.map IdxVec.index v) true true
      (by simp) (by cases v <;> simp) fl block hb d pos hd h
    rw [readTyped, Prog.bind_ok e]
    cases v <;> rfl

end ISD
