import Verif.Proofs.PackBools

/-! # Every typed write appends the block of the specification -/

namespace ISD

open WStream

theorem writeArrayBool_appends (key : Bytes) (items : Option (List Bool)) (index : Option (List (Word 4))) (fl : Bool) :
    Appends (writeArrayBool key items index) fl true (Spec.largeBlock fl 0x41 key
      (items.elim [] fun l => Spec.arrayHeader fl 0 l.length index ++ Spec.packBools l)) := by
  intro s c h hb
  have hO := openHeader_length fl 0x41 key
  rw [largeBlock_length] at hb
  obtain ⟨s1, e1, h1⟩ := beginLarge_appends 0x41 key fl s c h (by rw [hO]; omega)
  cases items with
  | none =>
    have h1' : WAt s1 (c ++ openHeader fl 0x41 key ++ []) fl := by rw [List.append_nil]; exact h1
    obtain ⟨s2, e2, h2⟩ := endLarge_ok 0x41 key [] h1' (by simp only [List.append_nil, List.length_append, hO]; omega) s.pos h.pos
    refine ⟨s2, ?_, h2⟩
    simp only [writeArrayBool, Prog.bind_apply, Prog.get_apply, e1, Bool.not_true, Bool.false_eq_true, if_false, e2,
      Prog.pure_apply]
  | some l =>
    simp only [Option.elim_some, List.length_append, arrayHeader_length, packBools_length] at hb
    obtain ⟨s2, e2, h2⟩ := writeArrayMeta_appends 0 l.length (by decide) index fl s1 _ h1
      (by simp only [List.length_append, hO, arrayHeader_length]; omega)
    by_cases h0 : l.length > 0
    · obtain ⟨s3, e3, h3⟩ := writeBytes_appends (Spec.packBools l) fl s2 _ h2
        (by simp only [List.length_append, hO, arrayHeader_length, packBools_length]; omega)
      have h3' := h3
      rw [List.append_assoc] at h3'
      obtain ⟨s4, e4, h4⟩ := endLarge_ok 0x41 key _ h3'
        (by simp only [List.length_append, hO, arrayHeader_length, packBools_length]; omega) s.pos h.pos
      refine ⟨s4, ?_, h4⟩
      have hp : s3.pos = wrap64 (s2.pos + (l.length + 7) / 8) := by
        rw [h3.pos, h2.pos, wrap64, Nat.mod_eq_of_lt]
        · rw [List.length_append, packBools_length]
        · simp only [List.length_append, hO, arrayHeader_length]; omega
      simp only [writeArrayBool, Prog.bind_apply, Prog.get_apply, e1, Bool.not_true, Bool.false_eq_true, if_false, e2,
        packLoop_all, e3, e4, hp, bne_self_eq_false, Prog.pure_apply, Prog.ite_apply, if_pos h0]
    · have hnil : l = [] := List.eq_nil_of_length_eq_zero (by omega)
      subst hnil
      obtain ⟨s4, e4, h4⟩ := endLarge_ok 0x41 key _ h2 (by simp only [List.length_append, hO, arrayHeader_length]; omega) s.pos h.pos
      refine ⟨s4, ?_, ?_⟩
      · simp only [writeArrayBool, Prog.bind_apply, Prog.get_apply, e1, Bool.not_true, Bool.false_eq_true, if_false, e2,
          e4, Prog.pure_apply, Prog.ite_apply, if_neg h0]
      · have hn : Spec.packBools [] = [] := rfl
        simpa [hn] using h4

theorem sizedString_length (fl : Bool) (x : Bytes) : (Spec.sizedString fl x).length = 8 + x.length := by
  simp only [Spec.sizedString, List.length_append, number_length]

theorem writeStrings_appends (l : List Bytes) (fl : Bool) (size : Nat) (s : WStream) (c : Bytes) (h : WAt s c fl)
    (hb : c.length + (l.flatMap (Spec.sizedString fl)).length < 2 ^ 63)
    (hsz : size + (l.flatMap (Spec.sizedString fl)).length < 2 ^ 64) :
    ∃ s', writeStrings l size s = .ok (size + (l.flatMap (Spec.sizedString fl)).length - 8 * l.length) s' ∧
      WAt s' (c ++ l.flatMap (Spec.sizedString fl)) fl := by
  induction l generalizing size s c with
  | nil => exact ⟨s, rfl, by rw [List.flatMap_nil, List.append_nil]; exact h⟩
  | cons x l ih =>
    simp only [List.flatMap_cons, List.length_append, sizedString_length] at hb hsz
    obtain ⟨s1, e1, h1⟩ := writeU64_appends x.length fl s c h (by rw [number_length]; omega)
    have hge : 8 * l.length ≤ (l.flatMap (Spec.sizedString fl)).length := by
      clear ih hb hsz
      induction l with
      | nil => simp
      | cons y l ih => rw [List.flatMap_cons, List.length_append, sizedString_length, List.length_cons]; omega
    by_cases h0 : x.length > 0
    · obtain ⟨s2, e2, h2⟩ := writeBytes_appends x fl s1 _ h1 (by rw [List.length_append, number_length]; omega)
      obtain ⟨s3, e3, h3⟩ := ih (size + x.length) s2 _ h2
        (by simp only [List.length_append, number_length]; omega) (by omega)
      refine ⟨s3, ?_, ?_⟩
      · have hw : wrap64 (size + x.length) = size + x.length := Nat.mod_eq_of_lt (by omega)
        simp only [writeStrings, Prog.bind_apply, e1, Prog.when, if_pos h0, e2, hw, e3, List.flatMap_cons, List.length_append,
          sizedString_length, List.length_cons, Res.ok.injEq, and_true]
        omega
      · simpa only [List.flatMap_cons, Spec.sizedString, List.append_assoc] using h3
    · have hnil : x = [] := List.eq_nil_of_length_eq_zero (by omega)
      obtain ⟨s3, e3, h3⟩ := ih size s1 _ h1
        (by simp only [List.length_append, number_length]; omega) (by omega)
      refine ⟨s3, ?_, ?_⟩
      · simp only [writeStrings, Prog.bind_apply, e1, Prog.when, if_neg h0, Prog.pure_apply, e3, List.flatMap_cons, List.length_append,
          sizedString_length, List.length_cons, Res.ok.injEq, and_true]
        omega
      · subst hnil
        simpa only [List.flatMap_cons, Spec.sizedString, List.append_assoc, List.append_nil] using h3

theorem strings_ge (fl : Bool) (l : List Bytes) : 8 * l.length ≤ (l.flatMap (Spec.sizedString fl)).length := by
  induction l with
  | nil => simp
  | cons y l ih => rw [List.flatMap_cons, List.length_append, sizedString_length, List.length_cons]; omega

theorem writeArrayString_appends (key : Bytes) (items : Option (List Bytes)) (index : Option (List (Word 4))) (fl : Bool) :
    Appends (writeArrayString key items index) fl true (Spec.largeBlock fl 0xe1 key
      (items.elim [] fun l => Spec.arrayHeader fl 0 l.length index ++ l.flatMap (Spec.sizedString fl))) := by
  intro s c h hb
  have hO := openHeader_length fl vtArrayString key
  rw [largeBlock_length] at hb
  obtain ⟨s1, e1, h1⟩ := beginLarge_appends vtArrayString key fl s c h (by rw [hO]; omega)
  cases items with
  | none =>
    have h1' : WAt s1 (c ++ openHeader fl vtArrayString key ++ []) fl := by rw [List.append_nil]; exact h1
    obtain ⟨s2, e2, h2⟩ := endLarge_ok vtArrayString key [] h1' (by simp only [List.append_nil, List.length_append, hO]; omega) s.pos h.pos
    refine ⟨s2, ?_, h2⟩
    simp only [writeArrayString, Prog.bind_apply, Prog.get_apply, e1, Bool.not_true, Bool.false_eq_true, if_false, e2,
      Prog.pure_apply]
  | some l =>
    simp only [Option.elim_some, List.length_append, arrayHeader_length] at hb
    have hge := strings_ge fl l
    obtain ⟨s2, e2, h2⟩ := writeArrayMeta_appends 0 l.length (by decide) index fl s1 _ h1
      (by simp only [List.length_append, hO, arrayHeader_length]; omega)
    by_cases h0 : l.length > 0
    · have hw : wrap64 (8 * l.length) = 8 * l.length := Nat.mod_eq_of_lt (by omega)
      obtain ⟨s3, e3, h3⟩ := writeStrings_appends l fl (8 * l.length) s2 _ h2
        (by simp only [List.length_append, hO, arrayHeader_length]; omega) (by omega)
      have h3' := h3
      rw [List.append_assoc] at h3'
      obtain ⟨s4, e4, h4⟩ := endLarge_ok vtArrayString key _ h3'
        (by simp only [List.length_append, hO, arrayHeader_length]; omega) s.pos h.pos
      refine ⟨s4, ?_, h4⟩
      have hp : s3.pos = wrap64 (s2.pos + (8 * l.length + (l.flatMap (Spec.sizedString fl)).length - 8 * l.length)) := by
        rw [h3.pos, h2.pos, wrap64, Nat.mod_eq_of_lt]
        · rw [List.length_append]; omega
        · simp only [List.length_append, hO, arrayHeader_length]; omega
      simp only [writeArrayString, Prog.bind_apply, Prog.get_apply, e1, Bool.not_true, Bool.false_eq_true, if_false, e2,
        hw, e3, e4, hp, bne_self_eq_false, Prog.pure_apply, Prog.ite_apply, if_pos h0]
    · have hnil : l = [] := List.eq_nil_of_length_eq_zero (by omega)
      subst hnil
      obtain ⟨s4, e4, h4⟩ := endLarge_ok vtArrayString key _ h2 (by simp only [List.length_append, hO, arrayHeader_length]; omega) s.pos h.pos
      refine ⟨s4, ?_, ?_⟩
      · simp only [writeArrayString, Prog.bind_apply, Prog.get_apply, e1, Bool.not_true, Bool.false_eq_true, if_false, e2,
          e4, Prog.pure_apply, Prog.ite_apply, if_neg h0]
      · have hv : vtArrayString = 225 := rfl
        simpa [hv] using h4

/-- What the proofs need to know of the type table. -/
def DataType.Ok (t : DataType) : Prop :=
  match t.kind with
  | .bool => t.vt = 0x01 ∧ t.avt = 0x41
  | .items sc n _ => 0 < n ∧ sc.size * n ≤ 128 ∧ 0 < t.vt ∧ t.vt < 0x40 ∧ t.avt = t.vt + 0x40
  | .string => t.vt = 0xe0 ∧ t.avt = 0xe1

instance (t : DataType) : Decidable t.Ok := by
  unfold DataType.Ok
  split <;> infer_instance

theorem allTypes_ok : ∀ t ∈ allTypes, t.Ok := by decide +kernel

theorem writeSingle_appends {t : DataType} (ht : t.Ok) (key : Bytes) (v : Option t.Val) (fl : Bool) :
    Appends (writeSingle t key v) fl true (Spec.single fl t key v) := by
  obtain ⟨nm, vt, avt, kind, ov⟩ := t
  cases kind with
  | bool =>
    obtain ⟨h1, h2⟩ := ht
    simp only at h1 h2
    subst h1 h2
    exact writeSingleBool_appends key v fl
  | items sc n f =>
    have h0 : 0 < sc.size * n := Nat.mul_pos (by cases sc <;> decide) ht.1
    exact writeSingleItems_appends vt sc n h0 key v fl
  | string =>
    obtain ⟨h1, h2⟩ := ht
    simp only at h1 h2
    subst h1 h2
    exact writeSingleString_appends key v fl

theorem writeArray_appends {t : DataType} (ht : t.Ok) (key : Bytes) (v : Option (List t.Val)) (index : Option (List (Word 4)))
    (fl : Bool) : Appends (writeArray t key v index) fl true (Spec.array fl t key v index) := by
  obtain ⟨nm, vt, avt, kind, ov⟩ := t
  cases kind with
  | bool =>
    obtain ⟨h1, h2⟩ := ht
    simp only at h1 h2
    subst h1 h2
    exact writeArrayBool_appends key v index fl
  | items sc n f => exact writeArrayItems_appends avt sc n key v index fl
  | string =>
    obtain ⟨h1, h2⟩ := ht
    simp only at h1 h2
    subst h1 h2
    exact writeArrayString_appends key v index fl

/-- Every typed write appends exactly the block of the format specification and returns true. -/
theorem writeTyped_appends {t : DataType} (ht : t.Ok) (c : Container) (key : Bytes) (v : c.Val t.Val) (fl : Bool) :
    Appends (writeTyped t c key v) fl true (Spec.typed fl t c key v) := by
  cases c with
  | none => exact writeSingle_appends ht key _ fl
  | optionalValue => exact writeSingle_appends ht key _ fl
  | vector => exact writeArray_appends ht key _ _ fl
  | optionalVector => exact writeArray_appends ht key _ _ fl
  | idxVector => exact writeArray_appends ht key _ _ fl
  | optionalIdxVector => exact writeArray_appends ht key _ _ fl

end ISD
