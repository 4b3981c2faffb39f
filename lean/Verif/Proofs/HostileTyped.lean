import Verif.Proofs.HostileBlocks

/-! # Typed reads of arbitrary bytes: any type in any container -/

namespace ISD

open RStream

/-- Is the value stored in a small block (one size byte)? -/
def isSmall (t : DataType) : Container → Bool
  | .none => t.kind != .string
  | .optionalValue => t.kind != .string
  | _ => false

/-- The value type code of the block. -/
def blockCode (t : DataType) : Container → Nat
  | .none => t.vt
  | .optionalValue => t.vt
  | _ => t.avt

/-- Does the container hold something? -/
def present {α : Type} : (c : Container) → c.Val α → Bool
  | .optionalValue, v => Option.isSome v
  | .optionalVector, v => Option.isSome v
  | .optionalIdxVector, v => Option.isSome v
  | _, _ => true

/-- If there is a block at `p` with the type code of an array of objects of `n` scalars and this key, the number of scalars it declares is
a multiple of `n`. -/
def CountOk (d : Bytes) (fl : Bool) (p : Nat) (t : DataType) (c : Container) (key : Bytes) : Prop :=
  c = .none ∨ c = .optionalValue ∨ ∀ sc n f, t.kind = .items sc n f → ∀ m, m < 2 ^ 64 →
    Has d p [UInt8.ofNat t.avt] → Has d (p + 10) key → Has d (p + 12 + key.length) (Spec.number fl 8 m) → n ∣ m

/-- Outcome of a single value read. -/
structure SingleOutcome (d : Bytes) (fl : Bool) (p : Nat) (t : DataType) (key : Bytes) (ea : Bool) (v : Option t.Val) (p' : Nat) :
    Prop where
  empty : v = none → ea = true
  block : p' < d.length ∨ t.kind ≠ .string → ∃ block, Spec.SingleBlock fl t key v block ∧ Has d p block ∧ p' = p + block.length
  full : t.kind = .string → v.isSome → LargeDone d fl p t.vt key p'
  absent : t.kind = .string → v = none → LargeHead d fl p t.vt key p' p'

theorem single_wp (env : REnv) {d : Bytes} {p : Nat} (fl : Bool) (hd : Small d) (hp : p ≤ d.length) {t : DataType} (ht : t.Ok)
    (key : Bytes) (hk : key.length ≤ 40) (ea : Bool) :
    Wp d fl p (readSingle env t key ea ⟨d, p, fl⟩) fun st p' =>
      ∀ v, st = RStatus.ofOption v → SingleOutcome d fl p t key ea v p' := by
  obtain ⟨nm, vt, avt, kind, ov⟩ := t
  cases kind with
  | bool =>
    obtain ⟨h1, h2⟩ := ht
    simp only at h1 h2
    subst h1 h2
    show Wp d fl p (readSingleBool env key ea _) _
    rw [readSingleBool]
    refine Wp.bind (singleItems_wp env fl hd hp 1 (by decide) .w1 1 (by decide) key hk ea) fun st p' h1 h2 h3 => ?_
    match st, h3 with
    | .fail, _ => exact Wp.pure h2 (by intro v; cases v <;> simp [RStatus.ofOption])
    | .successEmpty, h3 =>
      obtain ⟨ha, hb, hc⟩ := h3.2 rfl
      refine Wp.pure h2 fun v hv => ?_
      cases v with
      | some b => cases hv
      | none => exact ⟨fun _ => ha, fun _ => ⟨_, rfl, hc, by rw [hb]; show _ = p + (Spec.smallBlock 1 [] key).length; rw [smallBlock_length]; simp only [List.length_nil]; omega⟩, by simp, by simp⟩
    | .success vals, h3 =>
      obtain ⟨ha, hb, hc⟩ := h3.1 vals rfl
      refine Wp.pure h2 fun v hv => ?_
      obtain ⟨x, rfl⟩ : ∃ x, vals = [x] := List.length_eq_one_iff.mp ha
      cases v with
      | none => cases hv
      | some b =>
        obtain rfl : ((x : Word 1) != 0#8) = b := by simpa [RStatus.ofOption] using hv
        refine ⟨by simp, fun _ => ⟨Spec.smallBlock 1 [UInt8.ofNat (BitVec.toNat (w := 8) x)] key, ⟨_, ?_, rfl⟩, ?_, ?_⟩, by simp, by simp⟩
        · rw [bne_iff_ne]
          have hlt := BitVec.isLt (w := 8) x
          constructor
          · intro h1 h2; apply h1; rw [h2]; rfl
          · intro h1 h2
            apply h1
            apply BitVec.eq_of_toNat_eq
            have := congrArg UInt8.toNat h2
            rw [UInt8.toNat_ofNat'] at this
            have h3 := Nat.mod_eq_of_lt hlt
            show x.toNat = 0
            have h4 : BitVec.toNat (w := 8) x % 2 ^ 8 = 0 := this
            rw [h3] at h4; exact h4
        · have : Spec.scalars fl .w1 [x] = [UInt8.ofNat (BitVec.toNat (w := 8) x)] := by
            rw [← number_one fl]; simp [Spec.scalars, Spec.scalar]
          rwa [this] at hc
        · rw [hb, smallBlock_length]; simp only [List.length_cons, List.length_nil, Sc.size]; omega
  | items sc n f =>
    obtain ⟨h0, h1, h2, h3, -⟩ := ht
    simp only at h2
    rw [readSingle]
    refine Wp.bind (singleItems_wp env fl hd hp vt h2 sc n h1 key hk ea) fun st p' h1 h2 h3 => ?_
    match st, h3 with
    | .fail, _ => exact Wp.pure h2 (by intro v; cases v <;> simp [RStatus.ofOption])
    | .successEmpty, h3 =>
      obtain ⟨ha, hb, hc⟩ := h3.2 rfl
      refine Wp.pure h2 fun v hv => ?_
      cases v with
      | some b => cases hv
      | none => exact ⟨fun _ => ha, fun _ => ⟨_, rfl, hc, by rw [hb]; show _ = p + (Spec.smallBlock vt [] key).length; rw [smallBlock_length]; simp only [List.length_nil]; omega⟩, by simp, by simp⟩
    | .success vals, h3 =>
      obtain ⟨ha, hb, hc⟩ := h3.1 vals rfl
      refine Wp.pure h2 fun v hv => ?_
      cases v with
      | none => cases hv
      | some b =>
        have hb' : (Vector.ofFn fun i : Fin n => vals.getD i.val sc.zero) = b := by simpa [RStatus.ofOption] using hv
        have hvl : b.toList = vals := by
          rw [← hb']
          apply List.ext_getElem
          · simp [ha]
          · intro i h1 h2
            simp [List.getD_eq_getElem?_getD, List.getElem?_eq_getElem h2]
        refine ⟨by simp, fun _ => ⟨Spec.smallBlock vt (Spec.scalars fl sc b.toList) key, rfl, ?_, ?_⟩, by simp, by simp⟩
        · rw [hvl]; exact hc
        · rw [hb, smallBlock_length, hvl, scalars_length, ha, Nat.mul_comm n]; omega
  | string =>
    obtain ⟨h1, h2⟩ := ht
    simp only at h1 h2
    subst h1 h2
    refine (singleString_wp env fl hd hp key hk ea).mono fun st p' h1 h2 h3 v hv => ?_
    cases v with
    | none =>
      obtain ⟨ha, hb, hc⟩ := h3.2 hv
      refine ⟨fun _ => ha, fun hx => ?_, by simp, fun _ _ => hb⟩
      rcases hx with hx | hx
      · exact ⟨_, rfl, hc hx⟩
      · simp at hx
    | some x =>
      obtain ⟨ha, hb⟩ := h3.1 x hv
      refine ⟨by simp, fun hx => ?_, fun _ _ => ha, by simp⟩
      rcases hx with hx | hx
      · exact ⟨_, rfl, hb hx⟩
      · simp at hx

theorem array_wp (env : REnv) {d : Bytes} {p : Nat} (fl : Bool) (hd : Small d) (hp : p ≤ d.length) {t : DataType} (ht : t.Ok)
    (key : Bytes) (hk : key.length ≤ 40) (ea wi : Bool) {U : Prop} (hm : (∀ sc n f, t.kind = .items sc n f → ∀ m, m < 2 ^ 64 →
      Has d p [UInt8.ofNat t.avt] → Has d (p + 10) key → Has d (p + 12 + key.length) (Spec.number fl 8 m) → n ∣ m) ∨ U) :
    Wp d fl p (readArray env t key ea wi ⟨d, p, fl⟩) (ArrayOutcome d fl p t key ea wi) U := by
  obtain ⟨nm, vt, avt, kind, ov⟩ := t
  cases kind with
  | bool =>
    obtain ⟨h1, h2⟩ := ht
    simp only at h1 h2
    subst h1 h2
    exact (arrayBool_wp env fl hd hp nm 1 ov key hk ea wi).weaken
  | items sc n f =>
    obtain ⟨h0, h1, h2, h3, h4⟩ := ht
    simp only at h3 h4
    exact arrayItems_wp env fl hd hp nm vt avt sc n f ov (by omega) key hk ea wi h0 h1 (hm.imp_left fun hm => hm sc n f rfl)
  | string =>
    obtain ⟨h1, h2⟩ := ht
    simp only at h1 h2
    subst h1 h2
    exact (arrayString_wp env fl hd hp nm _ ov key hk ea wi).weaken

/-- Outcome of a successful typed read that found `v`. -/
structure Outcome (d : Bytes) (fl : Bool) (p : Nat) (t : DataType) (c : Container) (key : Bytes) (v : c.Val t.Val) (p' : Nat) : Prop where
  block : p' < d.length ∨ isSmall t c = true ∨ (t.kind ≠ .string ∧ present c v = true) → ∃ block, Spec.TypedBlock fl t c key v block ∧ Has d p block ∧ p' = p + block.length
  full : isSmall t c = false → present c v = true → LargeDone d fl p (blockCode t c) key p'
  absent : isSmall t c = false → present c v = false → LargeHead d fl p (blockCode t c) key p' p'

theorem readTyped_wp (env : REnv) {d : Bytes} {p : Nat} (fl : Bool) (hd : Small d) (hp : p ≤ d.length) {t : DataType} (ht : t.Ok)
    (c : Container) (key : Bytes) (hk : key.length ≤ 40) (dest : c.Val t.Val) {U : Prop} (hm : CountOk d fl p t c key ∨ U) :
    Wp d fl p (readTyped env t c key dest ⟨d, p, fl⟩) (fun r p' => ∀ v', r = some v' → ∃ v, v' = readInto t c dest v ∧
      Outcome d fl p t c key v p') U := by
  have hsingle : ∀ (v : Option t.Val) (ea : Bool) (p' : Nat), SingleOutcome d fl p t key ea v p' →
      Outcome d fl p t .optionalValue key v p' := by
    intro v ea p' h
    have hs : isSmall t .optionalValue = true ↔ t.kind ≠ .string := by simp [isSmall]
    have hs2 : isSmall t .optionalValue = false ↔ t.kind = .string := by simp [isSmall]
    refine ⟨fun hx => h.block (by rw [hs] at hx; exact hx.imp_right fun h => h.elim id And.left), fun h1 h2 => h.full (hs2.mp h1) h2, fun h1 h2 => h.absent (hs2.mp h1) ?_⟩
    cases v with
    | none => rfl
    | some x => cases h2
  have hsingle1 : ∀ (v : t.Val) (ea : Bool) (p' : Nat), SingleOutcome d fl p t key ea (some v) p' →
      Outcome d fl p t .none key v p' := by
    intro v ea p' h
    have hs : isSmall t .none = true ↔ t.kind ≠ .string := by simp [isSmall]
    have hs2 : isSmall t .none = false ↔ t.kind = .string := by simp [isSmall]
    exact ⟨fun hx => h.block (by rw [hs] at hx; exact hx.imp_right fun h => h.elim id And.left), fun h1 h2 => h.full (hs2.mp h1) rfl, fun h1 h2 => by cases h2⟩
  cases c with
  | none =>
    rw [readTyped]
    refine Wp.bind (single_wp env fl hd hp ht key hk false).weaken fun st p' h1 h2 h3 => ?_
    cases st with
    | fail => exact Wp.pure h2 (by simp)
    | successEmpty => exact Wp.pure h2 (by simp)
    | success v =>
      refine Wp.pure h2 fun v' hv => ?_
      obtain rfl : v = v' := by simpa using hv
      exact ⟨v, rfl, hsingle1 v false p' (h3 (some v) rfl)⟩
  | optionalValue =>
    rw [readTyped]
    refine Wp.bind (single_wp env fl hd hp ht key hk true).weaken fun st p' h1 h2 h3 => ?_
    cases st with
    | fail => exact Wp.pure h2 (by simp)
    | successEmpty =>
      refine Wp.pure h2 fun v' hv => ?_
      obtain rfl : none = v' := by simpa using hv
      exact ⟨none, rfl, hsingle none true p' (h3 none rfl)⟩
    | success v =>
      refine Wp.pure h2 fun v' hv => ?_
      obtain rfl : some v = v' := by simpa using hv
      exact ⟨some v, rfl, hsingle (some v) true p' (h3 (some v) rfl)⟩
  | vector =>
    rw [readTyped]
    have hm' := hm.imp_left fun hm => (hm.resolve_left (by decide)).resolve_left (by decide)
    refine Wp.bind (array_wp env fl hd hp ht key hk false false hm') fun st p' h1 h2 h3 => ?_
    cases st with
    | fail => exact Wp.pure h2 (by simp)
    | successEmpty => exact Wp.pure h2 (by simp)
    | success r =>
      obtain ⟨l, idx⟩ := r
      refine Wp.pure h2 fun v' hv => ?_
      obtain ⟨ha, hb⟩ := h3.1 l idx rfl
      refine ⟨l, (Option.some.inj hv).symm, fun hx => ?_, fun _ _ => ha, fun _ h => by cases h⟩
      exact hb (by simpa [isSmall, present] using hx)
  | optionalVector =>
    rw [readTyped]
    have hm' := hm.imp_left fun hm => (hm.resolve_left (by decide)).resolve_left (by decide)
    refine Wp.bind (array_wp env fl hd hp ht key hk true false hm') fun st p' h1 h2 h3 => ?_
    cases st with
    | fail => exact Wp.pure h2 (by simp)
    | successEmpty =>
      refine Wp.pure h2 fun v' hv => ?_
      obtain ⟨ha, hb, hc⟩ := h3.2 rfl
      refine ⟨none, (Option.some.inj hv).symm, fun hx => ?_, fun _ h => (by cases h), fun _ _ => hb⟩
      exact ⟨_, rfl, hc (by simpa [isSmall, present] using hx)⟩
    | success r =>
      obtain ⟨l, idx⟩ := r
      refine Wp.pure h2 fun v' hv => ?_
      obtain ⟨ha, hb⟩ := h3.1 l idx rfl
      refine ⟨some l, (Option.some.inj hv).symm, fun hx => ?_, fun _ _ => ha, fun _ h => by cases h⟩
      exact hb (by simpa [isSmall, present] using hx)
  | idxVector =>
    rw [readTyped]
    have hm' := hm.imp_left fun hm => (hm.resolve_left (by decide)).resolve_left (by decide)
    refine Wp.bind (array_wp env fl hd hp ht key hk false true hm') fun st p' h1 h2 h3 => ?_
    cases st with
    | fail => exact Wp.pure h2 (by simp)
    | successEmpty => exact Wp.pure h2 (by simp)
    | success r =>
      obtain ⟨l, idx⟩ := r
      refine Wp.pure h2 fun v' hv => ?_
      obtain ⟨ha, hb⟩ := h3.1 l idx rfl
      refine ⟨⟨l, idx⟩, (Option.some.inj hv).symm, fun hx => ?_, fun _ _ => ha, fun _ h => by cases h⟩
      exact hb (by simpa [isSmall, present] using hx)
  | optionalIdxVector =>
    rw [readTyped]
    have hm' := hm.imp_left fun hm => (hm.resolve_left (by decide)).resolve_left (by decide)
    refine Wp.bind (array_wp env fl hd hp ht key hk true true hm') fun st p' h1 h2 h3 => ?_
    cases st with
    | fail => exact Wp.pure h2 (by simp)
    | successEmpty =>
      refine Wp.pure h2 fun v' hv => ?_
      obtain ⟨ha, hb, hc⟩ := h3.2 rfl
      refine ⟨none, (Option.some.inj hv).symm, fun hx => ?_, fun _ h => (by cases h), fun _ _ => hb⟩
      exact ⟨_, rfl, hc (by simpa [isSmall, present] using hx)⟩
    | success r =>
      obtain ⟨l, idx⟩ := r
      refine Wp.pure h2 fun v' hv => ?_
      obtain ⟨ha, hb⟩ := h3.1 l idx rfl
      refine ⟨some ⟨l, idx⟩, (Option.some.inj hv).symm, fun hx => ?_, fun _ _ => ha, fun _ h => by cases h⟩
      exact hb (by simpa [isSmall, present] using hx)

end ISD
