import Verif.Proofs.Hostile
import Verif.Spec.Accept

/-! # Typed reads of arbitrary bytes -/

namespace ISD

open RStream

/-! ## Small blocks -/

theorem singleItems_wp (env : REnv) {d : Bytes} {p : Nat} (fl : Bool) (hd : Small d) (hp : p ≤ d.length) (vt : Nat) (hv : 0 < vt)
    (sc : Sc) (n : Nat) (hn : sc.size * n ≤ 128) (key : Bytes) (hk : key.length ≤ 40) (ea : Bool) :
    Wp d fl p (readSingleItems env vt sc n key ea ⟨d, p, fl⟩) fun st p' =>
      (∀ vals, st = .success vals → vals.length = n ∧ p' = p + 2 + (sc.size * n + key.length) ∧
        Has d p (Spec.smallBlock vt (Spec.scalars fl sc vals) key)) ∧
      (st = .successEmpty → ea = true ∧ p' = p + 2 + key.length ∧ Has d p (Spec.smallBlock vt [] key)) := by
  have hmul : n * sc.size = sc.size * n := Nat.mul_comm _ _
  rw [readSingleItems]
  refine Wp.get ?_
  dsimp only
  refine Wp.bind (u8_wp fl hd hp) fun vt' p1 h1 h2 n1 => ?_
  refine Wp.ite (fun _ => Wp.pure h2 (by simp)) fun hvt => ?_
  have hvt : vt' = vt := by simpa using hvt
  subst hvt
  have hlt : p + 1 ≤ d.length := by
    apply Decidable.byContradiction
    intro hc
    have := n1.eof (by omega)
    omega
  obtain ⟨rfl, hcode⟩ := n1.full hlt
  rw [number_one] at hcode
  refine Wp.bind (u8_wp fl hd h2) fun size p2 h3 h4 n2 => ?_
  have hw1 : wrap64 (p + 2 + key.length) = p + 2 + key.length := Nat.mod_eq_of_lt (by omega)
  have hw2 : wrap64 (p + 2 + (sc.size * n + key.length)) = p + 2 + (sc.size * n + key.length) := Nat.mod_eq_of_lt (by omega)
  have hp2 : p2 ≤ p + 2 := by
    by_cases h : p + 1 + 1 ≤ d.length
    · have := (n2.full h).1; omega
    · have := n2.cut (by omega); omega
  refine Wp.ite (fun hne => ?_) (fun heq => ?_)
  · refine Wp.ite (fun _ => Wp.pure h4 (by simp)) fun hea => ?_
    refine Wp.ite (fun _ => Wp.pure h4 (by simp)) fun hsz => ?_
    refine Wp.bind (key_wp env fl hd h4 hk) fun r p3 h5 h6 n3 => ?_
    obtain ⟨cnt, buf⟩ := r
    dsimp only at n3 ⊢
    refine Wp.ite (fun _ => Wp.pure h6 (by simp)) fun hkey => ?_
    refine Wp.get ?_
    dsimp only
    refine Wp.ite (fun _ => Wp.pure h6 (by simp)) fun hpos => ?_
    refine Wp.pure h6 ⟨by simp, fun _ => ?_⟩
    have hsz : size = key.length := by omega
    subst hsz
    have hpos : p3 = p + 2 + key.length := by omega
    have hfull : p + 2 + key.length ≤ d.length := by omega
    obtain ⟨rfl, hs⟩ := n2.full (by omega)
    rw [number_one] at hs
    have hk2 := (n3.2.1 (by omega)).2
    have hkk : key = buf.take key.length := by
      apply Decidable.byContradiction
      exact fun hc => hkey (Or.inr hc)
    rw [← hkk] at hk2
    refine ⟨by simpa using hea, hpos, ?_⟩
    rw [Spec.smallBlock, Has.append, Has.append, Has.cons]
    refine ⟨⟨⟨hcode, ?_⟩, ?_⟩, ?_⟩
    · simpa using hs
    · exact Has.nil (by simp; omega)
    · simpa using hk2
  · have heq : size = sc.size * n + key.length := by simpa using heq
    refine Wp.bind (items_wp fl hd h4 sc (by omega) (by simp)) fun r p3 h5 h6 n3 => ?_
    obtain ⟨rc, vals⟩ := r
    dsimp only at n3 ⊢
    refine Wp.ite (fun _ => Wp.pure h6 (by simp)) fun hrc => ?_
    refine Wp.bind (key_wp env fl hd h6 hk) fun r p4 h7 h8 n4 => ?_
    obtain ⟨cnt, buf⟩ := r
    dsimp only at n4 ⊢
    refine Wp.ite (fun _ => Wp.pure h8 (by simp)) fun hkey => ?_
    refine Wp.get ?_
    dsimp only
    refine Wp.ite (fun _ => Wp.pure h8 (by simp)) fun hpos => ?_
    refine Wp.pure h8 ⟨?_, by simp⟩
    rintro vals' hvals
    obtain rfl : vals = vals' := by simpa using hvals
    obtain ⟨hl, hp3, hfull3, -⟩ := n3
    rw [hmul] at hp3 hfull3
    have hpos : p4 = p + 2 + (sc.size * n + key.length) := by omega
    refine ⟨hl, hpos, ?_⟩
    obtain ⟨rfl, hs⟩ := n2.full (by omega)
    rw [number_one] at hs
    have hv := (hfull3 (by omega)).2
    have hk2 := (n4.2.1 (by omega)).2
    have hkk : key = buf.take key.length := by
      apply Decidable.byContradiction
      exact fun hc => hkey (Or.inr hc)
    rw [← hkk] at hk2
    have hsl : (Spec.scalars fl sc vals).length = sc.size * n := by rw [scalars_length, hl, hmul]
    rw [Spec.smallBlock, Has.append, Has.append, Has.cons]
    refine ⟨⟨⟨hcode, ?_⟩, hv⟩, ?_⟩
    · rw [hsl, ← heq]; exact hs
    · have e : p + ([UInt8.ofNat vt', UInt8.ofNat ((Spec.scalars fl sc vals).length + key.length)] ++
          Spec.scalars fl sc vals).length = p3 := by
        rw [List.length_append, hsl]; simp only [List.length_cons, List.length_nil]; omega
      rw [e]; exact hk2

/-! ## Large blocks -/

/-- A large block with contents that was read to its end `p'`. -/
def LargeDone (d : Bytes) (fl : Bool) (p vt : Nat) (key : Bytes) (p' : Nat) : Prop :=
  ∃ payload, payload ≠ [] ∧ Has d p (Spec.largeBlock fl vt key payload) ∧ p' = p + (Spec.largeBlock fl vt key payload).length

theorem LargeHead.block {d : Bytes} {fl : Bool} {p vt : Nat} {key : Bytes} {e p1 : Nat} (hd : Small d) (h : LargeHead d fl p vt key e p1)
    (payload : Bytes) (hpay : Has d p1 payload) (hend : p1 + payload.length = e) (hx : p1 ≠ e ∨ e < d.length) :
    Has d p (Spec.largeBlock fl vt key payload) ∧ e = p + (Spec.largeBlock fl vt key payload).length := by
  have hf := h.fits
  rcases h.rest with ⟨size, hsz, h9, hs, he, hp1, hkl, -, hkey⟩ | ⟨-, -, hp1⟩
  · have hp1' : p1 = p + 10 + key.length := by omega
    have hfull : p + 10 + key.length ≤ d.length := by omega
    have hw : e = p + 9 + size := by
      rw [he, wrap64]
      rw [wrap64] at he
      omega
    have hsize : size = 1 + key.length + payload.length := by omega
    subst hsize
    refine ⟨?_, by rw [largeBlock_length]; omega⟩
    rw [Spec.largeBlock, Has.append, Has.append, Has.append, Has.append]
    simp only [List.length_append, List.length_singleton, number_length]
    refine ⟨⟨⟨⟨h.code, hs⟩, hkl (by omega)⟩, hkey hfull⟩, ?_⟩
    rw [hp1'] at hpay
    have : p + (1 + 8 + 1 + key.length) = p + 10 + key.length := by omega
    rw [this]; exact hpay
  · omega

theorem LargeHead.done {d : Bytes} {fl : Bool} {p vt : Nat} {key : Bytes} {e p1 : Nat} (hd : Small d) (h : LargeHead d fl p vt key e p1)
    (h1 : p1 ≤ e) (hne : p1 ≠ e) : LargeDone d fl p vt key e := by
  have := h.fits
  refine ⟨_, fun hc => ?_, h.block hd ((d.drop p1).take (e - p1)) (Has.slice (by omega)) (by simp; omega) (Or.inl hne)⟩
  have := congrArg List.length hc
  simp only [List.length_take, List.length_drop, List.length_nil] at this
  omega

theorem singleString_wp (env : REnv) {d : Bytes} {p : Nat} (fl : Bool) (hd : Small d) (hp : p ≤ d.length)
    (key : Bytes) (hk : key.length ≤ 40) (ea : Bool) :
    Wp d fl p (readSingleString env key ea ⟨d, p, fl⟩) fun st p' =>
      (∀ v, st = .success v → LargeDone d fl p vtString key p' ∧
        (p' < d.length → Has d p (Spec.largeBlock fl vtString key (Spec.sizedString fl v)) ∧
          p' = p + (Spec.largeBlock fl vtString key (Spec.sizedString fl v)).length)) ∧
      (st = .successEmpty → ea = true ∧ LargeHead d fl p vtString key p' p' ∧
        (p' < d.length → Has d p (Spec.largeBlock fl vtString key []) ∧ p' = p + (Spec.largeBlock fl vtString key []).length)) := by
  rw [readSingleString]
  refine Wp.bind (beginLarge_wp env fl hd hp vtString (by decide) key hk) fun e p1 h1 h2 hh => ?_
  refine Wp.ite (fun _ => Wp.pure h2 (by simp)) fun he => ?_
  have hh := hh he
  refine Wp.get ?_
  dsimp only
  refine Wp.ite (fun hemp => ?_) (fun hne => ?_)
  · refine Wp.ite (fun hea => ?_) (fun _ => Wp.pure h2 (by simp))
    refine Wp.bind (endLarge_wp fl h2 e) fun b p2 h3 h4 h5 => ?_
    obtain ⟨rfl, h6⟩ := h5
    refine Wp.ite (fun _ => Wp.pure h2 (by simp)) fun hb => Wp.pure h2 ⟨by simp, fun _ => ⟨hea, hemp ▸ hh, fun hlt => ?_⟩⟩
    exact hemp ▸ hh.block hd [] (Has.nil h2) (by simpa using hemp) (Or.inr (by omega))
  · refine Wp.bind (u64_wp fl hd h2) fun n p2 h3 h4 n2 => ?_
    refine Wp.get ?_
    dsimp only
    refine Wp.ite (fun _ => Wp.pure h4 (by simp)) fun hfit => ?_
    refine Wp.bind (resizeTo_wp env fl h4 n 1) fun _ p2' h5 h6 h7 => ?_
    obtain ⟨rfl, hn⟩ := h7
    refine Wp.bind (raw_wp fl hd h4 (by omega) (Nat.le_refl n)) fun bs p3 h8 h9 n3 => ?_
    refine Wp.ite (fun _ => Wp.pure h9 (by simp)) fun hlen => ?_
    refine Wp.bind (endLarge_wp fl h9 e) fun b p4 h10 h11 h12 => ?_
    obtain ⟨rfl, h13⟩ := h12
    refine Wp.ite (fun _ => Wp.pure h9 (by simp)) fun hb => Wp.pure h9 ⟨?_, by simp⟩
    rintro v hv
    obtain rfl : bs = v := by simpa using hv
    have hpe : p4 = e := h13.mp (by simpa using hb)
    subst hpe
    refine ⟨hh.done hd (by omega) (by omega), fun hlt => ?_⟩
    have hfull : p1 + 8 ≤ d.length := by
      apply Decidable.byContradiction
      intro hc
      have := n2.cut (by omega)
      omega
    obtain ⟨rfl, hs⟩ := n2.full hfull
    have hbl : bs.length = n := by
      by_cases h0 : n = 0
      · omega
      · apply Decidable.byContradiction
        exact fun hc => hlen ⟨by omega, hc⟩
    have hpay : Has d p1 (Spec.sizedString fl bs) := by
      rw [Spec.sizedString, Has.append, number_length, hbl]
      exact ⟨hs, n3.2.1⟩
    exact hh.block hd _ hpay (by rw [sizedString_length]; omega) (Or.inr hlt)

/-! ## Arrays -/

/-- What the header of an array block says. -/
structure MetaRead (d : Bytes) (fl : Bool) (p : Nat) (wi : Bool) (per cnt : Nat) (idx : List (Word 4)) (p' : Nat) : Prop where
  header : ∃ flags, flags < 2 ^ 16 ∧ flags.testBit 9 = false ∧ flags.testBit 8 = wi ∧ per = flags % 256 ∧
    Has d p (Spec.looseHeader fl flags cnt (if wi then some idx else none)) ∧
    p' = p + (Spec.looseHeader fl flags cnt (if wi then some idx else none)).length
  count : cnt < 2 ^ 64
  noIndex : wi = false → idx = []

theorem MetaRead.countAt {d : Bytes} {fl : Bool} {p : Nat} {wi : Bool} {per cnt : Nat} {idx : List (Word 4)} {p' : Nat}
    (h : MetaRead d fl p wi per cnt idx p') : Has d (p + 2) (Spec.number fl 8 cnt) ∧ p + 10 ≤ p' := by
  obtain ⟨flags, -, -, -, -, h1, h2⟩ := h.header
  unfold Spec.looseHeader at h1 h2
  rw [Has.append, Has.append, number_length] at h1
  refine ⟨h1.1.2, ?_⟩
  rw [h2, List.length_append, List.length_append, number_length, number_length]
  omega

theorem meta_wp (env : REnv) {d : Bytes} {p : Nat} (fl : Bool) (hd : Small d) (hp : p ≤ d.length) (e : Nat) (wi : Bool) :
    Wp d fl p (readArrayMetadataAndIndex env e wi ⟨d, p, fl⟩) fun r p' => ∀ per cnt idx, r = some (per, cnt, idx) →
      MetaRead d fl p wi per cnt idx p' := by
  rw [readArrayMetadataAndIndex]
  refine Wp.get ?_
  dsimp only
  refine Wp.bind (u16_wp fl hd hp) fun flags p1 h1 h2 n1 => ?_
  refine Wp.ite (fun _ => Wp.pure h2 (by simp)) fun h9 => ?_
  have h9 : flags.testBit 9 = false := by
    have := and_bit flags 9
    rw [show (2 : Nat) ^ 9 = 0x200 from rfl] at this
    cases hb : flags.testBit 9 with
    | false => rfl
    | true => exact absurd (this.mpr hb) h9
  refine Wp.bind (u64_wp fl hd h2) fun cnt p2 h3 h4 n2 => ?_
  have h8 : flags &&& 0x100 ≠ 0 ↔ flags.testBit 8 = true := and_bit flags 8
  have hq : p2 ≤ p + 10 ∧ (p2 = p + 10 → p1 = p + 2) := by
    by_cases ha : p + 2 ≤ d.length
    · have := (n1.full ha).1
      by_cases hb : p1 + 8 ≤ d.length
      · have := (n2.full hb).1; omega
      · have := n2.cut (by omega); omega
    · have := n1.cut (by omega)
      have := n2.cut (by omega); omega
  refine Wp.ite (fun hi => ?_) (fun hi => ?_)
  · refine Wp.ite (fun _ => Wp.pure h4 (by simp)) fun hwi => ?_
    have hwi : wi = true := by simpa using hwi
    refine Wp.bind (u64_wp fl hd h4) fun ic p3 h5 h6 n3 => ?_
    refine Wp.get ?_
    dsimp only
    refine Wp.ite (fun _ => Wp.pure h6 (by simp)) fun hfit => ?_
    refine Wp.bind (resizeTo_wp env fl h6 ic 4) fun _ p3' h7 h8' h10 => ?_
    obtain ⟨rfl, hic⟩ := h10
    refine Wp.bind (items_wp fl hd h6 .w4 hic (by simp)) fun r p4 h11 h12 n4 => ?_
    obtain ⟨rc, idx⟩ := r
    dsimp only at n4 ⊢
    refine Wp.get ?_
    dsimp only
    refine Wp.ite (fun _ => Wp.pure h12 (by simp)) fun hpos => Wp.pure h12 ?_
    rintro per cnt' idx' heq
    simp only [Option.some.injEq, Prod.mk.injEq] at heq
    obtain ⟨rfl, rfl, rfl⟩ := heq
    have hw : wrap64 (p + 2 + 8 + 8 + ic * 4) = p + 18 + ic * 4 := by
      rw [wrap64, Nat.mod_eq_of_lt (by omega)]
    have hpos : p4 = p + 18 + ic * 4 := by rw [hw] at hpos; omega
    obtain ⟨hl, hp4, hf4, -⟩ := n4
    simp only [Sc.size] at hp4 hf4
    have hp3 : p3' ≤ p2 + 8 := by
      by_cases hb : p2 + 8 ≤ d.length
      · have := (n3.full hb).1; omega
      · have := n3.cut (by omega); omega
    have e3 : p3' = p + 18 := by omega
    have e2 : p2 = p + 10 := by omega
    have e1 := hq.2 e2
    obtain ⟨-, hb1⟩ := n1.full (by omega)
    obtain ⟨-, hb2⟩ := n2.full (by omega)
    obtain ⟨-, hb3⟩ := n3.full (by omega)
    have hb4 := (hf4 (by omega)).2
    subst e1 e2 e3
    refine ⟨⟨flags, n1.lt, h9, by rw [hwi]; exact h8.mp hi, and_ff flags, ?_, ?_⟩, n2.lt, by simp [hwi]⟩
    · rw [hwi, if_pos rfl, Spec.looseHeader, Has.append, Has.append, number_length, List.length_append, number_length, number_length]
      rw [Has.append, number_length]
      have hl : idx.length = ic := hl
      rw [hl]
      exact ⟨⟨hb1, hb2⟩, hb3, hb4⟩
    · rw [hwi, if_pos rfl, Spec.looseHeader]
      have := scalars_length fl .w4 idx
      have e4 : (List.flatMap (fun w => Spec.number fl 4 (BitVec.toNat w)) idx) = Spec.scalars fl .w4 idx := rfl
      simp only [List.length_append, number_length]
      rw [e4, this]
      simp only [Sc.size]
      have hl : idx.length = ic := hl
      rw [hl]; omega
  · refine Wp.ite (fun _ => Wp.pure h4 (by simp)) fun hwi => ?_
    have hwi : wi = false := by simpa using hwi
    refine Wp.get ?_
    dsimp only
    refine Wp.ite (fun _ => Wp.pure h4 (by simp)) fun hpos => Wp.pure h4 ?_
    rintro per cnt' idx' heq
    simp only [Option.some.injEq, Prod.mk.injEq] at heq
    obtain ⟨rfl, rfl, rfl⟩ := heq
    have hw : wrap64 (p + 2 + 8) = p + 10 := by rw [wrap64, Nat.mod_eq_of_lt (by omega)]
    have e2 : p2 = p + 10 := by rw [hw] at hpos; omega
    have e1 := hq.2 e2
    obtain ⟨-, hb1⟩ := n1.full (by omega)
    obtain ⟨-, hb2⟩ := n2.full (by omega)
    subst e1 e2
    refine ⟨⟨flags, n1.lt, h9, ?_, and_ff flags, ?_, ?_⟩, n2.lt, fun _ => rfl⟩
    · rw [hwi]
      cases hb : flags.testBit 8 with
      | false => rfl
      | true => exact absurd (h8.mpr hb) hi
    · rw [hwi, if_neg (by decide), Spec.looseHeader, Has.append, Has.append, number_length]
      exact ⟨⟨hb1, hb2⟩, Has.nil (by simp; omega)⟩
    · rw [hwi, if_neg (by decide), Spec.looseHeader]
      simp only [List.length_append, number_length, List.length_nil]

/-- Outcome of an array read: `t` with `index` present iff `wi`. -/
def ArrayOutcome (d : Bytes) (fl : Bool) (p : Nat) (t : DataType) (key : Bytes) (ea wi : Bool)
    (st : RStatus (List t.Val × List (Word 4))) (p' : Nat) : Prop :=
  (∀ l idx, st = .success (l, idx) → LargeDone d fl p t.avt key p' ∧
    (p' < d.length ∨ t.kind ≠ .string → ∃ block, Spec.ArrayBlock fl t key (some l) (if wi then some idx else none) block ∧ Has d p block ∧
      p' = p + block.length)) ∧
  (st = .successEmpty → ea = true ∧ LargeHead d fl p t.avt key p' p' ∧
    (p' < d.length → Has d p (Spec.largeBlock fl t.avt key []) ∧ p' = p + (Spec.largeBlock fl t.avt key []).length))

theorem ArrayOutcome.fail {d : Bytes} {fl : Bool} {p : Nat} {t : DataType} {key : Bytes} {ea wi : Bool} {p' : Nat} :
    ArrayOutcome d fl p t key ea wi .fail p' := ⟨by simp, by simp⟩

theorem LargeHead.empty {d : Bytes} {fl : Bool} {p : Nat} {t : DataType} {key : Bytes} {ea wi : Bool} {e : Nat} (hd : Small d)
    (h : LargeHead d fl p t.avt key e e) (he : e ≤ d.length) :
    Wp d fl e (endReadEmptyLargeBlock ea e ⟨d, e, fl⟩) (ArrayOutcome d fl p t key ea wi) := by
  rw [endReadEmptyLargeBlock]
  refine Wp.ite (fun hea => ?_) (fun _ => Wp.pure he .fail)
  refine Wp.bind (endLarge_wp fl he e) fun b p2 h3 h4 h5 => ?_
  obtain ⟨rfl, -⟩ := h5
  refine Wp.ite (fun _ => Wp.pure he .fail) fun hb => Wp.pure he ⟨by simp, fun _ => ⟨hea, h, fun hlt => ?_⟩⟩
  exact h.block hd [] (Has.nil he) (by simp) (Or.inr hlt)

theorem groupVals_flatten {α : Type} (n : Nat) (z : α) (m : Nat) (l : List α) (h : l.length = m * n) :
    (groupVals n z m l).flatMap Vector.toList = l ∧ (groupVals n z m l).length = m := by
  induction m generalizing l with
  | zero =>
    rw [Nat.zero_mul] at h
    rw [List.eq_nil_of_length_eq_zero h]
    exact ⟨rfl, rfl⟩
  | succ m ih =>
    rw [Nat.succ_mul] at h
    have hi := ih (l.drop n) (by rw [List.length_drop]; omega)
    rw [groupVals, List.flatMap_cons, List.length_cons, hi.1, hi.2]
    refine ⟨?_, rfl⟩
    have : (Vector.ofFn fun i : Fin n => l.getD i.val z).toList = l.take n := by
      apply List.ext_getElem
      · simp; omega
      · intro i h1 h2
        simp at h1 h2
        simp [List.getD_eq_getElem?_getD, List.getElem?_eq_getElem (show i < l.length by omega)]
    rw [this, List.take_append_drop]

theorem LargeHead.at {d : Bytes} {fl : Bool} {p vt : Nat} {key : Bytes} {e p1 : Nat} (h : LargeHead d fl p vt key e p1)
    (hl : p1 < d.length) : p1 = p + 10 + key.length := by
  rcases h.rest with ⟨size, hsz, h9, hs, he, hp1, hkl, -, hkey⟩ | ⟨-, -, hp1⟩ <;> omega

theorem LargeHead.key_at {d : Bytes} {fl : Bool} {p vt : Nat} {key : Bytes} {e p1 : Nat} (h : LargeHead d fl p vt key e p1)
    (hl : p1 < d.length) : Has d (p + 10) key := by
  rcases h.rest with ⟨size, hsz, h9, hs, he, hp1, hkl, -, hkey⟩ | ⟨-, -, hp1⟩
  · exact hkey (by omega)
  · omega

theorem arrayItems_wp (env : REnv) {d : Bytes} {p : Nat} (fl : Bool) (hd : Small d) (hp : p ≤ d.length) (nm : String) (vt avt : Nat)
    (sc : Sc) (n : Nat) (f ov : Bool) (hv : 0 < avt) (key : Bytes) (hk : key.length ≤ 40)
    (ea wi : Bool) {U : Prop} (hn : 0 < n) (hsn : sc.size * n ≤ 128)
    (hm : (∀ m, m < 2 ^ 64 → Has d p [UInt8.ofNat avt] → Has d (p + 10) key → Has d (p + 12 + key.length) (Spec.number fl 8 m) → n ∣ m) ∨ U) :
    Wp d fl p (readArrayItems env avt sc n key ea wi ⟨d, p, fl⟩)
      (ArrayOutcome d fl p ⟨nm, vt, avt, .items sc n f, ov⟩ key ea wi) U := by
  rw [readArrayItems]
  refine Wp.bind (beginLarge_wp env fl hd hp avt hv key hk).weaken fun e p1 h1 h2 hh => ?_
  refine Wp.ite (fun _ => Wp.pure h2 .fail) fun he => ?_
  have hh := hh he
  refine Wp.get ?_
  dsimp only
  refine Wp.ite (fun hemp => ?_) (fun hne => ?_)
  · subst hemp
    exact (LargeHead.empty (t := ⟨nm, vt, avt, .items sc n f, ov⟩) hd hh h2).weaken
  · refine Wp.bind (meta_wp env fl hd h2 e wi).weaken fun r p2 h3 h4 hr => ?_
    match r, hr with
    | none, _ => exact Wp.pure h4 .fail
    | some (per, cnt, idx), hr =>
      have hr := hr per cnt idx rfl
      dsimp only
      refine Wp.ite (fun _ => Wp.pure h4 .fail) fun hper => ?_
      refine Wp.get ?_
      dsimp only
      refine Wp.ite (fun _ => Wp.pure h4 .fail) fun hfit => ?_
      refine Wp.bind (resizeTo_wp env fl h4 (cnt / n) (sc.size * n)).weaken fun _ p2' h5 h6 h7 => ?_
      obtain ⟨rfl, hsz⟩ := h7
      have hp1 := hh.at (by have := hr.countAt.2; omega)
      by_cases hdvd : n ∣ cnt
      rotate_left
      · have hU : U := hm.resolve_left fun hm => hdvd (hm cnt hr.count hh.code (hh.key_at (by have := hr.countAt.2; omega)) (by
          have := hr.countAt.1
          rw [hp1] at this
          rwa [show p + 10 + key.length + 2 = p + 12 + key.length by omega] at this))
        have hlt : cnt / n * n < cnt := by
          have := Nat.div_mul_le_self cnt n
          have : cnt / n * n ≠ cnt := fun e => hdvd ⟨cnt / n, by rw [Nat.mul_comm]; exact e.symm⟩
          omega
        have hsz3 : cnt * sc.size < 2 ^ 64 - 2 ^ 60 := by
          have h1 : cnt * sc.size = cnt / n * (sc.size * n) + cnt % n * sc.size := by
            conv => lhs; rw [← Nat.div_add_mod cnt n]
            rw [Nat.add_mul, Nat.mul_comm sc.size n, Nat.mul_comm n (cnt / n), Nat.mul_assoc]
          have h2 : cnt % n * sc.size ≤ n * sc.size := Nat.mul_le_mul_right _ (Nat.le_of_lt (Nat.mod_lt _ hn))
          rw [Nat.mul_comm n] at h2
          omega
        refine Wp.bind ((items_short fl hd h4 sc hsz3 (by rw [List.length_replicate]; exact hlt)).anyUb hU) fun r p3 h8 h9 n3 => ?_
        obtain ⟨rc, vals⟩ := r
        dsimp only at n3 ⊢
        exact Wp.ite (fun _ => Wp.pure h9 .fail) fun hrc => absurd hrc (by omega)
      have hc : cnt / n * n = cnt := Nat.div_mul_cancel hdvd
      have hsz2 : cnt * sc.size < 2 ^ 63 := by
        rw [Nat.mul_comm sc.size n, ← Nat.mul_assoc, hc] at hsz; exact hsz
      refine Wp.bind (items_wp fl hd h4 sc hsz2 (by rw [List.length_replicate, hc])).weaken fun r p3 h8 h9 n3 => ?_
      obtain ⟨rc, vals⟩ := r
      dsimp only at n3 ⊢
      refine Wp.ite (fun _ => Wp.pure h9 .fail) fun hrc => ?_
      refine Wp.bind (endLarge_wp fl h9 e).weaken fun b p4 h10 h11 h12 => ?_
      obtain ⟨rfl, h13⟩ := h12
      refine Wp.ite (fun _ => Wp.pure h9 .fail) fun hb => Wp.pure h9 ⟨?_, by simp⟩
      rintro l idx' heq
      simp only [RStatus.success.injEq, Prod.mk.injEq] at heq
      obtain ⟨rfl, rfl⟩ := heq
      have hpe : p4 = e := h13.mp (by simpa using hb)
      subst hpe
      refine ⟨hh.done hd (by omega) (by omega), fun hlt => ?_⟩
      obtain ⟨flags, hf1, hf2, hf3, hf4, hf5, hf6⟩ := hr.header
      obtain ⟨hl, hp4, hfull, hshort⟩ := n3
      have hin : p2' + cnt * sc.size ≤ d.length := by
        apply Decidable.byContradiction
        intro hc
        have := hshort (by omega)
        exact hrc (by omega)
      have hvals := (hfull hin).2
      have hg := groupVals_flatten n sc.zero (cnt / n) vals (by rw [hl, hc])
      refine ⟨_, ⟨flags, cnt, Spec.scalars fl sc ((groupVals n sc.zero (cnt / n) vals).flatMap Vector.toList), hf1, hf2, ?_, ?_,
        hr.count, ⟨?_, rfl⟩, rfl⟩, ?_⟩
      · rw [hf3]; cases wi <;> rfl
      · show flags % 256 = sc.size
        omega
      · show cnt = (groupVals n sc.zero (cnt / n) vals).length * n
        rw [hg.2, hc]
      · rw [hg.1]
        refine hh.block hd _ ?_ ?_ (Or.inl (by omega))
        · rw [Has.append]
          exact ⟨hf5, by rw [← hf6]; exact hvals⟩
        · rw [List.length_append, scalars_length, hl]; omega

theorem unpack_bit_all : ∀ x : Fin 256, ∀ k : Fin 8,
    ((UInt8.ofNat x.val &&& (1 : UInt8) <<< UInt8.ofNat k.val) != 0) = x.val.testBit k.val := by decide +kernel

theorem unpack_bit (x : Byte) (i : Nat) :
    ((x &&& (1 : UInt8) <<< UInt8.ofNat (i &&& 7)) != 0) = x.toNat.testBit (i % 8) := by
  have := unpack_bit_all ⟨x.toNat, x.toNat_lt⟩ ⟨i % 8, Nat.mod_lt _ (by decide)⟩
  simpa only [and7, UInt8.ofNat_toNat] using this

theorem unpack_wp {d : Bytes} {p : Nat} (fl : Bool) (hp : p ≤ d.length) (packed : Bytes) (count i : Nat)
    (h : (i + count + 7) / 8 ≤ packed.length) :
    Wp d fl p (unpackLoop packed i count ⟨d, p, fl⟩) fun l p' => p' = p ∧ l.length = count ∧
      ∀ j, j < count → l[j]? = some ((packed.getD ((i + j) / 8) 0).toNat.testBit ((i + j) % 8)) := by
  induction count generalizing i with
  | zero => exact Wp.pure hp ⟨rfl, rfl, by omega⟩
  | succ count ih =>
    rw [unpackLoop]
    have hsh : i >>> 3 = i / 8 := by rw [Nat.shiftRight_eq_div_pow]
    rw [if_neg (by rw [hsh]; omega)]
    refine Wp.bind (ih (i + 1) (by omega)) fun l p' h1 h2 h3 => ?_
    obtain ⟨rfl, hl, hb⟩ := h3
    refine Wp.pure h2 ⟨rfl, by simp [hl], ?_⟩
    intro j hj
    cases j with
    | zero =>
      simp only [List.getElem?_cons_zero, Nat.add_zero, Option.some.injEq]
      rw [hsh]
      exact (unpack_bit (packed.getD (i / 8) 0) i)
    | succ j =>
      rw [List.getElem?_cons_succ, hb j (by omega), show i + 1 + j = i + (j + 1) by omega]

theorem arrayBool_wp (env : REnv) {d : Bytes} {p : Nat} (fl : Bool) (hd : Small d) (hp : p ≤ d.length) (nm : String) (vt : Nat)
    (ov : Bool) (key : Bytes) (hk : key.length ≤ 40) (ea wi : Bool) :
    Wp d fl p (readArrayBool env key ea wi ⟨d, p, fl⟩) (ArrayOutcome d fl p ⟨nm, vt, 0x41, .bool, ov⟩ key ea wi) := by
  rw [readArrayBool]
  refine Wp.bind (beginLarge_wp env fl hd hp 0x41 (by decide) key hk) fun e p1 h1 h2 hh => ?_
  refine Wp.ite (fun _ => Wp.pure h2 .fail) fun he => ?_
  have hh := hh he
  refine Wp.get ?_
  dsimp only
  refine Wp.ite (fun hemp => ?_) (fun hne => ?_)
  · subst hemp
    exact LargeHead.empty (t := ⟨nm, vt, 0x41, .bool, ov⟩) hd hh h2
  · refine Wp.bind (meta_wp env fl hd h2 e wi) fun r p2 h3 h4 hr => ?_
    match r, hr with
    | none, _ => exact Wp.pure h4 .fail
    | some (per, cnt, idx), hr =>
      have hr := hr per cnt idx rfl
      dsimp only
      refine Wp.get ?_
      dsimp only
      refine Wp.ite (fun _ => Wp.pure h4 .fail) fun hfit => ?_
      refine Wp.bind (resizeBool_wp env fl h4 cnt) fun _ p2' h5 h6 h7 => ?_
      obtain ⟨rfl, hcnt⟩ := h7
      have hw : wrap64 (cnt + 7) = cnt + 7 := Nat.mod_eq_of_lt (by omega)
      rw [hw] at hfit ⊢
      refine Wp.bind (resizeTo_wp env fl h4 ((cnt + 7) / 8) 1) fun _ p2'' h8 h9 h10 => ?_
      obtain ⟨rfl, hsz⟩ := h10
      refine Wp.bind (raw_wp fl hd h4 (by omega) (Nat.le_refl _)) fun bs p3 h11 h12 n3 => ?_
      refine Wp.bind (unpack_wp fl h12 _ cnt 0 (by rw [List.length_append, List.length_replicate]; omega)) fun l p3' h13 h14 n4 => ?_
      obtain ⟨rfl, hl, hbits⟩ := n4
      refine Wp.bind (endLarge_wp fl h12 e) fun b p4 h15 h16 h17 => ?_
      obtain ⟨rfl, h18⟩ := h17
      refine Wp.ite (fun _ => Wp.pure h12 .fail) fun hb => Wp.pure h12 ⟨?_, by simp⟩
      rintro l' idx' heq
      simp only [RStatus.success.injEq, Prod.mk.injEq] at heq
      obtain ⟨rfl, rfl⟩ := heq
      have hpe : p4 = e := h18.mp (by simpa using hb)
      subst hpe
      refine ⟨hh.done hd (by omega) (by omega), fun hlt => ?_⟩
      obtain ⟨flags, hf1, hf2, hf3, hf4, hf5, hf6⟩ := hr.header
      obtain ⟨hp4, hbs, hbl⟩ := n3
      have hlen : bs.length = (cnt + 7) / 8 := by
        rw [sub64_of_le (by omega) (by omega)] at hfit
        have := hh.fits
        omega
      refine ⟨_, ⟨flags, cnt, bs, hf1, hf2, ?_, trivial, hr.count, ⟨hl.symm, hlen, ?_⟩, rfl⟩, ?_⟩
      · rw [hf3]; cases wi <;> rfl
      · intro i hi
        have := hbits i hi
        rw [hlen, Nat.sub_self, List.replicate_zero, List.append_nil, Nat.zero_add] at this
        exact this
      · refine hh.block hd _ ?_ ?_ (Or.inl (by omega))
        · rw [Has.append]
          exact ⟨hf5, by rw [← hf6]; exact hbs⟩
        · rw [List.length_append]; omega

theorem strings_wp (env : REnv) {d : Bytes} {p : Nat} (fl : Bool) (hd : Small d) (hp : p ≤ d.length) (e count : Nat) :
    Wp d fl p (readStrings env e count ⟨d, p, fl⟩) fun r p' => ∀ l, r = some l → l.length = count ∧
      (p' < d.length → Has d p (l.flatMap (Spec.sizedString fl)) ∧ p' = p + (l.flatMap (Spec.sizedString fl)).length) := by
  induction count generalizing p with
  | zero =>
    refine Wp.pure hp ?_
    rintro l h
    obtain rfl : [] = l := by simpa using h
    exact ⟨rfl, fun _ => ⟨Has.nil hp, rfl⟩⟩
  | succ count ih =>
    rw [readStrings]
    refine Wp.bind (u64_wp fl hd hp) fun n p1 h1 h2 n1 => ?_
    refine Wp.get ?_
    dsimp only
    refine Wp.ite (fun _ => Wp.pure h2 (by simp)) fun hfit => ?_
    refine Wp.bind (resizeTo_wp env fl h2 n 1) fun _ p1' h5 h6 h7 => ?_
    obtain ⟨rfl, hsz⟩ := h7
    refine Wp.bind (raw_wp fl hd h2 (by omega) (Nat.le_refl _)) fun bs p2 h8 h9 n2 => ?_
    refine Wp.ite (fun _ => Wp.pure h9 (by simp)) fun hlen => ?_
    refine Wp.bind (ih h9) fun r p3 h10 h11 n3 => ?_
    match r, n3 with
    | none, _ => exact Wp.pure h11 (by simp)
    | some rest, n3 =>
      refine Wp.pure h11 ?_
      rintro l h
      obtain rfl : bs :: rest = l := by simpa using h
      obtain ⟨hrl, hr⟩ := n3 rest rfl
      refine ⟨by simp [hrl], fun hlt => ?_⟩
      obtain ⟨hr1, hr2⟩ := hr hlt
      have hfull : p + 8 ≤ d.length := by
        apply Decidable.byContradiction
        intro hc
        have := n1.cut (by omega)
        omega
      obtain ⟨rfl, hs⟩ := n1.full hfull
      have hbl : bs.length = n := by
        by_cases h0 : n = 0
        · omega
        · apply Decidable.byContradiction
          exact fun hc => hlen ⟨by omega, hc⟩
      have hp2 : p2 = p + 8 + n := by omega
      rw [List.flatMap_cons, Has.append, List.length_append, sizedString_length, Spec.sizedString, Has.append, number_length, hbl]
      rw [hp2] at hr1 hr2
      refine ⟨⟨⟨hs, n2.2.1⟩, ?_⟩, by omega⟩
      rw [← Nat.add_assoc]; exact hr1

theorem arrayString_wp (env : REnv) {d : Bytes} {p : Nat} (fl : Bool) (hd : Small d) (hp : p ≤ d.length) (nm : String) (vt : Nat)
    (ov : Bool) (key : Bytes) (hk : key.length ≤ 40) (ea wi : Bool) :
    Wp d fl p (readArrayString env key ea wi ⟨d, p, fl⟩) (ArrayOutcome d fl p ⟨nm, vt, vtArrayString, .string, ov⟩ key ea wi) := by
  rw [readArrayString]
  refine Wp.bind (beginLarge_wp env fl hd hp vtArrayString (by decide) key hk) fun e p1 h1 h2 hh => ?_
  refine Wp.ite (fun _ => Wp.pure h2 .fail) fun he => ?_
  have hh := hh he
  refine Wp.get ?_
  dsimp only
  refine Wp.ite (fun hemp => ?_) (fun hne => ?_)
  · subst hemp
    exact LargeHead.empty (t := ⟨nm, vt, vtArrayString, .string, ov⟩) hd hh h2
  · refine Wp.bind (meta_wp env fl hd h2 e wi) fun r p2 h3 h4 hr => ?_
    match r, hr with
    | none, _ => exact Wp.pure h4 .fail
    | some (per, cnt, idx), hr =>
      have hr := hr per cnt idx rfl
      dsimp only
      refine Wp.get ?_
      dsimp only
      refine Wp.ite (fun _ => Wp.pure h4 .fail) fun hfit => ?_
      refine Wp.bind (resizeTo_wp env fl h4 cnt 32) fun _ p2' h5 h6 h7 => ?_
      obtain ⟨rfl, hcnt⟩ := h7
      refine Wp.bind (strings_wp env fl hd h4 e cnt) fun r p3 h8 h9 n3 => ?_
      match r, n3 with
      | none, _ => exact Wp.pure h9 .fail
      | some strs, n3 =>
      obtain ⟨hl, hstr⟩ := n3 strs rfl
      dsimp only
      refine Wp.bind (endLarge_wp fl h9 e) fun b p4 h15 h16 h17 => ?_
      obtain ⟨rfl, h18⟩ := h17
      refine Wp.ite (fun _ => Wp.pure h9 .fail) fun hb => Wp.pure h9 ⟨?_, by simp⟩
      rintro l' idx' heq
      simp only [RStatus.success.injEq, Prod.mk.injEq] at heq
      obtain ⟨rfl, rfl⟩ := heq
      have hpe : p4 = e := h18.mp (by simpa using hb)
      subst hpe
      refine ⟨hh.done hd (by omega) (by omega), fun hlt => ?_⟩
      have hlt : p4 < d.length := hlt.resolve_right (by simp)
      obtain ⟨flags, hf1, hf2, hf3, hf4, hf5, hf6⟩ := hr.header
      obtain ⟨hs1, hs2⟩ := hstr hlt
      refine ⟨_, ⟨flags, cnt, strs.flatMap (Spec.sizedString fl), hf1, hf2, ?_, trivial, hr.count, ⟨hl.symm, rfl⟩, rfl⟩, ?_⟩
      · rw [hf3]; cases wi <;> rfl
      · refine hh.block hd _ ?_ ?_ (Or.inr hlt)
        · rw [Has.append]
          exact ⟨hf5, by rw [← hf6]; exact hs1⟩
        · rw [List.length_append]; omega

end ISD
