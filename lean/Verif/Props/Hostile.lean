import Verif.Props.RoundTrip
import Verif.Proofs.HostileTyped

/-!
# C17-C20, C52: reads of arbitrary bytes
-/

namespace ISD

open RStream

/-- The call ends normally or with an exception, without leaving the bounds of any object, and the stream is then still on the same
bytes with the cursor between the old position and the end. -/
def MemorySafe {α : Type} (call : Prog RStream α) (d : Bytes) (p : Nat) (fl : Bool) : Prop :=
  match call ⟨d, p, fl⟩ with
  | .ok _ s => s.data = d ∧ s.flip = fl ∧ p ≤ s.pos ∧ s.pos ≤ d.length
  | .throw s => s.data = d ∧ s.flip = fl ∧ p ≤ s.pos ∧ s.pos ≤ d.length
  | .ub => False

theorem Wp.memorySafe {α : Type} {call : Prog RStream α} {d : Bytes} {p : Nat} {fl : Bool} {Q : α → Nat → Prop}
    (h : Wp d fl p (call ⟨d, p, fl⟩) Q) : MemorySafe call d p fl := by
  unfold MemorySafe
  unfold Wp at h
  split
  · rename_i e; rw [e] at h; obtain ⟨p', rfl, h1, h2, -⟩ := h; exact ⟨rfl, rfl, h1, h2⟩
  · rename_i e; rw [e] at h; obtain ⟨p', rfl, h1, h2⟩ := h; exact ⟨rfl, rfl, h1, h2⟩
  · rename_i e; rw [e] at h; exact h

theorem Wp.result {α : Type} {call : Prog RStream α} {d : Bytes} {p : Nat} {fl : Bool} {Q : α → Nat → Prop} {U : Prop}
    (h : Wp d fl p (call ⟨d, p, fl⟩) Q U) {a : α} {s : RStream} (e : call ⟨d, p, fl⟩ = .ok a s) :
    s = ⟨d, s.pos, fl⟩ ∧ p ≤ s.pos ∧ s.pos ≤ d.length ∧ Q a s.pos := by
  rw [e] at h
  obtain ⟨p', rfl, h1, h2, h3⟩ := h
  exact ⟨rfl, h1, h2, h3⟩

/-! ## C19 -/

/-- **C19**, the true part: whatever the bytes, the position, the byte order, the type, the container, the key asked for (of at most 40
bytes) and whatever allocations fail, reading is memory safe — for every single value, and for arrays of every type that stores one
scalar per element. Missing: arrays of the types with several scalars per element (vectors, matrices, quaternions), for which the claim
is false (`C19_false_for_multi_scalar_arrays`) and `C19_multi_scalar_partial` gives the exact condition. -/
theorem C19_hostile_bytes_partial (env : REnv) (t : DataType) (ht : t ∈ allTypes) (c : Container) (key : Bytes) (hk : key.length ≤ 40)
    (dest : c.Val t.Val) (d : Bytes) (hd : d.length < 2 ^ 60) (p : Nat) (hp : p ≤ d.length) (fl : Bool)
    (h : c = .none ∨ c = .optionalValue ∨ ∀ sc n f, t.kind = .items sc n f → n = 1) :
    MemorySafe (readTyped env t c key dest) d p fl := by
  refine (readTyped_wp env fl hd hp (allTypes_ok t ht) c key hk dest (.inl ?_)).memorySafe
  rcases h with h | h | h
  · exact Or.inl h
  · exact Or.inr (Or.inl h)
  · exact Or.inr (Or.inr fun sc n f e m _ _ _ _ => by rw [h sc n f e]; exact Nat.one_dvd m)

/-- **C19** for the types with `n` scalars per element: memory safe if, should there be a block with the type code and the key
asked for, the number of scalars it declares (the 8 bytes behind the key and the 2 flag bytes) is a multiple of `n`. -/
theorem C19_multi_scalar_partial (env : REnv) (t : DataType) (ht : t ∈ allTypes) (sc : Sc) (n : Nat) (f : Bool)
    (hkind : t.kind = .items sc n f) (c : Container) (key : Bytes) (hk : key.length ≤ 40)
    (dest : c.Val t.Val) (d : Bytes) (hd : d.length < 2 ^ 60) (p : Nat) (hp : p ≤ d.length) (fl : Bool)
    (h : ∀ m, m < 2 ^ 64 → d[p]? = some (UInt8.ofNat t.avt) → (d.drop (p + 10)).take key.length = key →
      (d.drop (p + 12 + key.length)).take 8 = Spec.number fl 8 m → n ∣ m) :
    MemorySafe (readTyped env t c key dest) d p fl := by
  refine (readTyped_wp env fl hd hp (allTypes_ok t ht) c key hk dest (.inl (Or.inr (Or.inr ?_)))).memorySafe
  intro sc' n' f' e m hm hc hkey hh
  obtain ⟨rfl, rfl, rfl⟩ : sc = sc' ∧ n = n' ∧ f = f' := by rw [hkind] at e; simpa using e
  refine h m hm ?_ hkey.take ?_
  · obtain ⟨a, b, rfl, rfl⟩ := hc
    simp
  have := hh.take
  rwa [number_length] at this

/-- Multi scalar types consist of plain numbers. -/
def Kind.plain : Kind → Bool
  | .items sc n _ => n = 1 ∨ sc = .w1 ∨ sc = .w2 ∨ sc = .w4 ∨ sc = .w8
  | _ => true

theorem multi_scalar_words : ∀ t ∈ allTypes, t.kind.plain = true := by decide +kernel

theorem readItems_overflow {d : Bytes} {p : Nat} {fl : Bool} (sc : Sc) (hsc : sc = .w1 ∨ sc = .w2 ∨ sc = .w4 ∨ sc = .w8)
    (cnt : Nat) (dest : List sc.Val) (hd : d.length < 2 ^ 60) (h : p + cnt * sc.size ≤ d.length) (hl : dest.length < cnt) :
    readItems sc cnt dest ⟨d, p, fl⟩ = .ub := by
  have hraw : ∀ n cap, p + n ≤ d.length → cap < n → readRaw n cap ⟨d, p, fl⟩ = .ub := by
    intro n cap h1 h2
    have hw : wrap64 (p + n) = p + n := Nat.mod_eq_of_lt (by omega)
    rw [readRaw, Prog.bind_ok (Prog.get_apply _)]
    simp only [RStream.size, hw]
    have hn : (if p + n > d.length then sub64 d.length p else n) = n := if_neg (by omega)
    rw [hn, if_pos (Or.inl h2)]
    rfl
  have hbind : ∀ {α β : Type} {x : Prog RStream α} {g : α → Prog RStream β} {s : RStream}, x s = .ub → (x >>= g) s = .ub := by
    intro α β x g s e; rw [Prog.bind_apply, e]
  have hwords : ∀ (k : Nat) (dst : List (Word k)), 0 < k → k ≤ 8 → dst.length < cnt → p + cnt * k ≤ d.length →
      readWords (k := k) cnt dst ⟨d, p, fl⟩ = .ub := by
    intro k dst hk hk8 hl h
    have hw : wrap64 (cnt * k) = cnt * k := Nat.mod_eq_of_lt (by omega)
    rw [readWords, Prog.bind_ok (Prog.get_apply _)]
    refine hbind ?_
    rw [hw, flatMap_image_length]
    exact hraw _ _ h (Nat.mul_lt_mul_of_pos_right hl hk)
  rcases hsc with rfl | rfl | rfl | rfl
  · show readByteWords cnt dest _ = _
    rw [readByteWords]
    refine hbind ?_
    rw [flatMap_image_length, Nat.mul_one]
    exact hraw _ _ (by simpa [Sc.size] using h) hl
  · exact hwords 2 dest (by decide) (by decide) hl h
  · exact hwords 4 dest (by decide) (by decide) hl h
  · exact hwords 8 dest (by decide) (by decide) hl h

/-- **C19 is false** for arrays of the types with several scalars per element: any block whose number of scalars is not a multiple of
the element's makes the reader write behind the end of the destination vector. -/
theorem C19_false_for_multi_scalar_arrays (env : REnv) (he : env.Lucky) (t : DataType) (ht : t ∈ allTypes) (sc : Sc) (n : Nat)
    (f : Bool) (hkind : t.kind = .items sc n f) (key : Bytes) (hk : key.length ≤ 40) (l : List sc.Val) (hl : ¬ n ∣ l.length)
    (pre post : Bytes) (fl : Bool) (dest : List t.Val)
    (hd : (pre ++ Spec.largeBlock fl t.avt key (Spec.arrayHeader fl sc.size l.length none ++ Spec.scalars fl sc l) ++ post).length < 2 ^ 60) :
    readTyped env t .vector key dest
      ⟨pre ++ Spec.largeBlock fl t.avt key (Spec.arrayHeader fl sc.size l.length none ++ Spec.scalars fl sc l) ++ post, pre.length, fl⟩ =
      .ub := by
  have hok := allTypes_ok t ht
  have hmw := multi_scalar_words t ht
  obtain ⟨nm, vt, avt, kind, ov⟩ := t
  obtain rfl : kind = .items sc n f := hkind
  obtain ⟨h0, h1, h2, h3, h4⟩ := hok
  simp only at h3 h4 hmw hd ⊢
  simp only [Kind.plain, decide_eq_true_eq] at hmw
  have hsc := hmw.resolve_left (fun hn => hl (by rw [hn]; exact Nat.one_dvd _))
  have h := Has.mid pre (Spec.largeBlock fl avt key (Spec.arrayHeader fl sc.size l.length none ++ Spec.scalars fl sc l)) post
  generalize hdd : pre ++ Spec.largeBlock fl avt key (Spec.arrayHeader fl sc.size l.length none ++ Spec.scalars fl sc l) ++ post = d at *
  have e1 := beginReadLarge_has env hd (by omega) hk h
  obtain ⟨-, -, -, -, h5⟩ := h.large
  have hlen := h5.len
  rw [Has.append] at h5
  have hH : (Spec.arrayHeader fl sc.size l.length none).length = 10 := arrayHeader_length _ _ _ _
  have hsl := scalars_length fl sc l
  rw [List.length_append, hH, hsl] at hlen e1
  have hs8 : sc.size ≤ 8 := by rcases hsc with rfl | rfl | rfl | rfl <;> decide
  have hs0 := sc.size_pos
  generalize hP : pre.length + 10 + key.length = P at *
  have hlm : l.length ≤ l.length * sc.size := Nat.le_mul_of_pos_right _ hs0
  have e2 := readMeta_has he sc.size l.length (by omega) (by omega) none hd h5.1 (P + (10 + l.length * sc.size)) (by rw [hH]; omega)
    (by omega)
  rw [hH, Option.isSome_none] at e2
  have hdiv : l.length / n * n < l.length := by
    have := Nat.div_mul_le_self l.length n
    have : l.length / n * n ≠ l.length := fun hc => hl ⟨l.length / n, by rw [Nat.mul_comm]; exact hc.symm⟩
    omega
  have hr : l.length / n * (sc.size * n) < 2 ^ 63 := by
    have : l.length / n * (sc.size * n) = l.length / n * n * sc.size := by rw [Nat.mul_comm sc.size, Nat.mul_assoc]
    have := Nat.mul_le_mul_right sc.size (Nat.le_of_lt hdiv)
    omega
  have hsub : sub64 (P + (10 + l.length * sc.size)) (P + 10) / sc.size = l.length := by
    rw [sub64_of_le (by omega) (by omega), show P + (10 + l.length * sc.size) - (P + 10) = l.length * sc.size by omega]
    exact Nat.mul_div_cancel _ hs0
  have e3 : readArrayItems env avt sc n key false false ⟨d, pre.length, fl⟩ = .ub := by
    rw [readArrayItems, Prog.bind_ok e1, if_neg (by omega), Prog.bind_ok (Prog.get_apply _)]
    rw [if_neg (show ¬ P + (10 + l.length * sc.size) = (⟨d, P, fl⟩ : RStream).pos by dsimp only; omega)]
    rw [Prog.bind_ok e2]
    dsimp only
    rw [if_neg (by simp), Prog.bind_ok (Prog.get_apply _),
      if_neg (show ¬ l.length > sub64 (P + (10 + l.length * sc.size)) (⟨d, P + 10, fl⟩ : RStream).pos / sc.size by
        dsimp only; omega), Prog.bind_ok (resizeTo_ok he hr _)]
    rw [Prog.bind_apply, readItems_overflow sc hsc l.length _ hd (by omega) (by rw [List.length_replicate]; exact hdiv)]
  show ((readArrayItems env avt sc n key false false) >>= _) _ = _
  rw [Prog.bind_apply, e3]

/-! ## C20 -/

/-- The empty key hole: with an empty key, an absent optional string or array is "read" from fewer than the 9 bytes of a block head at the
very end of the stream. -/
def EmptyKeyHole (d : Bytes) (p : Nat) (t : DataType) (c : Container) (key : Bytes) (v : c.Val t.Val) (p' : Nat) : Prop :=
  key = [] ∧ isSmall t c = false ∧ present c v = false ∧ d.length < p + 9 ∧ p' = d.length

theorem skip_has_small {d : Bytes} {p vt : Nat} {value key : Bytes} (fl : Bool) (h1 : vt < 0x40) (hl : value.length + key.length < 256)
    (h : Has d p (Spec.smallBlock vt value key)) : Spec.skip fl (d.drop p) = some (Spec.smallBlock vt value key).length := by
  obtain ⟨pre, post, rfl, rfl⟩ := h
  rw [List.append_assoc, List.drop_left]
  exact skip_small fl vt h1 value key post hl

theorem skip_has_large {d : Bytes} {p vt : Nat} {payload key : Bytes} (fl : Bool) (h1 : 0x40 ≤ vt) (h2 : vt < 256)
    (hd : d.length < 2 ^ 60) (h : Has d p (Spec.largeBlock fl vt key payload)) :
    Spec.skip fl (d.drop p) = some (Spec.largeBlock fl vt key payload).length := by
  have hl := h.len
  obtain ⟨pre, post, rfl, rfl⟩ := h
  rw [List.append_assoc, List.drop_left]
  exact skip_large fl vt h1 h2 key payload post (by omega)

theorem skip_head {d : Bytes} {p vt size : Nat} (fl : Bool) (h1 : 0x40 ≤ vt) (h2 : vt < 256) (hs : size < 2 ^ 64)
    (hv : Has d p [UInt8.ofNat vt]) (hn : Has d (p + 1) (Spec.number fl 8 size)) : Spec.skip fl (d.drop p) = some (9 + size) := by
  have h : Has d p ([UInt8.ofNat vt] ++ Spec.number fl 8 size) := Has.append.mpr ⟨hv, hn⟩
  obtain ⟨pre, post, rfl, rfl⟩ := h
  have hv : (UInt8.ofNat vt).toNat = vt := by rw [UInt8.toNat_ofNat']; exact Nat.mod_eq_of_lt h2
  rw [List.append_assoc, List.drop_left, List.append_assoc, List.singleton_append, Spec.skip, hv, if_neg (by omega)]
  dsimp only
  rw [List.take_left' (by simp)]
  have hn : (if fl = true then (Spec.number fl 8 size).reverse else Spec.number fl 8 size) = leBytes 8 size := by
    cases fl
    · simp [Spec.number, lsbFirst_eq]
    · simp [Spec.number, msbFirst_eq]
  have hz := zipIdx_sum (leBytes 8 size) 0
  rw [hn, hz, fromLE_leBytes, Nat.mod_eq_of_lt (by omega)]
  simp

theorem blockCode_large {t : DataType} (ht : t.Ok) {c : Container} (h : isSmall t c = false) :
    0x40 ≤ blockCode t c ∧ blockCode t c < 256 := by
  obtain ⟨nm, vt, avt, kind, ov⟩ := t
  cases kind with
  | bool =>
    obtain ⟨h1, h2⟩ := ht
    simp only at h1 h2
    subst h1 h2
    cases c <;> simp_all [isSmall, blockCode]
  | items sc n f =>
    obtain ⟨h0, h1, h2, h3, h4⟩ := ht
    simp only at h2 h3 h4
    cases c <;> simp_all [isSmall, blockCode] <;> omega
  | string =>
    obtain ⟨h1, h2⟩ := ht
    simp only at h1 h2
    subst h1 h2
    cases c <;> simp_all [blockCode]

theorem smallTyped {t : DataType} (ht : t.Ok) {c : Container} (h : isSmall t c = true) {fl : Bool} {key : Bytes} {v : c.Val t.Val}
    {block : Bytes} (hb : Spec.TypedBlock fl t c key v block) :
    blockCode t c < 0x40 ∧ ∃ value, block = Spec.smallBlock (blockCode t c) value key ∧ value.length ≤ 128 := by
  obtain ⟨nm, vt, avt, kind, ov⟩ := t
  have key_fact : ∀ v : Option (Kind.Val kind), Spec.SingleBlock fl ⟨nm, vt, avt, kind, ov⟩ key v block → kind ≠ .string →
      vt < 0x40 ∧ ∃ value, block = Spec.smallBlock vt value key ∧ value.length ≤ 128 := by
    intro v hb hk
    cases kind with
    | bool =>
      obtain ⟨h1, h2⟩ := ht
      simp only at h1 h2
      cases v with
      | none => exact ⟨by omega, _, hb, by simp⟩
      | some b =>
        obtain ⟨x, -, hx⟩ := hb
        exact ⟨by omega, _, hx, by simp⟩
    | items sc n f =>
      obtain ⟨h0, h1, h2, h3, h4⟩ := ht
      cases v with
      | none => exact ⟨h3, _, hb, by simp⟩
      | some b => exact ⟨h3, _, hb, by
          rw [Option.elim_some, scalars_length, Vector.length_toList, Nat.mul_comm]; exact h1⟩
    | string => exact absurd rfl hk
  cases c with
  | none => exact key_fact (some v) hb (by simpa [isSmall] using h)
  | optionalValue => exact key_fact v hb (by simpa [isSmall] using h)
  | vector => cases h
  | optionalVector => cases h
  | idxVector => cases h
  | optionalIdxVector => cases h

theorem Outcome.consumed {d : Bytes} {fl : Bool} {p : Nat} {t : DataType} (ht : t.Ok) {c : Container} {key : Bytes}
    (hk : key.length ≤ 40) {v : c.Val t.Val} {p' : Nat} (hd : d.length < 2 ^ 60) (h : Outcome d fl p t c key v p') :
    (∃ n, Spec.skip fl (d.drop p) = some n ∧ p' = p + n) ∨ EmptyKeyHole d p t c key v p' := by
  cases hs : isSmall t c with
  | true =>
    obtain ⟨block, hb, hh, rfl⟩ := h.block (Or.inr (Or.inl hs))
    obtain ⟨h1, value, rfl, hv⟩ := smallTyped ht hs hb
    exact Or.inl ⟨_, skip_has_small fl h1 (by omega) hh, rfl⟩
  | false =>
    obtain ⟨hc1, hc2⟩ := blockCode_large ht hs
    cases hp : present c v with
    | true =>
      obtain ⟨payload, -, hh, rfl⟩ := h.full hs hp
      exact Or.inl ⟨_, skip_has_large fl hc1 hc2 hd hh, rfl⟩
    | false =>
      have hL := h.absent hs hp
      have hf := hL.fits
      rcases hL.rest with ⟨size, hsz, h9, hsize, he, hp1, -, -, -⟩ | ⟨h9, hkey, hp1⟩
      · left
        refine ⟨9 + size, skip_head fl hc1 hc2 hsz hL.code hsize, ?_⟩
        rw [wrap64] at he
        omega
      · exact Or.inr ⟨hkey, hs, hp, h9, hp1⟩

/-- **C20.** Whatever the bytes: if a read returns true, the cursor has moved from the start of the block exactly to the end that the
block declares by the documented skip rule, and that end is inside the stream — with the one exception of `EmptyKeyHole`. -/
theorem C20_success_consumes_declared_block (env : REnv) (t : DataType) (ht : t ∈ allTypes) (c : Container) (key : Bytes)
    (hk : key.length ≤ 40) (dest : c.Val t.Val) (d : Bytes) (hd : d.length < 2 ^ 60) (p : Nat) (hp : p ≤ d.length) (fl : Bool)
    (v' : c.Val t.Val) (s' : RStream)
    (h : readTyped env t c key dest ⟨d, p, fl⟩ = .ok (some v') s') :
    s'.data = d ∧ s'.flip = fl ∧ s'.pos ≤ d.length ∧ ∃ v, v' = readInto t c dest v ∧
      ((∃ n, Spec.skip fl (d.drop p) = some n ∧ s'.pos = p + n) ∨ EmptyKeyHole d p t c key v s'.pos) := by
  obtain ⟨h1, h2, h3, h4⟩ := (readTyped_wp env fl hd hp (allTypes_ok t ht) c key hk dest (.inr trivial)).result h
  obtain ⟨v, e, ho⟩ := h4 v' rfl
  exact ⟨by rw [h1], by rw [h1], h3, v, e, ho.consumed (allTypes_ok t ht) hk hd⟩

/-! ## C52 -/

/-- **C52.** Whatever the bytes: if a read returns true and did not end at the very end of the stream, the consumed bytes are a block of
the documented format holding exactly the value delivered. At the end of the stream this still holds for everything but strings and
absent values. -/
theorem C52_accepted_bytes_are_a_block (env : REnv) (t : DataType) (ht : t ∈ allTypes) (c : Container) (key : Bytes)
    (hk : key.length ≤ 40) (dest : c.Val t.Val) (d : Bytes) (hd : d.length < 2 ^ 60) (p : Nat) (hp : p ≤ d.length) (fl : Bool)
    (v' : c.Val t.Val) (s' : RStream)
    (h : readTyped env t c key dest ⟨d, p, fl⟩ = .ok (some v') s') :
    ∃ v, v' = readInto t c dest v ∧ (s'.pos < d.length ∨ isSmall t c = true ∨ (t.kind ≠ .string ∧ present c v = true) →
      Spec.TypedBlock fl t c key v ((d.drop p).take (s'.pos - p))) := by
  obtain ⟨h1, h2, h3, h4⟩ := (readTyped_wp env fl hd hp (allTypes_ok t ht) c key hk dest (.inr trivial)).result h
  obtain ⟨v, e, ho⟩ := h4 v' rfl
  refine ⟨v, e, fun hx => ?_⟩
  obtain ⟨block, hb, hh, he⟩ := ho.block hx
  rw [he, Nat.add_sub_cancel_left, hh.take]
  exact hb

/-! ## C18 -/

theorem skip_take (fl : Bool) (B : Bytes) (m n : Nat) (hB : Spec.skip fl B = some B.length) (hm : m < B.length)
    (h : Spec.skip fl (B.take m) = some n) : m < n := by
  cases B with
  | nil => cases hB
  | cons vt rest =>
    cases m with
    | zero => simp [Spec.skip] at h
    | succ m =>
      rw [List.take_succ_cons, Spec.skip] at h
      rw [Spec.skip] at hB
      split at h
      · rename_i hv
        rw [if_pos hv] at hB
        cases rest with
        | nil => cases hB
        | cons x rest =>
          cases m with
          | zero => simp at h
          | succ m =>
            simp only [List.take_succ_cons, List.head?_cons, Option.map_some, Option.some.injEq] at h hB
            omega
      · rename_i hv
        rw [if_neg hv] at hB
        dsimp only at h hB
        by_cases h8 : 8 ≤ m
        · rw [List.take_take, Nat.min_eq_left h8] at h
          rw [hB] at h
          simp only [Option.some.injEq] at h
          omega
        · simp only [Option.some.injEq] at h
          omega

/-- **C18**, the true part: of a block written for any value, any proper prefix standing at the end of the stream is refused, whatever
type, container and key (of at most 40 bytes) is read — except reads of an absent large optional under the empty key. -/
theorem C18_truncation_refused_partial (env : REnv) (t : DataType) (ht : t ∈ allTypes) (c : Container) (key : Bytes)
    (hk : key.length ≤ 40) (dest : c.Val t.Val) (t0 : DataType) (ht0 : t0 ∈ allTypes) (c0 : Container) (key0 : Bytes)
    (hk0 : key0.length ≤ 40) (v0 : c0.Val t0.Val) (fl : Bool) (pre : Bytes) (m : Nat)
    (hm : m < (Spec.typed fl t0 c0 key0 v0).length) (hd : pre.length + (Spec.typed fl t0 c0 key0 v0).length < 2 ^ 60)
    (hx : key ≠ [] ∨ isSmall t c = true ∨ ¬ (c = .optionalValue ∨ c = .optionalVector ∨ c = .optionalIdxVector))
    (v' : c.Val t.Val) (s' : RStream) :
    readTyped env t c key dest ⟨pre ++ (Spec.typed fl t0 c0 key0 v0).take m, pre.length, fl⟩ ≠ .ok (some v') s' := by
  intro h
  have hl : (pre ++ (Spec.typed fl t0 c0 key0 v0).take m).length = pre.length + m := by
    rw [List.length_append, List.length_take]; omega
  obtain ⟨-, -, h3, v, -, h4⟩ := C20_success_consumes_declared_block env t ht c key hk dest _ (by omega) pre.length (by omega) fl
    v' s' h
  rw [hl] at h3
  rcases h4 with ⟨n, hn, hp⟩ | hole
  · rw [List.drop_left] at hn
    have hs := skip_typed fl t0 (allTypes_ok t0 ht0) c0 key0 hk0 v0 [] (by omega)
    rw [List.append_nil] at hs
    have := skip_take fl _ m n hs hm hn
    omega
  · obtain ⟨h1, h2, h5, -, -⟩ := hole
    rcases hx with hx | hx | hx
    · exact hx h1
    · rw [h2] at hx; cases hx
    · cases c <;> simp_all [present]

/-- **C18 is false** for the empty key: the first byte of the block of any string or array, alone at the end of a stream, is accepted
as an absent optional. -/
theorem C18_false_for_empty_key (env : REnv) (fl : Bool) (pre : Bytes) (hd : pre.length + 1 < 2 ^ 60) (x : Bytes) :
    readTyped env stringType .optionalValue [] none ⟨pre ++ (Spec.typed fl stringType .optionalValue [] (some x)).take 1, pre.length, fl⟩ =
      .ok (some none) ⟨pre ++ (Spec.typed fl stringType .optionalValue [] (some x)).take 1, pre.length + 1, fl⟩ := by
  have e : (Spec.typed fl stringType .optionalValue [] (some x)).take 1 = [0xe0] := rfl
  rw [e]
  generalize hdd : pre ++ [(0xe0 : Byte)] = d
  have hl : d.length = pre.length + 1 := by rw [← hdd]; simp
  have hs : Small d := by show d.length < 2 ^ 60; omega
  have hh : Has d pre.length [UInt8.ofNat 0xe0] := by rw [← hdd]; exact ⟨pre, [], by simp, rfl⟩
  have e1 := readU8_byte (fl := fl) hs (by decide) hh
  rw [← hl] at e1 ⊢
  have e2 := u64_eof fl hs
  have e3 := u8_eof fl hs
  have e4 : readKey env 0 ⟨d, d.length, fl⟩ = .ok (0, env.junkKey.toList) ⟨d, d.length, fl⟩ := by
    rw [readKey, Prog.bind_ok (raw_eof fl hs 0 40 (by decide))]; rfl
  have hw : wrap64 (d.length + 0) = d.length := Nat.mod_eq_of_lt (by omega)
  have eb : beginReadLargeBlock env vtString [] ⟨d, pre.length, fl⟩ = .ok d.length ⟨d, d.length, fl⟩ := by
    rw [beginReadLargeBlock, Prog.bind_ok e1, if_neg (by decide), Prog.bind_ok e2, Prog.bind_ok (Prog.get_apply _)]
    dsimp only
    rw [hw, if_neg (show ¬ d.length > (⟨d, d.length, fl⟩ : RStream).size from Nat.lt_irrefl d.length), Prog.bind_ok e3,
      if_neg (by simp)]
    refine (Prog.bind_ok e4).trans ?_
    dsimp only
    rw [if_neg (by simp), Prog.pure_apply]
  have es : readSingle env stringType [] true ⟨d, pre.length, fl⟩ = .ok .successEmpty ⟨d, d.length, fl⟩ := by
    show readSingleString env [] true _ = _
    rw [readSingleString, Prog.bind_ok eb, if_neg (by omega), Prog.bind_ok (Prog.get_apply _), if_pos rfl, if_pos rfl,
      Prog.bind_ok (endReadLarge_ok (s := ⟨d, d.length, fl⟩) (e := d.length) rfl)]
    rfl
  rw [readTyped, Prog.bind_ok es]
  rfl

theorem countOk_prefix {t : DataType} (ht : t.Ok) (c : Container) (key : Bytes) (v : c.Val t.Val) (fl : Bool) (pre : Bytes) (m : Nat)
    (hm : m ≤ (Spec.typed fl t c key v).length) (hd : pre.length + (Spec.typed fl t c key v).length < 2 ^ 60) :
    CountOk (pre ++ (Spec.typed fl t c key v).take m) fl pre.length t c key := by
  have grow : ∀ (B : Bytes) {q : Nat} {x : Bytes}, Has (pre ++ B.take m) q x → Has (pre ++ B) q x := by
    rintro B q x ⟨a, b, e, rfl⟩
    refine ⟨a, b ++ B.drop m, ?_, rfl⟩
    rw [← List.append_assoc, ← e, List.append_assoc, List.take_append_drop]
  have arr : ∀ (items : Option (List t.Val)) (idx : Option (List (Word 4))), pre.length + (Spec.array fl t key items idx).length < 2 ^ 60 →
      m ≤ (Spec.array fl t key items idx).length →
      ∀ sc n f, t.kind = .items sc n f → ∀ m', m' < 2 ^ 64 → Has (pre ++ (Spec.array fl t key items idx).take m) (pre.length + 12 + key.length) (Spec.number fl 8 m') → n ∣ m' := by
    obtain ⟨nm, vt, avt, kind, ov⟩ := t
    rintro items idx hd hm sc n f e m' hm' h
    obtain rfl : kind = .items sc n f := e
    obtain ⟨h0, h1, -⟩ := ht
    have hl := h.len
    rw [List.length_append, List.length_take, number_length] at hl
    have h := grow _ h
    have hB : Has (pre ++ Spec.array fl ⟨nm, vt, avt, .items sc n f, ov⟩ key items idx) pre.length _ := ⟨pre, [], by rw [List.append_nil], rfl⟩
    cases items with
    | none =>
      exfalso
      simp only [Spec.array, Option.elim_none, Spec.largeBlock, List.length_append, number_length, List.length_cons, List.length_nil] at hl
      omega
    | some l =>
      simp only [Spec.array, Option.elim_some] at hB hd h hl
      have hP := hB.large.2.2.2.2
      have hS : l.length * n < 2 ^ 60 := by
        have h2 := hP.len
        rw [List.length_append, List.length_append, scalars_length] at h2
        have h3 : (l.flatMap Vector.toList).length = l.length * n := by
          rw [List.length_flatMap]
          simp [List.map_const']
        rw [h3] at h2
        have h4 := Nat.le_mul_of_pos_right (l.length * n) sc.size_pos
        omega
      clear hB grow
      generalize pre ++ Spec.largeBlock _ _ _ _ = D at hP h
      rw [Spec.arrayHeader.eq_def, List.append_assoc, List.append_assoc, Has.append, Has.append, number_length, number_length] at hP
      have hc := hP.2.1
      rw [show pre.length + 10 + key.length + 2 = pre.length + 12 + key.length by omega] at hc
      have := number_inj fl 8 hm' (by omega) (h.unique hc (by rw [number_length, number_length]))
      exact ⟨l.length, by rw [this, Nat.mul_comm]⟩
  cases c with
  | none => exact .inl rfl
  | optionalValue => exact .inr (.inl rfl)
  | vector => exact .inr (.inr fun sc n f e m' hm' _ _ h => arr (some v) none hd hm sc n f e m' hm' h)
  | optionalVector => exact .inr (.inr fun sc n f e m' hm' _ _ h => arr v none hd hm sc n f e m' hm' h)
  | idxVector => exact .inr (.inr fun sc n f e m' hm' _ _ h => arr (some v.values) (some v.index) hd hm sc n f e m' hm' h)
  | optionalIdxVector => exact .inr (.inr fun sc n f e m' hm' _ _ h => arr _ _ hd hm sc n f e m' hm' h)

/-- **C18** for the reader the block was meant for: a proper prefix at the end of the stream makes `Read` return false or throw, without
leaving the bounds of any object (under the empty key: except for absent large optionals). -/
theorem C18_truncated_read_fails_safely_partial (env : REnv) (t : DataType) (ht : t ∈ allTypes) (c : Container) (key : Bytes)
    (hk : key.length ≤ 40) (dest v : c.Val t.Val) (fl : Bool) (pre : Bytes) (m : Nat)
    (hm : m < (Spec.typed fl t c key v).length) (hd : pre.length + (Spec.typed fl t c key v).length < 2 ^ 60)
    (hx : key ≠ [] ∨ isSmall t c = true ∨ ¬ (c = .optionalValue ∨ c = .optionalVector ∨ c = .optionalIdxVector)) :
    MemorySafe (readTyped env t c key dest) (pre ++ (Spec.typed fl t c key v).take m) pre.length fl ∧
    ∀ v' s', readTyped env t c key dest ⟨pre ++ (Spec.typed fl t c key v).take m, pre.length, fl⟩ ≠ .ok (some v') s' :=
  ⟨(readTyped_wp env fl (by show _ < 2 ^ 60; rw [List.length_append, List.length_take]; omega) (by rw [List.length_append]; omega)
      (allTypes_ok t ht) c key hk dest (.inl (countOk_prefix (allTypes_ok t ht) c key v fl pre m (by omega) hd))).memorySafe,
    C18_truncation_refused_partial env t ht c key hk dest t ht c key hk v fl pre m hm hd hx⟩

end ISD
