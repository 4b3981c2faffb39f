import Verif.Proofs.WriteStream

/-! # Reading back what stands in the buffer -/

namespace ISD

open RStream

/-- The buffer holds `bs` at position `pos`. -/
def Has (d : Bytes) (pos : Nat) (bs : Bytes) : Prop := ∃ pre post, d = pre ++ bs ++ post ∧ pre.length = pos

theorem Has.len {d : Bytes} {pos : Nat} {bs : Bytes} (h : Has d pos bs) : pos + bs.length ≤ d.length := by
  obtain ⟨pre, post, rfl, rfl⟩ := h
  simp only [List.length_append]; omega

theorem Has.take {d : Bytes} {pos : Nat} {bs : Bytes} (h : Has d pos bs) : (d.drop pos).take bs.length = bs := by
  obtain ⟨pre, post, rfl, rfl⟩ := h
  rw [List.append_assoc, List.drop_left, List.take_left]

theorem Has.append {d : Bytes} {pos : Nat} {a b : Bytes} :
    Has d pos (a ++ b) ↔ Has d pos a ∧ Has d (pos + a.length) b := by
  constructor
  · rintro ⟨pre, post, rfl, rfl⟩
    exact ⟨⟨pre, b ++ post, by simp, rfl⟩, ⟨pre ++ a, post, by simp, by simp⟩⟩
  · rintro ⟨⟨pre, post, rfl, rfl⟩, ⟨pre2, post2, h1, h2⟩⟩
    refine ⟨pre, post2, ?_, rfl⟩
    have e : pre2 = pre ++ a := by
      have := congrArg (List.take (pre.length + a.length)) h1
      rw [List.take_left' (by simp), List.append_assoc, List.take_left' h2] at this
      exact this.symm
    rw [h1, e]
    simp

theorem Has.left {d : Bytes} {pos : Nat} {a b : Bytes} (h : Has d pos (a ++ b)) : Has d pos a := (Has.append.mp h).1
theorem Has.right {d : Bytes} {pos : Nat} {a b : Bytes} (h : Has d pos (a ++ b)) : Has d (pos + a.length) b :=
  (Has.append.mp h).2

theorem Has.cons {d : Bytes} {pos : Nat} {x : Byte} {b : Bytes} :
    Has d pos (x :: b) ↔ Has d pos [x] ∧ Has d (pos + 1) b := Has.append (a := [x])

theorem Has.mid (pre bs post : Bytes) : Has (pre ++ bs ++ post) pre.length bs := ⟨pre, post, rfl, rfl⟩

theorem Has.nil {d : Bytes} {pos : Nat} (h : pos ≤ d.length) : Has d pos [] :=
  ⟨d.take pos, d.drop pos, by simp, by simp; omega⟩

/-- Buffers small enough that no size computation of the reader wraps (1 EiB). -/
abbrev Small (d : Bytes) : Prop := d.length < 2 ^ 60

theorem readRaw_ok {s : RStream} {n cap : Nat} (hs : s.size < 2 ^ 64) (h : s.pos + n ≤ s.size) (hc : n ≤ cap) :
    readRaw n cap s = .ok ((s.data.drop s.pos).take n) { s with pos := s.pos + n } := by
  have hw : wrap64 (s.pos + n) = s.pos + n := Nat.mod_eq_of_lt (by omega)
  have c1 : ¬ s.pos + n > s.size := by omega
  simp only [readRaw, Prog.bind_apply, Prog.get_apply, if_neg c1, hw]
  rw [if_neg (by omega)]
  rfl

theorem readRaw_short {s : RStream} {n cap : Nat} (hs : s.size < 2 ^ 64) (hp : s.pos ≤ s.size) (h : s.size < s.pos + n)
    (hw : s.pos + n < 2 ^ 64) (hc : s.size - s.pos ≤ cap) :
    readRaw n cap s = .ok (s.data.drop s.pos) { s with pos := s.size } := by
  have hw : wrap64 (s.pos + n) = s.pos + n := Nat.mod_eq_of_lt (by omega)
  have c1 : wrap64 (s.pos + n) > s.size := by omega
  have hsub : sub64 s.size s.pos = s.size - s.pos := by
    unfold sub64
    rw [Nat.add_comm, Nat.add_sub_assoc hp, Nat.add_mod_left, Nat.mod_eq_of_lt (by omega)]
  simp only [readRaw, Prog.bind_apply, Prog.get_apply, if_pos c1, hsub]
  rw [if_neg (by omega)]
  have ht : (s.data.drop s.pos).take (s.size - s.pos) = s.data.drop s.pos :=
    List.take_of_length_le (by rw [List.length_drop]; exact Nat.le_refl _)
  simp only [Prog.bind_apply, Prog.set_apply, Prog.pure_apply, ht]

theorem readRaw_has {d : Bytes} {pos : Nat} {bs : Bytes} {fl : Bool} (hd : Small d) (h : Has d pos bs) (n cap : Nat)
    (hn : n = bs.length) (hc : n ≤ cap) :
    readRaw n cap ⟨d, pos, fl⟩ = .ok bs ⟨d, pos + bs.length, fl⟩ := by
  subst hn
  have hl := h.len
  have := readRaw_ok (s := ⟨d, pos, fl⟩) (n := bs.length) (cap := cap) (by simp only [RStream.size]; omega) hl hc
  rw [this]
  simp only [h.take]

theorem wordsOf_flatMap {k : Nat} (ws : List (Word k)) (r : Bytes) :
    wordsOf k ws.length (ws.flatMap Word.image ++ r) = ws := by
  induction ws with
  | nil => rfl
  | cons w ws ih =>
    have hl := Word.image_length w
    rw [List.length_cons, wordsOf, List.flatMap_cons, List.append_assoc, List.take_left' hl, List.drop_left' hl, ih,
      Word.ofImage_image]

theorem swap_wireWords {k : Nat} (hk : SwapWidth k) (ws : List (Word k)) (r : Bytes) :
    swapByteOrder k (wireWords true ws ++ r) ws.length = ws.flatMap Word.image ++ r := by
  have := swapByteOrder_flatMap k hk ((ws.map Word.image).map List.reverse) (by simp) r
  rw [List.length_map, List.length_map] at this
  rw [wireWords_true, this]
  simp [List.flatMap_def, List.map_map, Function.comp_def]

theorem readWords_has {k : Nat} (hk : SwapWidth k) {d : Bytes} {pos : Nat} {fl : Bool} (ws dest : List (Word k)) (hd : Small d)
    (h : Has d pos (wireWords fl ws)) (hdest : dest.length = ws.length) :
    readWords ws.length dest ⟨d, pos, fl⟩ = .ok (ws.length, ws) ⟨d, pos + ws.length * k, fl⟩ := by
  have hl := h.len
  have hk0 : 0 < k := by rcases hk with rfl | rfl | rfl <;> decide
  rw [wireWords_length] at hl
  have hw : wrap64 (ws.length * k) = ws.length * k := Nat.mod_eq_of_lt (by omega)
  have hi : (dest.flatMap Word.image).length = ws.length * k := by rw [flatMap_image_length, hdest]
  have e := readRaw_has (fl := fl) hd h (ws.length * k) (ws.length * k) (by simp) (Nat.le_refl _)
  rw [wireWords_length] at e
  simp only [readWords, Prog.bind_apply, Prog.get_apply, hw, hi, e, wireWords_length]
  have hdrop : (dest.flatMap Word.image).drop (ws.length * k) = [] := List.drop_eq_nil_of_le (by omega)
  have hdiv : ws.length * k / k = ws.length := Nat.mul_div_cancel _ hk0
  simp only [hdrop, List.append_nil, wireWords_length, hdiv, hdest]
  cases fl with
  | false =>
    have := wordsOf_flatMap ws []
    rw [List.append_nil] at this
    simp only [Bool.false_eq_true, if_false, wireWords_false, this, Prog.pure_apply]
  | true =>
    have e1 := swap_wireWords hk ws []
    have e2 := wordsOf_flatMap ws []
    rw [List.append_nil, List.append_nil] at e1
    rw [List.append_nil] at e2
    simp only [if_true, e1, e2, Nat.lt_irrefl, if_false, Prog.pure_apply]

theorem readByteWords_has {d : Bytes} {pos : Nat} {fl : Bool} (ws dest : List (Word 1)) (hd : Small d)
    (h : Has d pos (ws.flatMap Word.image)) (hdest : dest.length = ws.length) :
    readByteWords ws.length dest ⟨d, pos, fl⟩ = .ok (ws.length, ws) ⟨d, pos + ws.length, fl⟩ := by
  have hl := h.len
  have hfl : (ws.flatMap Word.image).length = ws.length := by rw [flatMap_image_length, Nat.mul_one]
  have hi : (dest.flatMap Word.image).length = ws.length := by rw [flatMap_image_length, hdest, Nat.mul_one]
  have e := readRaw_has (fl := fl) hd h ws.length ws.length hfl.symm (Nat.le_refl _)
  rw [hfl] at e
  have hdrop : (dest.flatMap Word.image).drop ws.length = [] := List.drop_eq_nil_of_le (by omega)
  have := wordsOf_flatMap ws []
  rw [List.append_nil] at this
  simp only [readByteWords, Prog.bind_apply, hi, e, hfl, hdrop, List.append_nil, hdest, this, Prog.pure_apply]

theorem readUUIDs_has {d : Bytes} {fl : Bool} (us : List UUID) (hd : Small d) (done : List UUID) (dest : List UUID) {pos : Nat}
    (h : Has d pos (us.flatMap UUID.wire)) (hdest : dest.length = us.length) :
    readUUIDs done.length us.length (done ++ dest) ⟨d, pos, fl⟩ =
      .ok (done.length + us.length, done ++ us) ⟨d, pos + us.length * 16, fl⟩ := by
  induction us generalizing done dest pos with
  | nil =>
    have : dest = [] := List.eq_nil_of_length_eq_zero hdest
    subst this
    rfl
  | cons u us ih =>
    obtain ⟨x, dest, rfl⟩ : ∃ x t, dest = x :: t := by
      cases dest with
      | nil => cases hdest
      | cons x t => exact ⟨x, t, rfl⟩
    rw [List.flatMap_cons] at h
    have h16 := UUID.wire_length u
    have e := readRaw_has (fl := fl) hd h.left 16 16 h16.symm (Nat.le_refl _)
    rw [h16] at e
    rw [List.length_cons, readUUIDs, Prog.bind_ok e, if_neg (by simp [h16]), if_neg (by simp)]
    have hu : (⟨valueFromBE32 u.wire, valueFromBE16 (u.wire.drop 4), valueFromBE16 (u.wire.drop 6),
        takeVec 8 (u.wire.drop 8)⟩ : UUID) = u := by
      have := UUID.ofWire_wire u []
      rw [List.append_nil] at this
      exact this
    rw [hu]
    have hset : (done ++ x :: dest).set done.length u = (done ++ [u]) ++ dest := by
      simp [List.set_append_right]
    have hr := h.right
    rw [h16] at hr
    have := ih (done ++ [u]) dest hr (by simpa using hdest)
    rw [List.length_append, List.length_singleton] at this
    rw [hset, this, List.append_assoc, List.singleton_append, Nat.succ_mul]
    simp only [Res.ok.injEq, Prod.mk.injEq, RStream.mk.injEq, and_true, true_and]
    omega

theorem hashesOf_flatMap (hs : List Hash) (r : Bytes) :
    hashesOf hs.length (hs.flatMap (fun h => h.digest.toList) ++ r) = hs := by
  induction hs with
  | nil => rfl
  | cons w ws ih =>
    rw [List.length_cons, hashesOf, List.flatMap_cons, List.append_assoc, takeVec_append, List.drop_left' (by simp), ih]

theorem hashes_length (hs : List Hash) : (hs.flatMap (fun h => h.digest.toList)).length = 32 * hs.length := by
  induction hs with
  | nil => rfl
  | cons w ws ih => rw [List.flatMap_cons, List.length_append, ih]; simp; omega

theorem readHashes_has {d : Bytes} {pos : Nat} {fl : Bool} (ws dest : List Hash) (hd : Small d)
    (h : Has d pos (ws.flatMap fun h => h.digest.toList)) (hdest : dest.length = ws.length) :
    readHashes ws.length dest ⟨d, pos, fl⟩ = .ok (ws.length, ws) ⟨d, pos + ws.length * 32, fl⟩ := by
  have hl := h.len
  have hfl := hashes_length ws
  have hi : (dest.flatMap fun h => h.digest.toList).length = 32 * ws.length := by rw [hashes_length, hdest]
  have hw : wrap64 (32 * ws.length) = 32 * ws.length := Nat.mod_eq_of_lt (by omega)
  have e := readRaw_has (fl := fl) hd h (32 * ws.length) (32 * ws.length) hfl.symm (Nat.le_refl _)
  rw [hfl] at e
  have hdrop : (dest.flatMap fun h => h.digest.toList).drop (32 * ws.length) = [] := List.drop_eq_nil_of_le (by omega)
  have := hashesOf_flatMap ws []
  rw [List.append_nil] at this
  have hdiv : 32 * ws.length / 32 = ws.length := Nat.mul_div_cancel_left _ (by decide)
  simp only [readHashes, Prog.bind_apply, hi, hw, e, hfl, hdrop, List.append_nil, hdest, this, hdiv, Prog.pure_apply]
  rw [Nat.mul_comm]

theorem readItems_has {d : Bytes} {pos : Nat} {fl : Bool} (sc : Sc) (l dest : List sc.Val) (hd : Small d)
    (h : Has d pos (Spec.scalars fl sc l)) (n : Nat) (hn : n = l.length) (hdest : dest.length = n) :
    readItems sc n dest ⟨d, pos, fl⟩ = .ok (n, l) ⟨d, pos + l.length * sc.size, fl⟩ := by
  subst hn
  cases sc with
  | w1 =>
    rw [scalars_w1] at h
    have := readByteWords_has (fl := fl) l dest hd h hdest
    refine this.trans ?_
    show _ = Res.ok (l.length, l) (⟨d, pos + l.length * 1, fl⟩ : RStream)
    rw [Nat.mul_one]
  | w2 => exact readWords_has (k := 2) (Or.inl rfl) l dest hd h hdest
  | w4 => exact readWords_has (k := 4) (Or.inr (Or.inl rfl)) l dest hd h hdest
  | w8 => exact readWords_has (k := 8) (Or.inr (Or.inr rfl)) l dest hd h hdest
  | uuid =>
    rw [scalars_uuid] at h
    have := readUUIDs_has (fl := fl) l hd [] dest h hdest
    rw [List.length_nil] at this
    rw [Nat.zero_add] at this
    exact this
  | hash => exact readHashes_has l dest hd h hdest

theorem readOne_has {d : Bytes} {pos : Nat} {fl : Bool} (sc : Sc) (v : sc.Val) (hd : Small d)
    (h : Has d pos (Spec.scalar fl sc v)) :
    readOne sc ⟨d, pos, fl⟩ = .ok v ⟨d, pos + sc.size, fl⟩ := by
  have h' : Has d pos (Spec.scalars fl sc [v]) := by simpa [Spec.scalars] using h
  have := readItems_has sc [v] [sc.zero] hd h' 1 rfl rfl
  rw [readOne, Prog.bind_ok this]
  simp

theorem toNat_ofNat_lt {w n : Nat} (h : n < 2 ^ w) : (BitVec.ofNat w n).toNat = n := by
  rw [BitVec.toNat_ofNat, Nat.mod_eq_of_lt h]

theorem readU8_has {d : Bytes} {pos : Nat} {fl : Bool} {n : Nat} (hd : Small d) (hn : n < 256)
    (h : Has d pos (Spec.number fl 1 n)) : readU8 ⟨d, pos, fl⟩ = .ok n ⟨d, pos + 1, fl⟩ := by
  have h' : Has d pos (Spec.scalar fl .w1 (BitVec.ofNat 8 n)) := by
    simpa only [Spec.scalar, toNat_ofNat_lt (w := 8) hn] using h
  rw [readU8, Prog.bind_ok (readOne_has .w1 _ hd h')]
  simp only [Prog.pure_apply, Sc.size, toNat_ofNat_lt (w := 8) hn]

theorem readU16_has {d : Bytes} {pos : Nat} {fl : Bool} {n : Nat} (hd : Small d) (hn : n < 2 ^ 16)
    (h : Has d pos (Spec.number fl 2 n)) : readU16 ⟨d, pos, fl⟩ = .ok n ⟨d, pos + 2, fl⟩ := by
  have h' : Has d pos (Spec.scalar fl .w2 (BitVec.ofNat 16 n)) := by
    simpa only [Spec.scalar, toNat_ofNat_lt (w := 16) hn] using h
  rw [readU16, Prog.bind_ok (readOne_has .w2 _ hd h')]
  simp only [Prog.pure_apply, Sc.size, toNat_ofNat_lt (w := 16) hn]

theorem readU64_has {d : Bytes} {pos : Nat} {fl : Bool} {n : Nat} (hd : Small d) (hn : n < 2 ^ 64)
    (h : Has d pos (Spec.number fl 8 n)) : readU64 ⟨d, pos, fl⟩ = .ok n ⟨d, pos + 8, fl⟩ := by
  have h' : Has d pos (Spec.scalar fl .w8 (BitVec.ofNat 64 n)) := by
    simpa only [Spec.scalar, toNat_ofNat_lt (w := 64) hn] using h
  rw [readU64, Prog.bind_ok (readOne_has .w8 _ hd h')]
  simp only [Prog.pure_apply, Sc.size, toNat_ofNat_lt (w := 64) hn]

end ISD
