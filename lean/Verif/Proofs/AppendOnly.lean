import Verif.Props.Protocol

/-! # Bytes that a writer does not touch -/

namespace ISD

open WStream

/-- A stream in order, positioned behind its first `n` bytes, which are `c`; no allocation of 2^63 bytes or more succeeds. -/
structure Fine (n : Nat) (c : Bytes) (s : WStream) : Prop where
  mem_len : s.mem.length = s.reserved
  size_le : s.dataSize ≤ s.reserved
  pos_le : s.pos ≤ s.dataSize
  n_le : n ≤ s.pos
  res_lt : s.reserved < 2 ^ 63
  alloc : ∀ k m, s.allocOk k m = true → m < 2 ^ 63
  pre : s.mem.take n = c

/-- The first `n` bytes are in the stream and are `c`. -/
def Still (n : Nat) (c : Bytes) (s : WStream) : Prop := n ≤ s.dataSize ∧ s.mem.take n = c

theorem Fine.still {n : Nat} {c : Bytes} {s : WStream} (h : Fine n c s) : Still n c s := ⟨Nat.le_trans h.n_le h.pos_le, h.pre⟩

/-- However it ends, the routine keeps the first `n` bytes, and there is no undefined behaviour. -/
def Keep {α : Type} (n : Nat) (c : Bytes) (p : Prog WStream α) : Prop :=
  ∀ s, Fine n c s → match p s with
    | .ok _ s' => Fine n c s'
    | .throw s' => Still n c s'
    | .ub => False

namespace Keep

variable {α β : Type} {n : Nat} {c : Bytes}

theorem pure (a : α) : Keep n c (Pure.pure a : Prog WStream α) := fun _ h => h

theorem bind {p : Prog WStream α} {q : α → Prog WStream β} (hp : Keep n c p) (hq : ∀ a, Keep n c (q a)) : Keep n c (p >>= q) := by
  intro s hs
  have := hp s hs
  rw [Prog.bind_apply]
  revert this
  cases p s with
  | ok a s' => exact fun h => hq a s' h
  | throw s' => exact id
  | ub => exact id

theorem get {q : WStream → Prog WStream β} (hq : ∀ s, Fine n c s → Keep n c (q s)) : Keep n c (Prog.get >>= q) := by
  intro s hs
  rw [Prog.bind_ok (Prog.get_apply s)]
  exact hq s hs s hs

theorem ite {b : Prop} [Decidable b] {p q : Prog WStream α} (hp : b → Keep n c p) (hq : ¬ b → Keep n c q) : Keep n c (if b then p else q) := by
  split
  · exact hp ‹_›
  · exact hq ‹_›

theorem when {b : Prop} [Decidable b] {p : Prog WStream Unit} (hp : b → Keep n c p) : Keep n c (Prog.when b p) := by
  unfold Prog.when
  exact .ite hp fun _ => .pure _

end Keep

section stream

variable {n : Nat} {c : Bytes}

/-- Growing the allocation: the data, the position and the size stay. -/
theorem reserve_fine {s : WStream} (h : Fine n c s) {m : Nat} (hm : s.reserved < m) : match reserveForSize m s with
    | .ok _ s' => Fine n c s' ∧ s'.dataSize = s.dataSize ∧ s'.pos = s.pos ∧ m ≤ s'.reserved
    | .throw s' => Still n c s'
    | .ub => False := by
  have h1 := h.mem_len
  have h2 := h.size_le
  have h3 := h.pos_le
  have h4 := h.n_le
  rw [reserveForSize, Prog.bind_ok (Prog.get_apply _)]
  generalize hr : (if wrap64 (s.reserved * 2) < m then m else wrap64 (s.reserved * 2)) = r
  have hmr : m ≤ r := by rw [← hr]; split <;> omega
  rw [Prog.bind_ok (show Prog.set { s with reserved := r, allocNo := s.allocNo + 1 } s = .ok () _ from rfl)]
  by_cases ha : s.allocOk s.allocNo r = false ∨ r = 0
  · rw [if_pos ha]
    exact ⟨by show n ≤ s.dataSize; omega, h.pre⟩
  · rw [if_neg ha]
    by_cases hb : s.mem.length < s.dataSize ∨ r < s.dataSize
    · omega
    · rw [if_neg hb]
      have hlt : r < 2 ^ 63 := h.alloc s.allocNo r (by
        cases e : s.allocOk s.allocNo r with
        | true => rfl
        | false => exact absurd (.inl e) ha)
      refine ⟨⟨?_, by show s.dataSize ≤ r; omega, h3, h4, hlt, h.alloc, ?_⟩, rfl, rfl, hmr⟩
      · show (s.mem.take s.dataSize ++ List.replicate (r - s.dataSize) 0).length = r
        rw [List.length_append, List.length_take, List.length_replicate]
        omega
      · show (s.mem.take s.dataSize ++ List.replicate (r - s.dataSize) 0).take n = c
        rw [List.take_append_of_le_length (by rw [List.length_take]; omega), List.take_take, show min n s.dataSize = n by omega]
        exact h.pre

theorem resize_fine {s : WStream} (h : Fine n c s) {m : Nat} (hm : s.dataSize < m) : match resize m s with
    | .ok _ s' => Fine n c s' ∧ s'.dataSize = m ∧ s'.pos = s.pos
    | .throw s' => Still n c s'
    | .ub => False := by
  rw [resize, Prog.bind_ok (Prog.get_apply _)]
  unfold Prog.when
  by_cases hr : m > s.reserved
  · rw [if_pos hr, Prog.bind_apply]
    have := reserve_fine h hr
    revert this
    cases reserveForSize m s with
    | ok a s' =>
      rintro ⟨f, e1, e2, e3⟩
      have := f.pos_le
      exact ⟨⟨f.mem_len, e3, by show s'.pos ≤ m; omega, f.n_le, f.res_lt, f.alloc, f.pre⟩, rfl, e2⟩
    | throw s' => exact id
    | ub => exact id
  · rw [if_neg hr, Prog.bind_ok (Prog.pure_apply () s)]
    have := h.pos_le
    exact ⟨⟨h.mem_len, by show m ≤ s.reserved; omega, by show s.pos ≤ m; omega, h.n_le, h.res_lt, h.alloc, h.pre⟩, rfl, rfl⟩

/-- Raw bytes are written behind the first `n`; afterwards the position is behind them. -/
theorem writeRaw_fine (src : Bytes) (hl : src.length < 2 ^ 63) {s : WStream} (h : Fine n c s) : match writeRaw src s with
    | .ok _ s' => Fine n c s' ∧ s'.pos = s.pos + src.length
    | .throw s' => Still n c s'
    | .ub => False := by
  rw [writeRaw, Prog.bind_ok (Prog.get_apply _)]
  unfold Prog.when
  have hw : wrap64 (s.pos + src.length) = s.pos + src.length := by
    have := h.pos_le
    have := h.size_le
    have := h.res_lt
    unfold wrap64
    omega
  have fin : ∀ s1, Fine n c s1 → s1.pos = s.pos → (wrap64 (s.pos + src.length) ≤ s1.dataSize) →
      match (do
        let s1 ← Prog.get
        if s1.mem.length < s1.pos + src.length then Prog.ub
        else Prog.set { s1 with mem := s1.mem.take s1.pos ++ src ++ s1.mem.drop (s1.pos + src.length), pos := wrap64 (s.pos + src.length) } : Prog WStream Unit) s1 with
      | .ok _ s' => Fine n c s' ∧ s'.pos = s.pos + src.length
      | .throw s' => Still n c s'
      | .ub => False := by
    intro s1 h1 hp hd
    rw [Prog.bind_ok (Prog.get_apply _)]
    have a1 := h1.mem_len
    have a2 := h1.res_lt
    have a3 := h1.n_le
    have a4 := h1.pos_le
    have a5 := h1.size_le
    have hm : ¬ s1.mem.length < s1.pos + src.length := by omega
    rw [if_neg hm]
    refine ⟨⟨?_, a5, hd, by show n ≤ wrap64 _; omega, a2, h1.alloc, ?_⟩, hw⟩
    · show (s1.mem.take s1.pos ++ src ++ s1.mem.drop (s1.pos + src.length)).length = s1.reserved
      rw [List.length_append, List.length_append, List.length_take, List.length_drop]
      omega
    · show (s1.mem.take s1.pos ++ src ++ s1.mem.drop (s1.pos + src.length)).take n = c
      rw [List.append_assoc, List.take_append_of_le_length (by rw [List.length_take]; omega), List.take_take, show min n s1.pos = n by omega]
      exact h1.pre
  by_cases hr : wrap64 (s.pos + src.length) > s.dataSize
  · rw [if_pos hr, Prog.bind_apply]
    have := resize_fine h hr
    revert this
    cases resize (wrap64 (s.pos + src.length)) s with
    | ok a s' => rintro ⟨f, e1, e2⟩; exact fin s' f e2 (by omega)
    | throw s' => exact id
    | ub => exact id
  · rw [if_neg hr, Prog.bind_ok (Prog.pure_apply () s)]
    exact fin s h rfl (by omega)

theorem keep_writeRaw {src : Bytes} (hl : src.length < 2 ^ 63) : Keep n c (writeRaw src) := by
  intro s h
  have := writeRaw_fine src hl h
  revert this
  cases writeRaw src s with
  | ok a s' => exact fun h => h.1
  | throw s' => exact id
  | ub => exact id

theorem swapAt_fine {k p count : Nat} (hk : SwapWidth k) (hp : n ≤ p) {s : WStream} (h : Fine n c s) (hb : p + count * k ≤ s.mem.length) :
    ∃ s', swapAt k p count s = .ok () s' ∧ Fine n c s' := by
  rw [swapAt, Prog.bind_ok (Prog.get_apply _)]
  have hm : ¬ s.mem.length < p + count * k := by omega
  rw [if_neg hm]
  refine ⟨_, rfl, ?_, h.size_le, h.pos_le, h.n_le, h.res_lt, h.alloc, ?_⟩
  · show (s.mem.take p ++ swapByteOrder k (s.mem.drop p) count).length = s.reserved
    rw [List.length_append, List.length_take, swapByteOrder_length k hk _ _ (by rw [List.length_drop]; omega), List.length_drop, ← h.mem_len]
    omega
  · show (s.mem.take p ++ swapByteOrder k (s.mem.drop p) count).take n = c
    rw [List.take_append_of_le_length (by rw [List.length_take]; omega), List.take_take, show min n p = n by omega]
    exact h.pre

theorem keep_writeWords {k : Nat} (hk : SwapWidth k) {ws : List (Word k)} (hl : ws.length * k < 2 ^ 63) : Keep n c (writeWords ws) := by
  have hl' : (ws.flatMap Word.image).length < 2 ^ 63 := by rw [flatMap_image_length]; exact hl
  intro s h
  rw [writeWords, Prog.bind_ok (Prog.get_apply _)]
  by_cases hf : s.flip = true
  · rw [if_pos hf, Prog.bind_apply]
    have := writeRaw_fine _ hl' h
    revert this
    cases writeRaw (ws.flatMap Word.image) s with
    | ok a s' =>
      rintro ⟨f, e⟩
      rw [flatMap_image_length] at e
      have := f.pos_le
      have := f.size_le
      have := f.mem_len
      obtain ⟨s'', e2, f2⟩ := swapAt_fine hk h.n_le f (count := ws.length) (by omega)
      dsimp only
      rw [e2]
      exact f2
    | throw s' => exact id
    | ub => exact id
  · rw [if_neg hf]
    exact keep_writeRaw hl' s h

theorem keep_writeUUIDs : ∀ us : List UUID, Keep n c (writeUUIDs us)
  | [] => .pure _
  | u :: us => by
    unfold writeUUIDs
    exact .bind (keep_writeRaw (by simp [beFromValue32, beFromValue16])) fun _ => keep_writeUUIDs us

theorem keep_writeItems : ∀ (sc : Sc) {l : List sc.Val}, l.length * sc.size < 2 ^ 63 → Keep n c (writeItems sc l)
  | .w1, l, h => keep_writeRaw (by rw [flatMap_image_length (k := 1)]; exact h)
  | .w2, _, h => keep_writeWords (by unfold SwapWidth; omega) h
  | .w4, _, h => keep_writeWords (by unfold SwapWidth; omega) h
  | .w8, _, h => keep_writeWords (by unfold SwapWidth; omega) h
  | .uuid, _, _ => keep_writeUUIDs _
  | .hash, l, h => keep_writeRaw (by
    have e : ∀ l : List Hash, (l.flatMap fun h : Hash => h.digest.toList).length = l.length * 32 := by
      intro l
      induction l with
      | nil => rfl
      | cons x l ih => rw [List.flatMap_cons, List.length_append, ih, Vector.length_toList, List.length_cons]; omega
    rw [e]; exact h)

theorem keep_u8 (m : Nat) : Keep n c (writeU8 m) := keep_writeItems .w1 (show 1 * _ < 2 ^ 63 by decide)
theorem keep_u16 (m : Nat) : Keep n c (writeU16 m) := keep_writeItems .w2 (show 1 * _ < 2 ^ 63 by decide)
theorem keep_u64 (m : Nat) : Keep n c (writeU64 m) := keep_writeItems .w8 (show 1 * _ < 2 ^ 63 by decide)
theorem keep_bytes {m : Bytes} (h : m.length < 2 ^ 63) : Keep n c (writeBytes m) := keep_writeRaw h

theorem keep_setPosition {m : Nat} (hm : n ≤ m) : Keep n c (setPosition m) := by
  intro s h
  rw [setPosition, Prog.bind_ok (Prog.get_apply _)]
  unfold Prog.when
  by_cases hr : m > s.dataSize
  · rw [if_pos hr, Prog.bind_apply]
    have := resize_fine h hr
    revert this
    cases resize m s with
    | ok a s' =>
      rintro ⟨f, e1, e2⟩
      exact ⟨f.mem_len, f.size_le, by show m ≤ s'.dataSize; omega, hm, f.res_lt, f.alloc, f.pre⟩
    | throw s' => exact id
    | ub => exact id
  · rw [if_neg hr, Prog.bind_ok (Prog.pure_apply () s)]
    exact ⟨h.mem_len, h.size_le, by show m ≤ s.dataSize; omega, hm, h.res_lt, h.alloc, h.pre⟩

theorem keep_beginLarge (vt : Nat) {key : Bytes} (hk : key.length < 2 ^ 63) : Keep n c (beginWriteLargeBlock vt key) := by
  unfold beginWriteLargeBlock
  exact .get fun _ _ => .bind (keep_u8 _) fun _ => .bind (keep_u64 _) fun _ => .bind (keep_u8 _) fun _ => .bind (keep_bytes hk) fun _ =>
    .get fun _ _ => .pure _

theorem keep_endLarge {p : Nat} (h1 : n ≤ p) (h2 : p < 2 ^ 63) : Keep n c (endWriteLargeBlock p) := by
  unfold endWriteLargeBlock
  exact .get fun s hs => .bind (keep_setPosition (by unfold wrap64; omega)) fun _ => .bind (keep_u64 _) fun _ =>
    .bind (keep_setPosition hs.n_le) fun _ => .pure _

theorem Fine.pos_lt {s : WStream} (h : Fine n c s) : s.pos < 2 ^ 63 := by
  have := h.pos_le
  have := h.size_le
  have := h.res_lt
  omega

theorem keep_end {p : Nat} (h1 : n ≤ p) (h2 : p < 2 ^ 63) : Keep n c (do
    if !(← endWriteLargeBlock p) then return false
    return true) := .bind (keep_endLarge h1 h2) fun _ => .ite (fun _ => .pure _) fun _ => .pure _

theorem keep_singleItems (fl : Bool) (vt : Nat) (sc : Sc) (k : Nat) (key : Bytes) (d : Option (Vector sc.Val k))
    (hl : (Spec.smallBlock vt (d.elim [] fun x => Spec.scalars fl sc x.toList) key).length < 2 ^ 63) : Keep n c (writeSingleItems vt sc k key d) := by
  rw [smallBlock_length] at hl
  have h2 : (d.elim [] Vector.toList).length * sc.size < 2 ^ 63 := by
    cases d with
    | none => simp
    | some v => simp only [Option.elim_some, scalars_length] at hl ⊢; omega
  unfold writeSingleItems
  exact .get fun _ _ => .bind (keep_u8 _) fun _ => .bind (keep_u8 _) fun _ => .bind (.when fun _ => keep_writeItems _ h2) fun _ =>
    .bind (keep_bytes (by omega)) fun _ => .get fun _ _ => .pure _

theorem keep_singleString (fl : Bool) (vt : Nat) (key : Bytes) (d : Option Bytes)
    (hl : (Spec.largeBlock fl vt key (d.elim [] (Spec.sizedString fl))).length < 2 ^ 63) : Keep n c (writeSingleString key d) := by
  rw [largeBlock_length] at hl
  unfold writeSingleString
  refine .get fun s hs => .bind (keep_beginLarge _ (by omega)) fun _ => .ite (fun _ => .pure _) fun _ => .get fun s1 _ => ?_
  cases d with
  | none => exact keep_end hs.n_le hs.pos_lt
  | some str =>
    rw [Option.elim_some, sizedString_length] at hl
    exact .bind (keep_u64 _) fun _ => .bind (.when fun _ => keep_bytes (by omega)) fun _ => .bind (keep_endLarge hs.n_le hs.pos_lt) fun _ =>
      .ite (fun _ => .pure _) fun _ => .get fun _ _ => .ite (fun _ => .pure _) fun _ => .pure _

theorem keep_meta (k m : Nat) (index : Option (List (Word 4))) (hi : index.elim 0 (fun l => 8 + l.length * 4) < 2 ^ 63) :
    Keep n c (writeArrayMetadataAndIndex k m index) := by
  unfold writeArrayMetadataAndIndex
  refine .get fun s hs => .bind (keep_u16 _) fun _ => .bind (keep_u64 _) fun _ => ?_
  cases index with
  | none => exact .get fun _ _ => .pure _
  | some idx =>
    rw [Option.elim_some] at hi
    exact .bind (keep_u64 _) fun _ => .bind (keep_writeItems .w4 (show idx.length * 4 < _ by omega)) fun _ => .get fun _ _ => .pure _

theorem keep_arrayItems (fl : Bool) (vt : Nat) (sc : Sc) (k : Nat) (key : Bytes) (items : Option (List (Vector sc.Val k)))
    (index : Option (List (Word 4))) (hl : (Spec.largeBlock fl vt key (items.elim [] fun l =>
      Spec.arrayHeader fl sc.size (l.length * k) index ++ Spec.scalars fl sc (l.flatMap Vector.toList))).length < 2 ^ 63) :
    Keep n c (writeArrayItems vt sc k key items index) := by
  rw [largeBlock_length] at hl
  unfold writeArrayItems
  refine .get fun s hs => .bind (keep_beginLarge _ (by omega)) fun _ => .ite (fun _ => .pure _) fun _ => ?_
  cases items with
  | none => exact keep_end hs.n_le hs.pos_lt
  | some l =>
    rw [Option.elim_some, List.length_append, arrayHeader_length, scalars_length] at hl
    refine .bind (keep_meta _ _ _ (by omega)) fun _ => .ite (fun _ => .pure _) fun _ => .ite (fun _ => ?_) fun _ => keep_end hs.n_le hs.pos_lt
    exact .get fun _ _ => .bind (keep_writeItems _ (show (l.flatMap Vector.toList).length * sc.size < _ by omega)) fun _ => .get fun _ _ => .ite (fun _ => .pure _) fun _ => keep_end hs.n_le hs.pos_lt

theorem keep_arrayBool (fl : Bool) (vt : Nat) (key : Bytes) (items : Option (List Bool)) (index : Option (List (Word 4)))
    (hl : (Spec.largeBlock fl vt key (items.elim [] fun l => Spec.arrayHeader fl 0 l.length index ++ Spec.packBools l)).length < 2 ^ 63) :
    Keep n c (writeArrayBool key items index) := by
  rw [largeBlock_length] at hl
  unfold writeArrayBool
  refine .get fun s hs => .bind (keep_beginLarge _ (by omega)) fun _ => .ite (fun _ => .pure _) fun _ => ?_
  cases items with
  | none => exact keep_end hs.n_le hs.pos_lt
  | some l =>
    rw [Option.elim_some, List.length_append, arrayHeader_length] at hl
    refine .bind (keep_meta _ _ _ (by omega)) fun _ => .ite (fun _ => .pure _) fun _ => .ite (fun _ => ?_) fun _ => keep_end hs.n_le hs.pos_lt
    have k : ∀ q : Bytes → Prog WStream Bool, Keep n c (q (Spec.packBools l)) → Keep n c (packLoop 0 l (List.replicate ((l.length + 7) / 8) 0) >>= q) := by
      intro q hq s hs
      rw [Prog.bind_ok (packLoop_all s l)]
      exact hq s hs
    refine k _ ?_
    exact .get fun _ _ => .bind (keep_bytes (by omega)) fun _ => .get fun _ _ => .ite (fun _ => .pure _) fun _ =>
      keep_end hs.n_le hs.pos_lt

theorem keep_strings (fl : Bool) : ∀ (l : List Bytes) (m : Nat), (l.flatMap (Spec.sizedString fl)).length < 2 ^ 63 → Keep n c (writeStrings l m)
  | [], _, _ => .pure _
  | x :: l, _, h => by
    rw [List.flatMap_cons, List.length_append, sizedString_length] at h
    exact .bind (keep_u64 _) fun _ => .bind (.when fun _ => keep_bytes (by omega)) fun _ => keep_strings fl l _ (by omega)

theorem keep_arrayString (fl : Bool) (vt : Nat) (key : Bytes) (items : Option (List Bytes)) (index : Option (List (Word 4)))
    (hl : (Spec.largeBlock fl vt key (items.elim [] fun l => Spec.arrayHeader fl 0 l.length index ++ l.flatMap (Spec.sizedString fl))).length < 2 ^ 63) :
    Keep n c (writeArrayString key items index) := by
  rw [largeBlock_length] at hl
  unfold writeArrayString
  refine .get fun s hs => .bind (keep_beginLarge _ (by omega)) fun _ => .ite (fun _ => .pure _) fun _ => ?_
  cases items with
  | none => exact keep_end hs.n_le hs.pos_lt
  | some l =>
    rw [Option.elim_some, List.length_append, arrayHeader_length] at hl
    refine .bind (keep_meta _ _ _ (by omega)) fun _ => .ite (fun _ => .pure _) fun _ => .ite (fun _ => ?_) fun _ => keep_end hs.n_le hs.pos_lt
    exact .get fun _ _ => .bind (keep_strings fl _ _ (by omega)) fun _ => .get fun _ _ => .ite (fun _ => .pure _) fun _ => keep_end hs.n_le hs.pos_lt

theorem keep_single (fl : Bool) (t : DataType) (key : Bytes) (d : Option t.Val) (hl : (Spec.single fl t key d).length < 2 ^ 63) :
    Keep n c (writeSingle t key d) := by
  obtain ⟨name, vt, avt, kind, ov⟩ := t
  cases kind with
  | bool =>
    refine keep_singleItems fl _ _ _ _ _ ?_
    change (Spec.smallBlock vt (d.elim [] fun b => [if b then 1 else 0]) key).length < 2 ^ 63 at hl
    rw [smallBlock_length] at hl ⊢
    cases d with
    | none => exact hl
    | some b =>
      rw [Option.map_some, Option.elim_some, scalars_length]
      exact hl
  | items sc k f => exact keep_singleItems fl _ _ _ _ _ hl
  | string => exact keep_singleString fl _ _ _ hl

theorem keep_array (fl : Bool) (t : DataType) (key : Bytes) (d : Option (List t.Val)) (index : Option (List (Word 4)))
    (hl : (Spec.array fl t key d index).length < 2 ^ 63) : Keep n c (writeArray t key d index) := by
  obtain ⟨name, vt, avt, kind, ov⟩ := t
  cases kind with
  | bool => exact keep_arrayBool fl _ _ _ _ hl
  | items sc k f => exact keep_arrayItems fl _ _ _ _ _ _ hl
  | string => exact keep_arrayString fl _ _ _ _ hl

theorem keep_typed (fl : Bool) (t : DataType) (cc : Container) (key : Bytes) (v : cc.Val t.Val) (hl : (Spec.typed fl t cc key v).length < 2 ^ 63) :
    Keep n c (writeTyped t cc key v) := by
  cases cc with
  | none => exact keep_single fl _ _ _ hl
  | optionalValue => exact keep_single fl _ _ _ hl
  | _ => exact keep_array fl _ _ _ _ hl

end stream

/-! ## Writers -/

/-- Every position the writer and the writers of its open sections have noted is behind the first `n` bytes. -/
inductive Above (n : Nat) : EWriter → Prop where
  | mk (w : EWriter) (elem : w.activeArrayIndex ≠ sizeMax → n ≤ w.activeArrayIndexStart ∧ w.activeArrayIndexStart < 2 ^ 63)
      (start : ∀ sub, w.activeSubsection = some sub → n ≤ sub.startPosition ∧ sub.startPosition < 2 ^ 63)
      (sub : ∀ sub, w.activeSubsection = some sub → Above n sub) : Above n w

theorem Above.elem {n : Nat} {w : EWriter} : Above n w → w.activeArrayIndex ≠ sizeMax → n ≤ w.activeArrayIndexStart ∧ w.activeArrayIndexStart < 2 ^ 63
  | .mk _ h _ _ => h
theorem Above.start {n : Nat} {w : EWriter} : Above n w → ∀ sub, w.activeSubsection = some sub → n ≤ sub.startPosition ∧ sub.startPosition < 2 ^ 63
  | .mk _ _ h _ => h
theorem Above.sub {n : Nat} {w : EWriter} : Above n w → ∀ sub, w.activeSubsection = some sub → Above n sub
  | .mk _ _ _ h => h

theorem Above.create (n addr pos : Nat) : Above n (EWriter.create addr pos) :=
  .mk _ (fun h => absurd rfl h) (fun _ h => (nomatch h)) (fun _ h => (nomatch h))

/-- The outcome keeps the first `n` bytes and is not undefined behaviour; if the routine returned, the writers are in order and the
writer's own start position is as before. -/
def Kept {α : Type} (n : Nat) (c : Bytes) (w : EWriter) : Res WSt α → Prop
  | .ok _ st' => Above n st'.1 ∧ Fine n c st'.2 ∧ st'.1.startPosition = w.startPosition
  | .throw st' => Still n c st'.2
  | .ub => False

/-- However it ends, the routine keeps the first `n` bytes. -/
def KeepW {α : Type} (n : Nat) (c : Bytes) (p : Prog WSt α) : Prop := ∀ st : WSt, Above n st.1 → Fine n c st.2 → Kept n c st.1 (p st)

namespace KeepW

variable {α β : Type} {n : Nat} {c : Bytes}

theorem pure (a : α) : KeepW n c (Pure.pure a : Prog WSt α) := fun _ h1 h2 => ⟨h1, h2, rfl⟩

theorem bind {p : Prog WSt α} {q : α → Prog WSt β} (hp : KeepW n c p) (hq : ∀ a, KeepW n c (q a)) : KeepW n c (p >>= q) := by
  intro s h1 h2
  have := hp s h1 h2
  rw [Prog.bind_apply]
  revert this
  cases p s with
  | ok a s' =>
    intro h
    have := hq a s' h.1 h.2.1
    revert this
    dsimp only
    cases q a s' with
    | ok b s'' => exact fun h' => ⟨h'.1, h'.2.1, h'.2.2.trans h.2.2⟩
    | throw s'' => exact id
    | ub => exact id
  | throw s' => exact id
  | ub => exact id

theorem get {q : WSt → Prog WSt β} (hq : ∀ st : WSt, Above n st.1 → Fine n c st.2 → KeepW n c (q st)) : KeepW n c (Prog.get >>= q) := by
  intro s h1 h2
  rw [Prog.bind_ok (Prog.get_apply s)]
  exact hq s h1 h2 s h1 h2

theorem ite {b : Prop} [Decidable b] {p q : Prog WSt α} (hp : b → KeepW n c p) (hq : ¬ b → KeepW n c q) : KeepW n c (if b then p else q) := by
  split
  · exact hp ‹_›
  · exact hq ‹_›

theorem modify {f : WSt → WSt}
    (hf : ∀ st : WSt, Above n st.1 → Fine n c st.2 → Above n (f st).1 ∧ (f st).2 = st.2 ∧ (f st).1.startPosition = st.1.startPosition) :
    KeepW n c (Prog.modify f) := by
  intro st h1 h2
  obtain ⟨a, b, e⟩ := hf st h1 h2
  exact ⟨a, by rw [b]; exact h2, e⟩

theorem onStream {p : Prog WStream α} (hp : Keep n c p) : KeepW n c (onStream p) := by
  intro st h1 h2
  have := hp st.2 h2
  unfold ISD.onStream
  revert this
  cases p st.2 with
  | ok a s' => exact fun h => ⟨h1, h, rfl⟩
  | throw s' => exact id
  | ub => exact id

end KeepW

section writer

variable {n : Nat} {c : Bytes}

theorem keepW_open (fresh : Nat) : KeepW n c (Prog.modify fun st : WSt => ({ st.1 with activeSubsection := some (EWriter.create fresh st.2.pos) }, st.2)) :=
  .modify fun st h1 h2 => ⟨.mk _ h1.elem (fun sub h => by cases h; exact ⟨h2.n_le, h2.pos_lt⟩) (fun sub h => by cases h; exact .create ..), rfl, rfl⟩

theorem keepW_beginSection (fresh : Nat) {key : Bytes} (hk : key.length ≤ 255) : KeepW n c (beginWriteSection fresh key) := by
  unfold beginWriteSection
  exact .get fun _ _ _ => .ite (fun _ => .pure _) fun _ => .bind (keepW_open fresh) fun _ => .bind (.onStream (keep_beginLarge _ (by omega))) fun _ =>
    .ite (fun _ => .pure _) fun _ => .pure _

theorem keepW_close : KeepW n c (Prog.modify fun st : WSt => ({ st.1 with activeSubsection := none }, st.2)) :=
  .modify fun _ h1 _ => ⟨.mk _ h1.elem (fun _ h => (nomatch h)) (fun _ h => (nomatch h)), rfl, rfl⟩

theorem keepW_closeArray : KeepW n c (Prog.modify fun st : WSt => ({ st.1 with
    activeSubsection := none, activeArraySize := 0, activeArrayIndex := sizeMax, activeArrayIndexStart := 0 }, st.2)) :=
  .modify fun _ _ _ => ⟨.mk _ (fun h => absurd rfl h) (fun _ h => (nomatch h)) (fun _ h => (nomatch h)), rfl, rfl⟩

theorem kept_endSection {ptr : Option Nat} {st : WSt} (h1 : Above n st.1) (h2 : Fine n c st.2) (hp : ptr.isSome ∨ st.1.activeSubsection.isSome) :
    Kept n c st.1 (endWriteSection ptr st) := by
  rw [endWriteSection, Prog.bind_ok (Prog.get_apply _)]
  by_cases hne : st.1.subPtr ≠ ptr
  · rw [if_pos hne]; exact ⟨h1, h2, rfl⟩
  · rw [if_neg hne]
    cases hs : st.1.activeSubsection with
    | none =>
      rw [hs] at hp
      rw [EWriter.subPtr, hs] at hne
      cases ptr with
      | none => rcases hp with hp | hp <;> cases hp
      | some p => exact absurd (nofun) hne
    | some sub =>
      exact KeepW.bind (.onStream (keep_endLarge (h1.start sub hs).1 (h1.start sub hs).2)) (fun _ => .ite (fun _ => .pure _) fun _ =>
        .bind keepW_close fun _ => .pure _) st h1 h2

theorem keepW_nullSection (fresh : Nat) {key : Bytes} (hk : key.length ≤ 255) : KeepW n c (writeNullSection fresh key) := by
  unfold writeNullSection
  refine .bind (keepW_beginSection fresh hk) fun r => ?_
  cases r with
  | none => exact .pure _
  | some p => exact fun st h1 h2 => kept_endSection h1 h2 (.inl rfl)

theorem keepW_beginArray (fresh : Nat) {key : Bytes} (hk : key.length ≤ 255) (size : Nat) (index : Option (List (Word 4)))
    (hi : index.elim 0 (fun l => 8 + l.length * 4) < 2 ^ 63) : KeepW n c (beginWriteSectionsArray fresh key size index) := by
  unfold beginWriteSectionsArray
  exact .get fun _ _ _ => .ite (fun _ => .pure _) fun _ => .bind (keepW_open fresh) fun _ => .bind (.onStream (keep_beginLarge _ (by omega))) fun _ =>
    .ite (fun _ => .pure _) fun _ => .ite
      (fun _ => .bind (.modify fun st h1 h2 => ⟨.mk _ h1.elem h1.start h1.sub, rfl, rfl⟩) fun _ => .pure _)
      fun _ => .bind (.onStream (keep_meta _ _ _ hi)) fun _ => .ite (fun _ => .pure _) fun _ =>
        .bind (.modify fun st h1 h2 => ⟨.mk _ (fun h => absurd rfl h) h1.start h1.sub, rfl, rfl⟩) fun _ => .pure _

theorem keepW_beginElement (ptr : Option Nat) (i : Nat) : KeepW n c (beginWriteSectionInArray ptr i) := by
  unfold beginWriteSectionInArray
  exact .get fun _ _ _ => .ite (fun _ => .pure _) fun _ => .ite (fun _ => .pure _) fun _ => .ite (fun _ => .pure _) fun _ =>
    .bind (.modify fun st h1 h2 => ⟨.mk _ (fun _ => ⟨h2.n_le, h2.pos_lt⟩) h1.start h1.sub, rfl, rfl⟩) fun _ =>
      .bind (.onStream (keep_u64 _)) fun _ => .get fun _ _ _ => .pure _

theorem keepW_endElement (ptr : Option Nat) {i : Nat} (hi : i ≠ sizeMax) : KeepW n c (endWriteSectionInArray ptr i) := by
  unfold endWriteSectionInArray
  refine .get fun st h1 h2 => .ite (fun _ => .pure _) fun h => ?_
  have hne : st.1.activeArrayIndex ≠ sizeMax := fun e => h (.inr (by rw [e]; exact hi.symm))
  exact .bind (.onStream (keep_setPosition (h1.elem hne).1)) fun _ => .bind (.onStream (keep_u64 _)) fun _ =>
    .bind (.onStream (keep_setPosition h2.n_le)) fun _ => .pure _

theorem kept_endArray {ptr : Option Nat} {st : WSt} (h1 : Above n st.1) (h2 : Fine n c st.2) (hp : ptr.isSome ∨ st.1.activeSubsection.isSome) :
    Kept n c st.1 (endWriteSectionsArray ptr st) := by
  rw [endWriteSectionsArray, Prog.bind_ok (Prog.get_apply _)]
  by_cases hne : st.1.subPtr ≠ ptr
  · rw [if_pos hne]; exact ⟨h1, h2, rfl⟩
  · rw [if_neg hne]
    by_cases hi : wrap64 (st.1.activeArrayIndex + 1) ≠ st.1.activeArraySize
    · rw [if_pos hi]; exact ⟨h1, h2, rfl⟩
    · rw [if_neg hi]
      cases hs : st.1.activeSubsection with
      | none =>
        rw [hs] at hp
        rw [EWriter.subPtr, hs] at hne
        cases ptr with
        | none => rcases hp with hp | hp <;> cases hp
        | some p => exact absurd (nofun) hne
      | some sub =>
        exact KeepW.bind (.onStream (keep_endLarge (h1.start sub hs).1 (h1.start sub hs).2)) (fun _ => .ite (fun _ => .pure _) fun _ =>
          .bind keepW_closeArray fun _ => .pure _) st h1 h2

theorem keepW_nullArray (fresh : Nat) {key : Bytes} (hk : key.length ≤ 255) : KeepW n c (writeNullSectionsArray fresh key) := by
  unfold writeNullSectionsArray
  refine .bind (keepW_beginArray fresh hk _ _ (by decide)) fun r => ?_
  cases r with
  | none => exact .pure _
  | some p => exact fun st h1 h2 => kept_endArray h1 h2 (.inl rfl)

/-- A call that dereferences no null pointer, with arguments that fit in memory, that does not end an array element numbered `2^64-1`. -/
def WriterCall.Sound : WriterCall → EWriter → Prop
  | .beginSection _ key, _ => key.length ≤ 255
  | .endSection ptr, w => ptr.isSome ∨ w.activeSubsection.isSome
  | .nullSection _ key, _ => key.length ≤ 255
  | .beginArray _ key _ index, _ => key.length ≤ 255 ∧ index.elim 0 (fun l => 8 + l.length * 4) < 2 ^ 63
  | .beginElement .., _ => True
  | .endElement _ i, _ => i ≠ 2 ^ 64 - 1
  | .endArray ptr, w => ptr.isSome ∨ w.activeSubsection.isSome
  | .nullArray _ key, _ => key.length ≤ 255
  | .write t c key v, _ => (Spec.typed false t c key v).length < 2 ^ 63
  | .inner call, w => ∃ sub, w.activeSubsection = some sub ∧ call.Sound sub

theorem kept_run : ∀ (call : WriterCall) {st : WSt}, call.Sound st.1 → Above n st.1 → Fine n c st.2 → Kept n c st.1 (call.run st)
  | .beginSection .., st, h, h1, h2 => KeepW.bind (keepW_beginSection _ h) (fun _ => .pure _) st h1 h2
  | .endSection _, _, h, h1, h2 => kept_endSection h1 h2 h
  | .nullSection .., st, h, h1, h2 => keepW_nullSection _ h st h1 h2
  | .beginArray .., st, h, h1, h2 => KeepW.bind (keepW_beginArray _ h.1 _ _ h.2) (fun _ => .pure _) st h1 h2
  | .beginElement .., st, _, h1, h2 => keepW_beginElement _ _ st h1 h2
  | .endElement .., st, h, h1, h2 => keepW_endElement _ h st h1 h2
  | .endArray _, _, h, h1, h2 => kept_endArray h1 h2 h
  | .nullArray .., st, h, h1, h2 => keepW_nullArray _ h st h1 h2
  | .write .., st, h, h1, h2 => KeepW.onStream (keep_typed false _ _ _ _ h) st h1 h2
  | .inner call, st, ⟨w, hsub, h⟩, h1, h2 => by
    have := kept_run call (st := (w, st.2)) h (h1.sub w hsub) h2
    show Kept n c st.1 (inSubsection call.run st)
    unfold inSubsection
    rw [hsub]
    dsimp only
    revert this
    cases call.run (w, st.2) with
    | ok a st' =>
      obtain ⟨w', s'⟩ := st'
      rintro ⟨a1, a2, a3⟩
      exact ⟨.mk _ h1.elem (fun sub h => by cases h; rw [show w'.startPosition = w.startPosition from a3]; exact h1.start w hsub)
        (fun sub h => by cases h; exact a1), a2, rfl⟩
    | throw st' => exact id
    | ub => exact id

end writer

end ISD
