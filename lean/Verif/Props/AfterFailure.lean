import Verif.Props.WriteStream

/-!
# C03: what happens after a failed allocation
-/

namespace ISD

open WStream

/-- A stream that may have seen failed allocations: the memory it holds contains the data and is zero behind them, but it may believe that it has
reserved more than it holds. -/
structure WStream.Held (s : WStream) : Prop where
  size_le : s.dataSize ≤ s.mem.length
  pos_le : s.pos ≤ s.dataSize
  mem_le : s.mem.length ≤ s.reserved
  res_lt : s.reserved < 2 ^ 64
  zero : s.mem.drop s.dataSize = List.replicate (s.mem.length - s.dataSize) 0

/-- Behind the memory the stream holds, within what it believes to have reserved. -/
def WStream.Gap (s : WStream) (n : Nat) : Prop := s.mem.length < n ∧ n ≤ s.reserved

theorem WStream.Inv.held {s : WStream} (h : s.Inv) : s.Held where
  size_le := by rw [h.mem_len]; exact h.size_le
  pos_le := h.pos_le
  mem_le := Nat.le_of_eq h.mem_len
  res_lt := h.res_lt
  zero := by rw [h.mem_len]; exact h.zero

theorem WStream.Inv.no_gap {s : WStream} (h : s.Inv) (n : Nat) : ¬ s.Gap n := fun g => by have := h.mem_len; have := g.1; have := g.2; omega

theorem WStream.Held.content_len {s : WStream} (h : s.Held) : s.content.length = s.dataSize := by
  have := h.size_le; simp [content]; omega

theorem WStream.Held.mem_eq {s : WStream} (h : s.Held) : s.mem = s.content ++ List.replicate (s.mem.length - s.dataSize) 0 := by
  rw [← h.zero, content, List.take_append_drop]

theorem WStream.Held.file_pos {s : WStream} (h : s.Held) : s.file.pos ≤ s.file.content.length := by
  have := h.pos_le; have := h.content_len; simp only [file]; omega

theorem held_of {s : WStream} {c : Bytes} {z : Nat} (hm : s.mem = c ++ List.replicate z 0) (hc : c.length = s.dataSize)
    (hr : s.dataSize + z ≤ s.reserved) (hp : s.pos ≤ s.dataSize) (hl : s.reserved < 2 ^ 64) : s.Held ∧ s.content = c ∧ s.mem.length = s.dataSize + z := by
  have e : s.mem.length = s.dataSize + z := by rw [hm]; simp; omega
  refine ⟨⟨by omega, hp, by omega, hl, ?_⟩, ?_, e⟩
  · rw [e, hm, List.drop_left' hc, Nat.add_sub_cancel_left]
  · rw [content, hm, List.take_left' hc]

theorem resize_held {s : WStream} (h : s.Held) {n : Nat} (h1 : s.dataSize ≤ n) (h2 : n < 2 ^ 64) (hg : ¬ s.Gap n) :
    (∃ s', resize n s = .throw s' ∧ s'.Held ∧ s.SameData s') ∨
    ∃ s', resize n s = .ok () s' ∧ s'.Held ∧ s'.content = s.content ++ List.replicate (n - s.dataSize) 0 ∧ s'.pos = s.pos ∧ s'.flip = s.flip ∧
      s'.dataSize = n ∧ ∀ m, s'.Gap m → s.Gap m := by
  have hl := h.content_len
  have hs := h.size_le
  have hp := h.pos_le
  have hm := h.mem_le
  have hres := h.res_lt
  have hw : wrap64 (s.reserved * 2) < 2 ^ 64 := Nat.mod_lt _ (by decide)
  by_cases hc : n > s.reserved
  · have hr : n ≤ (if wrap64 (s.reserved * 2) < n then n else wrap64 (s.reserved * 2)) ∧
        (if wrap64 (s.reserved * 2) < n then n else wrap64 (s.reserved * 2)) < 2 ^ 64 := by split <;> omega
    simp only [resize, Prog.when, Prog.bind_apply, Prog.get_apply, if_pos hc, reserveForSize, Prog.set_apply]
    generalize (if wrap64 (s.reserved * 2) < n then n else wrap64 (s.reserved * 2)) = r at hr
    have c2 : ¬ (s.mem.length < s.dataSize ∨ r < s.dataSize) := by omega
    by_cases hok : s.allocOk s.allocNo r = true
    · have c0 : ¬ (s.allocOk s.allocNo r = false ∨ r = 0) := by rw [hok]; simp; omega
      rw [if_neg c0, if_neg c2]
      have key := held_of (s := { s with dataSize := n, reserved := r, allocNo := s.allocNo + 1, mem := s.mem.take s.dataSize ++ List.replicate (r - s.dataSize) 0 })
        (c := s.content ++ List.replicate (n - s.dataSize) 0) (z := r - n)
        (by simp only [content, List.append_assoc, List.replicate_append_replicate]
            congr 2; omega)
        (by simp; omega) (by simp; omega) (by simp; omega) hr.2
      refine .inr ⟨_, rfl, key.1, key.2.1, rfl, rfl, rfl, fun m hm => ?_⟩
      have e := key.2.2
      obtain ⟨g1, g2⟩ := hm
      dsimp only at e g1 g2
      omega
    · rw [if_pos (by left; simpa using hok)]
      exact .inl ⟨_, rfl, ⟨hs, hp, by show s.mem.length ≤ r; omega, hr.2, h.zero⟩, ⟨rfl, rfl, rfl, rfl⟩⟩
  · have hn : n ≤ s.mem.length := by unfold Gap at hg; omega
    have key := held_of (s := { s with dataSize := n }) (c := s.content ++ List.replicate (n - s.dataSize) 0) (z := s.mem.length - n)
      (by simp only [List.append_assoc, List.replicate_append_replicate]
          rw [show n - s.dataSize + (s.mem.length - n) = s.mem.length - s.dataSize by omega]
          exact h.mem_eq)
      (by simp; omega) (by simp; omega) (by simp; omega) hres
    refine .inr ⟨_, ?_, key.1, key.2.1, rfl, rfl, rfl, fun m hm => hm⟩
    simp only [resize, Prog.when, Prog.bind_apply, Prog.get_apply, if_neg hc, Prog.pure_apply, Prog.modify_apply]

theorem setPosition_held {s : WStream} (h : s.Held) {n : Nat} (hn : n < 2 ^ 64) (hg : ¬ s.Gap n) :
    (∃ s', setPosition n s = .throw s' ∧ s'.Held ∧ s.SameData s') ∨
    ∃ s', setPosition n s = .ok () s' ∧ s'.Held ∧ s'.file = s.file.seek n := by
  have hl := h.content_len
  by_cases hc : n > s.dataSize
  · rcases resize_held h (Nat.le_of_lt hc) hn hg with ⟨s1, e, g, d⟩ | ⟨s1, e, g, c, p, f, d, _⟩
    · exact .inl ⟨s1, by simp only [setPosition, Prog.when, Prog.bind_apply, Prog.get_apply, if_pos hc, e], g, d⟩
    · refine .inr ⟨{ s1 with pos := n }, ?_, ⟨g.size_le, by simp [d], g.mem_le, g.res_lt, g.zero⟩, ?_⟩
      · simp only [setPosition, Prog.when, Prog.bind_apply, Prog.get_apply, if_pos hc, e, Prog.modify_apply]
      · have : ({ s1 with pos := n } : WStream).content = s1.content := rfl
        rw [file, this]
        simp only [Spec.File.seek, file, c, hl, f]
  · refine .inr ⟨{ s with pos := n }, ?_, ⟨h.size_le, by simp; omega, h.mem_le, h.res_lt, h.zero⟩, ?_⟩
    · simp only [setPosition, Prog.when, Prog.bind_apply, Prog.get_apply, if_neg hc, Prog.pure_apply, Prog.modify_apply]
    · have : ({ s with pos := n } : WStream).content = s.content := rfl
      have hz : n - s.dataSize = 0 := by omega
      simp only [file, Spec.File.seek, this, hl, hz, List.replicate_zero, List.append_nil]

theorem setPosition_gap {s : WStream} (h : s.Held) {n : Nat} (hg : s.Gap n) : setPosition n s = .ok () { s with dataSize := n, pos := n } := by
  have := h.size_le
  obtain ⟨g1, g2⟩ := hg
  simp only [setPosition, resize, Prog.when, Prog.bind_apply, Prog.get_apply, if_pos (show n > s.dataSize by omega),
    if_neg (show ¬ n > s.reserved by omega), Prog.modify_apply, Prog.pure_apply]

theorem writeRaw_held {s : WStream} (h : s.Held) {bs : Bytes} (hn : s.pos + bs.length < 2 ^ 64) (hg : ¬ s.Gap (s.pos + bs.length)) :
    (∃ s', writeRaw bs s = .throw s' ∧ s'.Held ∧ s.SameData s') ∨
    ∃ s', writeRaw bs s = .ok () s' ∧ s'.Held ∧ s'.file = s.file.write bs ∧
      s'.mem.drop s.pos = bs ++ s'.mem.drop (s.pos + bs.length) ∧ s.pos + bs.length ≤ s'.mem.length ∧
      s.pos + bs.length ≤ s'.dataSize ∧ ∀ m, s'.Gap m → s.Gap m := by
  have hl := h.content_len
  have hp := h.pos_le
  have hw : wrap64 (s.pos + bs.length) = s.pos + bs.length := Nat.mod_eq_of_lt hn
  have mid : (∃ s', Prog.when (wrap64 (s.pos + bs.length) > s.dataSize) (resize (wrap64 (s.pos + bs.length))) s = .throw s' ∧ s'.Held ∧ s.SameData s') ∨
      ∃ s1 : WStream, Prog.when (wrap64 (s.pos + bs.length) > s.dataSize) (resize (wrap64 (s.pos + bs.length))) s = .ok () s1 ∧
      s1.Held ∧ s1.content = s.content ++ List.replicate (s.pos + bs.length - s.dataSize) 0 ∧ s1.pos = s.pos ∧ s1.flip = s.flip ∧
      s1.dataSize = max s.dataSize (s.pos + bs.length) ∧ ∀ m, s1.Gap m → s.Gap m := by
    rw [hw]
    by_cases hc : s.pos + bs.length > s.dataSize
    · rw [Prog.when, if_pos hc]
      rcases resize_held h (Nat.le_of_lt hc) hn hg with ⟨s1, e, g, d⟩ | ⟨s1, e, g, c, p, f, d, k⟩
      · exact .inl ⟨s1, e, g, d⟩
      · exact .inr ⟨s1, e, g, c, p, f, by omega, k⟩
    · refine .inr ⟨s, by rw [Prog.when, if_neg hc]; rfl, h, ?_, rfl, rfl, by omega, fun _ h => h⟩
      have hz : s.pos + bs.length - s.dataSize = 0 := by omega
      simp [hz]
  rcases mid with ⟨s1, e, g, d⟩ | ⟨s1, e, g, c, p, f, d, k⟩
  · refine .inl ⟨s1, ?_, g, d⟩
    simp only [writeRaw, Prog.bind_apply, Prog.get_apply, e]
  have gl := g.mem_le
  have gs := g.size_le
  have gc := g.content_len
  have hm := g.mem_eq
  have c3 : ¬ s1.mem.length < s1.pos + bs.length := by omega
  have key := held_of (s := { s1 with mem := s1.mem.take s1.pos ++ bs ++ s1.mem.drop (s1.pos + bs.length), pos := s.pos + bs.length })
      (c := s1.content.take s.pos ++ bs ++ s1.content.drop (s.pos + bs.length)) (z := s1.mem.length - s1.dataSize)
      (by
        simp only [p]
        conv => lhs; rw [hm]
        rw [List.take_append_of_le_length (by omega), List.drop_append_of_le_length (by omega)]
        simp [List.append_assoc])
      (by simp; omega) (by simp; omega) (by simp; omega) g.res_lt
  refine .inr ⟨_, ?_, key.1, ?_, ?_, ?_, ?_, ?_⟩
  · simp only [writeRaw, Prog.bind_apply, Prog.get_apply]
    rw [e]
    simp only [hw]
    rw [if_neg c3]
    rfl
  · rw [file, key.2.1]
    simp only [Spec.File.write, file, f, c]
    congr 1
    rw [List.take_append_of_le_length (by omega)]
    congr 1
    rw [List.drop_append, List.drop_eq_nil_of_le (as := List.replicate _ _)]
    · simp
    · simp; omega
  · simp only [p]
    rw [List.append_assoc, List.drop_left' (by simp; omega)]
    congr 1
    rw [← List.append_assoc, List.drop_left' (by simp; omega)]
  · simp; omega
  · simp; omega
  · intro m hm'
    refine k m ⟨?_, hm'.2⟩
    have e := key.2.2
    have g1 := hm'.1
    have e' : _ = s1.dataSize + (s1.mem.length - s1.dataSize) := e
    omega

theorem writeRaw_gap {s : WStream} (h : s.Held) {bs : Bytes} (hg : s.Gap (s.pos + bs.length)) : writeRaw bs s = .ub := by
  have := h.size_le
  have := h.res_lt
  obtain ⟨g1, g2⟩ := hg
  have hw : wrap64 (s.pos + bs.length) = s.pos + bs.length := Nat.mod_eq_of_lt (by omega)
  simp only [writeRaw, Prog.bind_apply, Prog.get_apply, hw, Prog.when, if_pos (show s.pos + bs.length > s.dataSize by omega), resize,
    if_neg (show ¬ s.pos + bs.length > s.reserved by omega), Prog.modify_apply, Prog.pure_apply, if_pos g1]
  rfl

/-- Outcome of one call on such a stream: done, or `bad_alloc` after some of the bytes were written; usable in either case. -/
def HeldAttempt (p : Prog WStream Unit) (s : WStream) (bs : Bytes) : Prop :=
  (∃ s', p s = .ok () s' ∧ s'.Held ∧ s'.file = s.file.write bs) ∨
  (∃ s' n, p s = .throw s' ∧ s'.Held ∧ n ≤ bs.length ∧ s'.file = s.file.write (bs.take n))

theorem HeldAttempt.thrown {p : Prog WStream Unit} {s s' : WStream} (bs : Bytes) (h : s.Held) (e : p s = .throw s') (g : s'.Held)
    (d : s.SameData s') : HeldAttempt p s bs :=
  .inr ⟨s', 0, e, g, Nat.zero_le _, by rw [d.file, List.take_zero, file_write_nil _ h.file_pos]⟩

theorem writeRaw_heldAttempt {s : WStream} (h : s.Held) {bs : Bytes} (hn : s.pos + bs.length < 2 ^ 64) (hg : ¬ s.Gap (s.pos + bs.length)) :
    HeldAttempt (writeRaw bs) s bs := by
  rcases writeRaw_held h hn hg with ⟨s', e, g, d⟩ | ⟨s', e, g, f, _⟩
  · exact .thrown _ h e g d
  · exact .inl ⟨s', e, g, f⟩

theorem writeWords_heldAttempt {k : Nat} (hk : SwapWidth k) {s : WStream} (h : s.Held) (ws : List (Word k))
    (hn : s.pos + ws.length * k < 2 ^ 64) (hg : ¬ s.Gap (s.pos + ws.length * k)) : HeldAttempt (writeWords ws) s (wireWords s.flip ws) := by
  have hlen := flatMap_image_length ws
  cases hf : s.flip with
  | false =>
    have := writeRaw_heldAttempt h (bs := ws.flatMap Word.image) (by rw [hlen]; exact hn) (by rw [hlen]; exact hg)
    rw [wireWords_false]
    have e : writeWords ws s = writeRaw (ws.flatMap Word.image) s := by
      simp only [writeWords, Prog.bind_apply, Prog.get_apply, hf]; rfl
    rw [HeldAttempt, e]
    exact this
  | true =>
    rcases writeRaw_held h (bs := ws.flatMap Word.image) (by rw [hlen]; exact hn) (by rw [hlen]; exact hg) with
      ⟨s1, e, g, d⟩ | ⟨s1, e, g, f, hd, hm, hsz, _⟩
    · refine .thrown _ h (s' := s1) ?_ g d
      simp only [writeWords, Prog.bind_apply, Prog.get_apply, hf, if_true, e]
    have hp := h.pos_le
    have hcl := h.content_len
    have gcl := g.content_len
    rw [hlen] at hd hm hsz
    have e2 : swapByteOrder k (s1.mem.drop s.pos) ws.length = wireWords true ws ++ s1.mem.drop (s.pos + ws.length * k) := by
      have := swapByteOrder_flatMap k hk (ws.map Word.image) (by simp) (s1.mem.drop (s.pos + ws.length * k))
      rw [List.length_map] at this
      rw [hd, wireWords_true, ← this, List.flatMap_def]
    have hmem := g.mem_eq
    have hfile : s1.content = (s.file.write (ws.flatMap Word.image)).content := congrArg Spec.File.content f
    have hpos : s1.pos = (s.file.write (ws.flatMap Word.image)).pos := congrArg Spec.File.pos f
    have hflip : s1.flip = s.flip := congrArg Spec.File.flip f
    have hpos1 : s1.pos = s.pos + ws.length * k := by rw [hpos]; simp only [Spec.File.write, file, hlen]
    have gs := g.size_le
    have gl := g.mem_le
    have key := held_of (s := { s1 with mem := s1.mem.take s.pos ++ swapByteOrder k (s1.mem.drop s.pos) ws.length })
      (c := s1.content.take s.pos ++ wireWords true ws ++ s1.content.drop (s.pos + ws.length * k)) (z := s1.mem.length - s1.dataSize)
      (by
        simp only [e2]
        conv => lhs; rw [hmem]
        rw [List.take_append_of_le_length (by omega), List.drop_append_of_le_length (by omega)]
        simp [List.append_assoc])
      (by simp; omega) (by simp; omega) (by simp; omega) g.res_lt
    refine .inl ⟨_, ?_, key.1, ?_⟩
    · simp only [writeWords, Prog.bind_apply, Prog.get_apply, hf, if_true, e, swapAt]
      rw [if_neg (by omega)]
      rfl
    · rw [file, key.2.1]
      simp only [Spec.File.write, file, hflip, hf, hpos1, hfile, wireWords_length, hlen, Spec.File.mk.injEq, and_true]
      have e3 : (s.content.take s.pos).length = s.pos := by simp; omega
      have e4 : (s.content.take s.pos ++ ws.flatMap Word.image).length = s.pos + ws.length * k := by
        rw [List.length_append, e3, hlen]
      rw [List.drop_left' e4, List.append_assoc (List.take s.pos s.content) (ws.flatMap Word.image), List.take_left' e3]

theorem writeWords_gap {k : Nat} {s : WStream} (h : s.Held) (ws : List (Word k)) (hg : s.Gap (s.pos + ws.length * k)) :
    writeWords ws s = .ub := by
  have := writeRaw_gap h (bs := ws.flatMap Word.image) (by rw [flatMap_image_length]; exact hg)
  simp only [writeWords, Prog.bind_apply, Prog.get_apply]
  split
  · simp only [Prog.bind_apply, this]
  · exact this

theorem writeUUIDs_heldAttempt {s : WStream} (h : s.Held) (us : List UUID) (hn : s.pos + us.length * 16 < 2 ^ 64)
    (hg : ∀ i < us.length, ¬ s.Gap (s.pos + 16 * (i + 1))) : HeldAttempt (writeUUIDs us) s (us.flatMap UUID.wire) := by
  induction us generalizing s with
  | nil => exact .inl ⟨s, rfl, h, (file_write_nil _ h.file_pos).symm⟩
  | cons u us ih =>
    simp only [List.length_cons] at hg
    simp only [List.length_cons, Nat.succ_mul] at hn
    have hstep : writeUUIDs (u :: us) = (writeRaw u.wire >>= fun _ => writeUUIDs us) := rfl
    have hpos := h.file_pos
    have h16 : u.wire.length = 16 := UUID.wire_length u
    rw [List.flatMap_cons, hstep]
    have g0 := hg 0 (Nat.zero_lt_succ _)
    rcases writeRaw_held h (bs := u.wire) (by rw [h16]; omega) (by rw [h16]; exact g0) with ⟨s1, e, g, d⟩ | ⟨s1, e, i, f, _, _, _, k⟩
    · exact .thrown _ h (Prog.bind_throw e) g d
    · have hp : s1.pos = s.pos + 16 := by
        have := congrArg Spec.File.pos f
        simpa [Spec.File.write, file] using this
      rcases ih i (by omega) (fun j hj hb => hg (j + 1) (by omega) (by
          have := k _ hb
          rw [hp] at this
          rwa [show s.pos + 16 * (j + 1 + 1) = s.pos + 16 + 16 * (j + 1) by omega])) with ⟨s2, e2, i2, f2⟩ | ⟨s2, n, e2, i2, hn2, f2⟩
      · refine .inl ⟨s2, by rw [Prog.bind_ok e, e2], i2, ?_⟩
        rw [f2, f, write_write _ _ _ hpos]
      · refine .inr ⟨s2, 16 + n, by rw [Prog.bind_ok e, e2], i2, by rw [List.length_append, UUID.wire_length]; omega, ?_⟩
        rw [f2, f, write_write _ _ _ hpos]
        congr 1
        rw [List.take_append, List.take_of_length_le (l := u.wire) (by omega), h16, Nat.add_sub_cancel_left]

theorem writeUUIDs_gap {s : WStream} (h : s.Held) (us : List UUID) (i : Nat) (hi : i < us.length)
    (hg : s.Gap (s.pos + 16 * (i + 1))) : writeUUIDs us s = .ub := by
  induction us generalizing s i with
  | nil => simp at hi
  | cons u us ih =>
    have hstep : writeUUIDs (u :: us) = (writeRaw u.wire >>= fun _ => writeUUIDs us) := rfl
    have h16 : u.wire.length = 16 := UUID.wire_length u
    rw [hstep]
    by_cases g0 : s.Gap (s.pos + 16)
    · rw [Prog.bind_apply, writeRaw_gap h (by rw [h16]; exact g0)]
    · -- the first one stays inside the memory
      have hin : s.pos + 16 ≤ s.mem.length := by
        obtain ⟨g1, g2⟩ := hg
        unfold Gap at g0
        omega
      have i0 : i ≠ 0 := fun h0 => by subst h0; exact g0 hg
      have hres := h.res_lt
      have hml := h.mem_le
      have e : ∃ s1, writeRaw u.wire s = .ok () s1 ∧ s1.Held ∧ s1.pos = s.pos + 16 ∧ s1.mem.length = s.mem.length ∧ s1.reserved = s.reserved := by
        have hw : wrap64 (s.pos + u.wire.length) = s.pos + 16 := by rw [h16]; exact Nat.mod_eq_of_lt (by omega)
        have hE : ∃ n, writeRaw u.wire s = .ok () { s with dataSize := n, mem := s.mem.take s.pos ++ u.wire ++ s.mem.drop (s.pos + u.wire.length), pos := s.pos + 16 } := by
          by_cases hc : s.pos + 16 > s.dataSize
          · refine ⟨s.pos + 16, ?_⟩
            simp only [writeRaw, Prog.bind_apply, Prog.get_apply, hw, Prog.when, if_pos hc, resize,
              if_neg (show ¬ s.pos + 16 > s.reserved by omega), Prog.modify_apply, Prog.pure_apply,
              if_neg (show ¬ s.mem.length < s.pos + u.wire.length by omega)]
            rfl
          · refine ⟨s.dataSize, ?_⟩
            simp only [writeRaw, Prog.bind_apply, Prog.get_apply, hw, Prog.when, if_neg hc, Prog.pure_apply,
              if_neg (show ¬ s.mem.length < s.pos + u.wire.length by omega)]
            rfl
        obtain ⟨n, hE⟩ := hE
        rcases writeRaw_held h (bs := u.wire) (by rw [h16]; omega) (by rw [h16]; exact g0) with ⟨s1, e, _⟩ | ⟨s1, e, g, _⟩
        · rw [hE] at e; cases e
        · rw [hE] at e; cases e
          refine ⟨_, hE, g, rfl, ?_, rfl⟩
          simp; omega
      obtain ⟨s1, e, g, p, m, r⟩ := e
      rw [Prog.bind_ok e]
      have hlen : (u :: us).length = us.length + 1 := rfl
      refine ih g (i - 1) (by omega) ?_
      rw [p, show s.pos + 16 + 16 * (i - 1 + 1) = s.pos + 16 * (i + 1) by omega]
      unfold Gap
      rw [m, r]
      exact hg

/-- Where the pieces end that a call puts into the stream (uuids go one by one). -/
def WOp.ends (pos : Nat) : WOp → List Nat
  | .write .uuid l => (List.range l.length).map fun i => pos + 16 * (i + 1)
  | .write sc l => [pos + l.length * sc.size]
  | .raw bs => [pos + bs.length]
  | .seek n => [n]
  | .flip _ => []

/-- **C03 (partial), the exact behaviour after failures.** A stream that may have seen any number of failed allocations: a call none of whose pieces
ends in the gap between the memory held and the memory believed to be held completes as on a file, or throws with the file as it was apart from some first
part of the call's own bytes, and the stream can be used on in either case. Any other call is undefined behaviour, or, for a change of position, leaves a
stream whose size is larger than its memory. Missing: those other calls are unsafe. -/
theorem C03_after_failures_partial (s : WStream) (h : s.Held) (op : WOp) (hn : (op.onFile s.file).pos < 2 ^ 64) :
    ((∀ e ∈ op.ends s.pos, ¬ s.Gap e) →
      (∃ s', op.run s = .ok () s' ∧ s'.Held ∧ s'.file = op.onFile s.file) ∨
      ∃ s' n, op.run s = .throw s' ∧ s'.Held ∧ n ≤ (op.bytes s.flip).length ∧ s'.file = s.file.write ((op.bytes s.flip).take n)) ∧
    ((∃ e ∈ op.ends s.pos, s.Gap e) → op.run s = .ub ∨ ∃ s', op.run s = .ok () s' ∧ s'.mem.length < s'.dataSize) := by
  have hnw : ∀ sc (l : List (Sc.Val sc)), (WOp.onFile (.write sc l) s.file).pos < 2 ^ 64 → s.pos + l.length * sc.size < 2 ^ 64 := fun sc l hn => by
    simpa [WOp.onFile, Spec.File.write, WStream.file] using hn
  cases op with
  | write sc l =>
    have hn' := hnw sc l hn
    clear hnw
    cases sc with
    | w1 =>
      have e : (List.flatMap (Word.image (k := 1)) l).length = l.length * 1 := flatMap_image_length (k := 1) l
      constructor
      · intro hg
        have hg' := hg _ (List.mem_singleton.mpr rfl)
        show HeldAttempt _ s (Spec.scalars s.flip .w1 l)
        rw [scalars_w1]
        exact writeRaw_heldAttempt h (by rw [e]; exact hn') (by rw [e]; exact hg')
      · rintro ⟨x, hx, hg⟩
        cases List.mem_singleton.mp hx
        exact .inl (writeRaw_gap h (by rw [e]; exact hg))
    | w2 =>
      constructor
      · intro hg
        exact writeWords_heldAttempt (k := 2) (.inl rfl) h l hn' (hg _ (List.mem_singleton.mpr rfl))
      · rintro ⟨x, hx, hg⟩
        cases List.mem_singleton.mp hx
        exact .inl (writeWords_gap (k := 2) h l hg)
    | w4 =>
      constructor
      · intro hg
        exact writeWords_heldAttempt (k := 4) (.inr (.inl rfl)) h l hn' (hg _ (List.mem_singleton.mpr rfl))
      · rintro ⟨x, hx, hg⟩
        cases List.mem_singleton.mp hx
        exact .inl (writeWords_gap (k := 4) h l hg)
    | w8 =>
      constructor
      · intro hg
        exact writeWords_heldAttempt (k := 8) (.inr (.inr rfl)) h l hn' (hg _ (List.mem_singleton.mpr rfl))
      · rintro ⟨x, hx, hg⟩
        cases List.mem_singleton.mp hx
        exact .inl (writeWords_gap (k := 8) h l hg)
    | uuid =>
      constructor
      · intro hg
        show HeldAttempt _ s (Spec.scalars s.flip .uuid l)
        rw [scalars_uuid]
        exact writeUUIDs_heldAttempt h l hn' fun i hi => hg _ (List.mem_map.mpr ⟨i, List.mem_range.mpr hi, rfl⟩)
      · rintro ⟨x, hx, hg⟩
        obtain ⟨i, hi, rfl⟩ := List.mem_map.mp hx
        exact .inl (writeUUIDs_gap h l i (List.mem_range.mp hi) hg)
    | hash =>
      have e : (List.flatMap (fun h : Hash => h.digest.toList) l).length = l.length * 32 := scalars_length s.flip .hash l
      constructor
      · intro hg
        have hg' := hg _ (List.mem_singleton.mpr rfl)
        exact writeRaw_heldAttempt h (bs := List.flatMap (fun h : Hash => h.digest.toList) l) (by rw [e]; exact hn') (by rw [e]; exact hg')
      · rintro ⟨x, hx, hg⟩
        cases List.mem_singleton.mp hx
        exact .inl (writeRaw_gap h (by rw [e]; exact hg))
  | raw bs =>
    constructor
    · intro hg
      exact writeRaw_heldAttempt h hn (hg _ (List.mem_singleton.mpr rfl))
    · rintro ⟨x, hx, hg⟩
      cases List.mem_singleton.mp hx
      exact .inl (writeRaw_gap h hg)
  | seek n =>
    constructor
    · intro hg
      rcases setPosition_held h (n := n) hn (hg _ (List.mem_singleton.mpr rfl)) with ⟨s', e, g, d⟩ | ⟨s', e, g, f⟩
      · exact .inr ⟨s', 0, e, g, Nat.zero_le _, by rw [d.file, List.take_zero, file_write_nil _ h.file_pos]⟩
      · exact .inl ⟨s', e, g, f⟩
    · rintro ⟨x, hx, hg⟩
      cases List.mem_singleton.mp hx
      exact .inr ⟨_, setPosition_gap h hg, hg.1⟩
  | flip b => exact ⟨fun _ => .inl ⟨_, rfl, ⟨h.size_le, h.pos_le, h.mem_le, h.res_lt, h.zero⟩, rfl⟩, fun ⟨_, hx, _⟩ => (nomatch hx)⟩

/-! ## Histories that go on after exceptions -/

/-- A history of calls that goes on after exceptions: which calls completed (`none`: something undefined happened). -/
def goOn : List WOp → WStream → Option (List Bool × WStream)
  | [], s => some ([], s)
  | op :: ops, s =>
    match op.run s with
    | .ok _ s' => (goOn ops s').map fun r => (true :: r.1, r.2)
    | .throw s' => (goOn ops s').map fun r => (false :: r.1, r.2)
    | .ub => none

/-- The same history on a plain byte file, where a call that threw left some first part of its bytes. -/
inductive FileHistory : List WOp → List Bool → Spec.File → Spec.File → Prop where
  | nil (f : Spec.File) : FileHistory [] [] f f
  | done {op : WOp} {ops : List WOp} {rs : List Bool} {f g : Spec.File} (h : FileHistory ops rs (op.onFile f) g) : FileHistory (op :: ops) (true :: rs) f g
  | threw {op : WOp} {ops : List WOp} {rs : List Bool} {f g : Spec.File} (n : Nat) (hn : n ≤ (op.bytes f.flip).length)
      (h : FileHistory ops rs (f.write ((op.bytes f.flip).take n)) g) : FileHistory (op :: ops) (false :: rs) f g

/-- No call of the history ends in the gap, and none runs out of 64 bit positions. -/
def StaysOut : List WOp → WStream → Prop
  | [], _ => True
  | op :: ops, s => (op.onFile s.file).pos < 2 ^ 64 ∧ (∀ e ∈ op.ends s.pos, ¬ s.Gap e) ∧
      ∀ s', op.run s = .ok () s' ∨ op.run s = .throw s' → StaysOut ops s'

/-- **C03 (partial)** for histories that go on after any number of exceptions. -/
theorem C03_histories_partial (ops : List WOp) (s : WStream) (h : s.Held) (ho : StaysOut ops s) :
    ∃ rs s', goOn ops s = some (rs, s') ∧ s'.Held ∧ FileHistory ops rs s.file s'.file := by
  induction ops generalizing s with
  | nil => exact ⟨[], s, rfl, h, .nil _⟩
  | cons op ops ih =>
    obtain ⟨h1, h2, h3⟩ := ho
    rcases (C03_after_failures_partial s h op h1).1 h2 with ⟨s1, e, g, f⟩ | ⟨s1, n, e, g, hn, f⟩
    · obtain ⟨rs, s2, e2, g2, f2⟩ := ih s1 g (h3 s1 (.inl e))
      rw [f] at f2
      refine ⟨true :: rs, s2, ?_, g2, .done f2⟩
      rw [goOn, e]; dsimp only; rw [e2]; rfl
    · obtain ⟨rs, s2, e2, g2, f2⟩ := ih s1 g (h3 s1 (.inr e))
      rw [f] at f2
      refine ⟨false :: rs, s2, ?_, g2, .threw n hn f2⟩
      rw [goOn, e]; dsimp only; rw [e2]; rfl

/-- Calls that stay within the size of the file. -/
def Within : List WOp → Spec.File → Prop
  | [], _ => True
  | op :: ops, f => (op.onFile f).pos ≤ f.content.length ∧ Within ops (op.onFile f)

theorem ends_le {op : WOp} {f : Spec.File} {e : Nat} (h : (op.onFile f).pos ≤ f.content.length) (he : e ∈ op.ends f.pos) : e ≤ f.content.length := by
  cases op with
  | write sc l =>
    have h' : f.pos + l.length * sc.size ≤ f.content.length := by simpa [WOp.onFile, Spec.File.write] using h
    cases sc with
    | uuid =>
      obtain ⟨i, hi, rfl⟩ := List.mem_map.mp he
      have := List.mem_range.mp hi
      have : Sc.size .uuid = 16 := rfl
      rw [this] at h'
      omega
    | _ => cases List.mem_singleton.mp he; exact h'
  | raw bs => cases List.mem_singleton.mp he; exact h
  | seek n => cases List.mem_singleton.mp he; exact h
  | flip b => cases he

theorem writeRaw_within {s : WStream} (h : s.Held) {bs : Bytes} (hb : s.pos + bs.length ≤ s.dataSize) : ∀ s', writeRaw bs s ≠ .throw s' := by
  have := h.size_le
  have := h.mem_le
  have := h.res_lt
  intro s' e
  have hw : wrap64 (s.pos + bs.length) = s.pos + bs.length := Nat.mod_eq_of_lt (by omega)
  simp only [writeRaw, Prog.bind_apply, Prog.get_apply, hw, Prog.when, if_neg (show ¬ s.pos + bs.length > s.dataSize by omega), Prog.pure_apply,
    if_neg (show ¬ s.mem.length < s.pos + bs.length by omega)] at e
  cases e

theorem writeWords_within {k : Nat} {s : WStream} (h : s.Held) (ws : List (Word k)) (hb : s.pos + ws.length * k ≤ s.dataSize) :
    ∀ s', writeWords ws s ≠ .throw s' := by
  intro s' e
  have hr := writeRaw_within h (bs := ws.flatMap Word.image) (by rw [flatMap_image_length]; exact hb)
  simp only [writeWords, Prog.bind_apply, Prog.get_apply] at e
  split at e
  · simp only [Prog.bind_apply] at e
    generalize e1 : writeRaw (ws.flatMap Word.image) s = r at e
    cases r with
    | ok a s1 =>
      simp only [swapAt, Prog.bind_apply, Prog.get_apply] at e
      split at e <;> cases e
    | throw s1 => exact hr _ e1
    | ub => cases e
  · exact hr _ e

theorem writeUUIDs_within {s : WStream} (h : s.Held) (us : List UUID) (hb : s.pos + us.length * 16 ≤ s.dataSize) :
    ∀ s', writeUUIDs us s ≠ .throw s' := by
  induction us generalizing s with
  | nil => intro s' e; cases e
  | cons u us ih =>
    have hstep : writeUUIDs (u :: us) = (writeRaw u.wire >>= fun _ => writeUUIDs us) := rfl
    have h16 : u.wire.length = 16 := UUID.wire_length u
    simp only [List.length_cons, Nat.succ_mul] at hb
    have := h.size_le
    have := h.mem_le
    have := h.res_lt
    rcases writeRaw_held h (bs := u.wire) (by omega) (fun g => by have := g.1; omega) with ⟨s1, e, _⟩ | ⟨s1, e, g, f, _⟩
    · exact absurd e (writeRaw_within h (by omega) s1)
    · have hp : s1.pos = s.pos + 16 := by
        have := congrArg Spec.File.pos f
        simpa [Spec.File.write, file] using this
      have hd : s1.dataSize = s.dataSize := by
        have hl := congrArg (fun f => f.content.length) f
        rw [← g.content_len, ← h.content_len]
        have hl0 := h.content_len
        refine hl.trans ?_
        simp only [Spec.File.write, file, List.length_append, List.length_take, List.length_drop]
        omega
      rw [hstep, Prog.bind_ok e]
      exact ih g (by omega)

/-- After any number of exceptions, writes and positions within the size of the stream are safe and complete as on a file. -/
theorem C03_within_the_size_partial (ops : List WOp) (s : WStream) (h : s.Held) (hw : Within ops s.file) :
    ∃ s', runOps ops s = .ok () s' ∧ s'.Held ∧ s'.file = opsOnFile ops s.file := by
  induction ops generalizing s with
  | nil => exact ⟨s, rfl, h, rfl⟩
  | cons op ops ih =>
    obtain ⟨h1, h2⟩ := hw
    have hl := h.content_len
    have hs := h.size_le
    have hm := h.mem_le
    have hr := h.res_lt
    have hfl : s.file.content.length = s.dataSize := hl
    have out : ∀ e ∈ op.ends s.pos, e ≤ s.dataSize := fun e he => hfl ▸ ends_le (f := s.file) h1 he
    have step := (C03_after_failures_partial s h op (by omega)).1 fun e he hg => by have := out e he; have := hg.1; omega
    have ok : ∃ s', op.run s = .ok () s' ∧ s'.Held ∧ s'.file = op.onFile s.file := by
      rcases step with k | ⟨s1, n, e, g, hn, f⟩
      · exact k
      · exfalso
        cases op with
        | write sc l =>
          have hb : s.pos + l.length * sc.size ≤ s.dataSize := by
            rw [hfl] at h1
            simpa [WOp.onFile, Spec.File.write, file] using h1
          cases sc with
          | w1 =>
            have e1 : (List.flatMap (Word.image (k := 1)) l).length = l.length * 1 := flatMap_image_length (k := 1) l
            exact writeRaw_within h (by rw [e1]; exact hb) _ e
          | w2 => exact writeWords_within (k := 2) h l hb _ e
          | w4 => exact writeWords_within (k := 4) h l hb _ e
          | w8 => exact writeWords_within (k := 8) h l hb _ e
          | uuid => exact writeUUIDs_within h l hb _ e
          | hash =>
            have e1 : (List.flatMap (fun h : Hash => h.digest.toList) l).length = l.length * 32 := scalars_length s.flip .hash l
            exact writeRaw_within h (bs := List.flatMap (fun h : Hash => h.digest.toList) l) (by rw [e1]; exact hb) _ e
        | raw bs => exact writeRaw_within h (by rw [hfl] at h1; exact h1) _ e
        | seek m =>
          have hb : m ≤ s.dataSize := by rw [hfl] at h1; exact h1
          have e' : setPosition m s = .throw s1 := e
          simp only [setPosition, Prog.bind_apply, Prog.get_apply, Prog.when, if_neg (show ¬ m > s.dataSize by omega), Prog.pure_apply] at e'
          cases e'
        | flip b => cases e
    obtain ⟨s1, e, g, f⟩ := ok
    obtain ⟨s2, e2, g2, f2⟩ := ih s1 g (by rw [f]; exact h2)
    refine ⟨s2, ?_, g2, by rw [f2, f]; rfl⟩
    rw [runOps, Prog.bind_ok e, e2]

/-- What the constructor makes, and what any history of safe calls from there leaves, is such a stream; until the first exception there is no gap. -/
theorem C03_created (alloc : Nat → Nat → Bool) (initial : Nat) (h0 : 0 < initial) (h : initial < 2 ^ 64) :
    (∃ s', create alloc initial = .throw s') ∨
    ∃ s, create alloc initial = .ok () s ∧ s.Held ∧ s.file = ⟨[], 0, false⟩ ∧ ∀ n, ¬ s.Gap n := by
  have hi : ({ mem := [], dataSize := 0, pos := 0, reserved := 0, flip := false, allocOk := alloc, allocNo := 0 } : WStream).Held :=
    ⟨Nat.le_refl _, Nat.le_refl _, Nat.le_refl _, Nat.two_pow_pos 64, rfl⟩
  unfold create
  have hr : initial ≤ (if wrap64 (0 * 2) < initial then initial else wrap64 (0 * 2)) ∧
      (if wrap64 (0 * 2) < initial then initial else wrap64 (0 * 2)) < 2 ^ 64 := by
    rw [show wrap64 (0 * 2) = 0 from rfl]; split <;> omega
  simp only [reserveForSize, Prog.bind_apply, Prog.get_apply, Prog.set_apply]
  generalize (if wrap64 (0 * 2) < initial then initial else wrap64 (0 * 2)) = r at hr
  by_cases hok : alloc 0 r = true
  · rw [if_neg (by rw [hok]; simp; omega), if_neg (by simp)]
    have key := inv_of (s := { mem := List.replicate r 0, dataSize := 0, pos := 0, reserved := r, flip := false, allocOk := alloc, allocNo := 1 })
      (c := []) (z := r) (by simp) rfl (by simp) (Nat.le_refl _) hr.2
    exact .inr ⟨_, rfl, key.1.held, by show WStream.file _ = _; simp [WStream.file, content], key.1.no_gap⟩
  · rw [if_pos (.inl (by simpa using hok))]
    exact .inl ⟨_, rfl⟩

/-! ## Non-trivial cases -/

/-- A stream of 4 bytes; the second allocation fails, the third succeeds. -/
def unluckyStream : WStream := { mem := List.replicate 4 0, dataSize := 0, pos := 0, reserved := 4, flip := false, allocOk := fun n _ => n != 1, allocNo := 1 }

example : create (fun n _ => n != 1) 4 = .ok () unluckyStream := rfl

/-- Three bytes; five more throw; a write of five more is in the gap, nine more make a new allocation and complete. -/
def unluckyCalls : List WOp := [.raw [1, 2, 3], .raw [4, 5, 6, 7, 8], .seek 1, .raw [9], .flip true, .write .w2 [(0x0102#16 : Word 2)], .raw [1, 2, 3, 4, 5, 6, 7, 8, 9]]

example : (goOn unluckyCalls unluckyStream).map (fun r => (r.1, r.2.content)) =
    some ([true, false, true, true, true, true, true], [1, 9, 1, 2, 1, 2, 3, 4, 5, 6, 7, 8, 9]) := by decide +kernel

example : StaysOut unluckyCalls unluckyStream := by
  have go : ∀ (op : WOp) (ops : List WOp) (s s1 : WStream), (op.run s = .ok () s1 ∨ op.run s = .throw s1) → (op.onFile s.file).pos < 2 ^ 64 →
      (∀ e ∈ op.ends s.pos, ¬ (s.mem.length < e ∧ e ≤ s.reserved)) → StaysOut ops s1 → StaysOut (op :: ops) s := by
    intro op ops s s1 h h1 h2 h3
    refine ⟨h1, h2, fun s' h' => ?_⟩
    have : s' = s1 := by
      rcases h with h | h <;> rcases h' with h' | h' <;> rw [h] at h' <;> cases h' <;> rfl
    rw [this]; exact h3
  unfold unluckyCalls
  refine go _ _ _ _ (.inl rfl) (by decide +kernel) (by decide +kernel) ?_
  refine go _ _ _ _ (.inr rfl) (by decide +kernel) (by decide +kernel) ?_
  refine go _ _ _ _ (.inl rfl) (by decide +kernel) (by decide +kernel) ?_
  refine go _ _ _ _ (.inl rfl) (by decide +kernel) (by decide +kernel) ?_
  refine go _ _ _ _ (.inl rfl) (by decide +kernel) (by decide +kernel) ?_
  refine go _ _ _ _ (.inl rfl) (by decide +kernel) (by decide +kernel) ?_
  refine go _ _ _ _ (.inl rfl) (by decide +kernel) (by decide +kernel) trivial

end ISD
