import Verif.Proofs.WriteStream

/-! # The write stream under failing allocations, and operation sequences -/

namespace ISD

open WStream

/-- The same stream with an allocator that never fails. -/
def WStream.lucky (s : WStream) : WStream := { s with allocOk := fun _ _ => true }

theorem WStream.Inv.lucky {s : WStream} (h : s.Inv) : s.lucky.Good :=
  ⟨⟨h.mem_len, h.size_le, h.pos_le, h.res_lt, h.zero⟩, fun _ _ => rfl⟩

/-- Nothing but the reservation bookkeeping has changed. -/
structure WStream.SameData (s s' : WStream) : Prop where
  mem : s'.mem = s.mem
  dataSize : s'.dataSize = s.dataSize
  pos : s'.pos = s.pos
  flip : s'.flip = s.flip

theorem WStream.SameData.refl (s : WStream) : s.SameData s := ⟨rfl, rfl, rfl, rfl⟩

theorem WStream.SameData.file {s s' : WStream} (h : s.SameData s') : s'.file = s.file := by
  simp only [WStream.file, content, h.mem, h.dataSize, h.pos, h.flip]

/-- A run with the stream's own allocator: it throws leaving the data alone, or does what the lucky twin does. -/
def Sim (p : Prog WStream Unit) (s : WStream) : Prop :=
  (∃ s', p s = .throw s' ∧ s.SameData s') ∨
  (∃ t, p s.lucky = .ok () t ∧ p s = .ok () { t with allocOk := s.allocOk })

theorem reserve_sim {s : WStream} (h : s.Inv) {n : Nat} (h1 : s.reserved < n) : Sim (reserveForSize n) s := by
  have hl := h.mem_len
  have hs := h.size_le
  have hr : n ≤ if wrap64 (s.reserved * 2) < n then n else wrap64 (s.reserved * 2) := by split <;> omega
  have e1 : s.lucky.reserved = s.reserved := rfl
  have e2 : s.lucky.mem = s.mem := rfl
  have e3 : s.lucky.dataSize = s.dataSize := rfl
  have e4 : ∀ a b, s.lucky.allocOk a b = true := fun _ _ => rfl
  simp only [Sim, reserveForSize, Prog.bind_apply, Prog.get_apply, Prog.set_apply, e1, e2, e3]
  generalize (if wrap64 (s.reserved * 2) < n then n else wrap64 (s.reserved * 2)) = r at hr
  have c2 : ¬ (s.mem.length < s.dataSize ∨ r < s.dataSize) := by omega
  have c1 : ¬ (s.lucky.allocOk s.lucky.allocNo r = false ∨ r = 0) := by rw [e4]; simp; omega
  by_cases hok : s.allocOk s.allocNo r = true
  · right
    have c0 : ¬ (s.allocOk s.allocNo r = false ∨ r = 0) := by rw [hok]; simp; omega
    rw [if_neg c0, if_neg c1, if_neg c2]
    exact ⟨_, rfl, rfl⟩
  · left
    rw [if_pos (by left; simpa using hok)]
    exact ⟨_, rfl, ⟨rfl, rfl, rfl, rfl⟩⟩

theorem resize_sim {s : WStream} (h : s.Inv) {n : Nat} : Sim (resize n) s := by
  by_cases hc : n > s.reserved
  · rcases reserve_sim h hc with ⟨s', e, hd⟩ | ⟨t, e1, e2⟩
    · left
      refine ⟨s', ?_, hd⟩
      simp only [resize, Prog.when, Prog.bind_apply, Prog.get_apply, if_pos hc, e]
    · right
      refine ⟨{ t with dataSize := n }, ?_, ?_⟩
      · have hc' : n > s.lucky.reserved := hc
        simp only [resize, Prog.when, Prog.bind_apply, Prog.get_apply, if_pos hc', e1, Prog.modify_apply]
      · simp only [resize, Prog.when, Prog.bind_apply, Prog.get_apply, if_pos hc, e2, Prog.modify_apply]
  · right
    have hc' : ¬ n > s.lucky.reserved := hc
    refine ⟨{ s.lucky with dataSize := n }, ?_, ?_⟩
    · simp only [resize, Prog.when, Prog.bind_apply, Prog.get_apply, if_neg hc', Prog.pure_apply, Prog.modify_apply]
    · simp only [resize, Prog.when, Prog.bind_apply, Prog.get_apply, if_neg hc, Prog.pure_apply, Prog.modify_apply, lucky]

theorem setPosition_sim {s : WStream} (h : s.Inv) {n : Nat} : Sim (setPosition n) s := by
  by_cases hc : n > s.dataSize
  · have hc' : n > s.lucky.dataSize := hc
    rcases resize_sim h (n := n) with ⟨s', e, hd⟩ | ⟨t, e1, e2⟩
    · left
      refine ⟨s', ?_, hd⟩
      simp only [setPosition, Prog.when, Prog.bind_apply, Prog.get_apply, if_pos hc, e]
    · right
      refine ⟨{ t with pos := n }, ?_, ?_⟩
      · simp only [setPosition, Prog.when, Prog.bind_apply, Prog.get_apply, if_pos hc', e1, Prog.modify_apply]
      · simp only [setPosition, Prog.when, Prog.bind_apply, Prog.get_apply, if_pos hc, e2, Prog.modify_apply]
  · right
    have hc' : ¬ n > s.lucky.dataSize := hc
    refine ⟨{ s.lucky with pos := n }, ?_, ?_⟩
    · simp only [setPosition, Prog.when, Prog.bind_apply, Prog.get_apply, if_neg hc', Prog.pure_apply, Prog.modify_apply]
    · simp only [setPosition, Prog.when, Prog.bind_apply, Prog.get_apply, if_neg hc, Prog.pure_apply, Prog.modify_apply, lucky]

theorem writeRaw_sim {s : WStream} (h : s.Inv) {bs : Bytes} (hn : s.pos + bs.length < 2 ^ 64) : Sim (writeRaw bs) s := by
  have hw : wrap64 (s.pos + bs.length) = s.pos + bs.length := Nat.mod_eq_of_lt hn
  have hw' : wrap64 (s.lucky.pos + bs.length) = s.pos + bs.length := hw
  have mid : Sim (Prog.when (s.pos + bs.length > s.dataSize) (resize (s.pos + bs.length))) s := by
    by_cases hc : s.pos + bs.length > s.dataSize
    · simp only [Prog.when, if_pos hc]; exact resize_sim h
    · simp only [Prog.when, if_neg hc]; exact .inr ⟨s.lucky, rfl, rfl⟩
  obtain ⟨t0, e0, -⟩ := writeRaw_ok h.lucky (bs := bs) hn
  have hds : s.lucky.dataSize = s.dataSize := rfl
  rcases mid with ⟨s', e, hd⟩ | ⟨t, e1, e2⟩
  · left
    refine ⟨s', ?_, hd⟩
    simp only [writeRaw, Prog.bind_apply, Prog.get_apply, hw, e]
  · right
    refine ⟨t0, e0, ?_⟩
    simp only [writeRaw, Prog.bind_apply, Prog.get_apply, hw, hw', e1, e2, hds] at e0 ⊢
    split at e0
    · cases e0
    · rename_i hlt
      rw [if_neg hlt]
      simp only [Prog.set_apply, Res.ok.injEq, true_and] at e0 ⊢
      rw [← e0]

theorem Sim.inv {p : Prog WStream Unit} {s : WStream} {f : Spec.File} (hs : Sim p s) (hr : Runs p s.lucky () f) :
    (∃ s', p s = .throw s' ∧ s.SameData s') ∨ (∃ s', p s = .ok () s' ∧ s'.Inv ∧ s'.file = f ∧ s'.allocOk = s.allocOk) := by
  rcases hs with h | ⟨t, e1, e2⟩
  · exact .inl h
  · obtain ⟨t', e3, g, hf⟩ := hr
    rw [e1] at e3; cases e3
    exact .inr ⟨_, e2, ⟨g.mem_len, g.size_le, g.pos_le, g.res_lt, g.zero⟩, hf, rfl⟩

/-- Outcome of one stream call with an arbitrary allocator: done, or `bad_alloc` after some of the bytes were written. -/
def Attempt (p : Prog WStream Unit) (s : WStream) (bs : Bytes) : Prop :=
  (∃ s', p s = .ok () s' ∧ s'.Inv ∧ s'.file = s.file.write bs ∧ s'.allocOk = s.allocOk) ∨
  (∃ s' n, p s = .throw s' ∧ n ≤ bs.length ∧ s'.file = s.file.write (bs.take n))

theorem Inv.file_pos {s : WStream} (h : s.Inv) : s.file.pos ≤ s.file.content.length := h.lucky.file_pos

theorem writeRaw_attempt {s : WStream} (h : s.Inv) {bs : Bytes} (hn : s.pos + bs.length < 2 ^ 64) :
    Attempt (writeRaw bs) s bs := by
  rcases (writeRaw_sim h hn).inv (writeRaw_runs h.lucky hn) with ⟨s', e, hd⟩ | ⟨s', e, i, f, a⟩
  · exact .inr ⟨s', 0, e, Nat.zero_le _, by rw [hd.file, List.take_zero, file_write_nil _ (Inv.file_pos h)]⟩
  · exact .inl ⟨s', e, i, f, a⟩

theorem writeWords_attempt {k : Nat} (hk : SwapWidth k) {s : WStream} (h : s.Inv) (ws : List (Word k))
    (hn : s.pos + ws.length * k < 2 ^ 64) : Attempt (writeWords ws) s (wireWords s.flip ws) := by
  have hlen := flatMap_image_length ws
  have hr := writeWords_runs hk h.lucky ws hn
  have hsim : Sim (writeWords ws) s := by
    have hraw := writeRaw_sim h (bs := ws.flatMap Word.image) (by rw [hlen]; exact hn)
    obtain ⟨t0, e0, -, -⟩ := hr
    have hfl : s.lucky.flip = s.flip := rfl
    cases hf : s.flip with
    | false =>
      simp only [Sim, writeWords, Prog.bind_apply, Prog.get_apply, hf, hfl, Bool.false_eq_true, if_false] at hraw ⊢
      exact hraw
    | true =>
      rcases hraw with ⟨s', e, hd⟩ | ⟨t, e1, e2⟩
      · left
        exact ⟨s', by simp only [writeWords, Prog.bind_apply, Prog.get_apply, hf, if_true, e], hd⟩
      · right
        refine ⟨t0, e0, ?_⟩
        simp only [writeWords, Prog.bind_apply, Prog.get_apply, hf, hfl, if_true, e1, e2, swapAt] at e0 ⊢
        have hp : s.lucky.pos = s.pos := rfl
        rw [hp] at e0
        split at e0
        · cases e0
        · rename_i hlt
          rw [if_neg hlt]
          simp only [Prog.set_apply, Res.ok.injEq, true_and] at e0 ⊢
          rw [← e0]
  rcases hsim.inv hr with ⟨s', e, hd⟩ | ⟨s', e, i, f, a⟩
  · exact .inr ⟨s', 0, e, Nat.zero_le _, by rw [hd.file, List.take_zero, file_write_nil _ (Inv.file_pos h)]⟩
  · exact .inl ⟨s', e, i, f, a⟩

theorem writeUUIDs_attempt {s : WStream} (h : s.Inv) (us : List UUID) (hn : s.pos + us.length * 16 < 2 ^ 64) :
    Attempt (writeUUIDs us) s (us.flatMap UUID.wire) := by
  induction us generalizing s with
  | nil => exact .inl ⟨s, rfl, h, (file_write_nil _ (Inv.file_pos h)).symm, rfl⟩
  | cons u us ih =>
    simp only [List.length_cons, Nat.succ_mul] at hn
    have hstep : writeUUIDs (u :: us) = (writeRaw u.wire >>= fun _ => writeUUIDs us) := rfl
    have hpos := Inv.file_pos h
    rw [List.flatMap_cons, hstep]
    rcases writeRaw_attempt h (bs := u.wire) (by simp; omega) with ⟨s1, e, i, f, a⟩ | ⟨s1, n, e, hn', f⟩
    · have hp : s1.pos = s.pos + 16 := by
        have := congrArg Spec.File.pos f
        simpa [Spec.File.write, file] using this
      rcases ih i (by omega) with ⟨s2, e2, i2, f2, a2⟩ | ⟨s2, n, e2, hn2, f2⟩
      · refine .inl ⟨s2, by rw [Prog.bind_ok e, e2], i2, ?_, by rw [a2, a]⟩
        rw [f2, f, write_write _ _ _ hpos]
      · refine .inr ⟨s2, 16 + n, by rw [Prog.bind_ok e, e2], by rw [List.length_append, UUID.wire_length]; omega, ?_⟩
        rw [f2, f, write_write _ _ _ hpos]
        congr 1
        have h16 : u.wire.length = 16 := UUID.wire_length u
        rw [List.take_append, List.take_of_length_le (l := u.wire) (by omega), h16, Nat.add_sub_cancel_left]
    · refine .inr ⟨s1, n, Prog.bind_throw e, by rw [List.length_append]; omega, ?_⟩
      rw [f, List.take_append_of_le_length hn']

theorem writeItems_attempt {s : WStream} (h : s.Inv) (sc : Sc) (l : List sc.Val) (hn : s.pos + l.length * sc.size < 2 ^ 64) :
    Attempt (writeItems sc l) s (Spec.scalars s.flip sc l) := by
  cases sc with
  | w1 =>
    rw [scalars_w1]
    exact writeRaw_attempt h (by
      have e : (List.flatMap (Word.image (k := 1)) l).length = l.length * 1 := flatMap_image_length (k := 1) l
      exact e ▸ hn)
  | w2 => exact writeWords_attempt (k := 2) (Or.inl rfl) h l hn
  | w4 => exact writeWords_attempt (k := 4) (Or.inr (Or.inl rfl)) h l hn
  | w8 => exact writeWords_attempt (k := 8) (Or.inr (Or.inr rfl)) h l hn
  | uuid =>
    rw [scalars_uuid]
    exact writeUUIDs_attempt h l hn
  | hash =>
    exact writeRaw_attempt (bs := List.flatMap (fun h : Hash => h.digest.toList) l) h (by
      have e : (List.flatMap (fun h : Hash => h.digest.toList) l).length = l.length * 32 := scalars_length s.flip .hash l
      exact e ▸ hn)

theorem create_ok (alloc : Nat → Nat → Bool) (halloc : ∀ n r, alloc n r = true) (n : Nat) (h0 : 0 < n) (h : n < 2 ^ 64) :
    ∃ s, create alloc n = .ok () s ∧ s.Good ∧ s.file = ⟨[], 0, false⟩ := by
  have hg : ({ mem := [], dataSize := 0, pos := 0, reserved := 0, flip := false, allocOk := alloc, allocNo := 0 } : WStream).Good :=
    ⟨⟨rfl, Nat.le_refl _, Nat.le_refl _, Nat.two_pow_pos 64, rfl⟩, halloc⟩
  obtain ⟨r, e, hr1, hr2⟩ := reserve_ok hg h0 h
  have key := inv_of (s := { mem := List.replicate r 0, dataSize := 0, pos := 0, reserved := r, flip := false, allocOk := alloc, allocNo := 1 })
    (c := []) (z := r) (by simp) rfl (by simp) (Nat.le_refl _) hr2
  refine ⟨_, e, ⟨key.1, halloc⟩, ?_⟩
  show WStream.file _ = _
  simp [WStream.file, content]

end ISD
