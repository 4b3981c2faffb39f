import Verif.Spec.File
import Verif.Proofs.Basic

/-! # The write stream refines a plain byte file -/

namespace ISD

open WStream

theorem lsbFirst_eq (k n : Nat) : Spec.lsbFirst k n = leBytes k n := by
  induction k generalizing n with
  | zero => rfl
  | succ k ih =>
    have e : UInt8.ofNat n = UInt8.ofNat (n % 256) := by
      apply UInt8.toNat_inj.mp
      simp only [UInt8.toNat_ofNat']
      exact (Nat.mod_mod n 256).symm
    rw [leBytes, ← ih]
    simp only [Spec.lsbFirst, List.range_succ_eq_map, List.map_cons, List.map_map, Nat.pow_zero, Nat.div_one]
    rw [← e]
    congr 1
    apply List.map_congr_left
    intro i _
    simp only [Function.comp, Nat.pow_succ, Nat.div_div_eq_div_mul, Nat.mul_comm]

theorem msbFirst_eq (k n : Nat) : Spec.msbFirst k n = (leBytes k n).reverse := by
  rw [Spec.msbFirst, lsbFirst_eq]

@[simp] theorem number_length (flip : Bool) (k n : Nat) : (Spec.number flip k n).length = k := by
  unfold Spec.number; split <;> simp [lsbFirst_eq, msbFirst_eq]

theorem specUuid_eq (u : UUID) : Spec.uuid u = u.wire := by
  simp only [Spec.uuid, UUID.wire, msbFirst_eq, beFromValue32_eq, beFromValue16_eq, Word.image]

@[simp] theorem scalar_length (flip : Bool) (sc : Sc) (v : sc.Val) : (Spec.scalar flip sc v).length = sc.size := by
  cases sc with
  | uuid => exact (congrArg List.length (specUuid_eq v)).trans (UUID.wire_length v)
  | _ => simp [Spec.scalar, Sc.size]

@[simp] theorem scalars_length (flip : Bool) (sc : Sc) (l : List sc.Val) :
    (Spec.scalars flip sc l).length = l.length * sc.size := by
  induction l with
  | nil => simp [Spec.scalars]
  | cons v l ih =>
    simp only [Spec.scalars] at ih
    rw [Spec.scalars, List.flatMap_cons, List.length_append, ih, scalar_length, List.length_cons, Nat.succ_mul,
      Nat.add_comm]

theorem scalars_append (flip : Bool) (sc : Sc) (a b : List sc.Val) :
    Spec.scalars flip sc (a ++ b) = Spec.scalars flip sc a ++ Spec.scalars flip sc b := by
  simp [Spec.scalars]

/-- Invariant of every reachable stream: the allocation has the reserved size, holds the data, and is zero behind it. -/
structure WStream.Inv (s : WStream) : Prop where
  mem_len : s.mem.length = s.reserved
  size_le : s.dataSize ≤ s.reserved
  pos_le : s.pos ≤ s.dataSize
  res_lt : s.reserved < 2 ^ 64
  zero : s.mem.drop s.dataSize = List.replicate (s.reserved - s.dataSize) 0

/-- Invariant plus "every allocation succeeds". -/
structure WStream.Good (s : WStream) : Prop extends s.Inv where
  alloc : ∀ n r, s.allocOk n r = true

/-- What the user sees of a stream. -/
def WStream.file (s : WStream) : Spec.File := ⟨s.content, s.pos, s.flip⟩

theorem WStream.Inv.content_len {s : WStream} (h : s.Inv) : s.content.length = s.dataSize := by
  have := h.mem_len; have := h.size_le
  simp [content]; omega

theorem WStream.Inv.mem_eq {s : WStream} (h : s.Inv) :
    s.mem = s.content ++ List.replicate (s.reserved - s.dataSize) 0 := by
  rw [← h.zero, content, List.take_append_drop]

/-- The routine returns `a`, keeps the stream good, and leaves the file `f`. -/
def Runs {α : Type} (p : Prog WStream α) (s : WStream) (a : α) (f : Spec.File) : Prop :=
  ∃ s', p s = .ok a s' ∧ s'.Good ∧ s'.file = f

theorem Runs.bind {α β : Type} {p : Prog WStream α} {k : α → Prog WStream β} {s : WStream} {a : α} {b : β}
    {f g : Spec.File} (h : Runs p s a f) (hk : ∀ s1 : WStream, s1.Good → s1.file = f → Runs (k a) s1 b g) :
    Runs (p >>= k) s b g := by
  obtain ⟨s1, e1, g1, f1⟩ := h
  obtain ⟨s2, e2, g2, f2⟩ := hk s1 g1 f1
  exact ⟨s2, by rw [Prog.bind_ok e1, e2], g2, f2⟩

theorem Runs.pure {α : Type} {s : WStream} (h : s.Good) (a : α) : Runs (Pure.pure a) s a s.file :=
  ⟨s, rfl, h, rfl⟩

theorem Runs.get_bind {β : Type} {k : WStream → Prog WStream β} {s : WStream} {b : β} {g : Spec.File}
    (h : Runs (k s) s b g) : Runs (Prog.get >>= k) s b g := h

theorem reserve_ok {s : WStream} (h : s.Good) {n : Nat} (h1 : s.reserved < n) (h2 : n < 2 ^ 64) :
    ∃ r, reserveForSize n s = .ok () { s with
      reserved := r, allocNo := s.allocNo + 1,
      mem := s.mem.take s.dataSize ++ List.replicate (r - s.dataSize) 0 } ∧ n ≤ r ∧ r < 2 ^ 64 := by
  have hl := h.mem_len
  have hs := h.size_le
  have hw : wrap64 (s.reserved * 2) < 2 ^ 64 := Nat.mod_lt _ (by decide)
  refine ⟨if wrap64 (s.reserved * 2) < n then n else wrap64 (s.reserved * 2), ?_, ?_, ?_⟩
  · have hr : n ≤ if wrap64 (s.reserved * 2) < n then n else wrap64 (s.reserved * 2) := by split <;> omega
    simp only [reserveForSize, Prog.bind_apply, Prog.get_apply, Prog.set_apply]
    generalize (if wrap64 (s.reserved * 2) < n then n else wrap64 (s.reserved * 2)) = r at hr
    have c1 : ¬ (s.allocOk s.allocNo r = false ∨ r = 0) := by rw [h.alloc]; simp; omega
    have c2 : ¬ (s.mem.length < s.dataSize ∨ r < s.dataSize) := by omega
    rw [if_neg c1, if_neg c2]
    rfl
  · split <;> omega
  · split <;> omega

theorem inv_of {s : WStream} {c : Bytes} {z : Nat} (hm : s.mem = c ++ List.replicate z 0) (hc : c.length = s.dataSize)
    (hr : s.reserved = s.dataSize + z) (hp : s.pos ≤ s.dataSize) (hl : s.reserved < 2 ^ 64) :
    s.Inv ∧ s.content = c := by
  refine ⟨⟨by rw [hm]; simp; omega, by omega, hp, hl, ?_⟩, ?_⟩
  · rw [hm, List.drop_left' hc, hr, Nat.add_sub_cancel_left]
  · rw [content, hm, List.take_left' hc]

theorem resize_ok {s : WStream} (h : s.Good) {n : Nat} (h1 : s.dataSize ≤ n) (h2 : n < 2 ^ 64) :
    ∃ s', resize n s = .ok () s' ∧ s'.Good ∧ s'.content = s.content ++ List.replicate (n - s.dataSize) 0 ∧
      s'.pos = s.pos ∧ s'.flip = s.flip ∧ s'.dataSize = n := by
  have hl := h.content_len
  have hs := h.size_le
  have hp := h.pos_le
  have hres := h.res_lt
  by_cases hc : n > s.reserved
  · obtain ⟨r, e, hr1, hr2⟩ := reserve_ok h hc h2
    have key := inv_of (s := { s with dataSize := n, reserved := r, allocNo := s.allocNo + 1, mem := s.mem.take s.dataSize ++ List.replicate (r - s.dataSize) 0 })
      (c := s.content ++ List.replicate (n - s.dataSize) 0) (z := r - n)
      (by simp only [content, List.append_assoc, List.replicate_append_replicate]
          congr 2; omega)
      (by simp; omega) (by simp; omega) (by simp; omega) hr2
    refine ⟨_, ?_, ⟨key.1, h.alloc⟩, key.2, rfl, rfl, rfl⟩
    simp only [resize, Prog.when, Prog.bind_apply, Prog.get_apply, if_pos hc, e, Prog.modify_apply]
  · have key := inv_of (s := { s with dataSize := n })
      (c := s.content ++ List.replicate (n - s.dataSize) 0) (z := s.reserved - n)
      (by simp only [List.append_assoc, List.replicate_append_replicate]
          rw [h.mem_eq]; congr 2; omega)
      (by simp; omega) (by simp; omega) (by simp; omega) hres
    refine ⟨_, ?_, ⟨key.1, h.alloc⟩, key.2, rfl, rfl, rfl⟩
    simp only [resize, Prog.when, Prog.bind_apply, Prog.get_apply, if_neg hc, Prog.pure_apply, Prog.modify_apply]

theorem setPosition_runs {s : WStream} (h : s.Good) {n : Nat} (hn : n < 2 ^ 64) :
    Runs (setPosition n) s () (s.file.seek n) := by
  have hl := h.content_len
  by_cases hc : n > s.dataSize
  · obtain ⟨s1, e, g, c, p, f, d⟩ := resize_ok h (Nat.le_of_lt hc) hn
    refine ⟨{ s1 with pos := n }, ?_, ⟨⟨g.mem_len, g.size_le, by simp [d], g.res_lt, g.zero⟩, g.alloc⟩, ?_⟩
    · simp only [setPosition, Prog.when, Prog.bind_apply, Prog.get_apply, if_pos hc, e, Prog.modify_apply]
    · have : ({ s1 with pos := n } : WStream).content = s1.content := rfl
      rw [file, this]
      simp only [Spec.File.seek, file, c, hl, f]
  · refine ⟨{ s with pos := n }, ?_, ⟨⟨h.mem_len, h.size_le, by simp; omega, h.res_lt, h.zero⟩, h.alloc⟩, ?_⟩
    · simp only [setPosition, Prog.when, Prog.bind_apply, Prog.get_apply, if_neg hc, Prog.pure_apply, Prog.modify_apply]
    · have : ({ s with pos := n } : WStream).content = s.content := rfl
      have hz : n - s.dataSize = 0 := by omega
      simp only [file, Spec.File.seek, this, hl, hz, List.replicate_zero, List.append_nil]

/-- The memory right after a raw write: data before, the written bytes, the rest. -/
theorem writeRaw_ok {s : WStream} (h : s.Good) {bs : Bytes} (hn : s.pos + bs.length < 2 ^ 64) :
    ∃ s', writeRaw bs s = .ok () s' ∧ s'.Good ∧ s'.file = s.file.write bs ∧ 
      s'.mem.drop s.pos = bs ++ s'.mem.drop (s.pos + bs.length) ∧ s.pos + bs.length ≤ s'.mem.length ∧ 
      s.pos + bs.length ≤ s'.dataSize := by
  have hl := h.content_len
  have hp := h.pos_le
  have hw : wrap64 (s.pos + bs.length) = s.pos + bs.length := Nat.mod_eq_of_lt hn
  -- the state after the optional resize
  have mid : ∃ s1 : WStream, Prog.when (wrap64 (s.pos + bs.length) > s.dataSize) (resize (wrap64 (s.pos + bs.length))) s = .ok () s1 ∧
      s1.Good ∧ s1.content = s.content ++ List.replicate (s.pos + bs.length - s.dataSize) 0 ∧ s1.pos = s.pos ∧ s1.flip = s.flip ∧
      s1.dataSize = max s.dataSize (s.pos + bs.length) := by
    rw [hw]
    by_cases hc : s.pos + bs.length > s.dataSize
    · obtain ⟨s1, e, g, c, p, f, d⟩ := resize_ok h (Nat.le_of_lt hc) hn
      exact ⟨s1, by rw [Prog.when, if_pos hc, e], g, c, p, f, by omega⟩
    · refine ⟨s, by rw [Prog.when, if_neg hc]; rfl, h, ?_, rfl, rfl, by omega⟩
      have hz : s.pos + bs.length - s.dataSize = 0 := by omega
      simp [hz]
  obtain ⟨s1, e, g, c, p, f, d⟩ := mid
  have gl := g.mem_len
  have gs := g.size_le
  have gc := g.content_len
  have hm := g.mem_eq
  have c3 : ¬ s1.mem.length < s1.pos + bs.length := by omega
  have key := inv_of (s := { s1 with mem := s1.mem.take s1.pos ++ bs ++ s1.mem.drop (s1.pos + bs.length), pos := s.pos + bs.length })
      (c := s1.content.take s.pos ++ bs ++ s1.content.drop (s.pos + bs.length)) (z := s1.reserved - s1.dataSize)
      (by
        simp only [p]
        rw [hm, List.take_append_of_le_length (by omega), List.drop_append_of_le_length (by omega)]
        simp [List.append_assoc])
      (by simp; omega) (by simp; omega) (by simp; omega) g.res_lt
  refine ⟨_, ?_, ⟨key.1, g.alloc⟩, ?_, ?_, ?_, ?_⟩
  · simp only [writeRaw, Prog.bind_apply, Prog.get_apply]
    rw [e]
    simp only [hw]
    rw [if_neg c3]
    rfl
  · rw [file, key.2]
    simp only [Spec.File.write, file, f, c]
    congr 1
    rw [List.take_append_of_le_length (by omega)]
    congr 1
    rw [List.drop_append, List.drop_eq_nil_of_le (as := List.replicate _ _)]
    · simp
    · simp; omega
  · simp only [p]
    rw [List.append_assoc, List.drop_left' (by simp; omega)]
    congr 1
    rw [← List.append_assoc, List.drop_left' (by simp; omega)]
  · simp; omega
  · simp; omega

theorem writeRaw_runs {s : WStream} (h : s.Good) {bs : Bytes} (hn : s.pos + bs.length < 2 ^ 64) :
    Runs (writeRaw bs) s () (s.file.write bs) := by
  obtain ⟨s', e, g, f, _⟩ := writeRaw_ok h hn
  exact ⟨s', e, g, f⟩

theorem write_write (f : Spec.File) (a b : Bytes) (h : f.pos ≤ f.content.length) :
    (f.write a).write b = f.write (a ++ b) := by
  simp only [Spec.File.write, Spec.File.mk.injEq, List.length_append, and_true]
  refine ⟨?_, by omega⟩
  have h1 : (f.content.take f.pos ++ a).length = f.pos + a.length := by simp; omega
  have e1 : (f.content.take f.pos ++ a ++ f.content.drop (f.pos + a.length)).take (f.pos + a.length) =
      f.content.take f.pos ++ a := List.take_left' h1
  have e2 : (f.content.take f.pos ++ a ++ f.content.drop (f.pos + a.length)).drop (f.pos + a.length + b.length) =
      f.content.drop (f.pos + (a.length + b.length)) := by
    rw [← List.drop_drop, List.drop_left' h1, List.drop_drop, Nat.add_assoc]
  rw [e1, e2]
  simp only [List.append_assoc]

theorem file_write_pos (f : Spec.File) (a : Bytes) : (f.write a).pos = f.pos + a.length := rfl

theorem file_write_len (f : Spec.File) (a : Bytes) (h : f.pos ≤ f.content.length) :
    (f.write a).pos ≤ (f.write a).content.length := by
  simp [Spec.File.write]; omega

theorem file_write_nil (f : Spec.File) (h : f.pos ≤ f.content.length) : f.write [] = f := by
  cases f; simp [Spec.File.write]

theorem WStream.Good.file_pos {s : WStream} (h : s.Good) : s.file.pos ≤ s.file.content.length := by
  have := h.pos_le; have := h.content_len
  simp only [file]; omega

theorem flatMap_image_length {k : Nat} (ws : List (Word k)) : (ws.flatMap Word.image).length = ws.length * k := by
  induction ws with
  | nil => simp
  | cons w ws ih => rw [List.flatMap_cons, List.length_append, ih, Word.image_length, List.length_cons, Nat.succ_mul, Nat.add_comm]

/-- The words on the wire. -/
def wireWords (flip : Bool) {k : Nat} (ws : List (Word k)) : Bytes :=
  ws.flatMap fun w => Spec.number flip k w.toNat

theorem wireWords_false {k : Nat} (ws : List (Word k)) : wireWords false ws = ws.flatMap Word.image := by
  simp only [wireWords, Spec.number, lsbFirst_eq]; rfl

theorem wireWords_true {k : Nat} (ws : List (Word k)) :
    wireWords true ws = ((ws.map Word.image).map List.reverse).flatten := by
  simp only [wireWords, Spec.number, msbFirst_eq, if_true, List.map_map, List.flatMap_def]; rfl

@[simp] theorem wireWords_length (flip : Bool) {k : Nat} (ws : List (Word k)) : (wireWords flip ws).length = ws.length * k := by
  induction ws with
  | nil => simp [wireWords]
  | cons w ws ih =>
    rw [wireWords] at ih ⊢
    rw [List.flatMap_cons, List.length_append, ih, number_length, List.length_cons, Nat.succ_mul, Nat.add_comm]

theorem writeWords_runs {k : Nat} (hk : SwapWidth k) {s : WStream} (h : s.Good) (ws : List (Word k))
    (hn : s.pos + ws.length * k < 2 ^ 64) : Runs (writeWords ws) s () (s.file.write (wireWords s.flip ws)) := by
  have hlen := flatMap_image_length ws
  cases hf : s.flip with
  | false =>
    have := writeRaw_runs h (bs := ws.flatMap Word.image) (by rw [hlen]; exact hn)
    rw [wireWords_false]
    simp only [writeWords]
    refine Runs.get_bind ?_
    simpa [hf] using this
  | true =>
    obtain ⟨s1, e, g, f, hd, hm, hsz⟩ := writeRaw_ok h (bs := ws.flatMap Word.image) (by rw [hlen]; exact hn)
    have hp := h.pos_le
    have hcl := h.content_len
    have gcl := g.content_len
    rw [hlen] at hd hm hsz
    have e2 : swapByteOrder k (s1.mem.drop s.pos) ws.length = wireWords true ws ++ s1.mem.drop (s.pos + ws.length * k) := by
      have := swapByteOrder_flatMap k hk (ws.map Word.image) (by simp) (s1.mem.drop (s.pos + ws.length * k))
      rw [List.length_map] at this
      rw [hd, wireWords_true, ← this, List.flatMap_def]
    have hmem := g.mem_eq
    have hfile : s1.content = (s.file.write (ws.flatMap Word.image)).content := congrArg Spec.File.content f
    have hpos : s1.pos = (s.file.write (ws.flatMap Word.image)).pos := congrArg Spec.File.pos f
    have hflip : s1.flip = s.flip := congrArg Spec.File.flip f
    have hpos1 : s1.pos = s.pos + ws.length * k := by rw [hpos]; simp only [Spec.File.write, file, hlen]
    have gs := g.size_le
    have key := inv_of (s := { s1 with mem := s1.mem.take s.pos ++ swapByteOrder k (s1.mem.drop s.pos) ws.length })
      (c := s1.content.take s.pos ++ wireWords true ws ++ s1.content.drop (s.pos + ws.length * k)) (z := s1.reserved - s1.dataSize)
      (by
        simp only [e2]
        rw [hmem, List.take_append_of_le_length (by omega), List.drop_append_of_le_length (by omega)]
        simp [List.append_assoc])
      (by simp; omega) (by simp; omega) (by simp; omega) g.res_lt
    refine ⟨_, ?_, ⟨key.1, g.alloc⟩, ?_⟩
    · simp only [writeWords, Prog.bind_apply, Prog.get_apply, hf, if_true, e, swapAt]
      rw [if_neg (by omega)]
      rfl
    · rw [file, key.2]
      simp only [Spec.File.write, file, hflip, hf, hpos1, hfile, wireWords_length, hlen, Spec.File.mk.injEq, and_true]
      have e3 : (s.content.take s.pos).length = s.pos := by simp; omega
      have e4 : (s.content.take s.pos ++ ws.flatMap Word.image).length = s.pos + ws.length * k := by
        rw [List.length_append, e3, hlen]
      rw [List.drop_left' e4, List.append_assoc (List.take s.pos s.content) (ws.flatMap Word.image), List.take_left' e3]

theorem writeUUIDs_runs {s : WStream} (h : s.Good) (us : List UUID) (hn : s.pos + us.length * 16 < 2 ^ 64) :
    Runs (writeUUIDs us) s () (s.file.write (us.flatMap UUID.wire)) := by
  induction us generalizing s with
  | nil => 
    have := Runs.pure h ()
    rw [List.flatMap_nil, file_write_nil _ h.file_pos]
    exact this
  | cons u us ih =>
    simp only [List.length_cons, Nat.succ_mul] at hn
    refine Runs.bind (writeRaw_runs h (bs := u.wire) (by simp; omega)) ?_
    intro s1 g1 f1
    have hp : s1.pos = s.pos + 16 := by
      have := congrArg Spec.File.pos f1
      simpa [Spec.File.write, file] using this
    have := ih g1 (by omega)
    rw [f1, write_write _ _ _ h.file_pos] at this
    exact this

theorem scalars_w1 (flip : Bool) (l : List (Sc.Val .w1)) :
    Spec.scalars flip .w1 l = List.flatMap (Word.image (k := 1)) l := by
  simp only [Spec.scalars]
  congr 1
  funext w
  simp only [Spec.scalar, Spec.number, msbFirst_eq, lsbFirst_eq, Word.image, leBytes, List.reverse_singleton, ite_self]

theorem scalars_uuid (flip : Bool) (l : List (Sc.Val .uuid)) : Spec.scalars flip .uuid l = List.flatMap UUID.wire l := by
  simp only [Spec.scalars]
  congr 1
  funext u
  exact specUuid_eq u

theorem writeItems_runs {s : WStream} (h : s.Good) (sc : Sc) (l : List sc.Val) (hn : s.pos + l.length * sc.size < 2 ^ 64) :
    Runs (writeItems sc l) s () (s.file.write (Spec.scalars s.flip sc l)) := by
  cases sc with
  | w1 =>
    rw [scalars_w1]
    exact writeRaw_runs h (by
      have e : (List.flatMap (Word.image (k := 1)) l).length = l.length * 1 := flatMap_image_length (k := 1) l
      exact e ▸ hn)
  | w2 => exact writeWords_runs (k := 2) (Or.inl rfl) h l hn
  | w4 => exact writeWords_runs (k := 4) (Or.inr (Or.inl rfl)) h l hn
  | w8 => exact writeWords_runs (k := 8) (Or.inr (Or.inr rfl)) h l hn
  | uuid =>
    rw [scalars_uuid]
    exact writeUUIDs_runs h l hn
  | hash =>
    exact writeRaw_runs (bs := List.flatMap (fun h : Hash => h.digest.toList) l) h (by
      have e : (List.flatMap (fun h : Hash => h.digest.toList) l).length = l.length * 32 := scalars_length s.flip .hash l
      exact e ▸ hn)

end ISD
