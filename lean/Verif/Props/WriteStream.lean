import Verif.Proofs.WriteStreamOps

/-! # C01, C02, C03: `MemoryWriteStream` as a byte file -/

namespace ISD

open WStream

/-- One call on a `MemoryWriteStream`. -/
inductive WOp where
  | write (sc : Sc) (l : List sc.Val)
  | raw (bs : Bytes)
  | seek (n : Nat)
  | flip (b : Bool)

/-- The call on the stream object. -/
def WOp.run : WOp → Prog WStream Unit
  | .write sc l => writeItems sc l
  | .raw bs => writeRaw bs
  | .seek n => setPosition n
  | .flip b => setFlip b

/-- The same call on a plain byte file. -/
def WOp.onFile : WOp → Spec.File → Spec.File
  | .write sc l, f => f.write (Spec.scalars f.flip sc l)
  | .raw bs, f => f.write bs
  | .seek n, f => f.seek n
  | .flip b, f => { f with flip := b }

/-- A sequence of calls on the stream object. -/
def runOps : List WOp → Prog WStream Unit
  | [] => pure ()
  | op :: ops => do op.run; runOps ops

/-- A sequence of calls on a plain byte file. -/
def opsOnFile (ops : List WOp) (f : Spec.File) : Spec.File := ops.foldl (fun f op => op.onFile f) f

/-- All positions reached stay below `2^64`: the file does not outgrow the address space. -/
def Fits : List WOp → Spec.File → Prop
  | [], _ => True
  | op :: ops, f => (op.onFile f).pos < 2 ^ 64 ∧ Fits ops (op.onFile f)

theorem op_runs (op : WOp) {s : WStream} (h : s.Good) (hn : (op.onFile s.file).pos < 2 ^ 64) :
    Runs op.run s () (op.onFile s.file) := by
  cases op with
  | write sc l => exact writeItems_runs h sc l (by simpa [WOp.onFile, Spec.File.write, WStream.file] using hn)
  | raw bs => exact writeRaw_runs h hn
  | seek n => exact setPosition_runs h hn
  | flip b => exact ⟨_, rfl, ⟨⟨h.mem_len, h.size_le, h.pos_le, h.res_lt, h.zero⟩, h.alloc⟩, rfl⟩

theorem ops_runs (ops : List WOp) {s : WStream} (h : s.Good) (hf : Fits ops s.file) :
    Runs (runOps ops) s () (opsOnFile ops s.file) := by
  induction ops generalizing s with
  | nil => exact Runs.pure h ()
  | cons op ops ih =>
    refine Runs.bind (op_runs op h hf.1) ?_
    intro s1 g1 f1
    have := ih g1 (by rw [f1]; exact hf.2)
    rw [f1] at this
    exact this

/-- **C01.** A stream made by the constructor and driven by any sequence of writes (raw or typed), position changes and byte order
changes ends with the size, position and bytes of a plain byte file driven by the same calls; no call throws or is undefined. -/
theorem C01_write_stream_is_byte_file (alloc : Nat → Nat → Bool) (halloc : ∀ n r, alloc n r = true)
    (initial : Nat) (h0 : 0 < initial) (h : initial < 2 ^ 64) (ops : List WOp) (hf : Fits ops ⟨[], 0, false⟩) :
    ∃ s s', create alloc initial = .ok () s ∧ runOps ops s = .ok () s' ∧
      s'.content = (opsOnFile ops ⟨[], 0, false⟩).content ∧
      s'.pos = (opsOnFile ops ⟨[], 0, false⟩).pos ∧
      s'.dataSize = (opsOnFile ops ⟨[], 0, false⟩).content.length := by
  obtain ⟨s, e, g, f⟩ := create_ok alloc halloc initial h0 h
  obtain ⟨s', e', g', f'⟩ := ops_runs ops g (by rw [f]; exact hf)
  rw [f] at f'
  refine ⟨s, s', e, e', congrArg Spec.File.content f', congrArg Spec.File.pos f', ?_⟩
  rw [← g'.content_len]
  exact congrArg (fun f => f.content.length) f'

/-- Also from any reachable stream. -/
theorem C01_from_any_state (s : WStream) (h : s.Good) (ops : List WOp) (hf : Fits ops s.file) :
    ∃ s', runOps ops s = .ok () s' ∧ s'.file = opsOnFile ops s.file ∧ s'.Good := by
  obtain ⟨s', e, g, f⟩ := ops_runs ops h hf
  exact ⟨s', e, f, g⟩

example : Fits [.write .w4 [(0x01020304#32 : Word 4), (5#32 : Word 4)], .seek 2, .raw [9], .seek 20, .flip true,
    .write .w2 [(0x0102#16 : Word 2)]] ⟨[], 0, false⟩ := by
  simp [Fits, WOp.onFile, Spec.File.write, Spec.File.seek, Spec.scalars, Spec.scalar]

example : (opsOnFile [.write .w4 [(0x01020304#32 : Word 4), (5#32 : Word 4)], .seek 2, .raw [9], .seek 10, .flip true,
    .write .w2 [(0x0102#16 : Word 2)]] ⟨[], 0, false⟩).content = [4, 3, 9, 1, 5, 0, 0, 0, 0, 0, 1, 2] := by decide

/-- **C02.** The initial reservation is invisible: two streams created with different sizes and given the same calls expose the same
bytes, size and position; neither run touches memory outside its allocation (it would be `Res.ub`). -/
theorem C02_growth_invisible (alloc1 alloc2 : Nat → Nat → Bool) (ha1 : ∀ n r, alloc1 n r = true)
    (ha2 : ∀ n r, alloc2 n r = true) (n1 n2 : Nat) (h1 : 0 < n1 ∧ n1 < 2 ^ 64) (h2 : 0 < n2 ∧ n2 < 2 ^ 64)
    (ops : List WOp) (hf : Fits ops ⟨[], 0, false⟩) :
    ∃ s1 s2 t1 t2, create alloc1 n1 = .ok () s1 ∧ create alloc2 n2 = .ok () s2 ∧
      runOps ops s1 = .ok () t1 ∧ runOps ops s2 = .ok () t2 ∧
      t1.content = t2.content ∧ t1.dataSize = t2.dataSize ∧ t1.pos = t2.pos ∧
      t1.dataSize ≤ t1.mem.length ∧ t2.dataSize ≤ t2.mem.length := by
  obtain ⟨s1, e1, g1, f1⟩ := create_ok alloc1 ha1 n1 h1.1 h1.2
  obtain ⟨s2, e2, g2, f2⟩ := create_ok alloc2 ha2 n2 h2.1 h2.2
  obtain ⟨t1, r1, k1, q1⟩ := ops_runs ops g1 (by rw [f1]; exact hf)
  obtain ⟨t2, r2, k2, q2⟩ := ops_runs ops g2 (by rw [f2]; exact hf)
  rw [f1] at q1
  rw [f2] at q2
  have q := q1.trans q2.symm
  refine ⟨s1, s2, t1, t2, e1, e2, r1, r2, congrArg Spec.File.content q, ?_, congrArg Spec.File.pos q, ?_, ?_⟩
  · rw [← k1.content_len, ← k2.content_len]; exact congrArg (fun f => f.content.length) q
  · rw [k1.mem_len]; exact k1.size_le
  · rw [k2.mem_len]; exact k2.size_le

/-- **C03 (negation).** The full property is false: `ReserveForSize` records the new reservation before the allocation succeeds, so
after a `bad_alloc` the next write of the same size skips the allocation and copies outside the old block. Here: a one byte stream, the
write of two bytes throws, the same write again is undefined behaviour. -/
theorem C03_write_after_bad_alloc_is_ub :
    ∃ alloc s s', create alloc 1 = .ok () s ∧ writeRaw [1, 2] s = .throw s' ∧ writeRaw [1, 2] s' = .ub := by
  refine ⟨fun n _ => n == 0, _, _, rfl, rfl, rfl⟩

/-- The bytes a call sends to the file (`seek` and `flip` send none). -/
def WOp.bytes (fl : Bool) : WOp → Bytes
  | .write sc l => Spec.scalars fl sc l
  | .raw bs => bs
  | _ => []

/-- **C03 (partial).** What does hold, for every allocator: a call on a stream that has seen no failed allocation is never undefined;
it completes as on a file, or it throws and leaves the file as it was apart from some first part of the call's own bytes (nothing at all
unless the call writes an array of uuids, which go one by one). Missing: safety of later calls, which is false. -/
theorem C03_bad_alloc_partial (s : WStream) (h : s.Inv) (op : WOp) (hn : (op.onFile s.file).pos < 2 ^ 64) :
    (∃ s', op.run s = .ok () s' ∧ s'.Inv ∧ s'.file = op.onFile s.file) ∨
    (∃ s' n, op.run s = .throw s' ∧ n ≤ (op.bytes s.flip).length ∧
      s'.file = s.file.write ((op.bytes s.flip).take n)) := by
  cases op with
  | write sc l =>
    rcases writeItems_attempt h sc l (by simpa [WOp.onFile, Spec.File.write, WStream.file] using hn) with
      ⟨s', e, i, f, a⟩ | h'
    · exact .inl ⟨s', e, i, f⟩
    · exact .inr h'
  | raw bs =>
    rcases writeRaw_attempt h (bs := bs) hn with ⟨s', e, i, f, a⟩ | h'
    · exact .inl ⟨s', e, i, f⟩
    · exact .inr h'
  | seek n =>
    rcases (setPosition_sim h).inv (setPosition_runs h.lucky (n := n) hn) with ⟨s', e, hd⟩ | ⟨s', e, i, f, a⟩
    · refine .inr ⟨s', 0, e, Nat.le_refl _, ?_⟩
      rw [hd.file]
      exact (file_write_nil _ (Inv.file_pos h)).symm
    · exact .inl ⟨s', e, i, f⟩
  | flip b => exact .inl ⟨_, rfl, ⟨h.mem_len, h.size_le, h.pos_le, h.res_lt, h.zero⟩, rfl⟩

/-- The sequence form: with any allocator, up to the first failure every call behaves as on the file and nothing is undefined. -/
theorem C03_until_first_failure_partial (alloc : Nat → Nat → Bool) (initial : Nat) (h0 : 0 < initial) (h : initial < 2 ^ 64)
    (ops : List WOp) (hf : Fits ops ⟨[], 0, false⟩) :
    (∃ s', create alloc initial = .throw s') ∨
    ∃ s, create alloc initial = .ok () s ∧
      ((∃ s', runOps ops s = .ok () s' ∧ s'.file = opsOnFile ops ⟨[], 0, false⟩) ∨
       (∃ done op rest s' n, ops = done ++ op :: rest ∧ runOps ops s = .throw s' ∧
        n ≤ (op.bytes (opsOnFile done ⟨[], 0, false⟩).flip).length ∧
        s'.file = (opsOnFile done ⟨[], 0, false⟩).write
          ((op.bytes (opsOnFile done ⟨[], 0, false⟩).flip).take n))) := by
  have main : ∀ (ops : List WOp) (s : WStream), s.Inv → Fits ops s.file →
      ((∃ s', runOps ops s = .ok () s' ∧ s'.file = opsOnFile ops s.file) ∨
       (∃ done op rest s' n, ops = done ++ op :: rest ∧ runOps ops s = .throw s' ∧
        n ≤ (op.bytes (opsOnFile done s.file).flip).length ∧
        s'.file = (opsOnFile done s.file).write ((op.bytes (opsOnFile done s.file).flip).take n))) := by
    intro ops
    induction ops with
    | nil => intro s _ _; exact .inl ⟨s, rfl, rfl⟩
    | cons op ops ih =>
      intro s hi hf
      rcases C03_bad_alloc_partial s hi op hf.1 with ⟨s1, e, i, f⟩ | ⟨s1, n, e, hn, f⟩
      · rcases ih s1 i (by rw [f]; exact hf.2) with ⟨s2, e2, f2⟩ | ⟨done, op', rest, s2, n, e1, e2, hn, f2⟩
        · refine .inl ⟨s2, ?_, by rw [f2, f]; rfl⟩
          rw [runOps, Prog.bind_ok e, e2]
        · rw [f] at hn f2
          refine .inr ⟨op :: done, op', rest, s2, n, by rw [e1]; rfl, ?_, hn, f2⟩
          rw [runOps, Prog.bind_ok e, e2]
      · exact .inr ⟨[], op, ops, s1, n, rfl, by rw [runOps, Prog.bind_throw e], hn, f⟩
  let s0 : WStream := { mem := [], dataSize := 0, pos := 0, reserved := 0, flip := false, allocOk := alloc, allocNo := 0 }
  have hi : s0.Inv := ⟨rfl, Nat.le_refl _, Nat.le_refl _, Nat.two_pow_pos 64, rfl⟩
  rcases reserve_sim hi (n := initial) h0 with ⟨s', e, _⟩ | ⟨t, e1, e2⟩
  · exact .inl ⟨s', e⟩
  · obtain ⟨s, es, gs, fs⟩ := create_ok (fun _ _ => true) (fun _ _ => rfl) initial h0 h
    have : t = s := by
      have e3 : reserveForSize initial s0.lucky = .ok () s := es
      rw [e1] at e3; cases e3; rfl
    subst this
    refine .inr ⟨_, e2, ?_⟩
    have hi2 : ({ t with allocOk := alloc } : WStream).Inv := ⟨gs.mem_len, gs.size_le, gs.pos_le, gs.res_lt, gs.zero⟩
    have hf2 : ({ t with allocOk := alloc } : WStream).file = ⟨[], 0, false⟩ := fs
    have := main ops _ hi2 (by rw [hf2]; exact hf)
    rw [hf2] at this
    exact this

example : ∃ alloc s, create alloc 4 = .ok () s ∧ s.Inv ∧ alloc 1 8 = false := by
  obtain ⟨s, e, g, f⟩ := create_ok (fun _ _ => true) (fun _ _ => rfl) 4 (by decide) (by decide)
  exact ⟨fun n _ => n == 0, _, rfl, ⟨rfl, by decide, by decide, by decide, rfl⟩, rfl⟩

end ISD
