import Verif.Proofs.ReadAny

/-! # C04-C07: `MemoryReadStream`, and values through both streams -/

namespace ISD

open RStream

/-! ## C04 -/

/-- One call on a `MemoryReadStream`. The destination of a read has room for the items asked for. -/
inductive ROp where
  | raw (n : Nat)
  | items (sc : Sc) (n : Nat)
  | seek (n : Nat)
  | flip (b : Bool)

/-- What a call returns: the bytes, the number of items, or the success flag. -/
inductive ROut where
  | bytes (bs : Bytes)
  | count (n : Nat)
  | flag (b : Bool)
  | unit
  deriving DecidableEq

/-- The call on the stream object. -/
def ROp.run : ROp → Prog RStream ROut
  | .raw n => do return .bytes (← readRaw n n)
  | .items sc n => do
    let r ← readItems sc n (List.replicate n sc.zero)
    return .count r.1
  | .seek n => do return .flag (← setPosition n)
  | .flip b => do setFlip b; return .unit

/-- The same call on a plain cursor over `data`: result and new cursor. -/
def ROp.spec (data : Bytes) (pos : Nat) : ROp → ROut × Nat
  | .raw n => (.bytes ((data.drop pos).take n), min (pos + n) data.length)
  | .items sc n => (.count (min n ((data.length - pos) / sc.size)), min (pos + n * sc.size) data.length)
  | .seek n => if n ≤ data.length then (.flag true, n) else (.flag false, pos)
  | .flip _ => (.unit, pos)

/-- The number of bytes asked for does not overflow. -/
def ROp.small : ROp → Prop
  | .raw n => n < 2 ^ 63
  | .items sc n => n * sc.size < 2 ^ 63
  | _ => True

/-- Run a list of calls, collecting what they return. -/
def runROps : List ROp → Prog RStream (List ROut)
  | [] => return []
  | op :: ops => do
    let o ← op.run
    let os ← runROps ops
    return o :: os

/-- The list of calls on the plain cursor. -/
def specROps (data : Bytes) : Nat → List ROp → List ROut × Nat
  | pos, [] => ([], pos)
  | pos, op :: ops =>
    let (o, p) := op.spec data pos
    let (os, p') := specROps data p ops
    (o :: os, p')

theorem rop_run (op : ROp) {s : RStream} (hs : s.size < 2 ^ 63) (hp : s.pos ≤ s.size) (hop : op.small) :
    ∃ fl, op.run s = .ok (op.spec s.data s.pos).1 ⟨s.data, (op.spec s.data s.pos).2, fl⟩ ∧ (op.spec s.data s.pos).2 ≤ s.size := by
  cases op with
  | raw n =>
    refine ⟨s.flip, ?_, Nat.min_le_right _ _⟩
    rw [ROp.run, Prog.bind_ok (readRaw_any hs hp hop (Nat.le_refl _))]
    rfl
  | items sc n =>
    obtain ⟨vals, e, -⟩ := readItems_any (dest := List.replicate n sc.zero) sc hs hp hop (by simp)
    refine ⟨s.flip, ?_, Nat.min_le_right _ _⟩
    rw [ROp.run, Prog.bind_ok e]
    rfl
  | seek n =>
    refine ⟨s.flip, ?_⟩
    by_cases h : n ≤ s.data.length
    · have h' : ¬ n > s.size := by unfold RStream.size; omega
      simp only [ROp.run, setPosition, ROp.spec, if_pos h, Prog.bind_apply, Prog.get_apply, if_neg h', Prog.set_apply,
        Prog.pure_apply, true_and]
      exact h
    · have h' : n > s.size := by unfold RStream.size; omega
      simp only [ROp.run, setPosition, ROp.spec, if_neg h, Prog.bind_apply, Prog.get_apply, if_pos h',
        Prog.pure_apply, true_and]
      exact hp
  | flip b => exact ⟨b, rfl, hp⟩

/-- **C04.** Any sequence of raw reads, typed reads, position changes and byte order changes on a stream behaves as a plain cursor:
every read returns exactly the next bytes there are (typed reads: the number of whole items there are), `SetPosition` past the end is
refused without effect, the buffer never changes and the cursor never passes its end. Nothing is undefined or throws. -/
theorem C04_read_stream_bounds (s : RStream) (hs : s.size < 2 ^ 63) (hp : s.pos ≤ s.size) (ops : List ROp)
    (hops : ∀ op ∈ ops, op.small) :
    ∃ s', runROps ops s = .ok (specROps s.data s.pos ops).1 s' ∧ s'.pos = (specROps s.data s.pos ops).2 ∧
      s'.data = s.data ∧ s'.pos ≤ s'.size := by
  induction ops generalizing s with
  | nil => exact ⟨s, rfl, rfl, rfl, hp⟩
  | cons op ops ih =>
    obtain ⟨fl, e, hp'⟩ := rop_run op hs hp (hops op (by simp))
    obtain ⟨s', e2, h1, h2, h3⟩ := ih ⟨s.data, (op.spec s.data s.pos).2, fl⟩ hs hp' (fun o ho => hops o (by simp [ho]))
    refine ⟨s', ?_, h1, h2, h3⟩
    rw [runROps, Prog.bind_ok e, Prog.bind_ok e2]
    rfl

/-- **C04.** `Peek` shows the next byte, or 0 at the end; `IsEOF` tells whether nothing is left. -/
theorem C04_peek_eof (s : RStream) :
    s.peek = ((s.data.drop s.pos).head?).getD 0 ∧ (s.isEOF = true ↔ s.data.drop s.pos = []) := by
  constructor
  · unfold peek
    split
    · rename_i h
      rw [List.drop_eq_nil_of_le h]; rfl
    · rw [List.head?_drop, List.getD_eq_getElem?_getD]
  · unfold isEOF
    rw [List.drop_eq_nil_iff, decide_eq_true_iff]
    rfl

example : specROps [1, 2, 3, 4, 5] 0 [.raw 2, .items .w2 2, .seek 9, .seek 1, .raw 9] =
    ([.bytes [1, 2], .count 1, .flag false, .flag true, .bytes [2, 3, 4, 5]], 5) := by decide

/-! ## C05-C07 -/

theorem file_write_has (f : Spec.File) (bs : Bytes) (h : f.pos ≤ f.content.length) : Has (f.write bs).content f.pos bs :=
  ⟨f.content.take f.pos, f.content.drop (f.pos + bs.length), rfl, by simp; omega⟩

/-- **C05.** Write any array of scalars of any kind at the current position of any healthy write stream (whatever it already contains,
in front or behind), then read the same number of items of the same kind at that position, with the same byte order setting: the read
returns the full count and the same values and stops right behind them. -/
theorem C05_scalar_round_trip (w : WStream) (hw : w.Good) (sc : Sc) (l : List sc.Val)
    (hfit : w.pos + l.length * sc.size < 2 ^ 60) (hsize : w.dataSize < 2 ^ 60) (dest : List sc.Val) (hd : dest.length = l.length) :
    ∃ w', WStream.writeItems sc l w = .ok () w' ∧ w'.flip = w.flip ∧
      readItems sc l.length dest ⟨w'.content, w.pos, w.flip⟩ =
        .ok (l.length, l) ⟨w'.content, w.pos + l.length * sc.size, w.flip⟩ := by
  obtain ⟨w', e, g, f⟩ := writeItems_runs hw sc l (by omega)
  have hc : w'.content = (w.file.write (Spec.scalars w.flip sc l)).content := congrArg Spec.File.content f
  refine ⟨w', e, congrArg Spec.File.flip f, readItems_has sc l dest ?_ ?_ _ rfl hd⟩
  · have h1 := hw.content_len
    have h2 := hw.pos_le
    rw [Small, hc]
    simp only [Spec.File.write, WStream.file, List.length_append, List.length_take, List.length_drop, scalars_length]
    omega
  · rw [hc]
    exact file_write_has w.file _ hw.file_pos

/-- `b` is `a` with the order of its `k` bytes reversed. -/
def Spec.BytesReversed (k a b : Nat) : Prop := Spec.lsbFirst k b = Spec.msbFirst k a

/-- The word with reversed bytes. -/
def Word.byteRev {k : Nat} (w : Word k) : Word k := Word.ofImage k w.image.reverse

theorem byteRev_spec {k : Nat} (w : Word k) : Spec.BytesReversed k w.toNat w.byteRev.toNat := by
  rw [Spec.BytesReversed, lsbFirst_eq, msbFirst_eq]
  have := Word.image_ofImage (k := k) w.image.reverse (by simp)
  exact this

theorem number_byteRev {k : Nat} (fl : Bool) (w : Word k) :
    Spec.number (!fl) k w.toNat = Spec.number fl k w.byteRev.toNat := by
  have h := byteRev_spec w
  rw [Spec.BytesReversed] at h
  cases fl with
  | false => simp only [Spec.number, Bool.not_false, if_true, Bool.false_eq_true, if_false, h]
  | true =>
    simp only [Spec.number, Bool.not_true, if_true, Bool.false_eq_true, if_false]
    rw [Spec.msbFirst, h, Spec.msbFirst, List.reverse_reverse]

theorem wireWords_byteRev {k : Nat} (fl : Bool) (ws : List (Word k)) :
    wireWords (!fl) ws = wireWords fl (ws.map Word.byteRev) := by
  simp only [wireWords, List.flatMap_map, number_byteRev]

/-- **C06.** The bytes of a scalar array in the file: with `FlipByteOrder` off each `k`-byte scalar stands least significant byte first,
with it on most significant byte first. -/
theorem C06_wire_order (k : Nat) (hk : k = 2 ∨ k = 4 ∨ k = 8) (w : WStream) (hw : w.Good) (ws : List (Word k))
    (hfit : w.pos + ws.length * k < 2 ^ 64) :
    ∃ w', WStream.writeWords ws w = .ok () w' ∧
      (w'.content.drop w.pos).take (ws.length * k) =
        ws.flatMap (fun x => if w.flip then Spec.msbFirst k x.toNat else Spec.lsbFirst k x.toNat) := by
  obtain ⟨w', e, g, f⟩ := writeWords_runs hk hw ws hfit
  have hc : w'.content = (w.file.write (wireWords w.flip ws)).content := congrArg Spec.File.content f
  refine ⟨w', e, ?_⟩
  have := (file_write_has w.file (wireWords w.flip ws) hw.file_pos).take
  rw [wireWords_length] at this
  rw [hc]
  exact this

/-- **C06.** All four combinations of settings: the reader gets the values themselves when its setting is the writer's, and otherwise
exactly the values with their bytes reversed. -/
theorem C06_cross_flip (k : Nat) (hk : k = 2 ∨ k = 4 ∨ k = 8) (w : WStream) (hw : w.Good) (ws : List (Word k))
    (hfit : w.pos + ws.length * k < 2 ^ 60) (hsize : w.dataSize < 2 ^ 60) (dest : List (Word k)) (hd : dest.length = ws.length)
    (readerFlip : Bool) :
    ∃ w' out, WStream.writeWords ws w = .ok () w' ∧
      readWords ws.length dest ⟨w'.content, w.pos, readerFlip⟩ =
        .ok (ws.length, out) ⟨w'.content, w.pos + ws.length * k, readerFlip⟩ ∧
      out.length = ws.length ∧
      (readerFlip = w.flip → out = ws) ∧
      (readerFlip ≠ w.flip → ∀ i (h1 : i < ws.length) (h2 : i < out.length),
        Spec.BytesReversed k ws[i].toNat out[i].toNat) := by
  obtain ⟨w', e, g, f⟩ := writeWords_runs hk hw ws (by omega)
  have hc : w'.content = (w.file.write (wireWords w.flip ws)).content := congrArg Spec.File.content f
  have hh : Has w'.content w.pos (wireWords w.flip ws) := by rw [hc]; exact file_write_has w.file _ hw.file_pos
  have hsm : Small w'.content := by
    have h1 := hw.content_len
    have h2 := hw.pos_le
    rw [Small, hc]
    simp only [Spec.File.write, WStream.file, List.length_append, List.length_take, List.length_drop, wireWords_length]
    omega
  by_cases hf : readerFlip = w.flip
  · subst hf
    exact ⟨w', ws, e, readWords_has hk ws dest hsm hh hd, rfl, fun _ => rfl, fun h => absurd rfl h⟩
  · have hn : w.flip = !readerFlip := by cases h1 : w.flip <;> cases h2 : readerFlip <;> simp_all
    rw [hn, wireWords_byteRev] at hh
    have hlen : (ws.map Word.byteRev).length = ws.length := by simp
    have := readWords_has hk (ws.map Word.byteRev) dest hsm hh (by simpa using hd)
    rw [hlen] at this
    refine ⟨w', ws.map Word.byteRev, e, this, hlen, fun h => absurd h hf, ?_⟩
    intro _ i h1 h2
    rw [List.getElem_map]
    exact byteRev_spec _

/-- **C07.** The 16 bytes in the file for each uuid are its hex digits in printed order (`Spec.uuid`, tied to the printed form by
`C09_uuid`), the 32 bytes for a hash its digest bytes in order, whatever the `FlipByteOrder` setting of the writer. -/
theorem C07_stored_in_printed_order (w : WStream) (hw : w.Good) (us : List UUID) (hs : List Hash)
    (hfu : w.pos + us.length * 16 < 2 ^ 64) (hfh : w.pos + hs.length * 32 < 2 ^ 64) :
    (∃ w', WStream.writeItems .uuid us w = .ok () w' ∧
      (w'.content.drop w.pos).take (us.length * 16) = us.flatMap Spec.uuid) ∧
    (∃ w', WStream.writeItems .hash hs w = .ok () w' ∧
      (w'.content.drop w.pos).take (hs.length * 32) = hs.flatMap fun h => h.digest.toList) := by
  constructor
  · obtain ⟨w', e, g, f⟩ := writeItems_runs hw .uuid us hfu
    have hc : w'.content = (w.file.write (Spec.scalars w.flip .uuid us)).content := congrArg Spec.File.content f
    have := (file_write_has w.file (Spec.scalars w.flip .uuid us) hw.file_pos).take
    rw [scalars_length] at this
    exact ⟨w', e, by rw [hc]; exact this⟩
  · obtain ⟨w', e, g, f⟩ := writeItems_runs hw .hash hs hfh
    have hc : w'.content = (w.file.write (Spec.scalars w.flip .hash hs)).content := congrArg Spec.File.content f
    have := (file_write_has w.file (Spec.scalars w.flip .hash hs) hw.file_pos).take
    rw [scalars_length] at this
    exact ⟨w', e, by rw [hc]; exact this⟩

/-- **C07.** uuids and hashes read back unchanged under every combination of writer and reader settings. -/
theorem C07_any_flip (w : WStream) (hw : w.Good) (sc : Sc) (hsc : sc = .uuid ∨ sc = .hash) (l : List sc.Val)
    (hfit : w.pos + l.length * sc.size < 2 ^ 60) (hsize : w.dataSize < 2 ^ 60) (dest : List sc.Val) (hd : dest.length = l.length)
    (readerFlip : Bool) :
    ∃ w', WStream.writeItems sc l w = .ok () w' ∧
      readItems sc l.length dest ⟨w'.content, w.pos, readerFlip⟩ =
        .ok (l.length, l) ⟨w'.content, w.pos + l.length * sc.size, readerFlip⟩ := by
  obtain ⟨w', e, g, f⟩ := writeItems_runs hw sc l (by omega)
  have hfl : Spec.scalars w.flip sc l = Spec.scalars readerFlip sc l := by
    rcases hsc with rfl | rfl <;> rfl
  have hc : w'.content = (w.file.write (Spec.scalars readerFlip sc l)).content := by
    rw [← hfl]; exact congrArg Spec.File.content f
  refine ⟨w', e, readItems_has sc l dest ?_ ?_ _ rfl hd⟩
  · have h1 := hw.content_len
    have h2 := hw.pos_le
    rw [Small, hc]
    simp only [Spec.File.write, WStream.file, List.length_append, List.length_take, List.length_drop, scalars_length]
    omega
  · rw [hc]
    exact file_write_has w.file _ hw.file_pos

/-- The hypotheses are met by every stream fresh from the constructor. -/
example : ∃ w : WStream, w.Good ∧ w.pos + 3 * 16 < 2 ^ 60 ∧ w.dataSize < 2 ^ 60 :=
  ⟨{ mem := [0], dataSize := 0, pos := 0, reserved := 1, flip := true, allocOk := fun _ _ => true, allocNo := 1 },
    ⟨⟨rfl, by decide, by decide, by decide, rfl⟩, fun _ _ => rfl⟩, by decide, by decide⟩

end ISD
