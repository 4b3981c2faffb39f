import Verif.Proofs.AppendOnly

/-!
# C66: a writer does not touch what was written before it

Any calls on an `EntityWriter` and on the writers of its open sections, in any order, accepted or refused.
-/

namespace ISD

open WStream

/-- A stream as its own operations keep it, on a machine that gives out no block of 2^63 bytes or more. An allocation may fail at any time. -/
structure InOrder (s : WStream) : Prop where
  mem_len : s.mem.length = s.reserved
  size_le : s.dataSize ≤ s.reserved
  pos_le : s.pos ≤ s.dataSize
  res_lt : s.reserved < 2 ^ 63
  alloc : ∀ k m, s.allocOk k m = true → m < 2 ^ 63

/-- The states a program can get to by calls that return, accepted or not. -/
inductive ReachedBy (st : WSt) : List (WriterCall × Bool) → WSt → Prop where
  | start : ReachedBy st [] st
  | call {history : List (WriterCall × Bool)} {st1 st2 : WSt} {c : WriterCall} {b : Bool} (before : ReachedBy st history st1) (sound : c.Sound st1.1)
      (run : c.run st1 = .ok b st2) : ReachedBy st (history ++ [(c, b)]) st2

theorem InOrder.fine {s : WStream} (h : InOrder s) : Fine s.pos (s.mem.take s.pos) s :=
  ⟨h.mem_len, h.size_le, h.pos_le, Nat.le_refl _, h.res_lt, h.alloc, rfl⟩

theorem Fine.inOrder {n : Nat} {c : Bytes} {s : WStream} (h : Fine n c s) : InOrder s := ⟨h.mem_len, h.size_le, h.pos_le, h.res_lt, h.alloc⟩

theorem still_prefix {s s' : WStream} (h : Still s.pos (s.mem.take s.pos) s') (hn : s.pos ≤ s.dataSize) :
    s.content.take s.pos <+: s'.content := by
  have e : s.content.take s.pos = s.mem.take s.pos := by rw [content, List.take_take, show min s.pos s.dataSize = s.pos by omega]
  rw [e, ← h.2, content]
  exact List.take_prefix_take_left h.1

theorem idle_above {w : EWriter} (h : w.Idle) (n : Nat) : Above n w :=
  .mk _ (fun e => absurd h.index e) (fun sub e => by rw [h.sub] at e; cases e) (fun sub e => by rw [h.sub] at e; cases e)

theorem reachedBy_kept {st st' : WSt} {history : List (WriterCall × Bool)} (h : ReachedBy st history st') {n : Nat} {c : Bytes} (h1 : Above n st.1)
    (h2 : Fine n c st.2) : Above n st'.1 ∧ Fine n c st'.2 := by
  induction h with
  | start => exact ⟨h1, h2⟩
  | call _ sound run ih =>
    have := kept_run _ sound ih.1 ih.2
    rw [run] at this
    exact ⟨this.1, this.2.1⟩

/-- **C66** (partial). Take a writer with nothing open on a stream that already has contents. Whatever calls are made on it and on the
writers of the sections it opens, in whatever order and with whatever arguments, and whichever of them are refused: the bytes in front of
the position where it started are as they were, and the stream is in order. The next call, too, either returns or fails an allocation,
and in both cases those bytes are as they were; it is never undefined. Excepted (`WriterCall.Sound`) are calls through a null pointer when
no section is open, and `EndWriteSectionInArray` with the index 2^64-1. -/
theorem C66_earlier_bytes_stay_partial {w : EWriter} {s : WStream} (hw : w.Idle) (hs : InOrder s) {history : List (WriterCall × Bool)} {st : WSt}
    (h : ReachedBy (w, s) history st) :
    InOrder st.2 ∧ s.content.take s.pos <+: st.2.content ∧
    ∀ c : WriterCall, c.Sound st.1 →
      (∃ b st', c.run st = .ok b st' ∧ InOrder st'.2 ∧ s.content.take s.pos <+: st'.2.content) ∨
      (∃ st', c.run st = .throw st' ∧ s.content.take s.pos <+: st'.2.content) := by
  obtain ⟨a, f⟩ := reachedBy_kept h (idle_above hw s.pos) hs.fine
  refine ⟨f.inOrder, still_prefix f.still hs.pos_le, fun c hc => ?_⟩
  have := kept_run c hc a f
  revert this
  cases c.run st with
  | ok b st' => exact fun k => .inl ⟨b, st', rfl, k.2.1.inOrder, still_prefix k.2.1.still hs.pos_le⟩
  | throw st' => exact fun k => .inr ⟨st', rfl, still_prefix k hs.pos_le⟩
  | ub => exact fun k => k.elim

/-- **C66**, second part (partial). What is complete stays: once the writer has nothing open any more, the bytes in front of the position
are final, whatever is called afterwards. -/
theorem C66_finished_bytes_stay_partial {w : EWriter} {s : WStream} (hw : w.Idle) (hs : InOrder s) {history later : List (WriterCall × Bool)}
    {st st' : WSt} (h : ReachedBy (w, s) history st) (hidle : st.1.Idle) (h' : ReachedBy st later st') :
    st.2.content.take st.2.pos <+: st'.2.content :=
  (C66_earlier_bytes_stay_partial (w := st.1) (s := st.2) hidle (C66_earlier_bytes_stay_partial hw hs h).1 h').2.1

/-! ## The excepted call -/

/-- A stream on a machine that gives out blocks below 2^63 bytes, with ten bytes in it. -/
def tenBytes : WStream :=
  { mem := [1, 2, 3, 4, 5, 6, 7, 8, 9, 10, 0, 0], dataSize := 10, pos := 10, reserved := 12, flip := false, allocOk := fun _ m => decide (m < 2 ^ 63), allocNo := 1 }

theorem tenBytes_inOrder : InOrder tenBytes := ⟨rfl, by decide, by decide, by decide, fun _ _ h => of_decide_eq_true h⟩

/-- **C66** is false for the excepted call: a fresh writer accepts `EndWriteSectionInArray( nullptr, 2^64-1 )`, although no array was ever
begun, and overwrites the first eight bytes of the stream. -/
theorem C66_false_for_last_index :
    tenBytes.content = [1, 2, 3, 4, 5, 6, 7, 8, 9, 10] ∧
    ∃ st, (WriterCall.endElement none (2 ^ 64 - 1)).run (EWriter.create 1 10, tenBytes) = .ok true st ∧
      st.2.content = [2, 0, 0, 0, 0, 0, 0, 0, 9, 10] := by
  have h : (match (WriterCall.endElement none (2 ^ 64 - 1)).run (EWriter.create 1 10, tenBytes) with
    | .ok b st => some (b, st.2.content)
    | _ => none) = some (true, [2, 0, 0, 0, 0, 0, 0, 0, 9, 10]) := by decide +kernel
  refine ⟨rfl, ?_⟩
  revert h
  cases (WriterCall.endElement none (2 ^ 64 - 1)).run (EWriter.create 1 10, tenBytes) with
  | ok b st => intro h; simp only [Option.some.injEq, Prod.mk.injEq] at h; exact ⟨st, by rw [h.1], h.2⟩
  | throw st => nofun
  | ub => nofun

/-! The hypotheses are met by a history with refused calls, nested sections and an array. -/

/-- Calls on a writer and on the writers of its sections. -/
def demoHistory : List WriterCall :=
  [.beginSection 2 [0x61], .beginSection 3 [0x62], .inner (.write boolType .none [0x63] true), .inner (.beginArray 4 [0x64] 1 none),
   .inner (.beginElement (some 4) 1), .inner (.beginElement (some 4) 0), .inner (.inner (.nullSection 5 [0x65])), .inner (.endElement (some 4) 0),
   .endSection none, .inner (.endArray (some 4)), .endSection (some 2), .endArray (some 2)]

/-- Whether a call is sound can be computed. -/
def soundDecidable : (c : WriterCall) → (w : EWriter) → Decidable (c.Sound w)
  | .beginSection _ key, _ => inferInstanceAs (Decidable (key.length ≤ 255))
  | .endSection ptr, w => inferInstanceAs (Decidable (ptr.isSome ∨ w.activeSubsection.isSome))
  | .nullSection _ key, _ => inferInstanceAs (Decidable (key.length ≤ 255))
  | .beginArray _ key _ index, _ => inferInstanceAs (Decidable (key.length ≤ 255 ∧ index.elim 0 (fun l => 8 + l.length * 4) < 2 ^ 63))
  | .beginElement .., _ => inferInstanceAs (Decidable True)
  | .endElement _ i, _ => inferInstanceAs (Decidable (i ≠ 2 ^ 64 - 1))
  | .endArray ptr, w => inferInstanceAs (Decidable (ptr.isSome ∨ w.activeSubsection.isSome))
  | .nullArray _ key, _ => inferInstanceAs (Decidable (key.length ≤ 255))
  | .write t c key v, _ => inferInstanceAs (Decidable ((Spec.typed false t c key v).length < 2 ^ 63))
  | .inner call, w =>
    match hs : w.activeSubsection with
    | none => .isFalse fun ⟨_, h, _⟩ => by rw [hs] at h; cases h
    | some sub =>
      match soundDecidable call sub with
      | .isTrue h => .isTrue ⟨sub, hs, h⟩
      | .isFalse h => .isFalse fun ⟨s, e, k⟩ => h (by rw [hs] at e; cases e; exact k)

instance (c : WriterCall) (w : EWriter) : Decidable (c.Sound w) := soundDecidable c w

/-- Make the calls, if they are sound and return. -/
def soundRun : List WriterCall → WSt → Option (List Bool × WSt)
  | [], st => some ([], st)
  | c :: cs, st =>
    if c.Sound st.1 then
      match c.run st with
      | .ok b st' => (soundRun cs st').map fun r => (b :: r.1, r.2)
      | _ => none
    else none

theorem soundRun_reached {st0 : WSt} : ∀ (cs : List WriterCall) (st : WSt) (r : List Bool × WSt) (history : List (WriterCall × Bool)),
    ReachedBy st0 history st → soundRun cs st = some r → ReachedBy st0 (history ++ cs.zip r.1) r.2
  | [], st, r, history, h, e => by cases e; rw [List.zip_nil_left, List.append_nil]; exact h
  | c :: cs, st, r, history, h, e => by
    rw [soundRun] at e
    split at e
    · rename_i hsound
      split at e
      · rename_i b st' he
        cases hr : soundRun cs st' with
        | none => rw [hr] at e; cases e
        | some r' =>
          rw [hr] at e
          cases e
          have := soundRun_reached cs st' r' _ (h.call hsound he) hr
          rw [List.append_assoc] at this
          exact this
      · cases e
    · cases e

theorem demoHistory_run : (soundRun demoHistory (EWriter.create 1 10, tenBytes)).map (fun r => (r.1, r.2.1.subPtr, r.2.2.content.take 10, r.2.2.content.length)) =
    some ([true, false, true, true, false, true, true, true, false, true, true, false], none, [1, 2, 3, 4, 5, 6, 7, 8, 9, 10], 65) := by decide +kernel

example : ∃ history st, history.length = 12 ∧ history.map Prod.snd = [true, false, true, true, false, true, true, true, false, true, true, false] ∧
    ReachedBy (EWriter.create 1 10, tenBytes) history st ∧ st.2.content.length = 65 := by
  have h := demoHistory_run
  cases hr : soundRun demoHistory (EWriter.create 1 10, tenBytes) with
  | none => rw [hr] at h; cases h
  | some r =>
    rw [hr, Option.map_some, Option.some.injEq, Prod.mk.injEq] at h
    refine ⟨_, r.2, ?_, ?_, soundRun_reached _ _ r [] .start hr, ?_⟩
    · rw [h.1]; rfl
    · rw [h.1]; rfl
    · have := h.2; simp only [Prod.mk.injEq] at this; exact this.2.2

end ISD
