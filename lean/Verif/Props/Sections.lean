import Verif.Props.RoundTrip
import Verif.Proofs.ReadTree

/-!
# C16 (sections), C21-C24, C51: sections
-/

namespace ISD

open RStream

/-! ## C21 -/

mutual
  theorem Node.valid_of_fits (n : Node) (sh : Shape) (h : FitsNode sh n) : n.Valid := by
    match n with
    | .value t c key v => cases h; exact ⟨by assumption, by assumption⟩
    | .nullSect key => cases h; assumption
    | .nullArray key => cases h; assumption
    | .sect key .nil => cases h
    | .sect key (.cons n ns) => cases h with | sect _ _ s ss _ _ hk hfa _ => exact ⟨hk, Nodes.valid_of_fits (.cons n ns) _ hfa⟩
    | .array key index elems => cases h with | array _ _ _ _ _ hk _ hfe => exact ⟨hk, Elems.valid_of_fits elems _ _ hfe⟩
  theorem Nodes.valid_of_fits (ns : Nodes) (sh : Shapes) (h : FitsAll sh ns) : ns.Valid := by
    match ns with
    | .nil => trivial
    | .cons n ns => cases h with | cons _ _ _ _ h1 h2 => exact ⟨Node.valid_of_fits n _ h1, Nodes.valid_of_fits ns _ h2⟩
  theorem Elems.valid_of_fits (es : Elems) (elem : Nat → Shapes) (i : Nat) (h : FitsElems elem i es) : es.Valid := by
    match es with
    | .nil => trivial
    | .cons .nil es =>
      exact ⟨trivial, Elems.valid_of_fits es elem (i + 1) (by cases h <;> assumption)⟩
    | .cons (.cons n ns) es =>
      cases h with
      | cons _ _ _ _ h1 h2 => exact ⟨Nodes.valid_of_fits (.cons n ns) _ h1, Elems.valid_of_fits es elem (i + 1) h2⟩
end

/-- **C21.** Any contents made of values, nested sections, null sections, arrays of possibly null sections and null arrays, of any
depth and width: the writing client program succeeds from any writer with no open subsection, appends to the stream and leaves the
writer object as it was; the reading client program, knowing only the shape, run on the result (whatever follows it in the stream)
returns exactly the tree that was written, consumes it exactly, and leaves the reader object as it was. -/
theorem C21_section_trees_round_trip (tree : Nodes) (shape : Shapes) (hfit : FitsAll shape tree)
    (w : EWriter) (hw : w.Idle) (s : WStream) (hs : Ready s) (fresh : Bytes → Nat)
    (hsize : s.dataSize + (tree.bytes s.flip).length < 2 ^ 60) :
    ∃ s' block, tree.write fresh (w, s) = .ok true (w, s') ∧ Ready s' ∧ s'.flip = s.flip ∧ s'.content = s.content ++ block ∧
      ∀ (env : REnv) (fresh' : Bytes → Nat) (r : EReader) (post : Bytes), (∀ n, env.allocOk n = true) → r.Idle →
        (s'.content ++ post).length < 2 ^ 60 →
        shape.read env fresh' (r, ⟨s'.content ++ post, s.content.length, s.flip⟩) =
          .ok (some tree) (r, ⟨s'.content ++ post, s'.content.length, s.flip⟩) := by
  have hl := hs.good.content_len
  obtain ⟨s', e, h⟩ := Nodes.write_appends fresh s.flip tree (Nodes.valid_of_fits tree shape hfit) w s s.content hw hs.at (by omega)
  refine ⟨s', _, e, h.ready, h.flip, h.content, fun env fresh' r post he hr hsm => ?_⟩
  have hh : Has (s'.content ++ post) s.content.length (tree.bytes s.flip) := by rw [h.content]; exact Has.mid _ _ _
  rw [Nodes.read_consumes he fresh' s.flip tree shape hfit r _ _ hr hsm hh, h.content, List.length_append]

/-- **C16** for sections: whatever item is written, what is appended can be skipped by the documented rule. -/
theorem C16_sections (n : Node) (hn : n.Valid) (w : EWriter) (hw : w.Idle) (s : WStream) (hs : Ready s) (fresh : Bytes → Nat)
    (hsize : s.dataSize + (n.bytes s.flip).length < 2 ^ 60) :
    ∃ s' block, n.write fresh (w, s) = .ok true (w, s') ∧ s'.content = s.content ++ block ∧
      ∀ rest, Spec.skip s.flip (block ++ rest) = some block.length := by
  have hl := hs.good.content_len
  obtain ⟨s', e, h⟩ := Node.write_appends fresh s.flip n hn w s s.content hw hs.at (by omega)
  refine ⟨s', _, e, h.content, fun rest => ?_⟩
  cases n with
  | value t c key v => exact skip_typed s.flip t (allTypes_ok t hn.1) c key hn.2 v rest (Nat.lt_trans (Nat.lt_of_le_of_lt (Nat.le_add_left _ _) hsize) (by decide))
  | sect key body => exact skip_large s.flip 0xd0 (by decide) (by decide) key _ rest (Nat.lt_trans (Nat.lt_of_le_of_lt (Nat.le_add_left _ _) hsize) (by decide))
  | nullSect key => exact skip_large s.flip 0xd0 (by decide) (by decide) key _ rest (Nat.lt_trans (Nat.lt_of_le_of_lt (Nat.le_add_left _ _) hsize) (by decide))
  | array key index elems => exact skip_large s.flip 0xd1 (by decide) (by decide) key _ rest (Nat.lt_trans (Nat.lt_of_le_of_lt (Nat.le_add_left _ _) hsize) (by decide))
  | nullArray key => exact skip_large s.flip 0xd1 (by decide) (by decide) key _ rest (Nat.lt_trans (Nat.lt_of_le_of_lt (Nat.le_add_left _ _) hsize) (by decide))

/-! ## C22 -/

/-- Number of elements of the current array that have been started. -/
def EWriter.started (w : EWriter) : Nat := (w.activeArrayIndex + 1) % 2 ^ 64

/-- **C22.** In every writer state, whatever the history: with a subsection open, opening another is refused; a pointer other than that
of the open subsection is refused by every call that takes one; an array element other than the next one, or one beyond the array
size, is refused; ending an array before all its elements were started is refused. Every refused call leaves stream and writer as they were. -/
theorem C22_writer_refuses (w : EWriter) (s : WStream) :
    (w.activeSubsection.isSome → ∀ fresh key size index,
      beginWriteSection fresh key (w, s) = .ok none (w, s) ∧
      beginWriteSectionsArray fresh key size index (w, s) = .ok none (w, s) ∧
      writeNullSection fresh key (w, s) = .ok false (w, s) ∧
      writeNullSectionsArray fresh key (w, s) = .ok false (w, s)) ∧
    (∀ ptr, ptr ≠ w.subPtr → ∀ i,
      endWriteSection ptr (w, s) = .ok false (w, s) ∧
      beginWriteSectionInArray ptr i (w, s) = .ok false (w, s) ∧
      endWriteSectionInArray ptr i (w, s) = .ok false (w, s) ∧
      endWriteSectionsArray ptr (w, s) = .ok false (w, s)) ∧
    (∀ ptr i, i ≠ w.started ∨ w.activeArraySize ≤ i → beginWriteSectionInArray ptr i (w, s) = .ok false (w, s)) ∧
    (∀ ptr i, i ≠ w.activeArrayIndex → endWriteSectionInArray ptr i (w, s) = .ok false (w, s)) ∧
    (∀ ptr, w.started ≠ w.activeArraySize → endWriteSectionsArray ptr (w, s) = .ok false (w, s)) := by
  refine ⟨fun h fresh key size index => ?_, fun ptr h i => ?_, fun ptr i h => ?_, fun ptr i h => ?_, fun ptr h => ?_⟩
  · have h1 : beginWriteSection fresh key (w, s) = .ok none (w, s) := by
      rw [beginWriteSection, Prog.bind_ok (Prog.get_apply _), if_pos h, Prog.pure_apply]
    have h2 : ∀ size index, beginWriteSectionsArray fresh key size index (w, s) = .ok none (w, s) := by
      intro size index
      rw [beginWriteSectionsArray, Prog.bind_ok (Prog.get_apply _), if_pos h, Prog.pure_apply]
    refine ⟨h1, h2 size index, ?_, ?_⟩
    · rw [writeNullSection, Prog.bind_ok h1]; rfl
    · rw [writeNullSectionsArray, Prog.bind_ok (h2 _ _)]; rfl
  · refine ⟨?_, ?_, ?_, ?_⟩
    · rw [endWriteSection, Prog.bind_ok (Prog.get_apply _), if_pos (Ne.symm h), Prog.pure_apply]
    · rw [beginWriteSectionInArray, Prog.bind_ok (Prog.get_apply _), if_pos (Ne.symm h), Prog.pure_apply]
    · rw [endWriteSectionInArray, Prog.bind_ok (Prog.get_apply _), if_pos (Or.inl (Ne.symm h)), Prog.pure_apply]
    · rw [endWriteSectionsArray, Prog.bind_ok (Prog.get_apply _), if_pos (Ne.symm h), Prog.pure_apply]
  · rw [beginWriteSectionInArray, Prog.bind_ok (Prog.get_apply _)]
    by_cases hp : w.subPtr ≠ ptr
    · rw [if_pos hp, Prog.pure_apply]
    · rw [if_neg hp]
      by_cases hi : wrap64 (w.activeArrayIndex + 1) ≠ i
      · rw [if_pos hi, Prog.pure_apply]
      · rw [if_neg hi, if_pos ?_, Prog.pure_apply]
        rcases h with h | h
        · exact absurd (fun he => h he.symm) hi
        · exact h
  · rw [endWriteSectionInArray, Prog.bind_ok (Prog.get_apply _), if_pos (Or.inr (Ne.symm h)), Prog.pure_apply]
  · rw [endWriteSectionsArray, Prog.bind_ok (Prog.get_apply _)]
    by_cases hp : w.subPtr ≠ ptr
    · rw [if_pos hp, Prog.pure_apply]
    · rw [if_neg hp, if_pos (show wrap64 ((w, s).1.activeArrayIndex + 1) ≠ (w, s).1.activeArraySize from h), Prog.pure_apply]

/-- What the counters of C22 mean: opening an array sets the size to the requested one with no element started, and each accepted
start of an element counts one. -/
theorem C22_counters (w : EWriter) (s : WStream) :
    (∀ fresh key size index p w' s', size < 2 ^ 64 - 1 →
      beginWriteSectionsArray fresh key size index (w, s) = .ok (some p) (w', s') →
      w'.activeArraySize = size ∧ w'.started = 0 ∧ w'.subPtr = some p) ∧
    (∀ ptr i b w' s', i < 2 ^ 64 - 1 → beginWriteSectionInArray ptr i (w, s) = .ok b (w', s') →
      (b = true → w'.started = i + 1 ∧ i = w.started ∧ i < w.activeArraySize) ∧ w'.activeArraySize = w.activeArraySize ∧
        w'.subPtr = w.subPtr) := by
  constructor
  · intro fresh key size index p w' s' hsz h
    rw [beginWriteSectionsArray, Prog.bind_ok (Prog.get_apply _)] at h
    split at h
    · simp [Prog.pure_apply] at h
    · rw [Prog.bind_ok (modify_ok _ _), Prog.bind_apply] at h
      simp only [onStream] at h
      split at h
      · rename_i a s1 ha
        split at ha <;> simp only [Res.ok.injEq, reduceCtorEq] at ha
        obtain ⟨rfl, rfl⟩ := ha
        split at h
        · simp [Prog.pure_apply] at h
        · rw [if_neg (by unfold sizeMax; omega), Prog.bind_apply] at h
          split at h
          · rename_i a s2 ha2
            simp only [onStream] at ha2
            split at ha2 <;> simp only [Res.ok.injEq, reduceCtorEq] at ha2
            obtain ⟨rfl, rfl⟩ := ha2
            split at h
            · simp [Prog.pure_apply] at h
            · rw [Prog.bind_ok (modify_ok _ _), Prog.pure_apply] at h
              simp only [Res.ok.injEq, Option.some.injEq, Prod.mk.injEq] at h
              obtain ⟨rfl, rfl, rfl⟩ := h
              refine ⟨rfl, ?_, rfl⟩
              simp [EWriter.started, sizeMax]
          · cases h
          · cases h
      · cases h
      · cases h
  · intro ptr i b w' s' hi h
    rw [beginWriteSectionInArray, Prog.bind_ok (Prog.get_apply _)] at h
    split at h
    · simp only [Prog.pure_apply, Res.ok.injEq, Prod.mk.injEq] at h
      obtain ⟨rfl, rfl, rfl⟩ := h
      exact ⟨by simp, rfl, rfl⟩
    · split at h
      · simp only [Prog.pure_apply, Res.ok.injEq, Prod.mk.injEq] at h
        obtain ⟨rfl, rfl, rfl⟩ := h
        exact ⟨by simp, rfl, rfl⟩
      · rename_i h1 h2
        split at h
        · simp only [Prog.pure_apply, Res.ok.injEq, Prod.mk.injEq] at h
          obtain ⟨rfl, rfl, rfl⟩ := h
          exact ⟨by simp, rfl, rfl⟩
        · rename_i h3
          rw [Prog.bind_ok (modify_ok _ _), Prog.bind_apply] at h
          simp only [onStream] at h
          split at h
          · rename_i a s1 ha
            split at ha <;> simp only [Res.ok.injEq, reduceCtorEq] at ha
            obtain ⟨-, rfl⟩ := ha
            rw [Prog.bind_ok (Prog.get_apply _), Prog.pure_apply] at h
            simp only [Res.ok.injEq, Prod.mk.injEq] at h
            obtain ⟨-, rfl, rfl⟩ := h
            refine ⟨fun _ => ⟨?_, ?_, ?_⟩, rfl, rfl⟩
            · show (i + 1) % 2 ^ 64 = i + 1
              exact Nat.mod_eq_of_lt (by omega)
            · exact (Decidable.not_not.mp h2).symm
            · simpa using h3
          · cases h
          · cases h

/-! ## C23 -/

/-- Number of elements of the current array that have been started. -/
def EReader.started (r : EReader) : Nat := (r.activeIndex + 1) % 2 ^ 64

/-- **C23.** In every reader state, on every stream: with a subsection open, opening another is refused; pointers other than that of the
open subsection, and array elements other than the next one or beyond the size, are refused; none of these moves the stream or changes
the reader; and the `End` calls return true only at the end the section, array or element declared. -/
theorem C23_reader_refuses (env : REnv) (r : EReader) (s : RStream) :
    (r.activeSubsection.isSome → ∀ fresh key na wi,
      beginReadSection env fresh key na (r, s) = .ok (none, false) (r, s) ∧
      beginReadSectionsArray env fresh key na wi (r, s) = .ok (none, 0, false, []) (r, s)) ∧
    (∀ ptr, ptr ≠ r.subPtr → ∀ i wh,
      endReadSection ptr (r, s) = .ok false (r, s) ∧
      beginReadSectionInArray ptr i wh (r, s) = .ok (false, false) (r, s) ∧
      endReadSectionInArray ptr i (r, s) = .ok false (r, s) ∧
      endReadSectionsArray ptr (r, s) = .ok false (r, s)) ∧
    (∀ ptr i wh, i ≠ r.started ∨ r.activeArraySize ≤ i → beginReadSectionInArray ptr i wh (r, s) = .ok (false, false) (r, s)) ∧
    (∀ ptr, r.started ≠ r.activeArraySize → endReadSectionsArray ptr (r, s) = .ok false (r, s)) ∧
    (∀ sub, r.activeSubsection = some sub → ∀ ptr,
      (∀ st', endReadSection ptr (r, s) = .ok true st' → s.pos = sub.endPosition) ∧
      (∀ st', endReadSectionsArray ptr (r, s) = .ok true st' → s.pos = sub.endPosition)) ∧
    (∀ ptr i st', endReadSectionInArray ptr i (r, s) = .ok true st' → s.pos = r.activeEndPos ∧ i = r.activeIndex) := by
  refine ⟨fun h fresh key na wi => ?_, fun ptr h i wh => ?_, fun ptr i wh h => ?_, fun ptr h => ?_, fun sub hsub ptr => ⟨?_, ?_⟩, ?_⟩
  · constructor
    · rw [beginReadSection, Prog.bind_ok (Prog.get_apply _), if_pos h, Prog.pure_apply]
    · rw [beginReadSectionsArray, Prog.bind_ok (Prog.get_apply _), if_pos h, Prog.pure_apply]
  · refine ⟨?_, ?_, ?_, ?_⟩
    · rw [endReadSection, Prog.bind_ok (Prog.get_apply _), if_pos h, Prog.pure_apply]
    · rw [beginReadSectionInArray, Prog.bind_ok (Prog.get_apply _), if_pos (Ne.symm h), Prog.pure_apply]
    · rw [endReadSectionInArray, Prog.bind_ok (Prog.get_apply _), if_pos (Or.inl (Ne.symm h)), Prog.pure_apply]
    · rw [endReadSectionsArray, Prog.bind_ok (Prog.get_apply _), if_pos (Ne.symm h), Prog.pure_apply]
  · rw [beginReadSectionInArray, Prog.bind_ok (Prog.get_apply _)]
    by_cases hp : r.subPtr ≠ ptr
    · rw [if_pos hp, Prog.pure_apply]
    · rw [if_neg hp]
      by_cases hi : wrap64 (r.activeIndex + 1) ≠ i
      · rw [if_pos hi, Prog.pure_apply]
      · rw [if_neg hi, if_pos ?_, Prog.pure_apply]
        rcases h with h | h
        · exact absurd (fun he => h he.symm) hi
        · exact h
  · rw [endReadSectionsArray, Prog.bind_ok (Prog.get_apply _)]
    by_cases hp : r.subPtr ≠ ptr
    · rw [if_pos hp, Prog.pure_apply]
    · rw [if_neg hp, if_pos (show wrap64 ((r, s).1.activeIndex + 1) ≠ (r, s).1.activeArraySize from h), Prog.pure_apply]
  · intro st' h
    rw [endReadSection, Prog.bind_ok (Prog.get_apply _)] at h
    split at h
    · simp [Prog.pure_apply] at h
    · dsimp only at h
      rw [hsub] at h
      dsimp only at h
      by_cases he : s.pos = sub.endPosition
      · exact he
      · have : onRStream (endReadLargeBlock sub.endPosition) (r, s) = .ok false (r, s) := by
          refine onRStream_ok ?_
          simp [endReadLargeBlock, Prog.bind_apply, Prog.get_apply, Prog.pure_apply, he]
        rw [Prog.bind_ok this, if_pos (by decide), Prog.pure_apply] at h
        simp at h
  · intro st' h
    rw [endReadSectionsArray, Prog.bind_ok (Prog.get_apply _)] at h
    split at h
    · simp [Prog.pure_apply] at h
    · split at h
      · simp [Prog.pure_apply] at h
      · dsimp only at h
        rw [hsub] at h
        dsimp only at h
        by_cases he : s.pos = sub.endPosition
        · exact he
        · have : onRStream (endReadLargeBlock sub.endPosition) (r, s) = .ok false (r, s) := by
            refine onRStream_ok ?_
            simp [endReadLargeBlock, Prog.bind_apply, Prog.get_apply, Prog.pure_apply, he]
          rw [Prog.bind_ok this, if_pos (by decide), Prog.pure_apply] at h
          simp at h
  · intro ptr i st' h
    rw [endReadSectionInArray, Prog.bind_ok (Prog.get_apply _)] at h
    split at h
    · simp [Prog.pure_apply] at h
    · rename_i h1
      split at h
      · simp [Prog.pure_apply] at h
      · rename_i h2
        refine ⟨Decidable.not_not.mp h2, ?_⟩
        apply Decidable.byContradiction
        exact fun hc => h1 (Or.inr (fun he => hc he.symm))

/-! ## C24 -/

/-- **C24 is false**: on a writer or reader with no open section, the null pointer (what a failed `Begin` returns) passes the pointer
test of `EndWriteSection` and `EndReadSection`, and the call dereferences null; likewise the two array calls when no array was begun. -/
theorem C24_end_without_begin_is_ub (w : EWriter) (hw : w.Idle) (s : WStream) (r : EReader) (hr : r.Idle) (t : RStream) :
    endWriteSection none (w, s) = .ub ∧ endWriteSectionsArray none (w, s) = .ub ∧
    endReadSection none (r, t) = .ub ∧ endReadSectionsArray none (r, t) = .ub := by
  have hs : w.subPtr = none := by simp [EWriter.subPtr, hw.sub]
  have hs' : r.subPtr = none := by simp [EReader.subPtr, hr.sub]
  refine ⟨?_, ?_, ?_, ?_⟩
  · rw [endWriteSection, Prog.bind_ok (Prog.get_apply _), if_neg (by simp [hs])]
    simp only [hw.sub]; rfl
  · rw [endWriteSectionsArray, Prog.bind_ok (Prog.get_apply _), if_neg (by simp [hs]),
      if_neg (by simp [hw.index, hw.size, wrap64, sizeMax])]
    simp only [hw.sub]; rfl
  · rw [endReadSection, Prog.bind_ok (Prog.get_apply _), if_neg (by simp [hs'])]
    simp only [hr.sub]; rfl
  · rw [endReadSectionsArray, Prog.bind_ok (Prog.get_apply _), if_neg (by simp [hs']),
      if_neg (by simp [hr.index, hr.size, wrap64, sizeMax])]
    simp only [hr.sub]; rfl

/-- **C24**, the true part: with no open section, every non-null argument is refused without effect, and so are the element calls for
every index below `2^64-1`. Missing: the null argument, for which see `C24_end_without_begin_is_ub`. -/
theorem C24_end_without_begin_partial (w : EWriter) (hw : w.Idle) (s : WStream) (r : EReader) (hr : r.Idle) (t : RStream) :
    (∀ p, endWriteSection (some p) (w, s) = .ok false (w, s) ∧ endWriteSectionsArray (some p) (w, s) = .ok false (w, s) ∧
      endReadSection (some p) (r, t) = .ok false (r, t) ∧ endReadSectionsArray (some p) (r, t) = .ok false (r, t)) ∧
    (∀ ptr i, i < 2 ^ 64 - 1 → endWriteSectionInArray ptr i (w, s) = .ok false (w, s) ∧
      endReadSectionInArray ptr i (r, t) = .ok false (r, t)) := by
  have hs : w.subPtr = none := by simp [EWriter.subPtr, hw.sub]
  have hs' : r.subPtr = none := by simp [EReader.subPtr, hr.sub]
  have hW := C22_writer_refuses w s
  have hR := C23_reader_refuses ⟨fun _ => true, Vector.replicate 40 0⟩ r t
  refine ⟨fun p => ?_, fun ptr i hi => ?_⟩
  · have h1 := hW.2.1 (some p) (by rw [hs]; simp) 0
    have h2 := hR.2.1 (some p) (by rw [hs']; simp) 0 true
    exact ⟨h1.1, h1.2.2.2, h2.1, h2.2.2.2⟩
  · refine ⟨hW.2.2.2.1 ptr i (by rw [hw.index]; unfold sizeMax; omega), ?_⟩
    rw [endReadSectionInArray, Prog.bind_ok (Prog.get_apply _), if_pos (Or.inr (by rw [hr.index]; unfold sizeMax; omega)), Prog.pure_apply]

/-- **C24**, exactly, for a writer and a reader in any state and the null pointer: `EndWriteSection` and `EndReadSection` are undefined when no section is
open, and else refuse without effect; the array calls are undefined when no section is open and the counters are those of an array with all elements
started (in particular when no array was begun, and after one was closed), and else refuse without effect. -/
theorem C24_null_exact (w : EWriter) (s : WStream) (r : EReader) (t : RStream) :
    endWriteSection none (w, s) = (if w.activeSubsection = none then .ub else .ok false (w, s)) ∧
    endWriteSectionsArray none (w, s) =
      (if w.activeSubsection = none ∧ (w.activeArrayIndex + 1) % 2 ^ 64 = w.activeArraySize then .ub else .ok false (w, s)) ∧
    endReadSection none (r, t) = (if r.activeSubsection = none then .ub else .ok false (r, t)) ∧
    endReadSectionsArray none (r, t) =
      (if r.activeSubsection = none ∧ (r.activeIndex + 1) % 2 ^ 64 = r.activeArraySize then .ub else .ok false (r, t)) := by
  refine ⟨?_, ?_, ?_, ?_⟩
  · rw [endWriteSection, Prog.bind_ok (Prog.get_apply _)]
    cases h : w.activeSubsection with
    | none => rw [if_neg (by simp [EWriter.subPtr, h]), if_pos rfl]; rfl
    | some x => rw [if_pos (by simp [EWriter.subPtr, h]), if_neg (by simp), Prog.pure_apply]
  · rw [endWriteSectionsArray, Prog.bind_ok (Prog.get_apply _)]
    cases h : w.activeSubsection with
    | none =>
      rw [if_neg (by simp [EWriter.subPtr, h])]
      by_cases hi : (w.activeArrayIndex + 1) % 2 ^ 64 = w.activeArraySize
      · rw [if_neg (by exact fun hc => hc hi), if_pos ⟨rfl, hi⟩]; rfl
      · rw [if_pos (by exact hi), if_neg (fun hc => hi hc.2), Prog.pure_apply]
    | some x => rw [if_pos (by simp [EWriter.subPtr, h]), if_neg (by simp), Prog.pure_apply]
  · rw [endReadSection, Prog.bind_ok (Prog.get_apply _)]
    cases h : r.activeSubsection with
    | none => rw [if_neg (by simp [EReader.subPtr, h]), if_pos rfl]; rfl
    | some x => rw [if_pos (by simp [EReader.subPtr, h]), if_neg (by simp), Prog.pure_apply]
  · rw [endReadSectionsArray, Prog.bind_ok (Prog.get_apply _)]
    cases h : r.activeSubsection with
    | none =>
      rw [if_neg (by simp [EReader.subPtr, h])]
      by_cases hi : (r.activeIndex + 1) % 2 ^ 64 = r.activeArraySize
      · rw [if_neg (by exact fun hc => hc hi), if_pos ⟨rfl, hi⟩]; rfl
      · rw [if_pos (by exact hi), if_neg (fun hc => hi hc.2), Prog.pure_apply]
    | some x => rw [if_pos (by simp [EReader.subPtr, h]), if_neg (by simp), Prog.pure_apply]

/-! ## C51 -/

/-- **C51 is false**: an array of sections can be ended with `EndWriteSection` although no element was written: the call returns true and
closes the array, leaving a block that declares `n` elements and contains none. -/
theorem C51_array_closed_by_section_end (fresh n : Nat) (hn : 0 < n) (hn2 : n < 2 ^ 62) (key : Bytes) (hk : key.length ≤ 40) (w : EWriter)
    (hw : w.Idle) (s : WStream) (hs : Ready s) (hsize : s.dataSize < 2 ^ 60) :
    ∃ w1 s1 w2 s2, beginWriteSectionsArray fresh key n none (w, s) = .ok (some fresh) (w1, s1) ∧
      endWriteSectionsArray (some fresh) (w1, s1) = .ok false (w1, s1) ∧
      endWriteSection (some fresh) (w1, s1) = .ok true (w2, s2) ∧ w2.activeSubsection = none ∧
      s2.content = s.content ++ Spec.largeBlock s.flip 0xd1 key (Spec.arrayHeader s.flip 0 n none) := by
  have hl := hs.good.content_len
  have hH : (Spec.arrayHeader s.flip 0 n none).length = 10 := arrayHeader_length _ _ _ _
  obtain ⟨s1, e1, h1⟩ := beginArray_ok hw hs.at fresh key n none (by unfold sizeMax; omega) (by omega)
  obtain ⟨s2, e2, h2⟩ := endLarge_ok vtArraySubsection key _ h1
    (by simp only [List.length_append, openHeader_length]; omega) (EWriter.create fresh s.content.length).startPosition rfl
  refine ⟨_, s1, { w.inArray (EWriter.create fresh s.content.length) n 0 0 with activeSubsection := none }, s2, e1, ?_, ?_, rfl, h2.content⟩
  · refine (C22_writer_refuses _ _).2.2.2.2 _ ?_
    simp [EWriter.started, EWriter.inArray, sizeMax, wrap64]
    omega
  · rw [endWriteSection, Prog.bind_ok (Prog.get_apply _), if_neg (by simp [EWriter.subPtr, EWriter.inArray, EWriter.create])]
    dsimp only [EWriter.inArray]
    rw [Prog.bind_ok (onStream_ok e2), if_neg (by decide), Prog.bind_ok (modify_ok _ _), Prog.pure_apply]

/-! ## The hypotheses are met -/

/-- A small tree with every kind of item. -/
def demoTree : Nodes :=
  .cons (.value boolType .none [0x62] true)
  (.cons (.sect [0x73] (.cons (.value stringType .optionalVector [0x74] (some [[1, 0], []])) .nil))
  (.cons (.nullSect [0x6e])
  (.cons (.array [0x61] (some [1#32, 0#32]) (.cons .nil (.cons (.cons (.value stringType .none [] []) .nil) .nil)))
  (.cons (.nullArray [0x7a]) .nil))))

/-- Its shape. -/
def demoShape : Shapes :=
  .cons (.value boolType .none [0x62] false)
  (.cons (.sect [0x73] (.cons (.value stringType .optionalVector [0x74] none) .nil))
  (.cons (.sect [0x6e] .nil)
  (.cons (.array [0x61] true (fun _ => .cons (.value stringType .none [] [7]) .nil))
  (.cons (.array [0x7a] false (fun _ => .nil)) .nil))))

example : FitsAll demoShape demoTree := by
  have hb : boolType ∈ allTypes := by decide +kernel
  have hs : stringType ∈ allTypes := by decide +kernel
  refine .cons _ _ _ _ (.value _ _ _ _ _ hb (by decide) trivial) (.cons _ _ _ _ (.sect _ _ _ _ _ _ (by decide)
    (.cons _ _ _ _ (.value _ _ _ _ _ hs (by decide) trivial) .nil) rfl) (.cons _ _ _ _ (.nullSect _ _ (by decide))
    (.cons _ _ _ _ (.array _ _ _ _ _ (by decide) rfl (.null _ _ _ (.cons _ _ _ _
      (.cons _ _ _ _ (.value _ _ _ _ _ hs (by decide) trivial) .nil) (.nil _ _))))
      (.cons _ _ _ _ (.nullArray _ _ _ (by decide)) .nil))))

example : (EWriter.create 4096 0).Idle ∧ (EReader.create 8192 100).Idle ∧
    (demoStream true).dataSize + (demoTree.bytes true).length < 2 ^ 60 :=
  ⟨create_idle _ _, rcreate_idle _ _, by decide +kernel⟩

end ISD
