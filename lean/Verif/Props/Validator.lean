import Verif.Model.Graph

/-!
# C45: the validator accumulates reports

A history is a list of `ReportError` and `ClearErrorCount` calls on a new validator.
-/

namespace ISD
namespace Validator

/-- One call on a validator. -/
inductive Call where
  | report (id : Nat)
  | clear

/-- The validator after one more call. -/
def call (v : Validator) : Call → Validator
  | .report id => v.reportError id
  | .clear => v.clearErrorCount

/-- The validator after these calls. -/
def after (v : Validator) (cs : List Call) : Validator := cs.foldl call v

theorem count_reports (v : Validator) (ids : List Nat) (h : v.errorCount < 2 ^ 32) :
    (v.after (ids.map .report)).errorCount = (v.errorCount + ids.length) % 2 ^ 32 := by
  induction ids generalizing v with
  | nil => exact (Nat.mod_eq_of_lt h).symm
  | cons i ids ih =>
    show ((v.reportError i).after (ids.map .report)).errorCount = _
    rw [ih _ (Nat.mod_lt _ (by decide))]
    show ((v.errorCount + 1) % 2 ^ 32 + ids.length) % 2 ^ 32 = _
    rw [Nat.mod_add_mod, List.length_cons]
    congr 1
    omega

theorem after_append (v : Validator) (a b : List Call) : v.after (a ++ b) = (v.after a).after b := List.foldl_append

theorem ids_bit (v : Validator) (cs : List Call) (b : Nat) :
    (v.after cs).errorIds.testBit b = true ↔
      v.errorIds.testBit b = true ∨ ∃ id, Call.report id ∈ cs ∧ id.testBit b = true := by
  induction cs generalizing v with
  | nil => simp [after]
  | cons c cs ih =>
    show ((v.call c).after cs).errorIds.testBit b = true ↔ _
    rw [ih]
    cases c with
    | clear => simp [call, clearErrorCount]
    | report i =>
      show ((v.errorIds ||| i).testBit b = true ∨ _) ↔ _
      rw [Nat.testBit_or, Bool.or_eq_true]
      constructor
      · rintro ((h | h) | ⟨id, h1, h2⟩)
        · exact .inl h
        · exact .inr ⟨i, by simp, h⟩
        · exact .inr ⟨id, by simp [h1], h2⟩
      · rintro (h | ⟨id, h1, h2⟩)
        · exact .inl (.inl h)
        · simp only [List.mem_cons, Call.report.injEq] at h1
          rcases h1 with h1 | h1
          · subst h1; exact .inl (.inr h2)
          · exact .inr ⟨id, h1, h2⟩

end Validator

open Validator

/-- **C45.** `GetErrorCount` is the number of reports since the last `ClearErrorCount`, as a 32 bit number. -/
theorem C45_count (before : List Call) (ids : List Nat) :
    (start.after (before ++ .clear :: ids.map .report)).errorCount = ids.length % 2 ^ 32 ∧
      (start.after (ids.map .report)).errorCount = ids.length % 2 ^ 32 := by
  constructor
  · rw [after_append]
    show (((start.after before).clearErrorCount).after (ids.map .report)).errorCount = _
    rw [count_reports _ _ (show (0 : Nat) < 2 ^ 32 by decide)]
    show (0 + ids.length) % 2 ^ 32 = _
    rw [Nat.zero_add]
  · rw [count_reports _ _ (show (0 : Nat) < 2 ^ 32 by decide)]
    show (0 + ids.length) % 2 ^ 32 = _
    rw [Nat.zero_add]

/-- So with fewer than 2^32 reports a count of 0 means that nothing was reported. -/
theorem C45_count_zero (before : List Call) (ids : List Nat) (h : ids.length < 2 ^ 32) :
    (start.after (before ++ .clear :: ids.map .report)).errorCount = 0 ↔ ids = [] := by
  rw [(C45_count before ids).1, Nat.mod_eq_of_lt h, List.length_eq_zero_iff]

/-- The bound is needed: 2^32 reports look like none. -/
theorem C45_count_wraps : (start.after ((List.replicate (2 ^ 32) 1).map .report)).errorCount = 0 := by
  rw [(C45_count [] (List.replicate (2 ^ 32) 1)).2, List.length_replicate, Nat.mod_self]

/-- `GetErrorIds` has exactly the bits of all the ids reported since the validator was made.  This is the union of the
ids since the last clear only if no other bit had been reported before it: `ClearErrorCount` keeps the ids. -/
theorem C45_ids_partial (cs : List Call) (bit : Nat) :
    (start.after cs).errorIds.testBit bit = true ↔ ∃ id, Call.report id ∈ cs ∧ id.testBit bit = true := by
  rw [ids_bit]
  show (Nat.testBit 0 bit = true ∨ _) ↔ _
  simp

/-- False: after `ClearErrorCount` an id reported before it is still visible. -/
theorem C45_false_ids_survive_clear :
    ¬ ∀ before ids : List Call, (∀ c ∈ ids, c ≠ Call.clear) → ∀ bit,
      ((start.after (before ++ .clear :: ids)).errorIds.testBit bit = true ↔
        ∃ id, Call.report id ∈ ids ∧ id.testBit bit = true) := by
  intro h
  have := (h [.report 4] [] (fun _ hc => (nomatch hc)) 2).1 (by decide)
  obtain ⟨id, h1, _⟩ := this
  cases h1

/-- Reports 1 and 16, a clear, then 2 and 2: two errors, ids 1 ||| 16 ||| 2. -/
example : start.after [.report 1, .report 16, .clear, .report 2, .report 2] = ⟨2, 19⟩ := rfl

end ISD
