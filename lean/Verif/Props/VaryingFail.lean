import Verif.Proofs.VaryingFail
import Verif.Props.VaryingHeap

/-!
# C97: Varying objects whose contents cannot be copied
-/

namespace ISD

open VHeap Spec.VarProg

/-- **C97.** Also when contents cannot be copied, at any statements of any program, Varying variables are values and nothing is undefined: a copy construction that fails throws and makes no variable, an
assignment that fails throws and leaves the destination with the type of the source and whatever the assignment of the contents left; no other variable changes, and all later statements do what they
should. -/
theorem C97_values (al : Allocator) (ops : List FOp) :
    ∃ w lost, VHeap.runF al ops World.start = some ((Spec.VarProg.runF al.allocOk ops State.start).1, w, lost) ∧
      ∀ i, contents w i = (Spec.VarProg.runF al.allocOk ops State.start).2.vars i := by
  obtain ⟨w, lost, e, r, _, _⟩ := VHeap.runF_ok al ops VHeap.start_repr rfl
  refine ⟨w, lost, e, fun i => ?_⟩
  have h := r.var i
  unfold contents
  generalize w.vars i = x at h
  generalize (Spec.VarProg.runF al.allocOk ops State.start).2.vars i = y at h
  cases h with
  | dead => rfl
  | empty => rfl
  | full ty ct a o cl hf ht hc ha =>
    show some ((some a).bind w.heap) = _
    rw [Option.bind_some, ha]

/-- **C97.** Ownership at every point of every such program: an object on the heap belongs to exactly one variable or was abandoned, and exactly these are abandoned (`leak`): one for each move assignment to
an initialised variable, and one for each copy construction that got memory for its object but could not copy the contents. -/
theorem C97_ownership (al : Allocator) (ops : List FOp) (outs : List Out) (w : World) (lost : List Nat)
    (h : VHeap.runF al ops World.start = some (outs, w, lost)) :
    (∀ i j v u a, w.vars i = some v → w.vars j = some u → v.data = some a → u.data = some a → i = j) ∧
    (∀ a, w.heap a ≠ none ↔ owned w a ∨ a ∈ lost) ∧
    (∀ a, owned w a → a ∉ lost) ∧
    lost.Nodup ∧
    lost.length = abandonedF al.allocOk ops State.start := by
  obtain ⟨w', lost', e, r, _, l⟩ := VHeap.runF_ok al ops VHeap.start_repr rfl
  rw [h] at e
  cases e
  rw [List.append_nil] at r
  exact ⟨r.own, r.live, fun a ⟨i, v, h1, h2⟩ => r.lost i v a h1 h2, r.nodup, l⟩

/-- **C97**, as far as it holds. A program that neither move-assigns nor copy-constructs with contents that cannot be copied leaves nothing on the heap once its variables are gone; assignments of contents
that cannot be copied lose nothing. Missing: copy constructions, see below. -/
theorem C97_clean_exit_partial (al : Allocator) (ops : List FOp) (hm : ∀ i j, FOp.stmt (.moveAssign i j) ∉ ops) (hc : ∀ i j left, FOp.copyFails i j left ∉ ops) (outs : List Out) (w : World)
    (lost : List Nat) (h : VHeap.runF al ops World.start = some (outs, w, lost)) (hd : ∀ i, w.vars i = none) (a : Nat) : w.heap a = none := by
  obtain ⟨_, h2, _, _, h5⟩ := C97_ownership al ops outs w lost h
  have key : ∀ (ops : List FOp) (s : State), (∀ i j, FOp.stmt (.moveAssign i j) ∉ ops) → (∀ i j left, FOp.copyFails i j left ∉ ops) → abandonedF al.allocOk ops s = 0 := by
    intro ops
    induction ops with
    | nil => intro s _ _; rfl
    | cons op ops ih =>
      intro s hm hc
      have ih := fun s => ih s (fun i j hh => hm i j (List.mem_cons_of_mem _ hh)) (fun i j left hh => hc i j left (List.mem_cons_of_mem _ hh))
      unfold abandonedF
      rw [ih, ih]
      split
      · cases op with
        | stmt op =>
          cases op with
          | moveAssign i j => exact absurd (List.mem_cons_self) (hm i j)
          | _ => rfl
        | copyFails i j left => exact absurd (List.mem_cons_self) (hc i j left)
        | assignFails i j left => rfl
      · rfl
  rw [key ops _ hm hc] at h5
  have hl : lost = [] := List.length_eq_zero_iff.mp h5
  rw [hl] at h2
  refine Classical.byContradiction fun hh => ?_
  rcases (h2 a).mp hh with ⟨i, v, h1, _⟩ | h1
  · rw [hd i] at h1; cases h1
  · cases h1

/-- An assignment that fails and leaves the destination as new. -/
def leftNew : Left := fun t c => c.zero t.zero

/-- **C97 is false** for the copy constructor: a copy construction of which the contents cannot be copied throws, and the object it made stays on the heap when all variables are gone. -/
theorem C97_copy_constructor_leaks : ∃ outs w lost a,
    VHeap.runF firstFree [.stmt (.declare 0), .stmt (.initialize_ 0 0x23 0x10), .copyFails 1 0 leftNew, .stmt (.destroy 0)] World.start = some (outs, w, lost) ∧
      (∀ i, w.vars i = none) ∧ w.heap a ≠ none := by
  obtain ⟨w, lost, e, hv⟩ := C97_values firstFree [.stmt (.declare 0), .stmt (.initialize_ 0 0x23 0x10), .copyFails 1 0 leftNew, .stmt (.destroy 0)]
  obtain ⟨_, h2, _, _, h5⟩ := C97_ownership _ _ _ _ _ e
  have h6 : abandonedF (fun _ => true) [.stmt (.declare 0), .stmt (.initialize_ 0 0x23 0x10), .copyFails 1 0 leftNew, .stmt (.destroy 0)] State.start = 1 := by decide +kernel
  rw [show firstFree.allocOk = fun _ => true from rfl, h6] at h5
  obtain ⟨a, ha⟩ := List.length_eq_one_iff.mp h5
  refine ⟨_, w, lost, a, e, fun i => ?_, (h2 a).mpr (.inr (by rw [ha]; exact List.mem_singleton.mpr rfl))⟩
  have h7 : (Spec.VarProg.runF (fun _ => true) [.stmt (.declare 0), .stmt (.initialize_ 0 0x23 0x10), .copyFails 1 0 leftNew, .stmt (.destroy 0)] State.start).2.vars i = none := by
    by_cases hi : i = 0
    · subst hi; decide +kernel
    · have h8 : registered 0x23 0x10 ≠ none := by decide +kernel
      obtain ⟨cl, h9⟩ := Option.ne_none_iff_exists'.mp h8
      have h10 : ∀ x, upd (upd (upd State.start.vars 0 (some none)) 0 x) 0 none i = none := fun x => by
        rw [upd_other _ _ hi, upd_other _ _ hi, upd_other _ _ hi]; rfl
      simp only [Spec.VarProg.runF, stepF, step, make, h9]
      exact h10 _
  have h11 := hv i
  rw [show firstFree.allocOk = fun _ => true from rfl, h7] at h11
  revert h11
  unfold contents
  cases w.vars i with
  | none => intro _; rfl
  | some v => intro h; exact nomatch h

/-- A program with failing copies: what is seen of it. -/
example : truths (Spec.VarProg.runF (fun _ => true) [.stmt (.declare 0), .stmt (.initialize_ 0 0x23 0x10), .stmt (.declare 1), .assignFails 1 0 leftNew, .stmt (.isInitialized 1),
    .copyFails 2 0 leftNew, .stmt (.isInitialized 2), .stmt (.assign 1 0), .stmt (.isInitialized 1)] State.start).1 = [true, true, true, false, true, false, false, true, true] := by decide +kernel

end ISD
