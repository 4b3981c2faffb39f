import Verif.Proofs.VaryingHeap

/-!
# Programs with Varying variables: C56, C57

The programs are lists of statements (`VHeap.Op`) on any number of variables: declarations, copy and move construction, assignment, move
assignment, destruction, `Initialize`, `IsInitialized`, `IsA<T>`, `Data<T>` to read and to assign, `Clear`, `==`, and `MF::Read` of any input.
`VHeap.run` executes the code of ISD_Varying.cpp on a memory with pointers; `Spec.VarProg` describes the same programs without pointers.
-/

namespace ISD

open VHeap (Op Out World Allocator CppType)
open Spec.VarProg (contents owned abandoned State)

attribute [local irreducible] dynTable DynClass.all findTypeClass

/-- **C56.** Whatever the program does, and whichever allocations fail: it never dereferences, deletes or reads a pointer that is null, dangling
or to an object of another type; every result it sees is the one a program with plain values would see; and afterwards every variable holds what
it would hold there. -/
theorem C56_varying_variables_are_values (al : Allocator) (ops : List Op) :
    ∃ w lost, VHeap.run al ops World.start = some ((Spec.VarProg.run al.allocOk ops State.start).1, w, lost) ∧
      ∀ i, contents w i = (Spec.VarProg.run al.allocOk ops State.start).2.vars i := by
  obtain ⟨w, lost, e, r, _, _⟩ := VHeap.run_ok al ops VHeap.start_repr rfl
  refine ⟨w, lost, e, fun i => ?_⟩
  have h := r.var i
  unfold contents
  generalize w.vars i = x at h
  generalize (Spec.VarProg.run al.allocOk ops State.start).2.vars i = y at h
  cases h with
  | dead => rfl
  | empty => rfl
  | full ty ct a o cl hf ht hc ha =>
    show some ((some a).bind w.heap) = _
    rw [Option.bind_some, ha]

/-- **C57.** At every point of every program: no two variables share an object; an object on the heap belongs to a variable or was abandoned by
a move assignment to the variable that held it; no abandoned object is freed or counted twice; and there is one for each move assignment to an
initialised variable. -/
theorem C57_ownership (al : Allocator) (ops : List Op) (outs : List Out) (w : World) (lost : List Nat)
    (h : VHeap.run al ops World.start = some (outs, w, lost)) :
    (∀ i j v u a, w.vars i = some v → w.vars j = some u → v.data = some a → u.data = some a → i = j) ∧
    (∀ a, w.heap a ≠ none ↔ owned w a ∨ a ∈ lost) ∧
    (∀ a, owned w a → a ∉ lost) ∧
    lost.Nodup ∧
    lost.length = abandoned al.allocOk ops State.start := by
  obtain ⟨w', lost', e, r, _, l⟩ := VHeap.run_ok al ops VHeap.start_repr rfl
  rw [h] at e
  cases e
  rw [List.append_nil] at r
  exact ⟨r.own, r.live, fun a ⟨i, v, h1, h2⟩ => r.lost i v a h1 h2, r.nodup, l⟩

/-- **C57.** A program that never move-assigns leaves nothing on the heap once its variables are gone, also when allocations and reads fail. -/
theorem C57_clean_exit (al : Allocator) (ops : List Op) (hm : ∀ i j, Op.moveAssign i j ∉ ops) (outs : List Out) (w : World) (lost : List Nat)
    (h : VHeap.run al ops World.start = some (outs, w, lost)) (hd : ∀ i, w.vars i = none) (a : Nat) : w.heap a = none := by
  obtain ⟨_, h2, _, _, h5⟩ := C57_ownership al ops outs w lost h
  have key : ∀ (ops : List Op) (s : State), (∀ i j, Op.moveAssign i j ∉ ops) → abandoned al.allocOk ops s = 0 := by
    intro ops
    induction ops with
    | nil => intro s _; rfl
    | cons op ops ih =>
      intro s hm
      unfold abandoned
      rw [ih _ fun i j hh => hm i j (List.mem_cons_of_mem _ hh), ih _ fun i j hh => hm i j (List.mem_cons_of_mem _ hh)]
      split
      · cases op with
        | moveAssign i j => exact absurd (List.mem_cons_self) (hm i j)
        | _ => rfl
      · rfl
  rw [key ops _ hm] at h5
  have hl : lost = [] := List.length_eq_zero_iff.mp h5
  rw [hl] at h2
  refine Classical.byContradiction fun hh => ?_
  rcases (h2 a).mp hh with ⟨i, v, h1, _⟩ | h1
  · rw [hd i] at h1; cases h1
  · cases h1

/-- An allocator: the first address from which on everything is free. -/
noncomputable def firstFree : Allocator where
  allocOk _ := true
  pick heap := open Classical in if h : ∃ bound, ∀ a, bound ≤ a → heap a = none then Classical.choose h else 0
  free heap h := by
    rw [dif_pos h]
    exact Classical.choose_spec h _ (Nat.le_refl _)

/-- The results of the calls, as far as they are truth values (`done` counts as true, the other outcomes as false). -/
def truths (outs : List Out) : List Bool := outs.map fun
  | .bool b => b
  | .done => true
  | _ => false

/-- **C57.** A move assignment to a variable that holds an object leaks that object: it stays on the heap and no variable has it. -/
theorem C57_move_assignment_leaks : ∃ outs w lost a,
    VHeap.run firstFree [.declare 0, .declare 1, .initialize_ 0 0x23 0x10, .moveAssign 0 1] World.start = some (outs, w, lost) ∧
      w.heap a ≠ none ∧ ¬ owned w a := by
  obtain ⟨w, lost, e, _⟩ := C56_varying_variables_are_values firstFree [.declare 0, .declare 1, .initialize_ 0 0x23 0x10, .moveAssign 0 1]
  obtain ⟨_, h2, h3, _, h5⟩ := C57_ownership _ _ _ _ _ e
  have h6 : abandoned (fun _ => true) [.declare 0, .declare 1, .initialize_ 0 0x23 0x10, .moveAssign 0 1] State.start = 1 := by decide +kernel
  rw [show firstFree.allocOk = fun _ => true from rfl, h6] at h5
  obtain ⟨a, ha⟩ := List.length_eq_one_iff.mp h5
  have hm : a ∈ lost := by rw [ha]; exact List.mem_singleton.mpr rfl
  exact ⟨_, w, lost, a, e, (h2 a).mpr (.inr hm), fun ho => h3 a ho hm⟩

/-- **C56.** Assigning a variable to itself, by copy or by move, empties it. -/
theorem C56_self_assignment_empties :
    truths (Spec.VarProg.run (fun _ => true) [.declare 0, .initialize_ 0 0x23 0x10, .isInitialized 0, .assign 0 0, .isInitialized 0,
      .initialize_ 0 0x23 0x10, .isInitialized 0, .moveAssign 0 0, .isInitialized 0] State.start).1 =
      [true, true, true, true, false, true, true, true, false] := by decide +kernel

/-- A program with copies, an unknown type, an allocation that fails, moves and reads. -/
example : truths (Spec.VarProg.run (fun n => n != 1) [.declare 0, .initialize_ 0 0x23 0x10, .copyConstruct 1 0, .copyConstruct 1 0, .equals 0 1,
      .initialize_ 0 0x23 0x11, .equals 0 1, .moveConstruct 2 1, .isInitialized 1, .isInitialized 2, .initialize_ 2 0x23 0x99, .isInitialized 2,
      .read 0 (.types 0x23 0x10 (fun t c => c.zero t.zero) (.returns true)), .isInitialized 0, .destroy 0, .isInitialized 0] State.start).1 =
    [true, true, false, true, true, true, false, true, false, true, false, false, true, true, true, false] := by decide +kernel

end ISD
