import Verif.Proofs.DynTextExec
import Verif.Props.Dynamic

/-!
# C94: the text of ISD_DynamicTypes.cpp
-/

namespace ISD

open DynText VHeap

set_option maxRecDepth 20000

namespace Spec

/-- The two `int`s are the documented numbers of the data type and of the container. -/
def Numbers (dt ct : Word 4) (t : DataType) (c : Container) : Prop :=
  ∃ i j, TypeId i t ∧ ContainerId j c ∧ dt = BitVec.ofNat 32 i ∧ ct = BitVec.ofNat 32 j

/-- The two `int`s are not the numbers of any data type and container. -/
def NoNumbers (dt ct : Word 4) : Prop := ∀ t c, ¬ Numbers dt ct t c

/-- The memory with something else at an address of the heap. -/
def setHeap (m : Mem) (a : Nat) (o : Option DynObj) : Mem :=
  { m with world := { m.world with heap := fun b => if b = a then o else m.world.heap b } }

end Spec

open Spec (Numbers NoNumbers setHeap)

attribute [local irreducible] dynTable DynClass.all pairs findTypeClass theFile

namespace DynTextProof

theorem found {dt ct : Word 4} {t : DataType} {c : Container} (h : Numbers dt ct t c) :
    ∃ i j, findTypeClass dt ct = some ⟨i, j, t, c⟩ ∧ ⟨i, j, t, c⟩ ∈ DynClass.all := by
  obtain ⟨i, j, h1, h2, rfl, rfl⟩ := h
  have hm : (⟨i, j, t, c⟩ : DynClass) ∈ DynClass.all := mem_all.2 ⟨h1, h2⟩
  exact ⟨i, j, ((find_exact _ _).2 ⟨i, j, t, c⟩).2 ⟨hm, rfl, rfl⟩, hm⟩

theorem notFound {dt ct : Word 4} (h : NoNumbers dt ct) : findTypeClass dt ct = none := by
  cases e : findTypeClass dt ct with
  | none => rfl
  | some cl =>
    obtain ⟨h1, h2, h3⟩ := ((find_exact _ _).2 cl).1 e
    obtain ⟨h4, h5⟩ := mem_all.1 h1
    exact absurd ⟨cl.dt, cl.ct, h4, h5, h2.symm, h3.symm⟩ (h cl.t cl.c)

theorem deref_at {a i j : Nat} {t : DataType} {c : Container} {v : c.Val t.Val} {u : World} (h : u.heap a = some ⟨t, c, v⟩) :
    deref a ⟨i, j, t, c⟩ u = .ok ⟨t, c, v⟩ u := by
  rw [deref, h]
  dsimp only
  rw [DynObj.madeBy, if_pos (decide_eq_true ⟨rfl, rfl⟩)]

theorem names_nodup : (allTypes.map fun t => t.name.toList).Nodup := by decide +kernel

theorem pairs_nodup_of : ∀ ts : List DataType, (ts.map fun t => t.name.toList).Nodup →
    (ts.flatMap fun t => allContainers.map fun c => (c, t.name.toList)).Nodup := by
  intro ts
  induction ts with
  | nil => intro _; exact List.nodup_nil
  | cons t ts ih =>
    intro h
    rw [List.map_cons, List.nodup_cons] at h
    rw [List.flatMap_cons, List.nodup_append]
    refine ⟨?_, ih h.2, ?_⟩
    · simp [allContainers]
    · rintro p hp q hq rfl
      obtain ⟨c, _, rfl⟩ := List.mem_map.1 hp
      obtain ⟨t', h1, h2⟩ := List.mem_flatMap.1 hq
      obtain ⟨c', _, h3⟩ := List.mem_map.1 h2
      exact h.1 (List.mem_map.2 ⟨t', h1, congrArg Prod.snd h3⟩)

theorem pairs_nodup : pairs.Nodup := by
  unfold pairs
  exact pairs_nodup_of allTypes names_nodup

theorem cut_names : ∀ p ∈ pairs, cut ((fullName p.1 p.2 "_DynamicTypeClass").drop 4) = p.2 := by
  unfold pairs
  decide +kernel

theorem name_inj {p q : Container × Cpp.Name} (hp : p ∈ pairs) (hq : q ∈ pairs)
    (h : fullName p.1 p.2 "_DynamicTypeClass" = fullName q.1 q.2 "_DynamicTypeClass") : p = q := by
  have ht : p.2 = q.2 := by rw [← cut_names p hp, ← cut_names q hq, h]
  obtain ⟨c, t⟩ := p
  obtain ⟨c', t'⟩ := q
  dsimp only at ht h
  subst ht
  rw [fullName, fullName, List.append_cancel_left_eq, List.append_cancel_left_eq, List.append_cancel_left_eq] at h
  have hc : ∀ c c' : Container, (containerName c).toList ++ "_DynamicTypeClass".toList = (containerName c').toList ++ "_DynamicTypeClass".toList → c = c' := by
    intro c c'
    cases c <;> cases c' <;> decide
  rw [hc c c' h]

theorem nodup_map_of {α β : Type} {f : α → β} : ∀ {l : List α}, l.Nodup → (∀ a ∈ l, ∀ b ∈ l, f a = f b → a = b) → (l.map f).Nodup := by
  intro l
  induction l with
  | nil => intro _ _; exact List.nodup_nil
  | cons a l ih =>
    intro h hf
    rw [List.nodup_cons] at h
    rw [List.map_cons, List.nodup_cons]
    refine ⟨?_, ih h.2 fun b hb c hc => hf b (List.mem_cons_of_mem _ hb) c (List.mem_cons_of_mem _ hc)⟩
    intro hm
    obtain ⟨b, hb, e⟩ := List.mem_map.1 hm
    exact h.1 (hf b (List.mem_cons_of_mem _ hb) a (List.mem_cons_self ..) e ▸ hb)

theorem pairs_length : pairs.length = 54 * 6 := by
  unfold pairs
  decide +kernel

end DynTextProof

open DynTextProof

/-- **C94.** The text of the file is C++ (of the part of C++ that has a meaning here): it parses. Its classes and their objects have different names, so do its functions. -/
theorem C94_the_text_parses : ∃ f, parse (tokens file) = some f ∧ f.classes.length = 54 * 6 ∧ (f.classes.map fun c => c.object).Nodup ∧
    (f.classes.map fun c => c.name).Nodup ∧
    f.fns.map (fun g => String.ofList g.name) = ["new_type", "delete_type", "clear", "write", "read", "copy", "equals"] := by
  refine ⟨_, parse_file, ?_, ?_, ?_, by decide +kernel⟩
  · show (pairs.map _).length = _
    rw [List.length_map, pairs_length]
  · show ((pairs.map fun p : Container × Cpp.Name => classAst p.1 p.2).map fun c : Class => c.object).Nodup
    rw [List.map_map]
    exact nodup_map_of pairs_nodup fun a ha b hb e => object_inj ha hb e
  · show ((pairs.map fun p : Container × Cpp.Name => classAst p.1 p.2).map fun c : Class => c.name).Nodup
    rw [List.map_map]
    exact nodup_map_of pairs_nodup fun a ha b hb e => name_inj ha hb e

/-- **C94.** `new_type`: for the numbers of a data type and a container it makes an object of that type, with the value of `T()`, at an address the allocator picks; it throws when
there is no memory. For other numbers it gives a null pointer and `false`, and changes nothing. -/
theorem C94_new_type (x : Outside) (dt ct : Word 4) (m : Mem) :
    (∀ t c, Numbers dt ct t c → call file x "new_type" [.dataType dt, .containerType ct] m =
      (let used : Mem := { m with world := { m.world with n := m.world.n + 1 } }
       if x.al.allocOk m.world.n then
        .ok (.pair (some (x.al.pick m.world.heap)) true) (setHeap used (x.al.pick m.world.heap) (some ⟨t, c, c.zero t.zero⟩))
       else .throw used)) ∧
    (NoNumbers dt ct → call file x "new_type" [.dataType dt, .containerType ct] m = .ok (.pair none false) m) := by
  rw [call_new, onWorld]
  unfold VHeap.newType
  constructor
  · intro t c h
    obtain ⟨i, j, hf, _⟩ := found h
    rw [hf, withClass, Prog.bind_apply, VHeap.new]
    by_cases e : x.al.allocOk m.world.n = true
    · rw [if_pos e]; dsimp only; rw [if_pos e]; rfl
    · rw [if_neg e]; dsimp only; rw [if_neg e]
  · intro h
    rw [notFound h]
    rfl

/-- **C94.** `delete_type`: an object of the type of the numbers is gone afterwards. A null pointer and other numbers are refused, and nothing changes. -/
theorem C94_delete_type (x : Outside) (dt ct : Word 4) (m : Mem) :
    (∀ t c a v, Numbers dt ct t c → m.world.heap a = some ⟨t, c, v⟩ →
      call file x "delete_type" [.dataType dt, .containerType ct, .ptr (some a)] m = .ok (.bool true) (setHeap m a none)) ∧
    (∀ p, p = none ∨ NoNumbers dt ct → call file x "delete_type" [.dataType dt, .containerType ct, .ptr p] m = .ok (.bool false) m) := by
  constructor
  · intro t c a v h hm
    obtain ⟨i, j, hf, _⟩ := found h
    rw [call_delete, onWorld, deleteType, hf, withClass, Prog.bind_apply, VHeap.delete, Prog.bind_apply, deref_at hm]
    rfl
  · intro p h
    rw [call_delete, onWorld]
    cases p with
    | none => rfl
    | some a => rw [deleteType, notFound (h.resolve_left fun h => nomatch h)]; rfl

/-- **C94.** `clear`: an object of the type of the numbers has the value of `T()` afterwards. A null pointer and other numbers are refused, and nothing changes. -/
theorem C94_clear (x : Outside) (dt ct : Word 4) (m : Mem) :
    (∀ t c a v, Numbers dt ct t c → m.world.heap a = some ⟨t, c, v⟩ →
      call file x "clear" [.dataType dt, .containerType ct, .ptr (some a)] m = .ok (.bool true) (setHeap m a (some ⟨t, c, c.zero t.zero⟩))) ∧
    (∀ p, p = none ∨ NoNumbers dt ct → call file x "clear" [.dataType dt, .containerType ct, .ptr p] m = .ok (.bool false) m) := by
  constructor
  · intro t c a v h hm
    obtain ⟨i, j, hf, _⟩ := found h
    rw [call_clear, onWorld, clearType, hf, withClass, Prog.bind_apply, deref_at hm]
    rfl
  · intro p h
    rw [call_clear, onWorld]
    cases p with
    | none => rfl
    | some a => rw [clearType, notFound (h.resolve_left fun h => nomatch h)]; rfl

/-- **C94.** `copy`: between two objects of the type of the numbers, the first has the value of the second afterwards, also if both are one. Null pointers and other numbers are
refused, and nothing changes. -/
theorem C94_copy (x : Outside) (dt ct : Word 4) (m : Mem) :
    (∀ t c a b v u, Numbers dt ct t c → m.world.heap a = some ⟨t, c, v⟩ → m.world.heap b = some ⟨t, c, u⟩ →
      call file x "copy" [.dataType dt, .containerType ct, .ptr (some a), .ptr (some b)] m = .ok (.bool true) (setHeap m a (some ⟨t, c, u⟩))) ∧
    (∀ p q, p = none ∨ q = none ∨ NoNumbers dt ct →
      call file x "copy" [.dataType dt, .containerType ct, .ptr p, .ptr q] m = .ok (.bool false) m) := by
  constructor
  · intro t c a b v u h hm hm'
    obtain ⟨i, j, hf, _⟩ := found h
    rw [call_copy, onWorld, copyType, hf, withClass, Prog.bind_apply, deref_at hm]
    dsimp only
    rw [Prog.bind_apply, deref_at hm']
    rfl
  · intro p q h
    rw [call_copy, onWorld]
    cases p with
    | none => rfl
    | some a =>
      cases q with
      | none => rfl
      | some b =>
        have hn : NoNumbers dt ct := (h.resolve_left (fun h => nomatch h)).resolve_left (fun h => nomatch h)
        rw [copyType, notFound hn]
        rfl

/-- **C94.** `equals`: for two objects of the type of the numbers, `==` of that type. Null pointers and other numbers give `false`. Nothing changes. -/
theorem C94_equals (x : Outside) (dt ct : Word 4) (m : Mem) :
    (∀ t c a b v u, Numbers dt ct t c → m.world.heap a = some ⟨t, c, v⟩ → m.world.heap b = some ⟨t, c, u⟩ →
      call file x "equals" [.dataType dt, .containerType ct, .ptr (some a), .ptr (some b)] m = .ok (.bool (Container.equal t.equal c v u)) m) ∧
    (∀ p q, p = none ∨ q = none ∨ NoNumbers dt ct →
      call file x "equals" [.dataType dt, .containerType ct, .ptr p, .ptr q] m = .ok (.bool false) m) := by
  constructor
  · intro t c a b v u h hm hm'
    obtain ⟨i, j, hf, _⟩ := found h
    rw [call_equals, onWorld, equalsType, hf, withClass, Prog.bind_apply, deref_at hm]
    dsimp only
    rw [Prog.bind_apply, deref_at hm']
    dsimp only
    rw [Prog.pure_apply, DynObj.equal, dif_pos ⟨rfl, rfl⟩]
    rfl
  · intro p q h
    rw [call_equals, onWorld]
    cases p with
    | none => rfl
    | some a =>
      cases q with
      | none => rfl
      | some b =>
        have hn : NoNumbers dt ct := (h.resolve_left (fun h => nomatch h)).resolve_left (fun h => nomatch h)
        rw [equalsType, notFound hn]
        rfl

/-- **C94.** `write`: an object of the type of the numbers is written as `EntityWriter::Write` of that type writes its value. A null pointer and other numbers are refused, and
nothing is written. -/
theorem C94_write (x : Outside) (dt ct : Word 4) (k : Bytes) (m : Mem) :
    (∀ t c a v, Numbers dt ct t c → m.world.heap a = some ⟨t, c, v⟩ →
      call file x "write" [.dataType dt, .containerType ct, .key k, .len k.length, .writer, .ptr (some a)] m =
        match EWriter.write t c k v m.out with
        | .ok b s => .ok (.bool b) { m with out := s }
        | .throw s => .throw { m with out := s }
        | .ub => .ub) ∧
    (∀ p, p = none ∨ NoNumbers dt ct →
      call file x "write" [.dataType dt, .containerType ct, .key k, .len k.length, .writer, .ptr p] m = .ok (.bool false) m) := by
  constructor
  · intro t c a v h hm
    obtain ⟨i, j, hf, _⟩ := found h
    rw [call_write, onObject, hf]
    dsimp only
    rw [deref_at hm]
    dsimp only
    rw [Prog.bind_apply, writeObject]
    dsimp only
    cases EWriter.write t c k v m.out <;> rfl
  · intro p h
    rw [call_write]
    cases p with
    | none => rfl
    | some a => rw [onObject, notFound (h.resolve_left fun h => nomatch h)]

/-- **C94.** `read`: an object of the type of the numbers is read as `EntityReader::Read` of that type reads: after a value has been read it is that value. A null pointer and other
numbers are refused, and nothing is read. -/
theorem C94_read (x : Outside) (dt ct : Word 4) (k : Bytes) (m : Mem) :
    (∀ t c a v, Numbers dt ct t c → m.world.heap a = some ⟨t, c, v⟩ →
      (∀ u s, EReader.read x.env t c k v m.inp = .ok (some u) s →
        call file x "read" [.dataType dt, .containerType ct, .key k, .len k.length, .reader, .ptr (some a)] m =
          .ok (.bool true) { setHeap m a (some ⟨t, c, u⟩) with inp := s }) ∧
      (∀ s, EReader.read x.env t c k v m.inp = .ok none s → ∃ u,
        call file x "read" [.dataType dt, .containerType ct, .key k, .len k.length, .reader, .ptr (some a)] m =
          .ok (.bool false) { setHeap m a (some ⟨t, c, u⟩) with inp := s }) ∧
      (∀ s, EReader.read x.env t c k v m.inp = .throw s → ∃ u,
        call file x "read" [.dataType dt, .containerType ct, .key k, .len k.length, .reader, .ptr (some a)] m =
          .throw { setHeap m a (some ⟨t, c, u⟩) with inp := s })) ∧
    (∀ p, p = none ∨ NoNumbers dt ct →
      call file x "read" [.dataType dt, .containerType ct, .key k, .len k.length, .reader, .ptr p] m = .ok (.bool false) m) := by
  constructor
  · intro t c a v h hm
    obtain ⟨i, j, hf, _⟩ := found h
    rw [call_read, onObject, hf]
    dsimp only
    rw [deref_at hm]
    dsimp only
    rw [Prog.bind_apply, readObject]
    dsimp only
    rw [readBaseInPlace]
    dsimp only
    refine ⟨fun u s e => ?_, fun s e => ⟨x.left.of t c k m.inp v, ?_⟩, fun s e => ⟨x.left.of t c k m.inp v, ?_⟩⟩ <;> (rw [e]; rfl)
  · intro p h
    rw [call_read]
    cases p with
    | none => rfl
    | some a => rw [onObject, notFound (h.resolve_left fun h => nomatch h)]

/-- A step of the heap alone, as a step of the whole memory. -/
def Spec.inMem {α : Type} (r : Res World α) (m : Mem) (out : α → DynText.Out) : Res Mem DynText.Out :=
  match r with
  | .ok a v => .ok (out a) { m with world := v }
  | .throw v => .throw { m with world := v }
  | .ub => .ub

/-- **C94.** In every memory, for all numbers and pointers, also where the behaviour is undefined, the functions of the text do what the model of Varying objects in memory (C56,
C57) has them do. -/
theorem C94_as_varying_uses_it (x : Outside) (dt ct : Word 4) (p q : Option Nat) (m : Mem) :
    call file x "new_type" [.dataType dt, .containerType ct] m = Spec.inMem (VHeap.newType x.al dt ct m.world) m (fun p => .pair p p.isSome) ∧
    call file x "delete_type" [.dataType dt, .containerType ct, .ptr p] m = Spec.inMem (VHeap.deleteType dt ct p m.world) m .bool ∧
    call file x "clear" [.dataType dt, .containerType ct, .ptr p] m = Spec.inMem (VHeap.clearType dt ct p m.world) m .bool ∧
    call file x "copy" [.dataType dt, .containerType ct, .ptr p, .ptr q] m = Spec.inMem (VHeap.copyType dt ct p q m.world) m .bool ∧
    call file x "equals" [.dataType dt, .containerType ct, .ptr p, .ptr q] m = Spec.inMem (VHeap.equalsType dt ct p q m.world) m .bool :=
  ⟨call_new x dt ct m, call_delete x dt ct p m, call_clear x dt ct p m, call_copy x dt ct p q m, call_equals x dt ct p q m⟩

/-- `DT_Vec` variant 1 with a vector has numbers; the zero pair has none. An object made by `new_type` can be cleared and deleted again, after which the heap is as before. -/
example : Numbers 0x61 0x10 fvec3Type .vector ∧ NoNumbers 0 0 ∧
    ∀ (x : Outside) (m : Mem), x.al.allocOk m.world.n = true → ∃ p m1 m2 m3,
      call file x "new_type" [.dataType 0x61, .containerType 0x10] m = .ok (.pair (some p) true) m1 ∧
      call file x "clear" [.dataType 0x61, .containerType 0x10, .ptr (some p)] m1 = .ok (.bool true) m2 ∧
      call file x "delete_type" [.dataType 0x61, .containerType 0x10, .ptr (some p)] m2 = .ok (.bool true) m3 ∧ m3.world.heap p = none ∧
      ∀ b, b ≠ p → m3.world.heap b = m.world.heap b := by
  have hn : Numbers 0x61 0x10 fvec3Type .vector := ⟨0x61, 0x10, mem_typeIds.1 (by decide +kernel), (containerId_iff _ _).2 rfl, rfl, rfl⟩
  refine ⟨hn, ?_, ?_⟩
  · intro t c h
    obtain ⟨i, j, e, _⟩ := found h
    have : findTypeClass 0 0 = none := by decide +kernel
    rw [this] at e
    exact nomatch e
  · intro x m ha
    refine ⟨_, _, _, _, ((C94_new_type x _ _ m).1 _ _ hn).trans (if_pos ha), (C94_clear x _ _ _).1 _ _ _ (Container.vector.zero fvec3Type.zero) hn (if_pos rfl),
      (C94_delete_type x _ _ _).1 _ _ _ (Container.vector.zero fvec3Type.zero) hn (if_pos rfl), if_pos rfl, ?_⟩
    intro b hb
    exact (if_neg hb).trans ((if_neg hb).trans (if_neg hb))

end ISD
