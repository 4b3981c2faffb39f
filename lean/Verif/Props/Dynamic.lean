import Verif.Proofs.Dynamic
import Verif.Proofs.GraphSearch

/-!
# C38: the dynamic type lookup
-/

namespace ISD

namespace Spec

/-- The documented numbering: variant `v` of base type `b` has the id `16 (b+1) + (v+1)`. -/
def TypeId (id : Nat) (t : DataType) : Prop :=
  ∃ b v variants, baseTypes[b]? = some variants ∧ variants[v]? = some t ∧ id = 16 * (b + 1) + (v + 1)

/-- The numbers of the container types. -/
def ContainerId : Nat → Container → Prop
  | 0x00, .none => True
  | 0x01, .optionalValue => True
  | 0x10, .vector => True
  | 0x11, .optionalVector => True
  | 0x20, .idxVector => True
  | 0x21, .optionalIdxVector => True
  | _, _ => False

end Spec

theorem mem_typeIds {id : Nat} {t : DataType} : (id, t) ∈ typeIds ↔ Spec.TypeId id t := by
  unfold typeIds Spec.TypeId
  constructor
  · intro h
    obtain ⟨⟨variants, b⟩, h1, h2⟩ := List.mem_flatMap.mp h
    obtain ⟨⟨t', v⟩, h3, h4⟩ := List.mem_map.mp h2
    dsimp only at h2 h3 h4
    cases h4
    refine ⟨b, v, variants, ?_, ?_, ?_⟩
    · simpa using List.mem_zipIdx_iff_getElem?.mp h1
    · simpa using List.mem_zipIdx_iff_getElem?.mp h3
    · rw [Nat.shiftLeft_eq]; omega
  · rintro ⟨b, v, variants, h1, h2, rfl⟩
    refine List.mem_flatMap.mpr ⟨(variants, b), List.mem_zipIdx_iff_getElem?.mpr h1, ?_⟩
    refine List.mem_map.mpr ⟨(t, v), List.mem_zipIdx_iff_getElem?.mpr h2, ?_⟩
    dsimp only
    rw [Nat.shiftLeft_eq, Nat.mul_comm 16 (b + 1)]

theorem containerId_iff (n : Nat) (c : Container) : Spec.ContainerId n c ↔ n = c.id := by
  constructor
  · intro h; unfold Spec.ContainerId at h; split at h <;> first | rfl | exact h.elim
  · rintro rfl; cases c <;> trivial

theorem mem_all {cl : DynClass} : cl ∈ DynClass.all ↔ Spec.TypeId cl.dt cl.t ∧ Spec.ContainerId cl.ct cl.c := by
  rw [← mem_typeIds, containerId_iff]
  unfold DynClass.all
  constructor
  · intro h
    obtain ⟨⟨id, t⟩, h1, h2⟩ := List.mem_flatMap.mp h
    obtain ⟨c, h3, h4⟩ := List.mem_map.mp h2
    cases h4
    exact ⟨h1, rfl⟩
  · obtain ⟨dt, ct, t, c⟩ := cl
    rintro ⟨h1, h2⟩
    dsimp only at h1 h2
    subst h2
    refine List.mem_flatMap.mpr ⟨(dt, t), h1, List.mem_map.mpr ⟨c, ?_, rfl⟩⟩
    cases c <;> simp [allContainers]

/-- **C38.** For every pair of `int`s given as data type and container type the lookup loop ends, and with one result only: the class of
data type `t` and container `c` when the pair is the pair of their documented numbers, and a refusal when there is no such type and
container. There are 324 = 54 · 6 such pairs, all different. -/
theorem C38_dynamic_lookup (dt ct : Word 4) :
    (∃ r, ∀ r', Graph.Ends (findStep dynTable dt ct) (findStart dt ct) r' ↔ r' = r) ∧
    (∀ t c, (∃ cl, Graph.Ends (findStep dynTable dt ct) (findStart dt ct) (some cl) ∧ cl.t = t ∧ cl.c = c) ↔
      ∃ i j, Spec.TypeId i t ∧ Spec.ContainerId j c ∧ dt = BitVec.ofNat 32 i ∧ ct = BitVec.ofNat 32 j) ∧
    (Graph.Ends (findStep dynTable dt ct) (findStart dt ct) none ↔
      ¬ ∃ t c i j, Spec.TypeId i t ∧ Spec.ContainerId j c ∧ dt = BitVec.ofNat 32 i ∧ ct = BitVec.ofNat 32 j) ∧
    (∀ r, Graph.Ends (findStep dynTable dt ct) (findStart dt ct) r ↔ r = findTypeClass dt ct) := by
  obtain ⟨he, hf⟩ := find_exact dt ct
  have hu : ∀ r, Graph.Ends (findStep dynTable dt ct) (findStart dt ct) r ↔ r = findTypeClass dt ct :=
    fun r => ⟨fun h => h.unique he, fun h => h ▸ he⟩
  have hsome : ∀ t c, (∃ cl, Graph.Ends (findStep dynTable dt ct) (findStart dt ct) (some cl) ∧ cl.t = t ∧ cl.c = c) ↔
      ∃ i j, Spec.TypeId i t ∧ Spec.ContainerId j c ∧ dt = BitVec.ofNat 32 i ∧ ct = BitVec.ofNat 32 j := by
    intro t c
    constructor
    · rintro ⟨cl, h, rfl, rfl⟩
      obtain ⟨h1, h2, h3⟩ := (hf cl).mp ((hu _).mp h).symm
      obtain ⟨h4, h5⟩ := mem_all.mp h1
      exact ⟨_, _, h4, h5, h2.symm, h3.symm⟩
    · rintro ⟨i, j, h1, h2, rfl, rfl⟩
      refine ⟨⟨i, j, t, c⟩, (hu _).mpr ((hf ⟨i, j, t, c⟩).mpr ⟨mem_all.mpr ⟨h1, h2⟩, rfl, rfl⟩).symm, rfl, rfl⟩
  refine ⟨⟨_, hu⟩, hsome, ?_, hu⟩
  rw [hu]
  constructor
  · rintro h ⟨t, c, i, j, hh⟩
    obtain ⟨cl, h1, _⟩ := (hsome t c).mpr ⟨i, j, hh⟩
    rw [hu, ← h] at h1
    cases h1
  · intro h
    rcases e : findTypeClass dt ct with _ | cl
    · rfl
    · exact absurd ⟨cl.t, cl.c, (hsome _ _).mp ⟨cl, (hu _).mpr e.symm, rfl, rfl⟩⟩ h

/-- The 324 registered pairs of numbers are pairwise different, and each is one type and one container. -/
theorem C38_registered_pairs : DynClass.all.length = 54 * 6 ∧ allTypes.length = 54 ∧
    (DynClass.all.map fun cl => (cl.dt, cl.ct)).Nodup ∧
    ∀ cl, cl ∈ DynClass.all ↔ Spec.TypeId cl.dt cl.t ∧ Spec.ContainerId cl.ct cl.c :=
  ⟨all_length, by decide +kernel, all_keys_nodup, fun _ => mem_all⟩

/-- `DT_Int` with a vector is found, the zero pair and a negative pair are refused. -/
example : (∃ cl, findTypeClass 0x23 0x10 = some cl ∧ cl.c = .vector) ∧ findTypeClass 0 0 = none ∧ findTypeClass (-1) (-1) = none := by
  refine ⟨?_, ?_, ?_⟩ <;> decide +kernel

end ISD
