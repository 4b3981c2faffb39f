import Verif.Proofs.CombText
import Verif.Props.DynText

/-!
# C95: the text of ISD_CombinedTypes.h and ISD_CombinedTypes.cpp
-/

namespace ISD

open CombText

set_option maxRecDepth 20000

namespace Spec

/-- The object of this type without contents: the zero of the data type, an optional without a value, a vector without elements. -/
def Cleared (o : DynObj) : Prop :=
  match o with
  | ⟨t, .none, v⟩ => v = t.zero
  | ⟨_, .optionalValue, v⟩ => v = none
  | ⟨_, .vector, v⟩ => v = []
  | ⟨_, .optionalVector, v⟩ => v = none
  | ⟨_, .idxVector, v⟩ => v.index = [] ∧ v.values = []
  | ⟨_, .optionalIdxVector, v⟩ => v = none

end Spec

attribute [local irreducible] dynTable DynClass.all DynText.pairs findTypeClass DynText.theFile

namespace CombTextProof

open DynText (pairs Ty indexNamed typeNamed containerName)

theorem theOne_map {α β : Type} {f : β → α} {p : α → Bool} {b : β} : ∀ {l : List β}, l.Nodup → b ∈ l → (∀ x ∈ l, p (f x) = true ↔ x = b) →
    theOne p (l.map f) = some (f b) := by
  intro l hn hb hp
  have key : ∀ l : List β, l.Nodup → (∀ x ∈ l, p (f x) = true ↔ x = b) →
      ((b ∈ l → (l.map f).filter p = [f b]) ∧ (b ∉ l → (l.map f).filter p = [])) := by
    intro l
    induction l with
    | nil => exact fun _ _ => ⟨fun h => absurd h (by simp), fun _ => rfl⟩
    | cons a l ih =>
      intro hn hp
      rw [List.nodup_cons] at hn
      obtain ⟨h1, h2⟩ := ih hn.2 fun x hx => hp x (List.mem_cons_of_mem _ hx)
      have ha := hp a (List.mem_cons_self ..)
      rw [List.map_cons]
      by_cases e : a = b
      · subst e
        rw [List.filter_cons_of_pos (ha.2 rfl), h2 hn.1]
        exact ⟨fun _ => rfl, fun h => absurd (List.mem_cons_self ..) h⟩
      · rw [List.filter_cons_of_neg fun h => e (ha.1 h)]
        refine ⟨fun h => h1 ?_, fun h => h2 fun h' => h (List.mem_cons_of_mem _ h')⟩
        rcases List.mem_cons.1 h with h | h
        · exact absurd h.symm e
        · exact h
  rw [theOne, (key l hn hp).1 hb]

theorem theOne_none {α : Type} {p : α → Bool} {l : List α} (h : ∀ x ∈ l, p x = false) : theOne p l = none := by
  have : l.filter p = [] := List.filter_eq_nil_iff.2 fun a ha => by simp [h a ha]
  rw [theOne, this]

theorem mem_pairs {t : DataType} (h : t ∈ allTypes) (c : Container) : (c, t.name.toList) ∈ pairs := by
  unfold pairs
  exact List.mem_flatMap.2 ⟨t, h, List.mem_map.2 ⟨c, by cases c <;> decide, rfl⟩⟩

theorem of_pairs {p : Container × Cpp.Name} (h : p ∈ pairs) : ∃ t ∈ allTypes, p.2 = t.name.toList := by
  unfold pairs at h
  obtain ⟨t, h1, h2⟩ := List.mem_flatMap.1 h
  obtain ⟨c, _, rfl⟩ := List.mem_map.1 h2
  exact ⟨t, h1, rfl⟩

theorem ids_enum : ∀ p ∈ typeIds, enumerator typeEnum "data_type_index" ("dt_".toList ++ p.2.name.toList) = some p.1 := by
  simp only [enumerator, parse_types]
  decide +kernel

theorem containers_enum (c : Container) : enumerator containerEnum "container_type_index" ("ct_".toList ++ (containerName c).toList) = some c.id := by
  simp only [enumerator, parse_containers]
  revert c
  have : ∀ c ∈ allContainers, (if "container_type_index".toList = "container_type_index".toList then
      Option.map (fun p => p.2) (theOne (fun p => p.1 == "ct_".toList ++ (containerName c).toList)
        (allContainers.map fun c => ("ct_".toList ++ (containerName c).toList, c.id))) else none) = some c.id := by
    decide +kernel
  exact fun c => this c (by cases c <;> decide)

theorem has_id : ∀ t ∈ allTypes, ∃ i, (i, t) ∈ typeIds := by
  have : ∀ t ∈ allTypes, ∃ p ∈ typeIds, p.2 = t := by decide +kernel
  intro t h
  obtain ⟨⟨i, _⟩, h1, rfl⟩ := this t h
  exact ⟨i, h1⟩

theorem info_of {t : DataType} {i : Nat} (hi : (i, t) ∈ typeIds) (ht : t ∈ allTypes) (c : Container) :
    information typeEnum containerEnum header (c, t.name.toList) = some ⟨t, i, c.id⟩ := by
  have h1 : theOne (fun i : Info => i.ty == (c, t.name.toList)) (pairs.map fun p => infoAst p.1 p.2) = some (infoAst c t.name.toList) :=
    theOne_map (f := fun p : Container × Cpp.Name => infoAst p.1 p.2) (b := (c, t.name.toList)) DynTextProof.pairs_nodup (mem_pairs ht c)
      fun x _ => by show (x == _) = true ↔ _; exact beq_iff_eq
  simp only [information, parse_header, Option.bind_eq_bind, Option.bind_some, h1]
  simp only [infoAst, Option.bind_some, (DynText.ids_named _ hi).2, ids_enum _ hi, containers_enum, Option.pure_def]

theorem info_none {c : Container} {n : Cpp.Name} (h : ∀ t ∈ allTypes, n ≠ t.name.toList) : information typeEnum containerEnum header (c, n) = none := by
  have h1 : theOne (fun i : Info => i.ty == (c, n)) (pairs.map fun p => infoAst p.1 p.2) = none := by
    refine theOne_none fun x hx => ?_
    obtain ⟨p, hp, rfl⟩ := List.mem_map.1 hx
    obtain ⟨t, ht, e⟩ := of_pairs hp
    show ((p.1, p.2) == (c, n)) = false
    rw [beq_eq_false_iff_ne]
    intro e'
    exact h t ht ((congrArg Prod.snd e').symm.trans e)
  simp only [information, parse_header, Option.bind_eq_bind, Option.bind_some, h1, Option.bind_none]

theorem index_none {n : Cpp.Name} (h : ∀ t ∈ allTypes, n ≠ t.name.toList) : indexNamed n = none := by
  have ht : ∀ p ∈ typeIds, p.2 ∈ allTypes := by decide +kernel
  have : typeIds.find? (fun p => p.2.name.toList == n) = none := by
    rw [List.find?_eq_none]
    intro p hp e
    exact h p.2 (ht p hp) (beq_iff_eq.1 e).symm
  rw [indexNamed, this]
  rfl

end CombTextProof

open CombTextProof

/-- `combined_type_information<T>`, as ISD_CombinedTypes.h declares it, has for every data type and container (also for none) the data type, its documented number and the
documented number of the container. -/
theorem C95_information {t : DataType} (ht : t ∈ allTypes) (c : Container) : ∃ i j, Spec.TypeId i t ∧ Spec.ContainerId j c ∧
    information typeEnum containerEnum header (c, t.name.toList) = some ⟨t, i, j⟩ := by
  obtain ⟨i, hi⟩ := has_id t ht
  exact ⟨i, c.id, mem_typeIds.1 hi, (containerId_iff _ _).2 rfl, info_of hi ht c⟩

/-- There is no such information on any other type. -/
theorem C95_nothing_else (c : Container) (n : Cpp.Name) (h : ∀ t ∈ allTypes, n ≠ t.name.toList) :
    information typeEnum containerEnum header (c, n) = none := info_none h

/-- Two types with the same two numbers are the same type. -/
theorem C95_told_apart {a b : DynText.Ty} {k l : Known} (ha : information typeEnum containerEnum header a = some k)
    (hb : information typeEnum containerEnum header b = some l) (h1 : k.typeIndex = l.typeIndex) (h2 : k.containerIndex = l.containerIndex) : a = b := by
  have inv : ∀ {a : DynText.Ty} {k : Known}, information typeEnum containerEnum header a = some k →
      (k.typeIndex, k.dataType) ∈ typeIds ∧ k.containerIndex = a.1.id ∧ a.2 = k.dataType.name.toList := by
    rintro ⟨c, n⟩ k hk
    by_cases hn : ∃ t ∈ allTypes, n = t.name.toList
    · obtain ⟨t, ht, rfl⟩ := hn
      obtain ⟨i, hi⟩ := has_id t ht
      rw [info_of hi ht c] at hk
      cases hk
      exact ⟨hi, rfl, rfl⟩
    · rw [info_none fun t ht e => hn ⟨t, ht, e⟩] at hk
      cases hk
  obtain ⟨a1, a2, a3⟩ := inv ha
  obtain ⟨b1, b2, b3⟩ := inv hb
  have hids : (typeIds.map fun p => p.1).Nodup := by decide +kernel
  have ht : k.dataType = l.dataType := by
    have hinj : ∀ ps : List (Nat × DataType), (ps.map fun p => p.1).Nodup → ∀ i x z, (i, x) ∈ ps → (i, z) ∈ ps → x = z := by
      intro ps
      induction ps with
      | nil => intro _ i x z h; cases h
      | cons p ps ih =>
        intro hn i x z hx hz
        rw [List.map_cons, List.nodup_cons] at hn
        rcases List.mem_cons.1 hx with hx | hx <;> rcases List.mem_cons.1 hz with hz | hz
        · exact congrArg Prod.snd (hx.trans hz.symm)
        · exact absurd (List.mem_map.2 ⟨(i, z), hz, show i = p.1 from congrArg Prod.fst hx⟩) hn.1
        · exact absurd (List.mem_map.2 ⟨(i, x), hx, show i = p.1 from congrArg Prod.fst hz⟩) hn.1
        · exact ih hn.2 i x z hx hz
    exact hinj typeIds hids _ _ _ a1 (h1 ▸ b1)
  have hc : a.1 = b.1 := by
    have : a.1.id = b.1.id := a2.symm.trans (h2.trans b2)
    revert this
    cases a.1 <;> cases b.1 <;> decide
  exact Prod.ext hc (a3.trans (ht ▸ b3.symm))

/-- `clear_combined_type( x )`, as ISD_CombinedTypes.cpp defines it, is defined for an object of every type, whatever its value, and leaves an object of the same type without
contents. -/
theorem C95_clear (o : DynObj) (ho : o.t ∈ allTypes) : ∃ o', clearCombined source o = some o' ∧ o'.t = o.t ∧ o'.c = o.c ∧ Spec.Cleared o' := by
  obtain ⟨t, c, v⟩ := o
  have h1 : theOne (fun f : Fn => f.ty == (c, t.name.toList)) (DynText.pairs.map fun p => fnAst p.1 p.2) = some (fnAst c t.name.toList) :=
    theOne_map (f := fun p : Container × Cpp.Name => fnAst p.1 p.2) (b := (c, t.name.toList)) DynTextProof.pairs_nodup (mem_pairs ho c)
      fun x _ => by show (x == _) = true ↔ _; exact beq_iff_eq
  have h2 : clearCombined source ⟨t, c, v⟩ = some ⟨t, c, c.zero t.zero⟩ := by
    simp only [clearCombined, parse_source, Option.bind_eq_bind, Option.bind_some, h1]
    simp only [fnAst, if_true]
    cases c <;> simp [bodyAst, Body.run, assignZero, callClear, callReset, Container.zero]
  refine ⟨_, h2, rfl, rfl, ?_⟩
  cases c <;> first | rfl | exact ⟨rfl, rfl⟩

/-- A cleared object is determined by its type. -/
theorem C95_one_cleared {a b : DynObj} (h1 : a.t = b.t) (h2 : a.c = b.c) (ha : Spec.Cleared a) (hb : Spec.Cleared b) : a = b := by
  obtain ⟨t, c, v⟩ := a
  obtain ⟨t', c', v'⟩ := b
  dsimp only at h1 h2
  subst h1 h2
  cases c <;> try (exact congrArg _ (Eq.trans ha (Eq.symm hb)))
  obtain ⟨i, x⟩ := v
  obtain ⟨j, z⟩ := v'
  obtain ⟨h1, h2⟩ := ha
  obtain ⟨h3, h4⟩ := hb
  dsimp only at h1 h2 h3 h4
  rw [h1, h2, h3, h4]

/-- A cleared object is equal to what `new_type` makes for the two numbers of its type. -/
theorem C95_clear_is_new (o : DynObj) (ho : o.t ∈ allTypes) {k : Known} (hk : information typeEnum containerEnum header (o.c, o.t.name.toList) = some k) :
    newType (BitVec.ofNat 32 k.typeIndex) (BitVec.ofNat 32 k.containerIndex) = clearCombined source o := by
  obtain ⟨i, hi⟩ := has_id o.t ho
  rw [info_of hi ho o.c] at hk
  cases hk
  obtain ⟨i', j', e, hm⟩ := DynTextProof.found (dt := BitVec.ofNat 32 i) (ct := BitVec.ofNat 32 o.c.id)
    ⟨i, o.c.id, mem_typeIds.1 hi, (containerId_iff _ _).2 rfl, rfl, rfl⟩
  obtain ⟨o', h1, h2, h3, h4⟩ := C95_clear o ho
  rw [h1, newType, e]
  refine congrArg some (C95_one_cleared h2.symm h3.symm ?_ h4)
  cases o.c <;> first | rfl | exact ⟨rfl, rfl⟩

/-- `Varying::Initialize<T>()`, `SetType<T>( obj )`: with the numbers of `combined_type_information<T>` a Varying with any contents comes to hold an object of the type `T`
without contents, and has these numbers, so that afterwards `IsA<T>()` is true (and of other types false, `C95_told_apart`). -/
theorem C95_set_type {t : DataType} (ht : t ∈ allTypes) (c : Container) {k : Known} (hk : information typeEnum containerEnum header (c, t.name.toList) = some k)
    (v : Varying) (hv : ∀ o, v.data = some o → ∃ k', information typeEnum containerEnum header (o.c, o.t.name.toList) = some k' ∧ k'.dataType = o.t ∧
      v.ty = BitVec.ofNat 32 k'.typeIndex ∧ v.ct = BitVec.ofNat 32 k'.containerIndex) :
    ∃ o, Spec.Cleared o ∧ o.t = t ∧ o.c = c ∧
      Varying.setType (BitVec.ofNat 32 k.typeIndex) (BitVec.ofNat 32 k.containerIndex) v =
        .ok true ⟨BitVec.ofNat 32 k.typeIndex, BitVec.ofNat 32 k.containerIndex, some o⟩ := by
  have hnew := C95_clear_is_new ⟨t, c, c.zero t.zero⟩ ht hk
  obtain ⟨o, h1, h2, h3, h4⟩ := C95_clear ⟨t, c, c.zero t.zero⟩ ht
  rw [h1] at hnew
  refine ⟨o, h4, h2, h3, ?_⟩
  have hd : ∃ v', Varying.deinitialize v = .ok true v' := by
    cases e : v.data with
    | none =>
      refine ⟨v, ?_⟩
      rw [Varying.deinitialize, Prog.bind_ok (Prog.get_apply _), e]
      rfl
    | some p =>
      obtain ⟨k', hk', hdt, hty, hct⟩ := hv p e
      by_cases hn : ∃ t ∈ allTypes, p.t.name.toList = t.name.toList
      · obtain ⟨t', ht', e'⟩ := hn
        obtain ⟨i, hi⟩ := has_id t' ht'
        rw [e', info_of hi ht' p.c] at hk'
        cases hk'
        dsimp only at hdt hty hct
        subst hdt
        obtain ⟨i', j', ef, hm⟩ := DynTextProof.found (dt := v.ty) (ct := v.ct) ⟨i, p.c.id, mem_typeIds.1 hi, (containerId_iff _ _).2 rfl, hty, hct⟩
        have hdyn : v.dynamic (fun _ => (return true : Prog Varying Bool)) v = .ok true v := by
          rw [Varying.dynamic, e]
          dsimp only
          rw [ef]
          dsimp only
          rw [DynObj.madeBy, if_pos (decide_eq_true ⟨rfl, rfl⟩)]
          rfl
        refine ⟨⟨0, 0, none⟩, ?_⟩
        rw [Varying.deinitialize, Prog.bind_ok (Prog.get_apply _), e]
        dsimp only [Option.isSome]
        rw [if_pos rfl]
        exact (Prog.bind_ok hdyn).trans rfl
      · rw [info_none fun t ht e => hn ⟨t, ht, e⟩] at hk'
        cases hk'
  obtain ⟨v', hd⟩ := hd
  rw [Varying.setType, Prog.bind_ok hd, hnew]
  rfl

/-- What `C94` assumes of these two files is what they do: the numbers that a class gives as its `Type()` are those of the information on its type … -/
theorem C95_as_type_uses_it (cl : DynText.Class) (h : cl.typeIndex = cl.containerIndex) :
    cl.type = (information typeEnum containerEnum header cl.typeIndex).map fun k => (k.typeIndex, k.containerIndex) := by
  rw [DynText.Class.type, ← h]
  obtain ⟨c, n⟩ := cl.typeIndex
  by_cases hn : ∃ t ∈ allTypes, n = t.name.toList
  · obtain ⟨t, ht, rfl⟩ := hn
    obtain ⟨i, hi⟩ := has_id t ht
    rw [info_of hi ht c, (DynText.ids_named _ hi).1]
    rfl
  · have hn' : ∀ t ∈ allTypes, n ≠ t.name.toList := fun t ht e => hn ⟨t, ht, e⟩
    rw [info_none hn', index_none hn']
    rfl

/-- … and its `Clear` replaces the object by what `clear_combined_type` leaves. -/
theorem C95_as_clear_uses_it (x : DynText.Outside) (cl : DynText.Class) (hv : cl.clear.var = "data".toList) (a : Nat) (o : DynObj) (ho : o.t ∈ allTypes)
    (ht : cl.clear.ty = (o.c, o.t.name.toList)) (m : DynText.Mem) (hm : m.world.heap a = some o) :
    DynText.method x cl "Clear".toList [.ptr (some a)] m = .ok .void (Spec.setHeap m a (clearCombined source o)) := by
  obtain ⟨o', h1, h2, h3, h4⟩ := C95_clear o ho
  have hz : o' = ⟨o.t, o.c, o.c.zero o.t.zero⟩ := by
    refine C95_one_cleared h2 h3 h4 ?_
    cases o.c <;> first | rfl | exact ⟨rfl, rfl⟩
  obtain ⟨i, hi⟩ := has_id o.t ho
  have hobj : DynText.object cl.clear.ty a m = .ok o m := by
    rw [DynText.object, hm, ht, (DynText.ids_named _ hi).2]
    exact if_pos ⟨rfl, rfl⟩
  have htar : DynText.target [("data".toList, .ptr (some a))] cl.clear m = .ok (a, o) m := by
    rw [DynText.target, hv]
    show (DynText.object cl.clear.ty a >>= fun o => pure (a, o)) m = _
    rw [Prog.bind_ok hobj]
    rfl
  rw [h1, hz]
  show (DynText.target [("data".toList, .ptr (some a))] cl.clear >>= _) m = _
  rw [Prog.bind_ok htar]
  rfl

/-- The information on `vector<fvec3>`, and what `clear_combined_type` leaves of one with an element. -/
example : information typeEnum containerEnum header (.vector, "fvec3".toList) = some ⟨fvec3Type, 0x61, 0x10⟩ ∧
    clearCombined source ⟨fvec3Type, .vector, [fvec3Type.zero]⟩ = some ⟨fvec3Type, .vector, []⟩ := by
  have hm : fvec3Type ∈ allTypes := by decide +kernel
  refine ⟨info_of (t := fvec3Type) (by decide +kernel) hm .vector, ?_⟩
  obtain ⟨o, h1, h2, h3, h4⟩ := C95_clear ⟨fvec3Type, .vector, [fvec3Type.zero]⟩ hm
  rw [h1]
  exact congrArg some (C95_one_cleared (b := ⟨fvec3Type, .vector, []⟩) h2 h3 h4 rfl)

end ISD
