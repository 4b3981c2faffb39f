import Verif.Proofs.DynTextFile

/-!
# The table in the text of ISD_DynamicTypes.cpp, and the search in it
-/

namespace ISD.DynText

open Cpp (St Raw Name isId)

set_option maxRecDepth 20000

/-- What is before `_ct_`. -/
def cut : List Char → List Char
  | [] => []
  | c :: cs => if "_ct_".toList.isPrefixOf (c :: cs) then [] else c :: cut cs

theorem cut_pairs : ∀ p ∈ pairs, cut ((fullName p.1 p.2 "_DynamicTypeObject").drop 4) = p.2 := by decide +kernel

theorem ids_named : ∀ p ∈ typeIds, indexNamed p.2.name.toList = some p.1 ∧ typeNamed p.2.name.toList = some p.2 := by decide +kernel

theorem all_ids : ∀ cl ∈ DynClass.all, (cl.dt, cl.t) ∈ typeIds ∧ cl.c.id = cl.ct := by
  intro cl h
  rw [DynClass.all] at h
  simp only [List.mem_flatMap, List.mem_map] at h
  obtain ⟨⟨i, t⟩, h1, c, _, rfl⟩ := h
  exact ⟨h1, rfl⟩

attribute [local irreducible] dynTable DynClass.all pairs

theorem object_inj {p q : Container × Name} (hp : p ∈ pairs) (hq : q ∈ pairs)
    (h : fullName p.1 p.2 "_DynamicTypeObject" = fullName q.1 q.2 "_DynamicTypeObject") : p = q := by
  have ht : p.2 = q.2 := by rw [← cut_pairs p hp, ← cut_pairs q hq, h]
  obtain ⟨c, t⟩ := p
  obtain ⟨c', t'⟩ := q
  dsimp only at ht h
  subst ht
  rw [fullName, fullName, List.append_cancel_left_eq, List.append_cancel_left_eq, List.append_cancel_left_eq] at h
  have hc : ∀ c c' : Container, (containerName c).toList ++ "_DynamicTypeObject".toList = (containerName c').toList ++ "_DynamicTypeObject".toList → c = c' := by
    intro c c'
    cases c <;> cases c' <;> decide
  rw [hc c c' h]

/-- The class in the text of a class of the model. -/
def classOf (cl : DynClass) : Class := classAst cl.c cl.t.name.toList

theorem pair_mem {cl : DynClass} (h : cl ∈ DynClass.all) : (cl.c, cl.t.name.toList) ∈ pairs := by
  rw [pairs]
  refine List.mem_flatMap.2 ⟨cl.t, all_types cl h, List.mem_map.2 ⟨cl.c, ?_, rfl⟩⟩
  cases cl.c <;> decide

theorem find_object {cl : DynClass} (h : cl ∈ DynClass.all) :
    (pairs.map fun p => classAst p.1 p.2).find? (fun c => c.object == fullName cl.c cl.t.name.toList "_DynamicTypeObject") = some (classOf cl) := by
  have hm := pair_mem h
  have : ∀ l : List (Container × Name), (∀ p ∈ l, p ∈ pairs) → (cl.c, cl.t.name.toList) ∈ l →
      (l.map fun p => classAst p.1 p.2).find? (fun c => c.object == fullName cl.c cl.t.name.toList "_DynamicTypeObject") = some (classOf cl) := by
    intro l
    induction l with
    | nil => intro _ hn; cases hn
    | cons p l ih =>
      intro hl hn
      rw [List.map_cons, List.find?_cons]
      by_cases e : p = (cl.c, cl.t.name.toList)
      · subst e
        have : ((classAst cl.c cl.t.name.toList).object == fullName cl.c cl.t.name.toList "_DynamicTypeObject") = true := beq_iff_eq.2 rfl
        rw [this]
        rfl
      · have : ((classAst p.1 p.2).object == fullName cl.c cl.t.name.toList "_DynamicTypeObject") = false := by
          rw [beq_eq_false_iff_ne]
          intro h'
          exact e (object_inj (hl p (List.mem_cons_self ..)) hm h')
        rw [this]
        exact ih (fun q hq => hl q (List.mem_cons_of_mem _ hq)) ((List.mem_cons.1 hn).resolve_left fun h' => e h'.symm)
  exact this pairs (fun _ h => h) hm

/-- The file. -/
def theFile : File := fileAst pairs dynTable

theorem entry_at {h : Nat} (hh : h < 577) : theFile.entry h = some ((dynTable.getD h none).map classOf) := by
  have hl := dynTable_length
  have e : theFile.table.length = theFile.tableSize := by
    show (dynTable.map _).length = 577
    rw [List.length_map, hl]
  rw [File.entry, if_pos e]
  show (match (dynTable.map fun o => o.map fun cl => fullName cl.c cl.t.name.toList "_DynamicTypeObject")[h]? with
    | none => none | some none => some none
    | some (some n) => ((pairs.map fun p : Container × Name => classAst p.1 p.2).find? fun c : Class => c.object == n).map some) = _
  rw [List.getElem?_map, List.getD_eq_getElem?_getD]
  cases hg : dynTable[h]? with
  | none =>
    have := List.getElem?_eq_none_iff.1 hg
    omega
  | some o =>
    cases o with
    | none => rfl
    | some cl =>
      show ((pairs.map fun p : Container × Name => classAst p.1 p.2).find? fun c : Class => c.object == fullName cl.c cl.t.name.toList "_DynamicTypeObject").map some = _
      rw [find_object (table_class (List.mem_iff_getElem?.2 ⟨h, hg⟩))]
      rfl

theorem type_of {cl : DynClass} (h : cl ∈ DynClass.all) : (classOf cl).type = some (cl.dt, cl.ct) := by
  obtain ⟨h1, h2⟩ := all_ids cl h
  have := (ids_named _ h1).1
  dsimp only at this
  show (indexNamed cl.t.name.toList).map (fun i => (i, cl.c.id)) = _
  rw [this, h2]
  rfl

theorem named {cl : DynClass} (h : cl ∈ DynClass.all) : typeNamed cl.t.name.toList = some cl.t := (ids_named _ (all_ids cl h).1).2

theorem mem_getD {h : Nat} {cl : DynClass} (e : dynTable.getD h none = some cl) : cl ∈ DynClass.all := by
  rw [List.getD_eq_getElem?_getD] at e
  cases hg : dynTable[h]? with
  | none => rw [hg] at e; cases e
  | some o =>
    rw [hg] at e
    have e' : o = some cl := e
    subst e'
    exact table_class (List.mem_iff_getElem?.2 ⟨h, hg⟩)

theorem search_loop (dt ct : Word 4) : ∀ fuel h, h < 577 → (∃ d, d < fuel ∧ stopsAt dt ct (Probe.slot dynTable h d)) →
    theFile.search dt ct fuel h = some ((findLoop dynTable dt ct fuel h).map classOf) := by
  intro fuel
  induction fuel with
  | zero => rintro h _ ⟨d, hd, _⟩; omega
  | succ fuel ih =>
    rintro h hh ⟨d, hd, hs⟩
    rw [File.search, entry_at hh]
    by_cases h0 : stopsAt dt ct (dynTable.getD h none)
    · rw [findLoop_done (findStep_stop h0)]
      cases e : dynTable.getD h none with
      | none => rfl
      | some cl =>
        rw [e] at h0
        obtain ⟨cl', e', h1⟩ := h0.resolve_left fun h => nomatch h
        cases e'
        dsimp only [Option.map_some]
        rw [type_of (mem_getD e)]
        dsimp only
        rw [if_pos h1]
    · rw [findLoop_next (findStep_next hh h0)]
      cases e : dynTable.getD h none with
      | none => exact absurd (Or.inl e) h0
      | some cl =>
        dsimp only [Option.map_some]
        rw [type_of (mem_getD e)]
        dsimp only
        rw [if_neg fun h1 => h0 (Or.inr ⟨cl, e, h1⟩)]
        have hd0 : d ≠ 0 := by
          rintro rfl
          rw [Probe.slot_zero (by rw [dynTable_length]; exact hh)] at hs
          exact h0 hs
        have hb : (if h + 1 ≥ theFile.find.bound then theFile.find.first else h + 1) = (h + 1) % 577 := Probe.succ_mod hh
        rw [hb]
        refine ih _ (Nat.mod_lt _ (by omega)) ⟨d - 1, by omega, ?_⟩
        have := Probe.slot_shift dynTable h (d - 1)
        rw [dynTable_length, show d - 1 + 1 = d by omega] at this
        rw [this]
        exact hs

/-- `_findTypeClass` of the text. -/
theorem lookup_file (dt ct : Word 4) : theFile.lookup dt ct = some ((findTypeClass dt ct).map classOf) := by
  have hl := dynTable_length
  have he := dynTable_inv.empties
  have hal := all_length
  obtain ⟨d0, hd0, hn0⟩ := Probe.exists_empty (T := dynTable) (by omega) (findStart dt ct)
  have h1 : theFile.table.length = 577 := by
    show (dynTable.map _).length = 577
    rw [List.length_map, hl]
  rw [File.lookup, if_neg (show ¬ theFile.find.mod = 0 by exact fun h => nomatch h), h1]
  exact search_loop dt ct 577 (findStart dt ct) (findStart_lt dt ct) ⟨d0, by omega, .inl hn0⟩

end ISD.DynText
