import Verif.Props.Entities
import Verif.Props.SectionEnds
import Verif.Model.TableCalls

/-!
# C71: a table is a finite map under every history of calls
-/

namespace ISD

/-! ## The finite map -/

/-- A finite map with possibly null values: what is stored under each key, if anything. -/
abbrev FMap (K V : Type) := K → Option (Option V)

/-- The map with one key changed. -/
def FMap.with {K V : Type} [DecidableEq K] (m : FMap K V) (k : K) (x : Option (Option V)) : FMap K V := fun k' => if k' = k then x else m k'

/-- What a call does to a finite map; no map at all is undefined behaviour. `new` is the contents of a new object, `same` relates an object to
its copies. -/
inductive MapStep {K V : Type} [DecidableEq K] (new : V) (same : V → V → Prop) : TableCall K V → FMap K V → Option (FMap K V) → Prop where
  /-- `Insert` under a new key makes a new object. -/
  | insertNew (m : FMap K V) (k f) (h : m k = none) : MapStep new same (.insert k f) m (some (m.with k (some (some (f new)))))
  /-- `Insert` under a key that is there gives the object that is there. -/
  | insertOld (m : FMap K V) (k f v) (h : m k = some (some v)) : MapStep new same (.insert k f) m (some (m.with k (some (some (f v)))))
  /-- `Insert` under a key with a null. -/
  | insertNull (m : FMap K V) (k f) (h : m k = some none) : MapStep new same (.insert k f) m none
  /-- `operator[]` gives the object that is there. -/
  | index (m : FMap K V) (k f v) (h : m k = some (some v)) : MapStep new same (.index k f) m (some (m.with k (some (some (f v)))))
  /-- `operator[]` under a key that is not there, or with a null. -/
  | indexBad (m : FMap K V) (k f) (h : ∀ v, m k ≠ some (some v)) : MapStep new same (.index k f) m none
  /-- `emplace` adds a new key. -/
  | emplaceNew (m : FMap K V) (k x) (h : m k = none) : MapStep new same (.emplace k x) m (some (m.with k (some x)))
  /-- `emplace` does nothing when the key is there. -/
  | emplaceOld (m : FMap K V) (k x y) (h : m k = some y) : MapStep new same (.emplace k x) m (some m)
  /-- Assignment to `Entries()[key]`. -/
  | put (m : FMap K V) (k x) : MapStep new same (.put k x) m (some (m.with k (some x)))
  | erase (m : FMap K V) (k) : MapStep new same (.erase k) m (some (m.with k none))
  | clear (m : FMap K V) : MapStep new same .clear m (some fun _ => none)
  | copyNull (m : FMap K V) : MapStep new same .copyNull m (some fun _ => none)
  /-- Copy from another table: the same keys and nulls, and copies of the objects. -/
  | copyFrom (m : FMap K V) (s : Table K V) (m') (h : ∀ k, OptRel (OptRel same) (m' k) (s.find k)) : MapStep new same (.copyFrom s) m (some m')
  /-- A table assigned to itself is emptied (finding: see C35). -/
  | copySelf (m : FMap K V) : MapStep new same .copySelf m (some fun _ => none)

/-- What a history does to a finite map. -/
inductive MapSteps {K V : Type} [DecidableEq K] (new : V) (same : V → V → Prop) : List (TableCall K V) → FMap K V → Option (FMap K V) → Prop where
  | nil (m) : MapSteps new same [] m (some m)
  | ub (c cs m) (h : MapStep new same c m none) : MapSteps new same (c :: cs) m none
  | cons (c cs m m' o) (h : MapStep new same c m (some m')) (t : MapSteps new same cs m' o) : MapSteps new same (c :: cs) m o

variable {K V : Type} [DecidableEq K]

/-- The table holds the map: every key once, with what the map has under it. -/
structure Holds (t : Table K V) (m : FMap K V) : Prop where
  nodup : (t.map Prod.fst).Nodup
  find : ∀ k, t.find k = m k

/-- Every object in the call is one the public interface can produce: changes keep objects well formed. -/
def TableCall.Wf (S : ClassSpec V) : TableCall K V → Prop
  | .insert _ f => ∀ v, S.wf v → S.wf (f v)
  | .index _ f => ∀ v, S.wf v → S.wf (f v)
  | .emplace _ x => ∀ v, x = some v → S.wf v
  | .put _ x => ∀ v, x = some v → S.wf v
  | .copyFrom s => (s.map Prod.fst).Nodup ∧ ∀ k v, (k, some v) ∈ s → S.wf v
  | _ => True

theorem assign_keys (t : Table K V) (k : K) (x : Option V) : (t.assign k x).map Prod.fst = t.map Prod.fst := by
  unfold Table.assign
  rw [List.map_map]
  refine List.map_congr_left fun e _ => ?_
  show (if e.1 = k then (k, x) else e).1 = e.1
  split
  · rename_i h; exact h.symm
  · rfl

theorem assign_find (t : Table K V) (k : K) (x : Option V) (k' : K) :
    (t.assign k x).find k' = if k' = k then (t.find k).map fun _ => x else t.find k' := by
  induction t with
  | nil => split <;> rfl
  | cons e t ih =>
    obtain ⟨a, y⟩ := e
    show Table.find ((if a = k then (k, x) else (a, y)) :: Table.assign t k x) k' = _
    by_cases ha : a = k
    · subst ha
      rw [if_pos rfl, find_cons, ih, find_cons, find_cons, if_pos rfl]
      split <;> rfl
    · rw [if_neg ha, find_cons, ih, find_cons, find_cons]
      by_cases hk : k' = k
      · subst hk
        rw [if_neg (fun h => ha h.symm), if_pos rfl, if_pos rfl, if_neg (fun h => ha h.symm)]
      · rw [if_neg hk, if_neg hk]

theorem erase_find (t : Table K V) (k k' : K) : (t.erase k).find k' = if k' = k then none else t.find k' := by
  induction t with
  | nil => split <;> rfl
  | cons e t ih =>
    obtain ⟨a, y⟩ := e
    unfold Table.erase at ih ⊢
    by_cases ha : a = k
    · subst ha
      rw [List.filter_cons_of_neg (by simp), ih, find_cons]
      split <;> rfl
    · rw [List.filter_cons_of_pos (by simp [ha]), find_cons, ih, find_cons]
      by_cases hk : k' = k
      · subst hk
        rw [if_neg (fun h => ha h.symm), if_pos rfl, if_pos rfl]
      · rw [if_neg hk, if_neg hk]

theorem Holds.assign {t : Table K V} {m : FMap K V} (h : Holds t m) (k : K) (x : Option V) (hk : m k ≠ none) :
    Holds (t.assign k x) (m.with k (some x)) where
  nodup := by rw [assign_keys]; exact h.nodup
  find k' := by
    rw [assign_find, h.find, h.find]
    unfold FMap.with
    cases e : m k with
    | none => exact absurd e hk
    | some y => rfl

theorem Holds.emplaceNew {t : Table K V} {m : FMap K V} (h : Holds t m) (ord : TableOrder (K × Option V)) (k : K) (x : Option V) (hk : m k = none) :
    (t.emplace ord k x) = (ord.place t (k, x), true) ∧ Holds (ord.place t (k, x)) (m.with k (some x)) := by
  have hf : t.find k = none := (h.find k).trans hk
  have hp := ord.perm t (k, x)
  have hn : (((k, x) :: t).map Prod.fst).Nodup := by
    rw [List.map_cons, List.nodup_cons]
    exact ⟨(find_none k).mp hf, h.nodup⟩
  refine ⟨?_, ((hp.map Prod.fst).nodup_iff).mpr hn, fun k' => ?_⟩
  · unfold Table.emplace
    rw [hf]
    rfl
  · rw [find_perm hp (((hp.map Prod.fst).nodup_iff).mpr hn), find_cons, h.find]
    rfl

theorem Holds.emplaceOld {t : Table K V} {m : FMap K V} (h : Holds t m) (ord : TableOrder (K × Option V)) (k : K) (x : Option V) (hk : m k ≠ none) :
    (t.emplace ord k x) = (t, false) := by
  have hf : t.find k ≠ none := by rw [h.find]; exact hk
  unfold Table.emplace
  cases e : t.find k with
  | none => exact absurd e hf
  | some y => rfl

/-- Every object in the table is one the public interface can produce. -/
def AllWf (S : ClassSpec V) (t : Table K V) : Prop := ∀ k v, t.find k = some (some v) → S.wf v

/-- The outcome of a call, or a history, on a table. -/
def Ends (S : ClassSpec V) (r : Res (Table K V) Unit) (steps : Option (FMap K V) → Prop) : Prop :=
  (r = .ub ∧ steps none) ∨ ∃ t' m', r = .ok () t' ∧ Holds t' m' ∧ AllWf S t' ∧ steps (some m')

theorem with_with (m : FMap K V) (k : K) (x y : Option (Option V)) : (m.with k x).with k y = m.with k y := by
  funext k'
  unfold FMap.with
  split <;> rfl

theorem with_self (m : FMap K V) (k : K) (x : Option (Option V)) : (m.with k x) k = x := if_pos rfl

theorem allWf_with {S : ClassSpec V} {t t' : Table K V} {m : FMap K V} {k : K} {x : Option (Option V)} (ht : Holds t m) (hw : AllWf S t)
    (ht' : Holds t' (m.with k x)) (hx : ∀ v, x = some (some v) → S.wf v) : AllWf S t' := by
  intro k' v h
  rw [ht'.find] at h
  unfold FMap.with at h
  split at h
  · exact hx v h
  · exact hw k' v (by rw [ht.find]; exact h)

theorem step_ok {M : Managed V} {S : ClassSpec V} (hM : IsClass M S) (st : Stored K) (hst : st.Good) (zk ne : Bool) (ord : TableOrder (K × Option V))
    (c : TableCall K V) (hc : c.Wf S) (t : Table K V) (m : FMap K V) (ht : Holds t m) (hw : AllWf S t) :
    Ends S (c.run st M zk ne ord t) (MapStep M.init (S.rel .exact) c m) := by
  cases c with
  | insert k f =>
    show Ends S ((do let v ← Table.insertKey M ord k; Prog.modify fun t => t.assign k (some (f v)) : Prog (Table K V) Unit) t) _
    rcases e : m k with _ | _ | v
    · obtain ⟨e1, h1⟩ := ht.emplaceNew ord k (some M.init) e
      have e2 : Table.insertKey M ord k t = .ok M.init (ord.place t (k, some M.init)) := by
        unfold Table.insertKey
        rw [e1]
        dsimp only
        rw [h1.find, with_self]
      have h2 := h1.assign k (some (f M.init)) (by rw [with_self]; exact nofun)
      rw [with_with] at h2
      refine .inr ⟨_, _, (Prog.bind_ok e2).trans rfl, h2, allWf_with ht hw h2 ?_, .insertNew m k f e⟩
      intro v hv
      cases hv
      exact hc _ hM.lawful.init_wf
    · left
      have e1 := ht.emplaceOld ord k (some M.init) (by rw [e]; exact nofun)
      have e2 : Table.insertKey M ord k t = .ub := by
        unfold Table.insertKey
        rw [e1]
        dsimp only
        rw [ht.find, e]
      refine ⟨?_, .insertNull m k f e⟩
      rw [Prog.bind_apply, e2]
    · have e1 := ht.emplaceOld ord k (some M.init) (by rw [e]; exact nofun)
      have e2 : Table.insertKey M ord k t = .ok v t := by
        unfold Table.insertKey
        rw [e1]
        dsimp only
        rw [ht.find, e]
      have h2 := ht.assign k (some (f v)) (by rw [e]; exact nofun)
      refine .inr ⟨_, _, (Prog.bind_ok e2).trans rfl, h2, allWf_with ht hw h2 ?_, .insertOld m k f v e⟩
      intro x hx
      cases hx
      exact hc _ (hw k v (by rw [ht.find, e]))
  | index k f =>
    show Ends S ((do let v ← Table.index ord k; Prog.modify fun t => t.assign k (some (f v)) : Prog (Table K V) Unit) t) _
    rcases e : m k with _ | _ | v
    · left
      obtain ⟨e1, h1⟩ := ht.emplaceNew ord k none e
      have e2 : Table.index ord k t = .ub := by
        unfold Table.index
        rw [e1]
        dsimp only
        rw [h1.find, with_self]
      refine ⟨?_, .indexBad m k f (by rw [e]; exact nofun)⟩
      rw [Prog.bind_apply, e2]
    · left
      have e1 := ht.emplaceOld ord k none (by rw [e]; exact nofun)
      have e2 : Table.index ord k t = .ub := by
        unfold Table.index
        rw [e1]
        dsimp only
        rw [ht.find, e]
      refine ⟨?_, .indexBad m k f (by rw [e]; exact nofun)⟩
      rw [Prog.bind_apply, e2]
    · have e1 := ht.emplaceOld ord k none (by rw [e]; exact nofun)
      have e2 : Table.index ord k t = .ok v t := by
        unfold Table.index
        rw [e1]
        dsimp only
        rw [ht.find, e]
      have h2 := ht.assign k (some (f v)) (by rw [e]; exact nofun)
      refine .inr ⟨_, _, (Prog.bind_ok e2).trans rfl, h2, allWf_with ht hw h2 ?_, .index m k f v e⟩
      intro x hx
      cases hx
      exact hc _ (hw k v (by rw [ht.find, e]))
  | emplace k x =>
    right
    rcases e : m k with _ | y
    · obtain ⟨e1, h1⟩ := ht.emplaceNew ord k x e
      refine ⟨_, _, congrArg (Res.ok ()) (congrArg Prod.fst e1), h1, allWf_with ht hw h1 ?_, .emplaceNew m k x e⟩
      intro v hv
      cases hv
      exact hc v rfl
    · exact ⟨_, _, congrArg (Res.ok ()) (congrArg Prod.fst (ht.emplaceOld ord k x (by rw [e]; exact nofun))), ht, hw, .emplaceOld m k x y e⟩
  | put k x =>
    right
    have hx : ∀ v, some x = some (some v) → S.wf v := fun v hv => hc v (Option.some.inj hv)
    rcases e : m k with _ | y
    · obtain ⟨e1, h1⟩ := ht.emplaceNew ord k none e
      have h2 := h1.assign k x (by rw [with_self]; exact nofun)
      rw [with_with] at h2
      refine ⟨_, _, congrArg (fun p => Res.ok () (Table.assign (Prod.fst p) k x)) e1, h2, allWf_with ht hw h2 hx, .put m k x⟩
    · have h2 := ht.assign k x (by rw [e]; exact nofun)
      refine ⟨_, _, congrArg (fun p => Res.ok () (Table.assign (Prod.fst p) k x)) (ht.emplaceOld ord k none (by rw [e]; exact nofun)), h2,
        allWf_with ht hw h2 hx, .put m k x⟩
  | erase k =>
    right
    have h2 : Holds (t.erase k) (m.with k none) :=
      ⟨ht.nodup.sublist ((List.filter_sublist ..).map Prod.fst), fun k' => by rw [erase_find, ht.find]; rfl⟩
    exact ⟨_, _, rfl, h2, allWf_with ht hw h2 nofun, .erase m k⟩
  | clear => exact .inr ⟨[], _, rfl, ⟨.nil, fun _ => rfl⟩, nofun, .clear m⟩
  | copyNull => exact .inr ⟨[], _, rfl, ⟨.nil, fun _ => rfl⟩, nofun, .copyNull m⟩
  | copySelf => exact .inr ⟨[], _, rfl, ⟨.nil, fun _ => rfl⟩, nofun, .copySelf m⟩
  | copyFrom s =>
    right
    obtain ⟨c, e, hcw, hr⟩ := (IsClass.table st hst hM zk ne ord).lawful.copy_other t s
      ⟨ht.nodup, fun k v h => hw k v ((find_iff ht.nodup k _).mpr h)⟩ hc
    exact ⟨c, fun k => c.find k, e, ⟨hcw.1, fun _ => rfl⟩, fun k v h => hcw.2 k v ((find_iff hcw.1 k _).mp h), .copyFrom m s _ hr⟩

/-- **C71**: for every table holding a finite map, and every history of calls on it, the table ends up holding a map the history leads to, or
the history leads to undefined behaviour in the map as well; nothing is thrown. -/
theorem C71_table_is_a_finite_map {M : Managed V} {S : ClassSpec V} (hM : IsClass M S) (st : Stored K) (hst : st.Good) (zk ne : Bool)
    (ord : TableOrder (K × Option V)) : ∀ (cs : List (TableCall K V)) (_ : ∀ c ∈ cs, c.Wf S) (t : Table K V) (m : FMap K V) (_ : Holds t m) (_ : AllWf S t),
    Ends S (TableCall.runAll st M zk ne ord cs t) (MapSteps M.init (S.rel .exact) cs m)
  | [], _, t, m, ht, hw => .inr ⟨t, m, rfl, ht, hw, .nil m⟩
  | c :: cs, hc, t, m, ht, hw => by
    have h1 := step_ok hM st hst zk ne ord c (hc c (List.mem_cons_self ..)) t m ht hw
    show Ends S ((do c.run st M zk ne ord; TableCall.runAll st M zk ne ord cs : Prog (Table K V) Unit) t) _
    rcases h1 with ⟨e, h⟩ | ⟨t', m', e, h, hw', hs⟩
    · exact .inl ⟨by rw [Prog.bind_apply, e], .ub c cs m h⟩
    · rw [Prog.bind_ok e]
      rcases C71_table_is_a_finite_map hM st hst zk ne ord cs (fun c h => hc c (List.mem_cons_of_mem _ h)) t' m' h hw' with ⟨e2, h2⟩ | ⟨t2, m2, e2, h2, hw2, hs2⟩
      · exact .inl ⟨e2, .cons c cs m m' _ hs h2⟩
      · exact .inr ⟨t2, m2, e2, h2, hw2, .cons c cs m m' _ hs hs2⟩

/-- A step that is not a copy has one outcome, and a copy has one up to the relation between objects and their copies: in particular a
history is undefined behaviour for the table exactly when it is for the map. -/
theorem C71_steps_have_one_outcome {new : V} {same : V → V → Prop} {c : TableCall K V} {m : FMap K V} {o o' : Option (FMap K V)}
    (h : MapStep new same c m o) (h' : MapStep new same c m o') :
    o = o' ∨ ∃ s a b, c = .copyFrom s ∧ o = some a ∧ o' = some b ∧ ∀ k, OptRel (OptRel same) (a k) (s.find k) ∧ OptRel (OptRel same) (b k) (s.find k) := by
  cases h with
  | copyFrom _ _ _ ha => cases h' with | copyFrom _ _ _ hb => exact .inr ⟨_, _, _, rfl, rfl, rfl, fun k => ⟨ha k, hb k⟩⟩
  | insertNew k f h => left; cases h' <;> simp_all
  | insertOld k f v h => left; cases h' <;> simp_all
  | insertNull k f h => left; cases h' <;> simp_all
  | index k f v h => left; cases h' <;> simp_all
  | indexBad k f h => left; cases h' <;> simp_all
  | emplaceNew k x h => left; cases h' <;> simp_all
  | emplaceOld k x y h => left; cases h' <;> simp_all
  | put k x => left; cases h'; rfl
  | erase k => left; cases h'; rfl
  | clear => left; cases h'; rfl
  | copyNull => left; cases h'; rfl
  | copySelf => left; cases h'; rfl

/-- `Size()` is the number of keys in the map, and iterating over the entries visits every key of the map exactly once. -/
theorem C71_size_and_iteration {t : Table K V} {m : FMap K V} (h : Holds t m) :
    ∃ keys : List K, keys.Nodup ∧ (∀ k, k ∈ keys ↔ m k ≠ none) ∧ t.length = keys.length ∧ t.map Prod.fst = keys ∧ ∀ e ∈ t, m e.1 = some e.2 := by
  refine ⟨t.map Prod.fst, h.nodup, fun k => ?_, (List.length_map ..).symm, rfl, fun e he => ?_⟩
  · rw [← h.find, ne_eq, find_none]; exact ⟨fun h h' => h' h, Decidable.not_not.mp⟩
  · rw [← h.find]
    exact (find_iff h.nodup e.1 e.2).mpr he

/-- A history that inserts two nodes, names one, replaces one by a null, copies, erases; and two that end in undefined behaviour. -/
def demoTableCalls : List (TableCall EntityRef NodeEnt) :=
  [.insert (demoRef 1) fun v => ([65], v.2), .insert (demoRef 2) id, .index (demoRef 1) fun v => (List.append (α := Byte) v.1 [66], v.2), .emplace (demoRef 1) none,
   .put (demoRef 2) none, .put (demoRef 3) none, .erase (demoRef 3)]

/-- Run on an empty table: the keys with the names, in the iteration order of a map that puts new entries in front. -/
def demoTableRun (cs : List (TableCall EntityRef NodeEnt)) : Option (List (EntityRef × Option Bytes)) :=
  match TableCall.runAll entityRefStored (entityMF nodeFields) false false frontOrder cs [] with
  | .ok () t => some (t.map fun e => (e.1, e.2.map Prod.fst))
  | _ => none

example : (∀ c ∈ demoTableCalls, c.Wf (entitySpec nodeSpecs)) ∧ Holds ([] : Table EntityRef NodeEnt) (fun _ => none) ∧ AllWf (entitySpec nodeSpecs) ([] : Table EntityRef NodeEnt) ∧
    demoTableRun demoTableCalls = some [(demoRef 2, none), (demoRef 1, some [65, 66])] ∧
    demoTableRun (demoTableCalls ++ [.insert (demoRef 2) id]) = none ∧ demoTableRun (demoTableCalls ++ [.index (demoRef 3) id]) = none := by
  refine ⟨?_, ⟨.nil, fun _ => rfl⟩, nofun, by decide +kernel, by decide +kernel, by decide +kernel⟩
  intro c hc
  simp only [demoTableCalls, List.mem_cons, List.not_mem_nil, or_false] at hc
  rcases hc with rfl | rfl | rfl | rfl | rfl | rfl | rfl
  · exact fun _ _ => trivial
  · exact fun _ _ => trivial
  · exact fun _ _ => trivial
  · exact nofun
  · exact nofun
  · exact nofun
  · trivial

end ISD
