import Verif.Spec.VaryingHeap
import Verif.Proofs.ManagedVarying

/-! # Varying variables in memory refine the pointer-free description -/

namespace ISD
namespace VHeap

open Spec.VarProg

attribute [local irreducible] dynTable DynClass.all

theorem upd_same {α : Type} (f : Nat → α) (i : Nat) (x : α) : upd f i x i = x := if_pos rfl
theorem upd_other {α : Type} (f : Nat → α) {i k : Nat} (x : α) (h : k ≠ i) : upd f i x k = f k := if_neg h
theorem upd_upd {α : Type} (f : Nat → α) (i : Nat) (x y : α) : upd (upd f i x) i y = upd f i y := by
  funext k; unfold upd; split <;> rfl

theorem registered_eq (dt ct : Word 4) : registered dt ct = findTypeClass dt ct := by
  have h := (find_exact dt ct).2
  cases hr : registered dt ct with
  | some cl =>
    have h1 := List.mem_of_find?_eq_some hr
    have h2 := List.find?_some hr
    simp only [Bool.and_eq_true, beq_iff_eq] at h2
    exact ((h cl).mpr ⟨h1, h2.1, h2.2⟩).symm
  | none =>
    cases hf : findTypeClass dt ct with
    | none => rfl
    | some cl =>
      obtain ⟨h1, h2, h3⟩ := (h cl).mp hf
      have := List.find?_eq_none.mp hr cl h1
      simp [h2, h3] at this

theorem typeIds_nodup : (typeIds.map fun p => p.2).Nodup := by decide +kernel

/-- A C++ type is registered once. -/
theorem type_inj {cl cl' : DynClass} (h : cl ∈ DynClass.all) (h' : cl' ∈ DynClass.all) (ht : cl.t = cl'.t) (hc : cl.c = cl'.c) : cl = cl' := by
  unfold DynClass.all at h h'
  simp only [List.mem_flatMap, List.mem_map] at h h'
  obtain ⟨p, hp, c, _, rfl⟩ := h
  obtain ⟨p', hp', c', _, rfl⟩ := h'
  have := nodup_map_inj typeIds_nodup hp hp' ht
  subst this
  cases hc
  rfl

/-- A registered type has one pair of numbers. -/
theorem isA_iff {v : Obj} {cl : DynClass} (hf : findTypeClass v.ty v.ct = some cl) (T : CppType) : v.isA T = true ↔ cl = T.cl := by
  obtain ⟨h1, h2, h3⟩ := ((find_exact _ _).2 cl).mp hf
  unfold Obj.isA
  simp only [Bool.and_eq_true, beq_iff_eq]
  constructor
  · rintro ⟨e1, e2⟩
    have : findTypeClass v.ty v.ct = some T.cl := ((find_exact _ _).2 T.cl).mpr ⟨T.mem, e1.symm, e2.symm⟩
    rw [hf] at this
    exact Option.some.inj this
  · rintro rfl
    exact ⟨h2.symm, h3.symm⟩

theorem class_of_type {v : Obj} {cl : DynClass} (hf : findTypeClass v.ty v.ct = some cl) (T : CppType) : cl = T.cl ↔ cl.t = T.cl.t ∧ cl.c = T.cl.c := by
  obtain ⟨h1, _, _⟩ := ((find_exact _ _).2 cl).mp hf
  constructor
  · rintro rfl; exact ⟨rfl, rfl⟩
  · rintro ⟨e1, e2⟩; exact type_inj h1 T.mem e1 e2

/-! ## The relation -/

/-- A variable in memory and what it holds. -/
inductive VarRepr (heap : Nat → Option DynObj) : Option Obj → Option (Option DynObj) → Prop where
  | dead : VarRepr heap none none
  | empty (ty ct : Word 4) : VarRepr heap (some ⟨ty, ct, none⟩) (some none)
  | full (ty ct : Word 4) (a : Nat) (o : DynObj) (cl : DynClass) (hf : findTypeClass ty ct = some cl) (ht : o.t = cl.t) (hc : o.c = cl.c)
      (ha : heap a = some o) : VarRepr heap (some ⟨ty, ct, some a⟩) (some (some o))

/-- The memory represents these variables, with the objects at `L` lost. -/
structure Repr (w : World) (sv : Nat → Option (Option DynObj)) (L : List Nat) : Prop where
  var : ∀ i, VarRepr w.heap (w.vars i) (sv i)
  own : ∀ i j v u a, w.vars i = some v → w.vars j = some u → v.data = some a → u.data = some a → i = j
  bound : ∃ N, ∀ a, N ≤ a → w.heap a = none
  live : ∀ a, w.heap a ≠ none ↔ (∃ i v, w.vars i = some v ∧ v.data = some a) ∨ a ∈ L
  lost : ∀ i v a, w.vars i = some v → v.data = some a → a ∉ L
  nodup : L.Nodup

theorem VarRepr.isSome {heap : Nat → Option DynObj} {v : Option Obj} {s : Option (Option DynObj)} (h : VarRepr heap v s) : v.isSome = s.isSome := by
  cases h <;> rfl

/-- A heap change elsewhere does not matter. -/
theorem VarRepr.frame {heap heap' : Nat → Option DynObj} {v : Option Obj} {s : Option (Option DynObj)} (h : VarRepr heap v s)
    (hf : ∀ u a, v = some u → u.data = some a → heap' a = heap a) : VarRepr heap' v s := by
  cases h with
  | dead => exact .dead
  | empty => exact .empty _ _
  | full ty ct a o cl h1 h2 h3 h4 => exact .full ty ct a o cl h1 h2 h3 ((hf _ _ rfl rfl).trans h4)

/-- A variable that owns nothing may be replaced by another that owns nothing. -/
theorem Repr.setEmpty {w : World} {sv : Nat → Option (Option DynObj)} {L : List Nat} (h : Repr w sv L) {i : Nat}
    (hi : ∀ v, w.vars i = some v → v.data = none) {x : Option Obj} {y : Option (Option DynObj)} (hx : ∀ v, x = some v → v.data = none)
    (hxy : VarRepr w.heap x y) (n : Nat) : Repr ⟨upd w.vars i x, w.heap, n⟩ (upd sv i y) L where
  var k := by
    by_cases hk : k = i
    · subst hk; rw [upd_same]; show VarRepr w.heap (upd w.vars k x k) y; rw [upd_same]; exact hxy
    · rw [upd_other _ _ hk]; show VarRepr w.heap (upd w.vars i x k) _; rw [upd_other _ _ hk]; exact h.var k
  own a b v u c h1 h2 h3 h4 := by
    by_cases ha : a = i
    · subst ha; replace h1 := (upd_same _ _ _).symm.trans h1; rw [hx _ h1] at h3; cases h3
    · by_cases hb : b = i
      · subst hb; replace h2 := (upd_same _ _ _).symm.trans h2; rw [hx _ h2] at h4; cases h4
      · replace h1 := (upd_other _ _ ha).symm.trans h1
        replace h2 := (upd_other _ _ hb).symm.trans h2
        exact h.own a b v u c h1 h2 h3 h4
  bound := h.bound
  live a := by
    refine (h.live a).trans (or_congr_left ⟨?_, ?_⟩)
    · rintro ⟨k, v, h1, h2⟩
      have hk : k ≠ i := by rintro rfl; rw [hi _ h1] at h2; cases h2
      exact ⟨k, v, (upd_other _ _ hk).trans h1, h2⟩
    · rintro ⟨k, v, h1, h2⟩
      by_cases hk : k = i
      · subst hk; replace h1 := (upd_same _ _ _).symm.trans h1; rw [hx _ h1] at h2; cases h2
      · exact ⟨k, v, (upd_other _ _ hk).symm.trans h1, h2⟩
  lost k v a h1 h2 := by
    by_cases hk : k = i
    · subst hk; replace h1 := (upd_same _ _ _).symm.trans h1; rw [hx _ h1] at h2; cases h2
    · exact h.lost k v a ((upd_other _ _ hk).symm.trans h1) h2
  nodup := h.nodup

/-- The owned object is deleted and the variable emptied. -/
theorem Repr.del {w : World} {sv : Nat → Option (Option DynObj)} {L : List Nat} (h : Repr w sv L) {i a : Nat} {v : Obj}
    (hi : w.vars i = some v) (ha : v.data = some a) (ty ct : Word 4) :
    Repr ⟨upd w.vars i (some ⟨ty, ct, none⟩), upd w.heap a none, w.n⟩ (upd sv i (some none)) L where
  var k := by
    by_cases hk : k = i
    · subst hk; rw [upd_same]; show VarRepr _ (upd w.vars k _ k) _; rw [upd_same]; exact .empty _ _
    · rw [upd_other _ _ hk]
      show VarRepr (upd w.heap a none) (upd w.vars i _ k) _
      rw [upd_other _ _ hk]
      refine (h.var k).frame fun u b h1 h2 => upd_other _ _ ?_
      rintro rfl
      exact hk (h.own k i u v b h1 hi h2 ha)
  own x y u1 u2 c h1 h2 h3 h4 := by
    by_cases hx : x = i
    · subst hx; replace h1 := (upd_same _ _ _).symm.trans h1; cases h1; cases h3
    · by_cases hy : y = i
      · subst hy; replace h2 := (upd_same _ _ _).symm.trans h2; cases h2; cases h4
      · replace h1 := (upd_other _ _ hx).symm.trans h1
        replace h2 := (upd_other _ _ hy).symm.trans h2
        exact h.own x y u1 u2 c h1 h2 h3 h4
  bound := by
    obtain ⟨N, hN⟩ := h.bound
    refine ⟨N, fun b hb => ?_⟩
    by_cases hba : b = a
    · subst hba; exact upd_same _ _ _
    · exact (upd_other _ _ hba).trans (hN b hb)
  live b := by
    by_cases hba : b = a
    · subst hba
      constructor
      · intro hh; exact absurd (upd_same _ _ _) hh
      · rintro (⟨k, u, h1, h2⟩ | h1)
        · by_cases hk : k = i
          · subst hk; replace h1 := (upd_same _ _ _).symm.trans h1; cases h1; cases h2
          · exact absurd (h.own k i u v b ((upd_other _ _ hk).symm.trans h1) hi h2 ha) hk
        · exact absurd h1 (h.lost i v b hi ha)
    · refine (not_congr (by rw [show (World.heap _ b : Option DynObj) = w.heap b from upd_other _ _ hba])).trans ?_
      refine (h.live b).trans (or_congr_left ⟨?_, ?_⟩)
      · rintro ⟨k, u, h1, h2⟩
        have hk : k ≠ i := by
          rintro rfl
          rw [hi] at h1; cases h1
          rw [ha] at h2; cases h2
          exact hba rfl
        exact ⟨k, u, (upd_other _ _ hk).trans h1, h2⟩
      · rintro ⟨k, u, h1, h2⟩
        by_cases hk : k = i
        · subst hk; replace h1 := (upd_same _ _ _).symm.trans h1; cases h1; cases h2
        · exact ⟨k, u, (upd_other _ _ hk).symm.trans h1, h2⟩
  lost k u b h1 h2 := by
    by_cases hk : k = i
    · subst hk; replace h1 := (upd_same _ _ _).symm.trans h1; cases h1; cases h2
    · exact h.lost k u b ((upd_other _ _ hk).symm.trans h1) h2
  nodup := h.nodup

/-- A variable that owns nothing gets a new object. -/
theorem Repr.add {w : World} {sv : Nat → Option (Option DynObj)} {L : List Nat} (h : Repr w sv L) {i a : Nat}
    (hi : ∀ v, w.vars i = some v → v.data = none) (ha : w.heap a = none) {ty ct : Word 4} {o : DynObj} {cl : DynClass}
    (hf : findTypeClass ty ct = some cl) (ht : o.t = cl.t) (hc : o.c = cl.c) (n : Nat) :
    Repr ⟨upd w.vars i (some ⟨ty, ct, some a⟩), upd w.heap a (some o), n⟩ (upd sv i (some (some o))) L := by
  have hown : ∀ k v, w.vars k = some v → v.data ≠ some a := by
    intro k v h1 h2
    exact (h.live a).mpr (.inl ⟨k, v, h1, h2⟩) ha
  have hL : a ∉ L := fun hh => (h.live a).mpr (.inr hh) ha
  refine ⟨?_, ?_, ?_, ?_, ?_, h.nodup⟩
  · intro k
    by_cases hk : k = i
    · subst hk; dsimp only; rw [show upd w.vars k _ k = _ from upd_same _ _ _, upd_same]; exact .full ty ct a o cl hf ht hc (upd_same _ _ _)
    · dsimp only; rw [show upd w.vars i _ k = _ from upd_other _ _ hk, upd_other _ _ hk]
      refine (h.var k).frame fun u b h1 h2 => upd_other _ _ ?_
      rintro rfl
      exact hown k u h1 h2
  · intro x y u1 u2 c h1 h2 h3 h4
    by_cases hx : x = i
    · by_cases hy : y = i
      · rw [hx, hy]
      · subst hx
        replace h1 := (upd_same _ _ _).symm.trans h1; cases h1; cases h3
        exact absurd h4 (hown y u2 ((upd_other _ _ hy).symm.trans h2))
    · by_cases hy : y = i
      · subst hy
        replace h2 := (upd_same _ _ _).symm.trans h2; cases h2; cases h4
        exact absurd h3 (hown x u1 ((upd_other _ _ hx).symm.trans h1))
      · exact h.own x y u1 u2 c ((upd_other _ _ hx).symm.trans h1) ((upd_other _ _ hy).symm.trans h2) h3 h4
  · obtain ⟨N, hN⟩ := h.bound
    refine ⟨max N (a + 1), fun b hb => ?_⟩
    have : b ≠ a := by omega
    exact (upd_other _ _ this).trans (hN b (by omega))
  · intro b
    by_cases hba : b = a
    · subst hba
      constructor
      · intro _; exact .inl ⟨i, _, upd_same _ _ _, rfl⟩
      · intro _; dsimp only; rw [show upd w.heap b _ b = _ from upd_same _ _ _]; simp
    · refine (not_congr (by rw [show (World.heap _ b : Option DynObj) = w.heap b from upd_other _ _ hba])).trans ?_
      refine (h.live b).trans (or_congr_left ⟨?_, ?_⟩)
      · rintro ⟨k, u, h1, h2⟩
        have hk : k ≠ i := by rintro rfl; rw [hi _ h1] at h2; cases h2
        exact ⟨k, u, (upd_other _ _ hk).trans h1, h2⟩
      · rintro ⟨k, u, h1, h2⟩
        by_cases hk : k = i
        · subst hk; replace h1 := (upd_same _ _ _).symm.trans h1; cases h1; cases h2; exact absurd rfl hba
        · exact ⟨k, u, (upd_other _ _ hk).symm.trans h1, h2⟩
  · intro k u b h1 h2
    by_cases hk : k = i
    · subst hk; replace h1 := (upd_same _ _ _).symm.trans h1; cases h1; cases h2; exact hL
    · exact h.lost k u b ((upd_other _ _ hk).symm.trans h1) h2

/-- The owned object is overwritten with one of the same type. -/
theorem Repr.store {w : World} {sv : Nat → Option (Option DynObj)} {L : List Nat} (h : Repr w sv L) {i a : Nat} {ty ct : Word 4}
    (hi : w.vars i = some ⟨ty, ct, some a⟩) {o : DynObj} {cl : DynClass}
    (hf : findTypeClass ty ct = some cl) (ht : o.t = cl.t) (hc : o.c = cl.c) :
    Repr ⟨w.vars, upd w.heap a (some o), w.n⟩ (upd sv i (some (some o))) L := by
  have h1 := (h.del hi rfl ty ct).add (i := i) (a := a) (fun v hv => by
    replace hv := (upd_same _ _ _).symm.trans hv; cases hv; rfl) (upd_same _ _ _) hf ht hc w.n
  simp only [upd_upd] at h1
  have e : upd w.vars i (some ⟨ty, ct, some a⟩) = w.vars := by
    funext k
    by_cases hk : k = i
    · subst hk; rw [upd_same, hi]
    · rw [upd_other _ _ hk]
  rw [e] at h1
  exact h1

/-- The object of variable `j` (if any) moves to the variable `i`, whose own object (if any) is lost. -/
theorem Repr.move {w : World} {sv : Nat → Option (Option DynObj)} {L : List Nat} (h : Repr w sv L) {i j : Nat} (hij : i ≠ j) {v : Obj}
    (hj : w.vars j = some v) :
    Repr ⟨upd (upd w.vars i (some v)) j (some ⟨0, 0, none⟩), w.heap, w.n⟩ (upd (upd sv i (sv j)) j (some none))
      (((w.vars i).bind Obj.data).toList ++ L) := by
  have hji : j ≠ i := fun e => hij e.symm
  have get : ∀ k, (upd (upd w.vars i (some v)) j (some ⟨0, 0, none⟩)) k =
      if k = j then some ⟨0, 0, none⟩ else if k = i then some v else w.vars k := fun _ => rfl
  have hmem : ∀ b, b ∈ ((w.vars i).bind Obj.data).toList ↔ ∃ u, w.vars i = some u ∧ u.data = some b := by
    intro b
    cases w.vars i with
    | none => simp
    | some u => simp
  refine ⟨?_, ?_, h.bound, ?_, ?_, ?_⟩
  · intro k
    show VarRepr w.heap (if k = j then some ⟨0, 0, none⟩ else if k = i then some v else w.vars k)
      (if k = j then some none else if k = i then sv j else sv k)
    by_cases hkj : k = j
    · rw [if_pos hkj, if_pos hkj]; exact .empty _ _
    · rw [if_neg hkj, if_neg hkj]
      by_cases hki : k = i
      · rw [if_pos hki, if_pos hki, ← hj]; exact h.var j
      · rw [if_neg hki, if_neg hki]; exact h.var k
  · -- every owner now is an owner before, with `i` standing for `j`
    have old : ∀ k u a, (upd (upd w.vars i (some v)) j (some ⟨0, 0, none⟩)) k = some u → u.data = some a →
        k ≠ j ∧ w.vars (if k = i then j else k) = some u := by
      intro k u a h1 h2
      rw [get] at h1
      by_cases hkj : k = j
      · rw [if_pos hkj] at h1; cases h1; cases h2
      · rw [if_neg hkj] at h1
        refine ⟨hkj, ?_⟩
        by_cases hki : k = i
        · rw [if_pos hki] at h1 ⊢; rw [hj]; exact h1
        · rw [if_neg hki] at h1 ⊢; exact h1
    intro x y u1 u2 c h1 h2 h3 h4
    obtain ⟨a1, a2⟩ := old x u1 c h1 h3
    obtain ⟨b1, b2⟩ := old y u2 c h2 h4
    have := h.own _ _ u1 u2 c a2 b2 h3 h4
    by_cases hx : x = i <;> by_cases hy : y = i
    · rw [hx, hy]
    · rw [if_pos hx, if_neg hy] at this; exact absurd this.symm b1
    · rw [if_neg hx, if_pos hy] at this; exact absurd this a1
    · rw [if_neg hx, if_neg hy] at this; exact this
  · intro b
    refine (h.live b).trans ?_
    rw [List.mem_append, hmem]
    constructor
    · rintro (⟨k, u, h1, h2⟩ | h1)
      · by_cases hki : k = i
        · subst hki; exact .inr (.inl ⟨u, h1, h2⟩)
        · by_cases hkj : k = j
          · subst hkj
            exact .inl ⟨i, u, by dsimp only; rw [get, if_neg hij, if_pos rfl, ← hj]; exact h1, h2⟩
          · exact .inl ⟨k, u, by dsimp only; rw [get, if_neg hkj, if_neg hki]; exact h1, h2⟩
      · exact .inr (.inr h1)
    · rintro (⟨k, u, h1, h2⟩ | ⟨u, h1, h2⟩ | h1)
      · replace h1 := (get _).symm.trans h1
        by_cases hkj : k = j
        · rw [if_pos hkj] at h1; cases h1; cases h2
        · rw [if_neg hkj] at h1
          by_cases hki : k = i
          · rw [if_pos hki] at h1; exact .inl ⟨j, u, hj.trans h1, h2⟩
          · rw [if_neg hki] at h1; exact .inl ⟨k, u, h1, h2⟩
      · exact .inl ⟨i, u, h1, h2⟩
      · exact .inr h1
  · intro k u b h1 h2
    rw [List.mem_append, hmem]
    replace h1 := (get _).symm.trans h1
    by_cases hkj : k = j
    · rw [if_pos hkj] at h1; cases h1; cases h2
    · rw [if_neg hkj] at h1
      by_cases hki : k = i
      · rw [if_pos hki] at h1
        cases h1
        rintro (⟨u', h3, h4⟩ | h3)
        · exact hij (h.own i j u' v b h3 hj h4 h2)
        · exact h.lost j v b hj h2 h3
      · rw [if_neg hki] at h1
        rintro (⟨u', h3, h4⟩ | h3)
        · exact hki (h.own k i u u' b h1 h3 h2 h4)
        · exact h.lost k u b h1 h2 h3
  · cases hw : w.vars i with
    | none => exact h.nodup
    | some u =>
      cases hd : u.data with
      | none => simpa [hd] using h.nodup
      | some b => simpa [hd] using And.intro (h.lost i u b hw hd) h.nodup

/-- A variable moved to itself loses its object. -/
theorem Repr.moveSelf {w : World} {sv : Nat → Option (Option DynObj)} {L : List Nat} (h : Repr w sv L) {i : Nat} :
    Repr ⟨upd w.vars i (some ⟨0, 0, none⟩), w.heap, w.n⟩ (upd sv i (some none)) (((w.vars i).bind Obj.data).toList ++ L) := by
  have hmem : ∀ b, b ∈ ((w.vars i).bind Obj.data).toList ↔ ∃ u, w.vars i = some u ∧ u.data = some b := by
    intro b
    cases w.vars i with
    | none => simp
    | some u => simp
  have old : ∀ k u a, (upd w.vars i (some ⟨0, 0, none⟩)) k = some u → u.data = some a → k ≠ i ∧ w.vars k = some u := by
    intro k u a h1 h2
    by_cases hk : k = i
    · subst hk; rw [upd_same] at h1; cases h1; cases h2
    · exact ⟨hk, (upd_other _ _ hk).symm.trans h1⟩
  refine ⟨?_, ?_, h.bound, ?_, ?_, ?_⟩
  · intro k
    by_cases hk : k = i
    · subst hk; dsimp only; rw [show upd w.vars k _ k = _ from upd_same _ _ _, upd_same]; exact .empty _ _
    · dsimp only; rw [show upd w.vars i _ k = _ from upd_other _ _ hk, upd_other _ _ hk]; exact h.var k
  · intro x y u1 u2 c h1 h2 h3 h4
    exact h.own x y u1 u2 c (old _ _ _ h1 h3).2 (old _ _ _ h2 h4).2 h3 h4
  · intro b
    refine (h.live b).trans ?_
    rw [List.mem_append, hmem]
    constructor
    · rintro (⟨k, u, h1, h2⟩ | h1)
      · by_cases hk : k = i
        · subst hk; exact .inr (.inl ⟨u, h1, h2⟩)
        · exact .inl ⟨k, u, (upd_other _ _ hk).trans h1, h2⟩
      · exact .inr (.inr h1)
    · rintro (⟨k, u, h1, h2⟩ | ⟨u, h1, h2⟩ | h1)
      · exact .inl ⟨k, u, (old _ _ _ h1 h2).2, h2⟩
      · exact .inl ⟨i, u, h1, h2⟩
      · exact .inr h1
  · intro k u b h1 h2
    obtain ⟨hk, h1⟩ := old _ _ _ h1 h2
    rw [List.mem_append, hmem]
    rintro (⟨u', h3, h4⟩ | h3)
    · exact hk (h.own k i u u' b h1 h3 h2 h4)
    · exact h.lost k u b h1 h2 h3
  · cases hw : w.vars i with
    | none => exact h.nodup
    | some u =>
      cases hd : u.data with
      | none => simpa [hd] using h.nodup
      | some b => simpa [hd] using And.intro (h.lost i u b hw hd) h.nodup

/-! ## The routines -/

attribute [local irreducible] findTypeClass

theorem getVar_ok {w : World} {i : Nat} {v : Obj} (h : w.vars i = some v) : getVar i w = .ok v w := by
  unfold getVar; rw [h]

theorem modVar_ok {w : World} {i : Nat} {v : Obj} (h : w.vars i = some v) (f : Obj → Obj) :
    modVar i f w = .ok () { w with vars := upd w.vars i (some (f v)) } := by
  unfold modVar; rw [h]

theorem deref_ok {w : World} {a : Nat} {o : DynObj} {cl : DynClass} (h : w.heap a = some o) (ht : o.t = cl.t) (hc : o.c = cl.c) :
    deref a cl w = .ok o w := by
  unfold deref
  rw [h]
  exact if_pos (decide_eq_true ⟨ht, hc⟩)

theorem delete_ok {w : World} {a : Nat} {o : DynObj} {cl : DynClass} (h : w.heap a = some o) (ht : o.t = cl.t) (hc : o.c = cl.c) :
    delete a cl w = .ok () { w with heap := upd w.heap a none } := by
  rw [delete, Prog.bind_ok (deref_ok h ht hc)]
  rfl

theorem deleteType_ok {w : World} {dt ct : Word 4} {cl : DynClass} (hf : findTypeClass dt ct = some cl) {a : Nat} {o : DynObj}
    (ha : w.heap a = some o) (ht : o.t = cl.t) (hc : o.c = cl.c) :
    deleteType dt ct (some a) w = .ok true { w with heap := upd w.heap a none } := by
  unfold deleteType; dsimp only; rw [hf]
  exact (Prog.bind_ok (delete_ok ha ht hc)).trans rfl

/-- `Deinitialize` empties the variable. -/
theorem deinit_ok {w : World} {sv : Nat → Option (Option DynObj)} {L : List Nat} (h : Repr w sv L) {i : Nat} {v : Obj} (hi : w.vars i = some v) :
    ∃ w' u, deinitialize i w = .ok true w' ∧ Repr w' (upd sv i (some none)) L ∧ w'.vars = upd w.vars i (some u) ∧ u.data = none ∧ w'.n = w.n := by
  have hv := h.var i
  rw [hi] at hv
  cases hd : v.data with
  | none =>
    refine ⟨w, v, ?_, ?_, ?_, hd, rfl⟩
    · rw [deinitialize, Prog.bind_ok (getVar_ok hi), hd]; rfl
    · have := h.setEmpty (i := i) (x := some v) (y := some none) (fun u hu => by rw [hi] at hu; cases hu; exact hd)
        (fun u hu => by cases hu; exact hd) (by cases v; cases hd; exact .empty _ _) w.n
      have e : upd w.vars i (some v) = w.vars := by
        funext k; by_cases hk : k = i
        · subst hk; rw [upd_same, hi]
        · rw [upd_other _ _ hk]
      rw [e] at this
      exact this
    · funext k; by_cases hk : k = i
      · subst hk; rw [upd_same, hi]
      · rw [upd_other _ _ hk]
  | some a =>
    refine ⟨_, ⟨0, 0, none⟩, ?_, h.del hi hd 0 0, rfl, rfl, rfl⟩
    generalize hs : sv i = s at hv
    cases hv with
    | empty => cases hd
    | full ty ct b o cl hf ht hc ha =>
      cases hd
      rw [deinitialize, Prog.bind_ok (getVar_ok hi)]
      dsimp only [Option.isSome_some]
      rw [if_pos rfl]
      have hdel := deleteType_ok hf ha ht hc
      rw [Prog.bind_ok hdel]
      rw [if_neg (by decide)]
      have hi' : (⟨w.vars, upd w.heap a none, w.n⟩ : World).vars i = some ⟨ty, ct, some a⟩ := hi
      rw [Prog.bind_ok (modVar_ok hi' _)]
      rfl

theorem newType_none (al : Allocator) {dt ct : Word 4} (h : findTypeClass dt ct = none) (w : World) : newType al dt ct w = .ok none w := by
  unfold newType; rw [h]
  rfl
theorem newType_fail (al : Allocator) {dt ct : Word 4} {cl : DynClass} (h : findTypeClass dt ct = some cl) {w : World} (ha : al.allocOk w.n = false) :
    newType al dt ct w = .throw { w with n := w.n + 1 } := by
  unfold newType; rw [h]
  refine Prog.bind_throw ?_
  exact if_neg (by rw [ha]; decide)
theorem newType_ok (al : Allocator) {dt ct : Word 4} {cl : DynClass} (h : findTypeClass dt ct = some cl) {w : World} (ha : al.allocOk w.n = true) :
    newType al dt ct w = .ok (some (al.pick w.heap)) { w with heap := upd w.heap (al.pick w.heap) (some (defaultOf cl.t cl.c)), n := w.n + 1 } := by
  unfold newType; rw [h]
  have : new al cl w = .ok (al.pick w.heap) { w with heap := upd w.heap (al.pick w.heap) (some (defaultOf cl.t cl.c)), n := w.n + 1 } := if_pos ha
  exact (Prog.bind_ok this).trans rfl

/-- The outcome of `SetType`. -/
structure Made (al : Allocator) (i : Nat) (dt ct : Word 4) (w : World) (sv : Nat → Option (Option DynObj)) (L : List Nat) (r : Res World Bool) : Prop where
  unknown : findTypeClass dt ct = none → ∃ w', r = .ok false w' ∧ Repr w' (upd sv i (some none)) L ∧ w'.n = w.n
  noMemory : ∀ cl, findTypeClass dt ct = some cl → al.allocOk w.n = false →
    ∃ w', r = .throw w' ∧ Repr w' (upd sv i (some none)) L ∧ w'.n = w.n + 1
  made : ∀ cl, findTypeClass dt ct = some cl → al.allocOk w.n = true →
    ∃ w' a, r = .ok true w' ∧ Repr w' (upd sv i (some (some (defaultOf cl.t cl.c)))) L ∧ w'.n = w.n + 1 ∧
      w'.vars = upd w.vars i (some ⟨dt, ct, some a⟩)

/-- `SetType`. -/
theorem setType_ok (al : Allocator) {w : World} {sv : Nat → Option (Option DynObj)} {L : List Nat} (h : Repr w sv L) {i : Nat} {v : Obj}
    (hi : w.vars i = some v) (dt ct : Word 4) : Made al i dt ct w sv L (setType al i dt ct w) := by
  obtain ⟨w1, u, e1, r1, v1, d1, n1⟩ := deinit_ok h hi
  have hu : w1.vars i = some u := by rw [v1, upd_same]
  have e2 : ∀ (f : Obj → Prog World Bool), (setType al i dt ct w) = (do
      let p ← newType al dt ct
      modVar i fun v => { v with data := p }
      return p.isSome : Prog World Bool) { w1 with vars := upd w.vars i (some ⟨dt, ct, none⟩) } := by
    intro f
    rw [setType, Prog.bind_ok e1, if_neg (by decide), Prog.bind_ok (modVar_ok hu _),
      Prog.bind_ok (modVar_ok (upd_same _ _ _) _), Prog.bind_ok (getVar_ok (upd_same _ _ _))]
    dsimp only
    rw [v1, upd_upd, upd_upd, d1]
  have e2 := e2 (fun _ => pure true)
  have r2 : Repr ⟨upd w.vars i (some ⟨dt, ct, none⟩), w1.heap, w1.n⟩ (upd sv i (some none)) L := by
    have := r1.setEmpty (i := i) (x := some ⟨dt, ct, none⟩) (y := some none) (fun x hx => by rw [hu] at hx; cases hx; exact d1)
      (fun x hx => by cases hx; rfl) (.empty _ _) w1.n
    rw [v1, upd_upd, upd_upd] at this
    exact this
  have hf2 : (⟨upd w.vars i (some ⟨dt, ct, none⟩), w1.heap, w1.n⟩ : World).vars i = some ⟨dt, ct, none⟩ := upd_same _ _ _
  refine ⟨fun hn => ?_, fun cl hc ha => ?_, fun cl hc ha => ?_⟩
  · refine ⟨_, ?_, r2, n1⟩
    rw [e2, Prog.bind_ok (newType_none al hn _), Prog.bind_ok (modVar_ok hf2 _), Prog.pure_apply]
    dsimp only
    rw [upd_upd]
    rfl
  · have e3 : newType al dt ct ⟨upd w.vars i (some ⟨dt, ct, none⟩), w1.heap, w1.n⟩ =
        .throw ⟨upd w.vars i (some ⟨dt, ct, none⟩), w1.heap, w1.n + 1⟩ :=
      newType_fail al hc (by dsimp only; rw [n1, ha])
    refine ⟨_, e2.trans (Prog.bind_throw e3), ?_, by dsimp only; rw [n1]⟩
    exact { var := r2.var, own := r2.own, bound := r2.bound, live := r2.live, lost := r2.lost, nodup := r2.nodup }
  · have e3 : newType al dt ct ⟨upd w.vars i (some ⟨dt, ct, none⟩), w1.heap, w1.n⟩ =
        .ok (some (al.pick w1.heap)) ⟨upd w.vars i (some ⟨dt, ct, none⟩), upd w1.heap (al.pick w1.heap) (some (defaultOf cl.t cl.c)), w1.n + 1⟩ :=
      newType_ok al hc (by dsimp only; rw [n1, ha])
    refine ⟨⟨upd w.vars i (some ⟨dt, ct, some (al.pick w1.heap)⟩), upd w1.heap (al.pick w1.heap) (some (defaultOf cl.t cl.c)), w1.n + 1⟩,
      al.pick w1.heap, ?_, ?_, congrArg (· + 1) n1, rfl⟩
    · rw [e2, Prog.bind_ok e3, Prog.bind_ok (modVar_ok (upd_same _ _ _) _), Prog.pure_apply]
      dsimp only
      rw [upd_upd]
      rfl
    · have := r2.add (i := i) (a := al.pick w1.heap) (fun x hx => by rw [hf2] at hx; cases hx; rfl) (al.free _ r2.bound) hc
        (o := defaultOf cl.t cl.c) rfl rfl (w1.n + 1)
      simp only [upd_upd] at this
      exact this

/-- What a living variable can be. -/
theorem Repr.cases {w : World} {sv : Nat → Option (Option DynObj)} {L : List Nat} (h : Repr w sv L) {i : Nat} {v : Obj} (hi : w.vars i = some v) :
    (v.data = none ∧ sv i = some none) ∨
      ∃ a o cl, v.data = some a ∧ sv i = some (some o) ∧ findTypeClass v.ty v.ct = some cl ∧ o.t = cl.t ∧ o.c = cl.c ∧ w.heap a = some o := by
  have hv := h.var i
  rw [hi] at hv
  generalize hs : sv i = s at hv
  cases hv with
  | empty => exact .inl ⟨rfl, rfl⟩
  | full ty ct a o cl hf ht hc ha => exact .inr ⟨a, o, cl, rfl, rfl, hf, ht, hc, ha⟩

theorem copyType_ok {w : World} {dt ct : Word 4} {cl : DynClass} (hf : findTypeClass dt ct = some cl) {a b : Nat} {o p : DynObj}
    (ha : w.heap a = some o) (ht : o.t = cl.t) (hc : o.c = cl.c) (hb : w.heap b = some p) (ht' : p.t = cl.t) (hc' : p.c = cl.c) :
    copyType dt ct (some a) (some b) w = .ok true { w with heap := upd w.heap a (some p) } := by
  unfold copyType; dsimp only; rw [hf]
  exact (Prog.bind_ok (deref_ok ha ht hc)).trans ((Prog.bind_ok (deref_ok hb ht' hc')).trans rfl)

theorem clearType_ok {w : World} {dt ct : Word 4} {cl : DynClass} (hf : findTypeClass dt ct = some cl) {a : Nat} {o : DynObj}
    (ha : w.heap a = some o) (ht : o.t = cl.t) (hc : o.c = cl.c) :
    clearType dt ct (some a) w = .ok true { w with heap := upd w.heap a (some (defaultOf o.t o.c)) } := by
  unfold clearType; dsimp only; rw [hf]
  exact (Prog.bind_ok (deref_ok ha ht hc)).trans rfl

theorem equalsType_ok {w : World} {dt ct : Word 4} {cl : DynClass} (hf : findTypeClass dt ct = some cl) {a b : Nat} {o p : DynObj}
    (ha : w.heap a = some o) (ht : o.t = cl.t) (hc : o.c = cl.c) (hb : w.heap b = some p) (ht' : p.t = cl.t) (hc' : p.c = cl.c) :
    equalsType dt ct (some a) (some b) w = .ok (o.equal p) w := by
  unfold equalsType; dsimp only; rw [hf]
  exact (Prog.bind_ok (deref_ok ha ht hc)).trans ((Prog.bind_ok (deref_ok hb ht' hc')).trans rfl)

theorem upd_self {α : Type} {f : Nat → α} {i : Nat} {x : α} (h : f i = x) : upd f i x = f := by
  funext k
  by_cases hk : k = i
  · subst hk; rw [upd_same, h]
  · rw [upd_other _ _ hk]

/-- Copying an empty variable. -/
theorem deepCopy_empty (al : Allocator) {w : World} {sv : Nat → Option (Option DynObj)} {L : List Nat} (h : Repr w sv L) {i j : Nat} {v u : Obj}
    (hi : w.vars i = some v) (hj : w.vars j = some u) (he : i = j ∨ u.data = none) :
    ∃ w', deepCopy al i j w = .ok () w' ∧ Repr w' (upd sv i (some none)) L ∧ w'.n = w.n := by
  obtain ⟨w1, x, e1, r1, v1, d1, n1⟩ := deinit_ok h hi
  have : ∃ y, w1.vars j = some y ∧ y.data = none := by
    by_cases hij : j = i
    · subst hij; exact ⟨x, by rw [v1, upd_same], d1⟩
    · exact ⟨u, by rw [v1, upd_other _ _ hij, hj], he.resolve_left fun e => hij e.symm⟩
  obtain ⟨y, hy, dy⟩ := this
  refine ⟨w1, ?_, r1, n1⟩
  rw [deepCopy, Prog.bind_ok e1, if_neg (by decide)]
  exact (Prog.bind_ok (getVar_ok hy)).trans (by rw [dy]; rfl)

/-- Copying the object of another variable. -/
theorem deepCopy_full (al : Allocator) {w : World} {sv : Nat → Option (Option DynObj)} {L : List Nat} (h : Repr w sv L) {i j : Nat} (hij : i ≠ j)
    {v u : Obj} (hi : w.vars i = some v) (hj : w.vars j = some u) {o : DynObj} (ho : sv j = some (some o)) :
    (al.allocOk w.n = true → ∃ w', deepCopy al i j w = .ok () w' ∧ Repr w' (upd sv i (some (some o))) L ∧ w'.n = w.n + 1) ∧
    (al.allocOk w.n = false → ∃ w', deepCopy al i j w = .throw w' ∧ Repr w' (upd sv i (some none)) L ∧ w'.n = w.n + 1) := by
  have hji : j ≠ i := fun e => hij e.symm
  obtain ⟨w1, x, e1, r1, v1, d1, n1⟩ := deinit_ok h hi
  have hj1 : w1.vars j = some u := by rw [v1, upd_other _ _ hji, hj]
  have hi1 : w1.vars i = some x := by rw [v1, upd_same]
  rcases r1.cases hj1 with ⟨_, e⟩ | ⟨b, p, cl, du, e, hf, ht, hc, hb⟩
  · rw [upd_other _ _ hji, ho] at e; cases e
  rw [upd_other _ _ hji, ho] at e
  cases e
  have m := setType_ok al r1 hi1 u.ty u.ct
  have start : deepCopy al i j w = (do
      if !(← setType al i u.ty u.ct) then Prog.throw
      let d ← getVar i
      let s ← getVar j
      if !(← copyType d.ty d.ct d.data s.data) then Prog.throw : Prog World Unit) w1 := by
    rw [deepCopy, Prog.bind_ok e1, if_neg (by decide)]
    exact (Prog.bind_ok (getVar_ok hj1)).trans (by rw [du]; rfl)
  constructor
  · intro ha
    obtain ⟨w2, a, e2, r2, n2, v2⟩ := m.made cl hf (by rw [n1, ha])
    rw [upd_upd] at r2
    have hi2 : w2.vars i = some ⟨u.ty, u.ct, some a⟩ := by rw [v2, upd_same]
    have hj2 : w2.vars j = some u := by rw [v2, upd_other _ _ hji, hj1]
    rcases r2.cases hj2 with ⟨e, _⟩ | ⟨b', p', cl', du', e', hf', ht', hc', hb'⟩
    · rw [du] at e; cases e
    rw [upd_other _ _ hji, ho] at e'
    cases e'
    rw [du] at du'; cases du'
    rcases r2.cases hi2 with ⟨e, _⟩ | ⟨a', q, cl2, da, eq, hfa, hta, hca, haa⟩
    · cases e
    cases da
    have hcl : cl2 = cl := by
      have : findTypeClass u.ty u.ct = some cl2 := hfa
      rw [hf] at this; exact (Option.some.inj this).symm
    subst hcl
    have hcl : cl' = cl2 := by rw [hf] at hf'; exact (Option.some.inj hf').symm
    subst hcl
    have := r2.store hi2 (o := o) hfa ht hc
    rw [upd_upd] at this
    refine ⟨_, ?_, this, ?_⟩
    · rw [start, Prog.bind_ok e2, if_neg (by decide)]
      refine (Prog.bind_ok (getVar_ok hi2)).trans ((Prog.bind_ok (getVar_ok hj2)).trans ?_)
      rw [du]
      exact Prog.bind_ok (copyType_ok hfa haa hta hca hb' ht' hc')
    · dsimp only; rw [n2, n1]
  · intro ha
    obtain ⟨w2, e2, r2, n2⟩ := m.noMemory cl hf (by rw [n1, ha])
    rw [upd_upd] at r2
    refine ⟨w2, ?_, r2, by rw [n2, n1]⟩
    rw [start, Prog.bind_throw e2]

/-- The moves between different variables. -/
theorem moveMembers_ok {w : World} {i j : Nat} (hij : i ≠ j) {v u : Obj} (hi : w.vars i = some v) (hj : w.vars j = some u) :
    moveMembers i j w = .ok () ⟨upd (upd w.vars i (some u)) j (some ⟨0, 0, none⟩), w.heap, w.n⟩ := by
  have hji : j ≠ i := fun e => hij e.symm
  have comm : ∀ (f : Nat → Option Obj) (x y : Option Obj), upd (upd f j x) i y = upd (upd f i y) j x := by
    intro f x y
    funext k
    unfold upd
    by_cases h1 : k = i <;> by_cases h2 : k = j <;> simp [h1, h2] <;> omega
  have gj : ∀ (f : Nat → Option Obj) (x y : Option Obj) (h : Nat → Option DynObj) (n : Nat), (⟨upd (upd f i x) j y, h, n⟩ : World).vars j = y :=
    fun f x y h n => upd_same _ _ _
  have gi : ∀ (f : Nat → Option Obj) (x y : Option Obj) (h : Nat → Option DynObj) (n : Nat), (⟨upd (upd f i x) j y, h, n⟩ : World).vars i = x :=
    fun f x y h n => (upd_other _ _ hij).trans (upd_same _ _ _)
  have m : ∀ (f : Nat → Option Obj) (x y z : Option Obj), upd (upd (upd f i x) j y) i z = upd (upd f i z) j y := by
    intro f x y z
    rw [comm, upd_upd]
  have w0 : w = ⟨upd (upd w.vars i (some v)) j (some u), w.heap, w.n⟩ := by
    rw [upd_self (i := i) hi, upd_self (i := j) hj]
  generalize hV : w.vars = V at *
  generalize hH : w.heap = H at *
  generalize hN : w.n = N at *
  rw [w0, moveMembers, Prog.bind_ok (getVar_ok (gj _ _ _ _ _)), Prog.bind_ok (modVar_ok (gi _ _ _ _ _) _)]
  dsimp only
  rw [m, Prog.bind_ok (modVar_ok (gj _ _ _ _ _) _)]
  dsimp only
  rw [upd_upd, Prog.bind_ok (getVar_ok (gj _ _ _ _ _)), Prog.bind_ok (modVar_ok (gi _ _ _ _ _) _)]
  dsimp only
  rw [m, Prog.bind_ok (modVar_ok (gj _ _ _ _ _) _)]
  dsimp only
  rw [upd_upd, Prog.bind_ok (getVar_ok (gj _ _ _ _ _)), Prog.bind_ok (modVar_ok (gi _ _ _ _ _) _)]
  dsimp only
  rw [m, modVar_ok (gj _ _ _ _ _) _]
  dsimp only
  rw [upd_upd]

/-- The moves of a variable to itself. -/
theorem moveMembers_self {w : World} {i : Nat} {v : Obj} (hi : w.vars i = some v) :
    moveMembers i i w = .ok () ⟨upd w.vars i (some ⟨0, 0, none⟩), w.heap, w.n⟩ := by
  have g : ∀ (f : Nat → Option Obj) (x : Option Obj) (h : Nat → Option DynObj) (n : Nat), (⟨upd f i x, h, n⟩ : World).vars i = x :=
    fun f x h n => upd_same _ _ _
  have w0 : w = ⟨upd w.vars i (some v), w.heap, w.n⟩ := by
    rw [upd_self (i := i) hi]
  generalize hV : w.vars = V at *
  generalize hH : w.heap = H at *
  generalize hN : w.n = N at *
  rw [w0, moveMembers, Prog.bind_ok (getVar_ok (g _ _ _ _)), Prog.bind_ok (modVar_ok (g _ _ _ _) _)]
  dsimp only
  rw [upd_upd, Prog.bind_ok (modVar_ok (g _ _ _ _) _)]
  dsimp only
  rw [upd_upd, Prog.bind_ok (getVar_ok (g _ _ _ _)), Prog.bind_ok (modVar_ok (g _ _ _ _) _)]
  dsimp only
  rw [upd_upd, Prog.bind_ok (modVar_ok (g _ _ _ _) _)]
  dsimp only
  rw [upd_upd, Prog.bind_ok (getVar_ok (g _ _ _ _)), Prog.bind_ok (modVar_ok (g _ _ _ _) _)]
  dsimp only
  rw [upd_upd, modVar_ok (g _ _ _ _) _]
  dsimp only
  rw [upd_upd]

/-! ## Programs -/

/-- What the program sees of an outcome, with the memory. -/
def seen : Res World Out → Option (Out × World)
  | .ok o w => some (o, w)
  | .throw w => some (.threw, w)
  | .ub => none

/-- The outcome is the described one. -/
def Does (r : Res World Out) (x : Out × State) (L : List Nat) : Prop :=
  ∃ w', seen r = some (x.1, w') ∧ Repr w' x.2.vars L ∧ w'.n = x.2.n

theorem Does.ok {r : Res World Out} {out : Out} {w' : World} {x : Out × State} {L : List Nat} (e : r = .ok out w') (e1 : x.1 = out)
    (h : Repr w' x.2.vars L) (hn : w'.n = x.2.n) : Does r x L :=
  ⟨w', by rw [e, e1]; rfl, h, hn⟩

theorem Does.throw {r : Res World Out} {w' : World} {x : Out × State} {L : List Nat} (e : r = .throw w') (e1 : x.1 = .threw)
    (h : Repr w' x.2.vars L) (hn : w'.n = x.2.n) : Does r x L :=
  ⟨w', by rw [e, e1]; rfl, h, hn⟩

theorem Repr.congrN {w : World} {sv : Nat → Option (Option DynObj)} {L : List Nat} (h : Repr w sv L) (n : Nat) : Repr ⟨w.vars, w.heap, n⟩ sv L :=
  { var := h.var, own := h.own, bound := h.bound, live := h.live, lost := h.lost, nodup := h.nodup }

theorem held_eq {s : State} {i : Nat} {x : Option DynObj} (h : s.vars i = some x) : s.held i = x := by
  unfold State.held; rw [h]; rfl

theorem data_ok {w : World} {sv : Nat → Option (Option DynObj)} {L : List Nat} (h : Repr w sv L) {i : Nat} {v : Obj} (hi : w.vars i = some v)
    (T : CppType) :
    (∃ a o, data i T w = .ok a w ∧ v = ⟨v.ty, v.ct, some a⟩ ∧ findTypeClass v.ty v.ct = some T.cl ∧ w.heap a = some o ∧ sv i = some (some o) ∧
      hasType o T = true) ∨
    (data i T w = .throw w ∧ (sv i = some none ∨ ∃ o, sv i = some (some o) ∧ hasType o T = false)) := by
  rcases h.cases hi with ⟨e, es⟩ | ⟨a, o, cl, hd, es, hf, ht, hc, ha⟩
  · refine .inr ⟨?_, .inl es⟩
    rw [data, Prog.bind_ok (getVar_ok hi), e]
    rfl
  · have hty : hasType o T = v.isA T := by
      rw [Bool.eq_iff_iff, isA_iff hf, class_of_type hf]
      unfold hasType
      rw [decide_eq_true_eq, ht, hc]
    cases hT : v.isA T with
    | true =>
      refine .inl ⟨a, o, ?_, ?_, ?_, ha, es, hty.trans hT⟩
      · rw [data, Prog.bind_ok (getVar_ok hi), hd]
        show (if v.isA T = true then _ else _ : Prog World Nat) w = _
        rw [if_pos hT]
        rfl
      · cases v; cases hd; rfl
      · rw [hf, (isA_iff hf T).mp hT]
    | false =>
      refine .inr ⟨?_, .inr ⟨o, es, hty.trans hT⟩⟩
      rw [data, Prog.bind_ok (getVar_ok hi), hd]
      show (if v.isA T = true then _ else _ : Prog World Nat) w = _
      rw [if_neg (by rw [hT]; decide)]
      rfl

theorem equal_type {a b : DynObj} (h : a.equal b = true) : a.t = b.t ∧ a.c = b.c := by
  unfold DynObj.equal at h
  split at h
  · assumption
  · cases h

/-- Each statement does what is described. -/
theorem step_ok (al : Allocator) (op : Op) {w : World} {s : State} {L : List Nat} (h : Repr w s.vars L) (hn : w.n = s.n)
    (hs : op.scoped (fun i => (w.vars i).isSome) = true) : Does (op.exec al w) (step al.allocOk op s) (op.overwrites w ++ L) := by
  have use : ∀ {i : Nat}, i ∈ op.uses → ∃ v, w.vars i = some v := by
    intro i hi
    have := (Bool.and_eq_true _ _ ▸ hs).1
    have := List.all_eq_true.mp this i hi
    exact Option.isSome_iff_exists.mp this
  have fresh : ∀ {i : Nat}, op.makes = some i → w.vars i = none := by
    intro i hi
    have := (Bool.and_eq_true _ _ ▸ hs).2
    rw [hi] at this
    simpa using this
  cases op with
  | declare i =>
    have hi := fresh rfl
    refine Does.ok rfl rfl ?_ hn
    exact h.setEmpty (i := i) (fun v hv => by rw [hi] at hv; cases hv) (fun v hv => by cases hv; rfl) (.empty _ _) w.n
  | copyConstruct i j =>
    have hi := fresh rfl
    obtain ⟨u, hj⟩ := use (i := j) (by simp [Op.uses])
    have hij : i ≠ j := by rintro rfl; rw [hi] at hj; cases hj
    have hji : j ≠ i := fun e => hij e.symm
    have h0 : Repr ⟨upd w.vars i (some ⟨0, 0, none⟩), w.heap, w.n⟩ (upd s.vars i (some none)) L :=
      h.setEmpty (i := i) (fun v hv => by rw [hi] at hv; cases hv) (fun v hv => by cases hv; rfl) (.empty _ _) w.n
    have hi0 : (⟨upd w.vars i (some ⟨0, 0, none⟩), w.heap, w.n⟩ : World).vars i = some ⟨0, 0, none⟩ := upd_same _ _ _
    have hj0 : (⟨upd w.vars i (some ⟨0, 0, none⟩), w.heap, w.n⟩ : World).vars j = some u := (upd_other _ _ hji).trans hj
    rcases h.cases hj with ⟨ed, es⟩ | ⟨b, o, cl, hd, es, hf, ht, hc, hb⟩
    · obtain ⟨w', e, r, n'⟩ := deepCopy_empty al h0 hi0 hj0 (.inr ed)
      rw [upd_upd] at r
      refine Does.ok (w' := w') (out := .done) ?_ ?_ ?_ ?_
      · exact Prog.bind_ok (show VHeap.copyConstruct al i j w = .ok () w' by unfold VHeap.copyConstruct; rw [e])
      · rw [step, held_eq es]
      · rw [step, held_eq es]; exact r
      · rw [step, held_eq es]; exact n'.trans hn
    · obtain ⟨c1, c2⟩ := deepCopy_full al h0 hij hi0 hj0 (o := o) ((upd_other _ _ hji).trans es)
      cases hA : al.allocOk w.n with
      | true =>
        obtain ⟨w', e, r, n'⟩ := c1 hA
        rw [upd_upd] at r
        have hs : step al.allocOk (.copyConstruct i j) s = (.done, (s.set i (some o)).tick) := by
          rw [step, held_eq es]; exact if_pos (by rw [← hn, hA])
        refine Does.ok (w' := w') (out := .done) ?_ ?_ ?_ ?_
        · exact Prog.bind_ok (show VHeap.copyConstruct al i j w = .ok () w' by unfold VHeap.copyConstruct; rw [e])
        · rw [hs]
        · rw [hs]; exact r
        · rw [hs]; exact n'.trans (by dsimp only; rw [hn]; rfl)
      | false =>
        obtain ⟨w', e, r, n'⟩ := c2 hA
        rw [upd_upd] at r
        have hs : step al.allocOk (.copyConstruct i j) s = (.threw, s.tick) := by
          rw [step, held_eq es]; exact if_neg (by rw [← hn, hA]; decide)
        have r' := r.setEmpty (i := i) (x := none) (y := none) (fun v hv => by
          rcases r.cases hv with ⟨e1, _⟩ | ⟨_, _, _, _, e2, _⟩
          · exact e1
          · rw [upd_same] at e2; cases e2) (fun v hv => by cases hv) .dead w'.n
        have hsi : s.vars i = none := by
          have := (h.var i).isSome; rw [hi] at this; exact Option.isSome_eq_false_iff.mp this.symm |> Option.isNone_iff_eq_none.mp
        rw [upd_upd, upd_self hsi] at r'
        refine Does.throw (w' := ⟨upd w'.vars i none, w'.heap, w'.n⟩) ?_ ?_ ?_ ?_
        · exact Prog.bind_throw (show VHeap.copyConstruct al i j w = .throw _ by unfold VHeap.copyConstruct; rw [e])
        · rw [hs]
        · rw [hs]; exact r'
        · rw [hs]; exact n'.trans (by dsimp only; rw [hn]; rfl)
  | moveConstruct i j =>
    have hi := fresh rfl
    obtain ⟨u, hj⟩ := use (i := j) (by simp [Op.uses])
    have hij : i ≠ j := by rintro rfl; rw [hi] at hj; cases hj
    have hji : j ≠ i := fun e => hij e.symm
    have r := h.move hij hj
    rw [hi] at r
    have hi0 : (⟨upd w.vars i (some ⟨0, 0, none⟩), w.heap, w.n⟩ : World).vars i = some ⟨0, 0, none⟩ := upd_same _ _ _
    have hj0 : (⟨upd w.vars i (some ⟨0, 0, none⟩), w.heap, w.n⟩ : World).vars j = some u := (upd_other _ _ hji).trans hj
    have e := moveMembers_ok hij hi0 hj0
    dsimp only at e
    rw [upd_upd] at e
    have hsj : s.vars j = some (s.held j) := by
      rcases h.cases hj with ⟨_, es⟩ | ⟨_, _, _, _, es, _⟩ <;> rw [held_eq es] <;> exact es
    refine Does.ok (out := .done) (w' := ⟨upd (upd w.vars i (some u)) j (some ⟨0, 0, none⟩), w.heap, w.n⟩) ?_ rfl ?_ hn
    · exact Prog.bind_ok e
    · rw [hsj] at r; exact r
  | assign i j =>
    obtain ⟨v, hi⟩ := use (i := i) (by simp [Op.uses])
    obtain ⟨u, hj⟩ := use (i := j) (by simp [Op.uses])
    by_cases hij : i = j
    · obtain ⟨w', e, r, n'⟩ := deepCopy_empty al h hi hj (.inl hij)
      have hs : step al.allocOk (.assign i j) s = (.done, s.set i none) := by rw [step, if_pos hij]
      refine Does.ok (w' := w') (out := .done) (Prog.bind_ok e) ?_ ?_ ?_
      · rw [hs]
      · rw [hs]; exact r
      · rw [hs]; exact n'.trans hn
    · rcases h.cases hj with ⟨ed, es⟩ | ⟨b, o, cl, hd, es, hf, ht, hc, hb⟩
      · obtain ⟨w', e, r, n'⟩ := deepCopy_empty al h hi hj (.inr ed)
        have hs : step al.allocOk (.assign i j) s = (.done, s.set i none) := by rw [step, if_neg hij, held_eq es]
        refine Does.ok (w' := w') (out := .done) (Prog.bind_ok e) ?_ ?_ ?_
        · rw [hs]
        · rw [hs]; exact r
        · rw [hs]; exact n'.trans hn
      · obtain ⟨c1, c2⟩ := deepCopy_full al h hij hi hj es
        have hs : step al.allocOk (.assign i j) s = make al.allocOk s i o .done := by rw [step, if_neg hij, held_eq es]
        cases hA : al.allocOk w.n with
        | true =>
          obtain ⟨w', e, r, n'⟩ := c1 hA
          have hs := hs.trans (if_pos (by rw [← hn, hA]))
          refine Does.ok (w' := w') (out := .done) (Prog.bind_ok e) ?_ ?_ ?_
          · rw [hs]
          · rw [hs]; exact r
          · rw [hs]; exact n'.trans (by rw [hn]; rfl)
        | false =>
          obtain ⟨w', e, r, n'⟩ := c2 hA
          have hs := hs.trans (if_neg (by rw [← hn, hA]; decide))
          refine Does.throw (w' := w') (Prog.bind_throw e) ?_ ?_ ?_
          · rw [hs]
          · rw [hs]; exact r
          · rw [hs]; exact n'.trans (by rw [hn]; rfl)
  | moveAssign i j =>
    obtain ⟨v, hi⟩ := use (i := i) (by simp [Op.uses])
    obtain ⟨u, hj⟩ := use (i := j) (by simp [Op.uses])
    have hsj : s.vars j = some (s.held j) := by
      rcases h.cases hj with ⟨_, es⟩ | ⟨_, _, _, _, es, _⟩ <;> rw [held_eq es] <;> exact es
    by_cases hij : i = j
    · subst hij
      have r := h.moveSelf (i := i)
      refine Does.ok (out := .done) (w' := ⟨upd w.vars i (some ⟨0, 0, none⟩), w.heap, w.n⟩) (Prog.bind_ok (moveMembers_self hi)) rfl ?_ hn
      show Repr _ (upd (upd s.vars i _) i _) _
      rw [upd_upd]; exact r
    · have r := h.move hij hj
      refine Does.ok (out := .done) (w' := ⟨upd (upd w.vars i (some u)) j (some ⟨0, 0, none⟩), w.heap, w.n⟩) (Prog.bind_ok (moveMembers_ok hij hi hj)) rfl ?_ hn
      rw [hsj] at r; exact r
  | destroy i =>
    obtain ⟨v, hi⟩ := use (i := i) (by simp [Op.uses])
    obtain ⟨w1, u, e1, r1, v1, d1, n1⟩ := deinit_ok h hi
    have r := r1.setEmpty (i := i) (x := none) (y := none) (fun x hx => by rw [v1, upd_same] at hx; cases hx; exact d1) (fun v hv => by cases hv) .dead w1.n
    rw [upd_upd] at r
    refine Does.ok (out := .done) (w' := ⟨upd w1.vars i none, w1.heap, w1.n⟩) ?_ rfl r (n1.trans hn)
    refine Prog.bind_ok (show VHeap.destroy i w = .ok () _ from ?_)
    rw [VHeap.destroy, Prog.bind_ok e1]
    rfl
  | initialize_ i dt ct =>
    obtain ⟨v, hi⟩ := use (i := i) (by simp [Op.uses])
    have m := setType_ok al h hi dt ct
    cases hf : findTypeClass dt ct with
    | none =>
      obtain ⟨w', e, r, n'⟩ := m.unknown hf
      have hs : step al.allocOk (.initialize_ i dt ct) s = (.bool false, s.set i none) := by rw [step, registered_eq, hf]
      refine Does.ok (out := .bool false) (w' := w') (Prog.bind_ok e) ?_ ?_ ?_
      · rw [hs]
      · rw [hs]; exact r
      · rw [hs]; exact n'.trans hn
    | some cl =>
      have hs : step al.allocOk (.initialize_ i dt ct) s = make al.allocOk s i (defaultOf cl.t cl.c) (.bool true) := by rw [step, registered_eq, hf]
      cases hA : al.allocOk w.n with
      | true =>
        obtain ⟨w', a, e, r, n', _⟩ := m.made cl hf hA
        have hs := hs.trans (if_pos (by rw [← hn, hA]))
        refine Does.ok (out := .bool true) (w' := w') (Prog.bind_ok e) ?_ ?_ ?_
        · rw [hs]
        · rw [hs]; exact r
        · rw [hs]; exact n'.trans (by rw [hn]; rfl)
      | false =>
        obtain ⟨w', e, r, n'⟩ := m.noMemory cl hf hA
        have hs := hs.trans (if_neg (by rw [← hn, hA]; decide))
        refine Does.throw (w' := w') (Prog.bind_throw e) ?_ ?_ ?_
        · rw [hs]
        · rw [hs]; exact r
        · rw [hs]; exact n'.trans (by rw [hn]; rfl)
  | isInitialized i =>
    obtain ⟨v, hi⟩ := use (i := i) (by simp [Op.uses])
    refine Does.ok (out := .bool v.data.isSome) (w' := w) (Prog.bind_ok (getVar_ok hi)) ?_ h hn
    rcases h.cases hi with ⟨ed, es⟩ | ⟨_, _, _, ed, es, _⟩ <;> rw [step, held_eq es, ed] <;> rfl
  | holds i T =>
    obtain ⟨v, hi⟩ := use (i := i) (by simp [Op.uses])
    refine Does.ok (out := .bool (v.data.isSome && v.isA T)) (w' := w) (Prog.bind_ok (getVar_ok hi)) ?_ h hn
    rcases h.cases hi with ⟨ed, es⟩ | ⟨_, o, cl, ed, es, hf, ht, hc, _⟩
    · rw [step, held_eq es, ed]; rfl
    · have hty : hasType o T = v.isA T := by
        rw [Bool.eq_iff_iff, isA_iff hf, class_of_type hf]
        unfold hasType
        rw [decide_eq_true_eq, ht, hc]
      rw [step, held_eq es, ed, ← hty]; rfl
  | get i T =>
    obtain ⟨v, hi⟩ := use (i := i) (by simp [Op.uses])
    rcases data_ok h hi T with ⟨a, o, e, ev, hf, ha, es, hT⟩ | ⟨e, es⟩
    · have hs : step al.allocOk (.get i T) s = (.value o, s) := by rw [step, held_eq es]; exact if_pos hT
      have hT' := of_decide_eq_true (show decide _ = true from hT)
      refine Does.ok (out := .value o) (w' := w) ?_ ?_ ?_ ?_
      · exact (Prog.bind_ok e).trans (Prog.bind_ok (deref_ok ha hT'.1 hT'.2))
      · rw [hs]
      · rw [hs]; exact h
      · rw [hs]; exact hn
    · have hs : step al.allocOk (.get i T) s = (.threw, s) := by
        rcases es with es | ⟨o, es, hT⟩
        · rw [step, held_eq es]
        · rw [step, held_eq es]; exact if_neg (by rw [hT]; decide)
      refine Does.throw (w' := w) (Prog.bind_throw e) ?_ ?_ ?_
      · rw [hs]
      · rw [hs]; exact h
      · rw [hs]; exact hn
  | put i T x =>
    obtain ⟨v, hi⟩ := use (i := i) (by simp [Op.uses])
    rcases data_ok h hi T with ⟨a, o, e, ev, hf, ha, es, hT⟩ | ⟨e, es⟩
    · have hs : step al.allocOk (.put i T x) s = (.done, s.set i (some ⟨T.cl.t, T.cl.c, x⟩)) := by rw [step, held_eq es]; exact if_pos hT
      have hT' := of_decide_eq_true (show decide _ = true from hT)
      have r := h.store (hi.trans (congrArg some ev)) (o := ⟨T.cl.t, T.cl.c, x⟩) hf rfl rfl
      refine Does.ok (out := .done) (w' := ⟨w.vars, upd w.heap a (some ⟨T.cl.t, T.cl.c, x⟩), w.n⟩) ?_ ?_ ?_ ?_
      · exact (Prog.bind_ok e).trans (Prog.bind_ok (deref_ok ha hT'.1 hT'.2))
      · rw [hs]
      · rw [hs]; exact r
      · rw [hs]; exact hn
    · have hs : step al.allocOk (.put i T x) s = (.threw, s) := by
        rcases es with es | ⟨o, es, hT⟩
        · rw [step, held_eq es]
        · rw [step, held_eq es]; exact if_neg (by rw [hT]; decide)
      refine Does.throw (w' := w) (Prog.bind_throw e) ?_ ?_ ?_
      · rw [hs]
      · rw [hs]; exact h
      · rw [hs]; exact hn
  | clear i =>
    obtain ⟨v, hi⟩ := use (i := i) (by simp [Op.uses])
    rcases h.cases hi with ⟨ed, es⟩ | ⟨a, o, cl, ed, es, hf, ht, hc, ha⟩
    · have hs : step al.allocOk (.clear i) s = (.done, s) := by rw [step, held_eq es]
      refine Does.ok (out := .done) (w' := w) ?_ ?_ ?_ ?_
      · refine Prog.bind_ok (show VHeap.clear i w = .ok () w from ?_)
        rw [VHeap.clear, Prog.bind_ok (getVar_ok hi), ed]; rfl
      · rw [hs]
      · rw [hs]; exact h
      · rw [hs]; exact hn
    · have hs : step al.allocOk (.clear i) s = (.done, s.set i (some (defaultOf o.t o.c))) := by rw [step, held_eq es]
      have ev : v = ⟨v.ty, v.ct, some a⟩ := by cases v; cases ed; rfl
      have r := h.store (hi.trans (congrArg some ev)) (o := defaultOf o.t o.c) hf ht hc
      refine Does.ok (out := .done) (w' := ⟨w.vars, upd w.heap a (some (defaultOf o.t o.c)), w.n⟩) ?_ ?_ ?_ ?_
      · refine Prog.bind_ok (show VHeap.clear i w = .ok () _ from ?_)
        rw [VHeap.clear, Prog.bind_ok (getVar_ok hi), ed]
        exact Prog.bind_ok (clearType_ok hf ha ht hc)
      · rw [hs]
      · rw [hs]; exact r
      · rw [hs]; exact hn
  | equals i j =>
    obtain ⟨v, hi⟩ := use (i := i) (by simp [Op.uses])
    obtain ⟨u, hj⟩ := use (i := j) (by simp [Op.uses])
    suffices hh : ∃ b, VHeap.equals i j w = .ok b w ∧ step al.allocOk (.equals i j) s = (.bool b, s) by
      obtain ⟨b, e, hs⟩ := hh
      refine Does.ok (out := .bool b) (w' := w) (Prog.bind_ok e) ?_ ?_ ?_
      · rw [hs]
      · rw [hs]; exact h
      · rw [hs]; exact hn
    by_cases hij : i = j
    · refine ⟨true, ?_, ?_⟩
      · rw [VHeap.equals, if_pos hij]; rfl
      · rw [step, beq_iff_eq.mpr hij, Bool.true_or]
    · have hbe : (i == j) = false := beq_eq_false_iff_ne.mpr hij
      have start : VHeap.equals i j w = (if v.ty ≠ u.ty then pure false else if v.ct ≠ u.ct then pure false else equalsType v.ty v.ct v.data u.data : Prog World Bool) w := by
        rw [VHeap.equals, if_neg hij, Prog.bind_ok (getVar_ok hi), Prog.bind_ok (getVar_ok hj)]
      rw [start]
      have nul : (v.data = none ∨ u.data = none) →
          (if v.ty ≠ u.ty then pure false else if v.ct ≠ u.ct then pure false else equalsType v.ty v.ct v.data u.data : Prog World Bool) w = .ok false w := by
        intro hnul
        split
        · rfl
        · split
          · rfl
          · rcases hnul with e | e
            · rw [e]; rfl
            · rw [e]; cases v.data <;> rfl
      rcases h.cases hi with ⟨ed, es⟩ | ⟨a, o, cl, ed, es, hf, ht, hc, ha⟩
      · refine ⟨false, nul (.inl ed), ?_⟩
        rw [step, hbe, Bool.false_or, held_eq es]
      · rcases h.cases hj with ⟨ed', es'⟩ | ⟨b, p, cl', ed', es', hf', ht', hc', hb⟩
        · refine ⟨false, nul (.inr ed'), ?_⟩
          rw [step, hbe, Bool.false_or, held_eq es, held_eq es']
        · have hst : step al.allocOk (.equals i j) s = (.bool (o.equal p), s) := by
            rw [step, hbe, Bool.false_or, held_eq es, held_eq es']
          rw [hst]
          by_cases hty : v.ty = u.ty ∧ v.ct = u.ct
          · refine ⟨_, ?_, rfl⟩
            rw [if_neg (not_not_intro hty.1), if_neg (not_not_intro hty.2), ed, ed']
            have : cl' = cl := by
              rw [← hty.1, ← hty.2, hf] at hf'; exact (Option.some.inj hf').symm
            subst this
            exact equalsType_ok hf ha ht hc hb ht' hc'
          · refine ⟨false, ?_, ?_⟩
            · split
              · rfl
              · split
                · rfl
                · rename_i h1 h2
                  exact absurd ⟨Classical.not_not.mp h1, Classical.not_not.mp h2⟩ hty
            · cases he : o.equal p with
              | false => rfl
              | true =>
                obtain ⟨t1, t2⟩ := equal_type he
                obtain ⟨m1, x1, y1⟩ := ((find_exact _ _).2 cl).mp hf
                obtain ⟨m2, x2, y2⟩ := ((find_exact _ _).2 cl').mp hf'
                have : cl = cl' := type_inj m1 m2 (by rw [← ht, ← ht', t1]) (by rw [← hc, ← hc', t2])
                subst this
                exact absurd ⟨x1.symm.trans x2, y1.symm.trans y2⟩ hty
  | read i d =>
    obtain ⟨v, hi⟩ := use (i := i) (by simp [Op.uses])
    obtain ⟨w1, u, e1, r1, v1, d1, n1⟩ := deinit_ok h hi
    have hi1 : w1.vars i = some u := by rw [v1, upd_same]
    cases d with
    | noTypes thrown =>
      cases thrown with
      | true =>
        refine Does.throw (w' := w1) (Prog.bind_throw (show VHeap.read al i _ w = .throw w1 from ?_)) rfl r1 (n1.trans hn)
        rw [VHeap.read, Prog.bind_ok e1]; rfl
      | false =>
        refine Does.ok (w' := w1) (out := .bool false) (Prog.bind_ok (show VHeap.read al i _ w = .ok false w1 from ?_)) rfl r1 (n1.trans hn)
        rw [VHeap.read, Prog.bind_ok e1]; rfl
    | types ty ct value ending =>
      have m := setType_ok al r1 hi1 (ty.setWidth 32) (ct.setWidth 32)
      cases hf : findTypeClass (ty.setWidth 32) (ct.setWidth 32) with
      | none =>
        obtain ⟨w', e, r, n'⟩ := m.unknown hf
        rw [upd_upd] at r
        have hs : step al.allocOk (.read i (.types ty ct value ending)) s = (.bool false, s.set i none) := by rw [step, registered_eq, hf]
        refine Does.ok (out := .bool false) (w' := w') (Prog.bind_ok (show VHeap.read al i _ w = .ok false w' from ?_)) ?_ ?_ ?_
        · rw [VHeap.read, Prog.bind_ok e1]
          exact (Prog.bind_ok e).trans rfl
        · rw [hs]
        · rw [hs]; exact r
        · rw [hs]; exact n'.trans (n1.trans hn)
      | some cl =>
        cases hA : al.allocOk w1.n with
        | false =>
          obtain ⟨w', e, r, n'⟩ := m.noMemory cl hf hA
          rw [upd_upd] at r
          have hs : step al.allocOk (.read i (.types ty ct value ending)) s = (.threw, (s.set i none).tick) := by
            rw [step, registered_eq, hf]; exact if_neg (by rw [← hn, ← n1, hA]; decide)
          refine Does.throw (w' := w') (Prog.bind_throw (show VHeap.read al i _ w = .throw w' from ?_)) ?_ ?_ ?_
          · rw [VHeap.read, Prog.bind_ok e1]
            exact Prog.bind_throw e
          · rw [hs]
          · rw [hs]; exact r
          · rw [hs]; exact n'.trans (by rw [n1, hn]; rfl)
        | true =>
          obtain ⟨w2, a, e2, r2, n2, v2⟩ := m.made cl hf hA
          rw [upd_upd] at r2
          have hi2 : w2.vars i = some ⟨ty.setWidth 32, ct.setWidth 32, some a⟩ := by rw [v2, upd_same]
          rcases r2.cases hi2 with ⟨e, _⟩ | ⟨a', q, cl2, da, eq, hfa, hta, hca, haa⟩
          · cases e
          cases da
          rw [upd_same] at eq
          cases eq
          have hcl : cl2 = cl := by
            have : findTypeClass (ty.setWidth 32) (ct.setWidth 32) = some cl2 := hfa
            rw [hf] at this; exact (Option.some.inj this).symm
          subst hcl
          have r := r2.store hi2 (o := ⟨cl2.t, cl2.c, value cl2.t cl2.c⟩) hfa rfl rfl
          rw [upd_upd] at r
          have run : VHeap.read al i (.types ty ct value ending) w =
              ending.exit ⟨w2.vars, upd w2.heap a (some ⟨cl2.t, cl2.c, value cl2.t cl2.c⟩), w2.n⟩ := by
            rw [VHeap.read, Prog.bind_ok e1]
            refine (Prog.bind_ok e2).trans ((Prog.bind_ok (getVar_ok hi2)).trans ?_)
            show (withClass (findTypeClass _ _) false _) w2 = _
            rw [hf]
            exact (Prog.bind_ok (deref_ok haa hta hca)).trans rfl
          have hs : step al.allocOk (.read i (.types ty ct value ending)) s = (ended ending, (s.set i (some ⟨cl2.t, cl2.c, value cl2.t cl2.c⟩)).tick) := by
            rw [step, registered_eq, hf]; exact if_pos (by rw [← hn, ← n1, hA])
          cases ending with
          | returns b =>
            refine Does.ok (out := .bool b) (Prog.bind_ok (run.trans rfl)) ?_ ?_ ?_
            · rw [hs]; rfl
            · rw [hs]; exact r
            · rw [hs]; exact n2.trans (by rw [n1, hn]; rfl)
          | throws =>
            refine Does.throw (Prog.bind_throw (run.trans rfl)) ?_ ?_ ?_
            · rw [hs]; rfl
            · rw [hs]; exact r
            · rw [hs]; exact n2.trans (by rw [n1, hn]; rfl)

theorem Repr.permute {w : World} {sv : Nat → Option (Option DynObj)} {L L' : List Nat} (h : Repr w sv L) (e : ∀ a, a ∈ L ↔ a ∈ L') (hd : L'.Nodup) : Repr w sv L' :=
  { var := h.var, own := h.own, bound := h.bound, live := fun a => (h.live a).trans (or_congr_right (e a)),
    lost := fun i v a h1 h2 h3 => h.lost i v a h1 h2 ((e a).mpr h3), nodup := hd }

/-- Every program: nothing undefined happens, what is seen is as described, and so are the variables at the end. -/
theorem run_ok (al : Allocator) (ops : List Op) : ∀ {w : World} {s : State} {L : List Nat}, Repr w s.vars L → w.n = s.n →
    ∃ w' lost, run al ops w = some ((Spec.VarProg.run al.allocOk ops s).1, w', lost) ∧
      Repr w' (Spec.VarProg.run al.allocOk ops s).2.vars (lost ++ L) ∧ w'.n = (Spec.VarProg.run al.allocOk ops s).2.n ∧
      lost.length = abandoned al.allocOk ops s := by
  induction ops with
  | nil => intro w s L h hn; exact ⟨w, [], rfl, h, hn, rfl⟩
  | cons op ops ih =>
    intro w s L h hn
    have hsc : (fun i => (w.vars i).isSome) = fun i => (s.vars i).isSome := by
      funext i; exact (h.var i).isSome
    unfold run Spec.VarProg.run abandoned
    rw [hsc]
    by_cases hs : op.scoped (fun i => (s.vars i).isSome) = true
    · rw [if_pos hs, if_pos hs, if_pos hs]
      obtain ⟨w1, e1, r1, n1⟩ := step_ok al op h hn (by rw [hsc]; exact hs)
      obtain ⟨w2, lost, e2, r2, n2, l2⟩ := ih r1 n1
      refine ⟨w2, op.overwrites w ++ lost, ?_, ?_, n2, ?_⟩
      · generalize op.exec al w = r at e1
        cases r with
        | ok o w' =>
          have := Option.some.inj e1
          cases this
          dsimp only
          rw [e2]; rfl
        | throw w' =>
          have := Option.some.inj e1
          obtain ⟨e3, e4⟩ := Prod.mk.inj this
          subst e4
          dsimp only
          rw [e2, ← e3]; rfl
        | ub => cases e1
      · refine r2.permute (fun a => by simp [or_comm, or_left_comm, or_assoc]) ?_
        rw [List.append_assoc, ((List.perm_append_comm_assoc _ _ _).nodup_iff)]
        exact r2.nodup
      · rw [List.length_append, l2]
        congr 1
        cases op with
        | moveAssign i j =>
          have : (w.vars i).isSome = true := by
            have := (Bool.and_eq_true _ _ ▸ hs).1
            rw [← hsc] at this
            exact List.all_eq_true.mp this i (by simp [Op.uses])
          obtain ⟨v, hv⟩ := Option.isSome_iff_exists.mp this
          unfold Op.overwrites
          dsimp only
          rw [hv]
          rcases h.cases hv with ⟨ed, es⟩ | ⟨a, o, cl, ed, es, _⟩
          · rw [held_eq es]; simp [ed]
          · rw [held_eq es]; simp [ed]
        | _ => rfl
    · rw [if_neg hs, if_neg hs, if_neg hs]
      obtain ⟨w2, lost, e2, r2, n2, l2⟩ := ih h hn
      exact ⟨w2, lost, by rw [e2]; rfl, r2, n2, l2⟩

/-- The start. -/
theorem start_repr : Repr World.start State.start.vars [] where
  var _ := .dead
  own _ _ _ _ _ h := by cases h
  bound := ⟨0, fun _ _ => rfl⟩
  live a := ⟨fun h => absurd rfl h, fun h => by
    rcases h with ⟨_, _, h, _⟩ | h
    · cases h
    · cases h⟩
  lost _ _ _ h := by cases h
  nodup := List.nodup_nil

end VHeap
end ISD
