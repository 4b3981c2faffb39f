import Verif.Model.Containers

/-!
# C26: the containers have value semantics

The specification: a program works on named variables, each holding nothing or a value. Copying copies the value, moving transfers it.
-/

namespace ISD

/-! ## optional_value -/

/-- What a program may do with `optional_value` objects. -/
inductive OValOp (T : Type) where
  | copy (d s : Nat) | move (d s : Nat) | reset (d : Nat) | set (d : Nat) (x : T) | put (d : Nat) (x : T)

/-- The operation on the model; `none` is undefined behaviour. -/
def OValOp.run {T : Type} (w : OValWorld T) : OValOp T → Option (OValWorld T)
  | .copy d s => w.copy d s
  | .move d s => some (w.move d s)
  | .reset d => some (w.reset d)
  | .set d x => some (w.set d x)
  | .put d x => w.put d x

/-- The operation on plain variables; `none`: writing through `value()` of an absent object. -/
def OValOp.spec {T : Type} (a : Nat → Option T) : OValOp T → Option (Nat → Option T)
  | .copy d s => some (upd a d (a s))
  | .move d s => some (upd (upd a s none) d (a s))
  | .reset d => some (upd a d none)
  | .set d x => some (upd a d (some x))
  | .put d x => if (a d).isSome then some (upd a d (some x)) else none

def runAll {S O : Type} (step : S → O → Option S) (s : S) : List O → Option S
  | [] => some s
  | o :: os => (step s o).bind fun s => runAll step s os

/-- Object `i` shows `a i`; every owned cell is alive, owned once, and there is no other live cell. -/
structure OValWorld.Rel {T : Type} (w : OValWorld T) (a : Nat → Option T) : Prop where
  val : ∀ i, match w.ptr i with
    | none => a i = none
    | some p => w.heap p = a i ∧ (a i).isSome
  own : ∀ i j p, w.ptr i = some p → w.ptr j = some p → i = j
  live : ∀ p, (w.heap p).isSome → ∃ i, w.ptr i = some p
  fresh : ∀ p, w.next ≤ p → w.heap p = none

namespace OValWorld

variable {T : Type} {w : OValWorld T} {a : Nat → Option T}

theorem Rel.absent (h : w.Rel a) {i : Nat} : w.ptr i = .none ↔ a i = .none := by
  have := h.val i
  cases e : w.ptr i with
  | none => rw [e] at this; simpa using this
  | some p =>
    rw [e] at this
    obtain ⟨-, h2⟩ := this
    rw [Option.isSome_iff_ne_none] at h2
    simp [h2]

theorem Rel.deref (h : w.Rel a) (i : Nat) : w.deref i = a i := by
  have := h.val i
  unfold OValWorld.deref
  cases e : w.ptr i with
  | none => rw [e] at this; simp [this]
  | some p => rw [e] at this; simp [this.1]

theorem Rel.assign_none (h : w.Rel a) (d : Nat) : (w.assignPtr d .none).Rel (upd a d .none) := by
  have hv := h.val
  unfold assignPtr
  cases e : w.ptr d with
  | none =>
    have hd := h.absent.mp e
    refine ⟨fun i => ?_, fun i j p h1 h2 => ?_, fun p hp => ?_, h.fresh⟩
    · by_cases hi : i = d
      · subst hi; simp [upd]
      · simpa [upd, hi] using hv i
    · simp only [upd] at h1 h2
      split at h1
      · cases h1
      · split at h2
        · cases h2
        · exact h.own i j p h1 h2
    · obtain ⟨i, hi⟩ := h.live p hp
      refine ⟨i, ?_⟩
      have : i ≠ d := by rintro rfl; rw [e] at hi; cases hi
      simpa [upd, this] using hi
  | some q =>
    refine ⟨fun i => ?_, fun i j p h1 h2 => ?_, fun p hp => ?_, fun p hp => ?_⟩
    · by_cases hi : i = d
      · subst hi; simp [upd]
      · have := hv i
        simp only [upd, if_neg hi]
        cases e2 : w.ptr i with
        | none => simpa [e2] using this
        | some p =>
          rw [e2] at this
          have hne : p ≠ q := by rintro rfl; exact hi (h.own i d p e2 e)
          simpa [hne] using this
    · simp only [upd] at h1 h2
      split at h1
      · cases h1
      · split at h2
        · cases h2
        · exact h.own i j p h1 h2
    · have hne : p ≠ q := by rintro rfl; simp [upd] at hp
      obtain ⟨i, hi⟩ := h.live p (by simpa [upd, hne] using hp)
      refine ⟨i, ?_⟩
      have : i ≠ d := by rintro rfl; rw [e] at hi; exact hne (Option.some.inj hi).symm
      simpa [upd, this] using hi
    · simp only [upd]; split
      · rfl
      · exact h.fresh p hp

theorem Rel.assign_new (h : w.Rel a) (d : Nat) (x : T) : (w.set d x).Rel (upd a d (some x)) := by
  have hv := h.val
  have hlt : ∀ i p, w.ptr i = some p → p ≠ w.next := by
    intro i p hp hc
    have h1 := hv i
    rw [hp] at h1
    obtain ⟨h1, h2⟩ := h1
    rw [h.fresh p (by omega)] at h1
    rw [← h1] at h2; cases h2
  unfold OValWorld.set alloc assignPtr
  dsimp only
  cases e : w.ptr d with
  | none =>
    have hd := h.absent.mp e
    refine ⟨fun i => ?_, fun i j p h1 h2 => ?_, fun p hp => ?_, fun p hp => ?_⟩
    · by_cases hi : i = d
      · subst hi; simp [upd]
      · simp only [upd, if_neg hi]
        have := hv i
        cases e2 : w.ptr i with
        | none => simpa [e2] using this
        | some p => rw [e2] at this; simpa [hlt i p e2] using this
    · simp only [upd] at h1 h2
      split at h1 <;> split at h2
      · omega
      · exact absurd ((Option.some.inj h1).symm) (hlt j p h2)
      · exact absurd ((Option.some.inj h2).symm) (hlt i p h1)
      · exact h.own i j p h1 h2
    · by_cases hpn : p = w.next
      · exact ⟨d, by simp [upd, hpn]⟩
      · obtain ⟨i, hi⟩ := h.live p (by simpa [upd, hpn] using hp)
        have : i ≠ d := by rintro rfl; rw [e] at hi; cases hi
        exact ⟨i, by simpa [upd, this] using hi⟩
    · simp only [upd] at hp ⊢; rw [if_neg (by omega)]; exact h.fresh p (by omega)
  | some q =>
    have hqn := hlt d q e
    refine ⟨fun i => ?_, fun i j p h1 h2 => ?_, fun p hp => ?_, fun p hp => ?_⟩
    · by_cases hi : i = d
      · subst hi; simp [upd, Ne.symm hqn]
      · simp only [upd, if_neg hi]
        have := hv i
        cases e2 : w.ptr i with
        | none => simpa [e2] using this
        | some p =>
          rw [e2] at this
          have hne : p ≠ q := by rintro rfl; exact hi (h.own i d p e2 e)
          simpa [hlt i p e2, hne] using this
    · simp only [upd] at h1 h2
      split at h1 <;> split at h2
      · omega
      · exact absurd ((Option.some.inj h1).symm) (hlt j p h2)
      · exact absurd ((Option.some.inj h2).symm) (hlt i p h1)
      · exact h.own i j p h1 h2
    · by_cases hpn : p = w.next
      · exact ⟨d, by simp [upd, hpn]⟩
      · have hpq : p ≠ q := by rintro rfl; simp [upd] at hp
        obtain ⟨i, hi⟩ := h.live p (by simpa [upd, hpn, hpq] using hp)
        have : i ≠ d := by rintro rfl; rw [e] at hi; exact hpq (Option.some.inj hi).symm
        exact ⟨i, by simpa [upd, this] using hi⟩
    · simp only [upd] at hp ⊢
      split
      · rfl
      · rw [if_neg (by omega)]; exact h.fresh p (by omega)

theorem Rel.copy (h : w.Rel a) (d s : Nat) : ∃ w', w.copy d s = some w' ∧ w'.Rel (upd a d (a s)) := by
  unfold OValWorld.copy
  cases e : w.ptr s with
  | none => exact ⟨_, rfl, by rw [h.absent.mp e]; exact h.assign_none d⟩
  | some p =>
    have h1 := h.val s
    rw [e] at h1
    obtain ⟨h1, h2⟩ := h1
    obtain ⟨x, hx⟩ := Option.isSome_iff_exists.mp h2
    dsimp only
    rw [h.deref, hx]
    exact ⟨_, rfl, h.assign_new d x⟩

theorem Rel.move (h : w.Rel a) (d s : Nat) : (w.move d s).Rel (upd (upd a s .none) d (a s)) := by
  have hv := h.val
  have key : ∀ q, (fun p => w.heap p) = (fun p => w.heap p) → q = w.ptr s → ((w.move d s).ptr = upd (upd w.ptr s .none) d q) := by
    intro q _ hq
    subst hq
    unfold OValWorld.move assignPtr
    dsimp only
    split <;> rfl
  have hptr := key _ rfl rfl
  have hnext : (w.move d s).next = w.next := by
    unfold OValWorld.move assignPtr; dsimp only; split <;> rfl
  by_cases hds : d = s
  · subst hds
    have hheap : (w.move d d).heap = w.heap := by
      unfold OValWorld.move assignPtr
      simp [upd]
    have hp2 : (w.move d d).ptr = w.ptr := by
      rw [hptr]; funext i; simp only [upd]; split
      · rename_i hi; rw [hi]
      · rfl
    have ha : upd (upd a d .none) d (a d) = a := by
      funext i; simp only [upd]; split
      · rename_i hi; rw [hi]
      · rfl
    rw [ha]
    exact ⟨by rw [hp2, hheap]; exact hv, by rw [hp2]; exact h.own, by rw [hp2, hheap]; exact h.live, by rw [hheap, hnext]; exact h.fresh⟩
  · have hheap : (w.move d s).heap = match w.ptr d with | .none => w.heap | some q => upd w.heap q .none := by
      unfold OValWorld.move assignPtr
      simp only [upd, if_neg hds]
      split <;> rename_i e <;> rw [e]
    refine ⟨fun i => ?_, fun i j p h1 h2 => ?_, fun p hp => ?_, fun p hp => ?_⟩
    · rw [hptr, hheap]
      simp only [upd]
      by_cases hi : i = d
      · subst hi
        simp only [if_pos]
        have := hv s
        cases e : w.ptr s with
        | none => simpa [e] using this
        | some p =>
          rw [e] at this
          cases e2 : w.ptr i with
          | none => exact this
          | some q =>
            have hne : p ≠ q := by rintro rfl; exact hds (h.own i s p e2 e)
            simpa [upd, hne] using this
      · simp only [if_neg hi]
        by_cases his : i = s
        · subst his; simp
        · simp only [if_neg his]
          have := hv i
          cases e : w.ptr i with
          | none => simpa [e] using this
          | some p =>
            rw [e] at this
            cases e2 : w.ptr d with
            | none => exact this
            | some q =>
              have hne : p ≠ q := by rintro rfl; exact hi (h.own i d p e e2)
              simpa [upd, hne] using this
    · rw [hptr] at h1 h2
      simp only [upd] at h1 h2
      by_cases hi : i = d <;> by_cases hj : j = d
      · omega
      · rw [if_pos hi] at h1
        rw [if_neg hj] at h2
        split at h2
        · cases h2
        · have := h.own s j p h1 h2; omega
      · rw [if_pos hj] at h2
        rw [if_neg hi] at h1
        split at h1
        · cases h1
        · have := h.own s i p h2 h1; omega
      · rw [if_neg hi] at h1
        rw [if_neg hj] at h2
        split at h1
        · cases h1
        · split at h2
          · cases h2
          · exact h.own i j p h1 h2
    · have hlive : (w.heap p).isSome ∧ w.ptr d ≠ some p := by
        rw [hheap] at hp
        cases e : w.ptr d with
        | none => rw [e] at hp; exact ⟨hp, by simp⟩
        | some q =>
          rw [e] at hp
          have hne : p ≠ q := by rintro rfl; simp [upd] at hp
          exact ⟨by simpa [upd, hne] using hp, by simpa using Ne.symm hne⟩
      obtain ⟨i, hi⟩ := h.live p hlive.1
      have hid : i ≠ d := by rintro rfl; exact hlive.2 hi
      by_cases his : i = s
      · subst his; exact ⟨d, by rw [hptr]; simpa [upd] using hi⟩
      · exact ⟨i, by rw [hptr]; simpa [upd, hid, his] using hi⟩
    · rw [hnext] at hp
      rw [hheap]
      split
      · exact h.fresh p hp
      · simp only [upd]; split
        · rfl
        · exact h.fresh p hp

theorem Rel.put (h : w.Rel a) (d : Nat) (x : T) (hd : (a d).isSome) : ∃ w', w.put d x = some w' ∧ w'.Rel (upd a d (some x)) := by
  unfold OValWorld.put
  cases e : w.ptr d with
  | none => rw [h.absent.mp e] at hd; cases hd
  | some p =>
    have h1 := h.val d
    rw [e] at h1
    obtain ⟨h1, h2⟩ := h1
    dsimp only
    rw [if_pos (by rw [h1]; exact hd)]
    refine ⟨_, rfl, fun i => ?_, h.own, fun q hq => ?_, fun q hq => ?_⟩
    · by_cases hi : i = d
      · subst hi; simp [upd, e]
      · simp only [upd, if_neg hi]
        have := h.val i
        cases e2 : w.ptr i with
        | none => simpa [e2] using this
        | some q =>
          rw [e2] at this
          have hne : q ≠ p := by rintro rfl; exact hi (h.own i d q e2 e)
          simpa [hne] using this
    · by_cases hqp : q = p
      · exact ⟨d, by rw [hqp]; exact e⟩
      · exact h.live q (by simpa [upd, hqp] using hq)
    · have hqp : q ≠ p := by
        rintro rfl
        rw [h.fresh q hq] at h1
        rw [← h1] at h2; cases h2
      simpa [upd, hqp] using h.fresh q hq

end OValWorld

/-- What the observers of `optional_value` must answer: `i` and `j` hold `a i` and `a j`. -/
structure ShowsValues {T : Type} [BEq T] (w : OValWorld T) (a : Nat → Option T) : Prop where
  hasValue : ∀ i, w.hasValue i = (a i).isSome
  value : ∀ i, w.deref i = a i
  eq : ∀ i j, ∃ b, w.eq i j = some b ∧ (b = true ↔ a i = a j)
  ne : ∀ i j, ∃ b, w.ne i j = some b ∧ (b = true ↔ a i ≠ a j)
  eqVal : ∀ i x, ∃ b, w.eqVal i x = some b ∧ (b = true ↔ a i = some x)
  neVal : ∀ i x, ∃ b, w.neVal i x = some b ∧ (b = true ↔ a i ≠ some x)

theorem OValWorld.Rel.shows {T : Type} [BEq T] [LawfulBEq T] {w : OValWorld T} {a : Nat → Option T} (h : w.Rel a) :
    ShowsValues w a := by
  have hd := fun i => h.deref i
  have hc : ∀ i, (w.ptr i = none ∧ a i = none) ∨ (∃ p x, w.ptr i = some p ∧ a i = some x) := by
    intro i
    cases e : w.ptr i with
    | none => exact Or.inl ⟨rfl, h.absent.mp e⟩
    | some p =>
      cases e2 : a i with
      | none => rw [h.absent.mpr e2] at e; cases e
      | some x => exact Or.inr ⟨p, x, rfl, rfl⟩
  refine ⟨fun i => ?_, hd, fun i j => ?_, fun i j => ?_, fun i x => ?_, fun i x => ?_⟩
  · rcases hc i with ⟨h1, h2⟩ | ⟨p, x, h1, h2⟩ <;> simp [OValWorld.hasValue, h1, h2]
  · rcases hc i with ⟨h1, h2⟩ | ⟨p, x, h1, h2⟩ <;> rcases hc j with ⟨h3, h4⟩ | ⟨q, y, h3, h4⟩ <;>
      simp [OValWorld.eq, h1, h2, h3, h4, hd]
  · rcases hc i with ⟨h1, h2⟩ | ⟨p, x, h1, h2⟩ <;> rcases hc j with ⟨h3, h4⟩ | ⟨q, y, h3, h4⟩ <;>
      simp [OValWorld.ne, h1, h2, h3, h4, hd]
  · rcases hc i with ⟨h1, h2⟩ | ⟨p, y, h1, h2⟩ <;> simp [OValWorld.eqVal, h1, h2, hd]
  · rcases hc i with ⟨h1, h2⟩ | ⟨p, y, h1, h2⟩ <;> simp [OValWorld.neVal, h1, h2, hd]

/-- **C26** for `optional_value`: every program of copies, moves, sets, resets and assignments through `value()` on any number of objects,
self assignments included, behaves as on plain variables: there is no undefined behaviour unless the program writes through `value()` of
an absent object, and `has_value`, `value`, `==` and `!=` (with another object and with a value) answer accordingly. -/
theorem C26_optional_value {T : Type} [BEq T] [LawfulBEq T] (ops : List (OValOp T)) (a : Nat → Option T)
    (ha : runAll OValOp.spec (fun _ => none) ops = some a) :
    ∃ w, runAll OValOp.run OValWorld.start ops = some w ∧ ShowsValues w a := by
  have key : ∀ (ops : List (OValOp T)) (w : OValWorld T) (a0 : Nat → Option T), w.Rel a0 →
      runAll OValOp.spec a0 ops = some a → ∃ w', runAll OValOp.run w ops = some w' ∧ w'.Rel a := by
    intro ops
    induction ops with
    | nil =>
      intro w a0 h ha
      obtain rfl : a0 = a := Option.some.inj ha
      exact ⟨w, rfl, h⟩
    | cons o ops ih =>
      intro w a0 h ha
      obtain ⟨a1, e1, ha⟩ : ∃ a1, o.spec a0 = some a1 ∧ runAll OValOp.spec a1 ops = some a := by
        simpa [runAll, Option.bind_eq_some_iff] using ha
      obtain ⟨w1, e2, h1⟩ : ∃ w1, o.run w = some w1 ∧ w1.Rel a1 := by
        cases o with
        | copy d s => obtain rfl := (Option.some.inj e1); exact h.copy d s
        | move d s => obtain rfl := (Option.some.inj e1); exact ⟨_, rfl, h.move d s⟩
        | reset d => obtain rfl := (Option.some.inj e1); exact ⟨_, rfl, h.assign_none d⟩
        | set d x => obtain rfl := (Option.some.inj e1); exact ⟨_, rfl, h.assign_new d x⟩
        | put d x =>
          rw [OValOp.spec] at e1
          split at e1
          · rename_i hd; obtain rfl := (Option.some.inj e1); exact h.put d x hd
          · cases e1
      obtain ⟨w2, e3, h2⟩ := ih w1 a1 h1 ha
      exact ⟨w2, by rw [runAll, e2]; exact e3, h2⟩
  obtain ⟨w, e, h⟩ := key ops OValWorld.start _
    ⟨fun i => rfl, fun i j p h => (nomatch h), fun p h => (nomatch h), fun p _ => rfl⟩ ha
  exact ⟨w, e, h.shows⟩

/-! ## optional_vector and optional_idx_vector -/

/-- What a program may do with `optional_vector` (`C` a list) or `optional_idx_vector` (`C` an `IdxVec`) objects. -/
inductive OContOp (C : Type) where
  | copy (d s : Nat) | move (d s : Nat) (residue : C) | reset (d : Nat) | set (d : Nat) | setTo (d : Nat) (c : C)
  | change (d : Nat) (f : C → C)

def OContOp.run {C : Type} (cleared : C) (w : Nat → OCont C) : OContOp C → Nat → OCont C
  | .copy d s => OCont.copy w d s
  | .move d s r => OCont.move w d s r
  | .reset d => OCont.reset cleared w d
  | .set d => OCont.set cleared w d
  | .setTo d c => OCont.setTo w d c
  | .change d f => OCont.change w d f

/-- The operation on plain variables. A moved-from variable is absent; a change through the reference of an absent object shows nothing. -/
def OContOp.spec {C : Type} (cleared : C) (a : Nat → Option C) : OContOp C → Nat → Option C
  | .copy d s => upd a d (a s)
  | .move d s _ => upd (upd a d (a s)) s none
  | .reset d => upd a d none
  | .set d => upd a d (some cleared)
  | .setTo d c => upd a d (some c)
  | .change d f => upd a d ((a d).map f)

/-- What the observers must answer. -/
structure ShowsContainers {C : Type} [BEq C] (w : Nat → OCont C) (a : Nat → Option C) : Prop where
  hasValue : ∀ i, (w i).has = (a i).isSome
  value : ∀ i c, a i = some c → (w i).vec = c
  eq : ∀ i j, OCont.eq (w i) (w j) = true ↔ a i = a j
  ne : ∀ i j, OCont.ne (w i) (w j) = true ↔ a i ≠ a j

theorem ocont_shows {C : Type} [BEq C] [LawfulBEq C] {w : Nat → OCont C} {a : Nat → Option C}
    (h : ∀ i, (w i).has = (a i).isSome ∧ ∀ c, a i = some c → (w i).vec = c) : ShowsContainers w a := by
  have hc : ∀ i, ((w i).has = false ∧ a i = none) ∨ ∃ c, (w i).has = true ∧ (w i).vec = c ∧ a i = some c := by
    intro i
    obtain ⟨h1, h2⟩ := h i
    cases e : a i with
    | none => exact Or.inl ⟨by rw [h1, e]; rfl, rfl⟩
    | some c => exact Or.inr ⟨c, by rw [h1, e]; rfl, h2 c e, rfl⟩
  refine ⟨fun i => (h i).1, fun i => (h i).2, fun i j => ?_, fun i j => ?_⟩
  · rcases hc i with ⟨h1, h2⟩ | ⟨c, h1, h2, h3⟩ <;> rcases hc j with ⟨h4, h5⟩ | ⟨c', h4, h5, h6⟩ <;> simp_all [OCont.eq]
  · rcases hc i with ⟨h1, h2⟩ | ⟨c, h1, h2, h3⟩ <;> rcases hc j with ⟨h4, h5⟩ | ⟨c', h4, h5, h6⟩ <;> simp_all [OCont.ne]

/-- The relation kept by every operation. -/
theorem ocont_step {C : Type} (cleared : C) (o : OContOp C) {w : Nat → OCont C} {a : Nat → Option C}
    (h : ∀ i, (w i).has = (a i).isSome ∧ ∀ c, a i = some c → (w i).vec = c) :
    ∀ i, (o.run cleared w i).has = (o.spec cleared a i).isSome ∧ ∀ c, o.spec cleared a i = some c → (o.run cleared w i).vec = c := by
  intro i
  cases o with
  | copy d s =>
    simp only [OContOp.run, OContOp.spec, OCont.copy, upd]
    by_cases hi : i = d
    · simp only [if_pos hi, if_true]
      by_cases hs : s = d
      · simp only [if_pos hs]; subst hs; exact h s
      · simp only [if_neg hs]; exact h s
    · simp only [if_neg hi]; exact h i
  | move d s r =>
    simp only [OContOp.run, OContOp.spec, OCont.move, upd]
    by_cases hi : i = s
    · simp [hi]
    · simp only [if_neg hi]
      by_cases hid : i = d
      · have : s ≠ d := by rintro rfl; exact hi hid
        simp only [if_pos hid, if_true, if_neg this]; exact h s
      · simp only [if_neg hid]; exact h i
  | reset d => simp only [OContOp.run, OContOp.spec, OCont.reset, upd]; split <;> simp [h i]; exact (h i).2
  | set d => simp only [OContOp.run, OContOp.spec, OCont.set, upd]; split <;> simp [h i]; exact (h i).2
  | setTo d c => simp only [OContOp.run, OContOp.spec, OCont.setTo, upd]; split <;> simp [h i]; exact (h i).2
  | change d f =>
    simp only [OContOp.run, OContOp.spec, OCont.change, upd]
    by_cases hi : i = d
    · subst hi
      obtain ⟨h1, h2⟩ := h i
      simp only [if_true, Option.isSome_map]
      refine ⟨h1, fun c hc => ?_⟩
      obtain ⟨c', hc', rfl⟩ := Option.map_eq_some_iff.mp hc
      rw [h2 c' hc']
    · simp only [if_neg hi]; exact h i

theorem ocont_all {C : Type} [BEq C] [LawfulBEq C] (cleared : C) (ops : List (OContOp C)) :
    ShowsContainers (ops.foldl (OContOp.run cleared) fun _ => OCont.start cleared) (ops.foldl (OContOp.spec cleared) fun _ => none) := by
  apply ocont_shows
  have key : ∀ (ops : List (OContOp C)) (w : Nat → OCont C) (a : Nat → Option C),
      (∀ i, (w i).has = (a i).isSome ∧ ∀ c, a i = some c → (w i).vec = c) →
      ∀ i, (ops.foldl (OContOp.run cleared) w i).has = (ops.foldl (OContOp.spec cleared) a i).isSome ∧
        ∀ c, ops.foldl (OContOp.spec cleared) a i = some c → (ops.foldl (OContOp.run cleared) w i).vec = c := by
    intro ops
    induction ops with
    | nil => intro w a h; exact h
    | cons o ops ih => intro w a h; exact ih _ _ (ocont_step cleared o h)
  exact key ops _ _ fun i => ⟨rfl, fun c h => by cases h⟩

/-- **C26** for `optional_vector`: every program behaves as on plain variables holding nothing or a list; in particular the hidden
contents of an absent object are never seen, whatever moves leave behind. -/
theorem C26_optional_vector {T : Type} [BEq T] [LawfulBEq T] (ops : List (OContOp (List T))) :
    ShowsContainers (ops.foldl (OContOp.run []) fun _ => OCont.start []) (ops.foldl (OContOp.spec []) fun _ => none) :=
  ocont_all [] ops

theorem idxVec_lawful {T : Type} [BEq T] [LawfulBEq T] : @LawfulBEq (IdxVec T) (IdxVec.beq T) :=
  letI := IdxVec.beq T
  { eq_of_beq := by
      intro a b h
      have h : IdxVec.eq a b = true := h
      cases a; cases b
      simpa [IdxVec.eq] using h
    rfl := by
      intro a
      show IdxVec.eq a a = true
      simp [IdxVec.eq] }

/-- **C26** for `optional_idx_vector`. -/
theorem C26_optional_idx_vector {T : Type} [BEq T] [LawfulBEq T] (ops : List (OContOp (IdxVec T))) :
    @ShowsContainers _ (IdxVec.beq T) (ops.foldl (OContOp.run IdxVec.cleared) fun _ => OCont.start IdxVec.cleared)
      (ops.foldl (OContOp.spec IdxVec.cleared) fun _ => none) :=
  letI := IdxVec.beq T
  haveI := idxVec_lawful (T := T)
  ocont_all IdxVec.cleared ops

/-- **C26**, `reset()` gives the contents up: after any program, an object that was reset is absent, and also a build without the debug
check in `values()` finds an empty container there; the other objects are as they were. -/
theorem C26_reset_discards {C : Type} (cleared : C) (ops : List (OContOp C)) (d i : Nat) :
    let w := ops.foldl (OContOp.run cleared) fun _ => OCont.start cleared
    let w' := (ops ++ [OContOp.reset d]).foldl (OContOp.run cleared) fun _ => OCont.start cleared
    w' i = if i = d then ⟨cleared, false⟩ else w i := by
  dsimp only
  rw [List.foldl_append]
  rfl

example : ([.setTo 0 [1, 2], .copy 1 0, .reset 0] : List (OContOp (List Nat))).foldl (OContOp.run []) (fun _ => OCont.start []) 1
    = ⟨[1, 2], true⟩ := rfl

/-- **C26** for `idx_vector`: `==` holds exactly for equal values and index, `!=` is its negation, a copy has the contents of the source
and later changes of one object do not show in another. -/
theorem C26_idx_vector {T : Type} [BEq T] [LawfulBEq T] :
    (∀ a b : IdxVec T, IdxVec.eq a b = true ↔ a.values = b.values ∧ a.index = b.index) ∧
    (∀ a b : IdxVec T, IdxVec.ne a b = !IdxVec.eq a b) ∧
    (∀ (w : Nat → IdxVec T) (d s : Nat), IdxVec.copy w d s = upd w d (w s)) ∧
    (∀ (w : Nat → IdxVec T) (d s : Nat) (f : IdxVec T → IdxVec T), s ≠ d →
      IdxVec.change (IdxVec.copy w d s) s f d = w s ∧ IdxVec.change (IdxVec.copy w d s) d f s = w s) := by
  have hcopy : ∀ (w : Nat → IdxVec T) (d s : Nat), IdxVec.copy w d s = upd w d (w s) := by
    intro w d s
    funext i
    simp only [IdxVec.copy, upd]
    by_cases hi : i = d
    · by_cases hs : s = d
      · simp [hi, hs]
      · simp [hi, hs]
    · simp [hi]
  refine ⟨fun a b => by simp [IdxVec.eq], fun a b => by simp [IdxVec.ne, IdxVec.eq, bne, Bool.not_and], hcopy, fun w d s f h => ?_⟩
  rw [hcopy]
  constructor
  · simp [IdxVec.change, upd, Ne.symm h]
  · simp [IdxVec.change, upd, h]

/-! ## Non-trivial programs -/

/-- Copy, overwrite the source, compare; move back; self assignment. -/
example : ∃ a, runAll OValOp.spec (fun _ => none) [.set 0 (7 : Nat), .copy 1 0, .put 0 8, .copy 1 1, .move 2 1] = some a ∧
    a 0 = some 8 ∧ a 1 = none ∧ a 2 = some 7 := ⟨_, rfl, rfl, rfl, rfl⟩

example : ([OContOp.setTo 0 [1, 2], .copy 1 0, .change 0 (3 :: ·), .move 2 0 [9], .change 0 (4 :: ·)].foldl
    (OContOp.spec ([] : List Nat)) fun _ => none) 1 = some [1, 2] ∧
    ([OContOp.setTo 0 [1, 2], .copy 1 0, .change 0 (3 :: ·), .move 2 0 [9], .change 0 (4 :: ·)].foldl
    (OContOp.spec ([] : List Nat)) fun _ => none) 2 = some [3, 1, 2] := by
  simp [OContOp.spec, upd]

end ISD
