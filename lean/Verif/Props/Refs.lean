import Verif.Model.Refs
import Verif.Proofs.Order

/-!
# C78: references cannot be forged

"Acts like a memory handle. It can be created, held and copied, but cannot be set to a specific value other than null"
(ISD_entity_ref.inl 1-2).
-/

namespace ISD

namespace RefCall

/-- The call is a successful `make_ref` with the fresh uuid `id`. -/
def Made (id : UUID) : RefCall → Prop
  | make _ ok u => ok = true ∧ u ≠ UUID.zero ∧ u = id
  | _ => False

/-- The call reads the uuid `id` from a stream. -/
def Read (id : UUID) : RefCall → Prop
  | read _ u => u = id
  | _ => False

/-- The call stores into, or moves out of, the object `o`. -/
def Touches (o : RefObj) : RefCall → Prop
  | construct d => d = o
  | copy d _ => d = o
  | move d s => d = o ∨ s = o
  | make d _ _ => d = o
  | read d _ => d = o

/-- The reference that the call brings into the program, if it brings one other than null. -/
def newId : RefCall → Option UUID
  | make _ ok u => if ok = true ∧ u ≠ UUID.zero then some u else none
  | read _ u => if u ≠ UUID.zero then some u else none
  | _ => none

/-- The call makes a second holder of a reference that is already held: a copy from another object than the null constants. -/
def Copies : RefCall → Prop
  | copy _ s => s ≠ .zeroConst ∧ s ≠ .infConst
  | _ => False

end RefCall

open RefCall

/-- What `make_ref` answers: a reference that is not null, or an exception; it throws exactly if the system gave no usable uuid. -/
theorem C78_make_ref (ok : Bool) (id : UUID) :
    (∀ r, makeRef ok id = some r → r = ⟨id⟩ ∧ r.toBool = true ∧ r ≠ EntityRef.null) ∧
    (makeRef ok id = none ↔ ok = false ∨ id = UUID.zero) := by
  unfold makeRef
  by_cases he : id = UUID.zero
  · have h1 : UUID.equal id UUID.zero = true := (UUID.equal_iff _ _).2 he
    simp only [h1, Bool.or_true, if_true]
    exact ⟨nofun, fun _ => Or.inr he, fun _ => trivial⟩
  · have h1 : UUID.equal id UUID.zero = false := by
      rw [← Bool.not_eq_true, UUID.equal_iff]; exact he
    cases ok
    · simp [h1]
    · constructor
      · intro r h
        simp only [h1, Bool.not_true, Bool.or_false, Bool.false_eq_true, if_false, Option.some.injEq] at h
        subst h
        refine ⟨rfl, ?_, ?_⟩
        · simp only [EntityRef.toBool, h1, Bool.not_false]
        · intro hn
          exact he (congrArg EntityRef.id hn)
      · simp [h1, he]

theorem RefWorld.put_same (w : RefWorld) (o : RefObj) (v : EntityRef) : w.put o v o = v := if_pos rfl
theorem RefWorld.put_other (w : RefWorld) {o p : RefObj} (v : EntityRef) (h : p ≠ o) : w.put o v p = w p := if_neg h

/-- What one call does to the objects, said without the program: only the objects it names can change; after a call that returns, the destination
holds the null reference, what the source held, what `UuidCreate` gave, or what the stream held; an object that was moved from is null. A `make_ref` that throws
changes nothing. -/
theorem C78_calls (w : RefWorld) (c : RefCall) :
    (∀ o, ¬ c.Touches o → (c.run w).1 o = w o) ∧
    (∀ d, c = .construct d → (c.run w).1 d = EntityRef.null) ∧
    (∀ d s, c = .copy d (.obj s) → (c.run w).1 d = w s ∧ (s ≠ d → (c.run w).1 s = w s)) ∧
    (∀ d s, c = .move d s → (c.run w).1 s = EntityRef.null ∧ (s ≠ d → (c.run w).1 d = w s)) ∧
    (∀ d ok id, c = .make d ok id → (((c.run w).2 = true ↔ ok = true ∧ id ≠ UUID.zero) ∧
      ((c.run w).2 = true → (c.run w).1 d = ⟨id⟩) ∧ ((c.run w).2 = false → (c.run w).1 = w))) ∧
    (∀ d id, c = .read d id → (c.run w).1 d = ⟨id⟩) := by
  refine ⟨?_, ?_, ?_, ?_, ?_, ?_⟩
  · intro o h
    cases c with
    | construct d => exact RefWorld.put_other _ _ (fun e => h e.symm)
    | copy d s => exact RefWorld.put_other _ _ (fun e => h e.symm)
    | move d s =>
      have hs : o ≠ s := fun e => h (Or.inr e.symm)
      have hd : o ≠ d := fun e => h (Or.inl e.symm)
      exact (RefWorld.put_other _ _ hs).trans (RefWorld.put_other _ _ hd)
    | make d ok id =>
      simp only [run]
      cases makeRef ok id with
      | none => rfl
      | some r => exact RefWorld.put_other _ _ (fun e => h e.symm)
    | read d id => exact RefWorld.put_other _ _ (fun e => h e.symm)
  · rintro d rfl; exact RefWorld.put_same _ _ _
  · rintro d s rfl
    exact ⟨RefWorld.put_same _ _ _, fun h => RefWorld.put_other _ _ h⟩
  · rintro d s rfl
    exact ⟨RefWorld.put_same _ _ _, fun h => (RefWorld.put_other _ _ (Ne.symm h)).trans (RefWorld.put_same _ _ _)⟩
  · rintro d ok id rfl
    have hm := C78_make_ref ok id
    simp only [run]
    cases e : makeRef ok id with
    | none =>
      have h := hm.2.1 e
      refine ⟨⟨fun h => Bool.noConfusion h, ?_⟩, fun h => Bool.noConfusion h, fun _ => rfl⟩
      rintro ⟨h1, h2⟩
      rcases h with h | h
      · rw [h] at h1; cases h1
      · exact (h2 h).elim
    | some r =>
      refine ⟨⟨fun _ => ?_, fun _ => rfl⟩, fun _ => ?_, fun h => Bool.noConfusion h⟩
      · have hn : ¬ (ok = false ∨ id = UUID.zero) := fun h => by
          rw [hm.2.2 h] at e; cases e
        refine ⟨?_, fun h => hn (Or.inr h)⟩
        cases ok
        · exact (hn (Or.inl rfl)).elim
        · rfl
      · rw [(hm.1 r e).1]; exact RefWorld.put_same _ _ _
  · rintro d id rfl; exact RefWorld.put_same _ _ _

/-- Whatever a program does, a reference it holds is null, the largest value (which the class hands out for comparing), a value that a
`make_ref` of this program made, or a value that was read from a stream: there is no other way to get a reference. -/
theorem C78_no_forgery (h : List RefCall) (o : RefObj) :
    (runAll RefWorld.start h o).id = UUID.zero ∨ (runAll RefWorld.start h o).id = UUID.sup ∨
    (∃ c ∈ h, Made (runAll RefWorld.start h o).id c) ∨ (∃ c ∈ h, RefCall.Read (runAll RefWorld.start h o).id c) := by
  suffices H : ∀ (P : UUID → Prop), P UUID.zero → P UUID.sup →
      ∀ (h : List RefCall) (w : RefWorld), (∀ o, P (w o).id) →
        (∀ c ∈ h, ∀ u, Made u c ∨ RefCall.Read u c → P u) → ∀ o, P (runAll w h o).id by
    refine H (fun u => u = UUID.zero ∨ u = UUID.sup ∨ (∃ c ∈ h, Made u c) ∨ (∃ c ∈ h, RefCall.Read u c))
      (Or.inl rfl) (Or.inr (Or.inl rfl)) h RefWorld.start ?_ ?_ o
    · intro o
      cases o
      · exact Or.inl rfl
      · exact Or.inl rfl
      · exact Or.inr (Or.inl rfl)
    · intro c hc u hu
      rcases hu with hu | hu
      · exact Or.inr (Or.inr (Or.inl ⟨c, hc, hu⟩))
      · exact Or.inr (Or.inr (Or.inr ⟨c, hc, hu⟩))
  intro P h0 hs h
  induction h with
  | nil => intro w hw _ o; exact hw o
  | cons c cs ih =>
    intro w hw hc o
    refine ih (run w c).1 ?_ (fun c' hc' => hc c' (List.mem_cons_of_mem _ hc')) o
    have put : ∀ (w : RefWorld) d v, (∀ o, P (w o).id) → P v.id → ∀ o, P (w.put d v o).id := by
      intro w d v hw hv o
      by_cases e : o = d
      · subst e; rw [RefWorld.put_same]; exact hv
      · rw [RefWorld.put_other _ _ e]; exact hw o
    have hc := hc c List.mem_cons_self
    cases c with
    | construct d => exact put w d _ hw h0
    | copy d s =>
      refine put w d _ hw ?_
      cases s with
      | obj o => exact hw o
      | zeroConst => exact h0
      | infConst => exact h0
      | supConst => exact hs
    | move d s => exact put _ s _ (put w d _ hw (hw s)) h0
    | make d ok id =>
      simp only [run]
      have hm := C78_make_ref ok id
      cases e : makeRef ok id with
      | none => exact hw
      | some r =>
        have hn : ¬ (ok = false ∨ id = UUID.zero) := fun h => by
          rw [hm.2.2 h] at e; cases e
        have hok : ok = true := by
          cases ok
          · exact (hn (Or.inl rfl)).elim
          · rfl
        rw [(hm.1 r e).1]
        exact put w d _ hw (hc id (Or.inl ⟨hok, fun h => hn (Or.inr h), rfl⟩))
    | read d id => exact put w d _ hw (hc id (Or.inr rfl))

/-- The proof of `C78_moves_keep_one_holder`, with freshness said step by step. -/
theorem moves_keep_one_holder (h : List RefCall) (hc : ∀ c ∈ h, ¬ Copies c)
    (hfresh : ∀ pre c post u, h = pre ++ c :: post → (Made u c ∨ RefCall.Read u c) → u ≠ UUID.zero →
      u ≠ UUID.sup ∧ ∀ c' ∈ pre, ¬ (Made u c' ∨ RefCall.Read u c'))
    (o p : RefObj) (hne : (runAll RefWorld.start h o) ≠ EntityRef.null)
    (he : runAll RefWorld.start h o = runAll RefWorld.start h p) : o = p := by
  suffices H : ∀ (h : List RefCall) (seen : UUID → Prop) (w : RefWorld),
      (∀ o, (w o).id = UUID.zero ∨ seen (w o).id) →
      (∀ o p, (w o).id ≠ UUID.zero → (w o).id = (w p).id → o = p) →
      (∀ c ∈ h, ¬ Copies c) →
      (∀ pre c post u, h = pre ++ c :: post → (Made u c ∨ RefCall.Read u c) → u ≠ UUID.zero →
        ¬ seen u ∧ ∀ c' ∈ pre, ¬ (Made u c' ∨ RefCall.Read u c')) →
      ∀ o p, (runAll w h o).id ≠ UUID.zero → (runAll w h o).id = (runAll w h p).id → o = p by
    refine H h (fun u => u = UUID.sup) RefWorld.start ?_ ?_ hc hfresh o p ?_ (congrArg EntityRef.id he)
    · intro o
      cases o
      · exact Or.inl rfl
      · exact Or.inl rfl
      · exact Or.inr rfl
    · intro o p h1 h2
      cases o <;> cases p <;> first | rfl | exact (h1 rfl).elim | exact (absurd h2 (show ¬ (UUID.sup = UUID.zero) by decide))
    · intro h; apply hne
      cases hv : runAll RefWorld.start _ o
      rw [hv] at h; cases h; rfl
  intro h
  induction h with
  | nil => intro seen w _ hw _ _ o p h1 h2; exact hw o p h1 h2
  | cons c cs ih =>
    intro seen w hseen hinj hcop hfr o p h1 h2
    have hc0 := hcop c List.mem_cons_self
    have hnull : (EntityRef.null).id = UUID.zero := rfl
    -- storing null, or a value nobody holds, keeps the holders apart
    have put : ∀ (w : RefWorld) (d : RefObj) (v : EntityRef) (P : UUID → Prop),
        (∀ o, (w o).id = UUID.zero ∨ P (w o).id) →
        (∀ o p, (w o).id ≠ UUID.zero → (w o).id = (w p).id → o = p) →
        (v.id ≠ UUID.zero → ¬ P v.id) →
        (∀ o p, (w.put d v o).id ≠ UUID.zero → (w.put d v o).id = (w.put d v p).id → o = p) := by
      intro w d v P hP hi hv o p h1 h2
      by_cases ho : o = d
      · by_cases hp : p = d
        · rw [ho, hp]
        · subst ho
          rw [RefWorld.put_same] at h1 h2
          rw [RefWorld.put_other _ _ hp] at h2
          rcases hP p with h | h
          · exact (h1 (h2.trans h)).elim
          · rw [← h2] at h; exact (hv h1 h).elim
      · by_cases hp : p = d
        · subst hp
          rw [RefWorld.put_other _ _ ho] at h1 h2
          rw [RefWorld.put_same] at h2
          rcases hP o with h | h
          · exact (h1 h).elim
          · rw [h2] at h h1; exact (hv h1 h).elim
        · rw [RefWorld.put_other _ _ ho] at h1 h2
          rw [RefWorld.put_other _ _ hp] at h2
          exact hi o p h1 h2
    have keep : ∀ (w : RefWorld) d v (P Q : UUID → Prop), (∀ o, (w o).id = UUID.zero ∨ P (w o).id) → (∀ u, P u → Q u) →
        (v.id = UUID.zero ∨ Q v.id) → ∀ o, (w.put d v o).id = UUID.zero ∨ Q (w.put d v o).id := by
      intro w d v P Q hP hPQ hv o
      by_cases e : o = d
      · subst e; rw [RefWorld.put_same]; exact hv
      · rw [RefWorld.put_other _ _ e]; exact (hP o).imp id (hPQ _)
    -- what is new in this step
    have go : ∀ (w' : RefWorld), (run w c).1 = w' →
        (∀ o, (w' o).id = UUID.zero ∨ (seen (w' o).id ∨ Made (w' o).id c ∨ RefCall.Read (w' o).id c)) →
        (∀ o p, (w' o).id ≠ UUID.zero → (w' o).id = (w' p).id → o = p) → o = p := by
      intro w' e hs' hi'
      refine ih (fun u => seen u ∨ Made u c ∨ RefCall.Read u c) w' hs' hi'
        (fun c' hc' => hcop c' (List.mem_cons_of_mem _ hc')) ?_ o p ?_ ?_
      · intro pre c' post u e2 hu hu0
        have := hfr (c :: pre) c' post u (by rw [e2]; rfl) hu hu0
        refine ⟨?_, fun c'' h'' => this.2 c'' (List.mem_cons_of_mem _ h'')⟩
        rintro (hs | hm)
        · exact this.1 hs
        · exact this.2 c List.mem_cons_self hm
      · rw [← e]; exact h1
      · rw [← e]; exact h2
    have first : ∀ u, Made u c ∨ RefCall.Read u c → u ≠ UUID.zero → ¬ seen u :=
      fun u hu h0 => (hfr [] c cs u rfl hu h0).1
    have stay : ∀ o, (w o).id = UUID.zero ∨ (seen (w o).id ∨ Made (w o).id c ∨ RefCall.Read (w o).id c) :=
      fun o => (hseen o).imp id Or.inl
    cases c with
    | construct d =>
      exact go (w.put d EntityRef.null) rfl (keep w d EntityRef.null _ (fun u => seen u ∨ Made u (.construct d) ∨ RefCall.Read u (.construct d)) hseen
        (fun _ => Or.inl) (Or.inl rfl)) (put w d _ _ hseen hinj (fun h => (h rfl).elim))
    | copy d s =>
      have hz : w.look s = EntityRef.null := by
        cases s with
        | zeroConst => rfl
        | infConst => rfl
        | obj o => exact (hc0 ⟨nofun, nofun⟩).elim
        | supConst => exact (hc0 ⟨nofun, nofun⟩).elim
      refine go (w.put d (w.look s)) rfl ?_ ?_
      · exact keep w d (w.look s) _ (fun u => seen u ∨ Made u (.copy d s) ∨ RefCall.Read u (.copy d s)) hseen (fun _ => Or.inl) (Or.inl (by rw [hz]; rfl))
      · exact put w d (w.look s) _ hseen hinj (fun h => (h (by rw [hz]; rfl)).elim)
    | move d s =>
      refine go ((w.put d (w s)).put s EntityRef.null) rfl ?_ ?_
      · exact keep _ s EntityRef.null _ (fun u => seen u ∨ Made u (.move d s) ∨ RefCall.Read u (.move d s)) (keep w d _ _ (fun u => seen u) hseen (fun _ h => h) (hseen s)) (fun _ => Or.inl) (Or.inl rfl)
      · -- the value moved, and the source lost it
        intro o p h1 h2
        have val : ∀ q, q ≠ s → ((w.put d (w s)).put s EntityRef.null) q = if q = d then w s else w q := by
          intro q hq
          rw [RefWorld.put_other _ _ hq]
          rfl
        have ho : o ≠ s := fun e => by subst e; rw [RefWorld.put_same] at h1; exact h1 rfl
        have hp : p ≠ s := fun e => by subst e; rw [h2, RefWorld.put_same] at h1; exact h1 rfl
        rw [val o ho] at h1 h2
        rw [val p hp] at h2
        by_cases od : o = d <;> by_cases pd : p = d
        · rw [od, pd]
        · rw [if_pos od] at h1 h2
          rw [if_neg pd] at h2
          exact (hp (hinj s p h1 h2).symm).elim
        · rw [if_neg od] at h1 h2
          rw [if_pos pd] at h2
          exact (ho (hinj o s h1 h2)).elim
        · rw [if_neg od] at h1 h2
          rw [if_neg pd] at h2
          exact hinj o p h1 h2
    | make d ok id =>
      have hm := C78_make_ref ok id
      cases e : makeRef ok id with
      | none => exact go w (by simp only [run, e]) stay hinj
      | some r =>
        have hn : ¬ (ok = false ∨ id = UUID.zero) := fun h => by
          rw [hm.2.2 h] at e; cases e
        have hok : ok = true := by
          cases ok
          · exact (hn (Or.inl rfl)).elim
          · rfl
        have hid : id ≠ UUID.zero := fun h => hn (Or.inr h)
        obtain ⟨rfl, -, -⟩ := hm.1 r e
        have hmade : Made id (.make d ok id) := ⟨hok, hid, rfl⟩
        refine go (w.put d ⟨id⟩) (by simp only [run, e]) ?_ ?_
        · exact keep w d ⟨id⟩ _ (fun u => seen u ∨ Made u (.make d ok id) ∨ RefCall.Read u (.make d ok id)) hseen (fun _ => Or.inl) (Or.inr (Or.inr (Or.inl hmade)))
        · exact put w d _ _ hseen hinj (fun h => first id (Or.inl hmade) h)
    | read d id =>
      refine go (w.put d ⟨id⟩) rfl ?_ ?_
      · exact keep w d ⟨id⟩ _ (fun u => seen u ∨ Made u (.read d id) ∨ RefCall.Read u (.read d id)) hseen (fun _ => Or.inl) (Or.inr (Or.inr (Or.inr rfl)))
      · exact put w d _ _ hseen hinj (fun h => first id (Or.inr rfl) h)

/-- A reference that is only handed on by moves is held by one object at a time: as long as nothing is copied, and the values made and read are
all different (and none is the largest value), no two objects hold the same reference other than null. -/
theorem C78_moves_keep_one_holder (h : List RefCall) (hc : ∀ c ∈ h, ¬ Copies c)
    (hfresh : (h.filterMap newId).Nodup) (hsup : UUID.sup ∉ h.filterMap newId)
    (o p : RefObj) (hne : runAll RefWorld.start h o ≠ EntityRef.null)
    (he : runAll RefWorld.start h o = runAll RefWorld.start h p) : o = p := by
  have new : ∀ c u, (Made u c ∨ RefCall.Read u c) → u ≠ UUID.zero → newId c = some u := by
    intro c u hu h0
    cases c with
    | construct d => exact (hu.elim id id).elim
    | copy d s => exact (hu.elim id id).elim
    | move d s => exact (hu.elim id id).elim
    | make d ok id =>
      rcases hu with ⟨h1, h2, rfl⟩ | hu
      · exact if_pos ⟨h1, h2⟩
      · exact hu.elim
    | read d id =>
      rcases hu with hu | rfl
      · exact hu.elim
      · exact if_pos h0
  refine moves_keep_one_holder h hc ?_ o p hne he
  intro pre c post u e hu h0
  have hn := new c u hu h0
  subst e
  rw [List.filterMap_append, List.filterMap_cons_some hn] at hfresh hsup
  refine ⟨fun hs => hsup (hs ▸ List.mem_append_right _ List.mem_cons_self), fun c' hc' hu' => ?_⟩
  exact (List.nodup_append.1 hfresh).2.2 u (List.mem_filterMap.2 ⟨c', hc', new c' u hu' h0⟩) u List.mem_cons_self rfl

/-- An object that no call of the history names keeps its value; so `_sup()` and `_inf()` are what they should be as long as nobody stores into them or
moves out of them. -/
theorem C78_untouched (h : List RefCall) (w : RefWorld) (o : RefObj) (hn : ∀ c ∈ h, ¬ c.Touches o) : runAll w h o = w o := by
  induction h generalizing w with
  | nil => rfl
  | cons c cs ih =>
    exact (ih (run w c).1 (fun c' hc' => hn c' (List.mem_cons_of_mem _ hc'))).trans ((C78_calls w c).1 o (hn c List.mem_cons_self))

/-- The statics behind `_inf()` and `_sup()` are not constants: moving out of `_sup()` makes it null for the rest of the program (the constants are not
affected). -/
theorem C78_sup_can_be_lost :
    (runAll RefWorld.start [.move (.var 0) .supStatic]) .supStatic = EntityRef.null ∧
    (runAll RefWorld.start [.move (.var 0) .supStatic]).look .supConst = ⟨UUID.sup⟩ := by decide

/-- A history with two references made, one moved on and one copied; the failed `make_ref` leaves its destination as it was. -/
def demoRefs : List RefCall :=
  [.make (.var 0) true ⟨1, 2, 3, Vector.replicate 8 4⟩, .make (.var 1) true ⟨5, 2, 3, Vector.replicate 8 4⟩, .move (.var 2) (.var 0),
   .make (.var 1) false ⟨7, 2, 3, Vector.replicate 8 4⟩, .make (.var 2) true UUID.zero, .read (.var 4) ⟨9, 0, 0, Vector.replicate 8 0⟩]

theorem C78_demo : (runAll RefWorld.start demoRefs) (.var 0) = EntityRef.null ∧
    (runAll RefWorld.start demoRefs) (.var 2) = ⟨⟨1, 2, 3, Vector.replicate 8 4⟩⟩ ∧
    (runAll RefWorld.start demoRefs) (.var 1) = ⟨⟨5, 2, 3, Vector.replicate 8 4⟩⟩ ∧
    (runAll RefWorld.start demoRefs) (.var 4) = ⟨⟨9, 0, 0, Vector.replicate 8 0⟩⟩ ∧
    (∀ c ∈ demoRefs, ¬ Copies c) ∧ (demoRefs.filterMap newId).Nodup ∧ UUID.sup ∉ demoRefs.filterMap newId ∧ (∀ c ∈ demoRefs, ¬ c.Touches .supStatic) := by
  refine ⟨by decide +kernel, by decide +kernel, by decide +kernel, by decide +kernel, ?_, by decide +kernel, by decide +kernel, ?_⟩ <;>
  · intro c hc
    simp only [demoRefs, List.mem_cons, List.not_mem_nil, or_false] at hc
    rcases hc with rfl | rfl | rfl | rfl | rfl | rfl <;> simp [Copies, Touches]

end ISD
