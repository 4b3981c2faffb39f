import Verif.Proofs.EntityEnds
import Verif.Props.WrongType

/-!
# C42: ends of sections when entities are read
-/

namespace ISD

/-- `MF::Read` of an entity with a record, per managed variable in order, of the position where its header says that its section ends, and
the position where reading of its contents stopped. Except for the record it is `fieldsRead` (`C42_record_changes_nothing`). -/
def fieldsReadTrace (env : REnv) (fresh : Bytes → Nat) : (fs : List Field) → FieldsVal fs → Prog RSt (Option (FieldsVal fs × List (Nat × Nat)))
  | [], _ => return some ((), [])
  | .base k t c :: fs, v => do
    match ← EReader.read env t c k v.1 with
    | none => return none
    | some x =>
      match ← fieldsReadTrace env fresh fs v.2 with
      | none => return none
      | some (rest, l) => return some ((x, rest), l)
  | .sub k _ M :: fs, v => do
    match ← beginReadSection env (fresh k) k false with
    | (_, false) => return none
    | (none, true) =>
      match ← fieldsReadTrace env fresh fs v.2 with
      | none => return none
      | some (rest, l) => return some ((v.1, rest), l)
    | (some p, true) =>
      let announced := ((← Prog.get).1.activeSubsection.map EReader.endPosition).getD 0
      match ← inRSubsection (M.read env fresh v.1) with
      | none => return none
      | some x =>
        let stopped := (← Prog.get).2.pos
        let _ ← endReadSection (some p)
        match ← fieldsReadTrace env fresh fs v.2 with
        | none => return none
        | some (rest, l) => return some ((x, rest), (announced, stopped) :: l)

theorem bind_assoc' {σ α β γ : Type} (p : Prog σ α) (f : α → Prog σ β) (g : β → Prog σ γ) : (p >>= f) >>= g = p >>= fun a => f a >>= g := by
  funext s
  rw [Prog.bind_apply, Prog.bind_apply, Prog.bind_apply]
  cases p s with
  | ok a s' => dsimp only; rw [Prog.bind_apply]
  | throw s' => rfl
  | ub => rfl

theorem pure_bind' {σ α β : Type} (a : α) (f : α → Prog σ β) : (return a) >>= f = f a := rfl

theorem get_bind' {σ β : Type} (f : Prog σ β) : (Prog.get >>= fun _ => f) = f := rfl

theorem bind_congr' {σ α β : Type} (p : Prog σ α) {f g : α → Prog σ β} (h : ∀ a, f a = g a) : p >>= f = p >>= g := by
  rw [show f = g from funext h]

/-- The record changes nothing else: every outcome (success, failure, exception, undefined behaviour) and every state is the same. -/
theorem C42_record_changes_nothing (env : REnv) (fresh : Bytes → Nat) : (fs : List Field) → (v : FieldsVal fs) →
    fieldsRead env fresh fs v = fieldsReadTrace env fresh fs v >>= fun r => return r.map Prod.fst
  | [], _ => rfl
  | .base k t c :: fs, v => by
    rw [fieldsRead, fieldsReadTrace, bind_assoc']
    refine bind_congr' _ fun x => ?_
    cases x with
    | none => rfl
    | some x =>
      dsimp only
      rw [C42_record_changes_nothing env fresh fs v.2, bind_assoc', bind_assoc']
      refine bind_congr' _ fun y => ?_
      cases y <;> rfl
  | .sub k V M :: fs, v => by
    rw [fieldsRead, fieldsReadTrace, bind_assoc']
    refine bind_congr' _ fun x => ?_
    obtain ⟨p, b⟩ := x
    cases b with
    | false => cases p <;> rfl
    | true =>
      cases p with
      | none =>
        dsimp only
        rw [C42_record_changes_nothing env fresh fs v.2, bind_assoc', bind_assoc']
        refine bind_congr' _ fun y => ?_
        cases y <;> rfl
      | some p =>
        dsimp only
        rw [bind_assoc']
        funext st
        rw [Prog.bind_ok (Prog.get_apply st), bind_assoc', Prog.bind_apply, Prog.bind_apply]
        cases inRSubsection (M.read env fresh v.1) st with
        | throw s => rfl
        | ub => rfl
        | ok x s =>
          dsimp only
          cases x with
          | none => rfl
          | some x =>
            dsimp only
            rw [bind_assoc', Prog.bind_ok (Prog.get_apply s), bind_assoc', Prog.bind_apply, Prog.bind_apply]
            cases endReadSection (some p) s with
            | throw s => rfl
            | ub => rfl
            | ok b s =>
              dsimp only
              rw [C42_record_changes_nothing env fresh fs v.2, bind_assoc', bind_assoc']
              refine congrFun (bind_congr' _ fun y => ?_) _
              cases y <;> rfl

/-- With a section open, only variables of base types can follow. -/
theorem trace_open (env : REnv) (fresh : Bytes → Nat) : (fs : List Field) → (v : FieldsVal fs) → ∀ st a l st', st.1.activeSubsection ≠ none →
    fieldsReadTrace env fresh fs v st = .ok (some (a, l)) st' → l = [] ∧ st'.1 = st.1
  | [], _, st, a, l, st', _, h => by cases h; exact ⟨rfl, rfl⟩
  | .base k t c :: fs, v, st, a, l, st', ho, h => by
    rw [fieldsReadTrace] at h
    obtain ⟨x, s1, h1, h2⟩ := Prog.bind_eq_ok h
    have hr : s1.1 = st.1 := by
      unfold EReader.read onRStream at h1
      split at h1
      · cases h1; rfl
      · cases h1
      · cases h1
    cases x with
    | none => cases h2
    | some x =>
      obtain ⟨y, s2, h3, h4⟩ := Prog.bind_eq_ok h2
      cases y with
      | none => cases h4
      | some y =>
        cases h4
        obtain ⟨e1, e2⟩ := trace_open env fresh fs v.2 s1 _ _ _ (by rw [hr]; exact ho) h3
        exact ⟨e1, e2.trans hr⟩
  | .sub k V M :: fs, v, st, a, l, st', ho, h => by
    rw [fieldsReadTrace] at h
    have hb : beginReadSection env (fresh k) k false st = .ok (none, false) st := by
      rw [beginReadSection, Prog.bind_ok (Prog.get_apply _), if_pos (by cases e : st.1.activeSubsection <;> simp_all)]
      rfl
    rw [Prog.bind_ok hb] at h
    cases h

/-- After `BeginReadSection` succeeded with a section: it is the open one, at this address. -/
theorem begin_opens {env : REnv} {fresh : Nat} {k : Bytes} {na : Bool} {st st' : RSt} {p : Nat}
    (h : beginReadSection env fresh k na st = .ok (some p, true) st') :
    ∃ e, st'.1.activeSubsection = some (EReader.create p e) := by
  rw [beginReadSection, Prog.bind_ok (Prog.get_apply _)] at h
  split at h
  · cases h
  · obtain ⟨e, s1, h1, h2⟩ := Prog.bind_eq_ok h
    split at h2
    · cases h2
    · rw [Prog.bind_ok (Prog.get_apply _)] at h2
      split at h2
      · obtain ⟨x, s2, h3, h4⟩ := Prog.bind_eq_ok h2
        cases x <;> cases h4
      · cases h2
        exact ⟨e, rfl⟩

theorem begin_none {env : REnv} {fresh : Nat} {k : Bytes} {st st' : RSt}
    (h : beginReadSection env fresh k false st = .ok (none, true) st') : False := by
  rw [beginReadSection, Prog.bind_ok (Prog.get_apply _)] at h
  split at h
  · cases h
  · obtain ⟨e, s1, h1, h2⟩ := Prog.bind_eq_ok h
    split at h2
    · cases h2
    · rw [Prog.bind_ok (Prog.get_apply _)] at h2
      split at h2
      · obtain ⟨x, s2, h3, h4⟩ := Prog.bind_eq_ok h2
        have : x = .fail := by
          unfold onRStream at h3
          split at h3
          · rename_i s' hp
            cases h3
            cases hp
            rfl
          · cases h3
          · cases h3
        subst this
        cases h4
      · cases h2

theorem inRSubsection_inv {α : Type} {p : Prog RSt α} {st st' : RSt} {a : α} (h : inRSubsection p st = .ok a st') :
    ∃ r r', st.1.activeSubsection = some r ∧ p (r, st.2) = .ok a (r', st'.2) ∧ st'.1.activeSubsection = some r' := by
  unfold inRSubsection at h
  split at h
  · cases h
  · rename_i r hr
    split at h
    · rename_i a' r' s hp
      cases h
      exact ⟨r, r', hr, hp, rfl⟩
    · cases h
    · cases h

/-- `EndReadSection` on the open section. -/
theorem end_open {st : RSt} {r : EReader} (h : st.1.activeSubsection = some r) :
    endReadSection (some r.addr) st =
      if st.2.pos = r.endPosition then .ok true ({ st.1 with activeSubsection := none, activeEndPos := 0 }, st.2) else .ok false st := by
  rw [endReadSection, Prog.bind_ok (Prog.get_apply _), if_neg (by simp [EReader.subPtr, h]), h]
  dsimp only
  have : onRStream (endReadLargeBlock r.endPosition) st = .ok (st.2.pos == r.endPosition) st := rfl
  rw [Prog.bind_ok this]
  by_cases hp : st.2.pos = r.endPosition
  · rw [if_pos hp, if_neg (by simp [hp])]; rfl
  · rw [if_neg hp, if_pos (by simp [hp])]; rfl

/-- **C42** (partial: all managed variables but the last one). Whenever `Read` of an entity, on any bytes at all, returns true: every
section but the last ended exactly where its header said, and the last one did exactly when no section is left open in the reader. -/
theorem C42_sections_end_partial (env : REnv) (fresh : Bytes → Nat) : {fs : List Field} → {ss : FieldSpecs fs} → AreFields ss →
    ∀ (v : FieldsVal fs) (st st' : RSt) (a : FieldsVal fs) (l : List (Nat × Nat)), st.1.activeSubsection = none →
      fieldsReadTrace env fresh fs v st = .ok (some (a, l)) st' →
      (∀ e ∈ l.dropLast, e.2 = e.1) ∧ (st'.1.activeSubsection = none ↔ ∀ e ∈ l, e.2 = e.1)
  | _, _, .nil, v, st, st', a, l, hn, h => by
    cases h
    exact ⟨fun e he => (nomatch he), ⟨fun _ e he => (nomatch he), fun _ => hn⟩⟩
  | _, _, .base (fs := fs) hk ht hr, v, st, st', a, l, hn, h => by
    rw [fieldsReadTrace] at h
    obtain ⟨x, s1, h1, h2⟩ := Prog.bind_eq_ok h
    have hs : s1.1 = st.1 := by
      unfold EReader.read onRStream at h1
      split at h1
      · cases h1; rfl
      · cases h1
      · cases h1
    cases x with
    | none => cases h2
    | some x =>
      obtain ⟨y, s2, h3, h4⟩ := Prog.bind_eq_ok h2
      cases y with
      | none => cases h4
      | some y =>
        cases h4
        exact C42_sections_end_partial env fresh hr v.2 s1 _ _ _ (by rw [hs]; exact hn) h3
  | _, _, .sub (k := k) (M := M) (fs := fs) hk hM hr, v, st, st', a, l, hn, h => by
    rw [fieldsReadTrace] at h
    obtain ⟨x, s1, h1, h2⟩ := Prog.bind_eq_ok h
    obtain ⟨p, b⟩ := x
    cases b with
    | false => cases p <;> cases h2
    | true =>
      cases p with
      | none => exact (begin_none h1).elim
      | some p =>
        obtain ⟨e, he⟩ := begin_opens h1
        dsimp only at h2
        rw [Prog.bind_ok (Prog.get_apply _)] at h2
        obtain ⟨y, s2, h3, h4⟩ := Prog.bind_eq_ok h2
        cases y with
        | none => cases h4
        | some y =>
          obtain ⟨r, r', q1, q2, q3⟩ := inRSubsection_inv h3
          rw [he] at q1
          cases q1
          obtain ⟨k1, k2⟩ := (hM.read_keeps env fresh v.1).ok _ _ _ q2
          dsimp only [EReader.create] at k1 k2
          dsimp only at h4
          rw [Prog.bind_ok (Prog.get_apply _)] at h4
          have hend := end_open q3
          rw [k1, k2] at hend
          obtain ⟨b, s3, h5, h6⟩ := Prog.bind_eq_ok h4
          obtain ⟨z, s4, h7, h8⟩ := Prog.bind_eq_ok h6
          cases z with
          | none => cases h8
          | some z =>
            cases h8
            rw [h5] at hend
            rw [he]
            dsimp only [Option.map_some, Option.getD_some, EReader.create]
            by_cases hp : s2.2.pos = e
            · rw [if_pos hp] at hend
              cases hend
              obtain ⟨i1, i2⟩ := C42_sections_end_partial env fresh hr v.2 _ _ _ _ rfl h7
              constructor
              · intro x hx
                cases hz : z.2 with
                | nil => rw [hz] at hx; cases hx
                | cons u us =>
                  rw [hz, List.dropLast_cons_cons] at hx
                  rcases List.mem_cons.mp hx with rfl | hx
                  · exact hp
                  · exact i1 x (by rw [hz]; exact hx)
              · rw [i2]
                constructor
                · intro h x hx
                  rcases List.mem_cons.mp hx with rfl | hx
                  · exact hp
                  · exact h x hx
                · exact fun h x hx => h x (List.mem_cons_of_mem _ hx)
            · rw [if_neg hp] at hend
              cases hend
              obtain ⟨i1, i2⟩ := trace_open env fresh fs v.2 s2 z.1 z.2 _ (by rw [q3]; simp) h7
              rw [i1]
              refine ⟨fun x hx => (nomatch hx), ⟨fun h => ?_, fun h => absurd (h _ (List.mem_cons_self ..)) hp⟩⟩
              rw [i2, q3] at h
              cases h

/-- New entries first. -/
def frontOrder {E : Type} : TableOrder E := ⟨fun l e => e :: l, fun _ _ => .refl _⟩

/-- The variables of a `Scene`, with some order of the tables. -/
abbrev demoSceneFields : List Field := sceneFields frontOrder frontOrder frontOrder

/-- A `Scene` without layers whose section "Layers" has one more item at its end. -/
def longSection : Bytes :=
  (Nodes.cons (.sect (key "Layers") (.cons (.value packageRefType .vector (key "IDs") []) (.cons (.array (key "Entities") none .nil)
    (.cons (.value u16Type .none (key "Extra") (u16Val 7)) .nil)))) .nil).bytes false

/-- The outcome of reading it: the record, whether a section is left open, and the position. -/
def longSectionOutcome : Option (List (Nat × Nat) × Bool × Nat) :=
  match fieldsReadTrace luckyEnv (fun _ => 1) demoSceneFields (fieldsInit _) (EReader.create 0 0, ⟨longSection, 0, false⟩) with
  | .ok (some (_, l)) st => some (l, st.1.activeSubsection.isSome, st.2.pos)
  | _ => none

/-- **C42 is false** for the last section: this read returns true, although the section was not consumed; the reader stops before its end. -/
theorem C42_false_for_the_last_section :
    (match (entityMF demoSceneFields).read luckyEnv (fun _ => 1) (fieldsInit _) (EReader.create 0 0, ⟨longSection, 0, false⟩) with
      | .ok (some _) st => st.1.activeSubsection.isSome && decide (st.2.pos < longSection.length)
      | _ => false) = true := by
  decide +kernel

/-- The hypotheses of `C42_sections_end_partial` are met by it: one section, which stopped early. -/
example : longSectionOutcome = some ([(longSection.length, longSection.length - 9)], true, longSection.length - 9) := by decide +kernel

end ISD
