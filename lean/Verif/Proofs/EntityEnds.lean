import Verif.Props.Entities

/-! # What a successful read of an entity says about the ends of its sections -/

namespace ISD

/-- A successful run changes neither the address nor the end position of the reader it works on. -/
structure KeepsReader {α : Type} (p : Prog RSt α) : Prop where
  ok : ∀ st a st', p st = .ok a st' → st'.1.addr = st.1.addr ∧ st'.1.endPosition = st.1.endPosition

namespace KeepsReader

variable {α β : Type}

theorem pure (a : α) : KeepsReader (return a) := by
  refine ⟨fun st b st' h => ?_⟩
  cases h
  exact ⟨rfl, rfl⟩

theorem bind {p : Prog RSt α} {f : α → Prog RSt β} (hp : KeepsReader p) (hf : ∀ a, KeepsReader (f a)) : KeepsReader (p >>= f) := by
  refine ⟨fun st b st'' h => ?_⟩
  obtain ⟨a, st', h1, h2⟩ := Prog.bind_eq_ok h
  obtain ⟨a1, a2⟩ := hp.ok _ _ _ h1
  obtain ⟨b1, b2⟩ := (hf _).ok _ _ _ h2
  exact ⟨b1.trans a1, b2.trans a2⟩

theorem get : KeepsReader Prog.get := by
  refine ⟨fun st b st' h => ?_⟩
  cases h
  exact ⟨rfl, rfl⟩

theorem ub : KeepsReader (Prog.ub : Prog RSt α) := by
  refine ⟨fun st b st' h => ?_⟩
  cases h

theorem modify {f : RSt → RSt} (h : ∀ st, (f st).1.addr = st.1.addr ∧ (f st).1.endPosition = st.1.endPosition) : KeepsReader (Prog.modify f) := by
  refine ⟨fun st b st' e => ?_⟩
  cases e
  exact h st

theorem ite {c : Prop} [Decidable c] {p q : Prog RSt α} (hp : KeepsReader p) (hq : KeepsReader q) : KeepsReader (if c then p else q) := by
  split
  · exact hp
  · exact hq

theorem onRStream (p : Prog RStream α) : KeepsReader (ISD.onRStream p) := by
  refine ⟨fun st a st' h => ?_⟩
  unfold ISD.onRStream at h
  split at h
  · cases h; exact ⟨rfl, rfl⟩
  · cases h
  · cases h

theorem inRSubsection (p : Prog RSt α) : KeepsReader (ISD.inRSubsection p) := by
  refine ⟨fun st a st' h => ?_⟩
  unfold ISD.inRSubsection at h
  split at h
  · cases h
  · split at h
    · cases h; exact ⟨rfl, rfl⟩
    · cases h
    · cases h

theorem read (env : REnv) (t : DataType) (c : Container) (key : Bytes) (dest : c.Val t.Val) : KeepsReader (EReader.read env t c key dest) :=
  onRStream _

theorem beginReadSection (env : REnv) (fresh : Nat) (key : Bytes) (na : Bool) : KeepsReader (beginReadSection env fresh key na) := by
  unfold ISD.beginReadSection
  refine bind get fun st => ite (pure _) (bind (onRStream _) fun e => ite (pure _) (bind get fun st1 => ite (bind (onRStream _) fun x => ?_)
    (bind (modify fun _ => ⟨rfl, rfl⟩) fun _ => pure _)))
  cases x <;> exact pure _

theorem endReadSection (p : Option Nat) : KeepsReader (endReadSection p) := by
  unfold ISD.endReadSection
  refine bind get fun st => ite (pure _) ?_
  cases st.1.activeSubsection with
  | none => exact ub
  | some sub => exact bind (onRStream _) fun e => ite (pure _) (bind (modify fun _ => ⟨rfl, rfl⟩) fun _ => pure _)

theorem readSectionsMetadata (env : REnv) (e : Nat) (wi : Bool) : KeepsReader (readSectionsMetadata env e wi) := by
  refine ⟨fun st a st' h => ?_⟩
  unfold ISD.readSectionsMetadata at h
  split at h
  · cases h; exact ⟨rfl, rfl⟩
  · cases h
  · cases h

theorem beginReadSectionsArray (env : REnv) (fresh : Nat) (key : Bytes) (na wi : Bool) : KeepsReader (beginReadSectionsArray env fresh key na wi) := by
  unfold ISD.beginReadSectionsArray
  refine bind get fun st => ite (pure _) (bind (onRStream _) fun e => ite (pure _) (bind get fun st1 => ite (bind (onRStream _) fun x => ?_)
    (bind (readSectionsMetadata ..) fun x => ?_)))
  · cases x <;> exact pure _
  · cases x with
    | none => exact pure _
    | some x => exact bind (modify fun _ => ⟨rfl, rfl⟩) fun _ => bind get fun _ => pure _

theorem beginReadSectionInArray (p : Option Nat) (i : Nat) (w : Bool) : KeepsReader (beginReadSectionInArray p i w) := by
  unfold ISD.beginReadSectionInArray
  refine bind get fun st => ite (pure _) (ite (pure _) (ite (pure _) (bind (onRStream _) fun x => bind (modify fun _ => ⟨rfl, rfl⟩) fun _ => ?_)))
  exact ite (ite (pure _) (pure _)) (pure _)

theorem endReadSectionInArray (p : Option Nat) (i : Nat) : KeepsReader (endReadSectionInArray p i) := by
  unfold ISD.endReadSectionInArray
  exact bind get fun st => ite (pure _) (ite (pure _) (pure _))

theorem endReadSectionsArray (p : Option Nat) : KeepsReader (endReadSectionsArray p) := by
  unfold ISD.endReadSectionsArray
  refine bind get fun st => ite (pure _) (ite (pure _) ?_)
  cases st.1.activeSubsection with
  | none => exact ub
  | some sub => exact bind (onRStream _) fun e => ite (pure _) (bind (modify fun _ => ⟨rfl, rfl⟩) fun _ => pure _)

end KeepsReader

theorem fieldsRead_keeps (env : REnv) (fresh : Bytes → Nat) : (fs : List Field) → (v : FieldsVal fs) → KeepsReader (fieldsRead env fresh fs v)
  | [], _ => .pure _
  | .base k t c :: fs, v => by
    unfold fieldsRead
    refine .bind (.read ..) fun x => ?_
    cases x with
    | none => exact .pure _
    | some x =>
      refine .bind (fieldsRead_keeps env fresh fs v.2) fun y => ?_
      cases y <;> exact .pure _
  | .sub k V M :: fs, v => by
    unfold fieldsRead
    refine .bind (.beginReadSection ..) fun x => ?_
    obtain ⟨p, b⟩ := x
    cases b with
    | false => cases p <;> exact .pure _
    | true =>
      cases p with
      | none =>
        refine .bind (fieldsRead_keeps env fresh fs v.2) fun y => ?_
        cases y <;> exact .pure _
      | some p =>
        refine .bind (.inRSubsection _) fun x => ?_
        cases x with
        | none => exact .pure _
        | some x =>
          refine .bind (.endReadSection _) fun _ => .bind (fieldsRead_keeps env fresh fs v.2) fun y => ?_
          cases y <;> exact .pure _

theorem tableReadLoop_keeps {K V : Type} [DecidableEq K] (M : Managed V) (ord : TableOrder (K × Option V)) (env : REnv) (fresh : Bytes → Nat)
    (p : Option Nat) : (i : Nat) → (ks : List K) → (t : Table K V) → KeepsReader (tableReadLoop M ord env fresh p i ks t)
  | _, [], _ => .pure _
  | i, k :: ks, t => by
    unfold tableReadLoop
    refine .bind (.beginReadSectionInArray ..) fun x => .ite (.pure _) (.ite (.pure _) (.ite ?_ ?_))
    · refine .bind (.inRSubsection _) fun y => ?_
      cases y with
      | none => exact .pure _
      | some y => exact .bind (.endReadSectionInArray ..) fun _ => .ite (.pure _) (tableReadLoop_keeps M ord env fresh p (i + 1) ks _)
    · exact .bind (.endReadSectionInArray ..) fun _ => .ite (.pure _) (tableReadLoop_keeps M ord env fresh p (i + 1) ks _)

theorem onVarying_keeps (v : Varying) (p : Prog Varying Bool) : KeepsReader (onVarying v p) := by
  refine ⟨fun st a st' h => ?_⟩
  unfold onVarying at h
  split at h
  · cases h; exact ⟨rfl, rfl⟩
  · cases h
  · cases h

/-- No class changes the address or the end position of the reader it is given. -/
theorem IsClass.read_keeps {V : Type} {M : Managed V} {S : ClassSpec V} (hM : IsClass M S) (env : REnv) (fresh : Bytes → Nat) (v : V) :
    KeepsReader (M.read env fresh v) := by
  cases hM with
  | graph st h a r s =>
    refine .bind (.read ..) fun x => ?_
    cases x with
    | none => exact .pure _
    | some x =>
      refine .bind (.read ..) fun y => ?_
      cases y <;> exact .pure _
  | idx t h =>
    refine .bind (.read ..) fun x => ?_
    cases x <;> exact .pure _
  | varying =>
    show KeepsReader (Varying.read env v)
    unfold Varying.read
    refine .bind (onVarying_keeps ..) fun w => .bind (.read ..) fun x => ?_
    cases x with
    | none => exact .pure _
    | some x =>
      refine .bind (.read ..) fun y => ?_
      cases y with
      | none => exact .pure _
      | some y =>
        refine .bind (onVarying_keeps ..) fun z => .ite (.pure _) ?_
        split
        · exact .pure _
        · split
          · exact .pure _
          · refine .ite (.bind (.read ..) fun u => ?_) .ub
            cases u <;> exact .pure _
  | table st h hM zk ne ord =>
    refine .bind (.read ..) fun x => ?_
    cases x with
    | none => exact .pure _
    | some x =>
      refine .bind (.beginReadSectionsArray ..) fun y => ?_
      obtain ⟨p, n, b, l⟩ := y
      cases b with
      | false => exact .pure _
      | true =>
        refine .ite (.pure _) (.bind (tableReadLoop_keeps ..) fun z => ?_)
        cases z with
        | none => exact .pure _
        | some z => exact .bind (.endReadSectionsArray ..) fun _ => .ite (.pure _) (.pure _)
  | entity ss h hne => exact fieldsRead_keeps env fresh _ v

end ISD
