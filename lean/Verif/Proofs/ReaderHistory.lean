import Verif.Props.HostileEntity
import Verif.Props.Protocol

/-! # Histories of calls on a reader -/

namespace ISD

/-- A call on an `EntityReader`, or on the reader of its open subsection. -/
inductive ReaderCall where
  | beginSection (env : REnv) (fresh : Nat) (key : Bytes) (nullAllowed : Bool)
  | endSection (ptr : Option Nat)
  | beginArray (env : REnv) (fresh : Nat) (key : Bytes) (nullAllowed wantIndex : Bool)
  | beginElement (ptr : Option Nat) (i : Nat) (wantHasData : Bool)
  | endElement (ptr : Option Nat) (i : Nat)
  | endArray (ptr : Option Nat)
  | read (env : REnv) (t : DataType) (c : Container) (key : Bytes) (dest : c.Val t.Val)
  | inner (call : ReaderCall)

/-- The call, with the result reduced to success or failure. -/
def ReaderCall.run : ReaderCall → Prog RSt Bool
  | .beginSection env fresh key na => do return (← beginReadSection env fresh key na).2
  | .endSection ptr => endReadSection ptr
  | .beginArray env fresh key na wi => do return (← beginReadSectionsArray env fresh key na wi).2.2.1
  | .beginElement ptr i w => do return (← beginReadSectionInArray ptr i w).1
  | .endElement ptr i => endReadSectionInArray ptr i
  | .endArray ptr => endReadSectionsArray ptr
  | .read env t c key dest => do return (← EReader.read env t c key dest).isSome
  | .inner call => inRSubsection call.run

/-- A call that dereferences no null pointer, with a key of at most `EntityMaxKeyLength` bytes; reading an array of a type with several
scalars per element, a block of that type and key at the current position declares a multiple (C19). -/
def ReaderCall.Sound : ReaderCall → RSt → Prop
  | .beginSection _ _ key _, _ => key.length ≤ 40
  | .endSection ptr, st => ptr.isSome ∨ st.1.activeSubsection.isSome
  | .beginArray _ _ key _ _, _ => key.length ≤ 40
  | .beginElement .., _ => True
  | .endElement .., _ => True
  | .endArray ptr, st => ptr.isSome ∨ st.1.activeSubsection.isSome
  | .read _ t c key _, st => t ∈ allTypes ∧ key.length ≤ 40 ∧ CountOk st.2.data st.2.flip st.2.pos t c key
  | .inner call, st => ∃ sub, st.1.activeSubsection = some sub ∧ call.Sound (sub, st.2)

section

variable {d : Bytes} {fl : Bool} {p : Nat} {rd : EReader}

/-- All there is to know after `BeginReadSection`. -/
theorem beginSection_post (env : REnv) (hd : Small d) (hp : p ≤ d.length) (fresh : Nat) {key : Bytes} (hk : key.length ≤ 40) (na : Bool) :
    RWp d fl p (beginReadSection env fresh key na (rd, ⟨d, p, fl⟩)) fun x r p1 => (x.1 = none ∧ r = rd) ∨
      (x = (some fresh, true) ∧ rd.activeSubsection = none ∧ ∃ e, r = { rd with activeSubsection := some (EReader.create fresh e) } ∧ e ≠ p1 ∧
        LargeHead d fl p vtSubsection key e p1) := by
  rw [beginReadSection]
  refine .get (.ite (fun _ => .pure hp (.inl ⟨rfl, rfl⟩)) fun hn => ?_)
  have hnone : rd.activeSubsection = none := by
    dsimp only at hn
    cases e : rd.activeSubsection with
    | none => rfl
    | some x => rw [e] at hn; exact absurd rfl hn
  refine .bind (.onR (beginLarge_wp env fl hd hp vtSubsection (by decide) key hk)) fun e r p1 h1 h2 h3 => ?_
  obtain ⟨rfl, h3⟩ := h3
  refine .ite (fun _ => .pure h2 (.inl ⟨rfl, rfl⟩)) fun h0 => .get (.ite (fun _ => ?_) fun hne => ?_)
  · refine .bind (.onR (emptyLarge_wp h2 na e)) fun st r' p2 h4 h5 h6 => ?_
    obtain ⟨rfl, -⟩ := h6
    cases st <;> exact .pure h5 (.inl ⟨rfl, rfl⟩)
  · exact ⟨p1, rfl, Nat.le_refl _, h2, .inr ⟨rfl, hnone, e, rfl, hne, h3 h0⟩⟩

/-- All there is to know after `BeginReadSectionsArray`. -/
theorem beginArray_post (env : REnv) (hd : Small d) (hp : p ≤ d.length) (fresh : Nat) {key : Bytes} (hk : key.length ≤ 40) (na wi : Bool) :
    RWp d fl p (beginReadSectionsArray env fresh key na wi (rd, ⟨d, p, fl⟩)) fun x r p1 => (x.1 = none ∧ r = rd) ∨
      (x.1 = none ∧ x.2.2.1 = false ∧ rd.activeSubsection = none ∧ ∃ n, r = { rd with activeArraySize := n }) ∨
      (x.1 = some fresh ∧ x.2.2.1 = true ∧ rd.activeSubsection = none ∧ ∃ e p0, r = { rd with
          activeArraySize := x.2.1, activeIndex := sizeMax, activeSubsection := some (EReader.create fresh e) } ∧ e ≠ p0 ∧ p0 ≤ p1 ∧
        LargeHead d fl p vtArraySubsection key e p0) := by
  rw [beginReadSectionsArray]
  refine .get (.ite (fun _ => .pure hp (.inl ⟨rfl, rfl⟩)) fun hn => ?_)
  have hnone : rd.activeSubsection = none := by
    dsimp only at hn
    cases e : rd.activeSubsection with
    | none => rfl
    | some x => rw [e] at hn; exact absurd rfl hn
  refine .bind (.onR (beginLarge_wp env fl hd hp vtArraySubsection (by decide) key hk)) fun e r p1 h1 h2 h3 => ?_
  obtain ⟨rfl, h3⟩ := h3
  refine .ite (fun _ => .pure h2 (.inl ⟨rfl, rfl⟩)) fun h0 => .get (.ite (fun _ => ?_) fun hne => ?_)
  · refine .bind (.onR (emptyLarge_wp h2 na e)) fun st r' p2 h4 h5 h6 => ?_
    obtain ⟨rfl, -⟩ := h6
    cases st <;> exact .pure h5 (.inl ⟨rfl, rfl⟩)
  · refine .bind (.metaR (meta_wp env fl hd h2 e wi)) fun m r' p2 h4 h5 h6 => ?_
    obtain ⟨⟨n, rfl, hn⟩, -⟩ := h6
    cases m with
    | none => exact .pure h5 (.inr (.inl ⟨rfl, rfl, hnone, n, rfl⟩))
    | some m =>
      obtain ⟨k, count, idx⟩ := m
      exact ⟨p2, rfl, Nat.le_refl _, h5, .inr (.inr ⟨rfl, rfl, hnone, e, p1, rfl, hne, h4, h3 h0⟩)⟩

theorem endSection_post {ptr : Option Nat} (hp : p ≤ d.length) (h : ptr.isSome ∨ rd.activeSubsection.isSome) :
    RWp d fl p (endReadSection ptr (rd, ⟨d, p, fl⟩)) fun b r p1 => p1 = p ∧ ((b = false ∧ r = rd) ∨
      (b = true ∧ ∃ sub, rd.activeSubsection = some sub ∧ sub.endPosition = p ∧ r = { rd with activeSubsection := none, activeEndPos := 0 })) := by
  rw [endReadSection]
  refine .get (.ite (fun _ => .pure hp ⟨rfl, .inl ⟨rfl, rfl⟩⟩) fun hne => ?_)
  dsimp only at hne ⊢
  cases e : rd.activeSubsection with
  | none =>
    rw [EReader.subPtr, e] at hne
    rw [e] at h
    cases ptr with
    | none => rcases h with h | h <;> cases h
    | some a => exact absurd (nofun) hne
  | some sub =>
    dsimp only
    refine .bind (.onR (endLarge_wp fl hp _)) fun b r p1 h1 h2 h3 => ?_
    obtain ⟨rfl, rfl, hb⟩ := h3
    cases b with
    | false => exact .pure h2 ⟨rfl, .inl ⟨rfl, rfl⟩⟩
    | true => exact ⟨p1, rfl, Nat.le_refl _, h2, rfl, .inr ⟨rfl, sub, rfl, (hb.mp rfl).symm, rfl⟩⟩

theorem endArray_post {ptr : Option Nat} (hp : p ≤ d.length) (h : ptr.isSome ∨ rd.activeSubsection.isSome) :
    RWp d fl p (endReadSectionsArray ptr (rd, ⟨d, p, fl⟩)) fun b r p1 => p1 = p ∧ ((b = false ∧ r = rd) ∨
      (b = true ∧ wrap64 (rd.activeIndex + 1) = rd.activeArraySize ∧ ∃ sub, rd.activeSubsection = some sub ∧ sub.endPosition = p ∧
        r = { rd with activeSubsection := none, activeArraySize := 0, activeIndex := sizeMax, activeEndPos := 0 })) := by
  rw [endReadSectionsArray]
  refine .get (.ite (fun _ => .pure hp ⟨rfl, .inl ⟨rfl, rfl⟩⟩) fun hne => .ite (fun _ => .pure hp ⟨rfl, .inl ⟨rfl, rfl⟩⟩) fun hi => ?_)
  dsimp only at hne hi ⊢
  have hi : wrap64 (rd.activeIndex + 1) = rd.activeArraySize := Decidable.byContradiction hi
  cases e : rd.activeSubsection with
  | none =>
    rw [EReader.subPtr, e] at hne
    rw [e] at h
    cases ptr with
    | none => rcases h with h | h <;> cases h
    | some a => exact absurd (nofun) hne
  | some sub =>
    dsimp only
    refine .bind (.onR (endLarge_wp fl hp _)) fun b r p1 h1 h2 h3 => ?_
    obtain ⟨rfl, rfl, hb⟩ := h3
    cases b with
    | false => exact .pure h2 ⟨rfl, .inl ⟨rfl, rfl⟩⟩
    | true => exact ⟨p1, rfl, Nat.le_refl _, h2, rfl, .inr ⟨rfl, hi, sub, rfl, (hb.mp rfl).symm, rfl⟩⟩

theorem beginElement_post (hd : Small d) (hp : p ≤ d.length) (ptr : Option Nat) (i : Nat) (w : Bool) :
    RWp d fl p (beginReadSectionInArray ptr i w (rd, ⟨d, p, fl⟩)) fun x r _ => (x.1 = false ∧ r = rd) ∨
      (rd.subPtr = ptr ∧ wrap64 (rd.activeIndex + 1) = i ∧ i < rd.activeArraySize ∧ (w = true → x.1 = true) ∧
        ∃ e, r = { rd with activeIndex := i, activeEndPos := e }) := by
  rw [beginReadSectionInArray]
  refine .get (.ite (fun _ => .pure hp (.inl ⟨rfl, rfl⟩)) fun h => .ite (fun _ => .pure hp (.inl ⟨rfl, rfl⟩)) fun h' =>
    .ite (fun _ => .pure hp (.inl ⟨rfl, rfl⟩)) fun h'' => ?_)
  dsimp only at h h' h''
  refine .bind (.onR (u64_wp fl hd hp)) fun size r p1 h1 h2 h3 => ?_
  obtain ⟨rfl, -⟩ := h3
  refine .bind (P := fun _ r' _ => ∃ e, r' = { r with activeIndex := i, activeEndPos := e }) ⟨p1, rfl, Nat.le_refl _, h2, _, rfl⟩ fun _ r' p2 h4 h5 h6 => ?_
  have h := Decidable.byContradiction h
  have h' := Decidable.byContradiction h'
  refine .ite (fun hw => .ite (fun _ => .pure h5 ?_) fun _ => .pure h5 ?_) fun _ => .pure h5 ?_
  · refine .inr ⟨h, h', by omega, fun e => ?_, h6⟩
    rw [e] at hw; cases hw
  · exact .inr ⟨h, h', by omega, fun _ => rfl, h6⟩
  · exact .inr ⟨h, h', by omega, fun _ => rfl, h6⟩

/-- The effect of a call on the reader it is made on. -/
inductive Effect (rd : EReader) (p : Nat) : ReaderCall → Bool → EReader → Prop where
  | same {c b} (h : ∀ ptr i w, c = .beginElement ptr i w → b = false) : Effect rd p c b rd
  | element {ptr i w b e} (hp : rd.subPtr = ptr) (h : wrap64 (rd.activeIndex + 1) = i) (hi : i < rd.activeArraySize) (hw : w = true → b = true) :
      Effect rd p (.beginElement ptr i w) b { rd with activeIndex := i, activeEndPos := e }
  | inside {call b sub sub'} (h : rd.activeSubsection = some sub) (he : sub'.endPosition = sub.endPosition ∧ sub'.addr = sub.addr) :
      Effect rd p (.inner call) b { rd with activeSubsection := some sub' }
  | openSection {env fresh key na e} (h : rd.activeSubsection = none) :
      Effect rd p (.beginSection env fresh key na) true { rd with activeSubsection := some (EReader.create fresh e) }
  | refuseArray {env fresh key na wi n} (h : rd.activeSubsection = none) :
      Effect rd p (.beginArray env fresh key na wi) false { rd with activeArraySize := n }
  | openArray {env fresh key na wi e n} (h : rd.activeSubsection = none) :
      Effect rd p (.beginArray env fresh key na wi) true { rd with
        activeArraySize := n, activeIndex := sizeMax, activeSubsection := some (EReader.create fresh e) }
  | closeSection {ptr sub} (h : rd.activeSubsection = some sub) (he : sub.endPosition = p) :
      Effect rd p (.endSection ptr) true { rd with activeSubsection := none, activeEndPos := 0 }
  | closeArray {ptr sub} (h : rd.activeSubsection = some sub) (he : sub.endPosition = p) (hi : wrap64 (rd.activeIndex + 1) = rd.activeArraySize) :
      Effect rd p (.endArray ptr) true { rd with activeSubsection := none, activeArraySize := 0, activeIndex := sizeMax, activeEndPos := 0 }

theorem Effect.keeps {rd rd' : EReader} {p : Nat} {c : ReaderCall} {b : Bool} (h : Effect rd p c b rd') :
    rd'.endPosition = rd.endPosition ∧ rd'.addr = rd.addr := by
  cases h <;> exact ⟨rfl, rfl⟩

theorem run_post (hd : Small d) : ∀ (c : ReaderCall) (rd : EReader) (p : Nat), p ≤ d.length → c.Sound (rd, ⟨d, p, fl⟩) →
    RWp d fl p (c.run (rd, ⟨d, p, fl⟩)) fun b r _ => Effect rd p c b r
  | .beginSection env fresh key na, rd, p, hp, h => by
    refine .bind (beginSection_post env hd hp fresh h na) fun x r p1 h1 h2 h3 => .pure h2 ?_
    rcases h3 with ⟨-, rfl⟩ | ⟨rfl, hn, e, rfl, -, -⟩
    · exact .same nofun
    · exact .openSection hn
  | .endSection ptr, rd, p, hp, h => .mono (endSection_post hp h) fun b r p1 h1 h2 h3 => by
    obtain ⟨rfl, ⟨rfl, rfl⟩ | ⟨rfl, sub, hs, he, rfl⟩⟩ := h3
    · exact .same nofun
    · exact .closeSection hs he
  | .beginArray env fresh key na wi, rd, p, hp, h => by
    refine .bind (beginArray_post env hd hp fresh h na wi) fun x r p1 h1 h2 h3 => .pure h2 ?_
    rcases h3 with ⟨-, rfl⟩ | ⟨-, hb, hn, n, rfl⟩ | ⟨-, hb, hn, e, p0, rfl, -, -⟩
    · exact .same nofun
    · rw [hb]; exact .refuseArray hn
    · rw [hb]; exact .openArray hn
  | .beginElement ptr i w, rd, p, hp, _ => by
    refine .bind (beginElement_post hd hp ptr i w) fun x r p1 h1 h2 h3 => .pure h2 ?_
    rcases h3 with ⟨hb, rfl⟩ | ⟨h1, h2, h3, h4, e, rfl⟩
    · exact .same fun _ _ _ _ => hb
    · exact .element h1 h2 h3 h4
  | .endElement ptr i, rd, p, hp, _ => .mono (endInArray_rwp hp ptr i) fun b r p1 h1 h2 h3 => by subst h3; exact .same nofun
  | .endArray ptr, rd, p, hp, h => .mono (endArray_post hp h) fun b r p1 h1 h2 h3 => by
    obtain ⟨rfl, ⟨rfl, rfl⟩ | ⟨rfl, hi, sub, hs, he, rfl⟩⟩ := h3
    · exact .same nofun
    · exact .closeArray hs he hi
  | .read env t c key dest, rd, p, hp, h => by
    refine .bind (P := fun _ r _ => r = rd) ?_ fun x r p1 h1 h2 h3 => .pure h2 (by subst h3; exact .same nofun)
    exact .mono (.onR (readTyped_wp env fl hd hp (allTypes_ok t h.1) c key h.2.1 dest (.inl h.2.2))) fun _ _ _ _ _ h => h.1
  | .inner call, rd, p, hp, ⟨sub, hs, h⟩ => by
    refine .mono (.inSub hs (run_post hd call sub p hp h)) fun b r p1 h1 h2 h3 => ?_
    obtain ⟨sub', rfl, h3⟩ := h3
    exact .inside hs h3.keeps

end

end ISD
