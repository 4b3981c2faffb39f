import Verif.Proofs.ReaderHistory

/-!
# C72: a null section is told from a section with contents, and refused where null is not allowed
-/

namespace ISD

section

variable {d : Bytes} {fl : Bool} {p : Nat} {r r' : EReader} {t : RStream}

/-- What it means to report a null section (or array) whose block is `block`. -/
structure ReportsNull (d : Bytes) (fl : Bool) (p : Nat) (r : EReader) (nullAllowed : Bool) (block : Bytes) (r' : EReader) (t : RStream) : Prop where
  /-- The caller allowed null. -/
  allowed : nullAllowed = true
  /-- The reader is as before, on the same bytes. -/
  reader : r' = r
  stream : t.data = d ∧ t.flip = fl
  /-- Unless the data ends here, the block of a null section is what was read. -/
  block : t.pos < d.length → Has d p block ∧ t.pos = p + block.length

theorem nullHead_wp (env : REnv) (hd : Small d) (hp : p ≤ d.length) (vt : Nat) (hv : 0 < vt) (hv' : vt < 256) {key : Bytes} (hk : key.length ≤ 40) :
    RWp d fl p (onRStream (beginReadLargeBlock env vt key) (r, ⟨d, p, fl⟩)) fun e r1 p1 =>
      r1 = r ∧ (e ≠ 0 → LargeHead d fl p vt key e p1) ∧ (Has d p (Spec.largeBlock fl vt key []) → e = p1) := by
  have hw := RWp.onR (rd := r) (beginLarge_wp env fl hd hp vt hv key hk)
  by_cases hh : Has d p (Spec.largeBlock fl vt key [])
  · rw [onRStream_ok (beginReadLarge_has env hd hv' hk hh)] at hw ⊢
    obtain ⟨p', hs, a1, a2, a3, a4⟩ := hw
    exact ⟨p', hs, a1, a2, a3, a4, fun _ => by injection hs⟩
  · exact hw.mono fun _ _ _ _ _ h => ⟨h.1, h.2, fun c => absurd c hh⟩

theorem nullTail_wp (hp : p ≤ d.length) (na : Bool) :
    Wp d fl p (endReadEmptyLargeBlock (α := Unit) na p ⟨d, p, fl⟩) fun st p' => p' = p ∧ st = if na then .successEmpty else .fail := by
  rw [endReadEmptyLargeBlock]
  cases na with
  | false => exact Wp.pure hp ⟨rfl, rfl⟩
  | true =>
    refine Wp.bind (endLarge_wp fl hp p) fun b p' h1 h2 h3 => ?_
    obtain ⟨rfl, h3⟩ := h3
    obtain rfl := h3.mpr rfl
    exact Wp.pure h2 ⟨rfl, rfl⟩

/-- **C72**. On any bytes: `BeginReadSection` reports success with a null pointer only if the caller allowed null, and then - unless the data
ends here - the bytes are exactly the block of a null section; the reader is as before. It reports success with a pointer only if the bytes are not
the block of a null section. In all other cases it reports failure, with a null pointer. -/
theorem C72_null_section (env : REnv) (hd : d.length < 2 ^ 60) (hp : p ≤ d.length) (fresh : Nat) {key : Bytes} (hk : key.length ≤ 40)
    {nullAllowed : Bool} {ptr : Option Nat} {success : Bool}
    (run : beginReadSection env fresh key nullAllowed (r, ⟨d, p, fl⟩) = .ok (ptr, success) (r', t)) :
    (success = false ∧ ptr = none) ∨
    (success = true ∧ ptr = none ∧ ReportsNull d fl p r nullAllowed (Spec.sect fl key []) r' t) ∨
    (success = true ∧ ptr = some fresh ∧ ¬ Has d p (Spec.sect fl key [])) := by
  have : RWp d fl p (beginReadSection env fresh key nullAllowed (r, ⟨d, p, fl⟩)) fun x r' p' =>
      (x.2 = false ∧ x.1 = none) ∨ (x.2 = true ∧ x.1 = none ∧ ReportsNull d fl p r nullAllowed (Spec.sect fl key []) r' ⟨d, p', fl⟩) ∨
      (x.2 = true ∧ x.1 = some fresh ∧ ¬ Has d p (Spec.sect fl key [])) := by
    rw [beginReadSection]
    refine .get (.ite (fun _ => .pure hp (.inl ⟨rfl, rfl⟩)) fun _ => ?_)
    refine .bind (nullHead_wp env hd hp vtSubsection (by decide) (by decide) hk) fun e r1 p1 h1 h2 h3 => ?_
    obtain ⟨rfl, h3, h3'⟩ := h3
    refine .ite (fun _ => .pure h2 (.inl ⟨rfl, rfl⟩)) fun h0 => .get (.ite (fun he => ?_) fun hne => ?_)
    · dsimp only at he
      subst he
      refine .bind (.onR (nullTail_wp h2 nullAllowed)) fun st r2 p2 h4 h5 h6 => ?_
      obtain ⟨rfl, rfl, rfl⟩ := h6
      cases nullAllowed with
      | false => exact .pure h5 (.inl ⟨rfl, rfl⟩)
      | true =>
        exact .pure h5 (.inr (.inl ⟨rfl, rfl, rfl, rfl, ⟨rfl, rfl⟩,
          fun hlt => (h3 h0).block hd [] (Has.nil (by omega)) rfl (.inr hlt)⟩))
    · exact ⟨p1, rfl, Nat.le_refl _, h2, .inr (.inr ⟨rfl, rfl, fun hh => hne (h3' hh)⟩)⟩
  rw [run] at this
  obtain ⟨p', e, -, -, h⟩ := this
  dsimp only at e h
  subst e
  exact h

/-- **C72**. The same of `BeginReadSectionsArray`; a null array is reported with no elements and no index. -/
theorem C72_null_array (env : REnv) (hd : d.length < 2 ^ 60) (hp : p ≤ d.length) (fresh : Nat) {key : Bytes} (hk : key.length ≤ 40)
    {nullAllowed wantIndex : Bool} {ptr : Option Nat} {size : Nat} {success : Bool} {index : List (Word 4)}
    (run : beginReadSectionsArray env fresh key nullAllowed wantIndex (r, ⟨d, p, fl⟩) = .ok (ptr, size, success, index) (r', t)) :
    (success = false ∧ ptr = none ∧ size = 0) ∨
    (success = true ∧ ptr = none ∧ size = 0 ∧ index = [] ∧ ReportsNull d fl p r nullAllowed (Spec.sectArray fl key none none) r' t) ∨
    (success = true ∧ ptr = some fresh ∧ ¬ Has d p (Spec.sectArray fl key none none)) := by
  have : RWp d fl p (beginReadSectionsArray env fresh key nullAllowed wantIndex (r, ⟨d, p, fl⟩)) fun x r' p' =>
      (x.2.2.1 = false ∧ x.1 = none ∧ x.2.1 = 0) ∨
      (x.2.2.1 = true ∧ x.1 = none ∧ x.2.1 = 0 ∧ x.2.2.2 = [] ∧
        ReportsNull d fl p r nullAllowed (Spec.sectArray fl key none none) r' ⟨d, p', fl⟩) ∨
      (x.2.2.1 = true ∧ x.1 = some fresh ∧ ¬ Has d p (Spec.sectArray fl key none none)) := by
    rw [beginReadSectionsArray]
    refine .get (.ite (fun _ => .pure hp (.inl ⟨rfl, rfl, rfl⟩)) fun _ => ?_)
    refine .bind (nullHead_wp env hd hp vtArraySubsection (by decide) (by decide) hk) fun e r1 p1 h1 h2 h3 => ?_
    obtain ⟨rfl, h3, h3'⟩ := h3
    refine .ite (fun _ => .pure h2 (.inl ⟨rfl, rfl, rfl⟩)) fun h0 => .get (.ite (fun he => ?_) fun hne => ?_)
    · dsimp only at he
      subst he
      refine .bind (.onR (nullTail_wp h2 nullAllowed)) fun st r2 p2 h4 h5 h6 => ?_
      obtain ⟨rfl, rfl, rfl⟩ := h6
      cases nullAllowed with
      | false => exact .pure h5 (.inl ⟨rfl, rfl, rfl⟩)
      | true =>
        exact .pure h5 (.inr (.inl ⟨rfl, rfl, rfl, rfl, rfl, rfl, ⟨rfl, rfl⟩,
          fun hlt => (h3 h0).block hd [] (Has.nil (by omega)) rfl (.inr hlt)⟩))
    · refine .bind (.metaR (meta_wp env fl hd h2 e wantIndex)) fun m r2 p2 h4 h5 h6 => ?_
      cases m with
      | none => exact .pure h5 (.inl ⟨rfl, rfl, rfl⟩)
      | some m =>
        obtain ⟨k, count, idx⟩ := m
        exact ⟨p2, rfl, Nat.le_refl _, h5, .inr (.inr ⟨rfl, rfl, fun hh => hne (h3' hh)⟩)⟩
  rw [run] at this
  obtain ⟨p', e, -, -, h⟩ := this
  dsimp only at e h
  subst e
  exact h

/-- **C72**. An element of an array of sections: a caller that does not ask whether the element has data gets a null element refused; a caller that
asks is told whether it has. (Unless the data ends inside the size of the element.) -/
theorem C72_null_element (hd : d.length < 2 ^ 60) (hp : p + 8 ≤ d.length) {ptr : Option Nat} {i : Nat} {wantHasData success hasData : Bool}
    (run : beginReadSectionInArray ptr i wantHasData (r, ⟨d, p, fl⟩) = .ok (success, hasData) (r', t)) (hs : success = true) :
    (wantHasData = false → ¬ Has d p (Spec.element fl [])) ∧
    (wantHasData = true → (hasData = false ↔ Has d p (Spec.element fl []))) := by
  have : RWp d fl p (beginReadSectionInArray ptr i wantHasData (r, ⟨d, p, fl⟩)) fun x _ _ => x.1 = true →
      (wantHasData = false → ¬ Has d p (Spec.element fl [])) ∧ (wantHasData = true → (x.2 = false ↔ Has d p (Spec.element fl []))) := by
    rw [beginReadSectionInArray]
    refine .get (.ite (fun _ => .pure (by omega) (by simp)) fun h => .ite (fun _ => .pure (by omega) (by simp)) fun _ =>
      .ite (fun _ => .pure (by omega) (by simp)) fun _ => ?_)
    refine .bind (.onR (u64_wp fl hd (by omega))) fun size r1 p1 h1 h2 h3 => ?_
    obtain ⟨rfl, h3⟩ := h3
    have hz : Has d p (Spec.element fl []) ↔ size = 0 := by
      have e : Spec.element fl [] = Spec.number fl 8 0 := List.append_nil _
      rw [e]
      constructor
      · intro hh
        have hu := (h3.full hp).2.unique hh (by rw [number_length, number_length])
        exact number_inj fl 8 h3.lt (by decide) hu
      · rintro rfl; exact (h3.full hp).2
    refine .bind (P := fun _ _ _ => True) ⟨p1, rfl, Nat.le_refl _, h2, trivial⟩ fun _ r' p2 h4 h5 _ => ?_
    refine .ite (fun hw => .ite (fun _ => .pure h5 (by simp)) fun hne => .pure h5 fun _ => ⟨fun _ hh => hne (hz.mp hh), fun c => ?_⟩)
      fun hw => .pure h5 fun _ => ⟨fun c => ?_, fun _ => ?_⟩
    · rw [c] at hw; cases hw
    · rw [c] at hw; exact absurd rfl hw
    · rw [hz]; simp
  rw [run] at this
  obtain ⟨p', e, -, -, h⟩ := this
  exact h hs

/-- **C72**. So the block of a null section, wherever it stands, is reported null if that is allowed, and refused otherwise. -/
theorem C72_null_block (env : REnv) (hd : d.length < 2 ^ 60) (hr : r.activeSubsection = none) (fresh : Nat) {key : Bytes} (hk : key.length ≤ 40)
    (nullAllowed : Bool) (h : Has d p (Spec.sect fl key [])) :
    ∃ t, beginReadSection env fresh key nullAllowed (r, ⟨d, p, fl⟩) = .ok (none, nullAllowed) (r, t) := by
  have e1 := beginReadLarge_has env hd (by decide) hk h
  rw [List.length_nil, Nat.add_zero] at e1
  have e2 : endReadEmptyLargeBlock (α := Unit) nullAllowed (p + 10 + key.length) ⟨d, p + 10 + key.length, fl⟩ =
      .ok (if nullAllowed then .successEmpty else .fail) ⟨d, p + 10 + key.length, fl⟩ := by
    cases nullAllowed with
    | false => rfl
    | true => exact readEmpty_none (α := Unit) (p + 10 + key.length) (⟨d, p + 10 + key.length, fl⟩ : RStream) rfl
  refine ⟨⟨d, p + 10 + key.length, fl⟩, ?_⟩
  rw [beginReadSection, Prog.bind_ok (Prog.get_apply _), if_neg (by simp [hr]),
    Prog.bind_ok (onRStream_ok (show beginReadLargeBlock env vtSubsection key _ = _ from e1)), if_neg (by omega),
    Prog.bind_ok (Prog.get_apply _), if_pos rfl, Prog.bind_ok (onRStream_ok e2)]
  cases nullAllowed <;> rfl

/-- **C72**. The same of the block of a null array of sections. -/
theorem C72_null_array_block (env : REnv) (hd : d.length < 2 ^ 60) (hr : r.activeSubsection = none) (fresh : Nat) {key : Bytes}
    (hk : key.length ≤ 40) (nullAllowed wantIndex : Bool) (h : Has d p (Spec.sectArray fl key none none)) :
    ∃ t, beginReadSectionsArray env fresh key nullAllowed wantIndex (r, ⟨d, p, fl⟩) = .ok (none, 0, nullAllowed, []) (r, t) := by
  have e1 := beginReadLarge_has env hd (by decide) hk h
  rw [Option.elim_none, List.length_nil, Nat.add_zero] at e1
  have e2 : endReadEmptyLargeBlock (α := Unit) nullAllowed (p + 10 + key.length) ⟨d, p + 10 + key.length, fl⟩ =
      .ok (if nullAllowed then .successEmpty else .fail) ⟨d, p + 10 + key.length, fl⟩ := by
    cases nullAllowed with
    | false => rfl
    | true => exact readEmpty_none (α := Unit) (p + 10 + key.length) (⟨d, p + 10 + key.length, fl⟩ : RStream) rfl
  refine ⟨⟨d, p + 10 + key.length, fl⟩, ?_⟩
  rw [beginReadSectionsArray, Prog.bind_ok (Prog.get_apply _), if_neg (by simp [hr]),
    Prog.bind_ok (onRStream_ok (show beginReadLargeBlock env vtArraySubsection key _ = _ from e1)), if_neg (by omega),
    Prog.bind_ok (Prog.get_apply _), if_pos rfl, Prog.bind_ok (onRStream_ok e2)]
  cases nullAllowed <;> rfl

end

/-- A null section and a section with one byte in it. -/
def nullDemo : Bytes := Spec.sect false (key "A") [] ++ Spec.sect false (key "B") [7]

theorem nullDemo_has : Has nullDemo 0 (Spec.sect false (key "A") []) := ⟨[], Spec.sect false (key "B") [7], rfl, rfl⟩

/-- The first is reported null or refused; the second is opened. -/
example (env : REnv) (na : Bool) : (∃ t, beginReadSection env 5 (key "A") na (EReader.create 1 0, ⟨nullDemo, 0, false⟩) = .ok (none, na) (EReader.create 1 0, t)) ∧
    ∃ st, beginReadSection env 5 (key "B") na (EReader.create 1 0, ⟨nullDemo, 11, false⟩) = .ok (some 5, true) st :=
  ⟨C72_null_block env (by decide) rfl 5 (by decide) na nullDemo_has, _, beginReadSect_ok (body := [7]) ⟨rfl, rfl, rfl, rfl⟩ env 5 na (by decide) (by decide)
    ⟨Spec.sect false (key "A") [], [], by decide, by decide⟩ (by decide)⟩

/-- The hypotheses of the other theorems hold of these runs. -/
example (env : REnv) : ∃ t, ReportsNull nullDemo false 0 (EReader.create 1 0) true (Spec.sect false (key "A") []) (EReader.create 1 0) t := by
  obtain ⟨t, h⟩ := C72_null_block (r := EReader.create 1 0) (d := nullDemo) (p := 0) (fl := false) env (by decide) rfl 5 (key := key "A") (by decide) true nullDemo_has
  rcases C72_null_section env (by decide) (by decide) 5 (by decide) h with h | h | h
  · exact absurd h.1 (by decide)
  · exact ⟨t, h.2.2⟩
  · exact absurd h.2.1 (by decide)

end ISD
