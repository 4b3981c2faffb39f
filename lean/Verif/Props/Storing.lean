import Verif.Proofs.Refuse
import Verif.Props.InPlace

/-!
# C64, C65: what `Write` accepts, and validated objects
-/

namespace ISD

set_option linter.unusedVariables false

attribute [local irreducible] dynTable DynClass.all findTypeClass

variable {V : Type} {M : Managed V} {S : ClassSpec V}

/-- There is room for the object in the stream. -/
def HasRoom (S : ClassSpec V) (v : V) (s : WStream) : Prop := s.dataSize + ((S.nodes v).bytes s.flip).length < 2 ^ 59

/-- **C64**: `Write` of any object ends normally. It returns true exactly when every Varying in the object is initialised. Whatever it returns, the
bytes that were in the stream before are still there, in front of what was added. -/
theorem C64_write_accepts_exactly_storable_objects (hM : IsClass M S) (v : V) (hv : S.wf v) (w : EWriter) (hw : w.Idle) (s : WStream) (hs : Ready s)
    (hroom : HasRoom S v s) (fresh : Bytes → Nat) :
    ∃ r w' s' b, M.write fresh v (w, s) = .ok r (w', s') ∧ (r = true ↔ S.rel .storable v v) ∧ Ready s' ∧ s'.flip = s.flip ∧
      s'.content = s.content ++ b := by
  have hl := hs.good.content_len
  unfold HasRoom at hroom
  by_cases h : S.rel .storable v v
  · obtain ⟨s', e, h'⟩ := hM.lawful.write_ok v hv h fresh s.flip w s s.content hw hs.at (by omega)
    exact ⟨true, w, s', _, e, ⟨fun _ => h, fun _ => rfl⟩, h'.ready, h'.flip, h'.content⟩
  · obtain ⟨w', s', b, e, h'⟩ := hM.refuses v hv h fresh s.flip w s s.content hw hs.at (by omega)
    exact ⟨false, w', s', b, e, ⟨fun h => (nomatch h), fun h' => absurd h' h⟩, h'.ready, h'.flip, h'.content⟩

/-- So a `Write` that returned true has stored the object: reading the bytes it added, whatever comes before and behind them, gives an object with
the same contents. -/
theorem C64_true_means_stored (hM : IsClass M S) (v : V) (hv : S.wf v) (w : EWriter) (hw : w.Idle) (s : WStream) (hs : Ready s)
    (hroom : HasRoom S v s) (fresh : Bytes → Nat) (w' : EWriter) (s' : WStream) (e : M.write fresh v (w, s) = .ok true (w', s')) :
    w' = w ∧ ∃ x, s'.content = s.content ++ x ∧ ∀ dest, S.wf dest → S.destOk dest → ReadsBack M S s.flip v x dest := by
  obtain ⟨r, w2, s2, b, e2, hr, _⟩ := C64_write_accepts_exactly_storable_objects hM v hv w hw s hs hroom fresh
  rw [e] at e2
  cases e2
  have h := hr.mp rfl
  have hst : Storable S s.flip v := ⟨hv, h, by unfold HasRoom at hroom; omega⟩
  obtain ⟨s3, e3, _, _, hc⟩ := storedAs_nodes hM hst w hw s hs rfl fresh (by unfold HasRoom at hroom; omega)
  rw [e] at e3
  cases e3
  exact ⟨rfl, _, hc, fun dest hd hdo => readsBack hM s.flip v hst _ (storedAs_nodes hM hst) dest hd hdo⟩

/-! ## C65 -/

mutual
  theorem IsClass.valid_storable : ∀ {V : Type} {M : Managed V} {S : ClassSpec V}, IsClass M S → ∀ v, S.wf v → S.valid v → S.rel .storable v v
    | _, _, _, @IsClass.graph _ _ st h a r s, _, _, _ => ⟨fun _ => Iff.rfl, fun _ => Iff.rfl⟩
    | _, _, _, .idx t h, v, _, _ => refl_storable (t := t) (c := .idxVector) v
    | _, _, _, .varying, v, _, hv => by
      cases e : v.data with
      | none =>
        have : v.data.isSome = true := hv
        rw [e] at this; cases this
      | some o => exact .inr ⟨o, o, e, e, rfl, rfl, .mk _ _ _ _ (refl_storable _)⟩
    | _, _, _, @IsClass.table _ _ _ st h _ _ hM zk ne ord, t, hw, hv => fun k => .refl fun x hx => .refl fun v hx' => by
      subst hx'
      have hm := (find_iff hw.1 k _).mp hx
      exact hM.valid_storable v (hw.2 k v hm) (hv.2.2 k v hm)
    | _, _, _, .entity ss h hne, v, hw, hv => h.valid_storable v hw hv
  theorem AreFields.valid_storable : ∀ {fs : List Field} {ss : FieldSpecs fs}, AreFields ss → ∀ v : FieldsVal fs, ss.wf v → ss.valid v → ss.rel .storable v v
    | _, _, .nil, _, _, _ => trivial
    | _, _, .base hk ht h, v, hw, hv => ⟨refl_storable _, h.valid_storable v.2 hw hv⟩
    | _, _, .sub hk hM h, v, hw, hv => ⟨hM.valid_storable v.1 hw.1 hv.1, h.valid_storable v.2 hw.2 hv.2⟩
end

theorem DynObj.Rel.isSome {a b : Varying} (h : varyingSpec.rel .exact a b) : a.data.isSome = b.data.isSome := by
  rcases h with ⟨h1, h2, _⟩ | ⟨o, p, h1, h2, _⟩
  · rw [h1, h2]
  · rw [h1, h2]; rfl

mutual
  theorem IsClass.valid_congr : ∀ {V : Type} {M : Managed V} {S : ClassSpec V}, IsClass M S → ∀ a b, S.wf a → S.wf b → S.rel .exact a b →
      S.valid a → S.valid b
    | _, _, _, @IsClass.graph _ _ st h _ _ _, a, b, ha, hb, hr, hv => by
      have e1 := OrdSet.sorted_ext ha.1 hb.1 hr.1
      have e2 := OrdSet.sorted_ext ha.2 hb.2 hr.2
      cases a; cases b
      dsimp only at e1 e2
      subst e1 e2
      exact hv
    | _, _, _, .idx t h, a, b, _, _, hr, hv => by rw [← IdxRel.eq hr]; exact hv
    | _, _, _, .varying, a, b, _, _, hr, hv => by
      show b.data.isSome = true
      rw [← DynObj.Rel.isSome hr]
      exact hv
    | _, _, _, @IsClass.table _ _ _ st h _ _ hM zk ne ord, a, b, ha, hb, hr, hv => by
      refine ⟨fun h0 x hm => ?_, fun h0 k hm => ?_, fun k v hm => ?_⟩
      · have := hr st.zero
        rw [(find_iff hb.1 _ _).mpr hm] at this
        generalize e : a.find st.zero = y at this
        cases this with
        | some _ => exact hv.1 h0 _ ((find_iff ha.1 _ _).mp e)
      · have := hr k
        rw [(find_iff hb.1 _ _).mpr hm] at this
        generalize e : a.find k = y at this
        cases this with
        | some h => cases h with | none => exact hv.2.1 h0 k ((find_iff ha.1 _ _).mp e)
      · have := hr k
        rw [(find_iff hb.1 _ _).mpr hm] at this
        generalize e : a.find k = y at this
        cases this with
        | some h => cases h with
          | some h =>
            have hm' := (find_iff ha.1 _ _).mp e
            exact hM.valid_congr _ _ (ha.2 _ _ hm') (hb.2 _ _ hm) h (hv.2.2 _ _ hm')
    | _, _, _, .entity ss h hne, a, b, ha, hb, hr, hv => h.valid_congr a b ha hb hr hv
  theorem AreFields.valid_congr : ∀ {fs : List Field} {ss : FieldSpecs fs}, AreFields ss → ∀ a b : FieldsVal fs, ss.wf a → ss.wf b →
      ss.rel .exact a b → ss.valid a → ss.valid b
    | _, _, .nil, _, _, _, _, _, _ => trivial
    | _, _, .base hk ht h, a, b, ha, hb, hr, hv => h.valid_congr a.2 b.2 ha hb hr.2 hv
    | _, _, .sub hk hM h, a, b, ha, hb, hr, hv => ⟨hM.valid_congr a.1 b.1 ha.1 hb.1 hr.1 hv.1, h.valid_congr a.2 b.2 ha.2 hb.2 hr.2 hv.2⟩
end

/-- **C65**: an object for which `Validate` reported no errors can be written; what is written reads back as an object with the same contents,
for which `Validate` reports no errors either. -/
theorem C65_validated_objects_survive_storage (hM : IsClass M S) (v : V) (hv : S.wf v) (hok : M.validate v [] true) (w : EWriter) (hw : w.Idle)
    (s : WStream) (hs : Ready s) (hroom : HasRoom S v s) (fresh : Bytes → Nat) :
    ∃ s' x, M.write fresh v (w, s) = .ok true (w, s') ∧ s'.content = s.content ++ x ∧
      ∀ (pre post : Bytes) (env : REnv) (fresh' : Bytes → Nat) (r : EReader) (dest : V), (pre ++ x ++ post).length < 2 ^ 59 → r.Idle →
        GrantsUpTo (4 * (pre ++ x ++ post).length) env → S.wf dest → S.destOk dest →
        ∃ v', M.read env fresh' dest (r, ⟨pre ++ x ++ post, pre.length, s.flip⟩) =
            .ok (some v') (r, ⟨pre ++ x ++ post, (pre ++ x).length, s.flip⟩) ∧ S.rel .exact v' v ∧
          ∀ rs b, M.validate v' rs b → rs = [] ∧ b = true := by
  have hL := hM.lawful
  have hvalid : S.valid v := by
    obtain ⟨rs, h1, h2, h3⟩ := hL.validate_ok v hv
    exact h3.mp (h2 _ _ hok).1.symm
  have hst : Storable S s.flip v := ⟨hv, hM.valid_storable v hv hvalid, by unfold HasRoom at hroom; omega⟩
  obtain ⟨s3, e3, _, _, hc⟩ := storedAs_nodes hM hst w hw s hs rfl fresh (by unfold HasRoom at hroom; omega)
  refine ⟨s3, _, e3, hc, fun pre post env fresh' r dest hsz hr hB hd hdo => ?_⟩
  obtain ⟨v', e, hw', hrel⟩ := C60_reading_back_needs_little_memory hM s.flip v hst _ (storedAs_nodes hM hst) pre post hsz env hB fresh' r hr dest hd hdo
  refine ⟨v', e, hrel, fun rs b h => ?_⟩
  obtain ⟨rs', _, h2, h3⟩ := hL.validate_ok v' hw'
  obtain ⟨rfl, hb⟩ := h2 _ _ h
  exact ⟨h3.mpr (hM.valid_congr _ _ hv hw' (hL.exact_symm hrel) hvalid), hb⟩

/-- A copy of an object validates exactly as the object does: no errors in one, no errors in the other. -/
theorem C65_same_contents_same_verdict (hM : IsClass M S) (a b : V) (ha : S.wf a) (hb : S.wf b) (h : S.rel .exact a b) :
    M.validate a [] true ↔ M.validate b [] true := by
  have hL := hM.lawful
  have key : ∀ v, S.wf v → (M.validate v [] true ↔ S.valid v) := fun v hv => by
    obtain ⟨rs, h1, h2, h3⟩ := hL.validate_ok v hv
    exact ⟨fun h => h3.mp (h2 _ _ h).1.symm, fun h => h3.mpr h ▸ h1⟩
  rw [key a ha, key b hb]
  exact ⟨hM.valid_congr a b ha hb h, hM.valid_congr b a hb ha (hL.exact_symm h)⟩

/-! ## Non-trivial cases -/

/-- A table with an uninitialised Varying under one key, and a null entry under another. -/
def badVaryings : Table EntityRef Varying :=
  [(⟨⟨9, 2, 3, #v[1, 2, 3, 4, 5, 6, 7, 8]⟩⟩, none), (⟨⟨1, 2, 3, #v[1, 2, 3, 4, 5, 6, 7, 8]⟩⟩, some ⟨0x11, 0, none⟩)]

example : IsClass (tableMF entityRefStored varyingMF false true frontOrder) (tableSpec entityRefStored varyingSpec false true) ∧
    (tableSpec entityRefStored varyingSpec false true).wf badVaryings ∧
    ¬ (tableSpec entityRefStored varyingSpec false true).rel .storable badVaryings badVaryings ∧
    HasRoom (tableSpec entityRefStored varyingSpec false true) badVaryings (demoStream false) := by
  refine ⟨.table _ entityRef_good .varying _ _ _, ⟨by decide +kernel, fun k v hm o ho => ?_⟩, fun h => ?_, by unfold HasRoom; decide +kernel⟩
  · rcases List.mem_cons.mp hm with e | hm
    · cases e
    · cases List.mem_singleton.mp hm; cases ho
  · have := h ⟨⟨1, 2, 3, #v[1, 2, 3, 4, 5, 6, 7, 8]⟩⟩
    rw [show badVaryings.find ⟨⟨1, 2, 3, #v[1, 2, 3, 4, 5, 6, 7, 8]⟩⟩ = some (some ⟨0x11, 0, none⟩) from rfl] at this
    cases this with
    | some h => cases h with
      | some h =>
        rcases h with ⟨_, _, h⟩ | ⟨o, p, h, _⟩
        · exact h
        · cases h

/-- One value, named twice: no errors. -/
example : (idxMF fvec2Type).validate ⟨[(#v[0, 0] : Vector (Word 4) 2)], [0, 0]⟩ [] true := (C44_validation _ _ _ _).mpr ⟨rfl, by decide⟩

end ISD
