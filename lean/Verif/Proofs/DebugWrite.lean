import Verif.Model.Debug
import Verif.Proofs.Indep

/-! # The checks of the debug build: writing -/

namespace ISD

theorem sanityCheck_pos {σ : Type} {c : Prop} [Decidable c] (h : c) : (sanityCheck c : Prog σ Unit) = pure () := if_pos h

theorem sanityCheck_neg {σ : Type} {c : Prop} [Decidable c] (h : ¬ c) : (sanityCheck c : Prog σ Unit) = Prog.throw := if_neg h

section writer
open WStream

/-- A routine that moves the position by `n` when it returns. -/
def Moves (n : Nat) (p : Prog WStream Unit) : Prop := ∀ s s', p s = .ok () s' → s'.pos % 2 ^ 64 = (s.pos + n) % 2 ^ 64

theorem writeRaw_moves (bs : Bytes) (s s' : WStream) (h : writeRaw bs s = .ok () s') : s'.pos = wrap64 (s.pos + bs.length) := by
  unfold writeRaw at h
  obtain ⟨_, _, h1, h2⟩ := Prog.bind_eq_ok h
  cases h1
  obtain ⟨_, s2, h3, h4⟩ := Prog.bind_eq_ok h2
  obtain ⟨_, _, h5, h6⟩ := Prog.bind_eq_ok h4
  cases h5
  split at h6
  · cases h6
  · cases h6
    rfl

theorem Moves.raw (bs : Bytes) : Moves bs.length (writeRaw bs) := fun s s' h => by
  rw [writeRaw_moves bs s s' h]
  unfold wrap64
  omega

theorem Moves.bind {m n k : Nat} {p : Prog WStream Unit} {q : Unit → Prog WStream Unit} (hp : Moves m p) (hq : ∀ u, Moves n (q u)) (hk : k = m + n) :
    Moves k (p >>= q) := by
  intro s s' h
  obtain ⟨_, s1, h1, h2⟩ := Prog.bind_eq_ok h
  have := hp s s1 h1
  have := hq () s1 s' h2
  omega

theorem Moves.pure : Moves 0 (pure ()) := fun s s' h => by cases h; rfl

theorem swapAt_moves (k p count : Nat) : Moves 0 (swapAt k p count) := by
  intro s s' h
  unfold swapAt at h
  obtain ⟨_, _, h1, h2⟩ := Prog.bind_eq_ok h
  cases h1
  split at h2
  · cases h2
  · cases h2
    rfl

theorem flatMap_size {α : Type} (f : α → Bytes) (k : Nat) (hf : ∀ a, (f a).length = k) (l : List α) : (l.flatMap f).length = k * l.length := by
  induction l with
  | nil => rfl
  | cons a l ih =>
    rw [List.flatMap_cons, List.length_append, ih, hf, List.length_cons, Nat.mul_add, Nat.mul_one]
    omega

theorem Moves.words {k : Nat} (ws : List (Word k)) : Moves (k * ws.length) (writeWords ws) := by
  intro s s' h
  have hl : (ws.flatMap Word.image).length = k * ws.length := flatMap_size _ _ (by intro a; simp [Word.image, leBytes_length]) ws
  unfold writeWords at h
  obtain ⟨_, _, h1, h2⟩ := Prog.bind_eq_ok h
  cases h1
  split at h2
  · exact Moves.bind (Moves.raw _) (fun _ => swapAt_moves _ _ _) (by omega) s s' h2
  · exact hl ▸ Moves.raw _ s s' h2

theorem Moves.uuids : ∀ us : List UUID, Moves (16 * us.length) (writeUUIDs us)
  | [] => Moves.pure
  | u :: us => by
    unfold writeUUIDs
    refine Moves.bind (Moves.raw _) (fun _ => Moves.uuids us) ?_
    simp [beFromValue32, beFromValue16]
    omega

theorem Moves.items : ∀ (sc : Sc) (l : List sc.Val), Moves (sc.size * l.length) (writeItems sc l)
  | .w1, l => by
    have := Moves.raw (List.flatMap (Word.image (k := 1)) l)
    rwa [flatMap_size _ 1 (by intro a; simp [Word.image, leBytes_length])] at this
  | .w2, l => Moves.words (k := 2) l
  | .w4, l => Moves.words (k := 4) l
  | .w8, l => Moves.words (k := 8) l
  | .uuid, l => Moves.uuids l
  | .hash, l => by
    have := Moves.raw (List.flatMap (fun h : Hash => h.digest.toList) l)
    rwa [flatMap_size _ 32 (by intro a; simp)] at this

theorem Moves.u8 (n : Nat) : Moves 1 (writeU8 n) := Moves.items .w1 _
theorem Moves.u64 (n : Nat) : Moves 8 (writeU64 n) := Moves.items .w8 _

theorem run_congr {σ α β : Type} {p : Prog σ α} {f g : α → Prog σ β} (s : σ) (h : ∀ a s', p s = .ok a s' → f a s' = g a s') :
    (p >>= f) s = (p >>= g) s := by
  rw [Prog.bind_apply, Prog.bind_apply]
  cases e : p s with
  | throw s' => rfl
  | ub => rfl
  | ok a s' => exact h a s' e

theorem begin_debug (vt : Nat) (key : Bytes) :
    Debug.beginWriteLargeBlock vt key = if key.length ≤ 40 then beginWriteLargeBlock vt key else Prog.throw := by
  funext s
  rw [Debug.beginWriteLargeBlock, Prog.bind_ok (Prog.get_apply _)]
  split
  · rename_i hk
    rw [sanityCheck_pos hk, beginWriteLargeBlock, Prog.bind_ok (Prog.get_apply _)]
    refine (Prog.bind_ok (Prog.pure_apply _ _)).trans ?_
    refine run_congr s fun _ s1 e1 => run_congr s1 fun _ s2 e2 => run_congr s2 fun _ s3 e3 => run_congr s3 fun _ s4 e4 => ?_
    have h1 := Moves.u8 _ _ _ e1
    have h2 := Moves.u64 _ _ _ e2
    have h3 := Moves.u8 _ _ _ e3
    have h4 := writeRaw_moves _ _ _ e4
    have h5 : s4.pos = wrap64 (s.pos + key.length + 10) := by
      rw [h4]
      unfold wrap64
      omega
    rw [Prog.bind_ok (Prog.get_apply _), Prog.bind_ok (Prog.get_apply _), sanityCheck_pos h5]
    rfl
  · rename_i hk
    rw [sanityCheck_neg hk]
    rfl

theorem singleItems_debug (vt : Nat) (sc : Sc) (n : Nat) (hn : sc.size * n < 216) (key : Bytes) (data : Option (Vector sc.Val n)) :
    Debug.writeSingleItems vt sc n key data = if key.length ≤ 40 then writeSingleItems vt sc n key data else Prog.throw := by
  funext s
  unfold Debug.writeSingleItems
  by_cases hk : key.length ≤ 40
  · rw [if_pos hk]
    unfold writeSingleItems
    have hb : (if data.isSome then sc.size * n else 0) + key.length < 256 := by split <;> omega
    have hd : ∀ s s', Prog.when ((if data.isSome then sc.size * n else 0) > 0) (writeItems sc (data.elim [] Vector.toList)) s = .ok () s' →
        s'.pos % 2 ^ 64 = (s.pos + (if data.isSome then sc.size * n else 0)) % 2 ^ 64 := by
      intro s s' h
      cases data with
      | none => cases h; rfl
      | some v =>
        simp only [Option.isSome_some, if_true] at h ⊢
        by_cases h0 : sc.size * n > 0
        · rw [Prog.when, if_pos h0] at h
          have := Moves.items sc _ _ _ h
          simp only [Option.elim_some, Vector.length_toList] at this
          exact this
        · rw [Prog.when, if_neg h0] at h
          cases h
          rw [Nat.eq_zero_of_not_pos h0]; rfl
    generalize (if data.isSome then sc.size * n else 0) = d at hb hd ⊢
    dsimp only
    rw [sanityCheck_pos hk, sanityCheck_pos hb, Prog.bind_ok (Prog.get_apply _)]
    refine (Prog.bind_ok (Prog.pure_apply _ _)).trans ((Prog.bind_ok (Prog.pure_apply _ _)).trans ((Prog.bind_ok (Prog.get_apply _)).trans ?_))
    refine run_congr s fun _ s1 e1 => run_congr s1 fun _ s2 e2 => run_congr s2 fun _ s3 e3 => run_congr s3 fun _ s4 e4 => ?_
    have h1 := Moves.u8 _ _ _ e1
    have h2 := Moves.u8 _ _ _ e2
    have h3 := hd _ _ e3
    have h4 := writeRaw_moves _ _ _ e4
    have h5 : s4.pos = wrap64 (s.pos + 2 + (d + key.length)) := by
      rw [h4]
      unfold wrap64
      omega
    rw [Prog.bind_ok (Prog.get_apply _), Prog.bind_ok (Prog.get_apply _), sanityCheck_pos h5]
    rfl
  · rw [if_neg hk, sanityCheck_neg hk]
    rfl

theorem metadata_debug (p : Nat) (hp : p ≤ 0xff) : Debug.writeArrayMetadataAndIndex p = writeArrayMetadataAndIndex p := by
  funext n i s
  rw [Debug.writeArrayMetadataAndIndex, sanityCheck_pos hp]
  rfl

/-- Starting with a throw is a throw, with nothing written. -/
theorem throws_first {σ α β : Type} {f : σ → Prog σ β} {g : σ → α → Prog σ β} (h : ∀ s, f s = (Prog.throw : Prog σ α) >>= g s) (s : σ) :
    (Prog.get >>= f) s = .throw s := by
  rw [Prog.bind_ok (Prog.get_apply _), h]
  rfl

theorem singleString_debug (key : Bytes) (data : Option Bytes) :
    Debug.writeSingleString key data = if key.length ≤ 40 then writeSingleString key data else Prog.throw := by
  unfold Debug.writeSingleString
  rw [begin_debug]
  split
  · rfl
  · funext s
    exact throws_first (fun _ => rfl) s

theorem arrayItems_debug (vt : Nat) (sc : Sc) (n : Nat) (key : Bytes) (items : Option (List (Vector sc.Val n))) (index : Option (List (Word 4))) :
    Debug.writeArrayItems vt sc n key items index = if key.length ≤ 40 then writeArrayItems vt sc n key items index else Prog.throw := by
  unfold Debug.writeArrayItems
  rw [begin_debug, metadata_debug _ (by cases sc <;> decide)]
  split
  · rfl
  · funext s
    exact throws_first (fun _ => rfl) s

theorem arrayBool_debug (key : Bytes) (items : Option (List Bool)) (index : Option (List (Word 4))) :
    Debug.writeArrayBool key items index = if key.length ≤ 40 then writeArrayBool key items index else Prog.throw := by
  unfold Debug.writeArrayBool
  rw [begin_debug, metadata_debug _ (by decide)]
  split
  · rfl
  · funext s
    exact throws_first (fun _ => rfl) s

theorem arrayString_debug (key : Bytes) (items : Option (List Bytes)) (index : Option (List (Word 4))) :
    Debug.writeArrayString key items index = if key.length ≤ 40 then writeArrayString key items index else Prog.throw := by
  unfold Debug.writeArrayString
  rw [begin_debug, metadata_debug _ (by decide)]
  split
  · rfl
  · funext s
    exact throws_first (fun _ => rfl) s

/-- The values of the data types of the library have at most 128 bytes. -/
theorem value_small {t : DataType} (ht : t ∈ allTypes) : ∀ sc n h, t.kind = .items sc n h → sc.size * n < 216 := by
  have h : allTypes.all (fun t => match t.kind with | .items sc n _ => decide (sc.size * n < 216) | _ => true) = true := by decide +kernel
  intro sc n b e
  have := List.all_eq_true.mp h t ht
  rw [e] at this
  exact of_decide_eq_true this

theorem single_debug {t : DataType} (ht : t ∈ allTypes) (key : Bytes) (data : Option t.Val) :
    Debug.writeSingle t key data = if key.length ≤ 40 then writeSingle t key data else Prog.throw := by
  have hv := value_small ht
  match t, data, hv with
  | ⟨_, _, _, .bool, _⟩, d, _ => exact singleItems_debug _ _ _ (by decide) _ _
  | ⟨_, vt, _, .items sc n h, _⟩, d, hv => exact singleItems_debug _ _ _ (hv sc n h rfl) _ _
  | ⟨_, _, _, .string, _⟩, d, _ => exact singleString_debug _ _

theorem array_debug (t : DataType) (key : Bytes) (items : Option (List t.Val)) (index : Option (List (Word 4))) :
    Debug.writeArray t key items index = if key.length ≤ 40 then writeArray t key items index else Prog.throw := by
  match t, items with
  | ⟨_, _, _, .bool, _⟩, l => exact arrayBool_debug _ _ _
  | ⟨_, _, avt, .items sc n _, _⟩, l => exact arrayItems_debug _ _ _ _ _ _
  | ⟨_, _, _, .string, _⟩, l => exact arrayString_debug _ _ _

/-- A value is written alike in both builds; with a key that is too long, the debug build throws before it writes. -/
theorem typed_debug {t : DataType} (ht : t ∈ allTypes) (c : Container) (key : Bytes) (v : c.Val t.Val) :
    Debug.writeTyped t c key v = if key.length ≤ 40 then writeTyped t c key v else Prog.throw := by
  cases c
  · exact single_debug ht _ _
  · exact single_debug ht _ _
  all_goals exact array_debug t _ _ _

theorem onStream_throw {α : Type} : onStream (Prog.throw : Prog WStream α) = Prog.throw := rfl

theorem beginSection_debug (fresh : Nat) (key : Bytes) (hk : key.length ≤ 40) :
    Debug.beginWriteSection fresh key = beginWriteSection fresh key := by
  unfold Debug.beginWriteSection
  rw [begin_debug, if_pos hk]
  rfl

theorem nullSection_debug (fresh : Nat) (key : Bytes) (hk : key.length ≤ 40) :
    Debug.writeNullSection fresh key = writeNullSection fresh key := by
  unfold Debug.writeNullSection
  rw [beginSection_debug _ _ hk]
  rfl

theorem beginArray_debug (fresh : Nat) (key : Bytes) (hk : key.length ≤ 40) (n : Nat) (index : Option (List (Word 4))) :
    Debug.beginWriteSectionsArray fresh key n index = beginWriteSectionsArray fresh key n index := by
  unfold Debug.beginWriteSectionsArray
  rw [begin_debug, if_pos hk, metadata_debug _ (by decide)]
  rfl

end writer
end ISD
