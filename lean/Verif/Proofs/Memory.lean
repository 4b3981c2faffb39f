import Verif.Proofs.HostileEntity

/-! # Reads that are accepted only ask for memory in proportion to the stream -/

namespace ISD
open RStream

attribute [local irreducible] dynTable DynClass.all findTypeClass

set_option linter.unusedVariables false

/-- If the first run ends normally with `Q`, the second one ends the same way. -/
def Follows {σ α : Type} (r0 r1 : Res σ α) (Q : α → σ → Prop) : Prop := ∀ a s, r0 = .ok a s → Q a s → r1 = .ok a s

theorem Follows.refl {σ α : Type} {r : Res σ α} {Q : α → σ → Prop} : Follows r r Q := fun _ _ h _ => h

theorem Follows.ite {σ α : Type} {c : Prop} [Decidable c] {x0 y0 x1 y1 : Prog σ α} {s : σ} {Q : α → σ → Prop} (h1 : c → Follows (x0 s) (x1 s) Q)
    (h2 : ¬ c → Follows (y0 s) (y1 s) Q) : Follows ((if c then x0 else y0) s) ((if c then x1 else y1) s) Q := by
  by_cases h : c
  · rw [if_pos h, if_pos h]; exact h1 h
  · rw [if_neg h, if_neg h]; exact h2 h

theorem Follows.get {σ β : Type} {f0 f1 : σ → Prog σ β} {s : σ} {Q : β → σ → Prop} (h : Follows (f0 s s) (f1 s s) Q) :
    Follows ((Prog.get >>= f0) s) ((Prog.get >>= f1) s) Q := h

theorem Follows.mono {σ α : Type} {r0 r1 : Res σ α} {P Q : α → σ → Prop} (h : Follows r0 r1 P) (hm : ∀ a s, r0 = .ok a s → Q a s → P a s) :
    Follows r0 r1 Q := fun a s e hq => h a s e (hm a s e hq)

theorem Follows.bind {σ α β : Type} {x0 x1 : Prog σ α} {f0 f1 : α → Prog σ β} {s : σ} {P : α → σ → Prop} {Q : β → σ → Prop}
    (hx : Follows (x0 s) (x1 s) P) (hP : ∀ a s1, x0 s = .ok a s1 → ∀ b s2, f0 a s1 = .ok b s2 → Q b s2 → P a s1)
    (hf : ∀ a s1, x0 s = .ok a s1 → Follows (f0 a s1) (f1 a s1) Q) : Follows ((x0 >>= f0) s) ((x1 >>= f1) s) Q := by
  intro b s2 h hq
  obtain ⟨a, s1, h1, h2⟩ := Prog.bind_eq_ok h
  exact (Prog.bind_ok (hx a s1 h1 (hP a s1 h1 b s2 h2 hq))).trans (hf a s1 h1 b s2 h2 hq)

section streams

variable {α β : Type} {d : Bytes} {fl : Bool} {p : Nat}

theorem Follows.step {x0 x1 : Prog RStream α} {f0 f1 : α → Prog RStream β} {W : α → Nat → Prop} {P : α → RStream → Prop} {Q : β → RStream → Prop}
    (hw : Wp d fl p (x0 ⟨d, p, fl⟩) W True) (hx : Follows (x0 ⟨d, p, fl⟩) (x1 ⟨d, p, fl⟩) P)
    (hP : ∀ a p', p ≤ p' → p' ≤ d.length → W a p' → ∀ b s2, f0 a ⟨d, p', fl⟩ = .ok b s2 → Q b s2 → P a ⟨d, p', fl⟩)
    (hf : ∀ a p', p ≤ p' → p' ≤ d.length → W a p' → Follows (f0 a ⟨d, p', fl⟩) (f1 a ⟨d, p', fl⟩) Q) :
    Follows ((x0 >>= f0) ⟨d, p, fl⟩) ((x1 >>= f1) ⟨d, p, fl⟩) Q := by
  refine .bind hx (fun a s1 h1 b s2 h2 hq => ?_) fun a s1 h1 => ?_
  · obtain ⟨e, g1, g2, g3⟩ := hw.result h1
    rw [e] at h2 ⊢
    exact hP a _ g1 g2 g3 b s2 h2 hq
  · obtain ⟨e, g1, g2, g3⟩ := hw.result h1
    rw [e]
    exact hf a _ g1 g2 g3

/-- A step that asks for no memory. -/
theorem Follows.free {x : Prog RStream α} {f0 f1 : α → Prog RStream β} {W : α → Nat → Prop} {Q : β → RStream → Prop}
    (hw : Wp d fl p (x ⟨d, p, fl⟩) W True)
    (hf : ∀ a p', p ≤ p' → p' ≤ d.length → W a p' → Follows (f0 a ⟨d, p', fl⟩) (f1 a ⟨d, p', fl⟩) Q) :
    Follows ((x >>= f0) ⟨d, p, fl⟩) ((x >>= f1) ⟨d, p, fl⟩) Q :=
  .step (P := fun _ _ => True) hw .refl (fun _ _ _ _ _ _ _ _ _ => trivial) hf

/-- A request that is granted. -/
theorem Follows.resize {env0 env1 : REnv} {B n e : Nat} {f0 f1 : Unit → Prog RStream β} {Q : β → RStream → Prop}
    (hB : ∀ n, n ≤ B → env1.allocOk n = true) (hp : p ≤ d.length) (hle : ∀ b s, n * e < 2 ^ 63 → f0 () ⟨d, p, fl⟩ = .ok b s → Q b s → n * e ≤ B)
    (hf : n * e < 2 ^ 63 → Follows (f0 () ⟨d, p, fl⟩) (f1 () ⟨d, p, fl⟩) Q) :
    Follows ((resizeTo env0 n e >>= f0) ⟨d, p, fl⟩) ((resizeTo env1 n e >>= f1) ⟨d, p, fl⟩) Q := by
  refine .step (W := fun _ p' => p' = p ∧ n * e < 2 ^ 63) (P := fun _ _ => n * e ≤ B) (resizeTo_wp env0 fl hp n e).weaken ?_ ?_ ?_
  · intro a s h hq
    rw [resizeTo] at h ⊢
    by_cases c : n * e ≥ 2 ^ 63
    · rw [if_pos (.inl c)] at h; cases h
    · rw [if_neg (by rw [hB _ hq]; exact fun h => h.elim c (fun h => nomatch h))]
      split at h
      · cases h
      · exact h
  · rintro a p' _ _ ⟨rfl, h'⟩ b s2 h hq
    exact hle b s2 h' h hq
  · rintro a p' _ _ ⟨rfl, h⟩
    exact hf h

theorem Follows.resizeB {env0 env1 : REnv} {B n : Nat} {f0 f1 : Unit → Prog RStream β} {Q : β → RStream → Prop}
    (hB : ∀ n, n ≤ B → env1.allocOk n = true) (hp : p ≤ d.length) (hle : ∀ b s, n < 2 ^ 63 → f0 () ⟨d, p, fl⟩ = .ok b s → Q b s → (n + 31) / 32 * 4 ≤ B)
    (hf : n < 2 ^ 63 → Follows (f0 () ⟨d, p, fl⟩) (f1 () ⟨d, p, fl⟩) Q) :
    Follows ((resizeBool env0 n >>= f0) ⟨d, p, fl⟩) ((resizeBool env1 n >>= f1) ⟨d, p, fl⟩) Q := by
  refine .step (W := fun _ p' => p' = p ∧ n < 2 ^ 63) (P := fun _ _ => (n + 31) / 32 * 4 ≤ B) (resizeBool_wp env0 fl hp n).weaken ?_ ?_ ?_
  · intro a s h hq
    rw [resizeBool] at h ⊢
    by_cases c : n ≥ 2 ^ 63
    · rw [if_pos (.inl c)] at h; cases h
    · rw [if_neg (by rw [hB _ hq]; exact fun h => h.elim c (fun h => nomatch h))]
      split at h
      · cases h
      · exact h
  · rintro a p' _ _ ⟨rfl, h'⟩ b s2 h hq
    exact hle b s2 h' h hq
  · rintro a p' _ _ ⟨rfl, h⟩
    exact hf h


variable {env0 env1 : REnv}

theorem begin_same (hj : env1.junkKey = env0.junkKey) (vt : Nat) (key : Bytes) : beginReadLargeBlock env1 vt key = beginReadLargeBlock env0 vt key := by
  unfold beginReadLargeBlock readKey
  rw [hj]

theorem sub_le {e q : Nat} (h : q ≤ e) (he : e ≤ d.length) (hd : Small d) : sub64 e q ≤ d.length := by
  rw [sub64_of_le h (by have : d.length < 2 ^ 60 := hd; omega)]
  omega

theorem Wp.use {r : Res RStream α} {a : α} {s : RStream} (e : r = .ok a s) (Q : α → Nat → Prop) (h : Wp d fl p r Q True) :
    p ≤ s.pos ∧ s.pos ≤ d.length ∧ Q a s.pos := by
  rw [e] at h
  obtain ⟨p', rfl, h1, h2, h3⟩ := h
  exact ⟨h1, h2, h3⟩

theorem meta_follows (hB : ∀ n, n ≤ 4 * d.length → env1.allocOk n = true) (hd : Small d) (hp : p ≤ d.length) (e : Nat) (he : e ≤ d.length)
    (wi : Bool) : Follows (readArrayMetadataAndIndex env0 e wi ⟨d, p, fl⟩) (readArrayMetadataAndIndex env1 e wi ⟨d, p, fl⟩)
      fun r s => r ≠ none ∧ s.pos ≤ e := by
  rw [readArrayMetadataAndIndex, readArrayMetadataAndIndex]
  refine .get ?_
  dsimp only
  refine .free (u16_wp fl hd hp).weaken fun flags p1 _ g1 _ => ?_
  refine .ite (fun _ => .refl) fun _ => ?_
  refine .free (u64_wp fl hd g1).weaken fun cnt p2 _ g2 _ => ?_
  refine .ite (fun _ => .ite (fun _ => .refl) fun _ => ?_) fun _ => .refl
  refine .free (u64_wp fl hd g2).weaken fun ic p3 _ g3 _ => .get ?_
  dsimp only
  refine .ite (fun _ => .refl) fun hic => ?_
  refine .resize hB g3 (fun b s hlt hrun hq => ?_) fun _ => .refl
  have hle := Wp.use hrun (fun _ _ => True) (Wp.bind (items_wp fl hd g3 .w4 (n := ic) hlt (by rw [List.length_replicate])).weaken
    fun a p4 _ g4 _ => Wp.get (Wp.ite (fun _ => Wp.pure g4 trivial) fun _ => Wp.pure g4 trivial))
  have := sub_le (q := p3) (by omega) he hd
  omega

/-- The last step of the array and string reads. -/
theorem tail_wp (hp : p ≤ d.length) (e : Nat) (a : α) :
    Wp d fl p ((endReadLargeBlock e >>= fun b => if (!b) = true then return .fail else return .success a) ⟨d, p, fl⟩)
      (fun (r : RStatus α) p' => r ≠ .fail → p' = e) True := by
  refine Wp.bind (endLarge_wp fl hp e).weaken fun b p1 _ g1 h => ?_
  obtain ⟨rfl, h⟩ := h
  refine Wp.ite (fun _ => Wp.pure g1 fun h => absurd rfl h) fun hb => Wp.pure g1 fun _ => h.mp (by simpa using hb)

theorem string_follows (hj : env1.junkKey = env0.junkKey) (hB : ∀ n, n ≤ 4 * d.length → env1.allocOk n = true) (hd : Small d) (hp : p ≤ d.length)
    (key : Bytes) (hk : key.length ≤ 40) (ea : Bool) : Follows (readSingleString env0 key ea ⟨d, p, fl⟩) (readSingleString env1 key ea ⟨d, p, fl⟩)
      fun r _ => r ≠ .fail := by
  rw [readSingleString, readSingleString, begin_same hj]
  refine .free (beginLarge_wp env0 fl hd hp vtString (by decide) key hk).weaken fun e p1 _ g1 hh => ?_
  refine .ite (fun _ => .refl) fun he => .get ?_
  dsimp only
  refine .ite (fun _ => .refl) fun hne => ?_
  refine .free (u64_wp fl hd g1).weaken fun n p2 _ g2 _ => .get ?_
  dsimp only
  refine .ite (fun _ => .refl) fun hn => ?_
  refine .resize hB g2 (fun b s hlt hrun hq => ?_) fun _ => .refl
  have hle := Wp.use hrun (fun r p' => r ≠ .fail → p' = e) (Wp.bind (raw_wp fl hd g2 (by omega) (Nat.le_refl _)).weaken
    fun a p4 _ g4 _ => Wp.ite (fun _ => Wp.pure g4 fun h => absurd rfl h) fun _ => tail_wp g4 e a)
  have h2 := hle.2.2 hq
  have := sub_le (q := p2) (by omega) (hh he).fits hd
  omega

theorem items_mono (fl : Bool) (hd : Small d) (hp : p ≤ d.length) (sc : Sc) (n : Nat) (hn : 0 < n) (hsn : sc.size * n ≤ 128) (cnt : Nat)
    (hlt : cnt / n * (sc.size * n) < 2 ^ 63) :
    Wp d fl p (readItems sc cnt (List.replicate (cnt / n * n) sc.zero) ⟨d, p, fl⟩) (fun _ _ => True) True := by
  by_cases hdvd : n ∣ cnt
  · have hc : cnt / n * n = cnt := Nat.div_mul_cancel hdvd
    have : cnt * sc.size < 2 ^ 63 := by
      rw [Nat.mul_comm sc.size n, ← Nat.mul_assoc, hc] at hlt; exact hlt
    exact (items_wp fl hd hp sc this (by rw [List.length_replicate, hc])).weaken.mono fun _ _ _ _ _ => trivial
  · have hlt2 : cnt / n * n < cnt := by
      have := Nat.div_mul_le_self cnt n
      have : cnt / n * n ≠ cnt := fun e => hdvd ⟨cnt / n, by rw [Nat.mul_comm]; exact e.symm⟩
      omega
    have hsz3 : cnt * sc.size < 2 ^ 64 - 2 ^ 60 := by
      have h1 : cnt * sc.size = cnt / n * (sc.size * n) + cnt % n * sc.size := by
        conv => lhs; rw [← Nat.div_add_mod cnt n]
        rw [Nat.add_mul, Nat.mul_comm sc.size n, Nat.mul_comm n (cnt / n), Nat.mul_assoc]
      have h2 : cnt % n * sc.size ≤ n * sc.size := Nat.mul_le_mul_right _ (Nat.le_of_lt (Nat.mod_lt _ hn))
      rw [Nat.mul_comm n] at h2
      omega
    exact (items_short fl hd hp sc hsz3 (by rw [List.length_replicate]; exact hlt2)).mono fun _ _ _ _ _ => trivial

theorem arrayItems_follows (hj : env1.junkKey = env0.junkKey) (hB : ∀ n, n ≤ 4 * d.length → env1.allocOk n = true) (hd : Small d) (hp : p ≤ d.length)
    (avt : Nat) (hv : 0 < avt) (sc : Sc) (n : Nat) (hn : 0 < n) (hsn : sc.size * n ≤ 128)
    (key : Bytes) (hk : key.length ≤ 40) (ea wi : Bool) :
    Follows (readArrayItems env0 avt sc n key ea wi ⟨d, p, fl⟩) (readArrayItems env1 avt sc n key ea wi ⟨d, p, fl⟩) fun r _ => r ≠ .fail := by
  rw [readArrayItems, readArrayItems, begin_same hj]
  refine .free (beginLarge_wp env0 fl hd hp avt hv key hk).weaken fun e p1 _ g1 hh => ?_
  refine .ite (fun _ => .refl) fun he => .get ?_
  dsimp only
  refine .ite (fun _ => .refl) fun hne => ?_
  have rest : ∀ (cnt : Nat) (idx : List (Word 4)) (p2 : Nat), p2 ≤ d.length → cnt / n * (sc.size * n) < 2 ^ 63 →
      Wp d fl p2 ((do
        let (readCount, vals) ← readItems sc cnt (List.replicate (cnt / n * n) sc.zero)
        if readCount ≠ cnt then return .fail
        if !(← endReadLargeBlock e) then return .fail
        return .success (groupVals n sc.zero (cnt / n) vals, idx) : Prog RStream (RStatus (List (Vector sc.Val n) × List (Word 4)))) ⟨d, p2, fl⟩)
        (fun r p' => r ≠ .fail → p' = e) True := by
    intro cnt idx p2 g2 hlt
    refine .bind (items_mono fl hd g2 sc n hn hsn cnt hlt) fun a p4 _ g4 _ => ?_
    exact Wp.ite (fun _ => Wp.pure g4 fun h => absurd rfl h) fun _ => tail_wp g4 e _
  have tail : ∀ (per cnt : Nat) (idx : List (Word 4)) (p2 : Nat), p2 ≤ d.length →
      Wp d fl p2 ((if sc.size ≠ per then return .fail else do
        let s1 ← Prog.get
        if cnt > sub64 e s1.pos / sc.size then return .fail
        let typeCount := cnt / n
        resizeTo env0 typeCount (sc.size * n)
        let (readCount, vals) ← readItems sc cnt (List.replicate (typeCount * n) sc.zero)
        if readCount ≠ cnt then return .fail
        if !(← endReadLargeBlock e) then return .fail
        return .success (groupVals n sc.zero typeCount vals, idx) : Prog RStream (RStatus (List (Vector sc.Val n) × List (Word 4)))) ⟨d, p2, fl⟩)
        (fun r p' => r ≠ .fail → p' = e) True := by
    intro per cnt idx p2 g2
    refine .ite (fun _ => .pure g2 fun h => absurd rfl h) fun _ => .get (.ite (fun _ => .pure g2 fun h => absurd rfl h) fun hf => ?_)
    refine .bind (resizeTo_wp env0 fl g2 (cnt / n) (sc.size * n)).weaken fun _ p3 _ g3 h3 => ?_
    obtain ⟨rfl, h3⟩ := h3
    exact rest cnt idx _ g3 h3
  refine .step (meta_wp env0 fl hd g1 e wi).weaken (meta_follows hB hd g1 e (hh he).fits wi) ?_ ?_
  · rintro (_ | ⟨per, cnt, idx⟩) p2 _ g2 hr b s2 hrun hq
    · cases hrun; exact absurd rfl hq
    · have := Wp.use hrun (fun r p' => r ≠ .fail → p' = e) (tail per cnt idx p2 g2)
      have h2 := this.2.2 hq
      exact ⟨(fun h => nomatch h), by show p2 ≤ e; omega⟩
  · rintro (_ | ⟨per, cnt, idx⟩) p2 _ g2 hr
    · exact .refl
    · dsimp only
      refine .ite (fun _ => .refl) fun _ => .get (.ite (fun _ => .refl) fun hcnt => ?_)
      refine .resize hB g2 (fun b s hlt hrun hq => ?_) fun _ => .refl
      have h2 := Wp.use hrun (fun r p' => r ≠ .fail → p' = e) (rest cnt idx p2 g2 hlt)
      have h3 := h2.2.2 hq
      have h4 := sub_le (q := p2) (by omega) (hh he).fits hd
      have h5 : cnt / n * (sc.size * n) ≤ cnt * sc.size := by
        rw [Nat.mul_comm sc.size n, ← Nat.mul_assoc]
        exact Nat.mul_le_mul_right _ (Nat.div_mul_le_self cnt n)
      have h6 : cnt * sc.size ≤ sub64 e p2 := (Nat.le_div_iff_mul_le sc.size_pos).mp (by dsimp only at hcnt; omega)
      omega

theorem arrayBool_follows (hj : env1.junkKey = env0.junkKey) (hB : ∀ n, n ≤ 4 * d.length → env1.allocOk n = true) (hd : Small d) (hp : p ≤ d.length)
    (key : Bytes) (hk : key.length ≤ 40) (ea wi : Bool) :
    Follows (readArrayBool env0 key ea wi ⟨d, p, fl⟩) (readArrayBool env1 key ea wi ⟨d, p, fl⟩) fun r _ => r ≠ .fail := by
  rw [readArrayBool, readArrayBool, begin_same hj]
  refine .free (beginLarge_wp env0 fl hd hp 0x41 (by decide) key hk).weaken fun e p1 _ g1 hh => ?_
  refine .ite (fun _ => .refl) fun he => .get ?_
  dsimp only
  refine .ite (fun _ => .refl) fun hne => ?_
  have rest2 : ∀ (cnt : Nat) (idx : List (Word 4)) (p2 : Nat), p2 ≤ d.length → cnt < 2 ^ 63 →
      Wp d fl p2 ((do
        let bs ← readRaw (wrap64 (cnt + 7) / 8) (wrap64 (cnt + 7) / 8)
        let packed := bs ++ List.replicate (wrap64 (cnt + 7) / 8 - bs.length) 0
        let vals ← unpackLoop packed 0 cnt
        if !(← endReadLargeBlock e) then return .fail
        return .success (vals, idx) : Prog RStream (RStatus (List Bool × List (Word 4)))) ⟨d, p2, fl⟩)
        (fun r p' => r ≠ .fail → p' = e) True := by
    intro cnt idx p2 g2 hlt
    rw [show wrap64 (cnt + 7) = cnt + 7 from Nat.mod_eq_of_lt (by omega)]
    refine Wp.bind (raw_wp fl hd g2 (by omega) (Nat.le_refl _)).weaken fun bs p3 h11 h12 n3 => ?_
    refine Wp.bind (unpack_wp fl h12 _ cnt 0 (by rw [List.length_append, List.length_replicate]; omega)).weaken fun l p3' h13 h14 n4 => ?_
    exact tail_wp h14 e _
  have rest1 : ∀ (cnt : Nat) (idx : List (Word 4)) (p2 : Nat), p2 ≤ d.length → cnt < 2 ^ 63 →
      Wp d fl p2 ((do
        resizeTo env0 (wrap64 (cnt + 7) / 8) 1
        let bs ← readRaw (wrap64 (cnt + 7) / 8) (wrap64 (cnt + 7) / 8)
        let packed := bs ++ List.replicate (wrap64 (cnt + 7) / 8 - bs.length) 0
        let vals ← unpackLoop packed 0 cnt
        if !(← endReadLargeBlock e) then return .fail
        return .success (vals, idx) : Prog RStream (RStatus (List Bool × List (Word 4)))) ⟨d, p2, fl⟩)
        (fun r p' => r ≠ .fail → p' = e) True := by
    intro cnt idx p2 g2 hlt
    refine Wp.bind (resizeTo_wp env0 fl g2 _ 1).weaken fun _ p3 _ g3 h3 => ?_
    obtain ⟨rfl, h3⟩ := h3
    exact rest2 cnt idx _ g3 hlt
  refine .step (meta_wp env0 fl hd g1 e wi).weaken (meta_follows hB hd g1 e (hh he).fits wi) ?_ ?_
  · rintro (_ | ⟨per, cnt, idx⟩) p2 _ g2 hr b s2 hrun hq
    · cases hrun; exact absurd rfl hq
    · have := Wp.use hrun (fun r p' => r ≠ .fail → p' = e) (Wp.get (Wp.ite (fun _ => Wp.pure g2 fun h => absurd rfl h) fun _ =>
        Wp.bind (resizeBool_wp env0 fl g2 cnt).weaken fun _ p3 _ g3 h3 => by
          obtain ⟨rfl, h3⟩ := h3
          exact rest1 cnt idx _ g3 h3))
      have h2 := this.2.2 hq
      exact ⟨(fun h => nomatch h), by show p2 ≤ e; omega⟩
  · rintro (_ | ⟨per, cnt, idx⟩) p2 _ g2 hr
    · exact .refl
    · dsimp only
      refine .get (.ite (fun _ => .refl) fun hcnt => ?_)
      have hlen : 1 ≤ d.length := by have := (hh he).fits; omega
      refine .resizeB hB g2 (fun b s hlt hrun hq => ?_) fun hlt => ?_
      · have h2 := Wp.use hrun (fun r p' => r ≠ .fail → p' = e) (rest1 cnt idx p2 g2 hlt)
        have h3 := h2.2.2 hq
        have h4 := sub_le (q := p2) (by omega) (hh he).fits hd
        rw [show wrap64 (cnt + 7) = cnt + 7 from Nat.mod_eq_of_lt (by omega)] at hcnt
        dsimp only at hcnt
        omega
      · refine .resize hB g2 (fun b s hlt2 hrun hq => ?_) fun _ => .refl
        have h2 := Wp.use hrun (fun r p' => r ≠ .fail → p' = e) (rest2 cnt idx p2 g2 hlt)
        have h3 := h2.2.2 hq
        have h4 := sub_le (q := p2) (by omega) (hh he).fits hd
        dsimp only at hcnt
        omega

theorem strings_follows (hB : ∀ n, n ≤ 4 * d.length → env1.allocOk n = true) (hd : Small d) (e : Nat) (he : e ≤ d.length) (count : Nat)
    {p : Nat} (hp : p ≤ d.length) : Follows (readStrings env0 e count ⟨d, p, fl⟩) (readStrings env1 e count ⟨d, p, fl⟩) fun r s => r ≠ none ∧ s.pos ≤ e := by
  induction count generalizing p with
  | zero => exact .refl
  | succ count ih =>
    rw [readStrings, readStrings]
    refine .free (u64_wp fl hd hp).weaken fun n p2 _ g2 _ => .get ?_
    dsimp only
    refine .ite (fun _ => .refl) fun hn => ?_
    have rest : ∀ p3, p3 ≤ d.length → ∀ bs : Bytes, Wp d fl p3 ((do
        match ← readStrings env0 e count with
        | none => return none
        | some rest => return some (bs :: rest) : Prog RStream (Option (List Bytes))) ⟨d, p3, fl⟩) (fun _ _ => True) True := by
      intro p3 g3 bs
      refine Wp.bind (strings_wp env0 fl hd g3 e count).weaken fun r p5 _ g5 _ => ?_
      cases r with
      | none => exact Wp.pure g5 trivial
      | some l => exact Wp.pure g5 trivial
    refine .resize hB g2 (fun b s hlt hrun hq => ?_) fun hlt => ?_
    · have h2 := Wp.use hrun (fun _ _ => True) (Wp.bind (raw_wp fl hd g2 (by omega) (Nat.le_refl _)).weaken
        fun a p4 _ g4 _ => Wp.ite (fun _ => Wp.pure g4 trivial) fun _ => rest p4 g4 a)
      have h4 := sub_le (q := p2) (by omega) he hd
      omega
    · refine .free (raw_wp fl hd g2 (by omega) (Nat.le_refl _)).weaken fun bs p3 _ g3 _ => .ite (fun _ => .refl) fun _ => ?_
      refine .step (strings_wp env0 fl hd g3 e count).weaken (ih g3) ?_ ?_
      · rintro (_ | l) p5 _ g5 _ b s2 hrun hq
        · cases hrun; exact absurd rfl hq.1
        · cases hrun; exact ⟨(fun h => nomatch h), hq.2⟩
      · intro a p5 _ g5 _
        exact .refl

theorem arrayString_follows (hj : env1.junkKey = env0.junkKey) (hB : ∀ n, n ≤ 4 * d.length → env1.allocOk n = true) (hd : Small d) (hp : p ≤ d.length)
    (key : Bytes) (hk : key.length ≤ 40) (ea wi : Bool) :
    Follows (readArrayString env0 key ea wi ⟨d, p, fl⟩) (readArrayString env1 key ea wi ⟨d, p, fl⟩) fun r _ => r ≠ .fail := by
  rw [readArrayString, readArrayString, begin_same hj]
  refine .free (beginLarge_wp env0 fl hd hp vtArrayString (by decide) key hk).weaken fun e p1 _ g1 hh => ?_
  refine .ite (fun _ => .refl) fun he => .get ?_
  dsimp only
  refine .ite (fun _ => .refl) fun hne => ?_
  have rest : ∀ (cnt : Nat) (idx : List (Word 4)) (p2 : Nat), p2 ≤ d.length →
      Wp d fl p2 ((do
        match ← readStrings env0 e cnt with
        | none => return .fail
        | some strs =>
          if !(← endReadLargeBlock e) then return .fail
          return .success (strs, idx) : Prog RStream (RStatus (List Bytes × List (Word 4)))) ⟨d, p2, fl⟩)
        (fun r p' => r ≠ .fail → p' = e) True := by
    intro cnt idx p2 g2
    refine Wp.bind (strings_wp env0 fl hd g2 e cnt).weaken fun r p5 _ g5 _ => ?_
    cases r with
    | none => exact Wp.pure g5 fun h => absurd rfl h
    | some l => exact tail_wp g5 e _
  refine .step (meta_wp env0 fl hd g1 e wi).weaken (meta_follows hB hd g1 e (hh he).fits wi) ?_ ?_
  · rintro (_ | ⟨per, cnt, idx⟩) p2 _ g2 hr b s2 hrun hq
    · cases hrun; exact absurd rfl hq
    · have := Wp.use hrun (fun r p' => r ≠ .fail → p' = e) (Wp.get (Wp.ite (fun _ => Wp.pure g2 fun h => absurd rfl h) fun _ =>
        Wp.bind (resizeTo_wp env0 fl g2 cnt 32).weaken fun _ p3 _ g3 h3 => rest cnt idx _ g3))
      have h2 := this.2.2 hq
      exact ⟨(fun h => nomatch h), by show p2 ≤ e; omega⟩
  · rintro (_ | ⟨per, cnt, idx⟩) p2 _ g2 hr
    · exact .refl
    · dsimp only
      refine .get (.ite (fun _ => .refl) fun hcnt => ?_)
      refine .resize hB g2 (fun b s hlt hrun hq => ?_) fun hlt => ?_
      · have h2 := Wp.use hrun (fun r p' => r ≠ .fail → p' = e) (rest cnt idx p2 g2)
        have h3 := h2.2.2 hq
        have h4 := sub_le (q := p2) (by omega) (hh he).fits hd
        dsimp only at hcnt
        omega
      · refine .step (strings_wp env0 fl hd g2 e cnt).weaken (strings_follows hB hd e (hh he).fits cnt g2) ?_ ?_
        · rintro (_ | l) p5 _ g5 _ b s2 hrun hq
          · cases hrun; exact absurd rfl hq
          · have h2 := Wp.use hrun (fun r p' => r ≠ .fail → p' = e) (tail_wp g5 e _)
            have h3 := h2.2.2 hq
            exact ⟨(fun h => nomatch h), by show p5 ≤ e; omega⟩
        · intro a p5 _ g5 _
          exact .refl

theorem key_same (hj : env1.junkKey = env0.junkKey) (n : Nat) : readKey env1 n = readKey env0 n := by
  unfold readKey
  rw [hj]

theorem singleItems_same (hj : env1.junkKey = env0.junkKey) (vt : Nat) (sc : Sc) (n : Nat) (key : Bytes) (ea : Bool) :
    readSingleItems env1 vt sc n key ea = readSingleItems env0 vt sc n key ea := by
  unfold readSingleItems
  rw [key_same hj]

theorem single_follows (hj : env1.junkKey = env0.junkKey) (hB : ∀ n, n ≤ 4 * d.length → env1.allocOk n = true) (hd : Small d) (hp : p ≤ d.length)
    (t : DataType) (key : Bytes) (hk : key.length ≤ 40) (ea : Bool) :
    Follows (readSingle env0 t key ea ⟨d, p, fl⟩) (readSingle env1 t key ea ⟨d, p, fl⟩) fun r _ => r ≠ .fail := by
  obtain ⟨nm, vt, avt, kind, ov⟩ := t
  cases kind with
  | bool =>
    show Follows (readSingleBool env0 key ea ⟨d, p, fl⟩) (readSingleBool env1 key ea ⟨d, p, fl⟩) _
    rw [readSingleBool, readSingleBool, singleItems_same hj]
    exact .refl
  | items sc n f =>
    rw [readSingle, readSingle, singleItems_same hj]
    exact .refl
  | string => exact string_follows hj hB hd hp key hk ea

theorem array_follows (hj : env1.junkKey = env0.junkKey) (hB : ∀ n, n ≤ 4 * d.length → env1.allocOk n = true) (hd : Small d) (hp : p ≤ d.length)
    {t : DataType} (ht : t.Ok) (key : Bytes) (hk : key.length ≤ 40) (ea wi : Bool) :
    Follows (readArray env0 t key ea wi ⟨d, p, fl⟩) (readArray env1 t key ea wi ⟨d, p, fl⟩) fun r _ => r ≠ .fail := by
  obtain ⟨nm, vt, avt, kind, ov⟩ := t
  cases kind with
  | bool => exact arrayBool_follows hj hB hd hp key hk ea wi
  | items sc n f =>
    obtain ⟨h0, h1, h2, h3, h4⟩ := ht
    simp only at h4
    exact arrayItems_follows hj hB hd hp avt (by omega) sc n h0 h1 key hk ea wi
  | string => exact arrayString_follows hj hB hd hp key hk ea wi

theorem typed_follows (hj : env1.junkKey = env0.junkKey) (hB : ∀ n, n ≤ 4 * d.length → env1.allocOk n = true) (hd : Small d) (hp : p ≤ d.length)
    {t : DataType} (ht : t.Ok) (c : Container) (key : Bytes) (hk : key.length ≤ 40) (dest : c.Val t.Val) :
    Follows (readTyped env0 t c key dest ⟨d, p, fl⟩) (readTyped env1 t c key dest ⟨d, p, fl⟩) fun r _ => r ≠ none := by
  cases c <;> rw [readTyped, readTyped]
  case none =>
    refine .bind (single_follows hj hB hd hp t key hk _) (fun a s1 _ b s2 h2 hq => ?_) fun _ _ _ => .refl
    rintro rfl; cases h2; exact hq rfl
  case optionalValue =>
    refine .bind (single_follows hj hB hd hp t key hk _) (fun a s1 _ b s2 h2 hq => ?_) fun _ _ _ => .refl
    rintro rfl; cases h2; exact hq rfl
  all_goals
    refine .bind (array_follows hj hB hd hp ht key hk _ _) (fun a s1 _ b s2 h2 hq => ?_) fun _ _ _ => .refl
    rintro rfl; cases h2; exact hq rfl

end streams

/-! ## Whole objects -/

section objects

variable {α β : Type} {d : Bytes} {fl : Bool} {p : Nat} {rd : EReader} {env0 env1 : REnv}

theorem RWp.use {r : Res RSt α} {a : α} {st : RSt} {Q : α → EReader → Nat → Prop} (e : r = .ok a st) (h : RWp d fl p r Q True) :
    ∃ p', st = (st.1, ⟨d, p', fl⟩) ∧ p ≤ p' ∧ p' ≤ d.length ∧ Q a st.1 p' := by
  rw [e] at h
  obtain ⟨p', h1, h2, h3, h4⟩ := h
  exact ⟨p', by rw [← h1], h2, h3, h4⟩

theorem Follows.rstep {x0 x1 : Prog RSt α} {f0 f1 : α → Prog RSt β} {W : α → EReader → Nat → Prop} {P : α → RSt → Prop} {Q : β → RSt → Prop}
    (hw : RWp d fl p (x0 (rd, ⟨d, p, fl⟩)) W True) (hx : Follows (x0 (rd, ⟨d, p, fl⟩)) (x1 (rd, ⟨d, p, fl⟩)) P)
    (hP : ∀ a r p' b s2, f0 a (r, ⟨d, p', fl⟩) = .ok b s2 → Q b s2 → P a (r, ⟨d, p', fl⟩))
    (hf : ∀ a r p', p ≤ p' → p' ≤ d.length → W a r p' → Follows (f0 a (r, ⟨d, p', fl⟩)) (f1 a (r, ⟨d, p', fl⟩)) Q) :
    Follows ((x0 >>= f0) (rd, ⟨d, p, fl⟩)) ((x1 >>= f1) (rd, ⟨d, p, fl⟩)) Q := by
  refine .bind hx (fun a s1 h1 b s2 h2 hq => ?_) fun a s1 h1 => ?_
  · obtain ⟨p', e, g1, g2, g3⟩ := RWp.use h1 hw
    rw [e] at h2 ⊢
    exact hP a _ _ b s2 h2 hq
  · obtain ⟨p', e, g1, g2, g3⟩ := RWp.use h1 hw
    rw [e]
    exact hf a _ _ g1 g2 g3

/-- A step that asks for no memory. -/
theorem Follows.rfree {x : Prog RSt α} {f0 f1 : α → Prog RSt β} {W : α → EReader → Nat → Prop} {Q : β → RSt → Prop}
    (hw : RWp d fl p (x (rd, ⟨d, p, fl⟩)) W True)
    (hf : ∀ a r p', p ≤ p' → p' ≤ d.length → W a r p' → Follows (f0 a (r, ⟨d, p', fl⟩)) (f1 a (r, ⟨d, p', fl⟩)) Q) :
    Follows ((x >>= f0) (rd, ⟨d, p, fl⟩)) ((x >>= f1) (rd, ⟨d, p, fl⟩)) Q :=
  .rstep (P := fun _ _ => True) hw .refl (fun _ _ _ _ _ _ _ => trivial) hf

/-- A step whose failure makes the whole call fail. -/
theorem Follows.rtry {x0 x1 : Prog RSt (Option α)} {f0 f1 : Option α → Prog RSt (Option β)} {W : Option α → EReader → Nat → Prop}
    (hw : RWp d fl p (x0 (rd, ⟨d, p, fl⟩)) W True) (hx : Follows (x0 (rd, ⟨d, p, fl⟩)) (x1 (rd, ⟨d, p, fl⟩)) fun r _ => r ≠ none)
    (h0 : ∀ s, f0 none s = .ok none s)
    (hf : ∀ a r p', p ≤ p' → p' ≤ d.length → W (some a) r p' → Follows (f0 (some a) (r, ⟨d, p', fl⟩)) (f1 (some a) (r, ⟨d, p', fl⟩)) fun r _ => r ≠ none) :
    Follows ((x0 >>= f0) (rd, ⟨d, p, fl⟩)) ((x1 >>= f1) (rd, ⟨d, p, fl⟩)) fun r _ => r ≠ none := by
  refine .rstep hw hx ?_ ?_
  · rintro (_ | a) r p' b s2 h hq
    · rw [h0] at h; cases h; exact absurd rfl hq
    · exact fun h => nomatch h
  · rintro (_ | a) r p' g1 g2 g3
    · intro b s h hq; rw [h0] at h; cases h; exact absurd rfl hq
    · exact hf a r p' g1 g2 g3

theorem Follows.onR {x0 x1 : Prog RStream α} {Q : α → Prop} (h : Follows (x0 ⟨d, p, fl⟩) (x1 ⟨d, p, fl⟩) fun a _ => Q a) :
    Follows (onRStream x0 (rd, ⟨d, p, fl⟩)) (onRStream x1 (rd, ⟨d, p, fl⟩)) fun a _ => Q a := by
  intro a s e hq
  unfold onRStream at e ⊢
  dsimp only at e ⊢
  cases e0 : x0 ⟨d, p, fl⟩ with
  | ok b s1 =>
    rw [e0] at e
    cases e
    rw [h a s1 e0 hq]
  | throw s1 => rw [e0] at e; cases e
  | ub => rw [e0] at e; cases e

theorem Follows.inSub {x0 x1 : Prog RSt α} {r : EReader} {Q : α → Prop} (hr : rd.activeSubsection = some r)
    (h : Follows (x0 (r, ⟨d, p, fl⟩)) (x1 (r, ⟨d, p, fl⟩)) fun a _ => Q a) :
    Follows (inRSubsection x0 (rd, ⟨d, p, fl⟩)) (inRSubsection x1 (rd, ⟨d, p, fl⟩)) fun a _ => Q a := by
  intro a s e hq
  unfold inRSubsection at e ⊢
  dsimp only at e ⊢
  rw [hr] at e ⊢
  dsimp only at e ⊢
  cases e0 : x0 (r, ⟨d, p, fl⟩) with
  | ok b s1 =>
    rw [e0] at e
    cases e
    rw [h a s1 e0 hq]
  | throw s1 => rw [e0] at e; cases e
  | ub => rw [e0] at e; cases e

theorem beginSection_same (hj : env1.junkKey = env0.junkKey) (fresh : Nat) (key : Bytes) (na : Bool) :
    beginReadSection env1 fresh key na = beginReadSection env0 fresh key na := by
  unfold beginReadSection
  rw [begin_same hj]

theorem meta_same (e : Nat) : readArrayMetadataAndIndex env1 e false = readArrayMetadataAndIndex env0 e false := by
  unfold readArrayMetadataAndIndex
  simp only [Bool.not_false, if_true]

theorem sectionsMeta_same (e : Nat) : readSectionsMetadata env1 e false = readSectionsMetadata env0 e false := by
  unfold readSectionsMetadata
  rw [meta_same (env1 := env1) (env0 := env0)]

theorem beginArray_same (hj : env1.junkKey = env0.junkKey) (fresh : Nat) (key : Bytes) (na : Bool) :
    beginReadSectionsArray env1 fresh key na false = beginReadSectionsArray env0 fresh key na false := by
  unfold beginReadSectionsArray
  simp only [begin_same hj, sectionsMeta_same (env1 := env1) (env0 := env0)]

/-- An accepted read with one allocator is accepted, with the same result, with every allocator that grants requests of at most four times the
length of the stream. -/
def Modest {V : Type} (M : Managed V) (S : ClassSpec V) (d : Bytes) (fl : Bool) : Prop :=
  ∀ (env0 env1 : REnv), env1.junkKey = env0.junkKey → (∀ n, n ≤ 4 * d.length → env1.allocOk n = true) →
    ∀ (fresh : Bytes → Nat) (v : V), S.wf v → ∀ (rd : EReader) (p : Nat), p ≤ d.length →
      Follows (M.read env0 fresh v (rd, ⟨d, p, fl⟩)) (M.read env1 fresh v (rd, ⟨d, p, fl⟩)) fun r _ => r ≠ none

theorem baseRead_follows (hj : env1.junkKey = env0.junkKey) (hB : ∀ n, n ≤ 4 * d.length → env1.allocOk n = true) (hd : Small d)
    {t : DataType} {c : Container} {k : Bytes} (ht : t ∈ allTypes) (hk : k.length ≤ 40) (dest : c.Val t.Val) (hp : p ≤ d.length) (rd : EReader) :
    Follows (EReader.read env0 t c k dest (rd, ⟨d, p, fl⟩)) (EReader.read env1 t c k dest (rd, ⟨d, p, fl⟩)) fun r _ => r ≠ none :=
  .onR (typed_follows hj hB hd hp (allTypes_ok t ht) c k hk dest)

theorem graph_modest {α : Type} [NodeType α] {st : Stored α} (h : st.Good) (a r s : Bool) (hd : Small d) :
    Modest (graphMF st a r s) (graphSpec st a r s) d fl := by
  intro env0 env1 hj hB fresh v hv rd p hp
  refine .rtry (baseRead_rwp env0 hd h.mem (by decide) _ hp (.inr trivial) rd) (baseRead_follows hj hB hd h.mem (by decide) _ hp rd)
    (fun _ => rfl) fun x r1 p1 _ g1 _ => ?_
  refine .rtry (baseRead_rwp env0 hd h.mem (by decide) _ g1 (.inr trivial) r1) (baseRead_follows hj hB hd h.mem (by decide) _ g1 r1)
    (fun _ => rfl) fun x r1 p1 _ g1 _ => .refl

theorem idx_modest {t : DataType} (h : t ∈ allTypes) (hd : Small d) : Modest (idxMF t) (idxSpec t) d fl := by
  intro env0 env1 hj hB fresh v hv rd p hp
  exact .rtry (baseRead_rwp env0 hd h (by decide) _ hp (.inr trivial) rd) (baseRead_follows hj hB hd h (by decide) _ hp rd)
    (fun _ => rfl) fun x r1 p1 _ g1 _ => .refl

theorem varying_modest (hd : Small d) : Modest varyingMF varyingSpec d fl := by
  intro env0 env1 hj hB fresh v hv rd p hp
  obtain ⟨v1, e1, hn, -⟩ := deinitialize_ok hv
  have hw1 : varyingSpec.wf v1 := fun o ho => by rw [hn] at ho; cases ho
  show Follows (Varying.read env0 v (rd, ⟨d, p, fl⟩)) (Varying.read env1 v (rd, ⟨d, p, fl⟩)) _
  rw [Varying.read, Varying.read]
  refine .rfree (onVarying_rwp e1 hp rd) fun x r1 p1 _ g1 hx => ?_
  obtain ⟨rfl, rfl⟩ := hx
  dsimp only
  refine .rtry (baseRead_rwp env0 hd u16_mem (by decide) _ g1 (.inr trivial) r1) (baseRead_follows hj hB hd u16_mem (by decide) _ g1 r1)
    (fun _ => rfl) fun ty r2 p2 _ g2 _ => ?_
  refine .rtry (baseRead_rwp env0 hd u16_mem (by decide) _ g2 (.inr trivial) r2) (baseRead_follows hj hB hd u16_mem (by decide) _ g2 r2)
    (fun _ => rfl) fun ct r3 p3 _ g3 _ => ?_
  dsimp only
  generalize BitVec.setWidth 32 (u16Of ty) = dt
  generalize BitVec.setWidth 32 (u16Of ct) = ct
  refine .rfree (onVarying_rwp (setType_any hw1 dt ct) g3 r3) fun x r4 p4 _ g4 hx => ?_
  obtain ⟨rfl, rfl⟩ := hx
  dsimp only
  refine .ite (fun _ => .refl) fun hs => ?_
  obtain ⟨hw, hf⟩ := newType_wf dt ct
  cases ho : newType dt ct with
  | none => exact .refl
  | some o =>
    dsimp only
    obtain ⟨cl, hfind, hmem, hmade⟩ := hf o ho
    rw [hfind]
    dsimp only
    rw [if_pos hmade, if_pos hmade]
    exact .rtry (baseRead_rwp env0 hd hmem (by decide) _ g4 (.inr trivial) r4) (baseRead_follows hj hB hd hmem (by decide) _ g4 r4)
      (fun _ => rfl) fun x r1 p1 _ g1 _ => .refl

section table

variable {K V : Type} [DecidableEq K] {M : Managed V} {S : ClassSpec V}

theorem readLoop_follows (hj : env1.junkKey = env0.junkKey) (hB : ∀ n, n ≤ 4 * d.length → env1.allocOk n = true)
    (hM : Modest M S d fl) (hS : SafeReads M S d fl True) (hi : S.wf M.init) (hd : Small d) (fresh : Bytes → Nat)
    (ord : TableOrder (K × Option V)) (a : Nat) : ∀ (ks : List K) (i : Nat) (t : Table K V) (rd : EReader) (p : Nat), p ≤ d.length →
      Follows (tableReadLoop M ord env0 fresh (some a) i ks t (rd, ⟨d, p, fl⟩)) (tableReadLoop M ord env1 fresh (some a) i ks t (rd, ⟨d, p, fl⟩))
        fun r _ => r ≠ none
  | [], i, t, rd, p, hp => .refl
  | k :: ks, i, t, rd, p, hp => by
    rw [tableReadLoop, tableReadLoop]
    refine .rfree (beginInArray_rwp hd hp a i true).weaken fun x r1 p1 _ g1 hx => ?_
    obtain ⟨ok, hasData⟩ := x
    dsimp only at hx ⊢
    refine .ite (fun _ => .refl) fun hok => .ite (fun _ => .refl) fun hk => ?_
    obtain ⟨sub, hsub⟩ := hx (by simpa using hok)
    refine .ite (fun _ => ?_) fun _ => ?_
    · refine .rtry (.inSub hsub (hS env0 fresh _ hi sub p1 g1)) (.inSub hsub (hM env0 env1 hj hB fresh _ hi sub p1 g1)) (fun _ => rfl)
        fun v r2 p2 _ g2 _ => ?_
      refine .rfree (endInArray_rwp g2 _ _).weaken fun b r4 p4 _ g4 _ => ?_
      refine .ite (fun _ => .refl) fun _ => ?_
      exact readLoop_follows hj hB hM hS hi hd fresh ord a ks (i + 1) _ _ _ g4
    · refine .rfree (endInArray_rwp g1 _ _).weaken fun b r4 p4 _ g4 _ => ?_
      refine .ite (fun _ => .refl) fun _ => ?_
      exact readLoop_follows hj hB hM hS hi hd fresh ord a ks (i + 1) _ _ _ g4

theorem readLoop_any (hS : SafeReads M S d fl True) (hi : S.wf M.init) (hd : Small d) (env : REnv) (fresh : Bytes → Nat)
    (ord : TableOrder (K × Option V)) (a : Nat) (ks : List K) (rd : EReader) (hp : p ≤ d.length) :
      RWp d fl p (tableReadLoop M ord env fresh (some a) 0 ks [] (rd, ⟨d, p, fl⟩)) (fun r _ _ => ∀ t', r = some t' → TableWf S t') True :=
  readLoop_safe hS hi hd env fresh ord a ks 0 [] ⟨List.nodup_nil, fun _ _ h => absurd h List.not_mem_nil⟩ rd p hp

theorem table_modest {st : Stored K} (h : st.Good) (hM : Modest M S d fl) (hS : SafeReads M S d fl True) (hi : S.wf M.init)
    (zk ne : Bool) (ord : TableOrder (K × Option V)) (hd : Small d) :
    Modest (tableMF st M zk ne ord) (tableSpec st S zk ne) d fl := by
  intro env0 env1 hj hB fresh v hv rd p hp
  refine .rtry (baseRead_rwp env0 hd h.mem (by decide) _ hp (.inr trivial) rd) (baseRead_follows hj hB hd h.mem (by decide) _ hp rd)
    (fun _ => rfl) fun keys r1 p1 _ g1 _ => ?_
  dsimp only
  rw [beginArray_same hj]
  refine .rfree (beginArray_rwp env0 hd g1 _ _ (by decide) false).weaken fun x r2 p2 _ g2 hx => ?_
  obtain ⟨ptr, count, b, idx⟩ := x
  cases b with
  | false => exact .refl
  | true =>
    obtain ⟨rfl, -⟩ := hx rfl
    dsimp only
    refine .ite (fun _ => .refl) fun _ => ?_
    exact .rtry (readLoop_any hS hi hd env0 fresh ord _ _ r2 g2) (readLoop_follows hj hB hM hS hi hd fresh ord _ _ 0 [] r2 p2 g2)
      (fun _ => rfl) fun t r3 p3 _ g3 _ => .refl

end table

mutual
  theorem OnlyReads.modest {H : DataType → Container → Bytes → Prop} (hd : Small d) :
      ∀ {V : Type} {M : Managed V} {S : ClassSpec V}, OnlyReads H M S → Modest M S d fl
    | _, _, _, @OnlyReads.graph _ _ _ st h h1 h2 a r s => graph_modest h a r s hd
    | _, _, _, .idx t h h1 => idx_modest h hd
    | _, _, _, .varying h => varying_modest hd
    | _, _, _, @OnlyReads.table _ _ _ _ st h h1 _ _ hM zk ne ord =>
      table_modest h (hM.modest hd) (hM.safe hd fun _ _ _ _ _ _ => .inr trivial) hM.init_wf zk ne ord hd
    | _, _, _, .entity ss h => fun env0 env1 hj hB fresh v hv rd p hp => h.modest hd env0 env1 hj hB fresh v hv rd p hp
  theorem FieldsOnlyRead.modest {H : DataType → Container → Bytes → Prop} (hd : Small d) :
      ∀ {fs : List Field} {ss : FieldSpecs fs}, FieldsOnlyRead H ss → ∀ (env0 env1 : REnv), env1.junkKey = env0.junkKey →
        (∀ n, n ≤ 4 * d.length → env1.allocOk n = true) → ∀ (fresh : Bytes → Nat) (v : FieldsVal fs), ss.wf v → ∀ (rd : EReader) (p : Nat), p ≤ d.length →
          Follows (fieldsRead env0 fresh fs v (rd, ⟨d, p, fl⟩)) (fieldsRead env1 fresh fs v (rd, ⟨d, p, fl⟩)) fun r _ => r ≠ none
    | _, _, .nil, env0, env1, hj, hB, fresh, v, hv, rd, p, hp => .refl
    | _, _, @FieldsOnlyRead.base _ k t c fs rest hk ht h1 h, env0, env1, hj, hB, fresh, v, hv, rd, p, hp => by
      rw [fieldsRead, fieldsRead]
      refine .rtry (baseRead_rwp env0 hd ht hk _ hp (.inr trivial) rd) (baseRead_follows hj hB hd ht hk _ hp rd)
        (fun _ => rfl) fun x r1 p1 _ g1 _ => ?_
      exact .rtry (fields_safe (U := True) hd (fun _ _ _ _ _ _ => .inr trivial) (h.safe hd fun _ _ _ _ _ _ => .inr trivial) env0 fresh v.2 hv r1 p1 g1)
        (h.modest hd env0 env1 hj hB fresh v.2 hv r1 p1 g1) (fun _ => rfl) fun y r2 p2 _ g2 _ => .refl
    | _, _, @FieldsOnlyRead.sub _ k V M S fs rest hk hM h, env0, env1, hj, hB, fresh, v, hv, rd, p, hp => by
      rw [fieldsRead, fieldsRead, beginSection_same hj]
      refine .rfree (beginSection_rwp env0 hd hp _ k hk).weaken fun x r1 p1 _ g1 hx => ?_
      obtain ⟨ptr, b⟩ := x
      cases b with
      | false => cases ptr <;> exact .refl
      | true =>
        obtain ⟨rfl, sub, hsub⟩ := hx rfl
        dsimp only
        refine .rtry (.inSub hsub (hM.safe hd (fun _ _ _ _ _ _ => .inr trivial) env0 fresh _ hv.1 sub p1 g1))
          (.inSub hsub (hM.modest hd env0 env1 hj hB fresh _ hv.1 sub p1 g1)) (fun _ => rfl) fun x r2 p2 _ g2 _ => ?_
        refine .rfree (endSection_rwp g2 _).weaken fun b r4 p4 _ g4 _ => ?_
        exact .rtry (fields_safe (U := True) hd (fun _ _ _ _ _ _ => .inr trivial) (h.safe hd fun _ _ _ _ _ _ => .inr trivial) env0 fresh v.2 hv.2 r4 p4 g4)
          (h.modest hd env0 env1 hj hB fresh v.2 hv.2 r4 p4 g4) (fun _ => rfl) fun y r2 p2 _ g2 _ => .refl
end

end objects

end ISD
