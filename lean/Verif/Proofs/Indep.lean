import Verif.Proofs.HostileEntity

/-! # Reads with different contents of the uninitialised key buffer -/

namespace ISD
open RStream

attribute [local irreducible] dynTable DynClass.all findTypeClass

set_option linter.unusedVariables false

/-- A stream on memory of realistic size, with the cursor inside. -/
def Sane (s : RStream) : Prop := s.pos ≤ s.data.length ∧ s.data.length < 2 ^ 60

/-- The states a run can end in. -/
def EndsIn {σ α : Type} (Q : σ → Prop) : Res σ α → Prop
  | .ok _ s => Q s
  | .throw s => Q s
  | .ub => True

/-- The cursor only moves forward, inside the same memory. -/
def Onward (s s' : RStream) : Prop := s'.data = s.data ∧ s.pos ≤ s'.pos ∧ s'.pos ≤ s'.data.length

theorem Onward.trans {a b c : RStream} (h : Onward a b) (h' : Onward b c) : Onward a c :=
  ⟨h'.1.trans h.1, Nat.le_trans h.2.1 h'.2.1, h'.2.2⟩

theorem Onward.sane {a b : RStream} (h : Onward a b) (ha : Sane a) : Sane b := ⟨h.2.2, by rw [h.1]; exact ha.2⟩

theorem Sane.onward {a : RStream} (ha : Sane a) : Onward a a := ⟨rfl, Nat.le_refl _, ha.1⟩

/-- The end of the stream. -/
def AtEnd (s : RStream) : Prop := s.pos = s.data.length

theorem Onward.atEnd {a b : RStream} (h : Onward a b) (ha : AtEnd a) : AtEnd b := by
  obtain ⟨e, h1, h2⟩ := h
  unfold AtEnd at *
  rw [e] at h2 ⊢
  omega

/-- A routine that only moves the cursor forward. -/
def Mono {σ α : Type} (π : σ → RStream) (x : Prog σ α) : Prop := ∀ s, Sane (π s) → EndsIn (fun s' => Onward (π s) (π s')) (x s)

/-- The run did not end with an accepted result. -/
def Rejects {σ α : Type} (acc : α → σ → Prop) (r : Res σ α) : Prop := ∀ a s, r = .ok a s → ¬ acc a s

/-- Two routines that do the same, except that at the end of the stream one of them (both, if `B`) may refuse. -/
structure Indep {σ α : Type} (π : σ → RStream) (B : Prop) (acc : α → σ → Prop) (x0 x1 : Prog σ α) : Prop where
  m0 : Mono π x0
  m1 : Mono π x1
  run : ∀ s, Sane (π s) → x0 s = x1 s ∨
    (EndsIn (fun s' => AtEnd (π s')) (x0 s) ∧ EndsIn (fun s' => AtEnd (π s')) (x1 s) ∧
      (Rejects acc (x0 s) ∨ Rejects acc (x1 s)) ∧ (B → Rejects acc (x0 s) ∧ Rejects acc (x1 s)))

section combinators

variable {σ α β : Type} {π : σ → RStream} {B : Prop} {acc : α → σ → Prop} {accB : β → σ → Prop}

theorem Mono.pure (a : α) : Mono π (pure a : Prog σ α) := fun s hs => hs.onward

theorem Mono.throw : Mono π (Prog.throw : Prog σ α) := fun s hs => hs.onward

theorem Mono.ub : Mono π (Prog.ub : Prog σ α) := fun s hs => trivial

theorem Mono.getOnly : Mono π (Prog.get : Prog σ σ) := fun s hs => hs.onward

theorem Mono.bind {x : Prog σ α} {f : α → Prog σ β} (hx : Mono π x) (hf : ∀ a, Mono π (f a)) : Mono π (x >>= f) := by
  intro s hs
  have h1 := hx s hs
  rw [Prog.bind_apply]
  cases e : x s with
  | ok a s1 =>
    rw [e] at h1
    dsimp only
    have h2 := hf a s1 (h1.sane hs)
    cases e2 : f a s1 with
    | ok b s2 => rw [e2] at h2; exact h1.trans h2
    | throw s2 => rw [e2] at h2; exact h1.trans h2
    | ub => trivial
  | throw s1 => rw [e] at h1; exact h1
  | ub => trivial

theorem Mono.get {f : σ → Prog σ β} (hf : ∀ s, Mono π (f s)) : Mono π (Prog.get >>= f) := .bind .getOnly hf

theorem Mono.ite {c : Prop} [Decidable c] {x y : Prog σ α} (h1 : c → Mono π x) (h2 : ¬ c → Mono π y) : Mono π (if c then x else y) := by
  by_cases h : c
  · rw [if_pos h]; exact h1 h
  · rw [if_neg h]; exact h2 h

/-- A step that leaves the stream alone. -/
theorem Mono.modify {f : σ → σ} (h : ∀ s, π (f s) = π s) : Mono π (Prog.modify f) := by
  intro s hs
  show Onward _ (π (f s))
  rw [h]
  exact hs.onward

theorem Indep.same {x : Prog σ α} (h : Mono π x) : Indep π B acc x x := ⟨h, h, fun _ _ => .inl rfl⟩

theorem Indep.bind {x0 x1 : Prog σ α} {f0 f1 : α → Prog σ β} (hx : Indep π B acc x0 x1) (hf : ∀ a, Indep π B accB (f0 a) (f1 a))
    (hr : ∀ a s, Sane (π s) → ¬ acc a s → Rejects accB (f0 a s) ∧ Rejects accB (f1 a s)) : Indep π B accB (x0 >>= f0) (x1 >>= f1) := by
  refine ⟨hx.m0.bind fun a => (hf a).m0, hx.m1.bind fun a => (hf a).m1, fun s hs => ?_⟩
  have g0 := hx.m0 s hs
  have g1 := hx.m1 s hs
  have ends : ∀ {x : Prog σ α} {f : α → Prog σ β}, EndsIn (fun s' => Onward (π s) (π s')) (x s) → EndsIn (fun s' => AtEnd (π s')) (x s) →
      (∀ a, Mono π (f a)) → EndsIn (fun s' => AtEnd (π s')) ((x >>= f) s) := by
    intro x f h1 h2 hf
    rw [Prog.bind_apply]
    cases e : x s with
    | ok a s1 =>
      rw [e] at h1 h2
      dsimp only
      have h3 := hf a s1 (Onward.sane h1 hs)
      cases e2 : f a s1 with
      | ok b s2 => rw [e2] at h3; exact Onward.atEnd h3 h2
      | throw s2 => rw [e2] at h3; exact Onward.atEnd h3 h2
      | ub => trivial
    | throw s1 => rw [e] at h2; exact h2
    | ub => trivial
  have rej : ∀ {x : Prog σ α} {f : α → Prog σ β}, EndsIn (fun s' => Onward (π s) (π s')) (x s) →
      (∀ a s, Sane (π s) → ¬ acc a s → Rejects accB (f a s)) → Rejects acc (x s) → Rejects accB ((x >>= f) s) := by
    intro x f g h h1 b s2 e
    obtain ⟨a, s1, e1, e2⟩ := Prog.bind_eq_ok e
    rw [e1] at g
    exact h a s1 (Onward.sane g hs) (h1 a s1 e1) b s2 e2
  obtain h | ⟨h0, h1, h2, h3⟩ := hx.run s hs
  · rw [Prog.bind_apply, Prog.bind_apply, ← h]
    cases e : x0 s with
    | ok a s1 =>
      rw [e] at g0
      dsimp only
      exact (hf a).run s1 (Onward.sane g0 hs)
    | throw s1 => exact .inl rfl
    | ub => exact .inl rfl
  · refine .inr ⟨ends g0 h0 fun a => (hf a).m0, ends g1 h1 fun a => (hf a).m1, ?_, fun b => ?_⟩
    · exact h2.imp (rej g0 fun a s hs ha => (hr a s hs ha).1) (rej g1 fun a s hs ha => (hr a s hs ha).2)
    · exact ⟨rej g0 (fun a s hs ha => (hr a s hs ha).1) (h3 b).1, rej g1 (fun a s hs ha => (hr a s hs ha).2) (h3 b).2⟩

/-- A step that is the same in both. -/
theorem Indep.free {x : Prog σ α} {f0 f1 : α → Prog σ β} (hx : Mono π x) (hf : ∀ a, Indep π B accB (f0 a) (f1 a)) :
    Indep π B accB (x >>= f0) (x >>= f1) :=
  .bind (acc := fun _ _ => True) (.same hx) hf fun a _ _ ha => absurd trivial ha

theorem Indep.get {f0 f1 : σ → Prog σ β} (hf : ∀ s, Indep π B accB (f0 s) (f1 s)) : Indep π B accB (Prog.get >>= f0) (Prog.get >>= f1) :=
  .free .getOnly hf

theorem Indep.ite {c : Prop} [Decidable c] {x0 y0 x1 y1 : Prog σ α} (h1 : c → Indep π B acc x0 x1) (h2 : ¬ c → Indep π B acc y0 y1) :
    Indep π B acc (if c then x0 else y0) (if c then x1 else y1) := by
  by_cases h : c
  · rw [if_pos h, if_pos h]; exact h1 h
  · rw [if_neg h, if_neg h]; exact h2 h

theorem Indep.pure (a : α) : Indep π B acc (pure a : Prog σ α) (pure a) := .same (.pure a)

theorem Rejects.pure {a : α} {s : σ} (h : ¬ acc a s) : Rejects acc ((Pure.pure a : Prog σ α) s) := by
  rintro b s1 e
  cases e
  exact h

end combinators

section primitives

variable {B : Prop}

theorem readRaw_mono (count cap : Nat) : Mono id (readRaw count cap) := by
  rintro s ⟨hs, hl⟩
  have hz : s.size = s.data.length := rfl
  rw [readRaw, Prog.bind_ok (Prog.get_apply _)]
  dsimp only [id] at hs hl
  generalize hw : wrap64 (s.pos + count) = w
  by_cases h : w > s.size
  · simp only [if_pos h]
    by_cases hc : cap < sub64 s.size s.pos ∨ s.size < s.pos + sub64 s.size s.pos
    · rw [if_pos hc]; trivial
    · rw [if_neg hc]; exact ⟨rfl, hs, Nat.le_refl _⟩
  · simp only [if_neg h]
    by_cases hc : cap < count ∨ s.size < s.pos + count
    · rw [if_pos hc]; trivial
    · rw [if_neg hc]
      have : s.pos + count ≤ s.data.length := by omega
      rw [wrap64, Nat.mod_eq_of_lt (by omega)] at hw
      subst hw
      exact ⟨rfl, Nat.le_add_right _ _, this⟩

theorem readWords_mono {k : Nat} (count : Nat) (dest : List (Word k)) : Mono id (readWords count dest) :=
  .get fun s => .bind (readRaw_mono _ _) fun bs => .ite (fun _ => .ite (fun _ => .ub) fun _ => .pure _) fun _ => .pure _

theorem readByteWords_mono (count : Nat) (dest : List (Word 1)) : Mono id (readByteWords count dest) :=
  .bind (readRaw_mono _ _) fun bs => .pure _

theorem readUUIDs_mono : ∀ (i count : Nat) (dest : List UUID), Mono id (readUUIDs i count dest)
  | i, 0, dest => .pure _
  | i, count + 1, dest => .bind (readRaw_mono _ _) fun bs => .ite (fun _ => .pure _) fun _ => .ite (fun _ => .ub) fun _ => readUUIDs_mono _ _ _

theorem readHashes_mono (count : Nat) (dest : List Hash) : Mono id (readHashes count dest) := .bind (readRaw_mono _ _) fun bs => .pure _

theorem readItems_mono : ∀ (sc : Sc) (count : Nat) (dest : List sc.Val), Mono id (readItems sc count dest)
  | .w1, count, dest => readByteWords_mono _ _
  | .w2, count, dest => readWords_mono _ _
  | .w4, count, dest => readWords_mono _ _
  | .w8, count, dest => readWords_mono _ _
  | .uuid, count, dest => readUUIDs_mono _ _ _
  | .hash, count, dest => readHashes_mono _ _

theorem readOne_mono (sc : Sc) : Mono id (readOne sc) := .bind (readItems_mono _ _ _) fun _ => .pure _

theorem readU8_mono : Mono id readU8 := .bind (readOne_mono _) fun _ => .pure _
theorem readU16_mono : Mono id readU16 := .bind (readOne_mono _) fun _ => .pure _
theorem readU64_mono : Mono id readU64 := .bind (readOne_mono _) fun _ => .pure _

theorem resizeTo_mono (env : REnv) (n e : Nat) : Mono id (resizeTo env n e) := .ite (fun _ => .throw) fun _ => .pure _
theorem resizeBool_mono (env : REnv) (n : Nat) : Mono id (resizeBool env n) := .ite (fun _ => .throw) fun _ => .pure _

theorem readKey_mono (env : REnv) (n : Nat) : Mono id (readKey env n) := .bind (readRaw_mono _ _) fun _ => .pure _

theorem endLarge_mono (e : Nat) : Mono id (endReadLargeBlock e) := .get fun _ => .pure _

theorem endEmpty_mono {α : Type} (a : Bool) (e : Nat) : Mono id (endReadEmptyLargeBlock (α := α) a e) :=
  .ite (fun _ => .bind (endLarge_mono e) fun b => .ite (fun _ => .pure _) fun _ => .pure _) fun _ => .pure _

theorem unpackLoop_mono (packed : Bytes) : ∀ (i count : Nat), Mono id (unpackLoop packed i count)
  | _, 0 => .pure _
  | i, count + 1 => by
    rw [unpackLoop]
    exact .ite (fun _ => .ub) fun _ => .bind (unpackLoop_mono packed _ _) fun _ => .pure _

theorem meta_mono (env : REnv) (e : Nat) (wi : Bool) : Mono id (readArrayMetadataAndIndex env e wi) := by
  rw [readArrayMetadataAndIndex]
  refine .get fun s => .bind readU16_mono fun flags => .ite (fun _ => .pure _) fun _ => .bind readU64_mono fun cnt => ?_
  refine .ite (fun _ => .ite (fun _ => .pure _) fun _ => ?_) fun _ => .ite (fun _ => .pure _) fun _ => .get fun _ => .ite (fun _ => .pure _) fun _ => .pure _
  refine .bind readU64_mono fun ic => .get fun _ => .ite (fun _ => .pure _) fun _ => .bind (resizeTo_mono _ _ _) fun _ => ?_
  exact .bind (readItems_mono _ _ _) fun _ => .get fun _ => .ite (fun _ => .pure _) fun _ => .pure _


/-- What an accepted start of a block looks like; at the end of the stream it counts only if `B` does not hold. -/
def BlockStart (B : Prop) (e : Nat) (s : RStream) : Prop := e ≠ 0 ∧ (B → ¬ AtEnd s)

variable {env0 env1 : REnv}

theorem raw_short (n cap : Nat) (s : RStream) (hs : Sane s) (bs : Bytes) (s' : RStream) (hn : n < 2 ^ 63) (h : readRaw n cap s = .ok bs s') :
    bs.length = n ∨ AtEnd s' := by
  have hz : s.size = s.data.length := rfl
  obtain ⟨hs, hl⟩ := hs
  have hn' : n < 2 ^ 63 := hn
  rw [readRaw, Prog.bind_ok (Prog.get_apply _)] at h
  have hw : wrap64 (s.pos + n) = s.pos + n := Nat.mod_eq_of_lt (by omega)
  rw [hw] at h
  by_cases hc : s.pos + n > s.size
  · simp only [if_pos hc] at h
    split at h
    · cases h
    · cases h; exact .inr rfl
  · simp only [if_neg hc] at h
    split at h
    · cases h
    · cases h
      left
      rw [List.length_take, List.length_drop]
      omega

theorem begin_indep (vt : Nat) (key : Bytes) (hk : key.length < 2 ^ 63) :
    Indep id B (BlockStart B) (beginReadLargeBlock env0 vt key) (beginReadLargeBlock env1 vt key) := by
  rw [beginReadLargeBlock, beginReadLargeBlock]
  refine .free readU8_mono fun _ => .ite (fun _ => .pure _) fun _ => .free readU64_mono fun _ => .get fun _ => ?_
  refine .ite (fun _ => .pure _) fun _ => .free readU8_mono fun _ => .ite (fun _ => .pure _) fun _ => ?_
  generalize wrap64 _ = e
  refine ⟨.bind (readKey_mono _ _) fun _ => .ite (fun _ => .pure _) fun _ => .pure _,
    .bind (readKey_mono _ _) fun _ => .ite (fun _ => .pure _) fun _ => .pure _, fun s hs => ?_⟩
  have hx := readRaw_mono key.length 40 s hs
  rw [readKey, readKey, Prog.bind_apply, Prog.bind_apply, Prog.bind_apply, Prog.bind_apply]
  cases h : readRaw key.length 40 s with
  | throw _ => exact .inl rfl
  | ub => exact .inl rfl
  | ok bs s' =>
    dsimp only
    obtain hl | hl := raw_short key.length 40 s hs bs s' hk h
    · left
      rw [Prog.pure_apply, Prog.pure_apply]
      dsimp only
      rw [← hl, List.take_left, List.take_left]
    · rw [Prog.pure_apply, Prog.pure_apply]
      dsimp only
      have he : ∀ (c : Prop) [Decidable c] (e : Nat), ((if c then pure 0 else pure e : Prog RStream Nat) s') = .ok (if c then 0 else e) s' := by
        intro c _ e
        split <;> rfl
      rw [he, he]
      generalize hc0 : (if key ≠ List.take key.length (bs ++ List.drop bs.length env0.junkKey.toList) then 0 else e) = a0
      generalize hc1 : (if key ≠ List.take key.length (bs ++ List.drop bs.length env1.junkKey.toList) then 0 else e) = a1
      by_cases h01 : a0 = a1
      · left; rw [h01]
      · refine .inr ⟨hl, hl, ?_, fun hB => ⟨?_, ?_⟩⟩
        · have h0 : a0 = 0 ∨ a0 = e := by rw [← hc0]; split <;> simp
          have h1 : a1 = 0 ∨ a1 = e := by rw [← hc1]; split <;> simp
          obtain rfl | rfl := h0
          · left; rintro a s1 e1 ⟨h, -⟩; cases e1; exact h rfl
          · obtain rfl | rfl := h1
            · right; rintro a s1 e1 ⟨h, -⟩; cases e1; exact h rfl
            · exact absurd rfl h01
        · rintro a s1 e1 ⟨-, h⟩; cases e1; exact h hB hl
        · rintro a s1 e1 ⟨-, h⟩; cases e1; exact h hB hl


theorem key_checked {α : Type} (key : Bytes) (x y : Prog RStream α) :
    (readKey env0 key.length >>= fun r => if r.1 ≠ key.length ∨ key ≠ r.2.take key.length then x else y) =
    (readKey env1 key.length >>= fun r => if r.1 ≠ key.length ∨ key ≠ r.2.take key.length then x else y) := by
  funext s
  rw [readKey, readKey, Prog.bind_apply, Prog.bind_apply, Prog.bind_apply, Prog.bind_apply]
  cases h : readRaw key.length 40 s with
  | throw _ => rfl
  | ub => rfl
  | ok bs s' =>
    dsimp only
    rw [Prog.pure_apply, Prog.pure_apply]
    dsimp only
    by_cases hl : bs.length = key.length
    · rw [← hl, List.take_left, List.take_left]
    · rw [if_pos (.inl hl), if_pos (.inl hl)]

theorem Indep.checkedKey {α : Type} {acc : α → RStream → Prop} (key : Bytes) {x y : Prog RStream α} (hx : Mono id x) (hy : Mono id y) :
    Indep id B acc (readKey env0 key.length >>= fun r => if r.1 ≠ key.length ∨ key ≠ r.2.take key.length then x else y)
      (readKey env1 key.length >>= fun r => if r.1 ≠ key.length ∨ key ≠ r.2.take key.length then x else y) := by
  rw [key_checked (env0 := env0) (env1 := env1)]
  exact .same (.bind (readKey_mono _ _) fun _ => .ite (fun _ => hx) fun _ => hy)

theorem singleItems_indep (vt : Nat) (sc : Sc) (n : Nat) (key : Bytes) (ea : Bool) :
    Indep id B (fun r _ => r ≠ .fail) (readSingleItems env0 vt sc n key ea) (readSingleItems env1 vt sc n key ea) := by
  rw [readSingleItems, readSingleItems]
  refine .get fun _ => .free readU8_mono fun _ => .ite (fun _ => .pure _) fun _ => .free readU8_mono fun _ => ?_
  refine .ite (fun _ => .ite (fun _ => .pure _) fun _ => .ite (fun _ => .pure _) fun _ => ?_) fun _ => ?_
  · exact .checkedKey key (.pure _) (.get fun _ => .ite (fun _ => .pure _) fun _ => .pure _)
  · refine .free (readItems_mono _ _ _) fun r => .ite (fun _ => .pure _) fun _ => ?_
    exact .checkedKey key (.pure _) (.get fun _ => .ite (fun _ => .pure _) fun _ => .pure _)

theorem singleBool_indep (key : Bytes) (ea : Bool) :
    Indep id B (fun r _ => r ≠ .fail) (readSingleBool env0 key ea) (readSingleBool env1 key ea) := by
  rw [readSingleBool, readSingleBool]
  refine .bind (singleItems_indep _ _ _ _ _) (fun r => ?_) fun r s _ h => ?_
  · cases r <;> exact .pure _
  · have : r = .fail := Classical.not_not.mp h
    subst this
    exact ⟨.pure fun h => h rfl, .pure fun h => h rfl⟩

/-- At the end of the stream nothing but an empty block can be accepted. -/
theorem endEmpty_end {α : Type} (ea : Bool) (hea : ea = false) (e : Nat) (s : RStream) :
    Rejects (fun (r : RStatus α) _ => r ≠ .fail) (endReadEmptyLargeBlock ea e s) := by
  subst hea
  exact .pure fun h => h rfl

theorem string_end (env : REnv) (e : Nat) (s : RStream) (hs : Sane s) (he : AtEnd s) (hne : s.pos ≠ e) :
    Rejects (fun (r : RStatus Bytes) _ => r ≠ .fail) ((do
      let stringSize ← readU64
      let s1 ← Prog.get
      if stringSize > sub64 e s1.pos then return .fail
      resizeTo env stringSize 1
      let bs ← readRaw stringSize stringSize
      if stringSize > 0 ∧ bs.length ≠ stringSize then return .fail
      if !(← endReadLargeBlock e) then return .fail
      return .success bs : Prog RStream (RStatus Bytes)) s) := by
  obtain ⟨d, p, fl⟩ := s
  have hp : p = d.length := he
  subst hp
  rw [Prog.bind_ok (u64_eof fl hs.2), Prog.bind_ok (Prog.get_apply _), if_neg (by omega)]
  intro a s' h
  obtain ⟨_, s1, h1, h2⟩ := Prog.bind_eq_ok h
  rw [resizeTo] at h1
  split at h1
  · cases h1
  · cases h1
    obtain ⟨bs, s2, h3, h4⟩ := Prog.bind_eq_ok h2
    rw [raw_eof fl hs.2 0 0 (by decide)] at h3
    cases h3
    rw [if_neg (by simp)] at h4
    rw [endReadLargeBlock, Prog.bind_apply, Prog.bind_ok (Prog.get_apply _), Prog.pure_apply] at h4
    dsimp only at h4
    rw [beq_false_of_ne hne] at h4
    cases h4
    exact fun h => h rfl

theorem singleString_indep (hal : env1.allocOk = env0.allocOk) (key : Bytes) (hk : key.length < 2 ^ 63) (ea : Bool) (hB : B → ea = false) :
    Indep id B (fun r _ => r ≠ .fail) (readSingleString env0 key ea) (readSingleString env1 key ea) := by
  rw [readSingleString, readSingleString]
  refine .bind (begin_indep _ key hk) (fun e => ?_) fun e s hs h => ?_
  · refine .ite (fun _ => .pure _) fun _ => .get fun _ => .ite (fun _ => .ite (fun _ => ?_) fun _ => .pure _) fun _ => ?_
    · exact .same (.bind (endLarge_mono _) fun _ => .ite (fun _ => .pure _) fun _ => .pure _)
    · refine .free readU64_mono fun _ => .get fun _ => .ite (fun _ => .pure _) fun _ => ?_
      have : ∀ n, resizeTo env1 n 1 = resizeTo env0 n 1 := fun n => by rw [resizeTo, resizeTo, hal]
      rw [this]
      exact .same (.bind (resizeTo_mono _ _ _) fun _ => .bind (readRaw_mono _ _) fun _ => .ite (fun _ => .pure _) fun _ =>
        .bind (endLarge_mono _) fun _ => .ite (fun _ => .pure _) fun _ => .pure _)
  · by_cases h0 : e = 0
    · subst h0
      exact ⟨.pure fun h => h rfl, .pure fun h => h rfl⟩
    · have h1 : B ∧ AtEnd s := Classical.byContradiction fun h' => h ⟨h0, fun b he => h' ⟨b, he⟩⟩
      have hea := hB h1.1
      subst hea
      constructor
      all_goals
        rw [if_neg h0, Prog.bind_ok (Prog.get_apply _)]
        by_cases hp : s.pos = e
        · rw [if_pos hp]
          exact .pure fun h => h rfl
        · rw [if_neg hp]
          exact string_end _ e s hs h1.2 hp

theorem meta_end (env : REnv) (e : Nat) (wi : Bool) (s : RStream) (hs : Sane s) (he : AtEnd s) :
    readArrayMetadataAndIndex env e wi s = .ok none s := by
  obtain ⟨d, p, fl⟩ := s
  have hp : p = d.length := he
  subst hp
  have hd : d.length < 2 ^ 60 := hs.2
  rw [readArrayMetadataAndIndex, Prog.bind_ok (Prog.get_apply _), Prog.bind_ok (u16_eof fl hs.2), if_neg (by decide),
    Prog.bind_ok (u64_eof fl hs.2), if_neg (by decide)]
  cases wi with
  | true => rfl
  | false =>
    rw [if_neg (by decide), Prog.bind_ok (Prog.get_apply _), if_pos]
    · rfl
    · rw [wrap64, Nat.mod_eq_of_lt (by dsimp only; omega)]
      dsimp only
      omega

theorem resize_same (hal : env1.allocOk = env0.allocOk) : resizeTo env1 = resizeTo env0 := by
  funext n e
  rw [resizeTo, resizeTo, hal]

theorem resizeB_same (hal : env1.allocOk = env0.allocOk) : resizeBool env1 = resizeBool env0 := by
  funext n
  rw [resizeBool, resizeBool, hal]

theorem metadata_same (hal : env1.allocOk = env0.allocOk) : readArrayMetadataAndIndex env1 = readArrayMetadataAndIndex env0 := by
  funext e wi
  rw [readArrayMetadataAndIndex, readArrayMetadataAndIndex, resize_same hal]

theorem array_block_indep {α : Type} (hal : env1.allocOk = env0.allocOk) (vt : Nat) (key : Bytes) (hk : key.length < 2 ^ 63) (ea wi : Bool)
    (hB : B → ea = false) {f : Nat → Option (Nat × Nat × List (Word 4)) → Prog RStream (RStatus α)} (hf : ∀ e r, Mono id (f e r))
    (hn : ∀ e, f e none = pure .fail) :
    Indep id B (fun r _ => r ≠ .fail)
      (beginReadLargeBlock env0 vt key >>= fun e => if e = 0 then pure .fail else Prog.get >>= fun s =>
        if e = s.pos then endReadEmptyLargeBlock ea e else readArrayMetadataAndIndex env0 e wi >>= f e)
      (beginReadLargeBlock env1 vt key >>= fun e => if e = 0 then pure .fail else Prog.get >>= fun s =>
        if e = s.pos then endReadEmptyLargeBlock ea e else readArrayMetadataAndIndex env1 e wi >>= f e) := by
  rw [metadata_same hal]
  refine .bind (begin_indep _ key hk) (fun e => ?_) fun e s hs h => ?_
  · exact .ite (fun _ => .pure _) fun _ => .get fun _ => .ite (fun _ => .same (endEmpty_mono _ _)) fun _ => .same (.bind (meta_mono _ _ _) (hf e))
  · refine (fun h => ⟨h, h⟩) ?_
    by_cases h0 : e = 0
    · subst h0
      exact .pure fun h => h rfl
    · have h1 : B ∧ AtEnd s := Classical.byContradiction fun h' => h ⟨h0, fun b he => h' ⟨b, he⟩⟩
      rw [if_neg h0, Prog.bind_ok (Prog.get_apply _)]
      by_cases hp : e = s.pos
      · rw [if_pos hp]
        exact endEmpty_end ea (hB h1.1) e s
      · rw [if_neg hp, Prog.bind_ok (meta_end env0 e wi s hs h1.2), hn]
        exact .pure fun h => h rfl

theorem arrayItems_indep (hal : env1.allocOk = env0.allocOk) (vt : Nat) (sc : Sc) (n : Nat) (key : Bytes) (hk : key.length < 2 ^ 63) (ea wi : Bool)
    (hB : B → ea = false) : Indep id B (fun r _ => r ≠ .fail) (readArrayItems env0 vt sc n key ea wi) (readArrayItems env1 vt sc n key ea wi) := by
  rw [readArrayItems, readArrayItems, resize_same hal]
  refine array_block_indep hal vt key hk ea wi hB (fun e r => ?_) fun e => rfl
  rcases r with _ | ⟨a, b, c⟩
  · exact .pure _
  · exact .ite (fun _ => .pure _) fun _ => .get fun _ => .ite (fun _ => .pure _) fun _ => .bind (resizeTo_mono _ _ _) fun _ =>
      .bind (readItems_mono _ _ _) fun _ => .ite (fun _ => .pure _) fun _ => .bind (endLarge_mono _) fun _ => .ite (fun _ => .pure _) fun _ => .pure _

theorem arrayBool_indep (hal : env1.allocOk = env0.allocOk) (key : Bytes) (hk : key.length < 2 ^ 63) (ea wi : Bool)
    (hB : B → ea = false) : Indep id B (fun r _ => r ≠ .fail) (readArrayBool env0 key ea wi) (readArrayBool env1 key ea wi) := by
  rw [readArrayBool, readArrayBool, resize_same hal, resizeB_same hal]
  refine array_block_indep hal _ key hk ea wi hB (fun e r => ?_) fun e => rfl
  rcases r with _ | ⟨a, b, c⟩
  · exact .pure _
  · exact .get fun _ => .ite (fun _ => .pure _) fun _ => .bind (resizeBool_mono _ _) fun _ => .bind (resizeTo_mono _ _ _) fun _ =>
      .bind (readRaw_mono _ _) fun _ => .bind (unpackLoop_mono _ _ _) fun _ => .bind (endLarge_mono _) fun _ => .ite (fun _ => .pure _) fun _ => .pure _

theorem strings_mono (env : REnv) (e : Nat) : ∀ n, Mono id (readStrings env e n)
  | 0 => .pure _
  | n + 1 => by
    rw [readStrings]
    refine .bind readU64_mono fun _ => .get fun _ => .ite (fun _ => .pure _) fun _ => .bind (resizeTo_mono _ _ _) fun _ => .bind (readRaw_mono _ _) fun _ =>
      .ite (fun _ => .pure _) fun _ => .bind (strings_mono env e n) fun r => ?_
    cases r <;> exact .pure _

theorem strings_same (hal : env1.allocOk = env0.allocOk) (e : Nat) : ∀ n, readStrings env1 e n = readStrings env0 e n
  | 0 => rfl
  | n + 1 => by rw [readStrings, readStrings, strings_same hal e n, resize_same hal]

theorem arrayString_indep (hal : env1.allocOk = env0.allocOk) (key : Bytes) (hk : key.length < 2 ^ 63) (ea wi : Bool)
    (hB : B → ea = false) : Indep id B (fun r _ => r ≠ .fail) (readArrayString env0 key ea wi) (readArrayString env1 key ea wi) := by
  have h : ∀ e, readStrings env1 e = readStrings env0 e := fun e => funext (strings_same hal e)
  rw [readArrayString, readArrayString, resize_same hal]
  simp only [h]
  refine array_block_indep hal _ key hk ea wi hB (fun e r => ?_) fun e => rfl
  rcases r with _ | ⟨a, b, c⟩
  · exact .pure _
  · refine .get fun _ => .ite (fun _ => .pure _) fun _ => .bind (resizeTo_mono _ _ _) fun _ => .bind (strings_mono _ _ _) fun r => ?_
    cases r with
    | none => exact .pure _
    | some l => exact .bind (endLarge_mono _) fun _ => .ite (fun _ => .pure _) fun _ => .pure _

/-- A block whose size field has 8 bytes: strings and everything that is stored in an array. -/
def Kind.isLarge : Kind → Bool
  | .string => true
  | _ => false

theorem single_indep (hal : env1.allocOk = env0.allocOk) (t : DataType) (key : Bytes) (hk : key.length < 2 ^ 63) (ea : Bool)
    (hB : B → t.kind.isLarge = true → ea = false) :
    Indep id B (fun r _ => r ≠ .fail) (readSingle env0 t key ea) (readSingle env1 t key ea) := by
  obtain ⟨_, vt, _, kind, _⟩ := t
  cases kind with
  | bool => exact singleBool_indep key ea
  | string => exact singleString_indep hal key hk ea fun b => hB b rfl
  | items sc n m =>
    show Indep id B _ (readSingleItems env0 vt sc n key ea >>= _) (readSingleItems env1 vt sc n key ea >>= _)
    refine .bind (singleItems_indep _ _ _ _ _) (fun r => ?_) fun r s _ h => ?_
    · cases r <;> exact .pure _
    · have : r = .fail := Classical.not_not.mp h
      subst this
      exact ⟨.pure fun h => h rfl, .pure fun h => h rfl⟩

theorem array_indep (hal : env1.allocOk = env0.allocOk) (t : DataType) (key : Bytes) (hk : key.length < 2 ^ 63) (ea wi : Bool) (hB : B → ea = false) :
    Indep id B (fun r _ => r ≠ .fail) (readArray env0 t key ea wi) (readArray env1 t key ea wi) := by
  obtain ⟨_, vt, avt, kind, _⟩ := t
  cases kind with
  | bool => exact arrayBool_indep hal key hk ea wi hB
  | string => exact arrayString_indep hal key hk ea wi hB
  | items sc n m => exact arrayItems_indep hal avt sc n key hk ea wi hB

/-- A variable that may be absent and is stored in a block with a size field of 8 bytes. -/
def LargeOptional (t : DataType) : Container → Bool
  | .optionalValue => t.kind.isLarge
  | .optionalVector => true
  | .optionalIdxVector => true
  | _ => false

theorem typed_indep (hal : env1.allocOk = env0.allocOk) (t : DataType) (c : Container) (key : Bytes) (hk : key.length < 2 ^ 63) (dest : c.Val t.Val)
    (hB : B → LargeOptional t c = false) :
    Indep id B (fun r _ => r ≠ none) (readTyped env0 t c key dest) (readTyped env1 t c key dest) := by
  have use : ∀ {α β : Type} {x0 x1 : Prog RStream (RStatus α)} {f : RStatus α → Prog RStream (Option β)}, Indep id B (fun r _ => r ≠ .fail) x0 x1 →
      (∀ r, Mono id (f r)) → f .fail = pure none → Indep id B (fun r _ => r ≠ none) (x0 >>= f) (x1 >>= f) := by
    intro α β x0 x1 f h hm hf
    refine .bind h (fun r => .same (hm r)) fun r s _ h => ?_
    have : r = .fail := Classical.not_not.mp h
    subst this
    rw [hf]
    exact ⟨.pure fun h => h rfl, .pure fun h => h rfl⟩
  cases c with
  | none => exact use (single_indep hal t key hk false fun _ _ => rfl) (fun r => by cases r <;> exact .pure _) rfl
  | optionalValue =>
    exact use (single_indep hal t key hk true fun b h => absurd (hB b) (by rw [LargeOptional, h]; decide)) (fun r => by cases r <;> exact .pure _) rfl
  | vector => exact use (array_indep hal t key hk false false fun _ => rfl) (fun r => by rcases r with _ | _ | ⟨_, _⟩ <;> exact .pure _) rfl
  | optionalVector =>
    exact use (array_indep hal t key hk true false fun b => nomatch hB b) (fun r => by rcases r with _ | _ | ⟨_, _⟩ <;> exact .pure _) rfl
  | idxVector => exact use (array_indep hal t key hk false true fun _ => rfl) (fun r => by rcases r with _ | _ | ⟨_, _⟩ <;> exact .pure _) rfl
  | optionalIdxVector =>
    exact use (array_indep hal t key hk true true fun b => nomatch hB b) (fun r => by rcases r with _ | _ | ⟨_, _⟩ <;> exact .pure _) rfl

theorem begin_end (env : REnv) {vt : Nat} (hv : vt ≠ 0) (key : Bytes) {s : RStream} (hs : Sane s) (he : AtEnd s) :
    beginReadLargeBlock env vt key s = .ok 0 s := by
  obtain ⟨d, p, fl⟩ := s
  have hp : p = d.length := he
  subst hp
  rw [beginReadLargeBlock, Prog.bind_ok (u8_eof fl hs.2), if_pos fun h => hv h.symm, Prog.pure_apply]

theorem singleItems_end (env : REnv) {vt : Nat} (hv : vt ≠ 0) (sc : Sc) (n : Nat) (key : Bytes) (ea : Bool) {s : RStream} (hs : Sane s) (he : AtEnd s) :
    readSingleItems env vt sc n key ea s = .ok .fail s := by
  obtain ⟨d, p, fl⟩ := s
  have hp : p = d.length := he
  subst hp
  rw [readSingleItems, Prog.bind_ok (Prog.get_apply _), Prog.bind_ok (u8_eof fl hs.2), if_pos fun h => hv h.symm, Prog.pure_apply]

theorem single_end (env : REnv) {t : DataType} (hv : t.vt ≠ 0) (key : Bytes) (ea : Bool) {s : RStream} (hs : Sane s) (he : AtEnd s) :
    readSingle env t key ea s = .ok .fail s := by
  obtain ⟨_, vt, _, kind, _⟩ := t
  cases kind with
  | bool => exact (Prog.bind_ok (singleItems_end env (by decide) _ _ key ea hs he)).trans rfl
  | string => exact (Prog.bind_ok (begin_end env (by decide) key hs he)).trans rfl
  | items sc n m => exact (Prog.bind_ok (singleItems_end env hv _ _ key ea hs he)).trans rfl

theorem array_end (env : REnv) {t : DataType} (hv : t.avt ≠ 0) (key : Bytes) (ea wi : Bool) {s : RStream} (hs : Sane s) (he : AtEnd s) :
    readArray env t key ea wi s = .ok .fail s := by
  obtain ⟨_, vt, avt, kind, _⟩ := t
  cases kind with
  | bool => exact (Prog.bind_ok (begin_end env (by decide) key hs he)).trans rfl
  | string => exact (Prog.bind_ok (begin_end env (by decide) key hs he)).trans rfl
  | items sc n m => exact (Prog.bind_ok (begin_end env hv key hs he)).trans rfl

theorem typed_end (env : REnv) {t : DataType} (ht : t ∈ allTypes) (c : Container) (key : Bytes) (dest : c.Val t.Val) {s : RStream}
    (hs : Sane s) (he : AtEnd s) : readTyped env t c key dest s = .ok none s := by
  obtain ⟨h1, h2⟩ : t.vt ≠ 0 ∧ t.avt ≠ 0 := (by decide +kernel : ∀ t ∈ allTypes, t.vt ≠ 0 ∧ t.avt ≠ 0) t ht
  cases c with
  | none => exact (Prog.bind_ok (single_end env h1 key _ hs he)).trans rfl
  | optionalValue => exact (Prog.bind_ok (single_end env h1 key _ hs he)).trans rfl
  | vector => exact (Prog.bind_ok (array_end env h2 key _ _ hs he)).trans rfl
  | optionalVector => exact (Prog.bind_ok (array_end env h2 key _ _ hs he)).trans rfl
  | idxVector => exact (Prog.bind_ok (array_end env h2 key _ _ hs he)).trans rfl
  | optionalIdxVector => exact (Prog.bind_ok (array_end env h2 key _ _ hs he)).trans rfl

end primitives

section readers

variable {B : Prop} {env0 env1 : REnv} {α V : Type}

theorem Mono.onR {x : Prog RStream α} (h : Mono id x) : Mono Prod.snd (onRStream x) := by
  rintro ⟨rd, s⟩ hs
  have h1 := h s hs
  rw [onRStream]
  dsimp only
  cases e : x s <;> rw [e] at h1
  · exact h1
  · exact h1
  · trivial

theorem Indep.onR {x0 x1 : Prog RStream α} {acc : α → RStream → Prop} (h : Indep id B acc x0 x1) :
    Indep Prod.snd B (fun a st => acc a st.2) (onRStream x0) (onRStream x1) := by
  refine ⟨h.m0.onR, h.m1.onR, ?_⟩
  rintro ⟨rd, s⟩ hs
  have ends : ∀ {x : Prog RStream α}, EndsIn (fun s' => AtEnd (id s')) (x s) → EndsIn (fun s' => AtEnd (Prod.snd s')) (onRStream x (rd, s)) := by
    intro x h
    rw [onRStream]
    dsimp only
    cases e : x s <;> rw [e] at h
    · exact h
    · exact h
    · trivial
  have rej : ∀ {x : Prog RStream α}, Rejects acc (x s) → Rejects (fun a st => acc a st.2) (onRStream x (rd, s)) := by
    intro x h a st e
    rw [onRStream] at e
    dsimp only at e
    cases e1 : x s <;> rw [e1] at e <;> cases e
    exact h _ _ e1
  refine (h.run s hs).imp (fun e => ?_) fun ⟨h0, h1, h2, h3⟩ => ⟨ends h0, ends h1, h2.imp rej rej, fun b => ⟨rej (h3 b).1, rej (h3 b).2⟩⟩
  rw [onRStream, onRStream]
  dsimp only
  rw [e]

theorem Mono.inSub {x : Prog RSt α} (h : Mono Prod.snd x) : Mono Prod.snd (inRSubsection x) := by
  rintro ⟨rd, s⟩ hs
  rw [inRSubsection]
  dsimp only
  cases rd.activeSubsection with
  | none => trivial
  | some r =>
    have h1 := h (r, s) hs
    dsimp only
    cases e : x (r, s) <;> rw [e] at h1
    · exact h1
    · exact h1
    · trivial

theorem Mono.withR {x : Prog RSt α} (h : Mono Prod.snd x) : Mono (fun s : RSt × V => s.1.2) (withReader x) := by
  rintro ⟨st, v⟩ hs
  have h1 := h st hs
  rw [withReader]
  dsimp only
  cases e : x st <;> rw [e] at h1
  · exact h1
  · exact h1
  · trivial

theorem Indep.withR {x0 x1 : Prog RSt α} {acc : α → RSt → Prop} (h : Indep Prod.snd B acc x0 x1) :
    Indep (fun s : RSt × V => s.1.2) B (fun a s => acc a s.1) (withReader x0) (withReader x1) := by
  refine ⟨h.m0.withR, h.m1.withR, ?_⟩
  rintro ⟨st, v⟩ hs
  have ends : ∀ {x : Prog RSt α}, EndsIn (fun s' => AtEnd (Prod.snd s')) (x st) →
      EndsIn (fun s' : RSt × V => AtEnd s'.1.2) (withReader x (st, v)) := by
    intro x h
    rw [withReader]
    dsimp only
    cases e : x st <;> rw [e] at h
    · exact h
    · exact h
    · trivial
  have rej : ∀ {x : Prog RSt α}, Rejects acc (x st) → Rejects (fun a (s : RSt × V) => acc a s.1) (withReader x (st, v)) := by
    intro x h a s e
    rw [withReader] at e
    dsimp only at e
    cases e1 : x st <;> rw [e1] at e <;> cases e
    exact h _ _ e1
  refine (h.run st hs).imp (fun e => ?_) fun ⟨h0, h1, h2, h3⟩ => ⟨ends h0, ends h1, h2.imp rej rej, fun b => ⟨rej (h3 b).1, rej (h3 b).2⟩⟩
  rw [withReader, withReader]
  dsimp only
  rw [e]

theorem Mono.withO {x : Prog V α} : Mono (fun s : RSt × V => s.1.2) (withObject x) := by
  rintro ⟨st, v⟩ hs
  rw [withObject]
  dsimp only
  cases e : x v
  · exact hs.onward
  · exact hs.onward
  · trivial

/-- Acceptance of a read into an object. -/
def Done {σ : Type} (b : Bool) (_ : σ) : Prop := b = true

theorem Mono.inSubP {x : Prog (RSt × V) α} (h : Mono (fun s : RSt × V => s.1.2) x) : Mono (fun s : RSt × V => s.1.2) (inSubInPlace x) := by
  rintro ⟨⟨rd, s⟩, v⟩ hs
  rw [inSubInPlace]
  dsimp only
  cases rd.activeSubsection with
  | none => trivial
  | some r =>
    have h1 := h ((r, s), v) hs
    dsimp only
    cases e : x ((r, s), v) <;> rw [e] at h1
    · exact h1
    · exact h1
    · trivial

theorem Rejects.inSubP {x : Prog (RSt × V) Bool} {rd : EReader} {s : RStream} {v : V} (h : ∀ r, Rejects Done (x ((r, s), v))) :
    Rejects Done (inSubInPlace x ((rd, s), v)) := by
  intro a s' e
  rw [inSubInPlace] at e
  dsimp only at e
  cases hr : rd.activeSubsection with
  | none => rw [hr] at e; cases e
  | some r =>
    rw [hr] at e
    dsimp only at e
    cases e1 : x ((r, s), v) <;> rw [e1] at e <;> cases e
    have := h r _ _ e1
    exact this

theorem Indep.inSubP {x0 x1 : Prog (RSt × V) Bool} (h : Indep (fun s : RSt × V => s.1.2) B Done x0 x1) :
    Indep (fun s : RSt × V => s.1.2) B Done (inSubInPlace x0) (inSubInPlace x1) := by
  refine ⟨h.m0.inSubP, h.m1.inSubP, ?_⟩
  rintro ⟨⟨rd, s⟩, v⟩ hs
  cases hr : rd.activeSubsection with
  | none =>
    left
    rw [inSubInPlace, inSubInPlace]
    dsimp only
    rw [hr]
  | some r =>
    have ends : ∀ {x : Prog (RSt × V) Bool}, EndsIn (fun s' : RSt × V => AtEnd s'.1.2) (x ((r, s), v)) →
        EndsIn (fun s' : RSt × V => AtEnd s'.1.2) (inSubInPlace x ((rd, s), v)) := by
      intro x h
      rw [inSubInPlace]
      dsimp only
      rw [hr]
      dsimp only
      cases e : x ((r, s), v) <;> rw [e] at h
      · exact h
      · exact h
      · trivial
    have rej : ∀ {x : Prog (RSt × V) Bool}, Rejects Done (x ((r, s), v)) → Rejects Done (inSubInPlace x ((rd, s), v)) := by
      intro x h a s' e
      rw [inSubInPlace] at e
      dsimp only at e
      rw [hr] at e
      dsimp only at e
      cases e1 : x ((r, s), v) <;> rw [e1] at e <;> cases e
      have := h _ _ e1
      exact this
    refine (h.run ((r, s), v) hs).imp (fun e => ?_) fun ⟨h0, h1, h2, h3⟩ => ⟨ends h0, ends h1, h2.imp rej rej, fun b => ⟨rej (h3 b).1, rej (h3 b).2⟩⟩
    rw [inSubInPlace, inSubInPlace]
    dsimp only
    rw [hr]
    dsimp only
    rw [e]

variable {W : Type}

theorem Mono.part {x : Prog (RSt × V) α} (h : Mono (fun s : RSt × V => s.1.2) x) (v : V) (put : V → W) :
    Mono (fun s : RSt × W => s.1.2) (onPart v put x) := by
  rintro ⟨st, w⟩ hs
  have h1 := h (st, v) hs
  rw [onPart]
  dsimp only
  cases e : x (st, v) <;> rw [e] at h1
  · exact h1
  · exact h1
  · trivial

theorem Rejects.part {x : Prog (RSt × V) Bool} {st : RSt} {v : V} {put : V → W} {w : W} (h : Rejects Done (x (st, v))) :
    Rejects Done (onPart v put x (st, w)) := by
  intro a s' e
  rw [onPart] at e
  dsimp only at e
  cases e1 : x (st, v) <;> rw [e1] at e <;> cases e
  exact h _ _ e1

theorem Indep.part {x0 x1 : Prog (RSt × V) Bool} (h : Indep (fun s : RSt × V => s.1.2) B Done x0 x1) (v : V) (put : V → W) :
    Indep (fun s : RSt × W => s.1.2) B Done (onPart v put x0) (onPart v put x1) := by
  refine ⟨h.m0.part v put, h.m1.part v put, ?_⟩
  rintro ⟨st, w⟩ hs
  have ends : ∀ {x : Prog (RSt × V) Bool}, EndsIn (fun s' : RSt × V => AtEnd s'.1.2) (x (st, v)) →
      EndsIn (fun s' : RSt × W => AtEnd s'.1.2) (onPart v put x (st, w)) := by
    intro x h
    rw [onPart]
    dsimp only
    cases e : x (st, v) <;> rw [e] at h
    · exact h
    · exact h
    · trivial
  refine (h.run (st, v) hs).imp (fun e => ?_) fun ⟨h0, h1, h2, h3⟩ =>
    ⟨ends h0, ends h1, h2.imp Rejects.part Rejects.part, fun b => ⟨.part (h3 b).1, .part (h3 b).2⟩⟩
  rw [onPart, onPart]
  dsimp only
  rw [e]

/-- A part that depends on the object. -/
theorem Indep.partOf {x0 x1 : Prog (RSt × V) Bool} (h : Indep (fun s : RSt × V => s.1.2) B Done x0 x1) (v : W → V) (put : W → V → W) :
    Indep (fun s : RSt × W => s.1.2) B Done (fun s => onPart (v s.2) (put s.2) x0 s) (fun s => onPart (v s.2) (put s.2) x1 s) :=
  ⟨fun s hs => h.m0.part (v s.2) (put s.2) s hs, fun s hs => h.m1.part (v s.2) (put s.2) s hs, fun s hs => (h.part (v s.2) (put s.2)).run s hs⟩

theorem Indep.first {A C : Type} {x0 x1 : Prog (RSt × A) Bool} (h : Indep (fun s : RSt × A => s.1.2) B Done x0 x1) :
    Indep (fun s : RSt × (A × C) => s.1.2) B Done (onFirst (B := C) x0) (onFirst x1) :=
  h.partOf (fun w => w.1) fun w a => (a, w.2)

theorem Indep.others {A C : Type} {x0 x1 : Prog (RSt × C) Bool} (h : Indep (fun s : RSt × C => s.1.2) B Done x0 x1) :
    Indep (fun s : RSt × (A × C) => s.1.2) B Done (onOthers (A := A) x0) (onOthers x1) :=
  h.partOf (fun w => w.2) fun w b => (w.1, b)

theorem baseInPlace_indep (hal : env1.allocOk = env0.allocOk) (L : Leftover) (t : DataType) (c : Container) (key : Bytes) (hk : key.length < 2 ^ 63)
    (hB : B → LargeOptional t c = false) :
    Indep (fun s : RSt × c.Val t.Val => s.1.2) B Done (readBaseInPlace L env0 t c key) (readBaseInPlace L env1 t c key) := by
  have mono : ∀ env, Mono (fun s : RSt × c.Val t.Val => s.1.2) (readBaseInPlace L env t c key) := by
    rintro env ⟨st, v⟩ hs
    have h1 := (typed_indep (B := False) (env0 := env) (env1 := env) rfl t c key hk v (fun h => h.elim)).onR.m0 st hs
    rw [readBaseInPlace]
    dsimp only
    rw [EReader.read]
    rcases e : onRStream (readTyped env t c key v) st with ⟨_ | _, _⟩ | _ | _ <;> rw [e] at h1
    · exact h1
    · exact h1
    · exact h1
    · trivial
  refine ⟨mono env0, mono env1, ?_⟩
  rintro ⟨st, v⟩ hs
  have h := (typed_indep hal t c key hk v hB).onR
  have ends : ∀ {env : REnv}, EndsIn (fun s' : RSt => AtEnd s'.2) (onRStream (readTyped env t c key v) st) →
      EndsIn (fun s' : RSt × c.Val t.Val => AtEnd s'.1.2) (readBaseInPlace L env t c key (st, v)) := by
    intro env h1
    rw [readBaseInPlace]
    dsimp only
    rw [EReader.read]
    rcases e : onRStream (readTyped env t c key v) st with ⟨_ | _, _⟩ | _ | _ <;> rw [e] at h1
    · exact h1
    · exact h1
    · exact h1
    · trivial
  have rej : ∀ {env : REnv}, Rejects (fun r (_ : RSt) => r ≠ none) (onRStream (readTyped env t c key v) st) →
      Rejects Done (readBaseInPlace L env t c key (st, v)) := by
    intro env h1 a s e
    rw [readBaseInPlace] at e
    dsimp only at e
    rw [EReader.read] at e
    rcases e1 : onRStream (readTyped env t c key v) st with ⟨_ | _, _⟩ | _ | _ <;> rw [e1] at e <;> cases e
    · exact fun h => nomatch h
    · exact absurd (fun h => nomatch h) (h1 _ _ e1)
  refine (h.run st hs).imp (fun e => ?_) fun ⟨h0, h1, h2, h3⟩ => ⟨ends h0, ends h1, h2.imp rej rej, fun b => ⟨rej (h3 b).1, rej (h3 b).2⟩⟩
  rw [readBaseInPlace, readBaseInPlace]
  dsimp only
  rw [EReader.read, EReader.read, e]

/-! ## Sections -/

/-- What an accepted section looks like; one that starts at the end of the stream counts only if `B` does not hold. -/
def SectionStart (B : Prop) (r : Option Nat × Bool) (st : RSt) : Prop := r.2 = true ∧ (B → ¬ (r.1 ≠ none ∧ AtEnd st.2))

theorem beginSection_indep (fresh : Nat) (key : Bytes) (hk : key.length < 2 ^ 63) (na : Bool) (hB : B → na = false) :
    Indep Prod.snd B (SectionStart B) (beginReadSection env0 fresh key na) (beginReadSection env1 fresh key na) := by
  rw [beginReadSection, beginReadSection]
  refine .get fun _ => .ite (fun _ => .pure _) fun _ => ?_
  refine .bind (begin_indep _ key hk).onR (fun e => ?_) fun e st hs h => ?_
  · refine .ite (fun _ => .pure _) fun _ => .get fun _ => .ite (fun _ => ?_) fun _ => ?_
    · refine .free (Mono.onR (endEmpty_mono _ _)) fun r => ?_
      cases r <;> exact .pure _
    · exact .free (.modify fun _ => rfl) fun _ => .pure _
  · refine (fun h => ⟨h, h⟩) ?_
    by_cases h0 : e = 0
    · subst h0
      exact .pure fun h => nomatch h.1
    · have h1 : B ∧ AtEnd st.2 := Classical.byContradiction fun h' => h ⟨h0, fun b he => h' ⟨b, he⟩⟩
      rw [if_neg h0, Prog.bind_ok (Prog.get_apply _)]
      by_cases hp : e = st.2.pos
      · rw [if_pos hp, hB h1.1]
        exact .pure (a := ((none, false) : Option Nat × Bool)) fun h => nomatch h.1
      · rw [if_neg hp]
        intro a s e1
        cases e1
        exact fun h => h.2 h1.1 ⟨nofun, h1.2⟩

theorem endSection_mono (p : Option Nat) : Mono Prod.snd (endReadSection p) := by
  rw [endReadSection]
  refine .get fun st => .ite (fun _ => .pure _) fun _ => ?_
  cases st.1.activeSubsection with
  | none => exact .ub
  | some sub => exact .bind (.onR (endLarge_mono _)) fun _ => .ite (fun _ => .pure _) fun _ => .bind (.modify fun _ => rfl) fun _ => .pure _

theorem sectionsMeta_mono (env : REnv) (e : Nat) (wi : Bool) : Mono Prod.snd (readSectionsMetadata env e wi) := by
  rintro ⟨rd, s⟩ hs
  have h1 := meta_mono env e wi s hs
  rw [readSectionsMetadata]
  dsimp only
  cases e : readArrayMetadataAndIndex env e wi s <;> rw [e] at h1
  · exact h1
  · exact h1
  · trivial

theorem beginArray_indep (hal : env1.allocOk = env0.allocOk) (fresh : Nat) (key : Bytes) (hk : key.length < 2 ^ 63) (na wi : Bool)
    (hB : B → na = false) :
    Indep Prod.snd B (fun r _ => r.2.2.1 = true) (beginReadSectionsArray env0 fresh key na wi) (beginReadSectionsArray env1 fresh key na wi) := by
  have hm : readSectionsMetadata env1 = readSectionsMetadata env0 := by
    funext e wi st
    rw [readSectionsMetadata, readSectionsMetadata, metadata_same hal]
  rw [beginReadSectionsArray, beginReadSectionsArray, hm]
  refine .get fun _ => .ite (fun _ => .pure _) fun _ => ?_
  refine .bind (begin_indep _ key hk).onR (fun e => ?_) fun e st hs h => ?_
  · refine .ite (fun _ => .pure _) fun _ => .get fun _ => .ite (fun _ => ?_) fun _ => ?_
    · refine .free (Mono.onR (endEmpty_mono _ _)) fun r => ?_
      cases r <;> exact .pure _
    · refine .free (sectionsMeta_mono _ _ _) fun r => ?_
      rcases r with _ | ⟨_, _, _⟩
      · exact .pure _
      · exact .free (.modify fun _ => rfl) fun _ => .get fun _ => .pure _
  · refine (fun h => ⟨h, h⟩) ?_
    by_cases h0 : e = 0
    · subst h0
      exact .pure fun h => nomatch h
    · have h1 : B ∧ AtEnd st.2 := Classical.byContradiction fun h' => h ⟨h0, fun b he => h' ⟨b, he⟩⟩
      rw [if_neg h0, Prog.bind_ok (Prog.get_apply _)]
      by_cases hp : e = st.2.pos
      · rw [if_pos hp, hB h1.1]
        exact .pure (a := ((none, 0, false, []) : Option Nat × Nat × Bool × List (Word 4))) fun h => nomatch h
      · rw [if_neg hp]
        intro a s e1
        obtain ⟨r, s1, h3, h4⟩ := Prog.bind_eq_ok e1
        rw [readSectionsMetadata] at h3
        dsimp only at h3
        rw [meta_end env0 e wi st.2 hs h1.2] at h3
        cases h3
        cases h4
        exact fun h => nomatch h

theorem beginInArray_mono (p : Option Nat) (i : Nat) (w : Bool) : Mono Prod.snd (beginReadSectionInArray p i w) := by
  rw [beginReadSectionInArray]
  exact .get fun _ => .ite (fun _ => .pure _) fun _ => .ite (fun _ => .pure _) fun _ => .ite (fun _ => .pure _) fun _ =>
    .bind (.onR readU64_mono) fun _ => .bind (.modify fun _ => rfl) fun _ => .ite (fun _ => .ite (fun _ => .pure _) fun _ => .pure _) fun _ => .pure _

theorem endInArray_mono (p : Option Nat) (i : Nat) : Mono Prod.snd (endReadSectionInArray p i) := by
  rw [endReadSectionInArray]
  exact .get fun _ => .ite (fun _ => .pure _) fun _ => .ite (fun _ => .pure _) fun _ => .pure _

theorem endArray_mono (p : Option Nat) : Mono Prod.snd (endReadSectionsArray p) := by
  rw [endReadSectionsArray]
  refine .get fun st => .ite (fun _ => .pure _) fun _ => .ite (fun _ => .pure _) fun _ => ?_
  cases st.1.activeSubsection with
  | none => exact .ub
  | some sub => exact .bind (.onR (endLarge_mono _)) fun _ => .ite (fun _ => .pure _) fun _ => .bind (.modify fun _ => rfl) fun _ => .pure _

/-! ## Objects -/

/-- Reading an object does not depend on the contents of the key buffer (see `Indep`). -/
def ReadsAlike {V : Type} (B : Prop) (M : Managed V) : Prop :=
  ∀ (env0 env1 : REnv), env1.allocOk = env0.allocOk → ∀ (L : Leftover) (fresh : Bytes → Nat),
    Indep (fun s : RSt × V => s.1.2) B Done (M.readInPlace L env0 fresh) (M.readInPlace L env1 fresh)

/-- Nothing is read at the end of the stream. -/
def Hungry {V : Type} (M : Managed V) : Prop :=
  ∀ (L : Leftover) (env : REnv) (fresh : Bytes → Nat) (st : RSt) (v : V), Sane st.2 → AtEnd st.2 →
    Rejects Done (M.readInPlace L env fresh (st, v))

theorem Indep.tryOption {σ β : Type} {π : σ → RStream} {x0 x1 : Prog σ (Option β)} {f0 f1 : Option β → Prog σ Bool}
    (hx : Indep π B (fun r _ => r ≠ none) x0 x1) (h0 : f0 none = Pure.pure false) (h1 : f1 none = Pure.pure false)
    (hf : ∀ b, Indep π B Done (f0 (some b)) (f1 (some b))) : Indep π B Done (x0 >>= f0) (x1 >>= f1) := by
  refine .bind hx (fun r => ?_) fun r s _ h => ?_
  · cases r with
    | none => rw [h0, h1]; exact .pure _
    | some b => exact hf b
  · have : r = none := Classical.not_not.mp h
    subst this
    rw [h0, h1]
    exact ⟨.pure (fun h => nomatch h), .pure (fun h => nomatch h)⟩

theorem Indep.tryBool {σ : Type} {π : σ → RStream} {x0 x1 : Prog σ Bool} {y0 y1 : Prog σ Bool}
    (hx : Indep π B Done x0 x1) (hy : Indep π B Done y0 y1) :
    Indep π B Done (x0 >>= fun b => if (!b) = true then Pure.pure false else y0) (x1 >>= fun b => if (!b) = true then Pure.pure false else y1) := by
  refine .bind hx (fun r => .ite (fun _ => .pure _) fun _ => hy) fun r s _ h => ?_
  have : r = false := Bool.eq_false_iff.mpr h
  subst this
  exact ⟨.pure (fun h => nomatch h), .pure (fun h => nomatch h)⟩

theorem base_indep (hal : env1.allocOk = env0.allocOk) (t : DataType) (c : Container) (key : Bytes) (hk : key.length ≤ 40) (dest : c.Val t.Val)
    (hB : B → LargeOptional t c = false) :
    Indep (fun s : RSt × V => s.1.2) B (fun r _ => r ≠ none) (withReader (EReader.read env0 t c key dest)) (withReader (EReader.read env1 t c key dest)) :=
  .withR (typed_indep hal t c key (by omega) dest hB).onR

theorem base_end (env : REnv) {t : DataType} (ht : t ∈ allTypes) (c : Container) (key : Bytes) (dest : c.Val t.Val) (st : RSt) (v : V)
    (hs : Sane st.2) (he : AtEnd st.2) : withReader (EReader.read env t c key dest) (st, v) = .ok none (st, v) := by
  rw [withReader]
  dsimp only
  rw [EReader.read, onRStream, typed_end env ht c key dest hs he]

theorem baseInPlace_end (L : Leftover) (env : REnv) {t : DataType} (ht : t ∈ allTypes) (c : Container) (key : Bytes) (st : RSt) (v : c.Val t.Val)
    (hs : Sane st.2) (he : AtEnd st.2) : Rejects Done (readBaseInPlace L env t c key (st, v)) := by
  intro a s e
  rw [readBaseInPlace] at e
  dsimp only at e
  rw [EReader.read, onRStream, typed_end env ht c key v hs he] at e
  cases e
  exact fun h => nomatch h

theorem graph_alike {β : Type} [NodeType β] {st : Stored β} (h : st.Good) (a r s : Bool) : ReadsAlike B (graphMF st a r s) := by
  intro env0 env1 hal L fresh
  refine .tryOption (base_indep hal st.ty .vector _ (by decide) _ fun _ => rfl) rfl rfl fun roots => ?_
  refine .free .withO fun _ => ?_
  exact .tryOption (base_indep hal st.ty .vector _ (by decide) _ fun _ => rfl) rfl rfl fun pairs => .same (.bind .withO fun _ => .pure _)

theorem graph_hungry {β : Type} [NodeType β] {st : Stored β} (h : st.Good) (a r s : Bool) : Hungry (graphMF st a r s) := by
  intro L env fresh rs v hs he
  show Rejects Done ((withReader (EReader.read env st.ty .vector (key "Roots") []) >>= _) (rs, v))
  rw [Prog.bind_ok (base_end env h.mem .vector _ _ rs v hs he)]
  exact .pure fun h => nomatch h

theorem idx_alike (t : DataType) : ReadsAlike B (idxMF t) := by
  intro env0 env1 hal L fresh
  exact .tryBool (baseInPlace_indep hal L t .idxVector (key "Values") (by decide) fun _ => rfl) (.pure _)

theorem Rejects.tryBool {σ : Type} {x : Prog σ Bool} {y : Prog σ Bool} {s : σ} (h : Rejects Done (x s)) :
    Rejects Done ((x >>= fun b => if (!b) = true then Pure.pure false else y) s) := by
  intro a s' e
  obtain ⟨b, s1, h1, h2⟩ := Prog.bind_eq_ok e
  have : b = false := Bool.eq_false_iff.mpr (h b s1 h1)
  subst this
  cases h2
  exact fun h => nomatch h

theorem idx_hungry {t : DataType} (ht : t ∈ allTypes) : Hungry (idxMF t) := by
  intro L env fresh rs v hs he
  exact .tryBool (baseInPlace_end L env ht .idxVector _ rs v hs he)

theorem varying_alike (hB : ¬ B) : ReadsAlike B varyingMF := by
  intro env0 env1 hal L fresh
  show Indep _ B Done (Varying.readInPlace L env0) (Varying.readInPlace L env1)
  rw [Varying.readInPlace, Varying.readInPlace]
  refine .free .withO fun _ => ?_
  refine .tryOption (base_indep hal u16Type .none _ (by decide) _ fun _ => rfl) rfl rfl fun ty => ?_
  refine .tryOption (base_indep hal u16Type .none _ (by decide) _ fun _ => rfl) rfl rfl fun ct => ?_
  refine .free .withO fun b => .ite (fun _ => .pure _) fun _ => .get fun s => ?_
  cases s.2.data with
  | none => exact .pure _
  | some o =>
    dsimp only
    cases findTypeClass s.2.ty s.2.ct with
    | none => exact .pure _
    | some cl => exact .ite (fun _ => .part (baseInPlace_indep hal L _ _ _ (by decide) fun b => absurd b hB) _ _) fun _ => .same .ub

theorem varying_hungry : Hungry varyingMF := by
  intro L env fresh rs v hs he
  show Rejects Done (Varying.readInPlace L env (rs, v))
  rw [Varying.readInPlace]
  intro a s e
  obtain ⟨b, s1, h1, h2⟩ := Prog.bind_eq_ok e
  obtain ⟨v1, rfl⟩ : ∃ v1, s1 = (rs, v1) := by
    rw [withObject] at h1
    dsimp only at h1
    cases e1 : Varying.deinitialize v <;> rw [e1] at h1 <;> cases h1
    exact ⟨_, rfl⟩
  rw [Prog.bind_ok (base_end env u16_mem .none _ _ rs v1 hs he)] at h2
  cases h2
  exact fun h => nomatch h

section table

variable {K : Type} [DecidableEq K] {M : Managed V}

theorem tableLoop_alike (hM : ReadsAlike B M) (hal : env1.allocOk = env0.allocOk) (ord : TableOrder (K × Option V)) (L : Leftover)
    (fresh : Bytes → Nat) (p : Option Nat) : ∀ (ks : List K) (i : Nat), Indep (fun s : RSt × Table K V => s.1.2) B Done
      (tableReadInPlaceLoop M ord L env0 fresh p i ks) (tableReadInPlaceLoop M ord L env1 fresh p i ks)
  | [], i => .pure _
  | k :: ks, i => by
    rw [tableReadInPlaceLoop, tableReadInPlaceLoop]
    refine .free (.withR (beginInArray_mono _ _ _)) fun r => .ite (fun _ => .pure _) fun _ => .get fun s => .ite (fun _ => .pure _) fun _ => ?_
    refine .ite (fun _ => ?_) fun _ => .free .withO fun _ => ?_
    · refine .tryBool (.part (.inSubP (hM env0 env1 hal L fresh)) _ _) ?_
      exact .tryBool (.same (.withR (endInArray_mono _ _))) (tableLoop_alike hM hal ord L fresh p ks (i + 1))
    · exact .tryBool (.same (.withR (endInArray_mono _ _))) (tableLoop_alike hM hal ord L fresh p ks (i + 1))

theorem table_alike {st : Stored K} (hM : ReadsAlike B M) (zk ne : Bool) (ord : TableOrder (K × Option V)) :
    ReadsAlike B (tableMF st M zk ne ord) := by
  intro env0 env1 hal L fresh
  refine .tryOption (base_indep hal st.ty .vector _ (by decide) _ fun _ => rfl) rfl rfl fun keys => ?_
  dsimp only
  refine .bind (.withR (beginArray_indep hal _ _ (by decide) false false fun _ => rfl)) (fun r => ?_) fun r s _ h => ?_
  · obtain ⟨p, count, b, idx⟩ := r
    cases b with
    | false => exact .pure _
    | true =>
      exact .ite (fun _ => .pure _) fun _ => .free .withO fun _ => .tryBool (tableLoop_alike hM hal ord L fresh _ _ _)
        (.tryBool (.same (.withR (endArray_mono _))) (.pure _))
  · obtain ⟨p, count, b, idx⟩ := r
    have : b = false := Bool.eq_false_iff.mpr h
    subst this
    exact ⟨.pure (fun h => nomatch h), .pure (fun h => nomatch h)⟩

theorem table_hungry {st : Stored K} (h : st.Good) (zk ne : Bool) (ord : TableOrder (K × Option V)) : Hungry (tableMF st M zk ne ord) := by
  intro L env fresh rs v hs he
  show Rejects Done ((withReader (EReader.read env st.ty .vector (key "IDs") []) >>= _) (rs, v))
  rw [Prog.bind_ok (base_end env h.mem .vector _ _ rs v hs he)]
  exact .pure fun h => nomatch h

end table

mutual
  /-- A class whose objects are read the same way whatever the uninitialised memory; if `B` holds also at the end of the stream: it has no
  variables that may be absent and are stored in a block with a size field of 8 bytes. -/
  inductive Definite (B : Prop) : {V : Type} → Managed V → Prop where
    | graph {β : Type} [NodeType β] (st : Stored β) (h : st.Good) (acyclic rooted singleRoot : Bool) : Definite B (graphMF st acyclic rooted singleRoot)
    | idx (t : DataType) (h : t ∈ allTypes) : Definite B (idxMF t)
    | varying (hB : ¬ B) : Definite B varyingMF
    | table {K V : Type} [DecidableEq K] (st : Stored K) (h : st.Good) {M : Managed V} (hM : Definite B M)
        (zeroKeys nullEntities : Bool) (ord : TableOrder (K × Option V)) : Definite B (tableMF st M zeroKeys nullEntities ord)
    | entity {fs : List Field} (h : DefiniteFields B fs) (hne : fs ≠ []) : Definite B (entityMF fs)
  /-- See `Definite`. -/
  inductive DefiniteFields (B : Prop) : List Field → Prop where
    | nil : DefiniteFields B []
    | base {k t c fs} (hk : k.length ≤ 40) (ht : t ∈ allTypes) (hB : B → LargeOptional t c = false) (h : DefiniteFields B fs) :
        DefiniteFields B (.base k t c :: fs)
    | sub {k V} {M : Managed V} {fs} (hk : k.length ≤ 40) (hM : Definite B M) (h : DefiniteFields B fs) : DefiniteFields B (.sub k V M :: fs)
end

theorem Rejects.first {A C : Type} {x : Prog (RSt × A) Bool} {st : RSt} {a : A} {c : C} (h : Rejects Done (x (st, a))) :
    Rejects Done (onFirst (B := C) x (st, (a, c))) := Rejects.part (put := fun a => (a, c)) (w := (a, c)) h

mutual
  theorem Definite.hungry : ∀ {V : Type} {M : Managed V}, Definite B M → Hungry M
    | _, _, @Definite.graph _ _ _ st h a r s => graph_hungry h a r s
    | _, _, .idx t h => idx_hungry h
    | _, _, .varying _ => varying_hungry
    | _, _, @Definite.table _ _ _ _ st h _ hM zk ne ord => table_hungry h zk ne ord
    | _, _, @Definite.entity _ fs h hne => fun L env fresh rs v hs he => h.hungry hne L env fresh rs v hs he
  theorem DefiniteFields.hungry : ∀ {fs : List Field}, DefiniteFields B fs → fs ≠ [] → ∀ (L : Leftover) (env : REnv) (fresh : Bytes → Nat) (st : RSt)
      (v : FieldsVal fs), Sane st.2 → AtEnd st.2 → Rejects Done (fieldsReadInPlace L env fresh fs (st, v))
    | _, .nil, hne, _, _, _, _, _, _, _ => absurd rfl hne
    | _, @DefiniteFields.base _ k t c fs hk ht hB h, hne, L, env, fresh, st, v, hs, he => by
      obtain ⟨v1, v2⟩ := v
      rw [fieldsReadInPlace]
      exact .tryBool (.first (baseInPlace_end L env ht c k st v1 hs he))
    | _, @DefiniteFields.sub _ k V M fs hk hM h, hne, L, env, fresh, st, v, hs, he => by
      obtain ⟨rd, s⟩ := st
      rw [fieldsReadInPlace]
      have hb : onRStream (beginReadLargeBlock env vtSubsection k) (rd, s) = .ok 0 (rd, s) := by
        rw [onRStream]
        dsimp only
        rw [begin_end env (by decide) k hs he]
      have h1 : beginReadSection env (fresh k) k false (rd, s) = .ok (none, false) (rd, s) := by
        rw [beginReadSection, Prog.bind_ok (Prog.get_apply _)]
        by_cases hsub : rd.activeSubsection.isSome = true
        · exact (if_pos hsub ▸ rfl)
        · rw [if_neg hsub, Prog.bind_ok hb]
          rfl
      have h2 : withReader (V := V × FieldsVal fs) (beginReadSection env (fresh k) k false) ((rd, s), v) = .ok (none, false) ((rd, s), v) := by
        unfold withReader
        dsimp only
        rw [h1]
      intro a s' e
      have e2 := (Prog.bind_ok h2).symm.trans e
      cases e2
      exact fun h => nomatch h
end

mutual
  theorem Definite.alike : ∀ {V : Type} {M : Managed V}, Definite B M → ReadsAlike B M
    | _, _, @Definite.graph _ _ _ st h a r s => graph_alike h a r s
    | _, _, .idx t h => idx_alike t
    | _, _, .varying hB => varying_alike hB
    | _, _, @Definite.table _ _ _ _ st h _ hM zk ne ord => table_alike hM.alike zk ne ord
    | _, _, @Definite.entity _ fs h hne => fun env0 env1 hal L fresh => h.alike env0 env1 hal L fresh
  theorem DefiniteFields.alike : ∀ {fs : List Field}, DefiniteFields B fs → ∀ (env0 env1 : REnv), env1.allocOk = env0.allocOk →
      ∀ (L : Leftover) (fresh : Bytes → Nat),
        Indep (fun s : RSt × FieldsVal fs => s.1.2) B Done (fieldsReadInPlace L env0 fresh fs) (fieldsReadInPlace L env1 fresh fs)
    | _, .nil, _, _, _, _, _ => .pure _
    | _, @DefiniteFields.base _ k t c fs hk ht hB h, env0, env1, hal, L, fresh => by
      rw [fieldsReadInPlace, fieldsReadInPlace]
      exact .tryBool (.first (baseInPlace_indep hal L t c k (by omega) hB)) (.others (h.alike env0 env1 hal L fresh))
    | _, @DefiniteFields.sub _ k V M fs hk hM h, env0, env1, hal, L, fresh => by
      rw [fieldsReadInPlace, fieldsReadInPlace]
      refine .bind (.withR (beginSection_indep _ k (by omega) false fun _ => rfl)) (fun r => ?_) fun r s hs hr => ?_
      · obtain ⟨_ | p, _ | _⟩ := r
        · exact .pure _
        · exact .others (h.alike env0 env1 hal L fresh)
        · exact .pure _
        · refine .tryBool (.first (.inSubP (hM.alike env0 env1 hal L fresh))) ?_
          exact .free (.withR (endSection_mono _)) fun _ => .others (h.alike env0 env1 hal L fresh)
      · obtain ⟨p, b⟩ := r
        cases b with
        | false => cases p <;> exact ⟨.pure (fun h => nomatch h), .pure (fun h => nomatch h)⟩
        | true =>
          obtain ⟨hB, hp, he⟩ : B ∧ p ≠ none ∧ AtEnd s.1.2 := Classical.byContradiction fun h' => hr ⟨rfl, fun b he => h' ⟨b, he⟩⟩
          obtain ⟨⟨rd, st⟩, v1, v2⟩ := s
          cases p with
          | none => exact absurd rfl hp
          | some p =>
            exact ⟨.tryBool (.first (.inSubP fun r => hM.hungry L env0 fresh (r, st) v1 hs he)),
              .tryBool (.first (.inSubP fun r => hM.hungry L env1 fresh (r, st) v1 hs he))⟩
end

end readers

end ISD
