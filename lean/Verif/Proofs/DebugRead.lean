import Verif.Proofs.DebugWrite

/-! # The checks of the debug build: reading -/

namespace ISD
open RStream

/-- The debug build did the same, or (only if `B`) it threw where the release build does not end with an accepted result. -/
def Agree {σ α : Type} (B : Prop) (acc : α → σ → Prop) (rd rr : Res σ α) : Prop := rd = rr ∨ (B ∧ (∃ s', rd = .throw s') ∧ Rejects acc rr)

/-- The same for two routines, from every sane stream. -/
def Tracks {σ α : Type} (π : σ → RStream) (B : Prop) (acc : α → σ → Prop) (xd xr : Prog σ α) : Prop :=
  ∀ s, Sane (π s) → Agree B acc (xd s) (xr s)

section combinators

variable {σ α β : Type} {π : σ → RStream} {B : Prop} {acc : α → σ → Prop} {accB : β → σ → Prop}

theorem Agree.same (r : Res σ α) : Agree B acc r r := .inl rfl

theorem Tracks.same (x : Prog σ α) : Tracks π B acc x x := fun _ _ => .inl rfl

theorem Tracks.bind {xd xr : Prog σ α} {fd fr : α → Prog σ β} (hx : Tracks π B acc xd xr) (hm : Mono π xr)
    (hf : ∀ a, Tracks π B accB (fd a) (fr a)) (hr : ∀ a s, Sane (π s) → ¬ acc a s → Rejects accB (fr a s)) :
    Tracks π B accB (xd >>= fd) (xr >>= fr) := by
  intro s hs
  obtain h | ⟨hB, ⟨s', h⟩, hj⟩ := hx s hs
  · have h1 := hm s hs
    rw [Prog.bind_apply, Prog.bind_apply, h]
    cases e : xr s with
    | throw s' => exact .inl rfl
    | ub => exact .inl rfl
    | ok a s' =>
      rw [e] at h1
      exact hf a s' (Onward.sane h1 hs)
  · refine .inr ⟨hB, ⟨s', Prog.bind_throw h⟩, ?_⟩
    have h1 := hm s hs
    intro b s2 e2
    obtain ⟨a, s1, e1, e3⟩ := Prog.bind_eq_ok e2
    rw [e1] at h1
    exact hr a s1 (Onward.sane h1 hs) (hj a s1 e1) b s2 e3

theorem Tracks.free {x : Prog σ α} {fd fr : α → Prog σ β} (hm : Mono π x) (hf : ∀ a, Tracks π B accB (fd a) (fr a)) :
    Tracks π B accB (x >>= fd) (x >>= fr) :=
  Tracks.bind (acc := fun _ _ => True) (.same x) hm hf fun _ _ _ h => (h trivial).elim

theorem Tracks.get {fd fr : σ → Prog σ β} (hf : ∀ s, Tracks π B accB (fd s) (fr s)) : Tracks π B accB (Prog.get >>= fd) (Prog.get >>= fr) :=
  .free .getOnly hf

theorem Tracks.ite {c : Prop} [Decidable c] {xd yd xr yr : Prog σ α} (h1 : c → Tracks π B acc xd xr) (h2 : ¬ c → Tracks π B acc yd yr) :
    Tracks π B acc (if c then xd else yd) (if c then xr else yr) := by
  by_cases h : c
  · rw [if_pos h, if_pos h]; exact h1 h
  · rw [if_neg h, if_neg h]; exact h2 h

theorem Tracks.weaken {B' : Prop} {acc' : α → σ → Prop} {xd xr : Prog σ α} (h : Tracks π B acc xd xr) (hB : B → B')
    (ha : ∀ a s, acc' a s → acc a s) : Tracks π B' acc' xd xr := fun s hs => by
  obtain h | ⟨hb, ht, hj⟩ := h s hs
  · exact .inl h
  · exact .inr ⟨hB hb, ht, fun a s e h => hj a s e (ha a s h)⟩

/-- With no reason to differ the two builds do the same. -/
theorem Tracks.eq {xd xr : Prog σ α} (h : Tracks π B acc xd xr) (hB : ¬ B) {s : σ} (hs : Sane (π s)) : xd s = xr s :=
  (h s hs).elim id fun ⟨b, _⟩ => (hB b).elim

end combinators

section singles

variable {B : Prop} {α β : Type}

theorem Agree.step {acc : β → RStream → Prop} {d : Bytes} {fl : Bool} {p : Nat} {x : Prog RStream α} {fd fr : α → Prog RStream β}
    {P : α → Nat → Prop} {U : Prop} (hx : Wp d fl p (x ⟨d, p, fl⟩) P U)
    (hf : ∀ a p', p ≤ p' → p' ≤ d.length → P a p' → Agree B acc (fd a ⟨d, p', fl⟩) (fr a ⟨d, p', fl⟩)) :
    Agree B acc ((x >>= fd) ⟨d, p, fl⟩) ((x >>= fr) ⟨d, p, fl⟩) := by
  rw [Prog.bind_apply, Prog.bind_apply]
  cases e : x ⟨d, p, fl⟩ with
  | throw s' => exact .inl rfl
  | ub => exact .inl rfl
  | ok a s' =>
    rw [e] at hx
    obtain ⟨p', rfl, h1, h2, h3⟩ := hx
    exact hf a p' h1 h2 h3

theorem Agree.get {acc : β → RStream → Prop} {s : RStream} {fd fr : RStream → Prog RStream β} (h : Agree B acc (fd s s) (fr s s)) :
    Agree B acc ((Prog.get >>= fd) s) ((Prog.get >>= fr) s) := h

theorem Agree.ite {σ : Type} {acc : β → σ → Prop} {c : Prop} [Decidable c] {xd yd xr yr : Prog σ β} {s : σ} (h1 : c → Agree B acc (xd s) (xr s))
    (h2 : ¬ c → Agree B acc (yd s) (yr s)) : Agree B acc ((if c then xd else yd) s) ((if c then xr else yr) s) := by
  by_cases h : c
  · rw [if_pos h, if_pos h]; exact h1 h
  · rw [if_neg h, if_neg h]; exact h2 h

theorem check_ok {σ : Type} {c : Prop} [Decidable c] (h : c) {x : Prog σ α} : (sanityCheck c >>= fun _ => x) = x := by
  rw [sanityCheck_pos h]; rfl

theorem check_fail {σ : Type} {c : Prop} [Decidable c] (h : ¬ c) {x : Prog σ α} {s : σ} : (sanityCheck c >>= fun _ => x) s = .throw s := by
  rw [sanityCheck_neg h]; rfl

/-- A check followed by the same test: where the check throws, the test refuses. -/
theorem Agree.checked {c : Prop} [Decidable c] {s : RStream} {a b : RStatus α} (hB : ¬ c → B) (ha : a = .fail) :
    Agree B (fun r _ => r ≠ .fail) ((sanityCheck c >>= fun _ => if ¬ c then (pure a : Prog RStream (RStatus α)) else pure b) s)
      ((if ¬ c then (pure a : Prog RStream (RStatus α)) else pure b) s) := by
  by_cases h : c
  · exact .inl (by rw [check_ok h])
  · refine .inr ⟨hB h, ⟨s, check_fail h⟩, ?_⟩
    rw [if_pos h]
    exact .pure fun h => h ha

theorem singleItems_tracks (env : REnv) (vt : Nat) (hv : 0 < vt) (sc : Sc) (n : Nat) (h0 : 0 < sc.size * n) (hn : sc.size * n ≤ 128) (key : Bytes)
    (hk : key.length ≤ 40) (ea : Bool) :
    Tracks id (key = [] ∧ ea = true) (fun r _ => r ≠ .fail) (Debug.readSingleItems env vt sc n key ea) (readSingleItems env vt sc n key ea) := by
  rintro ⟨d, p, fl⟩ ⟨hp, hd⟩
  have hp : p ≤ d.length := hp
  have hd : d.length < 2 ^ 60 := hd
  have hmul : n * sc.size = sc.size * n := Nat.mul_comm _ _
  rw [Debug.readSingleItems, readSingleItems]
  refine Agree.get ?_
  dsimp only
  refine Agree.step (u8_wp fl hd hp) fun vt' p1 h1 h2 n1 => ?_
  refine Agree.ite (fun _ => .same _) fun hvt => ?_
  have hvt : vt' = vt := by simpa using hvt
  subst hvt
  have hlt : p + 1 ≤ d.length := by
    apply Decidable.byContradiction
    intro hc
    have := n1.eof (by omega)
    omega
  obtain ⟨rfl, hcode⟩ := n1.full hlt
  rw [check_ok hk, check_ok (by omega)]
  refine Agree.step (u8_wp fl hd h2) fun size p2 h3 h4 n2 => ?_
  have hw1 : wrap64 (p + 2 + key.length) = p + 2 + key.length := Nat.mod_eq_of_lt (by omega)
  have hw2 : wrap64 (p + 2 + (sc.size * n + key.length)) = p + 2 + (sc.size * n + key.length) := Nat.mod_eq_of_lt (by omega)
  have hp2 : size ≠ 0 → p2 = p + 2 := by
    intro hs
    by_cases h : p + 1 + 1 ≤ d.length
    · have := (n2.full h).1; omega
    · exact absurd (n2.eof (by omega)) hs
  refine Agree.ite (fun hne => ?_) (fun heq => ?_)
  · refine Agree.ite (fun _ => .same _) fun hea => ?_
    refine Agree.ite (fun _ => .same _) fun hsz => ?_
    refine Agree.step (key_wp env fl hd h4 hk) fun r p3 h5 h6 n3 => ?_
    obtain ⟨cnt, buf⟩ := r
    dsimp only at n3 ⊢
    refine Agree.ite (fun _ => .same _) fun hkey => ?_
    refine Agree.get (Agree.checked (fun hc => ?_) rfl)
    refine ⟨Classical.byContradiction fun hne => hc ?_, by simpa using hea⟩
    have hpos : 0 < key.length := List.length_pos_iff.mpr hne
    have hsz : size = key.length := by omega
    have := hp2 (by omega)
    rw [hw1]
    dsimp only
    have h7 : ¬ d.length < p2 + key.length := fun h => by have := n3.2.2 h; omega
    omega
  · have heq : size = sc.size * n + key.length := by simpa using heq
    refine Agree.step (items_wp fl hd h4 sc (by omega) (by simp)) fun r p3 h5 h6 n3 => ?_
    obtain ⟨rc, vals⟩ := r
    dsimp only at n3 ⊢
    refine Agree.ite (fun _ => .same _) fun hrc => ?_
    refine Agree.step (key_wp env fl hd h6 hk) fun r p4 h7 h8 n4 => ?_
    obtain ⟨cnt, buf⟩ := r
    dsimp only at n4 ⊢
    refine Agree.ite (fun _ => .same _) fun hkey => ?_
    refine Agree.get (Agree.checked (fun hc => ?_) rfl)
    refine absurd ?_ hc
    have := hp2 (by omega)
    rw [hw2]
    dsimp only
    have h9 : ¬ d.length < p2 + n * sc.size := fun h => by have := n3.2.2.2 h; omega
    have h10 : ¬ d.length < p3 + key.length := fun h => by have := n4.2.2 h; omega
    omega

theorem singleItems_mono (env : REnv) (vt : Nat) (sc : Sc) (n : Nat) (key : Bytes) (ea : Bool) : Mono id (readSingleItems env vt sc n key ea) :=
  (singleItems_indep (B := True) (env0 := env) (env1 := env) vt sc n key ea).m0

end singles

/-! ## Arrays -/

/-- From a position behind the end of its block nothing is accepted. -/
def Late {α : Type} (e : Nat) (acc : α → RStream → Prop) (x : Prog RStream α) : Prop := ∀ s, Sane s → e < s.pos → Rejects acc (x s)

section late
variable {α β : Type} {e : Nat} {acc : β → RStream → Prop}

theorem Late.bind {x : Prog RStream α} {f : α → Prog RStream β} (hx : Mono id x) (hf : ∀ a, Late e acc (f a)) : Late e acc (x >>= f) := by
  intro s hs hp b s2 h
  have h1 := hx s hs
  obtain ⟨a, s1, e1, e2⟩ := Prog.bind_eq_ok h
  rw [e1] at h1
  exact hf a s1 (Onward.sane h1 hs) (Nat.lt_of_lt_of_le hp h1.2.1) b s2 e2

theorem Late.get {f : RStream → Prog RStream β} (hf : ∀ a, Late e acc (f a)) : Late e acc (Prog.get >>= f) := .bind .getOnly hf

theorem Late.ite {c : Prop} [Decidable c] {x y : Prog RStream β} (h1 : c → Late e acc x) (h2 : ¬ c → Late e acc y) :
    Late e acc (if c then x else y) := by
  by_cases h : c
  · rw [if_pos h]; exact h1 h
  · rw [if_neg h]; exact h2 h

theorem Late.refuse {a : β} (h : ∀ s, ¬ acc a s) : Late e acc (pure a) := fun s _ _ => .pure (h s)

theorem Late.final {x y : Prog RStream β} (h : Late e acc x) : Late e acc (endReadLargeBlock e >>= fun b => if (!b) = true then x else y) := by
  intro s hs hp
  have h1 : endReadLargeBlock e s = .ok false s := by
    have : (s.pos == e) = false := by simpa using Nat.ne_of_gt hp
    rw [endReadLargeBlock, Prog.bind_ok (Prog.get_apply _), this]
    rfl
  rw [Prog.bind_ok h1]
  exact h s hs hp

end late

/-- A header that was accepted, with the position still inside the block. -/
def HeaderInside (e : Nat) (r : Option (Nat × Nat × List (Word 4))) (s : RStream) : Prop := r ≠ none ∧ s.pos ≤ e

theorem metadata_tracks (env : REnv) (e : Nat) (wi : Bool) :
    Tracks id (wi = true) (HeaderInside e) (Debug.readArrayMetadataAndIndex env e wi) (readArrayMetadataAndIndex env e wi) := by
  rw [Debug.readArrayMetadataAndIndex, readArrayMetadataAndIndex]
  refine .get fun s => .free readU16_mono fun flags => .ite (fun _ => .same _) fun _ => .free readU64_mono fun cnt => ?_
  refine .ite (fun _ => .ite (fun _ => .same _) fun hw => ?_) fun _ => .same _
  have hw : wi = true := by simpa using hw
  intro s1 hs1
  rw [Prog.bind_ok (Prog.get_apply _)]
  by_cases hc : e ≥ s1.pos
  · exact .inl (by rw [check_ok hc])
  · refine .inr ⟨hw, ⟨_, check_fail hc⟩, ?_⟩
    have hm : Mono id (readU64 >>= fun ic => Prog.get >>= fun s1 => if ic > sub64 e s1.pos / 4 then (pure none : Prog RStream (Option (Nat × Nat × List (Word 4)))) else
        resizeTo env ic 4 >>= fun _ => readItems .w4 ic (List.replicate ic (Sc.zero .w4)) >>= fun x => Prog.get >>= fun s2 =>
        if wrap64 (s.pos + 2 + 8 + 8 + ic * 4) ≠ s2.pos then pure none else pure (some (flags &&& 0xff, cnt, x.2))) := by
      refine .bind readU64_mono fun ic => .get fun _ => .ite (fun _ => .pure _) fun _ => .bind (resizeTo_mono _ _ _) fun _ => ?_
      exact .bind (readItems_mono _ _ _) fun _ => .get fun _ => .ite (fun _ => .pure _) fun _ => .pure _
    intro r s2 e2 h
    have h1 := hm s1 hs1
    erw [e2] at h1
    have h2 : s1.pos ≤ s2.pos := h1.2.1
    have := h.2
    omega

theorem beginRead_debug (env : REnv) (vt : Nat) (key : Bytes) (hk : key.length ≤ 40) :
    Debug.beginReadLargeBlock env vt key = beginReadLargeBlock env vt key := by
  rw [Debug.beginReadLargeBlock, check_ok hk]

theorem begin_mono (env : REnv) (vt : Nat) (key : Bytes) (hk : key.length ≤ 40) : Mono id (beginReadLargeBlock env vt key) :=
  (begin_indep (B := True) (env0 := env) (env1 := env) vt key (by omega)).m0

theorem array_block_tracks {α : Type} (env : REnv) (vt : Nat) (key : Bytes) (hk : key.length ≤ 40) (ea wi : Bool)
    {f : Nat → Option (Nat × Nat × List (Word 4)) → Prog RStream (RStatus α)} (hn : ∀ e, f e none = pure .fail)
    (hl : ∀ e r, Late e (fun r _ => r ≠ .fail) (f e r)) :
    Tracks id (wi = true) (fun r _ => r ≠ .fail)
      (Debug.beginReadLargeBlock env vt key >>= fun e => if e = 0 then pure .fail else Prog.get >>= fun s =>
        if e = s.pos then endReadEmptyLargeBlock ea e else Debug.readArrayMetadataAndIndex env e wi >>= f e)
      (beginReadLargeBlock env vt key >>= fun e => if e = 0 then pure .fail else Prog.get >>= fun s =>
        if e = s.pos then endReadEmptyLargeBlock ea e else readArrayMetadataAndIndex env e wi >>= f e) := by
  rw [beginRead_debug env vt key hk]
  refine .free (begin_mono env vt key hk) fun e => .ite (fun _ => .same _) fun _ => .get fun _ => .ite (fun _ => .same _) fun _ => ?_
  refine .bind (metadata_tracks env e wi) (meta_mono env e wi) (fun _ => .same _) fun r s hs h => ?_
  cases r with
  | none =>
    rw [hn]
    exact .pure fun h => h rfl
  | some x =>
    have : e < s.pos := Classical.byContradiction fun hc => h ⟨nofun, Nat.le_of_not_lt hc⟩
    exact hl e _ s hs this

theorem arrayItems_tracks (env : REnv) (vt : Nat) (sc : Sc) (n : Nat) (key : Bytes) (hk : key.length ≤ 40) (ea wi : Bool) :
    Tracks id (wi = true) (fun r _ => r ≠ .fail) (Debug.readArrayItems env vt sc n key ea wi) (readArrayItems env vt sc n key ea wi) := by
  rw [Debug.readArrayItems, readArrayItems]
  refine array_block_tracks env vt key hk ea wi (fun e => rfl) fun e r => ?_
  rcases r with _ | ⟨a, b, c⟩
  · exact .refuse fun _ h => h rfl
  · refine .ite (fun _ => .refuse fun _ h => h rfl) fun _ => .get fun _ => .ite (fun _ => .refuse fun _ h => h rfl) fun _ => .bind (resizeTo_mono _ _ _) fun _ => ?_
    exact .bind (readItems_mono _ _ _) fun _ => .ite (fun _ => .refuse fun _ h => h rfl) fun _ => .final (.refuse fun _ h => h rfl)

theorem arrayBool_tracks (env : REnv) (key : Bytes) (hk : key.length ≤ 40) (ea wi : Bool) :
    Tracks id (wi = true) (fun r _ => r ≠ .fail) (Debug.readArrayBool env key ea wi) (readArrayBool env key ea wi) := by
  rw [Debug.readArrayBool, readArrayBool]
  refine array_block_tracks env _ key hk ea wi (fun e => rfl) fun e r => ?_
  rcases r with _ | ⟨a, b, c⟩
  · exact .refuse fun _ h => h rfl
  · refine .get fun _ => .ite (fun _ => .refuse fun _ h => h rfl) fun _ => .bind (resizeBool_mono _ _) fun _ => .bind (resizeTo_mono _ _ _) fun _ => ?_
    exact .bind (readRaw_mono _ _) fun _ => .bind (unpackLoop_mono _ _ _) fun _ => .final (.refuse fun _ h => h rfl)

theorem arrayString_tracks (env : REnv) (key : Bytes) (hk : key.length ≤ 40) (ea wi : Bool) :
    Tracks id (wi = true) (fun r _ => r ≠ .fail) (Debug.readArrayString env key ea wi) (readArrayString env key ea wi) := by
  rw [Debug.readArrayString, readArrayString]
  refine array_block_tracks env _ key hk ea wi (fun e => rfl) fun e r => ?_
  rcases r with _ | ⟨a, b, c⟩
  · exact .refuse fun _ h => h rfl
  · refine .get fun _ => .ite (fun _ => .refuse fun _ h => h rfl) fun _ => .bind (resizeTo_mono _ _ _) fun _ => .bind (strings_mono _ _ _) fun r => ?_
    cases r with
    | none => exact .refuse fun _ h => h rfl
    | some _ => exact .final (.refuse fun _ h => h rfl)


/-! ## Values and sections -/

/-- What comes after a refused block refuses. -/
theorem Tracks.use {B : Prop} {α β : Type} {xd xr : Prog RStream (RStatus α)} {f : RStatus α → Prog RStream β} {acc : β → RStream → Prop}
    (h : Tracks id B (fun r _ => r ≠ .fail) xd xr) (hm : Mono id xr) (hf : ∀ s, Rejects acc (f .fail s)) :
    Tracks id B acc (xd >>= f) (xr >>= f) := by
  refine .bind h hm (fun r => .same _) fun r s _ h => ?_
  have : r = .fail := Classical.not_not.mp h
  subst this
  exact hf s

theorem single_tracks (env : REnv) {t : DataType} (ht : t.Ok) (key : Bytes) (hk : key.length ≤ 40) (ea : Bool) :
    Tracks id (key = [] ∧ ea = true) (fun r _ => r ≠ .fail) (Debug.readSingle env t key ea) (readSingle env t key ea) := by
  obtain ⟨_, vt, _, kind, _⟩ := t
  cases kind with
  | bool => exact (singleItems_tracks env _ (by decide) .w1 1 (by decide) (by decide) key hk ea).use (singleItems_mono _ _ _ _ _ _) fun _ => .pure fun h => h rfl
  | string =>
    show Tracks id _ _ (Debug.readSingleString env key ea) (readSingleString env key ea)
    rw [Debug.readSingleString, beginRead_debug env _ key hk]
    exact .same _
  | items sc n m =>
    obtain ⟨h0, hn, hv, -⟩ := ht
    have hs : 0 < sc.size := by cases sc <;> decide
    exact (singleItems_tracks env _ hv sc n (Nat.mul_pos hs h0) hn key hk ea).use (singleItems_mono _ _ _ _ _ _) fun _ => .pure fun h => h rfl

theorem array_tracks (env : REnv) (t : DataType) (key : Bytes) (hk : key.length ≤ 40) (ea wi : Bool) :
    Tracks id (wi = true) (fun r _ => r ≠ .fail) (Debug.readArray env t key ea wi) (readArray env t key ea wi) := by
  obtain ⟨_, vt, avt, kind, _⟩ := t
  cases kind with
  | bool => exact arrayBool_tracks env key hk ea wi
  | string => exact arrayString_tracks env key hk ea wi
  | items sc n m => exact arrayItems_tracks env avt sc n key hk ea wi

/-- The reads that the checks of the debug build can stop: indexed vectors, and optional values without a name. -/
def Checked (c : Container) (key : Bytes) : Prop :=
  match c with
  | .idxVector => True
  | .optionalIdxVector => True
  | .optionalValue => key = []
  | _ => False

theorem typed_mono (env : REnv) (t : DataType) (c : Container) (key : Bytes) (hk : key.length ≤ 40) (dest : c.Val t.Val) :
    Mono id (readTyped env t c key dest) :=
  (typed_indep (B := False) (env0 := env) (env1 := env) rfl t c key (by omega) dest False.elim).m0

theorem typed_tracks (env : REnv) {t : DataType} (ht : t ∈ allTypes) (c : Container) (key : Bytes) (hk : key.length ≤ 40) (dest : c.Val t.Val) :
    Tracks id (Checked c key) (fun r _ => r ≠ none) (Debug.readTyped env t c key dest) (readTyped env t c key dest) := by
  have hok := allTypes_ok t ht
  have hms : ∀ ea, Mono id (readSingle env t key ea) := fun ea =>
    (single_indep (B := False) (env0 := env) (env1 := env) rfl t key (by omega) ea False.elim).m0
  have hma : ∀ ea wi, Mono id (readArray env t key ea wi) := fun ea wi =>
    (array_indep (B := False) (env0 := env) (env1 := env) rfl t key (by omega) ea wi False.elim).m0
  cases c with
  | none => exact ((single_tracks env hok key hk false).weaken (fun h => nomatch h.2) fun _ _ h => h).use (hms _) fun _ => .pure fun h => h rfl
  | optionalValue => exact ((single_tracks env hok key hk true).weaken (fun h => h.1) fun _ _ h => h).use (hms _) fun _ => .pure fun h => h rfl
  | vector => exact ((array_tracks env t key hk false false).weaken (fun h => nomatch h) fun _ _ h => h).use (hma _ _) fun _ => .pure fun h => h rfl
  | optionalVector => exact ((array_tracks env t key hk true false).weaken (fun h => nomatch h) fun _ _ h => h).use (hma _ _) fun _ => .pure fun h => h rfl
  | idxVector => exact ((array_tracks env t key hk false true).weaken (fun _ => trivial) fun _ _ h => h).use (hma _ _) fun _ => .pure fun h => h rfl
  | optionalIdxVector => exact ((array_tracks env t key hk true true).weaken (fun _ => trivial) fun _ _ h => h).use (hma _ _) fun _ => .pure fun h => h rfl

theorem Tracks.onR {B : Prop} {α : Type} {xd xr : Prog RStream α} {acc : α → RStream → Prop} (h : Tracks id B acc xd xr) :
    Tracks Prod.snd B (fun a (st : RSt) => acc a st.2) (onRStream xd) (onRStream xr) := by
  rintro ⟨rd, s⟩ hs
  obtain h | ⟨hB, ⟨s', h⟩, hj⟩ := h s hs
  · left
    rw [onRStream, onRStream]
    dsimp only
    rw [h]
  · refine .inr ⟨hB, ⟨(rd, s'), ?_⟩, ?_⟩
    · rw [onRStream]
      dsimp only
      rw [h]
    · intro a st e
      rw [onRStream] at e
      dsimp only at e
      cases h1 : xr s with
      | throw _ => rw [h1] at e; cases e
      | ub => rw [h1] at e; cases e
      | ok b s1 => rw [h1] at e; cases e; exact hj _ _ h1

theorem beginReadSection_debug (env : REnv) (fresh : Nat) (key : Bytes) (hk : key.length ≤ 40) (na : Bool) :
    Debug.beginReadSection env fresh key na = beginReadSection env fresh key na := by
  unfold Debug.beginReadSection
  rw [beginRead_debug _ _ _ hk]
  rfl

theorem sectionsMetadata_tracks (env : REnv) (e : Nat) (wi : Bool) :
    Tracks Prod.snd (wi = true) (fun r (st : RSt) => HeaderInside e r st.2) (Debug.readSectionsMetadata env e wi) (readSectionsMetadata env e wi) := by
  rintro ⟨rd, s⟩ hs
  obtain h | ⟨hB, ⟨s', h⟩, hj⟩ := metadata_tracks env e wi s hs
  · left
    rw [Debug.readSectionsMetadata, readSectionsMetadata]
    dsimp only
    rw [h]
    cases readArrayMetadataAndIndex env e wi s <;> rfl
  · refine .inr ⟨hB, ⟨({ rd with activeArraySize := (metadataCount s).getD rd.activeArraySize }, s'), ?_⟩, ?_⟩
    · rw [Debug.readSectionsMetadata]
      dsimp only
      rw [h]
    · intro a st e'
      rw [readSectionsMetadata] at e'
      dsimp only at e'
      cases h1 : readArrayMetadataAndIndex env e wi s with
      | throw _ => rw [h1] at e'; cases e'
      | ub => rw [h1] at e'; cases e'
      | ok b s1 => rw [h1] at e'; cases e'; exact hj _ _ h1

/-- An array of sections that was begun, with the position still inside it. -/
def ArrayInside (r : Option Nat × Nat × Bool × List (Word 4)) (st : RSt) : Prop :=
  r.2.2.1 = true ∧ ∀ sub, st.1.activeSubsection = some sub → st.2.pos ≤ sub.endPosition

theorem beginReadArray_tracks (env : REnv) (fresh : Nat) (key : Bytes) (hk : key.length ≤ 40) (na wi : Bool) :
    Tracks Prod.snd (wi = true) ArrayInside (Debug.beginReadSectionsArray env fresh key na wi) (beginReadSectionsArray env fresh key na wi) := by
  unfold Debug.beginReadSectionsArray beginReadSectionsArray
  rw [beginRead_debug _ _ _ hk]
  refine .get fun _ => .ite (fun _ => .same _) fun _ => .free (Mono.onR (begin_mono _ _ _ hk)) fun e => .ite (fun _ => .same _) fun _ => .get fun _ => ?_
  refine .ite (fun _ => .same _) fun _ => .bind (sectionsMetadata_tracks env e wi) (sectionsMeta_mono _ _ _) (fun _ => .same _) fun r st _ h => ?_
  rcases r with _ | ⟨a, b, c⟩
  · exact .pure fun h => nomatch h.1
  · intro x st' e' h'
    cases e'
    exact h ⟨nofun, h'.2 _ rfl⟩

end ISD
