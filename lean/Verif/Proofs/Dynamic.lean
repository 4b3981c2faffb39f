import Verif.Model.Dynamic

/-! # Linear probing -/

namespace ISD

namespace Probe

variable {α : Type}

/-- Slot `d` of the probe sequence from `h`. -/
def slot (T : List (Option α)) (h d : Nat) : Option α := T.getD ((h + d) % T.length) Option.none

theorem succ_mod {N h : Nat} (hh : h < N) : (if h + 1 ≥ N then 0 else h + 1) = (h + 1) % N := by
  split
  · have : h + 1 = N := by omega
    rw [this, Nat.mod_self]
  · rw [Nat.mod_eq_of_lt (by omega)]

theorem slot_shift (T : List (Option α)) (h d : Nat) : slot T ((h + 1) % T.length) d = slot T h (d + 1) := by
  unfold slot
  rw [Nat.mod_add_mod]
  congr 2; omega

theorem slot_zero {T : List (Option α)} {h : Nat} (hh : h < T.length) : slot T h 0 = T.getD h Option.none := by
  unfold slot; rw [Nat.add_zero, Nat.mod_eq_of_lt hh]

theorem slot_mod (T : List (Option α)) (h d : Nat) : slot T (h % T.length) d = slot T h d := by
  unfold slot; rw [Nat.mod_add_mod]

/-- Every slot of the table is on every probe sequence. -/
theorem slot_covers {T : List (Option α)} {i : Nat} (hi : i < T.length) (h : Nat) : ∃ d, d < T.length ∧ (h + d) % T.length = i := by
  have hN : 0 < T.length := by omega
  have hm := Nat.mod_lt h hN
  refine ⟨(i + (T.length - h % T.length)) % T.length, Nat.mod_lt _ hN, ?_⟩
  rw [Nat.add_mod_mod]
  have : h = T.length * (h / T.length) + h % T.length := (Nat.div_add_mod h _).symm
  have e : h + (i + (T.length - h % T.length)) = i + T.length * (h / T.length + 1) := by
    rw [Nat.mul_add]; omega
  rw [e, Nat.add_mul_mod_self_left, Nat.mod_eq_of_lt hi]

theorem firstEmpty_spec (T : List (Option α)) : ∀ fuel h, h < T.length → (∃ d, d < fuel ∧ slot T h d = Option.none) →
    ∃ d, d < fuel ∧ firstEmpty T fuel h = some ((h + d) % T.length) ∧ slot T h d = Option.none ∧
      ∀ e, e < d → slot T h e ≠ Option.none := by
  intro fuel
  induction fuel with
  | zero => rintro h _ ⟨d, hd, _⟩; omega
  | succ fuel ih =>
    rintro h hh ⟨d, hd, he⟩
    rw [firstEmpty]
    rcases h0 : T.getD h Option.none with _ | x
    · refine ⟨0, by omega, ?_, ?_, by omega⟩
      · dsimp only; rw [Nat.add_zero, Nat.mod_eq_of_lt hh]
      · rw [slot_zero hh, h0]
    · have hN : 0 < T.length := by omega
      have hd0 : d ≠ 0 := by
        rintro rfl; rw [slot_zero hh, h0] at he; exact (nomatch he)
      obtain ⟨d', hd', e1, e2, e3⟩ := ih ((h + 1) % T.length) (Nat.mod_lt _ hN)
        ⟨d - 1, by omega, by rw [slot_shift, show d - 1 + 1 = d by omega]; exact he⟩
      refine ⟨d' + 1, by omega, ?_, ?_, ?_⟩
      · dsimp only
        rw [succ_mod hh, e1, Nat.mod_add_mod, show h + 1 + d' = h + (d' + 1) by omega]
      · rw [← slot_shift]; exact e2
      · intro e hlt
        cases e with
        | zero => rw [slot_zero hh, h0]; exact fun h => nomatch h
        | succ e => rw [← slot_shift]; exact e3 e (by omega)

/-- What the table knows after inserting `xs`. -/
structure Inv (hash : α → Nat) (N : Nat) (T : List (Option α)) (xs : List α) : Prop where
  len : T.length = N
  mem : ∀ x, x ∈ xs ↔ some x ∈ T
  empties : T.countP Option.isNone + xs.length = N
  path : ∀ i x, T[i]? = some (some x) → ∃ d, d < N ∧ (hash x + d) % N = i ∧ ∀ e, e < d → slot T (hash x) e ≠ Option.none

theorem slot_set_ne {T : List (Option α)} {i h e : Nat} {x : α} (hs : slot T h e ≠ Option.none) :
    slot (T.set i (some x)) h e ≠ Option.none := by
  unfold slot at *
  rw [List.getD_eq_getElem?_getD] at *
  rw [List.length_set, List.getElem?_set]
  split
  · rename_i h1
    split
    · simp
    · rename_i h2
      rw [← h1, List.getElem?_eq_none (by omega)] at hs
      exact absurd rfl hs
  · exact hs

theorem slot_get {T : List (Option α)} {h d : Nat} (hN : 0 < T.length) : T[(h + d) % T.length]? = some (slot T h d) := by
  have := Nat.mod_lt (h + d) hN
  unfold slot
  rw [List.getD_eq_getElem?_getD, List.getElem?_eq_getElem this]; rfl

theorem countP_set {T : List (Option α)} {i : Nat} {x : α} (h : T[i]? = some Option.none) :
    (T.set i (some x)).countP Option.isNone + 1 = T.countP Option.isNone := by
  induction T generalizing i with
  | nil => simp at h
  | cons a T ih =>
    cases i with
    | zero =>
      have : a = Option.none := by simpa using h
      subst this; simp
    | succ i =>
      have := ih (i := i) (by simpa using h)
      simp only [List.set_cons_succ, List.countP_cons]; omega

theorem exists_empty {T : List (Option α)} (h : 0 < T.countP Option.isNone) (s : Nat) :
    ∃ d, d < T.length ∧ slot T s d = Option.none := by
  obtain ⟨a, ha, hn⟩ := List.countP_pos_iff.mp h
  obtain ⟨i, hi⟩ := List.mem_iff_getElem?.mp ha
  have hl : i < T.length := (List.getElem?_eq_some_iff.mp hi).1
  obtain ⟨d, hd, e⟩ := slot_covers hl s
  refine ⟨d, hd, ?_⟩
  have := slot_get (T := T) (h := s) (d := d) (by omega)
  rw [e, hi] at this
  have : slot T s d = a := by simpa using this.symm
  rw [this]; simpa using hn

theorem Inv.insert {hash : α → Nat} {N : Nat} {T : List (Option α)} {xs : List α} (h : Inv hash N T xs) (hN : xs.length < N) (x : α)
    (hx : hash x < N) : Inv hash N (insertInto T (hash x) x) (xs ++ [x]) := by
  have hl := h.len
  have he := h.empties
  have hpos : 0 < T.length := by omega
  obtain ⟨d, hd, e1, e2, e3⟩ := firstEmpty_spec T T.length (hash x) (by omega) (exists_empty (by omega) _)
  unfold insertInto
  rw [e1]
  dsimp only
  have hg := slot_get (T := T) (h := hash x) (d := d) hpos
  rw [e2] at hg
  have hi := Nat.mod_lt (hash x + d) hpos
  generalize hidx : (hash x + d) % T.length = i at *
  refine ⟨by rw [List.length_set, hl], ?_, ?_, ?_⟩
  · intro y
    rw [List.mem_append, List.mem_singleton, h.mem y, List.mem_iff_getElem?, List.mem_iff_getElem?]
    constructor
    · rintro (⟨j, hj⟩ | rfl)
      · refine ⟨j, ?_⟩
        rw [List.getElem?_set, if_neg, hj]
        rintro rfl; rw [hg] at hj; cases hj
      · exact ⟨i, by rw [List.getElem?_set, if_pos rfl, if_pos hi]⟩
    · rintro ⟨j, hj⟩
      rw [List.getElem?_set] at hj
      split at hj
      · cases hj; exact .inr rfl
      · exact .inl ⟨j, hj⟩
  · have := countP_set (x := x) hg
    rw [List.length_append, List.length_singleton]; omega
  · intro j y hj
    rw [List.getElem?_set] at hj
    split at hj
    · rename_i hij
      cases hj
      exact ⟨d, by omega, by rw [← hl, hidx, hij], fun e he' => slot_set_ne (e3 e he')⟩
    · obtain ⟨d', hd', e1', e3'⟩ := h.path j y hj
      exact ⟨d', hd', e1', fun e he' => slot_set_ne (e3' e he')⟩

theorem Inv.empty (hash : α → Nat) (N : Nat) : Inv hash N (List.replicate N Option.none) [] := by
  refine ⟨List.length_replicate, ?_, ?_, ?_⟩
  · intro x; simp
  · rw [List.countP_replicate]; simp
  · intro i x h
    rw [List.getElem?_replicate] at h
    split at h <;> cases h

theorem Inv.fold {hash : α → Nat} {N : Nat} (hx : ∀ x, hash x < N) : ∀ (ys : List α) (T : List (Option α)) (xs : List α),
    Inv hash N T xs → xs.length + ys.length ≤ N → Inv hash N (ys.foldl (fun T x => insertInto T (hash x) x) T) (xs ++ ys) := by
  intro ys
  induction ys with
  | nil => intro T xs h _; simpa using h
  | cons y ys ih =>
    intro T xs h hl
    rw [List.length_cons] at hl
    have := ih _ (xs ++ [y]) (h.insert (by omega) y (hx y)) (by simp; omega)
    simpa using this

end Probe

theorem dynHash_lt (dt ct : Nat) : dynHash dt ct < 577 := Nat.mod_lt _ (by omega)

theorem all_length : DynClass.all.length = 324 := by decide +kernel

theorem dynTable_inv : Probe.Inv (fun cl : DynClass => dynHash cl.dt cl.ct) 577 dynTable DynClass.all := by
  have := Probe.Inv.fold (hash := fun cl : DynClass => dynHash cl.dt cl.ct) (N := 577) (fun _ => dynHash_lt _ _) DynClass.all _ _
    (Probe.Inv.empty _ _) (by rw [all_length]; decide)
  rw [List.nil_append] at this
  exact this

/-- No two classes share their pair of ids. -/
theorem all_keys_nodup : (DynClass.all.map fun cl => (cl.dt, cl.ct)).Nodup := by decide +kernel

theorem all_small : ∀ cl ∈ DynClass.all, cl.dt < 2 ^ 16 ∧ cl.ct < 2 ^ 16 := by decide +kernel

attribute [local irreducible] dynTable DynClass.all

theorem dynTable_length : dynTable.length = 577 := dynTable_inv.len

/-- Where the loop stops: an empty slot, or the class looked for. -/
def stopsAt (dt ct : Word 4) (o : Option DynClass) : Prop :=
  o = Option.none ∨ ∃ cl, o = some cl ∧ BitVec.ofNat 32 cl.dt = dt ∧ BitVec.ofNat 32 cl.ct = ct

theorem findStep_stop {T : List (Option DynClass)} {dt ct : Word 4} {h : Nat} (hs : stopsAt dt ct (T.getD h Option.none)) :
    findStep T dt ct h = .done (T.getD h Option.none) := by
  rw [findStep]
  rcases hs with e | ⟨cl, e, h1⟩
  · rw [e]
  · rw [e]; dsimp only; rw [if_pos h1]

theorem findStep_next {T : List (Option DynClass)} {dt ct : Word 4} {h : Nat} (hh : h < 577) (hs : ¬ stopsAt dt ct (T.getD h Option.none)) :
    findStep T dt ct h = .next ((h + 1) % 577) := by
  rw [findStep]
  rcases e : T.getD h Option.none with _ | cl
  · exact absurd (.inl e) hs
  · dsimp only
    rw [if_neg, Probe.succ_mod hh]
    intro h1; exact hs (.inr ⟨cl, e, h1⟩)

theorem findLoop_done {T : List (Option DynClass)} {dt ct : Word 4} {fuel h : Nat} {r : Option DynClass} (e : findStep T dt ct h = .done r) :
    findLoop T dt ct (fuel + 1) h = r := by
  rw [findLoop, e]

theorem findLoop_next {T : List (Option DynClass)} {dt ct : Word 4} {fuel h h' : Nat} (e : findStep T dt ct h = .next h') :
    findLoop T dt ct (fuel + 1) h = findLoop T dt ct fuel h' := by
  rw [findLoop, e]

/-- The loop returns the content of the first slot of the probe sequence at which it stops. -/
theorem find_ends {T : List (Option DynClass)} (hl : T.length = 577) (dt ct : Word 4) : ∀ fuel h, h < 577 → ∀ d, d < fuel → stopsAt dt ct (Probe.slot T h d) →
    (∀ e, e < d → ¬ stopsAt dt ct (Probe.slot T h e)) →
    findLoop T dt ct fuel h = Probe.slot T h d ∧ Graph.Ends (findStep T dt ct) h (Probe.slot T h d) := by
  intro fuel
  induction fuel with
  | zero => intro h _ d hd; omega
  | succ fuel ih =>
    intro h hh d hd hs hn
    have h0 : Probe.slot T h 0 = T.getD h Option.none := Probe.slot_zero (by omega)
    cases d with
    | zero =>
      rw [h0] at hs ⊢
      have := findStep_stop hs
      exact ⟨findLoop_done this, .done this⟩
    | succ d =>
      have h1 := hn 0 (by omega)
      rw [h0] at h1
      have hst := findStep_next hh h1
      rw [findLoop_next hst]
      have hsh := fun e => Probe.slot_shift T h e
      rw [hl] at hsh
      have := ih ((h + 1) % 577) (Nat.mod_lt _ (by omega)) d (by omega) (by rw [hsh]; exact hs)
        (fun e he => by rw [hsh]; exact hn (e + 1) (by omega))
      rw [hsh] at this
      exact ⟨this.1, .next hst this.2⟩

theorem exists_least {P : Nat → Prop} {n : Nat} (h : P n) : ∃ d, d ≤ n ∧ P d ∧ ∀ e, e < d → ¬ P e := by
  induction n using Nat.strongRecOn with
  | _ n ih =>
    by_cases hx : ∃ m, m < n ∧ P m
    · obtain ⟨m, hm, hp⟩ := hx
      obtain ⟨d, h1, h2, h3⟩ := ih m hm hp
      exact ⟨d, by omega, h2, h3⟩
    · exact ⟨n, by omega, h, fun e he hp => hx ⟨e, he, hp⟩⟩

theorem ofNat32_inj {a b : Nat} (ha : a < 2 ^ 16) (hb : b < 2 ^ 16) (h : BitVec.ofNat 32 a = BitVec.ofNat 32 b) : a = b := by
  have := congrArg BitVec.toNat h
  rw [BitVec.toNat_ofNat, BitVec.toNat_ofNat, Nat.mod_eq_of_lt (by omega), Nat.mod_eq_of_lt (by omega)] at this
  exact this

theorem nodup_map_inj {α β : Type} {f : α → β} {l : List α} (h : (l.map f).Nodup) {a b : α} (ha : a ∈ l) (hb : b ∈ l) (e : f a = f b) :
    a = b := by
  induction l with
  | nil => cases ha
  | cons x l ih =>
    rw [List.map_cons, List.nodup_cons] at h
    rcases List.mem_cons.mp ha with rfl | ha' <;> rcases List.mem_cons.mp hb with rfl | hb'
    · rfl
    · exact absurd (e ▸ List.mem_map_of_mem hb') h.1
    · exact absurd (e ▸ List.mem_map_of_mem ha') h.1
    · exact ih h.2 ha' hb'

theorem keys_unique {a b : DynClass} (ha : a ∈ DynClass.all) (hb : b ∈ DynClass.all) (h1 : a.dt = b.dt) (h2 : a.ct = b.ct) : a = b :=
  nodup_map_inj all_keys_nodup ha hb (by rw [h1, h2])

theorem sizeOfEnum_ofNat {a : Nat} (ha : a < 2 ^ 16) : sizeOfEnum (BitVec.ofNat 32 a) = a := by
  unfold sizeOfEnum
  rw [BitVec.signExtend_eq_setWidth_of_msb_false]
  · rw [BitVec.toNat_setWidth, BitVec.toNat_ofNat, Nat.mod_eq_of_lt (by omega), Nat.mod_eq_of_lt (by omega)]
  · rw [BitVec.msb_eq_decide, BitVec.toNat_ofNat]; simp; omega

theorem findStart_ofNat {dt ct : Nat} (h1 : dt < 2 ^ 16) (h2 : ct < 2 ^ 16) :
    findStart (BitVec.ofNat 32 dt) (BitVec.ofNat 32 ct) = dynHash dt ct := by
  unfold findStart dynHash wrap64
  rw [sizeOfEnum_ofNat h1, sizeOfEnum_ofNat h2, Nat.mod_eq_of_lt (a := dt * 109) (by omega), Nat.mod_eq_of_lt (a := ct * 991) (by omega),
    Nat.mod_eq_of_lt (b := 2 ^ 64) (by omega)]

theorem findStart_lt (dt ct : Word 4) : findStart dt ct < 577 := Nat.mod_lt _ (by omega)

theorem find_exact (dt ct : Word 4) : Graph.Ends (findStep dynTable dt ct) (findStart dt ct) (findTypeClass dt ct) ∧
    ∀ cl, findTypeClass dt ct = some cl ↔ cl ∈ DynClass.all ∧ BitVec.ofNat 32 cl.dt = dt ∧ BitVec.ofNat 32 cl.ct = ct := by
  have I := dynTable_inv
  have hl := dynTable_length
  have he := I.empties
  have hal := all_length
  obtain ⟨d0, hd0, hn0⟩ := Probe.exists_empty (T := dynTable) (by omega) (findStart dt ct)
  obtain ⟨d, hd, hs, hmin⟩ := exists_least (P := fun d => stopsAt dt ct (Probe.slot dynTable (findStart dt ct) d)) (n := d0) (.inl hn0)
  obtain ⟨e1, e2⟩ := find_ends hl dt ct 577 _ (findStart_lt dt ct) d (by omega) hs hmin
  refine ⟨by unfold findTypeClass; rw [e1]; exact e2, ?_⟩
  intro cl
  unfold findTypeClass
  rw [e1]
  have hg := Probe.slot_get (T := dynTable) (h := findStart dt ct) (d := d) (by omega)
  constructor
  · intro h
    rw [h] at hg
    have hm : cl ∈ DynClass.all := (I.mem cl).mpr (List.mem_iff_getElem?.mpr ⟨_, hg⟩)
    rcases hs with hs | ⟨cl', hs, h1⟩
    · rw [hs] at h; cases h
    · rw [hs] at h; cases h; exact ⟨hm, h1⟩
  · rintro ⟨hm, rfl, rfl⟩
    obtain ⟨b1, b2⟩ := all_small cl hm
    rw [findStart_ofNat b1 b2] at *
    obtain ⟨i, hi⟩ := List.mem_iff_getElem?.mp ((I.mem cl).mp hm)
    obtain ⟨dd, hdd, epos, efill⟩ := I.path i cl hi
    have hslot : Probe.slot dynTable (dynHash cl.dt cl.ct) dd = some cl := by
      have := Probe.slot_get (T := dynTable) (h := dynHash cl.dt cl.ct) (d := dd) (by omega)
      rw [hl, epos, hi] at this
      exact (Option.some.inj this).symm
    rcases hs with hs | ⟨cl', hs, h1, h2⟩
    · exfalso
      rcases Nat.lt_trichotomy d dd with hlt | rfl | hlt
      · exact efill d hlt hs
      · rw [hslot] at hs; cases hs
      · exact hmin dd hlt (.inr ⟨cl, hslot, rfl, rfl⟩)
    · rw [hs] at hg ⊢
      have hm' : cl' ∈ DynClass.all := (I.mem cl').mpr (List.mem_iff_getElem?.mpr ⟨_, hg⟩)
      obtain ⟨c1, c2⟩ := all_small cl' hm'
      rw [keys_unique hm' hm (ofNat32_inj c1 b1 h1) (ofNat32_inj c2 b2 h2)]

end ISD
