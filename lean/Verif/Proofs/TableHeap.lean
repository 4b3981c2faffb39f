import Verif.Spec.TableHeap

/-!
# Tables and the objects they own: proofs
-/

set_option linter.unusedSectionVars false

namespace ISD.TableHeap

variable {K V : Type} [DecidableEq K]

/-! ## Running calls -/

/-- Undefined behaviour does not happen, and what is returned satisfies `Q`. -/
def Sure {σ α : Type} (r : Res σ α) (Q : α → σ → Prop) : Prop :=
  match r with
  | .ok a s => Q a s
  | .throw _ => True
  | .ub => False

theorem Sure.bind {σ α β : Type} {p : Prog σ α} {f : α → Prog σ β} {s : σ} {Q : β → σ → Prop} (h : Sure (p s) fun a s' => Sure (f a s') Q) :
    Sure ((p >>= f) s) Q := by
  rw [Prog.bind_apply]
  cases e : p s with
  | ok a s' => rw [e] at h; exact h
  | throw s' => trivial
  | ub => rw [e] at h; exact h

theorem Sure.mono {σ α : Type} {r : Res σ α} {Q Q' : α → σ → Prop} (h : Sure r Q) (hq : ∀ a s, Q a s → Q' a s) : Sure r Q' := by
  cases r with
  | ok a s => exact hq a s h
  | throw s => trivial
  | ub => exact h

theorem update_self {α : Type} (f : Nat → Option α) (i : Nat) (x : Option α) : update f i x i = x := if_pos rfl
theorem update_ne {α : Type} (f : Nat → Option α) {i j : Nat} (x : Option α) (h : j ≠ i) : update f i x j = f j := if_neg h

/-- As `Sound`, with objects that belong to no table (yet, or any more). -/
structure Own (S : ClassSpec V) (w : World K V) (L : List Nat) : Prop where
  keys : ∀ t e, w.tables t = some e → (e.map Prod.fst).Nodup
  live : ∀ a, w.heap a ≠ none ↔ a ∈ L ∨ ∃ t k, w.Ref t k a
  one : ∀ {t k t' k' a}, w.Ref t k a → w.Ref t' k' a → t = t' ∧ k = k'
  loose : ∀ {a t k}, a ∈ L → ¬ w.Ref t k a
  nodup : L.Nodup
  wf : ∀ a v, w.heap a = some v → S.wf v

theorem own_nil {S : ClassSpec V} {w : World K V} : Own S w [] ↔ Sound S w :=
  ⟨fun h => ⟨h.keys, fun a => by simpa using h.live a, h.one, h.wf⟩, fun h => ⟨h.keys, fun a => by simpa using h.live a, h.one, by simp, .nil, h.wf⟩⟩

/-- The pointers in a list of entries. -/
def ptrs (e : Table K Nat) : List Nat := e.filterMap Prod.snd

theorem mem_ptrs {e : Table K Nat} (hk : (e.map Prod.fst).Nodup) (a : Nat) : a ∈ ptrs e ↔ ∃ k, e.find k = some (some a) := by
  unfold ptrs
  rw [List.mem_filterMap]
  exact ⟨fun ⟨⟨k, p⟩, h, hp⟩ => ⟨k, (find_iff hk k _).mpr (hp ▸ h)⟩, fun ⟨k, h⟩ => ⟨(k, some a), (find_iff hk k _).mp h, rfl⟩⟩

theorem nodup_ptrs {e : Table K Nat} (hk : (e.map Prod.fst).Nodup)
    (h : ∀ k k' a, e.find k = some (some a) → e.find k' = some (some a) → k = k') : (ptrs e).Nodup := by
  have h' : ∀ k k' a, (k, some a) ∈ e → (k', some a) ∈ e → k = k' := fun k k' a m m' =>
    h k k' a ((find_iff hk k _).mpr m) ((find_iff hk k' _).mpr m')
  clear h
  induction e with
  | nil => exact .nil
  | cons x e ih =>
    obtain ⟨k, p⟩ := x
    rw [List.map_cons, List.nodup_cons] at hk
    have ih := ih hk.2 fun k k' a m m' => h' k k' a (.tail _ m) (.tail _ m')
    cases p with
    | none => exact ih
    | some a =>
      refine List.nodup_cons.mpr ⟨fun hm => ?_, ih⟩
      obtain ⟨⟨k', p⟩, hm, hp⟩ := List.mem_filterMap.mp hm
      cases hp
      have := h' k k' a (.head _) (.tail _ hm)
      subst this
      exact hk.1 (List.mem_map.mpr ⟨_, hm, rfl⟩)

section own

variable {S : ClassSpec V} {w : World K V} {L : List Nat}

theorem Own.new (h : Own S w L) {a : Nat} {v : V} (ha : w.heap a = none) (hv : S.wf v) : Own S { w with heap := update w.heap a (some v) } (a :: L) where
  keys := h.keys
  live b := by
    show update w.heap a (some v) b ≠ none ↔ _
    by_cases hb : b = a
    · subst hb
      rw [update_self]
      simp
    · rw [update_ne _ _ hb, h.live b, List.mem_cons]
      exact ⟨fun h => h.imp .inr id, fun h => h.imp (fun h => h.resolve_left hb) id⟩
  one := h.one
  loose {b t k} hb hr := by
    rcases List.mem_cons.mp hb with rfl | hb
    · exact (h.live b).mpr (.inr ⟨t, k, hr⟩) ha
    · exact h.loose hb hr
  nodup := List.nodup_cons.mpr ⟨fun hm => (h.live a).mpr (.inl hm) ha, h.nodup⟩
  wf b x hx := by
    by_cases hb : b = a
    · subst hb
      have hx : update w.heap b (some v) b = some x := hx
      rw [update_self] at hx
      cases hx
      exact hv
    · have hx : update w.heap a (some v) b = some x := hx
      rw [update_ne _ _ hb] at hx
      exact h.wf b x hx

theorem Own.delete {a : Nat} (h : Own S w (a :: L)) : ∃ v, w.heap a = some v ∧ Own S { w with heap := update w.heap a none } L := by
  obtain ⟨v, hv⟩ := Option.ne_none_iff_exists'.mp ((h.live a).mpr (.inl (.head _)))
  refine ⟨v, hv, h.keys, fun b => ?_, h.one, fun hb => h.loose (.tail _ hb), (List.nodup_cons.mp h.nodup).2, fun b x hx => ?_⟩
  · show update w.heap a none b ≠ none ↔ _
    by_cases hb : b = a
    · subst hb
      rw [update_self]
      refine ⟨fun h => absurd rfl h, fun h' => ?_⟩
      rcases h' with h' | ⟨t, k, hr⟩
      · exact absurd h' (List.nodup_cons.mp h.nodup).1
      · exact absurd hr (h.loose (.head _))
    · rw [update_ne _ _ hb, h.live b, List.mem_cons]
      exact ⟨fun h => h.imp (fun h => h.resolve_left hb) id, fun h => h.imp .inr id⟩
  · have hx : update w.heap a none b = some x := hx
    by_cases hb : b = a
    · subst hb; rw [update_self] at hx; cases hx
    · rw [update_ne _ _ hb] at hx; exact h.wf b x hx

/-- A table gets other entries, with pointers that were in the table or loose before; the others are loose afterwards. -/
theorem Own.relink (h : Own S w L) {t : Nat} {e' : Option (Table K Nat)} {L' : List Nat} (hk : ∀ x, e' = some x → (x.map Prod.fst).Nodup)
    (hp : ∀ a, (a ∈ L' ∨ ∃ x k, e' = some x ∧ x.find k = some (some a)) ↔ (a ∈ L ∨ ∃ k, w.Ref t k a))
    (h1 : ∀ x k k' a, e' = some x → x.find k = some (some a) → x.find k' = some (some a) → k = k')
    (hl : ∀ a x k, a ∈ L' → e' = some x → x.find k ≠ some (some a)) (hn : L'.Nodup) : Own S { w with tables := update w.tables t e' } L' := by
  have hself : ∀ k a, World.Ref { w with tables := update w.tables t e' } t k a ↔ ∃ x, e' = some x ∧ x.find k = some (some a) := by
    intro k a
    unfold World.Ref
    dsimp only
    rw [update_self]
  have hother : ∀ {t'} k a, t' ≠ t → (World.Ref { w with tables := update w.tables t e' } t' k a ↔ w.Ref t' k a) := by
    intro t' k a ht
    unfold World.Ref
    dsimp only
    rw [update_ne _ _ ht]
  -- a pointer of the new entries or the new loose ones is not one of another table
  have apart : ∀ {a t' k'}, (a ∈ L' ∨ ∃ x k, e' = some x ∧ x.find k = some (some a)) → t' ≠ t → ¬ w.Ref t' k' a := by
    intro a t' k' ha ht hr
    rcases (hp a).mp ha with ha | ⟨k, ha⟩
    · exact h.loose ha hr
    · exact ht (h.one hr ha).1
  refine ⟨fun t' e he => ?_, fun a => ?_, fun {t1 k1 t2 k2 a} r1 r2 => ?_, fun {a t' k'} ha hr => ?_, hn, h.wf⟩
  · dsimp only at he
    by_cases ht : t' = t
    · subst ht; rw [update_self] at he; exact hk e he
    · rw [update_ne _ _ ht] at he; exact h.keys t' e he
  · show w.heap a ≠ none ↔ _
    rw [h.live a]
    constructor
    · intro h'
      have : (a ∈ L ∨ ∃ k, w.Ref t k a) ∨ ∃ t' k, t' ≠ t ∧ w.Ref t' k a := by
        rcases h' with h' | ⟨t', k, hr⟩
        · exact .inl (.inl h')
        · by_cases ht : t' = t
          · subst ht; exact .inl (.inr ⟨k, hr⟩)
          · exact .inr ⟨t', k, ht, hr⟩
      rcases this with h' | ⟨t', k, ht, hr⟩
      · rcases (hp a).mpr h' with h' | ⟨x, k, h', hx⟩
        · exact .inl h'
        · exact .inr ⟨t, k, (hself k a).mpr ⟨x, h', hx⟩⟩
      · exact .inr ⟨t', k, (hother k a ht).mpr hr⟩
    · intro h'
      rcases h' with h' | ⟨t', k, hr⟩
      · exact ((hp a).mp (.inl h')).imp id fun ⟨k, hr⟩ => ⟨t, k, hr⟩
      · by_cases ht : t' = t
        · subst ht
          obtain ⟨x, hx, hf⟩ := (hself k a).mp hr
          exact ((hp a).mp (.inr ⟨x, k, hx, hf⟩)).imp id fun ⟨k, hr⟩ => ⟨t', k, hr⟩
        · exact .inr ⟨t', k, (hother k a ht).mp hr⟩
  · by_cases ht1 : t1 = t <;> by_cases ht2 : t2 = t
    · subst ht1; subst ht2
      obtain ⟨x, hx, hf⟩ := (hself _ a).mp r1
      obtain ⟨x', hx', hf'⟩ := (hself _ a).mp r2
      rw [hx] at hx'; cases hx'
      exact ⟨rfl, h1 x _ _ a hx hf hf'⟩
    · subst ht1
      obtain ⟨x, hx, hf⟩ := (hself _ a).mp r1
      exact absurd ((hother _ a ht2).mp r2) (apart (.inr ⟨x, _, hx, hf⟩) ht2)
    · subst ht2
      obtain ⟨x, hx, hf⟩ := (hself _ a).mp r2
      exact absurd ((hother _ a ht1).mp r1) (apart (.inr ⟨x, _, hx, hf⟩) ht1)
    · exact h.one ((hother _ a ht1).mp r1) ((hother _ a ht2).mp r2)
  · by_cases ht : t' = t
    · subst ht
      obtain ⟨x, hx, hf⟩ := (hself _ a).mp hr
      exact hl a x _ ha hx hf
    · exact apart (.inl ha) ht ((hother _ a ht).mp hr)


theorem look_some {t : Nat} {m : FMap K V} (h : w.look t = some m) : ∃ e, w.tables t = some e ∧ m = fun k => (e.find k).map fun p => p.bind w.heap := by
  unfold World.look at h
  obtain ⟨e, he, hm⟩ := Option.map_eq_some_iff.mp h
  exact ⟨e, he, hm.symm⟩

theorem look_of {t : Nat} {e : Table K Nat} (h : w.tables t = some e) : w.look t = some fun k => (e.find k).map fun p => p.bind w.heap := by
  unfold World.look
  rw [h]; rfl

/-- One table changes, and with it objects that no other table has. -/
theorem look_eq {w' : World K V} {t : Nat} {x : Option (FMap K V)} (ht : ∀ t', t' ≠ t → w'.tables t' = w.tables t')
    (hh : ∀ t', t' ≠ t → ∀ k a, w.Ref t' k a → w'.heap a = w.heap a) (hx : w'.look t = x) : w'.look = setMap w.look t x := by
  funext t'
  unfold setMap
  split
  · next h => subst h; exact hx
  · next h =>
    unfold World.look
    rw [ht t' h]
    cases e : w.tables t' with
    | none => rfl
    | some e' =>
      refine congrArg some (funext fun k => ?_)
      show (e'.find k).map (fun p => p.bind w'.heap) = (e'.find k).map (fun p => p.bind w.heap)
      cases ef : e'.find k with
      | none => rfl
      | some p =>
        cases p with
        | none => rfl
        | some a => exact congrArg some (hh t' h k a ⟨e', e, ef⟩)

theorem table_ok {t : Nat} {e : Table K Nat} (h : w.tables t = some e) : World.table t w = .ok e w := by
  unfold World.table; rw [h]

theorem table_throw {t : Nat} (h : w.tables t = none) : World.table t w = .throw w := by
  unfold World.table; rw [h]

theorem setTable_ok (t : Nat) (x : Option (Table K Nat)) (w : World K V) : World.setTable t x w = .ok () ⟨w.heap, update w.tables t x⟩ := rfl

theorem new_ok {a : Nat} (h : w.heap a = none) (v : V) : World.new a v w = .ok () ⟨update w.heap a (some v), w.tables⟩ := by
  unfold World.new; rw [h]

theorem delete_ok {a : Nat} {v : V} (h : w.heap a = some v) : World.delete a w = .ok () ⟨update w.heap a none, w.tables⟩ := by
  unfold World.delete; rw [h]

theorem deref_ok {a : Nat} {v : V} (h : w.heap a = some v) : World.deref a w = .ok v w := by
  unfold World.deref; rw [h]

theorem sure_table {t : Nat} {Q : Table K Nat → World K V → Prop} (h : ∀ e, w.tables t = some e → Q e w) : Sure (World.table t w) Q := by
  cases e : w.tables t with
  | none => rw [table_throw e]; trivial
  | some x => rw [table_ok e]; exact h x e

theorem sure_new {a : Nat} {v : V} {Q : Unit → World K V → Prop} (h : w.heap a = none → Q () ⟨update w.heap a (some v), w.tables⟩) :
    Sure (World.new a v w) Q := by
  unfold World.new
  cases e : w.heap a with
  | none => exact h e
  | some x => trivial

theorem sure_make {t : Nat} {Q : Unit → World K V → Prop} (h : w.tables t = none → Q () ⟨w.heap, update w.tables t (some [])⟩) :
    Sure (World.makeTable t w) Q := by
  unfold World.makeTable
  cases e : w.tables t with
  | none => exact h e
  | some x => trivial

theorem deleteAll_own {e : Table K Nat} (hk : (ptrs e).Nodup) (h : Own S w (ptrs e ++ L)) :
    ∃ heap', World.deleteAll e w = .ok () { w with heap := heap' } ∧ Own S { w with heap := heap' } L ∧ ∀ b, b ∉ ptrs e → heap' b = w.heap b := by
  induction e generalizing w with
  | nil => exact ⟨w.heap, rfl, h, fun _ _ => rfl⟩
  | cons x e ih =>
    obtain ⟨k, p⟩ := x
    cases p with
    | none => exact ih hk h
    | some a =>
      obtain ⟨v, hv, h'⟩ := Own.delete (L := ptrs e ++ L) (a := a) h
      obtain ⟨heap', e1, h1, h2⟩ := ih (List.nodup_cons.mp hk).2 h'
      refine ⟨heap', ?_, h1, fun b hb => ?_⟩
      · rw [World.deleteAll, Prog.bind_apply]
        unfold World.delete
        rw [hv]
        exact e1
      · have hb' : b ≠ a ∧ b ∉ ptrs e := ⟨fun e => hb (e ▸ .head _), fun hm => hb (.tail _ hm)⟩
        rw [h2 b hb'.2]
        exact update_ne _ _ hb'.1

/-- The entries of a table are taken out; their objects are loose. -/
theorem Own.takeOut (h : Own S w L) {t : Nat} {e : Table K Nat} (he : w.tables t = some e) (x : Option (Table K Nat)) (hx : x = none ∨ x = some []) :
    (ptrs e).Nodup ∧ Own S { w with tables := update w.tables t x } (ptrs e ++ L) := by
  have hk := h.keys t e he
  have hr : ∀ k a, w.Ref t k a ↔ e.find k = some (some a) := fun k a => ⟨fun ⟨e', h1, h2⟩ => by rw [he] at h1; cases h1; exact h2, fun h => ⟨e, he, h⟩⟩
  have hn : (ptrs e).Nodup := nodup_ptrs hk fun k k' a h1 h2 => (h.one ((hr k a).mpr h1) ((hr k' a).mpr h2)).2
  have hno : ∀ y k a, x = some y → y.find k ≠ some (some a) := by
    intro y k a hy
    rcases hx with hx | hx
    · rw [hx] at hy; cases hy
    · rw [hx] at hy; cases hy; exact fun h => nomatch h
  refine ⟨hn, h.relink (fun y hy => ?_) (fun a => ?_) (fun y k k' a hy hf => absurd hf (hno y k a hy)) (fun a y k _ hy => hno y k a hy) ?_⟩
  · rcases hx with hx | hx
    · rw [hx] at hy; cases hy
    · rw [hx] at hy; cases hy; exact .nil
  · rw [List.mem_append, mem_ptrs hk]
    constructor
    · rintro ((⟨k, h'⟩ | h') | ⟨y, k, hy, hf⟩)
      · exact .inr ⟨k, (hr k a).mpr h'⟩
      · exact .inl h'
      · exact absurd hf (hno y k a hy)
    · rintro (h' | ⟨k, h'⟩)
      · exact .inl (.inr h')
      · exact .inl (.inl ⟨k, (hr k a).mp h'⟩)
  · refine List.nodup_append.mpr ⟨hn, h.nodup, fun a ha b hb e => ?_⟩
    subst e
    obtain ⟨k, hf⟩ := (mem_ptrs hk a).mp ha
    exact h.loose hb ((hr k a).mpr hf)

/-- Entries are put into an empty table. -/
theorem Own.putIn {t : Nat} {e : Table K Nat} (hk : (e.map Prod.fst).Nodup) (hn : (ptrs e).Nodup) (h : Own S w (ptrs e ++ L))
    (hr : ∀ k a, ¬ w.Ref t k a) : Own S { w with tables := update w.tables t (some e) } L := by
  have hu := List.nodup_append.mp h.nodup
  refine h.relink (fun y hy => by cases hy; exact hk) (fun a => ?_) (fun y k k' a hy h1 h2 => ?_) (fun a y k ha hy hf => ?_) hu.2.1
  · rw [List.mem_append, mem_ptrs hk]
    constructor
    · rintro (h' | ⟨y, k, hy, hf⟩)
      · exact .inl (.inr h')
      · cases hy; exact .inl (.inl ⟨k, hf⟩)
    · rintro ((⟨k, hf⟩ | h') | ⟨k, h'⟩)
      · exact .inr ⟨e, k, rfl, hf⟩
      · exact .inl h'
      · exact absurd h' (hr k a)
  · cases hy
    clear hr h hu
    have m1 := (find_iff hk k _).mp h1
    have m2 := (find_iff hk k' _).mp h2
    clear h1 h2
    induction e with
    | nil => cases m1
    | cons x e ih =>
      obtain ⟨q, p⟩ := x
      rw [List.map_cons, List.nodup_cons] at hk
      cases p with
      | none =>
        cases m1 with
        | tail _ m1 =>
          cases m2 with
          | tail _ m2 => exact ih hk.2 hn m1 m2
      | some b =>
        have hn' := List.nodup_cons.mp hn
        rcases List.mem_cons.mp m1 with e1 | m1' <;> rcases List.mem_cons.mp m2 with e2 | m2'
        · cases e1; cases e2; rfl
        · cases e1; exact absurd (List.mem_filterMap.mpr ⟨(k', some a), m2', rfl⟩ : a ∈ ptrs e) hn'.1
        · cases e2; exact absurd (List.mem_filterMap.mpr ⟨(k, some a), m1', rfl⟩ : a ∈ ptrs e) hn'.1
        · exact ih hk.2 hn'.2 m1' m2'
  · cases hy
    exact hu.2.2 a ((mem_ptrs hk a).mpr ⟨k, hf⟩) a ha rfl

theorem clearTable_own (h : Own S w L) {t : Nat} {e : Table K Nat} (he : w.tables t = some e) :
    ∃ heap', World.clearTable t w = .ok () ⟨heap', update w.tables t (some [])⟩ ∧ Own S ⟨heap', update w.tables t (some [])⟩ L ∧
      ∀ b, (∀ k, ¬ w.Ref t k b) → heap' b = w.heap b := by
  obtain ⟨hn, h1⟩ := h.takeOut he (some []) (.inr rfl)
  obtain ⟨heap', e1, h2, h3⟩ := deleteAll_own hn h1
  refine ⟨heap', ?_, h2, fun b hb => h3 b fun hm => ?_⟩
  · rw [World.clearTable, Prog.bind_ok (table_ok he), Prog.bind_ok (setTable_ok ..)]
    exact e1
  · obtain ⟨k, hf⟩ := (mem_ptrs (h.keys t e he) b).mp hm
    exact hb k ⟨e, he, hf⟩


end own

section own

variable {S : ClassSpec V} {w : World K V} {L : List Nat}

/-- The object of a map value. -/
def ptrOf : Option (Option Nat) → List Nat
  | some (some a) => [a]
  | _ => []

theorem mem_ptrOf {x : Option (Option Nat)} {a : Nat} : a ∈ ptrOf x ↔ x = some (some a) := by
  match x with
  | none => simp [ptrOf]
  | some none => simp [ptrOf]
  | some (some b) => simp [ptrOf, eq_comm]

theorem nodup_ptrOf (x : Option (Option Nat)) : (ptrOf x).Nodup := by
  match x with
  | none => exact .nil
  | some none => exact .nil
  | some (some b) => simp [ptrOf]

theorem ref_iff {t : Nat} {e : Table K Nat} (he : w.tables t = some e) (k : K) (a : Nat) : w.Ref t k a ↔ e.find k = some (some a) :=
  ⟨fun ⟨e', h1, h2⟩ => by rw [he] at h1; cases h1; exact h2, fun h => ⟨e, he, h⟩⟩

/-- One entry of a table changes; its new pointer was loose, its old one is. -/
theorem Own.change {t : Nat} {e e' : Table K Nat} {k : K} {x : Option (Option Nat)} (h : Own S w (ptrOf x ++ L)) (he : w.tables t = some e)
    (hk : (e'.map Prod.fst).Nodup) (hf : ∀ k', e'.find k' = if k' = k then x else e.find k') :
    Own S ⟨w.heap, update w.tables t (some e')⟩ (ptrOf (e.find k) ++ L) := by
  have hn := List.nodup_append.mp h.nodup
  have hx : ∀ {k' a}, e.find k' = some (some a) → x ≠ some (some a) := fun {k' a} h1 h2 =>
    h.loose (List.mem_append.mpr (.inl (mem_ptrOf.mpr h2))) ((ref_iff he k' a).mpr h1)
  refine h.relink (fun y hy => by cases hy; exact hk) (fun a => ?_) (fun y k1 k2 a hy h1 h2 => ?_) (fun a y k' ha hy hy' => ?_) ?_
  · rw [List.mem_append, List.mem_append, mem_ptrOf, mem_ptrOf]
    constructor
    · rintro ((h' | h') | ⟨y, k', hy, h'⟩)
      · exact .inr ⟨k, (ref_iff he k a).mpr h'⟩
      · exact .inl (.inr h')
      · cases hy
        rw [hf] at h'
        split at h'
        · exact .inl (.inl h')
        · exact .inr ⟨k', (ref_iff he k' a).mpr h'⟩
    · rintro ((h' | h') | ⟨k', h'⟩)
      · exact .inr ⟨e', k, rfl, by rw [hf, if_pos rfl]; exact h'⟩
      · exact .inl (.inr h')
      · have h' := (ref_iff he k' a).mp h'
        by_cases hk' : k' = k
        · subst hk'; exact .inl (.inl h')
        · exact .inr ⟨e', k', rfl, by rw [hf, if_neg hk']; exact h'⟩
  · cases hy
    rw [hf] at h1 h2
    split at h1 <;> split at h2
    · next h3 h4 => rw [h3, h4]
    · exact absurd h1 (hx h2)
    · exact absurd h2 (hx h1)
    · exact (h.one ((ref_iff he k1 a).mpr h1) ((ref_iff he k2 a).mpr h2)).2
  · cases hy
    rw [hf] at hy'
    rcases List.mem_append.mp ha with ha | ha
    · rw [mem_ptrOf] at ha
      split at hy'
      · exact hx ha hy'
      · next hne => exact hne (h.one ((ref_iff he k' a).mpr hy') ((ref_iff he k a).mpr ha)).2
    · split at hy'
      · exact hn.2.2 a (mem_ptrOf.mpr hy') a ha rfl
      · exact h.loose (List.mem_append.mpr (.inr ha)) ((ref_iff he k' a).mpr hy')
  · refine List.nodup_append.mpr ⟨nodup_ptrOf _, hn.2.1, fun a ha b hb e1 => ?_⟩
    subst e1
    exact h.loose (List.mem_append.mpr (.inr hb)) ((ref_iff he k a).mpr (mem_ptrOf.mp ha))

/-- What the table holds then. -/
theorem look_change {t : Nat} {e e' : Table K Nat} {k : K} {x : Option (Option Nat)} (he : w.tables t = some e) {heap' : Nat → Option V}
    (hf : ∀ k', e'.find k' = if k' = k then x else e.find k') (hh : ∀ t' k' a, ¬ (t' = t ∧ k' = k) → w.Ref t' k' a → heap' a = w.heap a)
    {m : FMap K V} (hm : w.look t = some m) :
    (⟨heap', update w.tables t (some e')⟩ : World K V).look = setMap w.look t (some (m.with k (x.map fun p => p.bind heap'))) := by
  obtain ⟨e1, h1, rfl⟩ := look_some hm
  rw [he] at h1
  cases h1
  refine look_eq (fun t' ht => update_ne _ _ ht) (fun t' ht k' a hr => hh t' k' a (fun h => ht h.1) hr) ?_
  rw [look_of (e := e') (update_self ..)]
  refine congrArg some (funext fun k' => ?_)
  unfold FMap.with
  dsimp only
  rw [hf]
  split
  · rfl
  · next hne =>
    cases ef : e.find k' with
    | none => rfl
    | some p =>
      cases p with
      | none => rfl
      | some a => exact congrArg some (hh t k' a (fun h => hne h.2) ⟨e, he, ef⟩)

theorem update_same {α : Type} {f : Nat → Option α} {i : Nat} {x : Option α} (h : f i = x) : update f i x = f := by
  funext j
  unfold update
  split
  · next hj => subst hj; exact h.symm
  · rfl

theorem at_ok (ord : TableOrder (K × Option Nat)) {t : Nat} {e : Table K Nat} {k : K} {a : Nat} (he : w.tables t = some e)
    (hf : e.find k = some (some a)) : World.at ord t k w = .ok a w := by
  have hemp : (e.emplace ord k none).1 = e := by
    unfold Table.emplace
    rw [hf]; rfl
  rw [World.at, Prog.bind_ok (table_ok he), hemp, Prog.bind_ok (setTable_ok ..), hf, update_same he]
  rfl

theorem place_find (ord : TableOrder (K × Option Nat)) {e : Table K Nat} (hk : (e.map Prod.fst).Nodup) {k : K} (hf : e.find k = none) (p : Option Nat) :
    e.emplace ord k p = (ord.place e (k, p), true) ∧ ((ord.place e (k, p)).map Prod.fst).Nodup ∧
      ∀ k', Table.find (ord.place e (k, p)) k' = if k' = k then some p else e.find k' := by
  have := Holds.emplaceNew (m := fun k => e.find k) ⟨hk, fun _ => rfl⟩ ord k p hf
  exact ⟨this.1, this.2.nodup, this.2.find⟩

theorem emplace_there (ord : TableOrder (K × Option Nat)) {e : Table K Nat} {k : K} (hf : e.find k ≠ none) (p : Option Nat) :
    e.emplace ord k p = (e, false) := by
  unfold Table.emplace
  cases h : e.find k with
  | none => exact absurd h hf
  | some y => rfl

theorem look_at {t : Nat} {k : K} {a : Nat} {v : V} (hr : w.Ref t k a) (hv : w.heap a = some v) : ∃ m, w.look t = some m ∧ m k = some (some v) := by
  obtain ⟨e, he, hf⟩ := hr
  refine ⟨_, look_of he, ?_⟩
  show (e.find k).map (fun p => p.bind w.heap) = _
  rw [hf]
  exact congrArg some hv


/-- What the loop of `DeepCopy` has put under a key for which the source has `x`. -/
def Copied (same : V → V → Prop) (old : Nat → Option V) (heap' : Nat → Option V) (x y : Option (Option Nat)) : Prop :=
  match x with
  | none => False
  | some none => y = some none
  | some (some b) => ∃ a v v', y = some (some a) ∧ heap' a = some v' ∧ old b = some v ∧ same v' v

theorem copyLoop_own {M : Managed V} (hM : Lawful M S) (ord : TableOrder (K × Option Nat)) {d : Nat} (es : Table K Nat) :
    ∀ (as : List Nat) (w : World K V) (acc : Table K Nat), Own S w [] → w.tables d = some acc → (es.map Prod.fst).Nodup →
      (∀ k, Table.find es k ≠ none → acc.find k = none) → (∀ k b, Table.find es k = some (some b) → w.heap b ≠ none) →
      Sure (World.copyLoop M ord d es as w) fun _ w' => Own S w' [] ∧ (∀ t, t ≠ d → w'.tables t = w.tables t) ∧
        (∀ b v, w.heap b = some v → w'.heap b = some v) ∧
        ∃ acc', w'.tables d = some acc' ∧ ∀ k, (Table.find es k = none → acc'.find k = acc.find k) ∧
          (Table.find es k ≠ none → Copied (S.rel .exact) w.heap w'.heap (Table.find es k) (acc'.find k)) := by
  induction es with
  | nil =>
    intro as w acc h hd _ _ _
    exact ⟨h, fun _ _ => rfl, fun _ _ h => h, acc, hd, fun k => ⟨fun _ => rfl, fun h => absurd rfl h⟩⟩
  | cons x es ih =>
    obtain ⟨k, p⟩ := x
    intro as w acc h hd hn hacc hlive
    have hn' := List.nodup_cons.mp (show (k :: es.map Prod.fst).Nodup from hn)
    have hes : Table.find es k = none := (find_none k).mpr hn'.1
    have hk0 : acc.find k = none := hacc k (by rw [find_cons, if_pos rfl]; simp)
    have hpl := place_find ord (h.keys d acc hd) hk0
    have hacc' : ∀ q k', Table.find es k' ≠ none → Table.find (ord.place acc (k, q)) k' = none := by
      intro q k' hk'
      have hne : k' ≠ k := fun e => hk' (e ▸ hes)
      rw [(hpl q).2.2, if_neg hne]
      exact hacc k' (by rw [find_cons, if_neg hne]; exact hk')
    have hlive' : ∀ k' b, Table.find es k' = some (some b) → w.heap b ≠ none := by
      intro k' b hk'
      have hne : k' ≠ k := fun e => by rw [e, hes] at hk'; cases hk'
      exact hlive k' b (by rw [find_cons, if_neg hne]; exact hk')
    -- how the rest of the loop ends
    have fin : ∀ (q : Option Nat) (w1 : World K V), Own S w1 [] → w1.tables d = some (ord.place acc (k, q)) →
        (∀ t, t ≠ d → w1.tables t = w.tables t) → (∀ b v, w.heap b = some v → w1.heap b = some v) →
        (∀ w2 : World K V, (∀ b v, w1.heap b = some v → w2.heap b = some v) → Copied (S.rel .exact) w.heap w2.heap (some p) (some q)) → ∀ as,
        Sure (World.copyLoop M ord d es as w1) fun _ w' => Own S w' [] ∧ (∀ t, t ≠ d → w'.tables t = w.tables t) ∧
          (∀ b v, w.heap b = some v → w'.heap b = some v) ∧
          ∃ acc', w'.tables d = some acc' ∧ ∀ k', (Table.find ((k, p) :: es) k' = none → acc'.find k' = acc.find k') ∧
            (Table.find ((k, p) :: es) k' ≠ none → Copied (S.rel .exact) w.heap w'.heap (Table.find ((k, p) :: es) k') (acc'.find k')) := by
      intro q w1 h1 hd1 ht1 hh1 hc as
      refine (ih as w1 _ h1 hd1 hn'.2 (hacc' q) fun k' b hb hnone => ?_).mono fun _ w' ⟨o, t2, h2, acc', hd', hf'⟩ => ?_
      · obtain ⟨v, hv⟩ := Option.ne_none_iff_exists'.mp (hlive' k' b hb)
        rw [hh1 b v hv] at hnone
        cases hnone
      · refine ⟨o, fun t ht => (t2 t ht).trans (ht1 t ht), fun b v hb => h2 b v (hh1 b v hb), acc', hd', fun k' => ?_⟩
        rw [find_cons]
        by_cases hk' : k' = k
        · subst hk'
          rw [if_pos rfl, (hf' k').1 hes, (hpl q).2.2, if_pos rfl]
          exact ⟨fun h => (nomatch h), fun _ => hc w' h2⟩
        · rw [if_neg hk']
          refine ⟨fun hnone => ((hf' k').1 hnone).trans ?_, fun hsome => ?_⟩
          · rw [(hpl q).2.2, if_neg hk']
          · have := (hf' k').2 hsome
            revert this
            cases ef : Table.find es k' with
            | none => exact fun h => h
            | some x =>
              cases x with
              | none => exact fun h => h
              | some b =>
                rintro ⟨a, v, v', e1, e2, e3, e4⟩
                refine ⟨a, v, v', e1, e2, ?_, e4⟩
                obtain ⟨v0, hv0⟩ := Option.ne_none_iff_exists'.mp (hlive' k' b ef)
                rw [hh1 b v0 hv0] at e3
                rw [hv0, e3]
    cases p with
    | none =>
      rw [World.copyLoop, Prog.bind_ok (table_ok hd), (hpl none).1, Prog.bind_ok (setTable_ok ..)]
      refine fin none ⟨w.heap, update w.tables d (some (ord.place acc (k, none)))⟩ ?_ (update_self ..) (fun t ht => update_ne _ _ ht)
        (fun _ _ h => h) (fun _ _ => rfl) as
      have := Own.change (L := []) (x := some none) (k := k) h hd (hpl none).2.1 (hpl none).2.2
      rw [hk0] at this
      exact this
    | some b =>
      cases as with
      | nil => exact True.intro
      | cons a as =>
        obtain ⟨v, hv⟩ := Option.ne_none_iff_exists'.mp (hlive k b (by rw [find_cons, if_pos rfl]))
        obtain ⟨v', e', hw', hr'⟩ := hM.construct_ok v (h.wf b v hv)
        have hnew : newCopy M v w = .ok v' w := by unfold newCopy; rw [e']
        rw [World.copyLoop, Prog.bind_ok (deref_ok hv), Prog.bind_ok hnew]
        refine Sure.bind (sure_new fun ha => ?_)
        have hd' : (⟨update w.heap a (some v'), w.tables⟩ : World K V).tables d = some acc := hd
        rw [Prog.bind_ok (table_ok hd'), (hpl (some a)).1]
        rw [Prog.bind_ok (setTable_ok ..), if_neg (by simp)]
        have hheap : ∀ c u, w.heap c = some u → update w.heap a (some v') c = some u := by
          intro c u hc
          rw [update_ne]
          · exact hc
          · rintro rfl; rw [ha] at hc; cases hc
        refine fin (some a) ⟨update w.heap a (some v'), update w.tables d (some (ord.place acc (k, some a)))⟩ ?_ (update_self ..) (fun t ht => update_ne _ _ ht) hheap (fun w2 h2 => ?_) as
        · have := Own.change (L := []) (x := some (some a)) (k := k) (h.new ha hw') hd' (hpl (some a)).2.1 (hpl (some a)).2.2
          rw [hk0] at this
          exact this
        · exact ⟨a, v, v', rfl, h2 a v' (update_self ..), hv, hr'⟩


end own

end ISD.TableHeap
