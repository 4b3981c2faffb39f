import Verif.Proofs.ManagedVarying

/-! # The laws of EntityTable -/

namespace ISD

theorem nodup_length_le {α : Type} [DecidableEq α] : ∀ {a b : List α}, a.Nodup → a ⊆ b → a.length ≤ b.length
  | [], _, _, _ => Nat.zero_le _
  | x :: a, b, hn, hs => by
    have hx : x ∈ b := hs (by simp)
    have hn' := List.nodup_cons.mp hn
    have := nodup_length_le (a := a) (b := b.erase x) hn'.2 fun y hy =>
      (List.mem_erase_of_ne (a := y) (b := x) fun e => hn'.1 (e ▸ hy)).mpr (hs (by simp [hy]))
    rw [List.length_erase_of_mem hx] at this
    have hp := List.length_pos_of_mem hx
    rw [List.length_cons]; omega

theorem nodup_subset_of_length {α : Type} [DecidableEq α] {a b : List α} (hn : a.Nodup) (hs : a ⊆ b) (hl : b.length ≤ a.length) : b ⊆ a := by
  intro x hx
  apply Decidable.byContradiction
  intro hxa
  have := nodup_length_le (a := x :: a) (b := b) (List.nodup_cons.mpr ⟨hxa, hn⟩) (List.cons_subset.mpr ⟨hx, hs⟩)
  rw [List.length_cons] at this
  omega

section table

variable {K V : Type} [DecidableEq K]

theorem find_nil (k : K) : Table.find ([] : Table K V) k = none := rfl

theorem find_cons (k k' : K) (x : Option V) (t : Table K V) : Table.find ((k', x) :: t) k = if k = k' then some x else t.find k := by
  unfold Table.find
  rw [List.lookup_cons]
  by_cases h : k = k'
  · subst h; simp
  · rw [if_neg h, show (k == k') = false from beq_eq_false_iff_ne.mpr h]

theorem find_iff {t : Table K V} (hn : (t.map Prod.fst).Nodup) (k : K) (x : Option V) : t.find k = some x ↔ (k, x) ∈ t := by
  induction t with
  | nil => simp [find_nil]
  | cons e t ih =>
    obtain ⟨k', x'⟩ := e
    rw [List.map_cons, List.nodup_cons] at hn
    rw [find_cons, List.mem_cons]
    split
    · next h =>
      subst h
      constructor
      · intro h; injection h with h; exact .inl (by rw [h])
      · rintro (h | h)
        · injection h with _ h; rw [h]
        · exact absurd (List.mem_map_of_mem (f := Prod.fst) h) hn.1
    · next h =>
      rw [ih hn.2]
      constructor
      · exact .inr
      · rintro (h' | h')
        · injection h' with h' _; exact absurd h' h
        · exact h'

theorem find_none {t : Table K V} (k : K) : t.find k = none ↔ k ∉ t.map Prod.fst := by
  induction t with
  | nil => simp [find_nil]
  | cons e t ih =>
    obtain ⟨k', x'⟩ := e
    rw [find_cons, List.map_cons, List.mem_cons]
    split
    · next h => simp [h]
    · next h => rw [ih]; simp [h]

theorem find_perm {t t' : Table K V} (hp : t.Perm t') (hn : (t.map Prod.fst).Nodup) (k : K) : t.find k = t'.find k := by
  have hn' : (t'.map Prod.fst).Nodup := (hp.map Prod.fst).nodup_iff.mp hn
  rcases e : t.find k with _ | x
  · rw [find_none, (hp.map Prod.fst).mem_iff, ← find_none] at e
    exact e.symm
  · rw [find_iff hn, hp.mem_iff, ← find_iff hn'] at e
    exact e.symm

/-- Entries put into the map one after the other. -/
def Table.addAll (ord : TableOrder (K × Option V)) : Table K V → Table K V → Table K V
  | acc, [] => acc
  | acc, e :: es => addAll ord (acc.emplace ord e.1 e.2).1 es

theorem addAll_perm (ord : TableOrder (K × Option V)) (xs acc : Table K V) (hn : ((xs ++ acc).map Prod.fst).Nodup) :
    (Table.addAll ord acc xs).Perm (xs ++ acc) := by
  induction xs generalizing acc with
  | nil => exact .refl _
  | cons x xs ih =>
    rw [List.cons_append, List.map_cons, List.nodup_cons] at hn
    have hf : acc.find x.1 = none := by
      rw [find_none]
      intro hm
      exact hn.1 (by rw [List.map_append]; exact List.mem_append_right _ hm)
    have he : (acc.emplace ord x.1 x.2).1 = ord.place acc x := by
      rw [Table.emplace, hf]; rfl
    rw [Table.addAll, he]
    have hp := ord.perm acc x
    have hp2 : (xs ++ ord.place acc x).Perm (x :: (xs ++ acc)) := (hp.append_left xs).trans List.perm_middle
    refine (ih _ ?_).trans hp2
    rw [(hp2.map Prod.fst).nodup_iff]
    exact List.nodup_cons.mpr hn

/-- Entry by entry: same keys, related values. -/
def EntryRel (r : V → V → Prop) (a b : K × Option V) : Prop := a.1 = b.1 ∧ OptRel r a.2 b.2

omit [DecidableEq K] in
theorem entries_keys {r : V → V → Prop} {a b : Table K V} (h : ListRel (EntryRel r) a b) : a.map Prod.fst = b.map Prod.fst := by
  induction h with
  | nil => rfl
  | cons h _ ih => rw [List.map_cons, List.map_cons, h.1, ih]

theorem entries_find {r : V → V → Prop} {a b : Table K V} (h : ListRel (EntryRel r) a b) (k : K) :
    OptRel (OptRel r) (a.find k) (b.find k) := by
  induction h with
  | nil => exact .none
  | @cons x y as bs h _ ih =>
    obtain ⟨k1, v1⟩ := x; obtain ⟨k2, v2⟩ := y
    obtain ⟨h1, h2⟩ := h
    dsimp only at h1 h2
    subst h1
    rw [find_cons, find_cons]
    split
    · exact .some h2
    · exact ih

variable {M : Managed V} {S : ClassSpec V}

omit [DecidableEq K] in
theorem entries_wf {p : V → Prop} {r : V → V → Prop} {a b : Table K V} (h : ListRel (EntryRel fun x y => p x ∧ r x y) a b) :
    ∀ k v, (k, some v) ∈ a → p v := by
  induction h with
  | nil => intro k v h; cases h
  | @cons x y as bs h _ ih =>
    obtain ⟨k1, v1⟩ := x; obtain ⟨k2, v2⟩ := y
    obtain ⟨h1, h2⟩ := h
    intro k v hm
    rcases List.mem_cons.mp hm with hm | hm
    · cases hm
      dsimp only at h2
      cases h2 with | some h2 => exact h2.1
    · exact ih k v hm

/-- A table filled with entries related to those of `s` is well formed and related to `s`. -/
theorem addAll_ok (st : Stored K) (zk ne : Bool) (ord : TableOrder (K × Option V)) {xs s : Table K V}
    (hs : (s.map Prod.fst).Nodup) (h : ListRel (EntryRel fun x y => S.wf x ∧ S.rel .exact x y) xs s) :
    (tableSpec st S zk ne).wf (Table.addAll ord [] xs) ∧ (tableSpec st S zk ne).rel .exact (Table.addAll ord [] xs) s := by
  have hn : ((xs ++ []).map Prod.fst).Nodup := by rw [List.append_nil, entries_keys h]; exact hs
  have hp := addAll_perm ord xs [] hn
  rw [List.append_nil] at hp hn
  have hn' : ((Table.addAll ord [] xs).map Prod.fst).Nodup := (hp.map Prod.fst).nodup_iff.mpr hn
  refine ⟨⟨hn', fun k v hm => entries_wf h k v (hp.mem_iff.mp hm)⟩, fun k => ?_⟩
  rw [find_perm hp hn']
  exact (entries_find h k).mono fun _ _ h => h.mono fun _ _ h => h.2

/-! ### Copies -/

omit [DecidableEq K] in
theorem newCopy_ok {σ : Type} {v v' : V} (h : M.construct v M.init = .ok () v') (s : σ) : newCopy M v s = .ok v' s := by
  rw [newCopy, h]

theorem copyLoop_ok (hM : Lawful M S) (ord : TableOrder (K × Option V)) (s acc : Table K V) (hs : ∀ k v, (k, some v) ∈ s → S.wf v) :
    ∃ xs, tableCopyLoop M ord s acc = .ok () (Table.addAll ord acc xs) ∧ ListRel (EntryRel fun x y => S.wf x ∧ S.rel .exact x y) xs s := by
  induction s generalizing acc with
  | nil => exact ⟨[], rfl, .nil⟩
  | cons e s ih =>
    obtain ⟨k, x⟩ := e
    cases x with
    | none =>
      obtain ⟨xs, e1, h1⟩ := ih (acc.emplace ord k none).1 fun k v h => hs k v (by simp [h])
      refine ⟨(k, none) :: xs, ?_, .cons ⟨rfl, .none⟩ h1⟩
      rw [tableCopyLoop, Prog.bind_ok (modify_ok _ _)]
      exact e1
    | some v =>
      obtain ⟨v', e0, w0, r0⟩ := hM.construct_ok v (hs k v (by simp))
      obtain ⟨xs, e1, h1⟩ := ih (acc.emplace ord k (some v')).1 fun k v h => hs k v (by simp [h])
      refine ⟨(k, some v') :: xs, ?_, .cons ⟨rfl, .some ⟨w0, r0⟩⟩ h1⟩
      rw [tableCopyLoop, Prog.bind_ok (newCopy_ok e0 acc), Prog.bind_ok (modify_ok _ _)]
      exact e1

/-! ### Equality -/

theorem equalsLoop_ok {wf : V → Prop} {rel : V → V → Prop}
    (hM : ∀ a b, wf a → wf b → ∃ c, M.equals a b = some c ∧ (c = true ↔ rel a b)) (r l : Table K V)
    (hl : ∀ k v, (k, some v) ∈ l → wf v) (hr : ∀ k v, r.find k = some (some v) → wf v) :
    ∃ b, tableEqualsLoop M r l = some b ∧
      (b = true ↔ ∀ k x, (k, x) ∈ l → ∃ y, r.find k = some y ∧ OptRel rel x y) := by
  induction l with
  | nil => exact ⟨true, rfl, fun _ k x h => (nomatch h), fun _ => rfl⟩
  | cons e l ih =>
    obtain ⟨k, x⟩ := e
    obtain ⟨b, e1, h1⟩ := ih fun k v h => hl k v (by simp [h])
    have hfail : ∀ {P : Prop}, (¬ ∃ y, r.find k = some y ∧ OptRel rel x y) →
        (false = true ↔ ∀ k' x', (k', x') ∈ (k, x) :: l → ∃ y, r.find k' = some y ∧ OptRel rel x' y) :=
      fun hne => ⟨fun h => (nomatch h), fun h => absurd (h k x (by simp)) hne⟩
    have hstep : (∃ y, r.find k = some y ∧ OptRel rel x y) →
        (b = true ↔ ∀ k' x', (k', x') ∈ (k, x) :: l → ∃ y, r.find k' = some y ∧ OptRel rel x' y) := by
      intro hy
      rw [h1]
      constructor
      · intro h k' x' hm
        rcases List.mem_cons.mp hm with hm | hm
        · cases hm; exact hy
        · exact h k' x' hm
      · intro h k' x' hm; exact h k' x' (by simp [hm])
    rw [tableEqualsLoop]
    rcases ef : r.find k with _ | y
    · refine ⟨false, rfl, hfail (P := True) ?_⟩
      rintro ⟨y, hy, _⟩; rw [ef] at hy; cases hy
    · dsimp only
      have uy : ∀ {P : Option V → Prop}, (∃ y', r.find k = some y' ∧ P y') → P y := by
        rintro P ⟨y', hy, hp⟩; rw [ef] at hy; cases hy; exact hp
      cases x with
      | none =>
        cases y with
        | none => exact ⟨b, e1, hstep ⟨_, ef, .none⟩⟩
        | some y => exact ⟨false, rfl, hfail (P := True) fun h => by cases uy h⟩
      | some x =>
        cases y with
        | none => exact ⟨false, rfl, hfail (P := True) fun h => by cases uy h⟩
        | some y =>
          obtain ⟨b', e2, h2⟩ := hM x y (hl k x (by simp)) (hr k y ef)
          dsimp only
          rw [e2]
          cases b' with
          | true => exact ⟨b, e1, hstep ⟨_, ef, .some (h2.mp rfl)⟩⟩
          | false => exact ⟨false, rfl, hfail (P := True) fun h => by cases uy h with | some h => cases h2.mpr h⟩

theorem tableEquals_ok {wf : V → Prop} {rel : V → V → Prop}
    (hM : ∀ a b, wf a → wf b → ∃ c, M.equals a b = some c ∧ (c = true ↔ rel a b)) (st : Stored K) (zk ne : Bool)
    (ord : TableOrder (K × Option V)) (l r : Table K V)
    (hl : (l.map Prod.fst).Nodup ∧ ∀ k v, (k, some v) ∈ l → wf v) (hr : (r.map Prod.fst).Nodup ∧ ∀ k v, (k, some v) ∈ r → wf v) :
    ∃ b, (tableMF st M zk ne ord).equals l r = some b ∧ (b = true ↔ ∀ k, OptRel (OptRel rel) (l.find k) (r.find k)) := by
  show ∃ b, (if l.length ≠ r.length then some false else tableEqualsLoop M r l) = some b ∧
    (b = true ↔ ∀ k, OptRel (OptRel rel) (l.find k) (r.find k))
  by_cases hlen : l.length = r.length
  · rw [if_neg (by simpa using hlen)]
    obtain ⟨b, e, h⟩ := equalsLoop_ok hM r l hl.2 fun k v h => hr.2 k v ((find_iff hr.1 k _).mp h)
    refine ⟨b, e, h.trans ⟨fun h k => ?_, fun h k x hm => ?_⟩⟩
    · rcases e1 : l.find k with _ | x
      · have hsub : l.map Prod.fst ⊆ r.map Prod.fst := by
          intro k' hk'
          obtain ⟨⟨k1, x1⟩, hm, rfl⟩ := List.mem_map.mp hk'
          obtain ⟨y, hy, _⟩ := h k1 x1 hm
          exact List.mem_map.mpr ⟨(k1, y), ((find_iff hr.1 k1 y).mp hy), rfl⟩
        have hsub' := nodup_subset_of_length hl.1 hsub (by rw [List.length_map, List.length_map]; omega)
        rw [find_none] at e1
        rw [(find_none k).mpr fun hm => e1 (hsub' hm)]
        exact .none
      · obtain ⟨y, hy, hxy⟩ := h k x ((find_iff hl.1 k x).mp e1)
        rw [hy]; exact .some hxy
    · have := h k
      rw [(find_iff hl.1 k x).mpr hm] at this
      generalize r.find k = y at this ⊢
      cases this with | some h => exact ⟨_, rfl, h⟩
  · rw [if_pos hlen]
    refine ⟨false, rfl, fun h => (nomatch h), fun h => absurd ?_ hlen⟩
    have hsub : ∀ k, k ∈ l.map Prod.fst ↔ k ∈ r.map Prod.fst := by
      intro k
      have h1 := h k
      constructor
      · intro hm
        apply Decidable.byContradiction
        intro hc
        rw [(find_none k).mpr hc] at h1
        generalize e : l.find k = y at h1
        cases h1
        exact (find_none k).mp e hm
      · intro hm
        apply Decidable.byContradiction
        intro hc
        rw [(find_none k).mpr hc] at h1
        generalize e : r.find k = y at h1
        cases h1
        exact (find_none k).mp e hm
    have h1 := nodup_length_le hl.1 fun k hk => (hsub k).mp hk
    have h2 := nodup_length_le hr.1 fun k hk => (hsub k).mpr hk
    rw [List.length_map, List.length_map] at h1 h2
    omega

/-! ### Writing -/

omit [DecidableEq K] in
theorem tableElems_length (nodes : V → Nodes) (t : Table K V) : (tableElems nodes t).length = t.length := by
  induction t with
  | nil => rfl
  | cons e t ih => obtain ⟨k, x⟩ := e; rw [tableElems, Elems.length, ih, List.length_cons]

omit [DecidableEq K] in
theorem writeLoop_ok (fresh : Bytes → Nat) (fl : Bool) (w sub : EWriter) (hsub : sub.Idle) (n : Nat) (hn : n < 2 ^ 63) :
    ∀ (t : Table K V), (∀ k v, (k, some v) ∈ t → AppendsT (M.write fresh v) fl ((S.nodes v).bytes fl)) →
      ∀ (s : WStream) (c : Bytes), WAt s c fl → ∀ i st, i + t.length ≤ n →
      c.length + (((tableElems S.nodes t).bodies fl).flatMap (Spec.element fl)).length < 2 ^ 63 →
      ∃ st' s', tableWriteLoop M fresh sub.addr i t (w.inArray sub n i st, s) = .ok true (w.inArray sub n (i + t.length) st', s') ∧
        WAt s' (c ++ ((tableElems S.nodes t).bodies fl).flatMap (Spec.element fl)) fl
  | [], _, s, c, h, i, st, _, _ => ⟨st, s, rfl, by simpa [tableElems, Elems.bodies] using h⟩
  | (k, x) :: t, hw, s, c, h, i, st, hi, hb => by
    rw [List.length_cons] at hi
    rw [tableElems, Elems.bodies, List.flatMap_cons, List.length_append] at hb
    cases x with
    | none =>
      obtain ⟨st1, s1, s2, s3, e1, e2, e3, h3⟩ := writeElem_ok (AppendsT.pure fl) (w := w) hsub h n i st (by omega) hn (by
        simp only [Option.elim, Nodes.bytes] at hb; omega)
      have e2' : inSubsection (return true) (w.inArray sub n (i + 1) st1, s1) = .ok true (w.inArray sub n (i + 1) st1, s1) :=
        inSubsection_ok (w := w.inArray sub n (i + 1) st1) rfl rfl
      rw [e2'] at e2
      injection e2 with _ e2
      injection e2 with _ e2
      subst e2
      obtain ⟨st4, s4, e4, h4⟩ := writeLoop_ok fresh fl w sub hsub n hn t (fun k v h => hw k v (by simp [h])) s3 _ h3 (i + 1) st1
        (by omega) (by rw [List.length_append]; simp only [Option.elim, Nodes.bytes] at hb; omega)
      refine ⟨st4, s4, ?_, ?_⟩
      · rw [tableWriteLoop, Prog.bind_ok e1, if_neg (by decide)]
        dsimp only
        rw [Prog.bind_ok e3, if_neg (by decide), e4, List.length_cons]
        rw [show i + 1 + t.length = i + (t.length + 1) by omega]
      · rw [tableElems, Elems.bodies, List.flatMap_cons, ← List.append_assoc]
        exact h4
    | some v =>
      obtain ⟨st1, s1, s2, s3, e1, e2, e3, h3⟩ := writeElem_ok (hw k v (by simp)) (w := w) hsub h n i st (by omega) hn (by
        simp only [Option.elim] at hb; omega)
      obtain ⟨st4, s4, e4, h4⟩ := writeLoop_ok fresh fl w sub hsub n hn t (fun k v h => hw k v (by simp [h])) s3 _ h3 (i + 1) st1
        (by omega) (by rw [List.length_append]; simp only [Option.elim] at hb; omega)
      refine ⟨st4, s4, ?_, ?_⟩
      · rw [tableWriteLoop, Prog.bind_ok e1, if_neg (by decide)]
        dsimp only
        rw [Prog.bind_ok e2, if_neg (by decide), Prog.bind_ok e3, if_neg (by decide), e4, List.length_cons]
        rw [show i + 1 + t.length = i + (t.length + 1) by omega]
      · rw [tableElems, Elems.bodies, List.flatMap_cons, ← List.append_assoc]
        exact h4

/-! ### Reading -/

theorem emplace_new {ord : TableOrder (K × Option V)} {acc : Table K V} {k : K} (h : acc.find k = none) (x : Option V) :
    (acc.emplace ord k x).1 = ord.place acc (k, x) := by
  rw [Table.emplace, h]; rfl

theorem emplace_keys {ord : TableOrder (K × Option V)} {acc t : Table K V} {k : K} {x : Option V}
    (hn : ((((k, x) :: t) ++ acc).map Prod.fst).Nodup) (x' : Option V) :
    acc.find k = none ∧ ((t ++ (acc.emplace ord k x').1).map Prod.fst).Nodup := by
  rw [List.cons_append, List.map_cons] at hn
  have hf : acc.find k = none := by
    rw [find_none]
    intro hm
    exact (List.nodup_cons.mp hn).1 (by rw [List.map_append]; exact List.mem_append_right _ hm)
  refine ⟨hf, ?_⟩
  rw [emplace_new hf]
  have hp2 : (t ++ ord.place acc (k, x')).Perm ((k, x') :: (t ++ acc)) := ((ord.perm acc (k, x')).append_left t).trans List.perm_middle
  rw [(hp2.map Prod.fst).nodup_iff]
  exact hn

theorem readLoop_ok (hM : Lawful M S) (ord : TableOrder (K × Option V)) {env : REnv} (he : env.Lucky) (fresh : Bytes → Nat) (fl : Bool) :
    ∀ (t : Table K V), (∀ k v, (k, some v) ∈ t → S.wf v ∧ S.rel .storable v v) →
      ∃ xs, ListRel (EntryRel fun x y => S.wf x ∧ S.rel .exact x y) xs t ∧
        ∀ (r sub : EReader) (_ : sub.Idle) (d : Bytes) (_ : Small d) (n : Nat) (_ : n < 2 ^ 63) (acc : Table K V),
          ((t ++ acc).map Prod.fst).Nodup → ∀ pos, Has d pos (((tableElems S.nodes t).bodies fl).flatMap (Spec.element fl)) →
          ∀ i e, i + t.length ≤ n →
          ∃ e', tableReadLoop M ord env fresh (some sub.addr) i (t.map Prod.fst) acc (r.inArray sub n i e, ⟨d, pos, fl⟩) =
            .ok (some (Table.addAll ord acc xs)) (r.inArray sub n (i + t.length) e',
              ⟨d, pos + (((tableElems S.nodes t).bodies fl).flatMap (Spec.element fl)).length, fl⟩)
  | [], _ => ⟨[], .nil, fun r sub _ d _ n _ acc _ pos _ i e _ => ⟨e, rfl⟩⟩
  | (k, none) :: t, hw => by
    obtain ⟨xs, hxs, ih⟩ := readLoop_ok hM ord he fresh fl t (fun k v h => hw k v (by simp [h]))
    refine ⟨(k, none) :: xs, .cons ⟨rfl, .none⟩ hxs, ?_⟩
    intro r sub hsub d hd n hn acc hnd pos h i e hi
    rw [tableElems, Elems.bodies, List.flatMap_cons] at h ⊢
    rw [List.length_cons] at hi ⊢
    simp only [Option.elim, Nodes.bytes] at h ⊢
    have hel : (Spec.element fl []).length = 8 := by rw [Spec.element, List.length_append, number_length]; rfl
    have hr := h.right
    rw [hel] at hr
    have e1 := beginReadElem_ok (r := r) (sub := sub) n i e (by omega) hn hd h.left
    have e3 := endReadElem_ok (r := r) (sub := sub) (s := ⟨d, pos + 8, fl⟩) n i (pos + 8) (by omega) hn rfl
    obtain ⟨hf, hnd'⟩ := emplace_keys (ord := ord) hnd none
    obtain ⟨e', e4⟩ := ih r sub hsub d hd n hn _ hnd' _ hr (i + 1) (pos + 8) (by omega)
    refine ⟨e', ?_⟩
    rw [List.map_cons, tableReadLoop, Prog.bind_ok e1]
    dsimp only
    rw [if_neg (by decide), if_neg (by rw [hf]; exact fun h => (nomatch h)), if_neg (by decide),
      Prog.bind_ok (show endReadSectionInArray (some sub.addr) i (r.inArray sub n (i + 1) (pos + 8 + [].length), _) = _ from e3),
      if_neg (by decide), e4, List.length_append, hel]
    rw [show i + 1 + t.length = i + (t.length + 1) by omega, Nat.add_assoc]
    rfl
  | (k, some v) :: t, hw => by
    obtain ⟨xs, hxs, ih⟩ := readLoop_ok hM ord he fresh fl t (fun k v h => hw k v (by simp [h]))
    obtain ⟨hwv, hsv⟩ := hw k v (by simp)
    obtain ⟨v', hc, hwv', hrel⟩ := hM.read_ok v M.init hwv hsv hM.init_wf hM.init_dest env fresh fl he
    refine ⟨(k, some v') :: xs, .cons ⟨rfl, .some ⟨hwv', hrel⟩⟩ hxs, ?_⟩
    intro r sub hsub d hd n hn acc hnd pos h i e hi
    rw [tableElems, Elems.bodies, List.flatMap_cons] at h ⊢
    rw [List.length_cons] at hi ⊢
    simp only [Option.elim] at h ⊢
    have hel : (Spec.element fl ((S.nodes v).bytes fl)).length = 8 + ((S.nodes v).bytes fl).length := by
      rw [Spec.element, List.length_append, number_length]
    have hr := h.right
    rw [hel, ← Nat.add_assoc] at hr
    have hne : (S.nodes v).bytes fl ≠ [] := by
      rcases hnv : S.nodes v with _ | ⟨m, ms⟩
      · exact absurd hnv (hM.nodes_ne v)
      · rw [Nodes.bytes]; intro hc; exact node_ne_nil fl m (List.append_eq_nil_iff.mp hc).1
    have h0 : (((S.nodes v).bytes fl).length != 0) = true := by simp [hne]
    have hb := h.left
    rw [Spec.element, Has.append, number_length] at hb
    have e1 := beginReadElem_ok (r := r) (sub := sub) n i e (by omega) hn hd h.left
    have e2 : inRSubsection (M.read env fresh M.init) (r.inArray sub n (i + 1) (pos + 8 + ((S.nodes v).bytes fl).length), ⟨d, pos + 8, fl⟩) =
        .ok (some v') (r.inArray sub n (i + 1) (pos + 8 + ((S.nodes v).bytes fl).length), ⟨d, pos + 8 + ((S.nodes v).bytes fl).length, fl⟩) :=
      inRSubsection_ok (r := r.inArray sub n (i + 1) (pos + 8 + ((S.nodes v).bytes fl).length)) rfl (hc sub d _ hsub hd hb.2)
    have e3 := endReadElem_ok (r := r) (sub := sub) (s := ⟨d, pos + 8 + ((S.nodes v).bytes fl).length, fl⟩) n i
      (pos + 8 + ((S.nodes v).bytes fl).length) (by omega) hn rfl
    obtain ⟨hf, hnd'⟩ := emplace_keys (ord := ord) hnd (some v')
    obtain ⟨e', e4⟩ := ih r sub hsub d hd n hn _ hnd' _ hr (i + 1) (pos + 8 + ((S.nodes v).bytes fl).length) (by omega)
    refine ⟨e', ?_⟩
    rw [List.map_cons, tableReadLoop, Prog.bind_ok e1]
    dsimp only
    rw [if_neg (by decide), if_neg (by rw [hf]; exact fun h => (nomatch h)), if_pos h0, Prog.bind_ok e2]
    dsimp only
    rw [Prog.bind_ok e3, if_neg (by decide), e4, List.length_append, hel]
    rw [show i + 1 + t.length = i + (t.length + 1) by omega,
      show pos + 8 + ((S.nodes v).bytes fl).length + (((tableElems S.nodes t).bodies fl).flatMap (Spec.element fl)).length =
        pos + (8 + ((S.nodes v).bytes fl).length + (((tableElems S.nodes t).bodies fl).flatMap (Spec.element fl)).length) by omega]
    rfl

/-! ### Validation -/

omit [DecidableEq K] in
theorem tableValidates_ok (hM : Lawful M S) (nn : Bool) (t : Table K V) (hw : ∀ k v, (k, some v) ∈ t → S.wf v) :
    ∃ rs, TableValidates M nn t rs true ∧ (∀ rs' b, TableValidates M nn t rs' b → rs' = rs ∧ b = true) ∧
      (rs = [] ↔ (nn = true → ∀ k, (k, none) ∉ t) ∧ ∀ k v, (k, some v) ∈ t → S.valid v) := by
  induction t with
  | nil =>
    refine ⟨[], .nil, ?_, fun _ => ⟨fun _ k h => (nomatch h), fun k v h => (nomatch h)⟩, fun _ => rfl⟩
    intro rs' b h; cases h; exact ⟨rfl, rfl⟩
  | cons e t ih =>
    obtain ⟨k, x⟩ := e
    obtain ⟨rs, h1, h2, h3⟩ := ih fun k v h => hw k v (by simp [h])
    cases x with
    | none =>
      refine ⟨_, .null k t rs true h1, ?_, ?_⟩
      · intro rs' b h
        cases h with
        | null _ _ rs2 _ h =>
          obtain ⟨rfl, rfl⟩ := h2 _ _ h
          exact ⟨rfl, rfl⟩
      · rw [List.append_eq_nil_iff, h3]
        cases nn
        · simp only [Bool.false_eq_true, if_false, false_implies, true_and]
          constructor
          · intro h k' v' hm
            rcases List.mem_cons.mp hm with hm | hm
            · cases hm
            · exact h k' v' hm
          · intro h k' v' hm; exact h k' v' (by simp [hm])
        · simp only [if_true]
          constructor
          · intro h; cases h.1
          · intro h; exact absurd (by simp) (h.1 trivial k)
    | some v =>
      obtain ⟨rv, v1, v2, v3⟩ := hM.validate_ok v (hw k v (by simp))
      refine ⟨_, .value k v t rv rs true v1 h1, ?_, ?_⟩
      · intro rs' b h
        cases h with
        | value _ _ _ rv2 rs2 _ hv h =>
          obtain ⟨rfl, rfl⟩ := h2 _ _ h
          obtain ⟨rfl, -⟩ := v2 _ _ hv
          exact ⟨rfl, rfl⟩
        | fail _ _ _ _ hv => cases (v2 _ _ hv).2
      · rw [List.append_eq_nil_iff, h3, v3]
        constructor
        · rintro ⟨a, b, c⟩
          refine ⟨fun hn k' hm => ?_, fun k' v' hm => ?_⟩
          · rcases List.mem_cons.mp hm with hm | hm
            · cases hm
            · exact b hn k' hm
          · rcases List.mem_cons.mp hm with hm | hm
            · cases hm; exact a
            · exact c k' v' hm
        · rintro ⟨a, b⟩
          exact ⟨b k v (by simp), fun hn k' hm => a hn k' (by simp [hm]), fun k' v' hm => b k' v' (by simp [hm])⟩

theorem rel_storable_mem {st : Stored K} {zk ne : Bool} {t : Table K V} (hw : (tableSpec st S zk ne).wf t)
    (hs : (tableSpec st S zk ne).rel .storable t t) {k : K} {v : V} (hm : (k, some v) ∈ t) : S.rel .storable v v := by
  have := hs k
  rw [(find_iff hw.1 k _).mpr hm] at this
  cases this with | some h => cases h with | some h => exact h

theorem table_bytes (st : Stored K) (zk ne : Bool) (t : Table K V) (fl : Bool) : ((tableSpec st S zk ne).nodes t).bytes fl =
    Spec.typed fl st.ty .vector (key "IDs") (t.map fun e => st.toVal e.1) ++
      Spec.sectArray fl (key "Entities") (some ((tableElems S.nodes t).bodies fl)) none := by
  simp only [tableSpec, Nodes.bytes, Node.bytes, List.append_nil]

omit [DecidableEq K] in
/-- A section array written by the loop. -/
theorem writeArray_ok (fresh : Bytes → Nat) (fl : Bool) (t : Table K V)
    (hw : ∀ k v, (k, some v) ∈ t → AppendsT (M.write fresh v) fl ((S.nodes v).bytes fl)) :
    AppendsT (do
      match ← beginWriteSectionsArray (fresh (key "Entities")) (key "Entities") t.length none with
      | none => return false
      | some p =>
        if !(← tableWriteLoop M fresh p 0 t) then return false
        if !(← endWriteSectionsArray (some p)) then return false
        return true) fl (Spec.sectArray fl (key "Entities") (some ((tableElems S.nodes t).bodies fl)) none) := by
  intro w s c hww h hb
  rw [Spec.sectArray, largeBlock_length, Option.elim_some, List.length_append] at hb
  have hge := elements_ge fl ((tableElems S.nodes t).bodies fl)
  rw [bodies_length, tableElems_length] at hb hge
  obtain ⟨s1, e1, h1⟩ := beginArray_ok hww h (fresh (key "Entities")) (key "Entities") t.length none (by unfold sizeMax; omega) (by omega)
  obtain ⟨st, s2, e2, h2⟩ := writeLoop_ok (S := S) fresh fl w (EWriter.create (fresh (key "Entities")) c.length) (create_idle _ _) t.length
    (by omega) t hw s1 _ h1 0 0 (by omega) (by simp only [List.length_append, openHeader_length]; omega)
  rw [Nat.zero_add] at e2
  rw [List.append_assoc] at h2
  obtain ⟨s3, e3, h3⟩ := endArray_ok hww (EWriter.create (fresh (key "Entities")) c.length) t.length st rfl (by omega) h2
    (by simp only [List.length_append, openHeader_length]; omega)
  refine ⟨s3, ?_, ?_⟩
  · rw [Prog.bind_ok e1]
    dsimp only
    rw [Prog.bind_ok (show tableWriteLoop M fresh (fresh (key "Entities")) 0 t _ = _ from e2), if_neg (by decide),
      Prog.bind_ok (show endWriteSectionsArray (some (fresh (key "Entities"))) _ = _ from e3), if_neg (by decide)]
    rfl
  · rw [Spec.sectArray, Option.elim_some, bodies_length, tableElems_length]
    exact h3

theorem readArray_ok (hM : Lawful M S) (st : Stored K) (zk ne : Bool) (ord : TableOrder (K × Option V)) {env : REnv} (he : env.Lucky)
    (fresh : Bytes → Nat) (fl : Bool) (t : Table K V) (hn : (t.map Prod.fst).Nodup)
    (hw : ∀ k v, (k, some v) ∈ t → S.wf v ∧ S.rel .storable v v) (m : Nat) (hm : m = t.length) :
    ∃ t', ConsumesT (do
      match ← beginReadSectionsArray env (fresh (key "Entities")) (key "Entities") false false with
      | (_, _, false, _) => return none
      | (p, count, true, _) =>
        if count ≠ m then return none
        match ← tableReadLoop M ord env fresh p 0 (t.map Prod.fst) [] with
        | none => return none
        | some t =>
          if !(← endReadSectionsArray p) then return none
          return some t) fl (some t') (Spec.sectArray fl (key "Entities") (some ((tableElems S.nodes t).bodies fl)) none) ∧
      (tableSpec st S zk ne).wf t' ∧ (tableSpec st S zk ne).rel .exact t' t := by
  obtain ⟨xs, hxs, hloop⟩ := readLoop_ok hM ord he fresh fl t hw
  refine ⟨Table.addAll ord [] xs, ?_, addAll_ok st zk ne ord hn hxs⟩
  intro r d pos hr hd h
  have hk : (key "Entities").length ≤ 40 := by decide
  have hge := elements_ge fl ((tableElems S.nodes t).bodies fl)
  rw [bodies_length, tableElems_length] at hge
  rw [Spec.sectArray, Option.elim_some, bodies_length, tableElems_length] at h ⊢
  obtain ⟨h2, h3, hl⟩ := readFrame h
  have e1 := beginReadArray_ok hr he (fresh (key "Entities")) false t.length none _ hk hd (by omega) h
  obtain ⟨e', e2⟩ := hloop r (EReader.create (fresh (key "Entities")) (pos + 10 + (key "Entities").length +
    ((Spec.arrayHeader fl 0 t.length none).length + (((tableElems S.nodes t).bodies fl).flatMap (Spec.element fl)).length)))
    (rcreate_idle _ _) d hd t.length (by omega) [] (by rw [List.append_nil]; exact hn) _ h3 0 0 (by omega)
  rw [Nat.zero_add] at e2
  have e3 := endReadArray_ok hr (EReader.create (fresh (key "Entities")) (pos + 10 + (key "Entities").length +
    ((Spec.arrayHeader fl 0 t.length none).length + (((tableElems S.nodes t).bodies fl).flatMap (Spec.element fl)).length))) t.length e' (by omega)
    (s := ⟨d, pos + 10 + (key "Entities").length + (Spec.arrayHeader fl 0 t.length none).length +
      (((tableElems S.nodes t).bodies fl).flatMap (Spec.element fl)).length, fl⟩) (by rw [EReader.create, Nat.add_assoc])
  rw [Prog.bind_ok (show beginReadSectionsArray env (fresh (key "Entities")) (key "Entities") false false _ = _ from e1)]
  dsimp only
  rw [if_neg (by rw [hm]; exact fun h => h rfl),
    Prog.bind_ok (show tableReadLoop M ord env fresh (some (fresh (key "Entities"))) 0 (t.map Prod.fst) [] _ = _ from e2)]
  dsimp only
  rw [Prog.bind_ok (show endReadSectionsArray (some (fresh (key "Entities"))) _ = _ from e3), if_neg (by decide), Prog.pure_apply,
    largeBlock_length, List.length_append]
  rw [show pos + 10 + (key "Entities").length + (Spec.arrayHeader fl 0 t.length none).length +
      (((tableElems S.nodes t).bodies fl).flatMap (Spec.element fl)).length =
      pos + ((key "Entities").length + 10 + ((Spec.arrayHeader fl 0 t.length none).length +
      (((tableElems S.nodes t).bodies fl).flatMap (Spec.element fl)).length)) by omega]

theorem table_lawful (hM : Lawful M S) (st : Stored K) (hst : st.Good) (zk ne : Bool) (ord : TableOrder (K × Option V)) :
    Lawful (tableMF st M zk ne ord) (tableSpec st S zk ne) where
  init_wf := ⟨List.nodup_nil, fun k v h => (nomatch h)⟩
  init_dest := trivial
  rel_refl t h k := OptRel.refl fun x hx => OptRel.refl fun v hv =>
    hM.rel_refl v (h.2 k v ((find_iff h.1 k _).mp (hv ▸ hx)))
  rel_mono h _ _ hr k := (hr k).mono fun _ _ h' => h'.mono fun _ _ => hM.rel_mono h
  rel_flip hr k := (hr k).flip.mono fun _ _ h' => h'.flip.mono fun _ _ => hM.rel_flip
  rel_comp h1 h2 k := ((h1 k).comp (h2 k)).mono fun _ _ ⟨_, a, b⟩ => (a.comp b).mono fun _ _ ⟨_, a, b⟩ => hM.rel_comp a b
  clear_ok t _ := ⟨[], rfl, List.nodup_nil, fun k v h => (nomatch h)⟩
  copy_null t _ := ⟨[], rfl, List.nodup_nil, fun k v h => (nomatch h)⟩
  copy_self t _ := ⟨[], rfl, List.nodup_nil, fun k v h => (nomatch h)⟩
  copy_other d s _ hs := by
    obtain ⟨xs, e, h⟩ := copyLoop_ok hM ord s [] hs.2
    exact ⟨_, e, addAll_ok st zk ne ord hs.1 h⟩
  construct_ok s hs := by
    obtain ⟨xs, e, h⟩ := copyLoop_ok hM ord s [] hs.2
    exact ⟨_, e, addAll_ok st zk ne ord hs.1 h⟩
  equals_ok l r hl hr := tableEquals_ok hM.equals_ok st zk ne ord l r hl hr
  nodes_ne v := fun h => (nomatch h)
  write_ok t hw hs fresh fl := by
    rw [table_bytes]
    exact (typed_appendsT hst.mem .vector (key "IDs") (t.map fun e => st.toVal e.1) fl).andThen
      (writeArray_ok fresh fl t fun k v hm => hM.write_ok v (hw.2 k v hm) (rel_storable_mem hw hs hm) fresh fl)
  read_ok t dest hw hs _ _ env fresh fl he := by
    have hk1 : (key "IDs").length ≤ 40 := by decide
    have hk2 : (key "Entities").length ≤ 40 := by decide
    have hkeys : (t.map fun e => st.toVal e.1).map st.ofVal = t.map Prod.fst := by
      rw [List.map_map]; exact List.map_congr_left fun e _ => hst.inv e.1
    obtain ⟨t', h1, h2, h3⟩ := readArray_ok hM st zk ne ord he fresh fl t hw.1 (fun k v hm => ⟨hw.2 k v hm, rel_storable_mem hw hs hm⟩)
      (t.map fun e => st.toVal e.1).length (by rw [List.length_map])
    rw [← hkeys] at h1
    refine ⟨t', ?_, h2, h3⟩
    rw [table_bytes]
    exact ConsumesT.bind (typed_consumesT hst.mem .vector hk1 [] _ (fun _ => rfl) fl he) h1
  validate_ok t hw := by
    obtain ⟨rs, h1, h2, h3⟩ := tableValidates_ok hM (!ne) t hw.2
    refine ⟨_, ⟨rs, h1, rfl⟩, ?_, ?_⟩
    · rintro rs' b ⟨rs2, h, rfl⟩
      obtain ⟨rfl, rfl⟩ := h2 _ _ h
      exact ⟨rfl, rfl⟩
    · rw [List.append_eq_nil_iff, h3]
      show _ ↔ (zk = false → ∀ v, (st.zero, v) ∉ t) ∧ (ne = false → ∀ k, (k, none) ∉ t) ∧ ∀ k v, (k, some v) ∈ t → S.valid v
      have hz : ((if (!zk && (t.find st.zero).isSome) = true then [Graph.nullNotAllowed] else []) = []) ↔
          (zk = false → ∀ v, (st.zero, v) ∉ t) := by
        cases zk
        · simp only [Bool.not_false, Bool.true_and, true_implies]
          rcases e : t.find st.zero with _ | x
          · simp only [Option.isSome_none, Bool.false_eq_true, if_false, true_iff]
            intro v hm
            rw [(find_iff hw.1 _ _).mpr hm] at e; cases e
          · simp only [Option.isSome_some, if_true]
            exact ⟨fun h => (nomatch h), fun h => absurd ((find_iff hw.1 _ _).mp e) (h x)⟩
        · simp
      rw [hz]
      cases ne <;> simp

end table

end ISD
