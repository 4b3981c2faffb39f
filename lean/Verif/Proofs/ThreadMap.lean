import Verif.Spec.ThreadMap

/-! # `thread_safe_map`: the invariant behind linearizability -/

namespace ISD
namespace TSMap

variable {K V : Type} [DecidableEq K] {dflt : V}

/-! ## The list of entries as a plain map -/

/-- The value of a key. -/
def view (d : List (K × V)) (k : K) : Option V :=
  match d with
  | [] => Option.none
  | (k', v) :: r => if k' = k then some v else view r k

theorem mapFind_eq (d : List (K × V)) (k : K) :
    mapFind dflt d k = (match view d k with | some v => (v, true) | Option.none => (dflt, false)) := by
  induction d with
  | nil => rfl
  | cons e r ih =>
    obtain ⟨k', v⟩ := e
    unfold mapFind view
    by_cases h : k' = k
    · simp [h]
    · simp [h, ih]

theorem view_none {d : List (K × V)} {k : K} : view d k = Option.none ↔ k ∉ d.map Prod.fst := by
  induction d with
  | nil => simp [view]
  | cons e r ih =>
    obtain ⟨k', v⟩ := e
    unfold view
    by_cases h : k' = k
    · simp [h]
    · simp only [h, if_false, ih, List.map_cons, List.mem_cons, not_or]
      exact ⟨fun h' => ⟨fun h2 => h h2.symm, h'⟩, fun h' => h'.2⟩

theorem view_snoc (d : List (K × V)) (k : K) (v : V) (h : view d k = Option.none) :
    view (d ++ [(k, v)]) = fun x => if x = k then some v else view d x := by
  funext x
  induction d with
  | nil =>
    show (if k = x then some v else Option.none) = _
    by_cases hx : x = k
    · subst hx; simp
    · rw [if_neg (fun h => hx h.symm), if_neg hx]; rfl
  | cons e r ih =>
    obtain ⟨k', v'⟩ := e
    show (if k' = x then some v' else view (r ++ [(k, v)]) x) = _
    have hk : k' ≠ k := by
      intro hk; subst hk; simp [view] at h
    have h2 : view r k = Option.none := by
      have := h; unfold view at this; rwa [if_neg hk] at this
    rw [ih h2]
    by_cases hx : k' = x
    · subst hx
      rw [if_pos rfl, if_neg hk]; simp [view]
    · rw [if_neg hx]
      show _ = if x = k then some v else (if k' = x then some v' else view r x)
      rw [if_neg hx]

theorem view_filter (d : List (K × V)) (k : K) :
    view (d.filter fun e => !decide (e.1 = k)) = fun x => if x = k then Option.none else view d x := by
  funext x
  induction d with
  | nil => simp [view]
  | cons e r ih =>
    obtain ⟨k', v'⟩ := e
    by_cases hk : k' = k
    · subst hk
      rw [List.filter_cons_of_neg (by simp), ih]
      by_cases hx : x = k'
      · simp [hx]
      · rw [if_neg hx, if_neg hx]
        show _ = if k' = x then some v' else view r x
        rw [if_neg fun h => hx h.symm]
    · rw [List.filter_cons_of_pos (by simp [hk])]
      show (if k' = x then some v' else view _ x) = if x = k then Option.none else (if k' = x then some v' else view r x)
      rw [ih]
      by_cases hx : k' = x
      · subst hx; simp [hk]
      · simp [hx]

theorem filter_length {d : List (K × V)} {k : K} (hn : (d.map Prod.fst).Nodup) :
    d.length - (d.filter fun e => !decide (e.1 = k)).length = if view d k = Option.none then 0 else 1 := by
  induction d with
  | nil => simp [view]
  | cons e r ih =>
    obtain ⟨k', v'⟩ := e
    rw [List.map_cons, List.nodup_cons] at hn
    have ih := ih hn.2
    have hle := List.length_filter_le (fun e : K × V => !decide (e.1 = k)) r
    by_cases hk : k' = k
    · subst hk
      rw [List.filter_cons_of_neg (by simp)]
      have h0 : view r k' = Option.none := view_none.2 hn.1
      rw [if_pos h0] at ih
      simp [view]
      omega
    · rw [List.filter_cons_of_pos (by simp [hk])]
      have : view ((k', v') :: r) k = view r k := by
        show (if k' = k then some v' else view r k) = _
        rw [if_neg hk]
      rw [this, ← ih]
      simp

/-- What the body of a method does is what a plain map does. -/
theorem access_does {d : List (K × V)} (hn : (d.map Prod.fst).Nodup) (op : Op K V) :
    Does dflt (view d) op (access dflt d op).2 (view (access dflt d op).1) ∧
      ((access dflt d op).1.map Prod.fst).Nodup := by
  cases op with
  | find k =>
    refine ⟨?_, hn⟩
    show Does dflt (view d) (.find k) (.found (mapFind dflt d k).1 (mapFind dflt d k).2) (view d)
    rw [mapFind_eq]
    cases h : view d k with
    | none => exact .findMiss _ _ h
    | some v => exact .findHit _ _ _ h
  | insert k v =>
    show Does dflt (view d) (.insert k v) (.inserted (mapInsert dflt d k v).2) (view (mapInsert dflt d k v).1) ∧
      ((mapInsert dflt d k v).1.map Prod.fst).Nodup
    unfold mapInsert
    rw [mapFind_eq]
    cases h : view d k with
    | none =>
      refine ⟨?_, ?_⟩
      · show Does dflt (view d) (.insert k v) (.inserted true) (view (d ++ [(k, v)]))
        rw [view_snoc d k v h]
        exact .insertNew _ _ _ h
      · show ((d ++ [(k, v)]).map Prod.fst).Nodup
        rw [List.map_append, List.nodup_append]
        refine ⟨hn, by simp, fun a ha b hb e => ?_⟩
        simp at hb
        subst e; subst hb
        exact view_none.1 h ha
    | some w =>
      refine ⟨?_, hn⟩
      show Does dflt (view d) (.insert k v) (.inserted false) (view d)
      exact .insertOld _ _ _ (by rw [h]; simp)
  | erase k =>
    show Does dflt (view d) (.erase k) (.erased (mapErase d k).2) (view (mapErase d k).1) ∧
      ((mapErase d k).1.map Prod.fst).Nodup
    unfold mapErase
    dsimp only
    refine ⟨?_, hn.sublist (List.Sublist.map _ List.filter_sublist)⟩
    rw [filter_length hn, view_filter]
    by_cases h : view d k = Option.none
    · rw [if_pos h]
      have : (fun x => if x = k then Option.none else view d x) = view d := by
        funext x
        by_cases hx : x = k
        · rw [if_pos hx, hx, h]
        · rw [if_neg hx]
      rw [this]
      exact .eraseMiss _ _ h
    · rw [if_neg h]
      exact .eraseHit _ _ h

omit [DecidableEq K] in
theorem Sequential.snoc [DecidableEq K] {m m' m'' : PlainMap K V} {S : List (Entry K V)} {e : Entry K V}
    (h : Sequential dflt m S m') (d : Does dflt m' e.op e.r m'') : Sequential dflt m (S ++ [e]) m'' := by
  induction h with
  | done m => exact .next d (.done _)
  | next h t ih => exact .next h (ih d)

/-! ## The invariant -/

namespace Thread

/-- The call the thread is in. -/
def id? : Thread K V → Option Nat
  | idle => Option.none
  | called i _ | locked i _ | accessing i _ _ | accessed i _ _ | unlocked i _ _ => some i

/-- The call, while it has had no effect. -/
def pending? : Thread K V → Option (Nat × Op K V)
  | called i o | locked i o | accessing i o _ => some (i, o)
  | _ => Option.none

/-- The call and its result, once it has had its effect. -/
def done? : Thread K V → Option (Nat × Op K V × Ret V)
  | accessed i o r | unlocked i o r => some (i, o, r)
  | _ => Option.none

/-- Inside the critical section. -/
def holds : Thread K V → Bool
  | locked _ _ | accessing _ _ _ | accessed _ _ _ => true
  | _ => false

omit [DecidableEq K] in
theorem pending_id {x : Thread K V} {i : Nat} {o : Op K V} (h : x.pending? = some (i, o)) : x.id? = some i := by
  cases x <;> simp [pending?] at h <;> simp [id?, h]

omit [DecidableEq K] in
theorem done_id {x : Thread K V} {i : Nat} {o : Op K V} {r : Ret V} (h : x.done? = some (i, o, r)) :
    x.id? = some i := by
  cases x <;> simp [done?] at h <;> simp [id?, h]

end Thread

/-- What holds in every reachable state, with `S` the calls in the order of their critical sections. -/
structure Inv (dflt : V) (s : State K V) (S : List (Entry K V)) : Prop where
  lin : Linearization dflt s.history S (view s.data)
  nodup : (s.data.map Prod.fst).Nodup
  hold : ∀ t, (s.threads t).holds = true ↔ s.mutex = some t
  seen : ∀ t id op d, s.threads t = .accessing id op d → d = s.data
  pend : ∀ t id op, (s.threads t).pending? = some (id, op) → Event.call id t op ∈ s.history ∧ id ∉ S.map Entry.id
  done : ∀ t id op r, (s.threads t).done? = some (id, op, r) → Event.call id t op ∈ s.history ∧ ⟨id, op, r⟩ ∈ S
  uniq : ∀ t u i, (s.threads t).id? = some i → (s.threads u).id? = some i → t = u
  lt : ∀ t i, (s.threads t).id? = some i → i < s.nextId
  ltS : ∀ e ∈ S, e.id < s.nextId

omit [DecidableEq K] in
theorem setThread_same (f : Nat → Thread K V) (t : Nat) (x : Thread K V) : setThread f t x t = x := if_pos rfl

omit [DecidableEq K] in
theorem setThread_ne (f : Nat → Thread K V) {t u : Nat} (x : Thread K V) (h : u ≠ t) : setThread f t x u = f u := if_neg h

theorem start_inv : Inv dflt (State.start : State K V) [] where
  lin := { legal := .done _, once := List.nodup_nil, made := fun e he => (nomatch he),
           returned := fun _ _ _ h => (nomatch h), realTime := fun _ _ _ _ _ _ _ e he => (nomatch he) }
  nodup := List.nodup_nil
  hold := fun t => by simp [State.start, Thread.holds]
  seen := fun t id op d h => by cases h
  pend := fun t id op h => by cases h
  done := fun t id op r h => by cases h
  uniq := fun t u i h => by cases h
  lt := fun t i h => by cases h
  ltS := fun e he => (nomatch he)

/-- Growing the history by a call not in `S`. -/
theorem lin_call {h : List (Event K V)} {S : List (Entry K V)} {m : PlainMap K V} (l : Linearization dflt h S m)
    {i t : Nat} {op : Op K V} (hi : i ∉ S.map Entry.id) : Linearization dflt (h ++ [.call i t op]) S m where
  legal := l.legal
  once := l.once
  made := fun e he => let ⟨t, ht⟩ := l.made e he; ⟨t, List.mem_append_left _ ht⟩
  returned := fun id t r hr => by
    rcases List.mem_append.1 hr with hr | hr
    · obtain ⟨op, h1, h2⟩ := l.returned id t r hr
      exact ⟨op, List.mem_append_left _ h1, h2⟩
    · simp at hr
  realTime := fun a ta ra b tb opb hs e he hb => by
    rw [List.sublist_append_iff] at hs
    obtain ⟨l1, l2, e12, s1, s2⟩ := hs
    by_cases hl2 : l2 = []
    · subst hl2
      rw [List.append_nil] at e12
      subst e12
      exact l.realTime a ta ra b tb opb s1 e he hb
    · have hmem : Event.call b tb opb ∈ l2 := by
        have h1 : (l1 ++ l2).getLast (by simp [hl2]) = l2.getLast hl2 := List.getLast_append_right hl2
        have h2 : (l1 ++ l2).getLast (by simp [hl2]) = Event.call b tb opb := by
          simp only [← e12]; rfl
        rw [← h2, h1]
        exact List.getLast_mem hl2
      have := s2.subset hmem
      simp at this
      exact absurd (List.mem_map.2 ⟨e, he, by rw [hb, this.1]⟩) hi

/-- Growing the history by a return of a call in `S`. -/
theorem lin_ret {h : List (Event K V)} {S : List (Entry K V)} {m : PlainMap K V} (l : Linearization dflt h S m)
    {i t : Nat} {op : Op K V} {r : Ret V} (hc : Event.call i t op ∈ h) (hi : (⟨i, op, r⟩ : Entry K V) ∈ S) :
    Linearization dflt (h ++ [.ret i t r]) S m where
  legal := l.legal
  once := l.once
  made := fun e he => let ⟨t, ht⟩ := l.made e he; ⟨t, List.mem_append_left _ ht⟩
  returned := fun id' t' r' hr => by
    rcases List.mem_append.1 hr with hr | hr
    · obtain ⟨op, h1, h2⟩ := l.returned id' t' r' hr
      exact ⟨op, List.mem_append_left _ h1, h2⟩
    · simp at hr
      obtain ⟨e1, e2, e3⟩ := hr
      subst e1; subst e2; subst e3
      exact ⟨op, List.mem_append_left _ hc, hi⟩
  realTime := fun a ta ra b tb opb hs e he hb => by
    rw [List.sublist_append_iff] at hs
    obtain ⟨l1, l2, e12, s1, s2⟩ := hs
    by_cases hl2 : l2 = []
    · subst hl2
      rw [List.append_nil] at e12
      subst e12
      exact l.realTime a ta ra b tb opb s1 e he hb
    · have hmem : Event.call b tb opb ∈ l2 := by
        have h1 : (l1 ++ l2).getLast (by simp [hl2]) = l2.getLast hl2 := List.getLast_append_right hl2
        have h2 : (l1 ++ l2).getLast (by simp [hl2]) = Event.call b tb opb := by
          simp only [← e12]; rfl
        rw [← h2, h1]
        exact List.getLast_mem hl2
      have := s2.subset hmem
      simp at this

/-- Giving effect to a pending call. -/
theorem lin_effect {h : List (Event K V)} {S : List (Entry K V)} {m m' : PlainMap K V} (l : Linearization dflt h S m)
    {i t : Nat} {op : Op K V} {r : Ret V} (hc : Event.call i t op ∈ h) (hi : i ∉ S.map Entry.id)
    (d : Does dflt m op r m') : Linearization dflt h (S ++ [⟨i, op, r⟩]) m' where
  legal := l.legal.snoc d
  once := by
    rw [List.map_append, List.nodup_append]
    refine ⟨l.once, by simp, fun a ha b hb e => ?_⟩
    simp at hb
    subst e; subst hb
    exact hi ha
  made := fun e he => by
    rcases List.mem_append.1 he with he | he
    · exact l.made e he
    · simp at he
      subst he
      exact ⟨t, hc⟩
  returned := fun id' t' r' hr => by
    obtain ⟨op, h1, h2⟩ := l.returned id' t' r' hr
    exact ⟨op, h1, List.mem_append_left _ h2⟩
  realTime := fun a ta ra b tb opb hs e he hb => by
    rcases List.mem_append.1 he with he | he
    · obtain ⟨e', h1, h2⟩ := l.realTime a ta ra b tb opb hs e he hb
      exact ⟨e', h1, h2.trans (List.sublist_append_left _ _)⟩
    · simp at he
      subst he
      obtain ⟨op', h1, h2⟩ := l.returned a ta ra (hs.subset (by simp))
      refine ⟨⟨a, op', ra⟩, rfl, ?_⟩
      have : [(⟨a, op', ra⟩ : Entry K V)].Sublist S := List.singleton_sublist.2 h2
      exact this.append (List.Sublist.refl [(⟨i, op, r⟩ : Entry K V)])

/-- A step of one thread inside its call. -/
theorem update_inv {s : State K V} {S : List (Entry K V)} (inv : Inv dflt s S) {t : Nat} {x : Thread K V}
    (hx : s.threads t = x) {y : Thread K V} {data' : List (K × V)} {mutex' : Option Nat} {hist' : List (Event K V)}
    {S' : List (Entry K V)} (lin : Linearization dflt hist' S' (view data')) (nodup : (data'.map Prod.fst).Nodup)
    (hid : ∀ i, y.id? = some i → x.id? = some i) (hhist : ∀ e ∈ s.history, e ∈ hist') (hS : ∀ e ∈ S, e ∈ S')
    (hS' : ∀ e ∈ S', e ∈ S ∨ x.id? = some e.id) (hhold : ∀ u, u ≠ t → (mutex' = some u ↔ s.mutex = some u))
    (hholdt : y.holds = true ↔ mutex' = some t) (hdata : data' = s.data ∨ x.holds = true)
    (hseen : ∀ id op d, y = .accessing id op d → d = data')
    (hpend : ∀ id op, y.pending? = some (id, op) → x.pending? = some (id, op) ∧ S' = S)
    (hdone : ∀ id op r, y.done? = some (id, op, r) → Event.call id t op ∈ hist' ∧ ⟨id, op, r⟩ ∈ S') :
    Inv dflt ⟨data', mutex', setThread s.threads t y, s.nextId, hist'⟩ S' where
  lin := lin
  nodup := nodup
  hold := fun u => by
    show (setThread _ _ _ u).holds = true ↔ mutex' = some u
    by_cases hu : u = t
    · subst hu; rw [setThread_same]; exact hholdt
    · rw [setThread_ne _ _ hu, inv.hold u]; exact (hhold u hu).symm
  seen := fun u id op d hd => by
    replace hd : setThread s.threads t y u = .accessing id op d := hd
    by_cases hu : u = t
    · subst hu; rw [setThread_same] at hd; exact hseen id op d hd
    · rw [setThread_ne _ _ hu] at hd
      rcases hdata with hdata | hdata
      · rw [inv.seen u id op d hd]; exact hdata.symm
      · have h1 : s.mutex = some t := (inv.hold t).1 (by rw [hx]; exact hdata)
        have h2 : s.mutex = some u := (inv.hold u).1 (by rw [hd]; rfl)
        rw [h1] at h2
        cases h2
        exact absurd rfl hu
  pend := fun u id op hp => by
    replace hp : (setThread s.threads t y u).pending? = some (id, op) := hp
    by_cases hu : u = t
    · subst hu; rw [setThread_same] at hp
      obtain ⟨h1, h2⟩ := hpend id op hp
      subst h2
      obtain ⟨h3, h4⟩ := inv.pend u id op (by rw [hx]; exact h1)
      exact ⟨hhist _ h3, h4⟩
    · rw [setThread_ne _ _ hu] at hp
      obtain ⟨h3, h4⟩ := inv.pend u id op hp
      refine ⟨hhist _ h3, fun hm => ?_⟩
      obtain ⟨e, he, e1⟩ := List.mem_map.1 hm
      rcases hS' e he with h | h
      · exact h4 (List.mem_map.2 ⟨e, h, e1⟩)
      · exact hu (inv.uniq u t id (Thread.pending_id hp) (by rw [hx, h, e1]))
  done := fun u id op r hp => by
    replace hp : (setThread s.threads t y u).done? = some (id, op, r) := hp
    by_cases hu : u = t
    · subst hu; rw [setThread_same] at hp; exact hdone id op r hp
    · rw [setThread_ne _ _ hu] at hp
      obtain ⟨h3, h4⟩ := inv.done u id op r hp
      exact ⟨hhist _ h3, hS _ h4⟩
  uniq := fun u w i h1 h2 => by
    have key : ∀ u, (setThread s.threads t y u).id? = some i → (s.threads u).id? = some i := by
      intro u h
      by_cases hu : u = t
      · subst hu; rw [setThread_same] at h; rw [hx]; exact hid i h
      · rwa [setThread_ne _ _ hu] at h
    exact inv.uniq u w i (key u h1) (key w h2)
  lt := fun u i h => by
    replace h : (setThread s.threads t y u).id? = some i := h
    by_cases hu : u = t
    · subst hu; rw [setThread_same] at h; exact inv.lt u i (by rw [hx]; exact hid i h)
    · rw [setThread_ne _ _ hu] at h; exact inv.lt u i h
  ltS := fun e he => by
    rcases hS' e he with h | h
    · exact inv.ltS e h
    · exact inv.lt t e.id (by rw [hx]; exact h)

theorem step_inv {s s' : State K V} {S : List (Entry K V)} (inv : Inv dflt s S) (st : Step dflt s s') :
    ∃ S', Inv dflt s' S' := by
  cases st with
  | call t op h =>
    have hn : s.nextId ∉ S.map Entry.id := by
      intro hm
      obtain ⟨e, he, e1⟩ := List.mem_map.1 hm
      have := inv.ltS e he
      omega
    refine ⟨S, lin_call inv.lin hn, inv.nodup, ?_, ?_, ?_, ?_, ?_, ?_, ?_⟩
    · intro u
      show (setThread _ _ _ u).holds = true ↔ _
      by_cases hu : u = t
      · subst hu
        rw [setThread_same, ← inv.hold, h]
        simp [Thread.holds]
      · rw [setThread_ne _ _ hu]; exact inv.hold u
    · intro u id o d hd
      by_cases hu : u = t
      · subst hu; rw [show ({ s with threads := _, nextId := _, history := _ } : State K V).threads u = _ from setThread_same _ _ _] at hd; cases hd
      · exact inv.seen u id o d (by rw [← hd]; exact (setThread_ne _ _ hu).symm)
    · intro u id o hp
      replace hp : (setThread s.threads t (.called s.nextId op) u).pending? = some (id, o) := hp
      by_cases hu : u = t
      · subst hu
        rw [setThread_same] at hp
        cases hp
        exact ⟨List.mem_append_right _ (by simp), hn⟩
      · rw [setThread_ne _ _ hu] at hp
        exact ⟨List.mem_append_left _ (inv.pend u id o hp).1, (inv.pend u id o hp).2⟩
    · intro u id o r hp
      replace hp : (setThread s.threads t (.called s.nextId op) u).done? = some (id, o, r) := hp
      by_cases hu : u = t
      · subst hu
        rw [setThread_same] at hp
        cases hp
      · rw [setThread_ne _ _ hu] at hp
        exact ⟨List.mem_append_left _ (inv.done u id o r hp).1, (inv.done u id o r hp).2⟩
    · intro u w i h1 h2
      replace h1 : (setThread s.threads t (.called s.nextId op) u).id? = some i := h1
      replace h2 : (setThread s.threads t (.called s.nextId op) w).id? = some i := h2
      by_cases hu : u = t
      · by_cases hw : w = t
        · rw [hu, hw]
        · subst hu
          rw [setThread_same] at h1
          rw [setThread_ne _ _ hw] at h2
          cases h1
          exact absurd (inv.lt _ _ h2) (Nat.lt_irrefl _)
      · rw [setThread_ne _ _ hu] at h1
        by_cases hw : w = t
        · subst hw
          rw [setThread_same] at h2
          cases h2
          exact absurd (inv.lt _ _ h1) (Nat.lt_irrefl _)
        · rw [setThread_ne _ _ hw] at h2
          exact inv.uniq u w i h1 h2
    · intro u i h1
      replace h1 : (setThread s.threads t (.called s.nextId op) u).id? = some i := h1
      show i < s.nextId + 1
      by_cases hu : u = t
      · subst hu
        rw [setThread_same] at h1
        cases h1
        exact Nat.lt_succ_self _
      · rw [setThread_ne _ _ hu] at h1
        exact Nat.lt_succ_of_lt (inv.lt u i h1)
    · exact fun e he => Nat.lt_succ_of_lt (inv.ltS e he)
  | lock t id op h hm =>
    exact ⟨S, update_inv inv h inv.lin inv.nodup (fun i hi => hi) (fun _ h => h) (fun _ h => h) (fun _ h => .inl h)
      (fun u hu => by rw [hm]; simp [Ne.symm hu]) (by simp [Thread.holds]) (.inl rfl) (fun _ _ _ h => by cases h)
      (fun _ _ h => ⟨h, rfl⟩) (fun _ _ _ h => by cases h)⟩
  | enter t id op h =>
    have hm : s.mutex = some t := (inv.hold t).1 (by rw [h]; rfl)
    exact ⟨S, update_inv inv h inv.lin inv.nodup (fun i hi => hi) (fun _ h => h) (fun _ h => h) (fun _ h => .inl h)
      (fun u hu => Iff.rfl) (by simp [Thread.holds, hm]) (.inl rfl) (fun _ _ _ h => by cases h; rfl)
      (fun _ _ h => ⟨h, rfl⟩) (fun _ _ _ h => by cases h)⟩
  | leave t id op d h =>
    have hm : s.mutex = some t := (inv.hold t).1 (by rw [h]; rfl)
    have hd := inv.seen t id op d h
    subst hd
    obtain ⟨h1, h2⟩ := inv.pend t id op (by rw [h]; rfl)
    obtain ⟨h3, h4⟩ := access_does (dflt := dflt) inv.nodup op
    refine ⟨S ++ [⟨id, op, (access dflt s.data op).2⟩], update_inv inv h (lin_effect inv.lin h1 h2 h3) h4
      (fun i hi => hi) (fun _ h => h) (fun _ h => List.mem_append_left _ h) (fun e he => ?_) (fun u hu => Iff.rfl)
      (by simp [Thread.holds, hm]) (.inr rfl) (fun _ _ _ h => by cases h) (fun _ _ h => by cases h)
      (fun _ _ _ h => by cases h; exact ⟨h1, by simp⟩)⟩
    rcases List.mem_append.1 he with he | he
    · exact .inl he
    · simp at he; subst he; exact .inr rfl
  | throws t id op d h hop =>
    have hm : s.mutex = some t := (inv.hold t).1 (by rw [h]; rfl)
    have hd := inv.seen t id op d h
    subst hd
    obtain ⟨h1, h2⟩ := inv.pend t id op (by rw [h]; rfl)
    have h3 : Does dflt (view s.data) op .threw (view s.data) := by
      cases op with
      | find k => exact .findThrew _ _
      | insert k v => exact .insertThrew _ _ _
      | erase k => cases hop
    refine ⟨S ++ [⟨id, op, .threw⟩], update_inv inv h (lin_effect inv.lin h1 h2 h3) inv.nodup
      (fun i hi => hi) (fun _ h => h) (fun _ h => List.mem_append_left _ h) (fun e he => ?_) (fun u hu => Iff.rfl)
      (by simp [Thread.holds, hm]) (.inl rfl) (fun _ _ _ h => by cases h) (fun _ _ h => by cases h)
      (fun _ _ _ h => by cases h; exact ⟨h1, by simp⟩)⟩
    rcases List.mem_append.1 he with he | he
    · exact .inl he
    · simp at he; subst he; exact .inr rfl
  | unlock t id op r h =>
    have hm : s.mutex = some t := (inv.hold t).1 (by rw [h]; rfl)
    exact ⟨S, update_inv inv h inv.lin inv.nodup (fun i hi => hi) (fun _ h => h) (fun _ h => h) (fun _ h => .inl h)
      (fun u hu => by rw [hm]; simp [Ne.symm hu]) (by simp [Thread.holds]) (.inl rfl) (fun _ _ _ h => by cases h)
      (fun _ _ h => by cases h) (fun _ _ _ h' => inv.done t _ _ _ (by rw [h]; exact h'))⟩
  | ret t id op r h =>
    have hm : s.mutex ≠ some t := fun hm => by
      have := (inv.hold t).2 hm
      rw [h] at this
      cases this
    obtain ⟨h1, h2⟩ := inv.done t id op r (by rw [h]; rfl)
    exact ⟨S, update_inv inv h (lin_ret inv.lin h1 h2) inv.nodup (fun i hi => by cases hi)
      (fun _ h => List.mem_append_left _ h) (fun _ h => h) (fun _ h => .inl h)
      (fun u hu => Iff.rfl) (by simp [Thread.holds, hm]) (.inl rfl) (fun _ _ _ h => by cases h)
      (fun _ _ h => by cases h) (fun _ _ _ h => by cases h)⟩

theorem reachable_inv {s : State K V} (h : Reachable dflt s) : ∃ S, Inv dflt s S := by
  induction h with
  | start => exact ⟨[], start_inv⟩
  | step h st ih => obtain ⟨S, inv⟩ := ih; exact step_inv inv st

end TSMap
end ISD
