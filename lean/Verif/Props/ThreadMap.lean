import Verif.Proofs.ThreadMap

/-!
# C25: `thread_safe_map` is linearizable

Every theorem is about every state that any number of threads can reach by any interleaving of their steps.
-/

namespace ISD
namespace TSMap

variable {K V : Type} [DecidableEq K] {dflt : V}

theorem view_some {d : List (K × V)} (hn : (d.map Prod.fst).Nodup) (k : K) (v : V) :
    view d k = some v ↔ (k, v) ∈ d := by
  induction d with
  | nil => simp [view]
  | cons e r ih =>
    obtain ⟨k', v'⟩ := e
    rw [List.map_cons, List.nodup_cons] at hn
    show (if k' = k then some v' else view r k) = some v ↔ _
    by_cases h : k' = k
    · subst h
      rw [if_pos rfl, List.mem_cons]
      constructor
      · intro e; cases e; exact .inl rfl
      · rintro (e | e)
        · cases e; rfl
        · exact absurd (List.mem_map.2 ⟨_, e, rfl⟩) hn.1
    · rw [if_neg h, ih hn.2, List.mem_cons]
      constructor
      · exact .inr
      · rintro (e | e)
        · cases e; exact absurd rfl h
        · exact e

/-! ## Counting steps -/

/-- Steps a thread still has to make before its call has returned. -/
def Thread.left : Thread K V → Nat
  | .idle => 0
  | .called _ _ => 5
  | .locked _ _ => 4
  | .accessing _ _ _ => 3
  | .accessed _ _ _ => 2
  | .unlocked _ _ _ => 1

/-- The sum over the first `n` threads. -/
def sumTo (f : Nat → Nat) : Nat → Nat
  | 0 => 0
  | n + 1 => sumTo f n + f n

theorem sumTo_congr {f g : Nat → Nat} {n : Nat} (h : ∀ i, i < n → f i = g i) : sumTo f n = sumTo g n := by
  induction n with
  | zero => rfl
  | succ n ih =>
    show sumTo f n + f n = sumTo g n + g n
    rw [ih fun i hi => h i (by omega), h n (by omega)]

theorem sumTo_update {f g : Nat → Nat} {n t : Nat} (ht : t < n) (h : ∀ i, i ≠ t → f i = g i) :
    sumTo f n + g t = sumTo g n + f t := by
  induction n with
  | zero => omega
  | succ n ih =>
    show sumTo f n + f n + g t = sumTo g n + g n + f t
    by_cases e : t = n
    · subst e
      rw [sumTo_congr (n := t) fun i hi => h i (by omega)]
      omega
    · have := ih (by omega)
      have := h n (by omega)
      omega

theorem sumTo_more {f : Nat → Nat} {n m : Nat} (h : ∀ i, n ≤ i → f i = 0) (hm : n ≤ m) : sumTo f m = sumTo f n := by
  induction m with
  | zero => cases Nat.le_zero.1 hm; rfl
  | succ m ih =>
    by_cases e : n = m + 1
    · rw [e]
    · show sumTo f m + f m = _
      rw [ih (by omega), h m (by omega), Nat.add_zero]

/-- Reached in `n` steps. -/
inductive Reached (dflt : V) : Nat → State K V → Prop where
  | start : Reached dflt 0 State.start
  | step {n : Nat} {s s' : State K V} (h : Reached dflt n s) (st : Step dflt s s') : Reached dflt (n + 1) s'

theorem Reached.reachable {n : Nat} {s : State K V} (h : Reached dflt n s) : Reachable dflt s := by
  induction h with
  | start => exact .start
  | step _ st ih => exact .step ih st

theorem count_step {s s' : State K V} (st : Step dflt s s') :
    ∃ t, (∀ u, u ≠ t → s'.threads u = s.threads u) ∧
      (s'.threads t).left + 1 + 6 * s.nextId = (s.threads t).left + 6 * s'.nextId := by
  cases st with
  | call t op h =>
    refine ⟨t, fun u hu => setThread_ne _ _ hu, ?_⟩
    show (setThread _ _ _ t).left + 1 + 6 * s.nextId = _ + 6 * (s.nextId + 1)
    rw [setThread_same, h]; simp [Thread.left]; omega
  | lock t id op h hm =>
    refine ⟨t, fun u hu => setThread_ne _ _ hu, ?_⟩
    show (setThread _ _ _ t).left + 1 + 6 * s.nextId = _ + 6 * s.nextId
    rw [setThread_same, h]; simp [Thread.left]
  | enter t id op h =>
    refine ⟨t, fun u hu => setThread_ne _ _ hu, ?_⟩
    show (setThread _ _ _ t).left + 1 + 6 * s.nextId = _ + 6 * s.nextId
    rw [setThread_same, h]; simp [Thread.left]
  | leave t id op d h =>
    refine ⟨t, fun u hu => setThread_ne _ _ hu, ?_⟩
    show (setThread _ _ _ t).left + 1 + 6 * s.nextId = _ + 6 * s.nextId
    rw [setThread_same, h]; simp [Thread.left]
  | throws t id op d h hop =>
    refine ⟨t, fun u hu => setThread_ne _ _ hu, ?_⟩
    show (setThread _ _ _ t).left + 1 + 6 * s.nextId = _ + 6 * s.nextId
    rw [setThread_same, h]; simp [Thread.left]
  | unlock t id op r h =>
    refine ⟨t, fun u hu => setThread_ne _ _ hu, ?_⟩
    show (setThread _ _ _ t).left + 1 + 6 * s.nextId = _ + 6 * s.nextId
    rw [setThread_same, h]; simp [Thread.left]
  | ret t id op r h =>
    refine ⟨t, fun u hu => setThread_ne _ _ hu, ?_⟩
    show (setThread _ _ _ t).left + 1 + 6 * s.nextId = _ + 6 * s.nextId
    rw [setThread_same, h]; simp [Thread.left]

theorem count_reached {n : Nat} {s : State K V} (h : Reached dflt n s) :
    ∃ N, (∀ t, N ≤ t → (s.threads t).left = 0) ∧ n + sumTo (fun t => (s.threads t).left) N = 6 * s.nextId := by
  induction h with
  | start => exact ⟨0, fun _ _ => rfl, rfl⟩
  | @step n s s' h st ih =>
    obtain ⟨N, h1, h2⟩ := ih
    obtain ⟨t, h3, h4⟩ := count_step st
    refine ⟨N + t + 1, fun u hu => ?_, ?_⟩
    · rw [h3 u (by omega)]; exact h1 u (by omega)
    · have e1 := sumTo_more (f := fun t => (s.threads t).left) h1 (show N ≤ N + t + 1 by omega)
      have e2 := sumTo_update (f := fun t => (s.threads t).left) (g := fun t => (s'.threads t).left) (n := N + t + 1)
        (t := t) (by omega) (fun i hi => by rw [h3 i hi])
      omega

/-- Every call made has returned or its thread is still in it. -/
theorem call_pending {s : State K V} (h : Reachable dflt s) {id t : Nat} {op : Op K V}
    (hc : Event.call id t op ∈ s.history) : (∃ r, Event.ret id t r ∈ s.history) ∨ (s.threads t).id? = some id := by
  induction h with
  | start => cases hc
  | @step s s' h st ih =>
    have other : ∀ {u : Nat} {x y : Thread K V} {hist : List (Event K V)}, s.threads u = x → y.id? = x.id? →
        hist = s.history → Event.call id t op ∈ hist →
        (∃ r, Event.ret id t r ∈ hist) ∨ (setThread s.threads u y t).id? = some id := by
      intro u x y hist hx hy eh hc
      subst eh
      rcases ih hc with ⟨r, hr⟩ | hi
      · exact .inl ⟨r, hr⟩
      · right
        by_cases e : t = u
        · subst e; rw [setThread_same, hy, ← hx]; exact hi
        · rw [setThread_ne _ _ e]; exact hi
    cases st with
    | call u o hu =>
      rcases List.mem_append.1 hc with hc | hc
      · rcases ih hc with ⟨r, hr⟩ | hi
        · exact .inl ⟨r, List.mem_append_left _ hr⟩
        · right
          show (setThread _ _ _ t).id? = some id
          by_cases e : t = u
          · subst e; rw [hu] at hi; cases hi
          · rw [setThread_ne _ _ e]; exact hi
      · simp at hc
        obtain ⟨e1, e2, e3⟩ := hc
        subst e2
        right
        show (setThread _ _ _ t).id? = some id
        rw [setThread_same, e1]; rfl
    | lock u i o hu hm => exact other hu (by rfl) rfl hc
    | enter u i o hu => exact other hu (by rfl) rfl hc
    | leave u i o d hu => exact other hu (by rfl) rfl hc
    | throws u i o d hu _ => exact other hu (by rfl) rfl hc
    | unlock u i o r hu => exact other hu (by rfl) rfl hc
    | ret u i o r hu =>
      rcases List.mem_append.1 hc with hc | hc
      · rcases ih hc with ⟨r', hr⟩ | hi
        · exact .inl ⟨r', List.mem_append_left _ hr⟩
        · by_cases e : t = u
          · subst e
            rw [hu] at hi
            cases hi
            exact .inl ⟨r, List.mem_append_right _ (by simp)⟩
          · right
            show (setThread _ _ _ t).id? = some id
            rw [setThread_ne _ _ e]; exact hi
      · simp at hc

end TSMap

open TSMap

variable {K V : Type} [DecidableEq K] {dflt : V}

/-- **C25.** Whatever the schedule, there is one order of calls - each made call at most once, each returned call with
what it returned, earlier returned calls before later made ones - which a plain map could have run one at a time with
the same results, and the map now holds exactly what that plain map holds. -/
theorem C25_linearizable {s : State K V} (h : Reachable dflt s) :
    ∃ S m, Linearization dflt s.history S m ∧ ∀ k v, m k = some v ↔ (k, v) ∈ s.data := by
  obtain ⟨S, inv⟩ := reachable_inv h
  exact ⟨S, view s.data, inv.lin, view_some inv.nodup⟩

/-- No two threads ever use the underlying map at the same time. -/
theorem C25_no_overlap {s : State K V} (h : Reachable dflt s) {t u i j : Nat} {o p : Op K V} {d e : List (K × V)}
    (ht : s.threads t = .accessing i o d) (hu : s.threads u = .accessing j p e) : t = u := by
  obtain ⟨S, inv⟩ := reachable_inv h
  have h1 : s.mutex = some t := (inv.hold t).1 (by rw [ht]; rfl)
  have h2 : s.mutex = some u := (inv.hold u).1 (by rw [hu]; rfl)
  rw [h1] at h2
  cases h2
  rfl

/-- No deadlock: while any thread is inside a method, some thread inside a method can make a step (a new call is not
needed). -/
theorem C25_no_deadlock {s : State K V} (h : Reachable dflt s) {t : Nat} (ht : s.threads t ≠ .idle) :
    ∃ s', Step dflt s s' ∧ s'.nextId = s.nextId := by
  obtain ⟨S, inv⟩ := reachable_inv h
  have go : ∀ u, (s.threads u).holds = true → ∃ s', Step dflt s s' ∧ s'.nextId = s.nextId := by
    intro u hu
    cases e : s.threads u with
    | idle => rw [e] at hu; cases hu
    | called i o => rw [e] at hu; cases hu
    | locked i o => exact ⟨_, .enter s u i o e, rfl⟩
    | accessing i o d => exact ⟨_, .leave s u i o d e, rfl⟩
    | accessed i o r => exact ⟨_, .unlock s u i o r e, rfl⟩
    | unlocked i o r => rw [e] at hu; cases hu
  cases e : s.threads t with
  | idle => exact absurd e ht
  | called i o =>
    cases hm : s.mutex with
    | none => exact ⟨_, .lock s t i o e hm, rfl⟩
    | some u => exact go u ((inv.hold u).2 hm)
  | locked i o => exact go t (by rw [e]; rfl)
  | accessing i o d => exact go t (by rw [e]; rfl)
  | accessed i o r => exact go t (by rw [e]; rfl)
  | unlocked i o r => exact ⟨_, .ret s t i o r e, rfl⟩

/-- No livelock: with `c` calls made no schedule is longer than `6 c` steps. -/
theorem C25_steps_bounded {n : Nat} {s : State K V} (h : Reached dflt n s) : n ≤ 6 * s.nextId := by
  obtain ⟨N, _, h2⟩ := count_reached h
  omega

/-- When no thread is inside a method any more, every call that was made has returned. -/
theorem C25_all_return {s : State K V} (h : Reachable dflt s) (hi : ∀ t, s.threads t = .idle) {id t : Nat} {op : Op K V}
    (hc : Event.call id t op ∈ s.history) : ∃ r, Event.ret id t r ∈ s.history := by
  rcases call_pending h hc with h1 | h1
  · exact h1
  · rw [hi t] at h1; cases h1

/-! ## A schedule of two threads -/

/-- Thread 1 inserts 7 ↦ 70; thread 2 calls `find 7` while thread 1 has the mutex, and gets 70. -/
example : ∃ s : State Nat Nat, Reachable 0 s ∧ s.history =
    [.call 0 1 (.insert 7 70), .call 1 2 (.find 7), .ret 1 2 (.found 70 true), .ret 0 1 (.inserted true)] := by
  have h0 : Reachable 0 (State.start : State Nat Nat) := .start
  have h1 := h0.step (.call _ 1 (.insert 7 70) rfl)
  have h2 := h1.step (.lock _ 1 0 (.insert 7 70) rfl rfl)
  have h3 := h2.step (.enter _ 1 0 (.insert 7 70) rfl)
  have h4 := h3.step (.call _ 2 (.find 7) rfl)
  have h5 := h4.step (.leave _ 1 0 (.insert 7 70) [] rfl)
  have h6 := h5.step (.unlock _ 1 0 (.insert 7 70) (.inserted true) rfl)
  have h7 := h6.step (.lock _ 2 1 (.find 7) rfl rfl)
  have h8 := h7.step (.enter _ 2 1 (.find 7) rfl)
  have h9 := h8.step (.leave _ 2 1 (.find 7) [(7, 70)] rfl)
  have h10 := h9.step (.unlock _ 2 1 (.find 7) (.found 70 true) rfl)
  have h11 := h10.step (.ret _ 2 1 (.find 7) (.found 70 true) rfl)
  have h12 := h11.step (.ret _ 1 0 (.insert 7 70) (.inserted true) rfl)
  exact ⟨_, h12, rfl⟩

end ISD
