import Verif.Model.ShaHeap
import Verif.Props.Sha
/-!
# C86: `SHA256` objects as a program uses them
-/
namespace ISD
open ShaHeap Sha

/-- What every object was given since it was made: nothing for a name without object, `none` for an object of which the digest was taken. -/
def Spec.given {c : HashCore} (st : Nat → Option (Option Bytes)) : Call c → Nat → Option (Option Bytes)
  | .construct o data _ => fun x => if x = o then some (some (data.getD [])) else st x
  | .update o d => fun x => if x = o then (st o).map (Option.map (· ++ d)) else st x
  | .digest o _ => fun x => if x = o then some none else st x
  | .destroy o => fun x => if x = o then none else st x
  | _ => st

/-- The same over a history. -/
def Spec.givenAll {c : HashCore} (l : List (Call c)) : Nat → Option (Option Bytes) := l.foldl Spec.given fun _ => none

/-- No copies and no assignments, and `malloc` succeeds. -/
def Spec.Careful {c : HashCore} : Call c → Prop
  | .copy _ _ | .assign _ _ => False
  | .construct _ _ answer => answer ≠ none
  | _ => True

/-- No memory and no objects. -/
def ShaHeap.start (c : HashCore) : State c := ⟨fun _ => none, fun _ => none⟩

/-- The context is one that was given the data. -/
def ShaFed (c : HashCore) (m : c.Ctx) (data : Bytes) : Prop :=
  ∃ ps : List Bytes, (∀ p ∈ ps, 0 < p.length ∧ p.length ≤ 2 ^ 31 - 1) ∧ m = ps.foldl c.update c.init ∧ ps.flatten = data

theorem ShaFed.start (c : HashCore) : ShaFed c c.init [] := ⟨[], fun _ h => (nomatch h), rfl, rfl⟩

theorem ShaFed.update {c : HashCore} {m : c.Ctx} {x : Bytes} (h : ShaFed c m x) (d : Bytes) : ShaFed c (Sha.update c m d) (x ++ d) := by
  obtain ⟨ps, h1, h2, h3⟩ := h
  obtain ⟨qs, q1, q2, q3⟩ := update_pieces c d
  exact ⟨ps ++ qs, fun p hp => (List.mem_append.mp hp).elim (h1 p) (q1 p), by rw [q3, h2, List.foldl_append], by rw [List.flatten_append, h3, q2]⟩

theorem shaUpdate_nil (c : HashCore) (m : c.Ctx) : Sha.update c m [] = m := by
  rw [Sha.update, updateLoop, dif_neg (by simp)]

/-- Every object owns a context of its own, which was given what the object was given; and there is no other context. -/
structure ShaOwned {c : HashCore} (s : State c) (st : Nat → Option (Option Bytes)) : Prop where
  objs : ∀ o, s.objs o ≠ none ↔ st o ≠ none
  live : ∀ o ptr, s.objs o = some ptr → ∃ a m, ptr = some a ∧ s.mem a = some m ∧ ∀ x, st o = some (some x) → ShaFed c m x
  own : ∀ o o' a, s.objs o = some (some a) → s.objs o' = some (some a) → o = o'
  all : ∀ a, s.mem a ≠ none → ∃ o, s.objs o = some (some a)

theorem shaUpd_self {α : Type} {f : Nat → Option α} {k : Nat} {v : Option α} : upd f k v k = v := if_pos rfl
theorem shaUpd_other {α : Type} {f : Nat → Option α} {k x : Nat} {v : Option α} (h : x ≠ k) : upd f k v x = f x := if_neg h

theorem shaRun_copy {c : HashCore} {s : State c} {o p : Nat} {ptr : Option Nat} (h : s.objs p = some ptr) :
    run c (.copy o p) s = .ok none ⟨s.mem, upd s.objs o (some ptr)⟩ := by simp only [run, h]

theorem shaRun_assign {c : HashCore} {s : State c} {o p : Nat} {ptr : Option Nat} (h : s.objs p = some ptr) :
    run c (.assign o p) s = .ok none ⟨s.mem, upd s.objs o (some ptr)⟩ := by simp only [run, h]

theorem shaRun_destroy {c : HashCore} {s : State c} {o a : Nat} {m : c.Ctx} (h : s.objs o = some (some a)) (hm : s.mem a = some m) :
    run c (.destroy o) s = .ok none ⟨upd s.mem a none, upd s.objs o none⟩ := by simp only [run, h, hm]

theorem shaRun_digest {c : HashCore} {s : State c} {o a : Nat} {m : c.Ctx} (h : s.objs o = some (some a)) (hm : s.mem a = some m) (x : c.Ctx) :
    run c (.digest o x) s = .ok (some (getDigest c m)) ⟨upd s.mem a (some x), s.objs⟩ := by simp only [run, h, hm]

theorem shaRun_update {c : HashCore} {s : State c} {o a : Nat} {m : c.Ctx} (h : s.objs o = some (some a)) (hm : s.mem a = some m) (d : Bytes) :
    run c (.update o d) s = .ok none ⟨upd s.mem a (some (Sha.update c m d)), s.objs⟩ := by
  by_cases hd : d = []
  · subst hd
    have e : upd s.mem a (some (Sha.update c m [])) = s.mem := by
      funext x
      by_cases hx : x = a
      · subst hx; rw [shaUpd_self, shaUpdate_nil, hm]
      · exact shaUpd_other hx
    rw [e]
    simp only [run, h, updateAt, if_true]
  · simp only [run, h, updateAt, if_neg hd, hm]

/-- Changing what an object's own context holds. -/
theorem ShaOwned.change {c : HashCore} {s : State c} {st : Nat → Option (Option Bytes)} (h : ShaOwned s st) {o a : Nat} (ho : s.objs o = some (some a))
    (m' : c.Ctx) (y : Option Bytes) (hy : ∀ x, y = some x → ShaFed c m' x) :
    ShaOwned { s with mem := upd s.mem a (some m') } (fun x => if x = o then some y else st x) := by
  refine ⟨?_, ?_, h.own, ?_⟩
  · intro x
    by_cases hx : x = o
    · subst hx; simp [ho]
    · simp only [if_neg hx]; exact h.objs x
  · intro x ptr hx
    obtain ⟨b, m, rfl, hm, hf⟩ := h.live x ptr hx
    by_cases hxo : x = o
    · subst hxo
      obtain rfl : a = b := by
        have : some (some a) = some (some b) := ho.symm.trans hx
        cases this; rfl
      exact ⟨a, m', rfl, shaUpd_self, fun z hz => hy z (by simpa using hz)⟩
    · have hab : b ≠ a := by rintro rfl; exact hxo (h.own _ _ _ hx ho)
      exact ⟨b, m, rfl, (shaUpd_other hab).trans hm, fun z hz => hf z (by simpa [hxo] using hz)⟩
  · intro b hb
    by_cases hab : b = a
    · subst hab; exact ⟨o, ho⟩
    · exact h.all b (by rwa [show (State.mk (upd s.mem a (some m')) s.objs).mem b = s.mem b from shaUpd_other hab] at hb)

/-- One careful call: it has a result, and everything is owned after it. -/
theorem ShaOwned.step {c : HashCore} {H : Bytes → Bytes} (hc : Computes c H) {s : State c} {st : Nat → Option (Option Bytes)} (h : ShaOwned s st) (k : Call c)
    (hp : possible s k) (hk : Spec.Careful k) :
    ∃ r s', run c k s = .ok r s' ∧ ShaOwned s' (Spec.given st k) ∧ ∀ o m x, k = .digest o m → st o = some (some x) → r = some (H x) := by
  cases k with
  | copy o p => exact hk.elim
  | assign o p => exact hk.elim
  | construct o data answer =>
    obtain ⟨ho, ha⟩ := hp
    cases answer with
    | none => exact absurd rfl hk
    | some a =>
      have hfree := ha a rfl
      have hno : ∀ o', s.objs o' ≠ some (some a) := by
        intro o' ho'
        obtain ⟨b, m, e, hm, -⟩ := h.live o' _ ho'
        cases e
        rw [hfree] at hm; cases hm
      have base : ShaOwned ⟨upd s.mem a (some c.init), upd s.objs o (some (some a))⟩ (fun x => if x = o then some (some []) else st x) := by
        refine ⟨?_, ?_, ?_, ?_⟩
        · intro x
          by_cases hx : x = o
          · subst hx; simp [shaUpd_self]
          · simp only [if_neg hx, shaUpd_other hx]; exact h.objs x
        · intro x ptr hx
          by_cases hxo : x = o
          · subst hxo
            have hx : some (some a) = some ptr := shaUpd_self.symm.trans hx
            cases hx
            exact ⟨a, c.init, rfl, shaUpd_self, fun z hz => by simp at hz; subst hz; exact ShaFed.start c⟩
          · have hx' : s.objs x = some ptr := (shaUpd_other hxo).symm.trans hx
            obtain ⟨b, m, rfl, hm, hf⟩ := h.live x ptr hx'
            have hab : b ≠ a := by rintro rfl; exact hno x hx'
            exact ⟨b, m, rfl, (shaUpd_other hab).trans hm, fun z hz => hf z (by simpa [hxo] using hz)⟩
        · intro x y b hx hy
          by_cases hxo : x = o
          · by_cases hyo : y = o
            · rw [hxo, hyo]
            · have hx : some (some a) = some (some b) := by rw [hxo] at hx; exact shaUpd_self.symm.trans hx
              cases hx
              exact absurd ((shaUpd_other hyo).symm.trans hy) (hno y)
          · by_cases hyo : y = o
            · have hy : some (some a) = some (some b) := by rw [hyo] at hy; exact shaUpd_self.symm.trans hy
              cases hy
              exact absurd ((shaUpd_other hxo).symm.trans hx) (hno x)
            · exact h.own x y b ((shaUpd_other hxo).symm.trans hx) ((shaUpd_other hyo).symm.trans hy)
        · intro b hb
          by_cases hab : b = a
          · subst hab; exact ⟨o, shaUpd_self⟩
          · obtain ⟨x, hx⟩ := h.all b (by rwa [show (State.mk (upd s.mem a (some c.init)) (upd s.objs o (some (some a)))).mem b = s.mem b from shaUpd_other hab] at hb)
            refine ⟨x, (shaUpd_other ?_).trans hx⟩
            rintro rfl; rw [ho] at hx; cases hx
      cases data with
      | none => exact ⟨_, _, rfl, base, fun _ _ _ e => nomatch e⟩
      | some d =>
        by_cases hd : d = []
        · subst hd
          exact ⟨_, _, rfl, base, fun _ _ _ e => nomatch e⟩
        · have e : run c (.construct o (some d) (some a)) s = .ok none
              ⟨upd (upd s.mem a (some c.init)) a (some (Sha.update c c.init d)), upd s.objs o (some (some a))⟩ := by
            show updateAt c (some a) d _ = _
            simp only [updateAt, if_neg hd, shaUpd_self]
          refine ⟨_, _, e, ?_, fun _ _ _ e => nomatch e⟩
          have := base.change (o := o) (a := a) shaUpd_self (Sha.update c c.init d) (some d) (fun x hx => by cases hx; exact (ShaFed.start c).update d)
          have e2 : (fun x => if x = o then some (some d) else (fun x => if x = o then some (some []) else st x) x) = Spec.given st (.construct (c := c) o (some d) (some a)) := by
            funext x
            simp only [Spec.given, Option.getD]
            split <;> rfl
          rw [e2] at this
          exact this
  | update o d =>
    cases ho : s.objs o with
    | none => exact absurd ho hp
    | some ptr =>
      obtain ⟨a, m, rfl, hm, hf⟩ := h.live o ptr ho
      have hst : ∃ y, st o = some y := by
        cases e : st o with
        | none => exact absurd e ((h.objs o).mp (by rw [ho]; exact fun h => nomatch h))
        | some y => exact ⟨y, rfl⟩
      obtain ⟨y, hy⟩ := hst
      have hm' : ShaOwned { s with mem := upd s.mem a (some (Sha.update c m d)) } (Spec.given st (.update (c := c) o d)) := by
        have := h.change ho (Sha.update c m d) (y.map (· ++ d)) (fun x hx => by
          cases y with
          | none => cases hx
          | some z => cases hx; exact (hf z hy).update d)
        have e : (fun x => if x = o then some (y.map (· ++ d)) else st x) = Spec.given st (.update (c := c) o d) := by
          funext x; simp only [Spec.given, hy, Option.map_some]
        rwa [e] at this
      exact ⟨none, _, shaRun_update ho hm d, hm', fun _ _ _ e => nomatch e⟩
  | digest o spent =>
    cases ho : s.objs o with
    | none => exact absurd ho hp
    | some ptr =>
      obtain ⟨a, m, rfl, hm, hf⟩ := h.live o ptr ho
      refine ⟨some (getDigest c m), _, shaRun_digest ho hm spent, h.change ho spent none (fun x hx => nomatch hx), ?_⟩
      intro o' m' x e hx
      cases e
      obtain ⟨ps, h1, h2, h3⟩ := hf x hx
      rw [getDigest, h2, hc ps h1, h3]
  | destroy o =>
    cases ho : s.objs o with
    | none => exact absurd ho hp
    | some ptr =>
      obtain ⟨a, m, rfl, hm, hf⟩ := h.live o ptr ho
      refine ⟨none, _, shaRun_destroy ho hm, ?_, fun _ _ _ e => nomatch e⟩
      refine ⟨?_, ?_, ?_, ?_⟩
      · intro x
        by_cases hx : x = o
        · subst hx; simp [shaUpd_self, Spec.given]
        · simp only [Spec.given, if_neg hx, shaUpd_other hx]; exact h.objs x
      · intro x ptr hx
        by_cases hxo : x = o
        · subst hxo; exact nomatch shaUpd_self.symm.trans hx
        · have hx' : s.objs x = some ptr := (shaUpd_other hxo).symm.trans hx
          obtain ⟨b, m, rfl, hm, hf⟩ := h.live x ptr hx'
          have hab : b ≠ a := by rintro rfl; exact hxo (h.own _ _ _ hx' ho)
          exact ⟨b, m, rfl, (shaUpd_other hab).trans hm, fun z hz => hf z (by simpa [Spec.given, hxo] using hz)⟩
      · intro x y b hx hy
        by_cases hxo : x = o
        · subst hxo; exact nomatch shaUpd_self.symm.trans hx
        · by_cases hyo : y = o
          · subst hyo; exact nomatch shaUpd_self.symm.trans hy
          · exact h.own x y b ((shaUpd_other hxo).symm.trans hx) ((shaUpd_other hyo).symm.trans hy)
      · intro b hb
        by_cases hab : b = a
        · subst hab; exact absurd shaUpd_self hb
        · obtain ⟨x, hx⟩ := h.all b (by rwa [show (State.mk (upd s.mem a none) (upd s.objs o none)).mem b = s.mem b from shaUpd_other hab] at hb)
          refine ⟨x, (shaUpd_other ?_).trans hx⟩
          rintro rfl; rw [ho] at hx; cases hx; exact hab rfl

theorem ShaOwned.hist {c : HashCore} {H : Bytes → Bytes} (hc : Computes c H) {s s' : State c} {l : List (Call c × Option Bytes)} (h : Hist s l s') :
    ∀ {st : Nat → Option (Option Bytes)}, ShaOwned s st → (∀ k ∈ l, Spec.Careful k.1) → ShaOwned s' ((l.map Prod.fst).foldl Spec.given st) := by
  induction h with
  | nil s => intro st hs _; exact hs
  | cons hp hr _ ih =>
    intro st hs hk
    obtain ⟨r, s1, e, ho, -⟩ := hs.step hc _ hp (hk _ List.mem_cons_self)
    rw [hr] at e
    cases e
    exact ih ho (fun k h => hk k (List.mem_cons_of_mem _ h))

theorem ShaOwned.start (c : HashCore) : ShaOwned (start c) fun _ => none :=
  ⟨fun _ => ⟨fun h => absurd rfl h, fun h => absurd rfl h⟩, (fun _ _ h => nomatch h), (fun _ _ _ h => nomatch h), fun _ h => absurd rfl h⟩

/-- **C86.** After any history of any number of `SHA256` objects without copies, every call that a program can make next is defined, and the first digest of an object is the hash of
exactly what this object was given, whatever was done with the others in between and wherever the memory lies. -/
theorem C86_objects_are_independent {c : HashCore} {H : Bytes → Bytes} (hc : Computes c H) (l : List (Call c × Option Bytes)) (s : State c)
    (h : Hist (start c) l s) (hl : ∀ k ∈ l, Spec.Careful k.1) (k : Call c) (hp : possible s k) (hk : Spec.Careful k) :
    ∃ r s', run c k s = .ok r s' ∧ ∀ o spent x, k = .digest o spent → Spec.givenAll (l.map Prod.fst) o = some (some x) → r = some (H x) :=
  have ⟨r, s', e, _, h'⟩ := ((ShaOwned.start c).hist hc h hl).step hc k hp hk
  ⟨r, s', e, h'⟩

/-- **C86**: memory is held for the objects that exist and for nothing else; when the last of them is destroyed none is left. -/
theorem C86_no_leaks {c : HashCore} {H : Bytes → Bytes} (hc : Computes c H) (l : List (Call c × Option Bytes)) (s : State c)
    (h : Hist (start c) l s) (hl : ∀ k ∈ l, Spec.Careful k.1) :
    (∀ a, s.mem a ≠ none → ∃ o, s.objs o = some (some a)) ∧ (∀ o o' a, s.objs o = some (some a) → s.objs o' = some (some a) → o = o') ∧
    ((∀ o, s.objs o = none) → ∀ a, s.mem a = none) := by
  have ho := (ShaOwned.start c).hist hc h hl
  refine ⟨ho.all, ho.own, fun hn a => ?_⟩
  cases e : s.mem a with
  | none => rfl
  | some m =>
    obtain ⟨o, h'⟩ := ho.all a (by rw [e]; exact fun h => nomatch h)
    rw [hn o] at h'; cases h'

/-- Copies are **not values**: the copy and the original share the context, so the second of them to be destroyed frees it again, and using the original after the copy is gone is a use
of freed memory. Whatever the library. -/
theorem C86_copies_free_twice (c : HashCore) (s : State c) (o p a : Nat) (m : c.Ctx) (hne : o ≠ p) (hp : s.objs p = some (some a)) (hm : s.mem a = some m) :
    ∃ s1 s2, run c (.copy o p) s = .ok none s1 ∧ run c (.destroy o) s1 = .ok none s2 ∧ run c (.destroy p) s2 = .ub ∧
      (∀ d, d ≠ [] → run c (.update p d) s2 = .ub) ∧ ∀ x, run c (.digest p x) s2 = .ub := by
  have h1 : upd s.objs o (some (some a)) o = some (some a) := shaUpd_self
  refine ⟨⟨s.mem, upd s.objs o (some (some a))⟩, ⟨upd s.mem a none, upd (upd s.objs o (some (some a))) o none⟩, by simp only [run, hp], by simp only [run, h1, hm], ?_⟩
  have h2 : upd (upd s.objs o (some (some a))) o none p = some (some a) := by rw [shaUpd_other (Ne.symm hne), shaUpd_other (Ne.symm hne), hp]
  refine ⟨by simp only [run, h2, shaUpd_self], fun d hd => by simp only [run, h2, updateAt, if_neg hd, shaUpd_self], fun x => by simp only [run, h2, shaUpd_self]⟩

/-- Data given to a copy goes into the digest of the original. -/
theorem C86_copies_share {c : HashCore} {H : Bytes → Bytes} (hc : Computes c H) (l : List (Call c × Option Bytes)) (s : State c) (h : Hist (start c) l s)
    (hl : ∀ k ∈ l, Spec.Careful k.1) (o p : Nat) (x d : Bytes) (hne : o ≠ p) (hx : Spec.givenAll (l.map Prod.fst) p = some (some x)) (spent : c.Ctx) :
    ∃ s1 s2 s3, run c (.copy o p) s = .ok none s1 ∧ run c (.update o d) s1 = .ok none s2 ∧ run c (.digest p spent) s2 = .ok (some (H (x ++ d))) s3 := by
  have ho := (ShaOwned.start c).hist hc h hl
  cases hp : s.objs p with
  | none => exact absurd hp ((ho.objs p).mpr (by intro e; rw [Spec.givenAll] at hx; rw [hx] at e; cases e))
  | some ptr =>
    obtain ⟨a, m, rfl, hm, hf⟩ := ho.live p ptr hp
    obtain ⟨ps, h1, h2, h3⟩ := (hf x hx).update d
    have hd : getDigest c (Sha.update c m d) = H (x ++ d) := by rw [getDigest, h2, hc ps h1, h3]
    have h4 : upd s.objs o (some (some a)) o = some (some a) := shaUpd_self
    have h5 : upd s.objs o (some (some a)) p = some (some a) := by rw [shaUpd_other (Ne.symm hne), hp]
    exact ⟨_, _, _, shaRun_copy hp, shaRun_update (s := ⟨s.mem, upd s.objs o (some (some a))⟩) h4 hm d, (shaRun_digest (s := ⟨upd s.mem a (some (Sha.update c m d)), upd s.objs o (some (some a))⟩) h5 shaUpd_self spent).trans (by rw [hd])⟩

/-- Assigning one object to another **leaks** the context of the target: it stays allocated and no object points to it. -/
theorem C86_assignment_leaks {c : HashCore} {H : Bytes → Bytes} (hc : Computes c H) (l : List (Call c × Option Bytes)) (s : State c) (h : Hist (start c) l s)
    (hl : ∀ k ∈ l, Spec.Careful k.1) (o p : Nat) (hne : o ≠ p) (hp : possible s (.assign o p)) :
    ∃ s' a, run c (.assign o p) s = .ok none s' ∧ s'.mem a ≠ none ∧ ∀ q, s'.objs q ≠ some (some a) := by
  have ho := (ShaOwned.start c).hist hc h hl
  obtain ⟨hp1, hp2⟩ := hp
  cases e1 : s.objs o with
  | none => exact absurd e1 hp1
  | some ptr1 =>
    cases e2 : s.objs p with
    | none => exact absurd e2 hp2
    | some ptr2 =>
      obtain ⟨a, m, rfl, hm, -⟩ := ho.live o ptr1 e1
      refine ⟨_, a, shaRun_assign e2, (fun h => nomatch hm.symm.trans h), fun q hq => ?_⟩
      by_cases hqo : q = o
      · have : some ptr2 = some (some a) := by rw [hqo] at hq; exact shaUpd_self.symm.trans hq
        cases this
        exact hne (ho.own o p a e1 e2)
      · exact hqo (ho.own q o a ((shaUpd_other hqo).symm.trans hq) e1)

/-- The result of `malloc` is **not checked**: when it fails, an object without data is made, and giving it data, now or later, or asking for its digest is undefined. -/
theorem C86_failed_malloc (c : HashCore) (s : State c) (o : Nat) :
    (∀ d, d ≠ [] → run c (.construct o (some d) none) s = .ub) ∧
    ∃ s', run c (.construct o none none) s = .ok none s' ∧ (∀ d, d ≠ [] → run c (.update o d) s' = .ub) ∧ ∀ x, run c (.digest o x) s' = .ub := by
  refine ⟨fun d hd => by simp only [run, updateAt, if_neg hd], _, rfl, fun d hd => ?_, fun x => ?_⟩
  · simp only [run, shaUpd_self, updateAt, if_neg hd]
  · simp only [run, shaUpd_self]

/-- A library, for the example: it keeps what it is given. -/
def keepCore : HashCore := ⟨Bytes, [], fun m d => m ++ d, fun m => m⟩

theorem keepCore_hash : Computes keepCore fun x => x := keepAll_computes fun x => x

/-- Two objects in use: one was given data when it was made, the other later. -/
def demoShas : List (Call keepCore × Option Bytes) :=
  [(.construct 0 (some [1]) (some 7), none), (.construct 1 none (some 8), none), (.update 1 [9], none)]

theorem demoShas_hist : ∃ s, Hist (start keepCore) demoShas s ∧ s.objs 0 = some (some 7) ∧ s.objs 1 = some (some 8) := by
  refine ⟨_, .cons ⟨rfl, fun _ _ => rfl⟩ (?_ : _ = Res.ok none
      ⟨upd (upd (fun _ => none) 7 (some keepCore.init)) 7 (some (Sha.update keepCore keepCore.init [1])), upd (fun _ => none) 0 (some (some 7))⟩)
    (.cons ⟨rfl, fun a ha => by cases ha; rfl⟩ rfl (.cons (fun h => nomatch h) (shaRun_update (a := 8) (m := keepCore.init) rfl rfl [9]) (.nil _))), rfl, rfl⟩
  show updateAt keepCore (some 7) [1] _ = _
  simp only [updateAt, shaUpd_self]
  rfl

/-- Non-vacuous: the digests of these two are those of their own data, in either order, and both can be destroyed. -/
theorem C86_demo : ∃ s, Hist (start keepCore) demoShas s ∧ (∃ s1, run keepCore (.digest 0 keepCore.init) s = .ok (some [1]) s1) ∧
    (∃ s2, run keepCore (.digest 1 keepCore.init) s = .ok (some [9]) s2) ∧ ∃ s3, run keepCore (.destroy 0) s = .ok none s3 := by
  obtain ⟨s, h, h0, h1⟩ := demoShas_hist
  have hl : ∀ k ∈ demoShas, Spec.Careful k.1 := by
    intro k hk
    simp only [demoShas, List.mem_cons, List.not_mem_nil, or_false] at hk
    rcases hk with rfl | rfl | rfl
    · exact fun h => nomatch h
    · exact fun h => nomatch h
    · trivial
  have key := C86_objects_are_independent keepCore_hash demoShas s h hl
  obtain ⟨r, s1, e, hr⟩ := key (.digest 0 keepCore.init) (by rw [possible, h0]; exact fun h => nomatch h) trivial
  obtain ⟨r', s2, e', hr'⟩ := key (.digest 1 keepCore.init) (by rw [possible, h1]; exact fun h => nomatch h) trivial
  obtain ⟨r'', s3, e'', -⟩ := key (.destroy 0) (by rw [possible, h0]; exact fun h => nomatch h) trivial
  rw [hr 0 _ [1] rfl rfl] at e
  rw [hr' 1 _ [9] rfl rfl] at e'
  refine ⟨s, h, ⟨s1, e⟩, ⟨s2, e'⟩, s3, ?_⟩
  have ho := (ShaOwned.start keepCore).hist keepCore_hash h hl
  obtain ⟨a, m, ha, hm, -⟩ := ho.live 0 _ h0
  cases ha
  have := shaRun_destroy h0 hm
  rw [this] at e'' ⊢
  cases e''
  rfl

end ISD
