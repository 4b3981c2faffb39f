import Verif.Model.StreamHeap
import Verif.Proofs.WriteStreamOps
import Verif.Proofs.ReadTree

/-! # Streams on a heap are streams as values (for C79) -/

namespace ISD
namespace SHeap

theorem upd_same {α : Type} (f : Nat → α) (i : Nat) (x : α) : upd f i x i = x := if_pos rfl
theorem upd_other {α : Type} (f : Nat → α) {i k : Nat} (x : α) (h : k ≠ i) : upd f i x k = f k := if_neg h

/-- Every stream object owns a block, no two share one, and every block is owned: nothing dangles and nothing is leaked. -/
structure Owned (w : World) : Prop where
  held : ∀ i o, w.vars i = some o → ∃ a m, o.data = some a ∧ w.heap a = some m
  apart : ∀ i j o o' a, w.vars i = some o → w.vars j = some o' → o.data = some a → o'.data = some a → i = j
  noLeak : ∀ a m, w.heap a = some m → ∃ i o, w.vars i = some o ∧ o.data = some a
  finite : ∃ bound, ∀ a, bound ≤ a → w.heap a = none

/-- The stream as a value: what `Model.WriteStream` says the stream object with this block is. -/
def value (al : Allocator) (n : Nat) (o : Obj) (m : Bytes) : WStream :=
  ⟨m, o.dataSize, o.pos, o.reserved, o.flip, al.allocOk, n⟩

/-- Object `i` of the program is the stream `s`; the other objects are as in `w0`. -/
structure Rel (al : Allocator) (w0 : World) (i : Nat) (w : World) (s : WStream) : Prop where
  owned : Owned w
  here : ∃ o a m, w.vars i = some o ∧ o.data = some a ∧ w.heap a = some m ∧ s = value al w.n o m
  others : ∀ j, j ≠ i → w.vars j = w0.vars j
  blocks : ∀ j o a, j ≠ i → w0.vars j = some o → o.data = some a → w.heap a = w0.heap a

/-- The routine on the heap does what the routine on the value does. -/
def Tracks {α : Type} (al : Allocator) (i : Nat) (p : Prog World α) (q : Prog WStream α) : Prop :=
  ∀ w0 w s, Rel al w0 i w s →
    match q s with
    | .ok a s' => ∃ w', p w = .ok a w' ∧ Rel al w0 i w' s'
    | .throw s' => ∃ w', p w = .throw w' ∧ Rel al w0 i w' s'
    | .ub => p w = .ub

variable {al : Allocator} {i : Nat}

theorem Tracks.pure {α : Type} (a : α) : Tracks al i (Pure.pure a) (Pure.pure a) :=
  fun _ w _ h => ⟨w, rfl, h⟩

theorem Tracks.bind {α β : Type} {p : Prog World α} {q : Prog WStream α} {f : α → Prog World β} {g : α → Prog WStream β}
    (h : Tracks al i p q) (hf : ∀ a, Tracks al i (f a) (g a)) : Tracks al i (p >>= f) (q >>= g) := by
  intro w0 w s hr
  have h1 := h w0 w s hr
  rw [Prog.bind_apply, Prog.bind_apply]
  cases e : q s with
  | ok a s' =>
    rw [e] at h1
    obtain ⟨w', e', hr'⟩ := h1
    rw [e']
    exact hf a w0 w' s' hr'
  | throw s' =>
    rw [e] at h1
    obtain ⟨w', e', hr'⟩ := h1
    rw [e']
    exact ⟨w', rfl, hr'⟩
  | ub =>
    rw [e] at h1
    rw [h1]

theorem Tracks.when {c d : Prop} [Decidable c] [Decidable d] {p : Prog World Unit} {q : Prog WStream Unit} (hcd : c ↔ d) (h : Tracks al i p q) :
    Tracks al i (Prog.when c p) (Prog.when d q) := by
  unfold Prog.when
  by_cases hc : c
  · rw [if_pos hc, if_pos (hcd.1 hc)]; exact h
  · rw [if_neg hc, if_neg (fun hd => hc (hcd.2 hd))]; exact Tracks.pure ()

/-- Look at the members. -/
theorem Tracks.look {α : Type} {f : Obj → Prog World α} {g : WStream → Prog WStream α}
    (h : ∀ (o : Obj) (m : Bytes) (n : Nat), Tracks al i (f o) (g (value al n o m))) : Tracks al i (getVar i >>= f) (Prog.get >>= g) := by
  intro w0 w s hr
  obtain ⟨o, a, m, h1, h2, h3, rfl⟩ := hr.here
  have e : getVar i w = .ok o w := by simp only [getVar, h1]
  rw [Prog.bind_ok e, Prog.bind_ok (Prog.get_apply _)]
  exact h o m w.n w0 w _ hr

theorem modVar_eq {w : World} {o : Obj} (f : Obj → Obj) (h : w.vars i = some o) :
    modVar i f w = .ok () { w with vars := upd w.vars i (some (f o)) } := by simp only [modVar, h]

/-- Assign to members other than the pointer. -/
theorem Tracks.assign {f : Obj → Obj} {g : WStream → WStream} (hd : ∀ o, (f o).data = o.data)
    (hg : ∀ (n : Nat) (o : Obj) (m : Bytes), g (value al n o m) = value al n (f o) m) : Tracks al i (modVar i f) (Prog.modify g) := by
  intro w0 w s hr
  obtain ⟨o, a, m, h1, h2, h3, rfl⟩ := hr.here
  rw [Prog.modify_apply]
  refine ⟨_, modVar_eq f h1, ⟨⟨?_, ?_, ?_, hr.owned.finite⟩, ?_, ?_, hr.blocks⟩⟩
  · intro j o' hj
    dsimp only at hj ⊢
    by_cases e : j = i
    · subst e
      rw [upd_same] at hj; cases hj
      exact ⟨a, m, (hd o).trans h2, h3⟩
    · rw [upd_other _ _ e] at hj
      exact hr.owned.held j o' hj
  · have key : ∀ j o', upd w.vars i (some (f o)) j = some o' → ∃ o'', w.vars j = some o'' ∧ o''.data = o'.data := by
      intro j o' hj
      by_cases e : j = i
      · subst e
        rw [upd_same] at hj; cases hj
        exact ⟨o, h1, (hd o).symm⟩
      · rw [upd_other _ _ e] at hj
        exact ⟨o', hj, rfl⟩
    intro j k oj ok b hj hk dj dk
    obtain ⟨oj', hj', ej⟩ := key j oj hj
    obtain ⟨ok', hk', ek⟩ := key k ok hk
    exact hr.owned.apart j k oj' ok' b hj' hk' (ej.trans dj) (ek.trans dk)
  · intro b mb hb
    obtain ⟨j, o', hj, dj⟩ := hr.owned.noLeak b mb hb
    by_cases e : j = i
    · subst e
      rw [h1] at hj; cases hj
      exact ⟨j, f o, upd_same _ _ _, (hd o).trans dj⟩
    · exact ⟨j, o', (upd_other _ _ e).trans hj, dj⟩
  · exact ⟨f o, a, m, upd_same _ _ _, (hd o).trans h2, h3, hg _ _ _⟩
  · intro j hj
    exact (upd_other _ _ hj).trans (hr.others j hj)

/-- Overwrite the stream's block with one of any contents. -/
theorem Rel.store {w0 w : World} {s : WStream} (hr : Rel al w0 i w s) {o : Obj} {a : Nat} {m : Bytes} (m' : Bytes)
    (h1 : w.vars i = some o) (h2 : o.data = some a) (h3 : w.heap a = some m) :
    Rel al w0 i { w with heap := upd w.heap a (some m') } (value al w.n o m') := by
  refine ⟨⟨?_, hr.owned.apart, ?_, ?_⟩, ⟨o, a, m', h1, h2, upd_same _ _ _, rfl⟩, hr.others, ?_⟩
  · intro j o' hj
    obtain ⟨b, mb, hb, hmb⟩ := hr.owned.held j o' hj
    by_cases e : b = a
    · subst e; exact ⟨b, m', hb, upd_same _ _ _⟩
    · exact ⟨b, mb, hb, (upd_other _ _ e).trans hmb⟩
  · intro b mb hb
    by_cases e : b = a
    · subst e; exact ⟨i, o, h1, h2⟩
    · exact hr.owned.noLeak b mb ((upd_other _ _ e).symm.trans hb)
  · obtain ⟨B, hB⟩ := hr.owned.finite
    refine ⟨B, fun b hb => ?_⟩
    have : b ≠ a := fun e => by subst e; rw [hB b hb] at h3; cases h3
    exact (upd_other _ _ this).trans (hB b hb)
  · intro j o' b hj hv hb
    have hne : b ≠ a := fun e => by
      subst e
      exact hj (hr.owned.apart j i o' o b ((hr.others j hj).trans hv) h1 hb h2)
    exact (upd_other _ _ hne).trans (hr.blocks j o' b hj hv hb)

/-- The stream got another block, and its old block was released. -/
theorem Rel.moved {w0 w w' : World} {s : WStream} (hr : Rel al w0 i w s) {o o2 : Obj} {a p : Nat} {m m' : Bytes} (hp : w.heap p = none)
    (h1 : w.vars i = some o) (h2 : o.data = some a) (h3 : w.heap a = some m)
    (vars' : ∀ j, j ≠ i → w'.vars j = w.vars j) (vi : w'.vars i = some o2) (hd : o2.data = some p)
    (heap' : ∀ b, w'.heap b = if b = a then none else if b = p then some m' else w.heap b) :
    Rel al w0 i w' (value al w'.n o2 m') := by
  have hpa : a ≠ p := fun e => by subst e; rw [hp] at h3; cases h3
  refine ⟨⟨?_, ?_, ?_, ?_⟩, ⟨o2, p, m', vi, hd, ?_, rfl⟩, ?_, ?_⟩
  · intro j o' hj
    by_cases e : j = i
    · subst e
      rw [vi] at hj; cases hj
      exact ⟨p, m', hd, by rw [heap', if_neg (Ne.symm hpa), if_pos rfl]⟩
    · rw [vars' j e] at hj
      obtain ⟨b, mb, hb, hmb⟩ := hr.owned.held j o' hj
      refine ⟨b, mb, hb, ?_⟩
      rw [heap', if_neg, if_neg, hmb]
      · intro e'; subst e'; rw [hp] at hmb; cases hmb
      · intro e'; subst e'; exact e (hr.owned.apart j i o' o b hj h1 hb h2)
  · intro j k oj ok b hj hk dj dk
    have key : ∀ j oj, w'.vars j = some oj → oj.data = some p → j = i := by
      intro j oj hj dj
      by_cases e : j = i
      · exact e
      · rw [vars' j e] at hj
        obtain ⟨b', mb, hb, hmb⟩ := hr.owned.held j oj hj
        rw [hb] at dj; cases dj
        rw [hp] at hmb; cases hmb
    by_cases e : b = p
    · subst e
      rw [key j oj hj dj, key k ok hk dk]
    · have key2 : ∀ j oj, w'.vars j = some oj → oj.data = some b → w.vars j = some oj := by
        intro j oj hj dj
        by_cases e' : j = i
        · subst e'
          rw [vi] at hj; cases hj
          rw [hd] at dj; cases dj
          exact (e rfl).elim
        · rw [vars' j e'] at hj; exact hj
      exact hr.owned.apart j k oj ok b (key2 j oj hj dj) (key2 k ok hk dk) dj dk
  · intro b mb hb
    rw [heap'] at hb
    by_cases e : b = a
    · rw [if_pos e] at hb; cases hb
    · rw [if_neg e] at hb
      by_cases e' : b = p
      · exact ⟨i, _, vi, by rw [e', hd]⟩
      · rw [if_neg e'] at hb
        obtain ⟨j, o', hj, dj⟩ := hr.owned.noLeak b mb hb
        have : j ≠ i := fun e2 => by
          subst e2
          rw [h1] at hj; cases hj
          rw [h2] at dj; cases dj
          exact e rfl
        exact ⟨j, o', (vars' j this).trans hj, dj⟩
  · obtain ⟨B, hB⟩ := hr.owned.finite
    refine ⟨max B (p + 1), fun b hb => ?_⟩
    rw [heap']
    split
    · rfl
    · rw [if_neg (by omega)]; exact hB b (by omega)
  · rw [heap', if_neg (Ne.symm hpa), if_pos rfl]
  · intro j hj
    exact (vars' j hj).trans (hr.others j hj)
  · intro j o' b hj hv hb
    have hvj := (hr.others j hj).trans hv
    obtain ⟨b', mb, hb', hmb⟩ := hr.owned.held j o' hvj
    rw [hb] at hb'; cases hb'
    have := hr.blocks j o' b hj hv hb
    rw [heap', if_neg, if_neg, this]
    · intro e'; subst e'; rw [hp] at hmb; cases hmb
    · intro e'; subst e'; exact hj (hr.owned.apart j i o' o b hvj h1 hb h2)

theorem virtualAlloc_some {w : World} {r : Nat} (h : ¬ (al.allocOk w.n r = false ∨ r = 0)) :
    virtualAlloc al r w = .ok (some (al.pick w.heap))
      { w with heap := upd w.heap (al.pick w.heap) (some (List.replicate r 0)), n := w.n + 1 } := by
  simp only [virtualAlloc]; exact if_neg h

theorem virtualAlloc_none {w : World} {r : Nat} (h : al.allocOk w.n r = false ∨ r = 0) :
    virtualAlloc al r w = .ok none { w with n := w.n + 1 } := by
  simp only [virtualAlloc]; exact if_pos h

theorem load_block {w : World} {a off len : Nat} {m : Bytes} (h : w.heap a = some m) :
    (Source.block (some a) off len).load w = if m.length < off + len then .ub else .ok ((m.drop off).take len) w := by
  simp only [Source.load, h]

theorem poke_block {w : World} {a off : Nat} {m bs : Bytes} (h : w.heap a = some m) :
    poke (some a) off bs w = if m.length < off + bs.length then .ub
      else .ok () { w with heap := upd w.heap a (some (m.take off ++ bs ++ m.drop (off + bs.length))) } := by
  simp only [poke, h]

/-- `ReserveForSize` moves the contents to a new block and releases the old one. -/
theorem reserve_tracks (n : Nat) : Tracks al i (reserveForSize al i n) (WStream.reserveForSize n) := by
  intro w0 w s hr
  obtain ⟨o, a, m, h1, h2, h3, rfl⟩ := hr.here
  have e0 : getVar i w = .ok o w := by simp only [getVar, h1]
  have efin := hr.owned.finite
  generalize hrr : (if wrap64 (o.reserved * 2) < n then n else wrap64 (o.reserved * 2)) = r
  have eq : WStream.reserveForSize n (value al w.n o m) =
      if al.allocOk w.n r = false ∨ r = 0 then .throw { value al w.n o m with reserved := r, allocNo := w.n + 1 }
      else if m.length < o.dataSize ∨ r < o.dataSize then .ub
      else .ok () { value al w.n o m with reserved := r, allocNo := w.n + 1, mem := m.take o.dataSize ++ List.replicate (r - o.dataSize) 0 } := by
    simp only [WStream.reserveForSize, Prog.bind_apply, Prog.get_apply, Prog.set_apply, value, hrr]
    by_cases c1 : al.allocOk w.n r = false ∨ r = 0
    · simp only [if_pos c1, Prog.throw_apply]
    · by_cases c2 : m.length < o.dataSize ∨ r < o.dataSize
      · simp only [if_neg c1, if_pos c2, Prog.ub_apply]
      · simp only [if_neg c1, if_neg c2, Prog.modify_apply]
  rw [eq]
  let w1 : World := { w with vars := upd w.vars i (some { o with reserved := r }) }
  have e1 : modVar i (fun o => { o with reserved := r }) w = .ok () w1 := modVar_eq _ h1
  -- the relation after the first assignment
  have hr1 : Rel al w0 i w1 (value al w.n { o with reserved := r } m) := by
    have := Tracks.assign (al := al) (i := i) (f := fun o => { o with reserved := r }) (g := fun s => { s with reserved := r })
      (fun _ => rfl) (fun _ _ _ => rfl) w0 w _ hr
    rw [Prog.modify_apply] at this
    obtain ⟨w', e', h'⟩ := this
    rw [e1] at e'; cases e'
    exact h'
  have hv1 : w1.vars i = some { o with reserved := r } := upd_same _ _ _
  have step : reserveForSize al i n w = ((virtualAlloc al r >>= fun p => match p with
      | none => Prog.throw
      | some p => takeOver p o.data o.dataSize >>= fun _ =>
          modVar i fun o => { o with data := some p }) : Prog World Unit) w1 := by
    rw [reserveForSize, Prog.bind_ok e0, hrr, Prog.bind_ok e1]
    refine congrFun (congrArg _ (funext fun p => ?_)) w1
    cases p <;> rfl
  rw [step]
  by_cases c1 : al.allocOk w.n r = false ∨ r = 0
  · rw [if_pos c1]
    dsimp only
    rw [Prog.bind_ok (virtualAlloc_none (w := w1) c1)]
    refine ⟨_, rfl, ⟨⟨hr1.owned.held, hr1.owned.apart, hr1.owned.noLeak, hr1.owned.finite⟩, ?_, hr1.others, hr1.blocks⟩⟩
    exact ⟨_, a, m, hv1, h2, h3, rfl⟩
  · rw [if_neg c1, Prog.bind_ok (virtualAlloc_some (w := w1) c1)]
    dsimp only
    have hp : w.heap (al.pick w.heap) = none := al.free w.heap efin
    generalize al.pick w.heap = p at hp
    rw [h2]
    have hpa : a ≠ p := fun e => by subst e; rw [hp] at h3; cases h3
    -- the memory with both blocks
    let w2 : World := { vars := w1.vars, heap := upd w.heap p (some (List.replicate r 0)), n := w.n + 1 }
    have ha2 : w2.heap a = some m := (upd_other _ _ hpa).trans h3
    have hp2 : w2.heap p = some (List.replicate r 0) := upd_same _ _ _
    have el : (Source.block (some a) 0 o.dataSize).load w2 = if m.length < o.dataSize then .ub else .ok (m.take o.dataSize) w2 := by
      rw [load_block ha2, Nat.zero_add, List.drop_zero]
    have hov : ¬ (Source.block (some a) 0 o.dataSize).overlaps p 0 (Source.block (some a) 0 o.dataSize).length := by
      rintro ⟨h, -⟩
      exact hpa (Option.some.inj h)
    by_cases c2 : m.length < o.dataSize ∨ r < o.dataSize
    · rw [if_pos c2]
      have hub : memcpy (some p) 0 (.block (some a) 0 o.dataSize) w2 = .ub := by
        rw [memcpy, Prog.bind_apply, el]
        by_cases c3 : m.length < o.dataSize
        · rw [if_pos c3]
        · rw [if_neg c3]
          dsimp only
          rw [if_neg hov, poke_block hp2, if_pos]
          rw [List.length_replicate, List.length_take]; omega
      have htk : takeOver p (some a) o.dataSize w2 = .ub := by rw [takeOver, Prog.bind_apply, hub]
      exact (Prog.bind_apply _ _ _).trans (by rw [htk])
    · rw [if_neg c2]
      have hcpy : memcpy (some p) 0 (.block (some a) 0 o.dataSize) w2 =
          .ok () { w2 with heap := upd w2.heap p (some (m.take o.dataSize ++ List.replicate (r - o.dataSize) 0)) } := by
        rw [memcpy, Prog.bind_apply, el, if_neg (fun h => c2 (Or.inl h))]
        dsimp only
        rw [if_neg hov, poke_block hp2, if_neg]
        · simp only [List.take_zero, List.nil_append, List.drop_replicate, List.length_take, Nat.zero_add]
          rw [Nat.min_eq_left (by omega)]
        · rw [List.length_replicate, List.length_take]; omega
      have htk : takeOver p (some a) o.dataSize w2 = .ok () { w2 with heap := upd (upd w2.heap p (some (m.take o.dataSize ++ List.replicate (r - o.dataSize) 0))) a none } := by
        rw [takeOver, Prog.bind_ok hcpy]; rfl
      refine ⟨_, (Prog.bind_ok htk).trans (modVar_eq _ hv1), ?_⟩
      refine hr.moved (p := p) (a := a) (m := m) (o := o) (o2 := { { o with reserved := r } with data := some p }) hp h1 h2 h3 ?_ ?_ rfl ?_
      rotate_left
      · exact upd_same _ _ _
      rotate_left
      · intro j hj
        exact (upd_other _ _ hj).trans (upd_other _ _ hj)
      · intro b
        show upd (upd (upd w.heap p (some (List.replicate r 0))) p (some _)) a none b = _
        simp only [upd]
        split
        · rfl
        · split <;> rfl


theorem resize_tracks (n : Nat) : Tracks al i (resize al i n) (WStream.resize n) := by
  refine Tracks.look fun o m k => ?_
  refine Tracks.bind (Tracks.when Iff.rfl (reserve_tracks n)) fun _ => ?_
  exact Tracks.assign (fun _ => rfl) (fun _ _ _ => rfl)

/-- The copying of bytes into the stream's block. -/
theorem copy_tracks (e : Nat) (bs : Bytes) :
    Tracks al i (getVar i >>= fun o1 => memcpy o1.data o1.pos (.bytes bs) >>= fun _ => modVar i fun o => { o with pos := e })
      (Prog.get >>= fun s1 => if s1.mem.length < s1.pos + bs.length then Prog.ub else Prog.set { s1 with
        mem := s1.mem.take s1.pos ++ bs ++ s1.mem.drop (s1.pos + bs.length)
        pos := e }) := by
  intro w0 w s hr
  obtain ⟨o, a, m, h1, h2, h3, rfl⟩ := hr.here
  have e0 : getVar i w = .ok o w := by simp only [getVar, h1]
  rw [Prog.bind_ok e0, Prog.bind_ok (Prog.get_apply _), h2]
  have ec : memcpy (some a) o.pos (.bytes bs) w = if m.length < o.pos + bs.length then .ub
      else .ok () { w with heap := upd w.heap a (some (m.take o.pos ++ bs ++ m.drop (o.pos + bs.length))) } := by
    rw [memcpy, Source.load, Prog.bind_ok (Prog.pure_apply _ _)]
    dsimp only
    rw [if_neg (show ¬ (Source.bytes bs).overlaps a o.pos (Source.bytes bs).length from fun h => h), poke_block h3]
  by_cases c : m.length < o.pos + bs.length
  · rw [if_pos c] at ec
    rw [if_pos (show (value al w.n o m).mem.length < (value al w.n o m).pos + bs.length from c)]
    exact (Prog.bind_apply _ _ _).trans (by rw [ec])
  · rw [if_neg c] at ec
    rw [if_neg (show ¬ (value al w.n o m).mem.length < (value al w.n o m).pos + bs.length from c), Prog.set_apply]
    have hr2 := hr.store (m.take o.pos ++ bs ++ m.drop (o.pos + bs.length)) h1 h2 h3
    have h := Tracks.assign (al := al) (i := i) (f := fun o => { o with pos := e }) (g := fun s => { s with pos := e })
      (fun _ => rfl) (fun _ _ _ => rfl) w0 _ _ hr2
    rw [Prog.modify_apply] at h
    obtain ⟨w', e', h'⟩ := h
    exact ⟨w', (Prog.bind_ok ec).trans e', h'⟩

theorem writeRaw_tracks (bs : Bytes) : Tracks al i (writeRaw al i (.bytes bs)) (WStream.writeRaw bs) := by
  refine Tracks.look fun o m k => ?_
  refine Tracks.bind (Tracks.when Iff.rfl (resize_tracks _)) fun _ => ?_
  exact copy_tracks _ bs

theorem swap_parts (k : Nat) (hk : SwapWidth k) (m : Bytes) (n : Nat) (h : n * k ≤ m.length) :
    swapByteOrder k m n = swapByteOrder k (m.take (n * k)) n ++ m.drop (n * k) := by
  obtain ⟨ws, r, rfl, h1, h2⟩ : ∃ (ws : List Bytes) (r : Bytes), m = ws.flatten ++ r ∧ ws.length = n ∧ ∀ w ∈ ws, w.length = k := by
    clear hk
    induction n generalizing m with
    | zero => exact ⟨[], m, rfl, rfl, nofun⟩
    | succ n ih =>
      rw [Nat.succ_mul] at h
      obtain ⟨ws, r, e, h1, h2⟩ := ih (m.drop k) (by rw [List.length_drop]; omega)
      refine ⟨m.take k :: ws, r, ?_, by rw [List.length_cons, h1], ?_⟩
      · rw [List.flatten_cons, List.append_assoc, ← e, List.take_append_drop]
      · intro w hw
        rcases List.mem_cons.1 hw with rfl | hw
        · rw [List.length_take]; omega
        · exact h2 w hw
  subst h1
  have hl : ws.flatten.length = ws.length * k := by
    clear h hk
    induction ws with
    | nil => simp
    | cons w ws ih =>
      rw [List.flatten_cons, List.length_append, ih (fun x hx => h2 x (List.mem_cons_of_mem _ hx)), h2 w List.mem_cons_self, List.length_cons, Nat.succ_mul]
      omega
  rw [swapByteOrder_flatMap k hk ws h2 r, ← hl, List.take_left, List.drop_left]
  have := swapByteOrder_flatMap k hk ws h2 []
  rw [List.append_nil] at this
  rw [this, List.append_nil]

theorem swapAt_tracks (k : Nat) (hk : SwapWidth k) (p count : Nat) : Tracks al i (swapAt i k p count) (WStream.swapAt k p count) := by
  intro w0 w s hr
  obtain ⟨o, a, m, h1, h2, h3, rfl⟩ := hr.here
  have e0 : getVar i w = .ok o w := by simp only [getVar, h1]
  rw [swapAt, WStream.swapAt, Prog.bind_ok e0, Prog.bind_ok (Prog.get_apply _), h2]
  have el := load_block (off := p) (len := count * k) h3
  by_cases c : m.length < p + count * k
  · rw [if_pos c] at el
    rw [if_pos (show (value al w.n o m).mem.length < p + count * k from c)]
    exact (Prog.bind_apply _ _ _).trans (by rw [el])
  · rw [if_neg c] at el
    rw [if_neg (show ¬ (value al w.n o m).mem.length < p + count * k from c), Prog.set_apply]
    have hl : (swapByteOrder k ((m.drop p).take (count * k)) count).length = count * k := by
      rw [swapByteOrder_length k hk]
      · rw [List.length_take, List.length_drop]; omega
      · rw [List.length_take, List.length_drop]; omega
    have ep : poke (some a) p (swapByteOrder k ((m.drop p).take (count * k)) count) w = .ok () { w with heap := upd w.heap a (some (m.take p ++ swapByteOrder k (m.drop p) count)) } := by
      rw [poke_block h3, hl, if_neg c, swap_parts k hk (m.drop p) count (by rw [List.length_drop]; omega), List.drop_drop, List.append_assoc]
    exact ⟨_, (Prog.bind_ok el).trans ep, hr.store _ h1 h2 h3⟩

theorem writeWords_tracks {k : Nat} (hk : SwapWidth k) (ws : List (Word k)) : Tracks al i (writeWords al i ws) (WStream.writeWords ws) := by
  refine Tracks.look fun o m n => ?_
  show Tracks al i (if o.flip then _ else _) (if o.flip then _ else _)
  cases o.flip
  · exact writeRaw_tracks _
  · exact Tracks.bind (writeRaw_tracks _) fun _ => swapAt_tracks k hk _ _

theorem writeUUIDs_tracks (us : List UUID) : Tracks al i (writeUUIDs al i us) (WStream.writeUUIDs us) := by
  induction us with
  | nil => exact Tracks.pure ()
  | cons u us ih => exact Tracks.bind (writeRaw_tracks _) fun _ => ih

theorem writeItems_tracks (sc : Sc) (l : List sc.Val) : Tracks al i (writeItems al i sc l) (WStream.writeItems sc l) := by
  cases sc with
  | w1 => exact writeRaw_tracks _
  | w2 => exact writeWords_tracks (Or.inl rfl) l
  | w4 => exact writeWords_tracks (Or.inr (Or.inl rfl)) l
  | w8 => exact writeWords_tracks (Or.inr (Or.inr rfl)) l
  | uuid => exact writeUUIDs_tracks l
  | hash => exact writeRaw_tracks _

theorem setPosition_tracks (n : Nat) : Tracks al i (setPosition al i n) (WStream.setPosition n) := by
  refine Tracks.look fun o m k => ?_
  refine Tracks.bind (Tracks.when Iff.rfl (resize_tracks _)) fun _ => ?_
  exact Tracks.assign (fun _ => rfl) (fun _ _ _ => rfl)

theorem setFlip_tracks (b : Bool) : Tracks al i (setFlip i b) (WStream.setFlip b) :=
  Tracks.assign (fun _ => rfl) (fun _ _ _ => rfl)

theorem Rel.start {w : World} (h : Owned w) {o : Obj} {a : Nat} {m : Bytes} (h1 : w.vars i = some o) (h2 : o.data = some a)
    (h3 : w.heap a = some m) : Rel al w i w (value al w.n o m) :=
  ⟨h, ⟨o, a, m, h1, h2, h3, rfl⟩, fun _ _ => rfl, fun _ _ _ _ _ _ => rfl⟩

/-- The three outcomes of a tracked call, from the side of the heap. -/
theorem Tracks.ok {α : Type} {p : Prog World α} {q : Prog WStream α} (h : Tracks al i p q) {w0 w w' : World} {s : WStream} {a : α}
    (hr : Rel al w0 i w s) (e : p w = .ok a w') : ∃ s', q s = .ok a s' ∧ Rel al w0 i w' s' := by
  have := h w0 w s hr
  cases eq : q s with
  | ok b s' =>
    rw [eq] at this
    obtain ⟨w2, e2, h2⟩ := this
    rw [e] at e2; cases e2
    exact ⟨s', rfl, h2⟩
  | throw s' =>
    rw [eq] at this
    obtain ⟨w2, e2, h2⟩ := this
    rw [e] at e2; cases e2
  | ub => rw [eq] at this; have this : p w = .ub := this; rw [e] at this; cases this

theorem Tracks.threw {α : Type} {p : Prog World α} {q : Prog WStream α} (h : Tracks al i p q) {w0 w w' : World} {s : WStream}
    (hr : Rel al w0 i w s) (e : p w = .throw w') : ∃ s', q s = .throw s' ∧ Rel al w0 i w' s' := by
  have := h w0 w s hr
  cases eq : q s with
  | ok b s' =>
    rw [eq] at this
    obtain ⟨w2, e2, h2⟩ := this
    rw [e] at e2; cases e2
  | throw s' =>
    rw [eq] at this
    obtain ⟨w2, e2, h2⟩ := this
    rw [e] at e2; cases e2
    exact ⟨s', rfl, h2⟩
  | ub => rw [eq] at this; have this : p w = .ub := this; rw [e] at this; cases this

/-- Growing releases the old block. -/
theorem reserve_releases {w w' : World} {o : Obj} {a n : Nat} (h1 : w.vars i = some o) (h2 : o.data = some a)
    (e : reserveForSize al i n w = .ok () w') : w'.heap a = none := by
  have e0 : getVar i w = .ok o w := by simp only [getVar, h1]
  rw [reserveForSize, Prog.bind_ok e0] at e
  obtain ⟨_, w1, e1, e⟩ := Prog.bind_eq_ok e
  obtain ⟨p, w2, e2, e⟩ := Prog.bind_eq_ok e
  cases p with
  | none => cases e
  | some p =>
    obtain ⟨_, w3, e3, e⟩ := Prog.bind_eq_ok e
    rw [h2, takeOver] at e3
    obtain ⟨_, w4, e4, e3⟩ := Prog.bind_eq_ok e3
    have h5 : w3 = { w4 with heap := upd w4.heap a none } := by cases e3; rfl
    subst h5
    simp only [modVar] at e
    split at e
    · cases e
    · cases e
      exact upd_same _ _ _

/-- Reading the source at the time of copying is all that matters. -/
theorem writeRaw_source {w : World} {src : Source} {bs : Bytes} {o : Obj} (hlen : src.length = bs.length) (h1 : w.vars i = some o)
    (h : ∀ w1 o1 a, Prog.when (wrap64 (o.pos + bs.length) > o.dataSize) (resize al i (wrap64 (o.pos + bs.length))) w = .ok () w1 →
      w1.vars i = some o1 → o1.data = some a → src.load w1 = .ok bs w1 ∧ ¬ src.overlaps a o1.pos src.length)
    (hd : ∀ w1 o1, Prog.when (wrap64 (o.pos + bs.length) > o.dataSize) (resize al i (wrap64 (o.pos + bs.length))) w = .ok () w1 →
      w1.vars i = some o1 → o1.data ≠ none) :
    writeRaw al i src w = writeRaw al i (.bytes bs) w := by
  have e0 : getVar i w = .ok o w := by simp only [getVar, h1]
  rw [writeRaw, writeRaw, Prog.bind_ok e0, Prog.bind_ok e0, hlen]
  show (Prog.when (wrap64 (o.pos + bs.length) > o.dataSize) (resize al i (wrap64 (o.pos + bs.length))) >>= _ : Prog World Unit) w =
    (Prog.when (wrap64 (o.pos + bs.length) > o.dataSize) (resize al i (wrap64 (o.pos + bs.length))) >>= _ : Prog World Unit) w
  rw [Prog.bind_apply, Prog.bind_apply]
  cases e : Prog.when (wrap64 (o.pos + bs.length) > o.dataSize) (resize al i (wrap64 (o.pos + bs.length))) w with
  | throw w1 => rfl
  | ub => rfl
  | ok u w1 =>
    dsimp only
    cases hv : w1.vars i with
    | none =>
      have eg : getVar i w1 = .ub := by simp only [getVar, hv]
      rw [Prog.bind_apply, Prog.bind_apply, eg]
    | some o1 =>
      have eg : getVar i w1 = .ok o1 w1 := by simp only [getVar, hv]
      rw [Prog.bind_ok eg, Prog.bind_ok eg]
      cases hdat : o1.data with
      | none => exact (hd w1 o1 e hv hdat).elim
      | some a =>
        obtain ⟨hl, ho⟩ := h w1 o1 a e hv hdat
        have ec : memcpy (some a) o1.pos src w1 = memcpy (some a) o1.pos (.bytes bs) w1 := by
          rw [memcpy, memcpy, Prog.bind_ok hl, Source.load, Prog.bind_ok (Prog.pure_apply _ _)]
          dsimp only
          rw [if_neg ho, if_neg (show ¬ (Source.bytes bs).overlaps a o1.pos (Source.bytes bs).length from fun h => h)]
        exact (Prog.bind_apply _ _ _).trans (by rw [ec]; rfl)

end SHeap
end ISD
