import Verif.Proofs.StreamHeap
import Verif.Props.WriteStream

/-!
# C79: streams own their memory

`C01` to `C03` are about one stream whose buffer is its own. Here the buffers of all streams of a program are on one heap.
-/

namespace ISD

variable {al : SHeap.Allocator} {i : Nat}

namespace SHeap

/-- Stream `i` of the program is the stream `s` of `C01` to `C03`. -/
def Is (al : Allocator) (w : World) (i : Nat) (s : WStream) : Prop :=
  ∃ o a m, w.vars i = some o ∧ o.data = some a ∧ w.heap a = some m ∧ s = value al w.n o m

/-- The streams other than `i`, and the blocks they point at, are as before. -/
def OthersKept (i : Nat) (w w' : World) : Prop :=
  ∀ j, j ≠ i → w'.vars j = w.vars j ∧ ∀ o a, w.vars j = some o → o.data = some a → w'.heap a = w.heap a

/-- The call on stream `i` of the program. -/
def callOn (i : Nat) : WOp → Call
  | .write sc l => .items i sc l
  | .raw bs => .raw i bs
  | .seek n => .seek i n
  | .flip b => .flip i b

/-- Is it one of the implicit copies? -/
def Call.Copies : Call → Prop
  | .copyConstruct _ _ => True
  | .copyAssign _ _ => True
  | _ => False

/-- Plain byte files, one per stream. -/
abbrev Files := Nat → Option Spec.File

/-- What a call means for the files. -/
def Call.onFiles (fs : Files) : Call → Files
  | .construct i _ => upd fs i (some ⟨[], 0, false⟩)
  | .destroy i => upd fs i none
  | .items i sc l => upd fs i ((fs i).map fun f => f.write (Spec.scalars f.flip sc l))
  | .raw i bs => upd fs i ((fs i).map fun f => f.write bs)
  | .append i j off len => upd fs i ((fs i).map fun f => f.write ((((fs j).getD ⟨[], 0, false⟩).content.drop off).take len))
  | .seek i n => upd fs i ((fs i).map fun f => f.seek n)
  | .flip i b => upd fs i ((fs i).map fun f => { f with flip := b })
  | _ => fs

/-- A call a program may make: on streams that exist, with positions below `2^64`; no copies, and no writing of a stream's own memory to itself. -/
def Call.Legal (fs : Files) : Call → Prop
  | .construct i n => fs i = none ∧ 0 < n ∧ n < 2 ^ 64
  | .destroy i => fs i ≠ none
  | .items i sc l => ∃ f, fs i = some f ∧ (f.write (Spec.scalars f.flip sc l)).pos < 2 ^ 64
  | .raw i bs => ∃ f, fs i = some f ∧ f.pos + bs.length < 2 ^ 64
  | .append i j off len => i ≠ j ∧ ∃ f g, fs i = some f ∧ fs j = some g ∧ off + len ≤ g.content.length ∧ f.pos + len < 2 ^ 64
  | .seek i n => fs i ≠ none ∧ n < 2 ^ 64
  | .flip i _ => fs i ≠ none
  | _ => False

/-- All calls of the history are legal when they are made. -/
def LegalAll : List Call → Files → Prop
  | [], _ => True
  | c :: cs, fs => c.Legal fs ∧ LegalAll cs (c.onFiles fs)

/-- The files after the history. -/
def filesAfter : List Call → Files → Files
  | [], fs => fs
  | c :: cs, fs => filesAfter cs (c.onFiles fs)

/-- The streams of the program are the files. -/
def Shows (al : Allocator) (w : World) (fs : Files) : Prop :=
  ∀ i, match fs i with
    | none => w.vars i = none
    | some f => ∃ s, Is al w i s ∧ s.Good ∧ s.file = f



theorem tracks_op (op : WOp) : Tracks al i ((callOn i op).run al) op.run := by
  cases op with
  | write sc l => exact writeItems_tracks sc l
  | raw bs => exact writeRaw_tracks bs
  | seek n => exact setPosition_tracks n
  | flip b => exact setFlip_tracks b

theorem Rel.kept {w0 w : World} {s : WStream} (h : Rel al w0 i w s) : OthersKept i w0 w :=
  fun j hj => ⟨h.others j hj, fun o a => h.blocks j o a hj⟩

end SHeap
open SHeap in
/-- **C79.** A call on one stream does what it does on a stream that has its buffer for itself (the model of C01, C02, C03), whether it returns,
throws or is undefined; the other streams and their buffers are not touched, no two streams get to share memory and nothing is leaked. -/
theorem C79_one_call (w : World) (hw : Owned w) (s : WStream) (h : Is al w i s) (op : WOp) :
    match op.run s with
    | .ok () s' => ∃ w', (callOn i op).run al w = .ok () w' ∧ Is al w' i s' ∧ OthersKept i w w' ∧ Owned w'
    | .throw s' => ∃ w', (callOn i op).run al w = .throw w' ∧ Is al w' i s' ∧ OthersKept i w w' ∧ Owned w'
    | .ub => (callOn i op).run al w = .ub := by
  obtain ⟨o, a, m, h1, h2, h3, rfl⟩ := h
  have := tracks_op (al := al) (i := i) op w w _ (Rel.start hw h1 h2 h3)
  cases e : op.run (value al w.n o m) with
  | ok u s' =>
    rw [e] at this
    obtain ⟨w', e', hr⟩ := this
    exact ⟨w', e', hr.here, hr.kept, hr.owned⟩
  | throw s' =>
    rw [e] at this
    obtain ⟨w', e', hr⟩ := this
    exact ⟨w', e', hr.here, hr.kept, hr.owned⟩
  | ub => rw [e] at this; exact this

namespace SHeap

theorem upd_upd_none {α : Type} (f : Nat → Option α) (i : Nat) (x : Option α) (h : f i = none) : upd (upd f i x) i none = f := by
  funext k
  by_cases e : k = i
  · subst e; rw [upd_same, h]
  · rw [upd_other _ _ e, upd_other _ _ e]

end SHeap
open SHeap in
/-- **C79.** The constructor gives an empty stream with a buffer of its own, or (if the system has no memory, or none was asked for) throws and leaves
everything as it was. -/
theorem C79_construct (w : World) (hw : Owned w) (hi : w.vars i = none) (n : Nat) :
    (al.allocOk w.n n = true ∧ n ≠ 0 → ∃ w' s, (Call.construct i n).run al w = .ok () w' ∧ Owned w' ∧ OthersKept i w w' ∧ Is al w' i s ∧
      s.mem = List.replicate n 0 ∧ s.dataSize = 0 ∧ s.pos = 0 ∧ s.reserved = n ∧ s.flip = false) ∧
    (¬ (al.allocOk w.n n = true ∧ n ≠ 0) → (Call.construct i n).run al w = .throw { w with n := w.n + 1 }) := by
  have hrr : (if wrap64 (0 * 2) < n then n else wrap64 (0 * 2)) = n := by
    rw [Nat.zero_mul]
    show (if 0 % 2 ^ 64 < n then n else 0 % 2 ^ 64) = n
    rw [Nat.zero_mod]
    split <;> omega
  let o : Obj := ⟨none, 0, 0, 0, false⟩
  let w0 : World := { w with vars := upd w.vars i (some o) }
  let w1 : World := { w with vars := upd w0.vars i (some { o with reserved := n }) }
  have hv0 : w0.vars i = some o := upd_same _ _ _
  have hv1 : w1.vars i = some { o with reserved := n } := upd_same _ _ _
  have e0 : getVar i w0 = .ok o w0 := by simp only [getVar, hv0]
  have e1 : modVar i (fun o => { o with reserved := n }) w0 = .ok () w1 := modVar_eq _ hv0
  have vars1 : ∀ j, j ≠ i → w1.vars j = w.vars j := fun j hj => (upd_other _ _ hj).trans (upd_other _ _ hj)
  have step : reserveForSize al i n w0 = ((virtualAlloc al n >>= fun p => match p with
      | none => Prog.throw
      | some p => takeOver p o.data o.dataSize >>= fun _ =>
          modVar i fun o => { o with data := some p }) : Prog World Unit) w1 := by
    rw [reserveForSize, Prog.bind_ok e0]
    show (modVar i (fun o' => { o' with reserved := if wrap64 (0 * 2) < n then n else wrap64 (0 * 2) }) >>= _ : Prog World Unit) w0 = _
    rw [hrr, Prog.bind_ok e1]
    exact congrFun (congrArg _ (funext fun p => by cases p <;> rfl)) w1
  constructor
  · rintro ⟨ha, hn⟩
    have c1 : ¬ (al.allocOk w.n n = false ∨ n = 0) := by rw [ha]; simp [hn]
    have hp : w.heap (al.pick w.heap) = none := al.free w.heap hw.finite
    have ev := virtualAlloc_some (al := al) (w := w1) (r := n) c1
    have ep : al.pick w1.heap = al.pick w.heap := rfl
    rw [ep] at ev
    generalize al.pick w.heap = p at hp ev
    let w2 : World := { w1 with heap := upd w.heap p (some (List.replicate n 0)), n := w.n + 1 }
    have et : takeOver p o.data o.dataSize w2 = .ok () w2 := rfl
    have hv2 : w2.vars i = some { o with reserved := n } := hv1
    let w3 : World := { w2 with vars := upd w2.vars i (some { { o with reserved := n } with data := some p }) }
    have em : modVar i (fun o => { o with data := some p }) w2 = .ok () w3 := modVar_eq _ hv2
    have er : reserveForSize al i n w0 = .ok () w3 := by
      rw [step, Prog.bind_ok ev]
      exact (Prog.bind_ok et).trans em
    have vi : w3.vars i = some { { o with reserved := n } with data := some p } := upd_same _ _ _
    have vars3 : ∀ j, j ≠ i → w3.vars j = w.vars j := fun j hj => (upd_other _ _ hj).trans (vars1 j hj)
    have heapp : w3.heap p = some (List.replicate n 0) := upd_same _ _ _
    have heapo : ∀ b, b ≠ p → w3.heap b = w.heap b := fun b hb => upd_other _ _ hb
    have notp : ∀ b mb, w.heap b = some mb → b ≠ p := fun b mb h e => by rw [e, hp] at h; cases h
    refine ⟨w3, value al w3.n { { o with reserved := n } with data := some p } (List.replicate n 0), ?_, ⟨?_, ?_, ?_, ?_⟩, ?_, ⟨_, p, _, vi, rfl, heapp, rfl⟩, rfl, rfl, rfl, rfl, rfl⟩
    · show construct al i n w = _
      rw [construct, hi]
      show (match reserveForSize al i n w0 with | .ok () w' => _ | .throw w' => _ | .ub => _) = _
      rw [er]
    · intro j oj hj
      by_cases e : j = i
      · subst e; rw [vi] at hj; cases hj
        exact ⟨p, _, rfl, heapp⟩
      · rw [vars3 j e] at hj
        obtain ⟨b, mb, hb, hm⟩ := hw.held j oj hj
        exact ⟨b, mb, hb, (heapo b (notp b mb hm)).trans hm⟩
    · intro j k oj ok b hj hk dj dk
      have key : ∀ j oj, w3.vars j = some oj → oj.data = some p → j = i := by
        intro j oj hj dj
        by_cases e : j = i
        · exact e
        · rw [vars3 j e] at hj
          obtain ⟨b', mb, hb, hm⟩ := hw.held j oj hj
          rw [hb] at dj; cases dj
          exact (notp _ _ hm rfl).elim
      by_cases e : b = p
      · subst e; rw [key j oj hj dj, key k ok hk dk]
      · have key2 : ∀ j oj, w3.vars j = some oj → oj.data = some b → w.vars j = some oj := by
          intro j oj hj dj
          by_cases e' : j = i
          · subst e'; rw [vi] at hj; cases hj; cases dj; exact (e rfl).elim
          · rw [vars3 j e'] at hj; exact hj
        exact hw.apart j k oj ok b (key2 j oj hj dj) (key2 k ok hk dk) dj dk
    · intro b mb hb
      by_cases e : b = p
      · exact ⟨i, _, vi, by rw [e]⟩
      · rw [heapo b e] at hb
        obtain ⟨j, oj, hj, dj⟩ := hw.noLeak b mb hb
        have : j ≠ i := fun e' => by rw [e', hi] at hj; cases hj
        exact ⟨j, oj, (vars3 j this).trans hj, dj⟩
    · obtain ⟨B, hB⟩ := hw.finite
      exact ⟨max B (p + 1), fun b hb => (heapo b (by omega)).trans (hB b (by omega))⟩
    · intro j hj
      refine ⟨vars3 j hj, fun oj b hv hb => ?_⟩
      obtain ⟨b', mb, hb', hm⟩ := hw.held j oj hv
      rw [hb] at hb'; cases hb'
      exact heapo b (notp b mb hm)
  · intro hc
    have c1 : al.allocOk w.n n = false ∨ n = 0 := by
      rcases Bool.eq_false_or_eq_true (al.allocOk w.n n) with h | h
      · right; exact Decidable.not_not.1 fun hn => hc ⟨h, hn⟩
      · exact Or.inl h
    have ev := virtualAlloc_none (al := al) (w := w1) (r := n) c1
    have er : reserveForSize al i n w0 = .throw { w1 with n := w.n + 1 } := by
      rw [step, Prog.bind_ok ev]; rfl
    show construct al i n w = _
    rw [construct, hi]
    show (match reserveForSize al i n w0 with | .ok () w' => _ | .throw w' => _ | .ub => _) = _
    rw [er]
    show Res.throw (⟨upd w1.vars i none, w.heap, w.n + 1⟩ : World) = Res.throw ⟨w.vars, w.heap, w.n + 1⟩
    have : upd w1.vars i none = w.vars := by
      funext k
      by_cases e : k = i
      · subst e; rw [upd_same, hi]
      · rw [upd_other _ _ e]; exact vars1 k e
    rw [this]

namespace SHeap

end SHeap
open SHeap in
/-- **C79.** The destructor releases the stream's buffer and nothing else. -/
theorem C79_destroy (w : World) (hw : Owned w) (s : WStream) (h : Is al w i s) :
    ∃ w', (Call.destroy i).run al w = .ok () w' ∧ Owned w' ∧ OthersKept i w w' ∧ w'.vars i = none := by
  obtain ⟨o, a, m, h1, h2, h3, rfl⟩ := h
  have e0 : getVar i w = .ok o w := by simp only [getVar, h1]
  have vars' : ∀ j, j ≠ i → upd w.vars i none j = w.vars j := fun j hj => upd_other _ _ hj
  have nota : ∀ j oj b, j ≠ i → w.vars j = some oj → oj.data = some b → b ≠ a := by
    intro j oj b hj hv hb e
    exact hj (hw.apart j i oj o b hv h1 hb (by rw [h2, e]))
  have back : ∀ j oj, upd w.vars i none j = some oj → j ≠ i ∧ w.vars j = some oj := by
    intro j oj hj
    by_cases e : j = i
    · subst e; rw [upd_same] at hj; cases hj
    · rw [vars' j e] at hj; exact ⟨e, hj⟩
  refine ⟨⟨upd w.vars i none, upd w.heap a none, w.n⟩, ?_, ⟨?_, ?_, ?_, ?_⟩, ?_, upd_same _ _ _⟩
  · show destroy i w = _
    rw [destroy, Prog.bind_ok e0, h2]
    rfl
  · intro j oj hj
    obtain ⟨e, hv⟩ := back j oj hj
    obtain ⟨b, mb, hb, hm⟩ := hw.held j oj hv
    exact ⟨b, mb, hb, (upd_other _ _ (nota j oj b e hv hb)).trans hm⟩
  · intro j k oj ok b hj hk
    exact hw.apart j k oj ok b (back j oj hj).2 (back k ok hk).2
  · intro b mb hb
    have hb : upd w.heap a none b = some mb := hb
    by_cases e : b = a
    · subst e; rw [upd_same] at hb; cases hb
    · rw [upd_other _ _ e] at hb
      obtain ⟨j, oj, hj, dj⟩ := hw.noLeak b mb hb
      have : j ≠ i := fun e' => by
        rw [e', h1] at hj; cases hj
        rw [h2] at dj; cases dj
        exact e rfl
      exact ⟨j, oj, (vars' j this).trans hj, dj⟩
  · obtain ⟨B, hB⟩ := hw.finite
    refine ⟨B, fun b hb => ?_⟩
    show upd w.heap a none b = none
    by_cases e : b = a
    · subst e; exact upd_same _ _ _
    · exact (upd_other _ _ e).trans (hB b hb)
  · intro j hj
    exact ⟨vars' j hj, fun oj b hv hb => upd_other _ _ (nota j oj b hj hv hb)⟩

namespace SHeap

theorem Rel.after {w0 w w' : World} {s : WStream} (hr : Rel al w0 i w s) {P : Prog World Unit} {Q : Prog WStream Unit} (h : Tracks al i P Q)
    (e : P w = .ok () w') : ∃ s', Rel al w0 i w' s' := by
  obtain ⟨s', -, h'⟩ := h.ok hr e
  exact ⟨s', h'⟩

theorem grow_tracks (c : Prop) [Decidable c] (n : Nat) :
    Tracks al i (Prog.when c (resize al i n)) (Prog.when c (WStream.resize n)) := Tracks.when Iff.rfl (resize_tracks n)

end SHeap
open SHeap in
/-- **C79.** Writing bytes that another stream shows (through `GetData`) is the same as writing a copy of these bytes. -/
theorem C79_append_other (w : World) (hw : Owned w) (j : Nat) (hij : i ≠ j) (s t : WStream) (hs : Is al w i s) (ht : Is al w j t)
    (off len : Nat) (hin : off + len ≤ t.mem.length) :
    (Call.append i j off len).run al w = (Call.raw i ((t.mem.drop off).take len)).run al w := by
  obtain ⟨o, a, m, h1, h2, h3, rfl⟩ := hs
  obtain ⟨oj, b, mb, j1, j2, j3, rfl⟩ := ht
  have hin : off + len ≤ mb.length := hin
  have ej : getVar j w = .ok oj w := by simp only [getVar, j1]
  show (getVar j >>= fun o => writeRaw al i (.block o.data off len)) w = writeRaw al i (.bytes ((mb.drop off).take len)) w
  rw [Prog.bind_ok ej, j2]
  have hl : ((mb.drop off).take len).length = len := by rw [List.length_take, List.length_drop]; omega
  refine writeRaw_source (i := i) (o := o) hl.symm h1 ?_ ?_
  · intro w1 o1 a1 e hv ha
    obtain ⟨s1, hr⟩ := (Rel.start (al := al) hw h1 h2 h3).after (grow_tracks _ _) e
    have hb := hr.blocks j oj b (Ne.symm hij) j1 j2
    rw [j3] at hb
    refine ⟨?_, ?_⟩
    · rw [load_block hb, if_neg (by omega)]
    · rintro ⟨hba, -⟩
      have hj := (hr.others j (Ne.symm hij)).trans j1
      exact hij (hr.owned.apart i j o1 oj a1 hv hj ha (j2.trans hba))
  · intro w1 o1 e hv hd
    obtain ⟨s1, hr⟩ := (Rel.start (al := al) hw h1 h2 h3).after (grow_tracks _ _) e
    obtain ⟨a1, m1, ha, -⟩ := hr.owned.held i o1 hv
    rw [hd] at ha; cases ha

namespace SHeap

theorem when_resize_small {w : World} {o : Obj} {e : Nat} (h1 : w.vars i = some o) (he : e ≤ o.reserved) :
    ∃ o', o'.data = o.data ∧ o'.pos = o.pos ∧ Prog.when (e > o.dataSize) (resize al i e) w = .ok () { w with vars := upd w.vars i (some o') } := by
  unfold Prog.when
  by_cases c : e > o.dataSize
  · have e0 : getVar i w = .ok o w := by simp only [getVar, h1]
    have h0 : Prog.when (e > o.reserved) (reserveForSize al i e) w = .ok () w := by
      unfold Prog.when; rw [if_neg (by omega)]; rfl
    refine ⟨{ o with dataSize := e }, rfl, rfl, ?_⟩
    rw [if_pos c, resize, Prog.bind_ok e0, Prog.bind_ok h0]
    exact modVar_eq _ h1
  · refine ⟨o, rfl, rfl, ?_⟩
    rw [if_neg c, Prog.pure_apply]
    have : upd w.vars i (some o) = w.vars := by
      funext k
      by_cases e : k = i
      · subst e; rw [upd_same, h1]
      · exact upd_other _ _ e
    rw [this]

end SHeap
open SHeap in
/-- **C79.** Writing bytes that the stream itself shows works only as long as the buffer need not grow (and the two areas do not overlap): if it grows, the
bytes are read from memory that was released. -/
theorem C79_append_self (w : World) (s : WStream) (hs : Is al w i s) (off len : Nat)
    (hinv : s.Inv) (hin : off + len ≤ s.dataSize) (hfit : s.pos + len < 2 ^ 64) :
    (s.pos + len ≤ s.reserved → (off + len ≤ s.pos ∨ s.pos + len ≤ off) →
      (Call.append i i off len).run al w = (Call.raw i ((s.mem.drop off).take len)).run al w) ∧
    (s.reserved < s.pos + len → (Call.append i i off len).run al w = .ub ∨ ∃ w', (Call.append i i off len).run al w = .throw w') := by
  obtain ⟨o, a, m, h1, h2, h3, rfl⟩ := hs
  have hin : off + len ≤ o.dataSize := hin
  have hsz : o.dataSize ≤ o.reserved := hinv.size_le
  have hmem : m.length = o.reserved := hinv.mem_len
  have hfit : o.pos + len < 2 ^ 64 := hfit
  have hpos : o.pos ≤ o.dataSize := hinv.pos_le
  have e0 : getVar i w = .ok o w := by simp only [getVar, h1]
  have hl : ((m.drop off).take len).length = len := by rw [List.length_take, List.length_drop]; omega
  have hwrap : wrap64 (o.pos + len) = o.pos + len := Nat.mod_eq_of_lt hfit
  have hrun : (Call.append i i off len).run al w = writeRaw al i (.block (some a) off len) w := by
    show (getVar i >>= fun o => writeRaw al i (.block o.data off len)) w = _
    rw [Prog.bind_ok e0, h2]
  constructor
  · intro hsmall hov
    have hsmall : o.pos + len ≤ o.reserved := hsmall
    have hov : off + len ≤ o.pos ∨ o.pos + len ≤ off := hov
    rw [hrun]
    show writeRaw al i (.block (some a) off len) w = writeRaw al i (.bytes ((m.drop off).take len)) w
    obtain ⟨o', hd, hp, ew⟩ := when_resize_small (al := al) (i := i) (e := o.pos + len) h1 hsmall
    refine writeRaw_source (i := i) (o := o) hl.symm h1 ?_ ?_
    · intro w1 o1 a1 e hv ha
      rw [hl, hwrap, ew] at e
      cases e
      have hv : upd w.vars i (some o') i = some o1 := hv
      rw [upd_same] at hv; cases hv
      refine ⟨?_, ?_⟩
      · rw [load_block (w := { w with vars := upd w.vars i (some o') }) h3, if_neg (by omega)]
      · rintro ⟨-, hn, h5, h6⟩
        have hn : 0 < len := hn
        have h5 : off < o'.pos + len := h5
        have h6 : o'.pos < off + len := h6
        omega
    · intro w1 o1 e hv hdn
      rw [hl, hwrap, ew] at e
      cases e
      have hv : upd w.vars i (some o') i = some o1 := hv
      rw [upd_same] at hv; cases hv
      rw [hd, h2] at hdn; cases hdn
  · intro hbig
    have hbig : o.reserved < o.pos + len := hbig
    rw [hrun, writeRaw, Prog.bind_ok e0]
    show (Prog.when (wrap64 (o.pos + len) > o.dataSize) (resize al i (wrap64 (o.pos + len))) >>= _ : Prog World Unit) w = .ub ∨
      ∃ w', (Prog.when (wrap64 (o.pos + len) > o.dataSize) (resize al i (wrap64 (o.pos + len))) >>= _ : Prog World Unit) w = .throw w'
    rw [hwrap, Prog.bind_apply]
    cases e : Prog.when (o.pos + len > o.dataSize) (resize al i (o.pos + len)) w with
    | throw w1 => exact Or.inr ⟨w1, rfl⟩
    | ub => exact Or.inl rfl
    | ok u w1 =>
      left
      dsimp only
      -- the old block is gone
      have hgone : w1.heap a = none := by
        unfold Prog.when at e
        rw [if_pos (by omega), resize, Prog.bind_ok e0] at e
        obtain ⟨_, w2, e2, e3⟩ := Prog.bind_eq_ok e
        unfold Prog.when at e2
        rw [if_pos (by omega)] at e2
        have := reserve_releases h1 h2 e2
        simp only [modVar] at e3
        split at e3
        · cases e3
        · cases e3; exact this
      have hload : (Source.block (some a) off len).load w1 = .ub := by simp only [Source.load, hgone]
      rw [Prog.bind_apply]
      cases eg : getVar i w1 with
      | ub => rfl
      | throw w2 => simp only [getVar] at eg; split at eg <;> cases eg
      | ok o1 w2 =>
        have : w2 = w1 := by simp only [getVar] at eg; split at eg <;> cases eg; rfl
        subst this
        dsimp only
        have hm : memcpy o1.data o1.pos (.block (some a) off len) w2 = .ub := by
          rw [memcpy, Prog.bind_apply, hload]
        rw [Prog.bind_apply, hm]

namespace SHeap

/-- Whatever the source of the bytes: a write that returns or throws keeps the ownership. -/
theorem writeRaw_owned {w : World} (hw : Owned w) (src : Source) :
    (∀ w', writeRaw al i src w = .ok () w' → Owned w') ∧ (∀ w', writeRaw al i src w = .throw w' → Owned w') := by
  cases h1 : w.vars i with
  | none =>
    have eg : getVar i w = .ub := by simp only [getVar, h1]
    have : writeRaw al i src w = .ub := by rw [writeRaw, Prog.bind_apply, eg]
    rw [this]
    exact ⟨nofun, nofun⟩
  | some o =>
    obtain ⟨a, m, h2, h3⟩ := hw.held i o h1
    have e0 : getVar i w = .ok o w := by simp only [getVar, h1]
    have hr := Rel.start (al := al) hw h1 h2 h3
    rw [writeRaw, Prog.bind_ok e0]
    generalize wrap64 (o.pos + src.length) = e
    have hP := grow_tracks (al := al) (i := i) (e > o.dataSize) e
    rw [Prog.bind_apply]
    cases eP : Prog.when (e > o.dataSize) (resize al i e) w with
    | ub => exact ⟨nofun, nofun⟩
    | throw w1 =>
      obtain ⟨s1, -, hr1⟩ := hP.threw hr eP
      exact ⟨nofun, fun w' h => by cases h; exact hr1.owned⟩
    | ok u w1 =>
      obtain ⟨s1, -, hr1⟩ := hP.ok hr eP
      dsimp only
      obtain ⟨o1, a1, m1, v1, d1, m1h, rfl⟩ := hr1.here
      have e1 : getVar i w1 = .ok o1 w1 := by simp only [getVar, v1]
      rw [Prog.bind_ok e1, d1, Prog.bind_apply]
      have hmc : memcpy (some a1) o1.pos src w1 = .ub ∨ ∃ m2, memcpy (some a1) o1.pos src w1 = .ok () { w1 with heap := upd w1.heap a1 (some m2) } := by
        rw [memcpy, Prog.bind_apply]
        have hld : src.load w1 = .ub ∨ ∃ bs, src.load w1 = .ok bs w1 := by
          cases src with
          | bytes bs => exact Or.inr ⟨bs, rfl⟩
          | block p off len =>
            cases p with
            | none => exact Or.inl rfl
            | some b =>
              cases hb : w1.heap b with
              | none => left; simp only [Source.load, hb]
              | some mb =>
                rw [load_block hb]
                by_cases c : mb.length < off + len
                · left; exact if_pos c
                · right; exact ⟨_, if_neg c⟩
        rcases hld with hld | ⟨bs, hld⟩
        · left; rw [hld]
        · rw [hld]
          dsimp only
          by_cases c : src.overlaps a1 o1.pos src.length
          · left; rw [if_pos c]; rfl
          · rw [if_neg c, poke_block m1h]
            by_cases c2 : m1.length < o1.pos + bs.length
            · left; exact if_pos c2
            · right; exact ⟨_, if_neg c2⟩
      rcases hmc with hmc | ⟨m2, hmc⟩
      · rw [hmc]; exact ⟨nofun, nofun⟩
      · rw [hmc]
        have hr2 := hr1.store m2 v1 d1 m1h
        have h := Tracks.assign (al := al) (i := i) (f := fun o => { o with pos := e }) (g := fun s => { s with pos := e })
          (fun _ => rfl) (fun _ _ _ => rfl) w _ _ hr2
        rw [Prog.modify_apply] at h
        obtain ⟨w3, e3, h3⟩ := h
        dsimp only
        rw [e3]
        exact ⟨fun w' h => by cases h; exact h3.owned, nofun⟩

/-- A call on a stream that does not exist is undefined (or, writing no uuids at all, does nothing). -/
theorem op_missing (op : WOp) {w : World} (h : w.vars i = none) :
    (callOn i op).run al w = .ub ∨ (callOn i op).run al w = .ok () w := by
  have eg : getVar i w = .ub := by simp only [getVar, h]
  have hraw : ∀ src, writeRaw al i src w = .ub := fun src => by rw [writeRaw, Prog.bind_apply, eg]
  cases op with
  | write sc l =>
    cases sc with
    | w1 => exact Or.inl (hraw _)
    | w2 => left; show writeWords al i _ w = _; rw [writeWords, Prog.bind_apply, eg]
    | w4 => left; show writeWords al i _ w = _; rw [writeWords, Prog.bind_apply, eg]
    | w8 => left; show writeWords al i _ w = _; rw [writeWords, Prog.bind_apply, eg]
    | uuid =>
      cases l with
      | nil => exact Or.inr rfl
      | cons u us => left; show writeUUIDs al i (u :: us) w = _; rw [writeUUIDs, Prog.bind_apply, hraw]
    | hash => exact Or.inl (hraw _)
  | raw bs => exact Or.inl (hraw _)
  | seek n => left; show setPosition al i n w = _; rw [setPosition, Prog.bind_apply, eg]
  | flip b => left; show setFlip i b w = _; simp only [setFlip, modVar, h]

theorem call_owned (c : Call) (hc : ¬ c.Copies) {w w' : World} (hw : Owned w)
    (e : c.run al w = .ok () w' ∨ c.run al w = .throw w') : Owned w' := by
  have op : ∀ (i : Nat) (op : WOp), (callOn i op).run al w = .ok () w' ∨ (callOn i op).run al w = .throw w' → Owned w' := by
    intro i op e
    cases h1 : w.vars i with
    | none =>
      rcases op_missing (al := al) op h1 with h | h <;> rw [h] at e
      · exact (e.elim nofun nofun)
      · rcases e with e | e
        · cases e; exact hw
        · cases e
    | some o =>
      obtain ⟨a, m, h2, h3⟩ := hw.held i o h1
      rcases e with e | e
      · obtain ⟨s', -, hr⟩ := (tracks_op op).ok (Rel.start (al := al) hw h1 h2 h3) e
        exact hr.owned
      · obtain ⟨s', -, hr⟩ := (tracks_op op).threw (Rel.start (al := al) hw h1 h2 h3) e
        exact hr.owned
  cases c with
  | construct i n =>
    cases h1 : w.vars i with
    | some o =>
      have : (Call.construct i n).run al w = .ub := by show construct al i n w = .ub; simp only [construct, h1]
      rw [this] at e
      exact (e.elim nofun nofun)
    | none =>
      have hcon := C79_construct (al := al) w hw h1 n
      by_cases c : al.allocOk w.n n = true ∧ n ≠ 0
      · obtain ⟨w2, s, e2, hw2, -⟩ := hcon.1 c
        rw [e2] at e
        rcases e with e | e
        · cases e; exact hw2
        · cases e
      · rw [hcon.2 c] at e
        rcases e with e | e
        · cases e
        · cases e; exact ⟨hw.held, hw.apart, hw.noLeak, hw.finite⟩
  | destroy i =>
    cases h1 : w.vars i with
    | none =>
      have eg : getVar i w = .ub := by simp only [getVar, h1]
      have : (Call.destroy i).run al w = .ub := by show destroy i w = .ub; rw [destroy, Prog.bind_apply, eg]
      rw [this] at e
      exact (e.elim nofun nofun)
    | some o =>
      obtain ⟨a, m, h2, h3⟩ := hw.held i o h1
      obtain ⟨w2, e2, hw2, -⟩ := C79_destroy (al := al) w hw _ ⟨o, a, m, h1, h2, h3, rfl⟩
      rw [e2] at e
      rcases e with e | e
      · cases e; exact hw2
      · cases e
  | items i sc l => exact op i (.write sc l) e
  | raw i bs => exact op i (.raw bs) e
  | append i j off len =>
    cases h1 : w.vars j with
    | none =>
      have eg : getVar j w = .ub := by simp only [getVar, h1]
      have : (Call.append i j off len).run al w = .ub := by
        show (getVar j >>= fun o => writeRaw al i (.block o.data off len)) w = .ub
        rw [Prog.bind_apply, eg]
      rw [this] at e
      exact (e.elim nofun nofun)
    | some o =>
      have eg : getVar j w = .ok o w := by simp only [getVar, h1]
      have : (Call.append i j off len).run al w = writeRaw al i (.block o.data off len) w := by
        show (getVar j >>= fun o => writeRaw al i (.block o.data off len)) w = _
        rw [Prog.bind_ok eg]
      rw [this] at e
      have := writeRaw_owned (al := al) (i := i) hw (.block o.data off len)
      exact e.elim (this.1 w') (this.2 w')
  | seek i n => exact op i (.seek n) e
  | flip i b => exact op i (.flip b) e
  | copyConstruct i j => exact (hc trivial).elim
  | copyAssign i j => exact (hc trivial).elim

theorem start_owned : Owned SHeap.start := ⟨nofun, nofun, nofun, ⟨0, fun _ _ => rfl⟩⟩

end SHeap
open SHeap in
/-- **C79.** Under every history of calls without copies, whichever allocations fail: as long as nothing undefined has happened, every stream has a
buffer, no two streams share one and no buffer is without a stream. -/
theorem C79_always_owned (h : List Call) (hc : ∀ c ∈ h, ¬ c.Copies) (w' : World) (e : runAll al h SHeap.start = some w') : Owned w' := by
  suffices H : ∀ (h : List Call) (w : World), Owned w → (∀ c ∈ h, ¬ c.Copies) → runAll al h w = some w' → Owned w' from H h _ start_owned hc e
  intro h
  induction h with
  | nil => intro w hw _ e; cases e; exact hw
  | cons c cs ih =>
    intro w hw hc e
    rw [runAll] at e
    have hc0 := hc c List.mem_cons_self
    have hcs : ∀ c' ∈ cs, ¬ c'.Copies := fun c' hc' => hc c' (List.mem_cons_of_mem _ hc')
    cases e1 : c.run al w with
    | ok u w1 => rw [e1] at e; exact ih w1 (call_owned c hc0 hw (Or.inl e1)) hcs e
    | throw w1 => rw [e1] at e; exact ih w1 (call_owned c hc0 hw (Or.inr e1)) hcs e
    | ub => rw [e1] at e; cases e

namespace SHeap

end SHeap
open SHeap in
/-- **C79.** When all streams are destroyed, all memory has been given back. -/
theorem C79_nothing_left (h : List Call) (hc : ∀ c ∈ h, ¬ c.Copies) (w' : World) (e : runAll al h SHeap.start = some w')
    (hnone : ∀ i, w'.vars i = none) (a : Nat) : w'.heap a = none := by
  have hw := C79_always_owned h hc w' e
  cases hm : w'.heap a with
  | none => rfl
  | some m =>
    obtain ⟨i, o, hi, -⟩ := hw.noLeak a m hm
    rw [hnone i] at hi; cases hi

namespace SHeap

/-- One stream is shown as one file (or is absent). -/
def ShowsOne (al : Allocator) (w : World) (i : Nat) : Option Spec.File → Prop
  | none => w.vars i = none
  | some f => ∃ s, Is al w i s ∧ s.Good ∧ s.file = f

theorem shows_iff (w : World) (fs : Files) : Shows al w fs ↔ ∀ i, ShowsOne al w i (fs i) := by
  constructor
  · intro h i
    have := h i
    cases e : fs i <;> rw [e] at this <;> exact this
  · intro h i
    have := h i
    cases e : fs i <;> rw [e] at this <;> exact this

theorem ShowsOne.kept {w w' : World} {i j : Nat} {f : Option Spec.File} (h : ShowsOne al w j f) (hj : j ≠ i) (hk : OthersKept i w w') :
    ShowsOne al w' j f := by
  cases f with
  | none => exact (hk j hj).1.trans h
  | some f =>
    obtain ⟨s, ⟨o, a, m, h1, h2, h3, rfl⟩, hg, hf⟩ := h
    refine ⟨value al w'.n o m, ⟨o, a, m, (hk j hj).1.trans h1, h2, ((hk j hj).2 o a h1 h2).trans h3, rfl⟩, ?_, hf⟩
    exact ⟨⟨hg.mem_len, hg.size_le, hg.pos_le, hg.res_lt, hg.zero⟩, hg.alloc⟩

theorem shows_upd {w w' : World} {fs : Files} {f : Option Spec.File} (h : ∀ j, ShowsOne al w j (fs j)) (hk : OthersKept i w w') (hi : ShowsOne al w' i f) :
    ∀ j, ShowsOne al w' j (upd fs i f j) := by
  intro j
  by_cases e : j = i
  · subst e; rw [upd_same]; exact hi
  · rw [upd_other _ _ e]; exact (h j).kept e hk

theorem show_op {w : World} (hw : Owned w) {f : Spec.File} (h : ShowsOne al w i (some f)) (op : WOp) (hn : (op.onFile f).pos < 2 ^ 64) :
    ∃ w', (callOn i op).run al w = .ok () w' ∧ Owned w' ∧ OthersKept i w w' ∧ ShowsOne al w' i (some (op.onFile f)) := by
  obtain ⟨s, hs, hg, rfl⟩ := h
  obtain ⟨s', e, hg', hf'⟩ := op_runs op hg hn
  have h1 := C79_one_call w hw s hs op
  rw [e] at h1
  obtain ⟨w', e', his, hk, ho⟩ := h1
  exact ⟨w', e', ho, hk, s', his, hg', hf'⟩

theorem show_call {w : World} (halloc : ∀ n r, al.allocOk n r = true) (hw : Owned w) {fs : Files} (h : ∀ j, ShowsOne al w j (fs j)) (c : Call) (hc : c.Legal fs) :
    ∃ w', c.run al w = .ok () w' ∧ Owned w' ∧ ∀ j, ShowsOne al w' j (c.onFiles fs j) := by
  have op : ∀ i (o : WOp) f, fs i = some f → (o.onFile f).pos < 2 ^ 64 →
      ∃ w', (callOn i o).run al w = .ok () w' ∧ Owned w' ∧ ∀ j, ShowsOne al w' j (upd fs i (some (o.onFile f)) j) := by
    intro i o f hf hn
    have hi := h i
    rw [hf] at hi
    obtain ⟨w', e, ho, hk, hs⟩ := show_op hw hi o hn
    exact ⟨w', e, ho, shows_upd h hk hs⟩
  cases c with
  | construct i n =>
    obtain ⟨h0, h1, h2⟩ := hc
    have hi := h i
    rw [h0] at hi
    obtain ⟨w', s, e, ho, hk, his, s1, s2, s3, s4, s5⟩ := (C79_construct (al := al) w hw hi n).1 ⟨halloc _ _, by omega⟩
    refine ⟨w', e, ho, shows_upd h hk ⟨s, his, ⟨⟨?_, ?_, ?_, ?_, ?_⟩, ?_⟩, ?_⟩⟩
    · rw [s1, s4, List.length_replicate]
    · rw [s2]; exact Nat.zero_le _
    · rw [s3, s2]; exact Nat.le_refl _
    · rw [s4]; exact h2
    · rw [s1, s2, s4]; rfl
    · obtain ⟨o, a, m, -, -, -, rfl⟩ := his
      exact halloc
    · rw [WStream.file, WStream.content, s2, s3, s5]; rfl
  | destroy i =>
    cases hf : fs i with
    | none => exact (hc hf).elim
    | some f =>
      have hi := h i
      rw [hf] at hi
      obtain ⟨s, his, -, -⟩ := hi
      obtain ⟨w', e, ho, hk, hn⟩ := C79_destroy (al := al) w hw s his
      exact ⟨w', e, ho, shows_upd (f := none) h hk hn⟩
  | items i sc l =>
    obtain ⟨f, hf, hn⟩ := hc
    have := op i (.write sc l) f hf hn
    simp only [Call.onFiles, hf]
    exact this
  | raw i bs =>
    obtain ⟨f, hf, hn⟩ := hc
    have := op i (.raw bs) f hf hn
    simp only [Call.onFiles, hf]
    exact this
  | append i j off len =>
    obtain ⟨hij, f, g, hf, hg, hin, hn⟩ := hc
    have hi := h i
    rw [hf] at hi
    have hj := h j
    rw [hg] at hj
    obtain ⟨s, his, hsg, -⟩ := hi
    obtain ⟨t, hit, htg, rfl⟩ := hj
    have hlen := htg.content_len
    have h4 := htg.size_le
    have h5 := htg.mem_len
    have hin : off + len ≤ t.content.length := hin
    have e1 := C79_append_other w hw j hij s t his hit off len (by omega)
    have e2 : (t.mem.drop off).take len = (t.content.drop off).take len := by
      rw [WStream.content, List.drop_take, List.take_take, Nat.min_eq_left (by omega)]
    rw [e2] at e1
    have hl : ((t.content.drop off).take len).length = len := by rw [List.length_take, List.length_drop]; omega
    have := op i (.raw ((t.content.drop off).take len)) f hf (by show f.pos + _ < _; rw [hl]; exact hn)
    obtain ⟨w', e, ho, hsh⟩ := this
    refine ⟨w', e1.trans e, ho, ?_⟩
    simp only [Call.onFiles, hf, hg]
    exact hsh
  | seek i n =>
    obtain ⟨hf, hn⟩ := hc
    cases hf' : fs i with
    | none => exact (hf hf').elim
    | some f =>
      have := op i (.seek n) f hf' hn
      simp only [Call.onFiles, hf']
      exact this
  | flip i b =>
    cases hf' : fs i with
    | none => exact (hc hf').elim
    | some f =>
      have hi := h i
      rw [hf'] at hi
      obtain ⟨s, -, hsg, rfl⟩ := hi
      have := op i (.flip b) s.file hf' (by
        have := hsg.pos_le; have := hsg.size_le; have := hsg.res_lt
        show s.pos < _; omega)
      simp only [Call.onFiles, hf']
      exact this
  | copyConstruct i j => exact hc.elim
  | copyAssign i j => exact hc.elim

end SHeap
open SHeap in
/-- **C79.** Streams do not get into each other's way: under every history of legal calls on any number of streams (memory being available) every call returns, and
each stream shows the size, position and bytes of a plain byte file that had the calls on this stream alone. -/
theorem C79_streams_are_files (halloc : ∀ n r, al.allocOk n r = true) (h : List Call) (hl : LegalAll h (fun _ => none)) :
    (∃ w', runAll al h SHeap.start = some w' ∧ Owned w' ∧ Shows al w' (filesAfter h fun _ => none)) ∧
    ∀ pre c post, h = pre ++ c :: post → ∃ w1 w2, runAll al pre SHeap.start = some w1 ∧ c.run al w1 = .ok () w2 := by
  have key : ∀ (h : List Call) (w : World) (fs : Files), Owned w → (∀ j, ShowsOne al w j (fs j)) → LegalAll h fs →
      ∃ w', runAll al h w = some w' ∧ Owned w' ∧ (∀ j, ShowsOne al w' j (filesAfter h fs j)) ∧
        ∀ pre c post, h = pre ++ c :: post → ∃ w1 w2, runAll al pre w = some w1 ∧ c.run al w1 = .ok () w2 := by
    intro h
    induction h with
    | nil =>
      intro w fs hw hs _
      refine ⟨w, rfl, hw, hs, fun pre c post e => ?_⟩
      cases pre <;> cases e
    | cons c cs ih =>
      intro w fs hw hs hl
      obtain ⟨w1, e1, hw1, hs1⟩ := show_call halloc hw hs c hl.1
      obtain ⟨w2, e2, hw2, hs2, hall⟩ := ih w1 _ hw1 hs1 hl.2
      refine ⟨w2, ?_, hw2, hs2, ?_⟩
      · rw [runAll, e1]; exact e2
      · intro pre c' post e
        cases pre with
        | nil => cases e; exact ⟨w, w1, rfl, e1⟩
        | cons p pre =>
          cases e
          obtain ⟨w3, w4, e3, e4⟩ := hall pre c' post rfl
          exact ⟨w3, w4, by rw [runAll, e1]; exact e3, e4⟩
  obtain ⟨w', e, ho, hs, hall⟩ := key h SHeap.start (fun _ => none) start_owned (fun _ => rfl) hl
  exact ⟨⟨w', e, ho, (shows_iff _ _).2 hs⟩, hall⟩

namespace SHeap

/-- An allocator that always succeeds and takes the lowest of the first two addresses if it is free. -/
noncomputable def lowAllocator : Allocator where
  allocOk _ _ := true
  pick heap := if (heap 0).isNone then 0 else if (heap 1).isNone then 1 else
    open Classical in if h : ∃ a, heap a = none then h.choose else 0
  free heap hfin := by
    split
    · exact Option.isNone_iff_eq_none.1 (by assumption)
    · split
      · exact Option.isNone_iff_eq_none.1 (by assumption)
      · obtain ⟨B, hB⟩ := hfin
        have h : ∃ a, heap a = none := ⟨B, hB B (Nat.le_refl _)⟩
        rw [dif_pos h]
        exact h.choose_spec

/-- Two streams, one of which gets its bytes from the other and grows; a legal history. -/
def demoStreams : List Call :=
  [.construct 0 4, .construct 1 2, .raw 0 [1, 2, 3], .append 1 0 1 2, .append 1 0 0 3, .destroy 0, .flip 1 true, .items 1 .w2 [(0x0102 : Word 2)]]

end SHeap
open SHeap in
theorem C79_demo : LegalAll demoStreams (fun _ => none) ∧ filesAfter demoStreams (fun _ => none) 0 = none ∧
    filesAfter demoStreams (fun _ => none) 1 = some ⟨[2, 3, 1, 2, 3, 1, 2], 7, true⟩ := by
  refine ⟨?_, by decide +kernel, by decide +kernel⟩
  refine ⟨⟨rfl, by decide, by decide⟩, ⟨rfl, by decide, by decide⟩, ⟨_, rfl, by decide⟩, ⟨by decide, _, _, rfl, rfl, by decide, by decide⟩,
    ⟨by decide, _, _, rfl, rfl, by decide, by decide⟩, Option.some_ne_none _, Option.some_ne_none _, ⟨_, rfl, by decide +kernel⟩, trivial⟩

namespace SHeap

end SHeap
open SHeap in
/-- Streams must not be copied: the implicit copy shares the buffer. After the original is destroyed the copy writes to memory that was released… -/
theorem C79_copy_dangles (al : Allocator) (w : World) (i j : Nat) (hij : i ≠ j) (hi : w.vars i = none) (s : WStream) (hs : Is al w j s)
    (b : Byte) (hroom : s.pos + 1 ≤ s.dataSize) (hsz : s.dataSize < 2 ^ 64) :
    runAll al [.copyConstruct i j, .destroy j, .raw i [b]] w = none := by
  obtain ⟨o, a, m, h1, h2, h3, rfl⟩ := hs
  have hroom : o.pos + 1 ≤ o.dataSize := hroom
  have hsz : o.dataSize < 2 ^ 64 := hsz
  let w1 : World := { w with vars := upd w.vars i (some o) }
  have e1 : (Call.copyConstruct i j).run al w = .ok () w1 := by
    show copyConstruct i j w = _
    simp only [copyConstruct, hi, h1]
    rfl
  have hv1 : w1.vars j = some o := (upd_other _ _ (Ne.symm hij)).trans h1
  let w2 : World := ⟨upd w1.vars j none, upd w.heap a none, w.n⟩
  have e2 : (Call.destroy j).run al w1 = .ok () w2 := by
    have eg : getVar j w1 = .ok o w1 := by simp only [getVar, hv1]
    show destroy j w1 = _
    rw [destroy, Prog.bind_ok eg, h2]
    rfl
  have hv2 : w2.vars i = some o := (upd_other _ _ hij).trans (upd_same _ _ _)
  have eg2 : getVar i w2 = .ok o w2 := by simp only [getVar, hv2]
  have e3 : (Call.raw i [b]).run al w2 = .ub := by
    show writeRaw al i (.bytes [b]) w2 = .ub
    rw [writeRaw, Prog.bind_ok eg2]
    show (Prog.when (wrap64 (o.pos + 1) > o.dataSize) (resize al i (wrap64 (o.pos + 1))) >>= _ : Prog World Unit) w2 = .ub
    have hwr : wrap64 (o.pos + 1) = o.pos + 1 := Nat.mod_eq_of_lt (by omega)
    have ew : Prog.when (wrap64 (o.pos + 1) > o.dataSize) (resize al i (wrap64 (o.pos + 1))) w2 = .ok () w2 := by
      unfold Prog.when
      rw [if_neg (by rw [hwr]; omega)]
      rfl
    rw [Prog.bind_ok ew, Prog.bind_ok eg2, h2, Prog.bind_apply]
    have : memcpy (some a) o.pos (.bytes [b]) w2 = .ub := by
      have hgone : w2.heap a = none := upd_same _ _ _
      rw [memcpy, Source.load, Prog.bind_ok (Prog.pure_apply _ _)]
      dsimp only
      rw [if_neg (show ¬ (Source.bytes [b]).overlaps a o.pos (Source.bytes [b]).length from fun h => h)]
      simp only [poke, hgone]
    rw [this]
  rw [runAll, e1]
  dsimp only
  rw [runAll, e2]
  dsimp only
  rw [runAll, e3]

namespace SHeap

end SHeap
open SHeap in
/-- …and when the copy is destroyed it releases a buffer that by then may belong to another stream. -/
theorem C79_copy_frees_another : (runAll lowAllocator [.construct 0 4, .copyConstruct 1 0, .destroy 0, .construct 2 4, .destroy 1] SHeap.start).isSome = true ∧
    runAll lowAllocator [.construct 0 4, .copyConstruct 1 0, .destroy 0, .construct 2 4, .destroy 1, .raw 2 [1]] SHeap.start = none := by
  refine ⟨by decide +kernel, ?_⟩
  have : (runAll lowAllocator [.construct 0 4, .copyConstruct 1 0, .destroy 0, .construct 2 4, .destroy 1, .raw 2 [1]] SHeap.start).isNone = true := by
    decide +kernel
  exact Option.isNone_iff_eq_none.1 this

namespace SHeap

end SHeap
open SHeap in
/-- A stream of 3 bytes in a buffer of 4 cannot append its first two bytes to itself. -/
theorem C79_append_self_fails : runAll lowAllocator [.construct 0 4, .raw 0 [1, 2, 3], .append 0 0 0 2] SHeap.start = none ∧
    (runAll lowAllocator [.construct 0 4, .raw 0 [1, 2, 3], .append 0 0 0 1] SHeap.start).isSome = true := by
  refine ⟨Option.isNone_iff_eq_none.1 ?_, ?_⟩ <;> decide +kernel

namespace SHeap

end SHeap
end ISD
