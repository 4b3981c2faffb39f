import Verif.Props.Sections
import Verif.Proofs.EntityEnds

/-!
# C51: histories of calls on a writer with an open array of sections
-/

namespace ISD

open WStream

/-- A call on an `EntityWriter`, or on the writer of its open subsection. -/
inductive WriterCall where
  | beginSection (fresh : Nat) (key : Bytes)
  | endSection (ptr : Option Nat)
  | nullSection (fresh : Nat) (key : Bytes)
  | beginArray (fresh : Nat) (key : Bytes) (size : Nat) (index : Option (List (Word 4)))
  | beginElement (ptr : Option Nat) (i : Nat)
  | endElement (ptr : Option Nat) (i : Nat)
  | endArray (ptr : Option Nat)
  | nullArray (fresh : Nat) (key : Bytes)
  | write (t : DataType) (c : Container) (key : Bytes) (v : c.Val t.Val)
  | inner (call : WriterCall)

/-- The call, with the result reduced to success or failure. -/
def WriterCall.run : WriterCall → Prog WSt Bool
  | .beginSection fresh key => do return (← beginWriteSection fresh key).isSome
  | .endSection ptr => endWriteSection ptr
  | .nullSection fresh key => writeNullSection fresh key
  | .beginArray fresh key size index => do return (← beginWriteSectionsArray fresh key size index).isSome
  | .beginElement ptr i => beginWriteSectionInArray ptr i
  | .endElement ptr i => endWriteSectionInArray ptr i
  | .endArray ptr => endWriteSectionsArray ptr
  | .nullArray fresh key => writeNullSectionsArray fresh key
  | .write t c key v => EWriter.write t c key v
  | .inner call => inSubsection call.run

/-- Calls one after the other; each returns. -/
inductive Calls : WSt → List (WriterCall × Bool) → WSt → Prop where
  | nil (st) : Calls st [] st
  | cons {st st' st'' : WSt} {call : WriterCall} {b : Bool} {rest : List (WriterCall × Bool)} (h : call.run st = .ok b st') (hr : Calls st' rest st'') :
      Calls st ((call, b) :: rest) st''

/-- The indices of the array elements whose start was accepted, in order. -/
def startedElements : List (WriterCall × Bool) → List Nat
  | (.beginElement _ i, true) :: rest => i :: startedElements rest
  | _ :: rest => startedElements rest
  | [] => []

/-! ## Positions -/

theorem reserve_pos {n : Nat} {s s' : WStream} (h : reserveForSize n s = .ok () s') : s'.pos = s.pos := by
  rw [reserveForSize, Prog.bind_ok (Prog.get_apply _)] at h
  generalize (if wrap64 (s.reserved * 2) < n then n else wrap64 (s.reserved * 2)) = r at h
  obtain ⟨⟨⟩, s1, h1, h⟩ := Prog.bind_eq_ok h
  cases h1
  split at h
  · cases h
  · split at h
    · cases h
    · cases h; rfl

theorem resize_pos {n : Nat} {s s' : WStream} (h : resize n s = .ok () s') : s'.pos = s.pos := by
  rw [resize, Prog.bind_ok (Prog.get_apply _)] at h
  obtain ⟨⟨⟩, s1, h1, h2⟩ := Prog.bind_eq_ok h
  have : s1.pos = s.pos := by
    unfold Prog.when at h1
    split at h1
    · exact reserve_pos h1
    · cases h1; rfl
  cases h2
  exact this

theorem writeRaw_pos {src : Bytes} {s s' : WStream} (h : writeRaw src s = .ok () s') : s'.pos = wrap64 (s.pos + src.length) := by
  rw [writeRaw, Prog.bind_ok (Prog.get_apply _)] at h
  obtain ⟨⟨⟩, s1, h1, h2⟩ := Prog.bind_eq_ok h
  rw [Prog.bind_ok (Prog.get_apply _)] at h2
  split at h2
  · cases h2
  · cases h2; rfl

theorem writeWords_pos {k : Nat} {ws : List (Word k)} {s s' : WStream} (h : writeWords ws s = .ok () s') :
    s'.pos = wrap64 (s.pos + (ws.flatMap Word.image).length) := by
  rw [writeWords, Prog.bind_ok (Prog.get_apply _)] at h
  split at h
  · obtain ⟨⟨⟩, s1, h1, h2⟩ := Prog.bind_eq_ok h
    have := writeRaw_pos h1
    rw [swapAt, Prog.bind_ok (Prog.get_apply _)] at h2
    split at h2
    · cases h2
    · cases h2; exact this
  · exact writeRaw_pos h

theorem writeU64_pos {n : Nat} {s s' : WStream} (h : writeU64 n s = .ok () s') : s'.pos = wrap64 (s.pos + 8) := by
  have := writeWords_pos (show writeWords (k := 8) [BitVec.ofNat 64 n] s = .ok () s' from h)
  simpa using this

/-! ## What the calls keep -/

/-- The routine keeps `f` of the writer. -/
def KeepsOf {α β : Type} (f : EWriter → β) (p : Prog WSt α) : Prop := ∀ st a st', p st = .ok a st' → f st'.1 = f st.1

section
variable {α β γ : Type} {f : EWriter → β}

theorem KeepsOf.pure (a : α) : KeepsOf f (Pure.pure a : Prog WSt α) := by intro st a' st' h; cases h; rfl

theorem KeepsOf.bind {p : Prog WSt α} {q : α → Prog WSt γ} (hp : KeepsOf f p) (hq : ∀ a, KeepsOf f (q a)) : KeepsOf f (p >>= q) := by
  intro st c st'' h
  obtain ⟨a, st', h1, h2⟩ := Prog.bind_eq_ok h
  exact (hq a _ _ _ h2).trans (hp _ _ _ h1)

theorem KeepsOf.get : KeepsOf f Prog.get := by intro st a st' h; cases h; rfl

theorem KeepsOf.ub : KeepsOf f (Prog.ub : Prog WSt α) := by intro st a st' h; cases h

theorem KeepsOf.modify (g : WSt → WSt) (hg : ∀ st, f (g st).1 = f st.1) : KeepsOf f (Prog.modify g) := by
  intro st a st' h; cases h; exact hg st

theorem KeepsOf.onStream (p : Prog WStream α) : KeepsOf f (onStream p) := by
  intro st a st' h
  unfold ISD.onStream at h
  split at h <;> cases h
  rfl

theorem KeepsOf.ite {b : Prop} [Decidable b] {p q : Prog WSt α} (hp : KeepsOf f p) (hq : KeepsOf f q) : KeepsOf f (if b then p else q) := by
  split
  · exact hp
  · exact hq

end

theorem beginWriteSection_addr (fresh : Nat) (key : Bytes) : KeepsOf EWriter.addr (beginWriteSection fresh key) := by
  unfold beginWriteSection
  refine .bind .get fun _ => .ite (.pure _) (.bind (.modify _ fun _ => rfl) fun _ => .bind (.onStream _) fun _ => .ite (.pure _) (.pure _))

theorem endWriteSection_addr (ptr : Option Nat) : KeepsOf EWriter.addr (endWriteSection ptr) := by
  unfold endWriteSection
  refine .bind .get fun _ => .ite (.pure _) ?_
  split
  · exact .ub
  · exact .bind (.onStream _) fun _ => .ite (.pure _) (.bind (.modify _ fun _ => rfl) fun _ => .pure _)

theorem beginWriteSectionsArray_addr (fresh : Nat) (key : Bytes) (size : Nat) (index : Option (List (Word 4))) :
    KeepsOf EWriter.addr (beginWriteSectionsArray fresh key size index) := by
  unfold beginWriteSectionsArray
  refine .bind .get fun _ => .ite (.pure _) (.bind (.modify _ fun _ => rfl) fun _ => .bind (.onStream _) fun _ => .ite (.pure _) (.ite ?_ ?_))
  · exact .bind (.modify _ fun _ => rfl) fun _ => .pure _
  · exact .bind (.onStream _) fun _ => .ite (.pure _) (.bind (.modify _ fun _ => rfl) fun _ => .pure _)

theorem beginWriteSectionInArray_addr (ptr : Option Nat) (i : Nat) : KeepsOf EWriter.addr (beginWriteSectionInArray ptr i) := by
  unfold beginWriteSectionInArray
  exact .bind .get fun _ => .ite (.pure _) (.ite (.pure _) (.ite (.pure _) (.bind (.modify _ fun _ => rfl) fun _ =>
    .bind (.onStream _) fun _ => .bind .get fun _ => .pure _)))

theorem endWriteSectionInArray_keeps {β : Type} (f : EWriter → β) (ptr : Option Nat) (i : Nat) : KeepsOf f (endWriteSectionInArray ptr i) := by
  unfold endWriteSectionInArray
  exact .bind .get fun _ => .ite (.pure _) (.bind (.onStream _) fun _ => .bind (.onStream _) fun _ => .bind (.onStream _) fun _ => .pure _)

theorem endWriteSectionsArray_addr (ptr : Option Nat) : KeepsOf EWriter.addr (endWriteSectionsArray ptr) := by
  unfold endWriteSectionsArray
  refine .bind .get fun _ => .ite (.pure _) (.ite (.pure _) ?_)
  split
  · exact .ub
  · exact .bind (.onStream _) fun _ => .ite (.pure _) (.bind (.modify _ fun _ => rfl) fun _ => .pure _)

theorem inSubsection_addr {α : Type} (p : Prog WSt α) : KeepsOf EWriter.addr (inSubsection p) := by
  intro st a st' h
  unfold inSubsection at h
  split at h
  · cases h
  · split at h <;> cases h
    rfl

/-- No call moves the writer object. -/
theorem WriterCall.run_addr (call : WriterCall) : KeepsOf EWriter.addr call.run := by
  cases call with
  | beginSection fresh key => exact .bind (beginWriteSection_addr _ _) fun _ => .pure _
  | endSection ptr => exact endWriteSection_addr ptr
  | nullSection fresh key =>
    refine .bind (beginWriteSection_addr _ _) fun p => ?_
    cases p
    · exact .pure _
    · exact endWriteSection_addr _
  | beginArray fresh key size index => exact .bind (beginWriteSectionsArray_addr _ _ _ _) fun _ => .pure _
  | beginElement ptr i => exact beginWriteSectionInArray_addr ptr i
  | endElement ptr i => exact endWriteSectionInArray_keeps _ ptr i
  | endArray ptr => exact endWriteSectionsArray_addr ptr
  | nullArray fresh key =>
    refine .bind (beginWriteSectionsArray_addr _ _ _ _) fun p => ?_
    cases p
    · exact .pure _
    · exact endWriteSectionsArray_addr _
  | write t c key v => exact .onStream _
  | inner call => exact inSubsection_addr _

/-- What is kept by a call made on the subsection. -/
theorem inner_keeps {call : WriterCall} {w w' : EWriter} {s s' : WStream} {b : Bool} (h : (WriterCall.inner call).run (w, s) = .ok b (w', s')) :
    w'.subPtr = w.subPtr ∧ w'.activeArraySize = w.activeArraySize ∧ w'.activeArrayIndex = w.activeArrayIndex := by
  rw [WriterCall.run, inSubsection] at h
  split at h
  · cases h
  · rename_i sub hsub
    split at h <;> cases h
    rename_i w1 he
    have := call.run_addr _ _ _ he
    have hsub : w.activeSubsection = some sub := hsub
    exact ⟨by rw [EWriter.subPtr, EWriter.subPtr, hsub]; exact congrArg some this, rfl, rfl⟩

/-- Starting an element: refused without effect, or accepted and counted. -/
theorem beginElement_inv {ptr : Option Nat} {i : Nat} {w w' : EWriter} {s s' : WStream} {b : Bool} (hsz : w.activeArraySize < 2 ^ 64)
    (h : beginWriteSectionInArray ptr i (w, s) = .ok b (w', s')) :
    w'.subPtr = w.subPtr ∧ w'.activeArraySize = w.activeArraySize ∧
      if b then i = w.started ∧ w'.started = w.started + 1 ∧ i < w.activeArraySize else w'.started = w.started := by
  rw [beginWriteSectionInArray, Prog.bind_ok (Prog.get_apply _)] at h
  split at h
  · cases h; exact ⟨rfl, rfl, rfl⟩
  split at h
  · cases h; exact ⟨rfl, rfl, rfl⟩
  split at h
  · cases h; exact ⟨rfl, rfl, rfl⟩
  rename_i h1 h2 h3
  rw [Prog.bind_ok (modify_ok _ _)] at h
  obtain ⟨⟨⟩, st1, e1, h⟩ := Prog.bind_eq_ok h
  rw [Prog.bind_ok (Prog.get_apply _), Prog.pure_apply] at h
  unfold onStream at e1
  split at e1 <;> cases e1
  rename_i s1 e1
  have hp := writeU64_pos e1
  simp only [Res.ok.injEq, Prod.mk.injEq] at h
  obtain ⟨hb, hw, hs⟩ := h
  subst hw
  have hbt : b = true := by rw [← hb, hp]; simp
  subst hbt
  have h2 : i = w.started := (Decidable.not_not.mp h2).symm
  have h3 : i < w.activeArraySize := Nat.lt_of_not_le h3
  refine ⟨rfl, rfl, ?_⟩
  rw [if_pos rfl]
  refine ⟨h2, ?_, h3⟩
  show (i + 1) % 2 ^ 64 = w.started + 1
  rw [← h2]
  exact Nat.mod_eq_of_lt (by omega)

/-- The array opened at `fresh` with `n` elements is still open and `k` of them were started. -/
structure ArrayOpen (fresh n k : Nat) (w : EWriter) : Prop where
  ptr : w.subPtr = some fresh
  size : w.activeArraySize = n
  started : w.started = k
  le : k ≤ n

theorem ArrayOpen.isSome {fresh n k : Nat} {w : EWriter} (h : ArrayOpen fresh n k w) : w.activeSubsection.isSome := by
  have := h.ptr
  unfold EWriter.subPtr at this
  cases hs : w.activeSubsection <;> simp_all

/-- One call while the array is open. -/
theorem ArrayOpen.step {fresh n k : Nat} (hn : n < 2 ^ 64) {call : WriterCall} (hc : call ≠ .endSection (some fresh)) {b : Bool} {st st' : WSt}
    (ho : ArrayOpen fresh n k st.1) (h : call.run st = .ok b st') :
    (call = .endArray (some fresh) ∧ b = true ∧ k = n) ∨
      ArrayOpen fresh n (k + (startedElements [(call, b)]).length) st'.1 ∧ ∀ i ∈ startedElements [(call, b)], i = k := by
  obtain ⟨w, s⟩ := st
  obtain ⟨w', s'⟩ := st'
  have hr := C22_writer_refuses w s
  have ho : ArrayOpen fresh n k w := ho
  have same : w' = w → startedElements [(call, b)] = [] → ArrayOpen fresh n (k + (startedElements [(call, b)]).length) w' ∧
      ∀ i ∈ startedElements [(call, b)], i = k := by
    intro e1 e2; subst e1; rw [e2]; exact ⟨ho, nofun⟩
  cases call with
  | beginSection f key =>
    rw [WriterCall.run, Prog.bind_ok (hr.1 ho.isSome f key 0 none).1] at h
    cases h; exact .inr (same rfl rfl)
  | endSection ptr =>
    have hp : ptr ≠ w.subPtr := by rw [ho.ptr]; rintro rfl; exact hc rfl
    rw [WriterCall.run, ((hr.2.1 ptr hp 0)).1] at h
    cases h; exact .inr (same rfl rfl)
  | nullSection f key =>
    rw [WriterCall.run, (hr.1 ho.isSome f key 0 none).2.2.1] at h
    cases h; exact .inr (same rfl rfl)
  | beginArray f key size index =>
    rw [WriterCall.run, Prog.bind_ok (hr.1 ho.isSome f key size index).2.1] at h
    cases h; exact .inr (same rfl rfl)
  | beginElement ptr i =>
    obtain ⟨h1, h2, h3⟩ := beginElement_inv (by rw [ho.size]; exact hn) h
    have hk := ho.started
    have hsz := ho.size
    right
    cases b with
    | false =>
      rw [if_neg (by decide)] at h3
      exact ⟨⟨h1.trans ho.ptr, h2.trans ho.size, h3.trans ho.started, ho.le⟩, nofun⟩
    | true =>
      rw [if_pos rfl] at h3
      obtain ⟨h3, h4, h5⟩ := h3
      refine ⟨⟨h1.trans ho.ptr, h2.trans ho.size, ?_, ?_⟩, ?_⟩
      · show w'.started = k + 1
        omega
      · show k + 1 ≤ n
        omega
      · intro j hj
        have : j = i := by simpa [startedElements] using hj
        omega
  | endElement ptr i =>
    have hk := endWriteSectionInArray_keeps (fun w => w) ptr i _ _ _ h
    exact .inr (same hk rfl)
  | endArray ptr =>
    by_cases hp : ptr = w.subPtr
    · rw [ho.ptr] at hp
      subst hp
      by_cases hs : w.started = w.activeArraySize
      · cases b with
        | true => exact .inl ⟨rfl, rfl, by rw [← ho.started, hs, ho.size]⟩
        | false =>
          right
          refine same ?_ rfl
          rw [WriterCall.run, endWriteSectionsArray, Prog.bind_ok (Prog.get_apply _)] at h
          split at h
          · cases h; rfl
          split at h
          · cases h; rfl
          cases hsub : w.activeSubsection with
          | none => rw [show (w, s).1.activeSubsection = none from hsub] at h; cases h
          | some sub =>
            rw [show (w, s).1.activeSubsection = some sub from hsub] at h
            obtain ⟨a, st1, e1, h⟩ := Prog.bind_eq_ok h
            have := KeepsOf.onStream (f := fun w => w) _ _ _ _ e1
            split at h
            · cases h; exact this
            · rw [Prog.bind_ok (modify_ok _ _)] at h; cases h
      · rw [WriterCall.run, hr.2.2.2.2 _ hs] at h
        cases h; exact .inr (same rfl rfl)
    · rw [WriterCall.run, (hr.2.1 ptr hp 0).2.2.2] at h
      cases h; exact .inr (same rfl rfl)
  | nullArray f key =>
    rw [WriterCall.run, (hr.1 ho.isSome f key 0 none).2.2.2] at h
    cases h; exact .inr (same rfl rfl)
  | write t c key v =>
    exact .inr (same (KeepsOf.onStream (f := fun w => w) _ _ _ _ h) rfl)
  | inner call =>
    obtain ⟨h1, h2, h3⟩ := inner_keeps h
    exact .inr ⟨⟨h1.trans ho.ptr, h2.trans ho.size, by rw [EWriter.started, h3]; exact ho.started, ho.le⟩, nofun⟩

theorem startedElements_cons (c : WriterCall × Bool) (cs : List (WriterCall × Bool)) :
    startedElements (c :: cs) = startedElements [c] ++ startedElements cs := by
  obtain ⟨c, b⟩ := c
  cases c <;> cases b <;> rfl

theorem startedElements_single (c : WriterCall × Bool) : startedElements [c] = [] ∨ ∃ i, startedElements [c] = [i] := by
  obtain ⟨c, b⟩ := c
  cases c <;> cases b <;> first | exact .inl rfl | exact .inr ⟨_, rfl⟩

/-- The general form of C51, from any number of elements started. -/
theorem array_stays_open {fresh n : Nat} (hn : n < 2 ^ 64) {st st' : WSt} {calls : List (WriterCall × Bool)} (h : Calls st calls st')
    (hc : ∀ b, (WriterCall.endSection (some fresh), b) ∉ calls) : ∀ {k : Nat}, ArrayOpen fresh n k st.1 →
    (∃ m, m ≤ n ∧ ArrayOpen fresh n m st'.1 ∧ List.range k ++ startedElements calls = List.range m) ∨
    ∃ before after, calls = before ++ (.endArray (some fresh), true) :: after ∧ List.range k ++ startedElements before = List.range n := by
  induction h with
  | nil st => intro k ho; exact .inl ⟨k, ho.le, ho, by simp [startedElements]⟩
  | @cons st st1 st2 call b rest h hr ih =>
    intro k ho
    rcases ho.step hn (fun he => hc b (by simp [he])) h with ⟨rfl, rfl, rfl⟩ | ⟨ho', hi⟩
    · exact .inr ⟨[], rest, rfl, by simp [startedElements]⟩
    · have hx : List.range k ++ startedElements [(call, b)] = List.range (k + (startedElements [(call, b)]).length) := by
        rcases startedElements_single (call, b) with e | ⟨i, e⟩
        · simp [e]
        · rw [e] at hi ⊢
          rw [hi i (by simp)]
          simp [List.range_succ]
      rcases ih (fun b hb => hc b (List.mem_cons_of_mem _ hb)) ho' with ⟨m, h1, h2, h3⟩ | ⟨before, after, h1, h2⟩
      · exact .inl ⟨m, h1, h2, by rw [startedElements_cons, ← List.append_assoc, hx]; exact h3⟩
      · refine .inr ⟨(call, b) :: before, after, by rw [h1]; rfl, ?_⟩
        rw [startedElements_cons, ← List.append_assoc, hx]; exact h2

/-- **C51, the part that holds.** Once `BeginWriteSectionsArray` with `n` elements succeeded with pointer `fresh`, then for any later
calls whatsoever on the writer and on the open subsection (in any order, with any arguments, as long as they return, and other than
`EndWriteSection` with that very pointer): either the array is still open and the elements started are `0, 1, …, m-1` for some `m ≤ n`, in
order, or `EndWriteSectionsArray` succeeded on it, and at that time the elements `0, …, n-1` had all been started, each once, in order. Missing:
`EndWriteSection` with that pointer also closes the array (`C51_array_closed_by_section_end`). -/
theorem C51_array_stays_open_partial {fresh n : Nat} (hn : n < 2 ^ 64 - 1) {key : Bytes} {index : Option (List (Word 4))} {st st1 st2 : WSt}
    (hb : beginWriteSectionsArray fresh key n index st = .ok (some fresh) st1) {calls : List (WriterCall × Bool)} (h : Calls st1 calls st2)
    (hc : ∀ b, (WriterCall.endSection (some fresh), b) ∉ calls) :
    (st2.1.subPtr = some fresh ∧ ∃ m ≤ n, startedElements calls = List.range m) ∨
    ∃ before after, calls = before ++ (.endArray (some fresh), true) :: after ∧ startedElements before = List.range n := by
  obtain ⟨w, s⟩ := st
  obtain ⟨w1, s1⟩ := st1
  obtain ⟨a, b, c⟩ := (C22_counters w s).1 _ _ _ _ _ _ _ hn hb
  rcases array_stays_open (by omega) h hc (k := 0) ⟨c, a, b, Nat.zero_le _⟩ with ⟨m, h1, h2, h3⟩ | ⟨x, y, h1, h2⟩
  · exact .inl ⟨h2.ptr, m, h1, by simpa using h3⟩
  · exact .inr ⟨x, y, h1, by simpa using h2⟩

/-! ## The hypotheses are met -/

/-- Run calls and collect the results, as long as they return. -/
def runCalls : List WriterCall → WSt → Option (List (WriterCall × Bool) × WSt)
  | [], st => some ([], st)
  | c :: cs, st =>
    match c.run st with
    | .ok b st' => (runCalls cs st').map fun r => ((c, b) :: r.1, r.2)
    | _ => none

theorem runCalls_calls (cs : List WriterCall) : ∀ (st : WSt) (r : List (WriterCall × Bool) × WSt), runCalls cs st = some r → Calls st r.1 r.2 := by
  induction cs with
  | nil => intro st r h; cases h; exact .nil _
  | cons c cs ih =>
    intro st r h
    rw [runCalls] at h
    split at h
    · rename_i b st' he
      cases hr : runCalls cs st' with
      | none => rw [hr] at h; cases h
      | some r' => rw [hr] at h; cases h; exact .cons he (ih _ _ hr)
    · cases h

/-- An array of two elements, with some calls that are refused on the way. -/
def demoCalls : List WriterCall :=
  [.beginElement (some 7) 1, .endArray (some 7), .beginElement (some 7) 0, .inner (.write boolType .none [0x62] true), .endElement (some 7) 0,
   .endArray (some 7), .beginSection 9 [], .endSection (some 8), .beginElement (some 7) 1, .endElement (some 7) 1, .endArray (some 7)]

/-- The run of the example: results, elements started, and whether the array is still open. -/
def demoRun : Option (List Bool × List Nat × Option Nat) :=
  match beginWriteSectionsArray 7 [0x61] 2 none (EWriter.create 1 0, demoStream false) with
  | .ok (some 7) st1 => (runCalls demoCalls st1).map fun r => (r.1.map Prod.snd, startedElements r.1, r.2.1.subPtr)
  | _ => none

example : demoRun = some ([false, false, true, true, true, false, false, false, true, true, true], [0, 1], none) := by decide +kernel

example : ∃ st st1 calls st2, beginWriteSectionsArray 7 [0x61] 2 none st = .ok (some 7) st1 ∧ Calls st1 calls st2 ∧
    (∀ b, (WriterCall.endSection (some 7), b) ∉ calls) ∧ st2.1.subPtr = none ∧ startedElements calls = [0, 1] := by
  have h : demoRun = some ([false, false, true, true, true, false, false, false, true, true, true], [0, 1], none) := by decide +kernel
  unfold demoRun at h
  split at h
  · rename_i st1 he
    cases hr : runCalls demoCalls st1 with
    | none => rw [hr] at h; cases h
    | some r =>
      rw [hr] at h
      simp only [Option.map_some, Option.some.injEq, Prod.mk.injEq] at h
      have hz : ∀ cs st r, runCalls cs st = some r → r.1.map Prod.fst = cs := by
        intro cs
        induction cs with
        | nil => intro st r h; cases h; rfl
        | cons c cs ih =>
          intro st r h
          rw [runCalls] at h
          split at h
          · rename_i b st' _
            cases hr : runCalls cs st' with
            | none => rw [hr] at h; cases h
            | some r' => rw [hr] at h; cases h; exact congrArg (c :: ·) (ih _ _ hr)
          · cases h
      refine ⟨_, _, r.1, r.2, he, runCalls_calls _ _ _ hr, ?_, h.2.2, h.2.1⟩
      intro b hb
      have := List.mem_map_of_mem (f := Prod.fst) hb
      rw [hz _ _ _ hr] at this
      simp [demoCalls] at this
  · cases h

end ISD
