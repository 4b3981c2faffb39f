import Verif.Proofs.ReaderHistory
import Verif.Props.WrongType

/-!
# C67, C68: histories of calls on a reader, on arbitrary bytes
-/

namespace ISD

/-- The states a program can get to by calls on the reader and on the readers of its sections that return, accepted or not. -/
inductive ReadTo (st : RSt) : List (ReaderCall × Bool) → RSt → Prop where
  | start : ReadTo st [] st
  | call {history : List (ReaderCall × Bool)} {st1 st2 : RSt} {c : ReaderCall} {b : Bool} (before : ReadTo st history st1) (sound : c.Sound st1)
      (run : c.run st1 = .ok b st2) : ReadTo st (history ++ [(c, b)]) st2

/-- One call: what it does to the reader and where it leaves the stream. -/
theorem call_effect {d : Bytes} (hd : d.length < 2 ^ 60) {fl : Bool} {c : ReaderCall} {r : EReader} {p : Nat} (hp : p ≤ d.length)
    (sound : c.Sound (r, ⟨d, p, fl⟩)) {b : Bool} {st : RSt} (run : c.run (r, ⟨d, p, fl⟩) = .ok b st) :
    ∃ r' p', st = (r', ⟨d, p', fl⟩) ∧ p ≤ p' ∧ p' ≤ d.length ∧ Effect r p c b r' := by
  have := run_post hd c r p hp sound
  rw [run] at this
  obtain ⟨p', e, h1, h2, h3⟩ := this
  exact ⟨st.1, p', by rw [← e], h1, h2, h3⟩

theorem readTo_stream {d : Bytes} (hd : d.length < 2 ^ 60) {fl : Bool} {r : EReader} {p : Nat} (hp : p ≤ d.length)
    {history : List (ReaderCall × Bool)} {st : RSt} (h : ReadTo (r, ⟨d, p, fl⟩) history st) :
    ∃ r' p', st = (r', ⟨d, p', fl⟩) ∧ p ≤ p' ∧ p' ≤ d.length := by
  induction h with
  | start => exact ⟨r, p, rfl, Nat.le_refl _, hp⟩
  | call _ sound run ih =>
    obtain ⟨r1, p1, rfl, h1, h2⟩ := ih
    obtain ⟨r2, p2, rfl, h3, h4, -⟩ := call_effect hd h2 sound run
    exact ⟨r2, p2, rfl, by omega, h4⟩

/-- **C67** (partial). On any bytes, from any position and with a reader in any state: whatever calls are made on it and on the readers of the
sections it opens, in whatever order and with whatever arguments, whichever are refused and whichever allocations fail, the stream stays on the
same bytes, its position never goes back and never leaves the bytes. The next call, too, either returns or throws, and is never undefined. Excepted (`ReaderCall.Sound`) are
calls through a null pointer when no section is open, keys longer than `EntityMaxKeyLength`, and blocks of arrays with several scalars per
element that declare a count that is not a multiple (C19). -/
theorem C67_reader_histories_partial {d : Bytes} (hd : d.length < 2 ^ 60) {fl : Bool} {r : EReader} {p : Nat} (hp : p ≤ d.length)
    {history : List (ReaderCall × Bool)} {st : RSt} (h : ReadTo (r, ⟨d, p, fl⟩) history st) :
    (st.2.data = d ∧ st.2.flip = fl ∧ p ≤ st.2.pos ∧ st.2.pos ≤ d.length) ∧
    ∀ c : ReaderCall, c.Sound st →
      (∃ b st', c.run st = .ok b st' ∧ st'.2.data = d ∧ st'.2.flip = fl ∧ st.2.pos ≤ st'.2.pos ∧ st'.2.pos ≤ d.length) ∨
      (∃ st', c.run st = .throw st' ∧ st'.2.data = d ∧ st'.2.flip = fl ∧ st.2.pos ≤ st'.2.pos ∧ st'.2.pos ≤ d.length) := by
  obtain ⟨r1, p1, rfl, h1, h2⟩ := readTo_stream hd hp h
  refine ⟨⟨rfl, rfl, h1, h2⟩, fun c hc => ?_⟩
  have := run_post hd c r1 p1 h2 hc
  revert this
  cases c.run (r1, ⟨d, p1, fl⟩) with
  | ok b st' =>
    rintro ⟨p', e, h3, h4, -⟩
    exact .inl ⟨b, st', rfl, by rw [e], by rw [e], by rw [e]; exact h3, by rw [e]; exact h4⟩
  | throw st' =>
    rintro ⟨p', e, h3, h4⟩
    exact .inr ⟨st', rfl, by rw [e], by rw [e], by rw [e]; exact h3, by rw [e]; exact h4⟩
  | ub => exact fun k => k.elim

/-- **C67** is false for the excepted null pointer: a fresh reader dereferences null. -/
theorem C67_false_for_null (d : Bytes) (p addr : Nat) : (ReaderCall.endSection none).run (EReader.create addr 0, ⟨d, p, false⟩) = .ub := rfl

/-- A block of an array of one section that was stored without an index. -/
def unindexedArray : Bytes := Spec.largeBlock false 0xd1 [] (Spec.arrayHeader false 0 1 none ++ (Spec.number false 8 2 ++ [7, 7]))

/-- Finding: `BeginReadSectionsArray` with an index wanted refuses a block that was stored without one, but keeps the number of its elements:
although no array is open, `BeginReadSectionInArray( nullptr, 0, … )` is then accepted, moves the stream, and so is its `End`. The same calls on a
fresh reader are refused. -/
theorem C67_element_without_array :
    (∃ st1 st2, beginReadSectionsArray luckyEnv 5 [] false true (EReader.create 0 0, ⟨unindexedArray, 0, false⟩) = .ok (none, 0, false, []) st1 ∧
      st1.1.activeSubsection = none ∧
      beginReadSectionInArray none 0 true st1 = .ok (true, true) st2 ∧ st2.2.pos = st1.2.pos + 8 ∧
      endReadSectionInArray none 0 (st2.1, { st2.2 with pos := st2.2.pos + 2 }) = .ok true (st2.1, { st2.2 with pos := st2.2.pos + 2 })) ∧
    (∀ t : RStream, beginReadSectionInArray none 0 true (EReader.create 0 0, t) = .ok (false, false) (EReader.create 0 0, t)) := by
  refine ⟨⟨({ EReader.create 0 0 with activeArraySize := 1 }, ⟨unindexedArray, 20, false⟩),
    ({ EReader.create 0 0 with activeArraySize := 1, activeIndex := 0, activeEndPos := 30 }, ⟨unindexedArray, 28, false⟩), ?_, rfl, ?_, rfl, ?_⟩, fun t => ?_⟩
  · rfl
  · rfl
  · rfl
  · have h : ∀ r : EReader, r.activeSubsection = none → r.activeIndex = sizeMax → r.activeArraySize = 0 →
        beginReadSectionInArray none 0 true (r, t) = .ok (false, false) (r, t) := by
      intro r h1 h2 h3
      rw [beginReadSectionInArray, Prog.bind_ok (Prog.get_apply _), if_neg (by simp [EReader.subPtr, h1]), if_neg (by simp [h2, wrap64, sizeMax]),
        if_pos (by simp [h3]), Prog.pure_apply]
    exact h _ rfl rfl rfl

/-! ## Sections that were begun and ended -/

/-- A call on the reader itself that closed the open section. -/
def Closes : ReaderCall × Bool → Prop
  | (.endSection _, true) => True
  | (.endArray _, true) => True
  | _ => False

/-- The elements of the open array that were begun, in order, when the caller asks whether they have data. -/
def begunElements : List (ReaderCall × Bool) → List Nat
  | (.beginElement _ i true, true) :: rest => i :: begunElements rest
  | _ :: rest => begunElements rest
  | [] => []

/-- The caller begins elements asking whether they have data. -/
def AsksForData : ReaderCall × Bool → Prop
  | (.beginElement _ _ w, _) => w = true
  | _ => True

theorem begunElements_append (a b : List (ReaderCall × Bool)) : begunElements (a ++ b) = begunElements a ++ begunElements b := by
  induction a with
  | nil => rfl
  | cons x a ih =>
    obtain ⟨c, v⟩ := x
    cases c with
    | beginElement ptr i w => cases w <;> cases v <;> simp only [List.cons_append, begunElements, ih]
    | _ => simp only [List.cons_append, begunElements, ih]

/-- As long as nothing closes it, the section stays open with its end, and the position is behind its head. -/
theorem readTo_open {d : Bytes} (hd : d.length < 2 ^ 60) {fl : Bool} {r : EReader} {p : Nat} (hp : p ≤ d.length) {sub : EReader}
    (hs : r.activeSubsection = some sub) {history : List (ReaderCall × Bool)} {st : RSt} (h : ReadTo (r, ⟨d, p, fl⟩) history st)
    (hc : ∀ e ∈ history, ¬ Closes e) : ∃ r' p' sub', st = (r', ⟨d, p', fl⟩) ∧ p ≤ p' ∧ p' ≤ d.length ∧ r'.activeSubsection = some sub' ∧
      sub'.endPosition = sub.endPosition ∧ r'.activeArraySize = r.activeArraySize ∧
      ((∀ e ∈ history, AsksForData e) → r.activeArraySize < 2 ^ 64 → r.activeIndex = sizeMax → ∃ m, begunElements history = List.range m ∧
        wrap64 (r'.activeIndex + 1) = m ∧ m ≤ r.activeArraySize) := by
  induction h with
  | start =>
    exact ⟨r, p, sub, rfl, Nat.le_refl _, hp, hs, rfl, rfl, fun _ _ hi => ⟨0, rfl, by rw [hi]; rfl, Nat.zero_le _⟩⟩
  | @call history st1 st2 c b before sound run ih =>
    obtain ⟨r1, p1, s1, rfl, h1, h2, h3, h4, h5, h6⟩ := ih fun e he => hc e (List.mem_append_left _ he)
    obtain ⟨r2, p2, rfl, g1, g2, eff⟩ := call_effect hd h2 sound run
    have hcl : ¬ Closes (c, b) := hc _ (List.mem_append_right _ (List.mem_singleton_self _))
    have keep : ∀ {r2 : EReader} (sub2 : EReader), r2.activeSubsection = some sub2 → sub2.endPosition = s1.endPosition →
        r2.activeArraySize = r1.activeArraySize → (AsksForData (c, b) → r1.activeArraySize < 2 ^ 64 → ∀ m, wrap64 (r1.activeIndex + 1) = m →
          m ≤ r1.activeArraySize → (begunElements [(c, b)] = [] ∧ wrap64 (r2.activeIndex + 1) = m) ∨
            (begunElements [(c, b)] = [m] ∧ wrap64 (r2.activeIndex + 1) = m + 1 ∧ m + 1 ≤ r1.activeArraySize)) →
        ∃ r' p' sub', (r2, (⟨d, p2, fl⟩ : RStream)) = (r', ⟨d, p', fl⟩) ∧ p ≤ p' ∧ p' ≤ d.length ∧ r'.activeSubsection = some sub' ∧
          sub'.endPosition = sub.endPosition ∧ r'.activeArraySize = r.activeArraySize ∧
          ((∀ e ∈ history ++ [(c, b)], AsksForData e) → r.activeArraySize < 2 ^ 64 → r.activeIndex = sizeMax → ∃ m,
            begunElements (history ++ [(c, b)]) = List.range m ∧ wrap64 (r'.activeIndex + 1) = m ∧ m ≤ r.activeArraySize) := by
      intro r2 sub2 k1 k2 k3 k4
      refine ⟨r2, p2, sub2, rfl, by omega, g2, k1, k2.trans h4, k3.trans h5, fun ha hn hi => ?_⟩
      obtain ⟨m, m1, m2, m3⟩ := h6 (fun e he => ha e (List.mem_append_left _ he)) hn hi
      rw [begunElements_append, m1]
      rcases k4 (ha _ (List.mem_append_right _ (List.mem_singleton_self _))) (by rw [h5]; exact hn) m m2 (by rw [h5]; exact m3) with ⟨a1, a2⟩ | ⟨a1, a2, a3⟩
      · exact ⟨m, by rw [a1, List.append_nil], a2, m3⟩
      · exact ⟨m + 1, by rw [a1, List.range_succ], a2, by rw [← h5]; exact a3⟩
    cases eff with
    | same hb =>
      refine keep s1 h3 rfl rfl fun ha hn m m1 m2 => .inl ⟨?_, m1⟩
      cases c with
      | beginElement ptr i w => rw [hb ptr i w rfl]; cases w <;> rfl
      | _ => rfl
    | @element ptr i w b e hp' hi hlt hw =>
      refine keep s1 h3 rfl rfl fun ha hn m m1 m2 => .inr ?_
      have ha : w = true := ha
      subst ha
      rw [hw rfl]
      have : i = m := hi.symm.trans m1
      subst this
      refine ⟨rfl, ?_, hlt⟩
      show wrap64 (i + 1) = i + 1
      unfold wrap64
      omega
    | inside h he =>
      rw [h] at h3
      cases h3
      exact keep _ rfl he.1 rfl fun _ _ m m1 m2 => .inl ⟨rfl, m1⟩
    | openSection h => rw [h] at h3; cases h3
    | openArray h => rw [h] at h3; cases h3
    | refuseArray h => rw [h] at h3; cases h3
    | closeSection h he => exact absurd trivial hcl
    | closeArray h he hi => exact absurd trivial hcl

/-- **C68.** On any bytes: when `BeginReadSection` returned a section, any calls followed that did not close it, and then `EndReadSection`
accepted, the bytes from the position before `Begin` to the position now are one section block with that key, as documented, and all the
calls in between stayed inside its contents. -/
theorem C68_ended_section_was_consumed {d : Bytes} (hd : d.length < 2 ^ 60) {fl : Bool} {r : EReader} {p : Nat} (hp : p ≤ d.length)
    {env : REnv} {fresh : Nat} {key : Bytes} (hk : key.length ≤ 40) {na ok : Bool} {ptr : Nat} {st1 : RSt}
    (hbegin : beginReadSection env fresh key na (r, ⟨d, p, fl⟩) = .ok (some ptr, ok) st1)
    {history : List (ReaderCall × Bool)} {st2 : RSt} (h : ReadTo st1 history st2) (hopen : ∀ e ∈ history, ¬ Closes e)
    {ptr' : Option Nat} {st3 : RSt} (hend : endReadSection ptr' st2 = .ok true st3) :
    ∃ contents, Has d p (Spec.sect fl key contents) ∧ st3.2 = ⟨d, p + (Spec.sect fl key contents).length, fl⟩ ∧
      ∀ before after stm, history = before ++ after → ReadTo st1 before stm → ReadTo stm after st2 →
        p + (Spec.sect fl key contents).length - contents.length ≤ stm.2.pos ∧ stm.2.pos ≤ p + (Spec.sect fl key contents).length := by
  have hb := beginSection_post (fl := fl) (rd := r) env hd hp fresh hk na
  rw [hbegin] at hb
  obtain ⟨p1, e1, g1, g2, hb⟩ := hb
  rcases hb with ⟨hx, -⟩ | ⟨-, -, e, hr, hne, head⟩
  · cases hx
  obtain ⟨r1, s1⟩ := st1
  dsimp only at e1 hr
  subst e1 hr
  obtain ⟨r2, p2, sub, rfl, k1, k2, k3, k4, -, -⟩ := readTo_open hd g2 rfl h hopen
  have he := endSection_post (fl := fl) (rd := r2) (ptr := ptr') k2 (.inr (by rw [k3]; rfl))
  rw [hend] at he
  obtain ⟨p3, e3, -, -, rfl, he⟩ := he
  rcases he with ⟨hx, -⟩ | ⟨-, sub', hs, hpos, -⟩
  · cases hx
  rw [k3] at hs
  cases hs
  have hpe : p3 = e := by rw [← hpos, k4]; rfl
  subst hpe
  obtain ⟨contents, -, hc, hl⟩ := head.done hd k1 (Ne.symm hne)
  refine ⟨contents, hc, by rw [e3]; exact congrArg (fun n => (⟨d, n, fl⟩ : RStream)) hl, fun before after stm _ hm1 hm2 => ?_⟩
  obtain ⟨rm, pm, rfl, q1, q2⟩ := readTo_stream hd g2 hm1
  obtain ⟨_, _, e4, q3, q4⟩ := readTo_stream hd q2 hm2
  cases e4
  have hlen : (Spec.sect fl key contents).length = key.length + 10 + contents.length := largeBlock_length ..
  have hl : p3 = p + (Spec.sect fl key contents).length := hl
  have hp1 : p + 10 + key.length ≤ p1 := by
    have := hc.len
    have := head.fits
    rcases head.rest with ⟨_, _, _, _, _, hp1, _⟩ | ⟨_, _, hp1⟩
    · omega
    · omega
  show _ ≤ pm ∧ pm ≤ _
  omega

/-- **C68** for arrays of sections: when `BeginReadSectionsArray` returned an array of `n` elements, any calls followed that did not close it,
and then `EndReadSectionsArray` accepted, the bytes from the position before `Begin` to the position now are one array block with that key;
and if the caller asked for each element whether it has data, the elements begun are `0, 1, …, n-1`, each once, in order. -/
theorem C68_ended_array_was_consumed {d : Bytes} (hd : d.length < 2 ^ 60) {fl : Bool} {r : EReader} {p : Nat} (hp : p ≤ d.length)
    {env : REnv} {fresh : Nat} {key : Bytes} (hk : key.length ≤ 40) {na wi ok : Bool} {ptr n : Nat} (hn : n < 2 ^ 64) {index : List (Word 4)} {st1 : RSt}
    (hbegin : beginReadSectionsArray env fresh key na wi (r, ⟨d, p, fl⟩) = .ok (some ptr, n, ok, index) st1)
    {history : List (ReaderCall × Bool)} {st2 : RSt} (h : ReadTo st1 history st2) (hopen : ∀ e ∈ history, ¬ Closes e)
    {ptr' : Option Nat} {st3 : RSt} (hend : endReadSectionsArray ptr' st2 = .ok true st3) :
    (∃ contents, Has d p (Spec.largeBlock fl 0xd1 key contents) ∧ st3.2 = ⟨d, p + (Spec.largeBlock fl 0xd1 key contents).length, fl⟩) ∧
    ((∀ e ∈ history, AsksForData e) → begunElements history = List.range n) := by
  have hb := beginArray_post (fl := fl) (rd := r) env hd hp fresh hk na wi
  rw [hbegin] at hb
  obtain ⟨p1, e1, g1, g2, hb⟩ := hb
  rcases hb with ⟨hx, -⟩ | ⟨hx, -⟩ | ⟨-, -, -, e, p0, hr, hne, hle, head⟩
  · cases hx
  · cases hx
  obtain ⟨r1, s1⟩ := st1
  dsimp only at e1 hr
  subst e1 hr
  obtain ⟨r2, p2, sub, rfl, k1, k2, k3, k4, k5, k6⟩ := readTo_open hd g2 rfl h hopen
  have he := endArray_post (fl := fl) (rd := r2) (ptr := ptr') k2 (.inr (by rw [k3]; rfl))
  rw [hend] at he
  obtain ⟨p3, e3, -, -, rfl, he⟩ := he
  rcases he with ⟨hx, -⟩ | ⟨-, hi, sub', hs, hpos, -⟩
  · cases hx
  rw [k3] at hs
  cases hs
  have hpe : p3 = e := by rw [← hpos, k4]; rfl
  subst hpe
  refine ⟨?_, fun ha => ?_⟩
  · obtain ⟨contents, -, hc, hl⟩ := head.done hd (Nat.le_trans hle k1) (Ne.symm hne)
    exact ⟨contents, hc, by rw [e3]; exact congrArg (fun n => (⟨d, n, fl⟩ : RStream)) hl⟩
  · obtain ⟨m, m1, m2, -⟩ := k6 ha hn rfl
    rw [m1, ← m2, hi, k5]

/-! The hypotheses are met: a section with a bool in it, and an array of two elements, one of them empty. -/

/-- A section `a` with the bool `b`, and an array `c` of a section with the bool `b` and a null. -/
def demoBytes : Bytes :=
  Spec.sect false [0x61] (Spec.single false boolType [0x62] (some true)) ++
    Spec.sectArray false [0x63] (some [Spec.single false boolType [0x62] (some true), []]) none

/-- Reading the bool of the demo. -/
def demoRead : ReaderCall := .inner (.read luckyEnv boolType .none [0x62] false)

/-- The calls between `Begin` and `End` of the demo, and the pointer. -/
def demoArrayCalls : List ReaderCall :=
  [.beginElement (some 8) 0 true, demoRead, .endElement (some 8) 0, .beginElement (some 8) 5 true, .endArray (some 8), .beginElement (some 8) 1 true,
    .endElement (some 8) 1]

/-- Make calls that return. -/
def readRun : List ReaderCall → RSt → Option (List Bool × RSt)
  | [], st => some ([], st)
  | c :: cs, st =>
    match c.run st with
    | .ok b st' => (readRun cs st').map fun r => (b :: r.1, r.2)
    | _ => none

/-- The demo: results of `Begin`, the calls and `End`, and the last position. -/
def demoReading : Option (List Bool × List Nat) :=
  match beginReadSection luckyEnv 7 [0x61] false (EReader.create 1 demoBytes.length, ⟨demoBytes, 0, false⟩) with
  | .ok (some 7, b1) st1 =>
    match readRun [demoRead] st1 with
    | some (l1, st2) =>
      match endReadSection (some 7) st2 with
      | .ok b2 st3 =>
        match beginReadSectionsArray luckyEnv 8 [0x63] false false st3 with
        | .ok (some 8, n, _, _) st4 =>
          match readRun demoArrayCalls st4 with
          | some (l2, st5) =>
            match endReadSectionsArray (some 8) st5 with
            | .ok b3 st6 => some (b1 :: l1 ++ [b2] ++ l2 ++ [b3], [n, st6.2.pos])
            | _ => none
          | none => none
        | _ => none
      | _ => none
    | none => none
  | _ => none

example : demoReading = some ([true, true, true, true, true, true, false, false, true, true, true], [2, demoBytes.length]) := by decide +kernel

end ISD
