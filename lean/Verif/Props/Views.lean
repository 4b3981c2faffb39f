import Verif.Model.Views
import Verif.Props.StreamHeap

/-!
# C82: read streams over the memory of write streams
-/

namespace ISD

variable {al : SHeap.Allocator} {i j : Nat}

namespace SHeap

/-- What a call on stream `j` does to the stream objects: the others are as before; `j` is not smaller, and if its buffer moved then because its size got past
what was reserved. -/
structure Moves (j : Nat) (w w' : World) : Prop where
  others : ∀ k, k ≠ j → w'.vars k = w.vars k
  here : ∀ o, w.vars j = some o → ∃ o', w'.vars j = some o' ∧ o.reserved ≤ o'.reserved ∧ o.dataSize ≤ o'.dataSize ∧
    (o'.data = o.data ∨ o.reserved < o'.dataSize)

theorem Moves.refl (w : World) : Moves j w w := ⟨fun _ _ => rfl, fun o h => ⟨o, h, Nat.le_refl _, Nat.le_refl _, .inl rfl⟩⟩

theorem Moves.trans {w w1 w2 : World} (h1 : Moves j w w1) (h2 : Moves j w1 w2) : Moves j w w2 := by
  refine ⟨fun k hk => (h2.others k hk).trans (h1.others k hk), fun o h => ?_⟩
  obtain ⟨o1, e1, r1, s1, d1⟩ := h1.here o h
  obtain ⟨o2, e2, r2, s2, d2⟩ := h2.here o1 e1
  refine ⟨o2, e2, by omega, by omega, ?_⟩
  rcases d2 with d2 | d2
  · rcases d1 with d1 | d1
    · exact .inl (d2.trans d1)
    · exact .inr (by omega)
  · exact .inr (by omega)

theorem Moves.same {w w' : World} (h : w'.vars = w.vars) : Moves j w w' :=
  ⟨fun k _ => congrFun h k, fun o e => ⟨o, (congrFun h j).trans e, Nat.le_refl _, Nat.le_refl _, .inl rfl⟩⟩

theorem Moves.at {w w' : World} {o o' : Obj} (h : w.vars j = some o) (h' : w'.vars = upd w.vars j (some o')) (hr : o.reserved ≤ o'.reserved)
    (hs : o.dataSize ≤ o'.dataSize) (hd : o'.data = o.data ∨ o.reserved < o'.dataSize) : Moves j w w' := by
  refine ⟨fun k hk => by rw [h', upd_other _ _ hk], fun o1 h1 => ?_⟩
  rw [h] at h1; cases h1
  exact ⟨o', by rw [h', upd_same], hr, hs, hd⟩

theorem getVar_ok {w w' : World} {o : Obj} (e : getVar j w = .ok o w') : w' = w ∧ w.vars j = some o := by
  unfold getVar at e
  split at e
  · cases e
  · rename_i o1 h
    cases e; exact ⟨rfl, h⟩

theorem modVar_ok {w w' : World} {f : Obj → Obj} (e : modVar j f w = .ok () w') :
    ∃ o, w.vars j = some o ∧ w' = { w with vars := upd w.vars j (some (f o)) } := by
  unfold modVar at e
  split at e
  · cases e
  · rename_i o1 h
    cases e; exact ⟨o1, h, rfl⟩

theorem modVar_mono {w w' : World} {f : Obj → Obj} (e : modVar j f w = .ok () w')
    (hf : ∀ o, (f o).data = o.data ∧ (f o).reserved = o.reserved ∧ (f o).dataSize = o.dataSize) : Moves j w w' := by
  obtain ⟨o, h, rfl⟩ := modVar_ok e
  obtain ⟨a, b, d⟩ := hf o
  exact .at h rfl (by omega) (by omega) (.inl a)

theorem load_ok {src : Source} {w w' : World} {bs : Bytes} (e : src.load w = .ok bs w') : w' = w := by
  cases src with
  | bytes b => cases e; rfl
  | block p off len =>
    cases p with
    | none => cases e
    | some a =>
      simp only [Source.load] at e
      split at e
      · cases e
      · split at e
        · cases e
        · cases e; rfl

theorem poke_ok {p : Option Nat} {off : Nat} {bs : Bytes} {w w' : World} (e : poke p off bs w = .ok () w') : w'.vars = w.vars := by
  cases p with
  | none => cases e
  | some a =>
    simp only [poke] at e
    split at e
    · cases e
    · split at e
      · cases e
      · cases e; rfl

theorem memcpy_ok {p : Option Nat} {off : Nat} {src : Source} {w w' : World} (e : memcpy p off src w = .ok () w') : w'.vars = w.vars := by
  rw [memcpy] at e
  obtain ⟨bs, w1, e1, e2⟩ := Prog.bind_eq_ok e
  obtain rfl := load_ok e1
  cases p with
  | none => cases e2
  | some a =>
    dsimp only at e2
    split at e2
    · cases e2
    · exact poke_ok e2

theorem takeOver_ok {p : Nat} {old : Option Nat} {size : Nat} {w w' : World} (e : takeOver p old size w = .ok () w') : w'.vars = w.vars := by
  cases old with
  | none => cases e; rfl
  | some a =>
    rw [takeOver] at e
    obtain ⟨_, w1, e1, e2⟩ := Prog.bind_eq_ok e
    have := memcpy_ok e1
    cases e2
    exact this

theorem virtualAlloc_ok {size : Nat} {w w' : World} {p : Option Nat} (e : virtualAlloc al size w = .ok p w') : w'.vars = w.vars := by
  unfold virtualAlloc at e
  split at e <;> cases e <;> rfl

theorem reserve_ok' {n : Nat} {w w' : World} {o : Obj} (h : w.vars j = some o) (e : reserveForSize al j n w = .ok () w') :
    (∀ k, k ≠ j → w'.vars k = w.vars k) ∧ ∃ o', w'.vars j = some o' ∧ n ≤ o'.reserved ∧ o'.dataSize = o.dataSize := by
  have e0 : getVar j w = .ok o w := by simp only [getVar, h]
  rw [reserveForSize, Prog.bind_ok e0] at e
  obtain ⟨_, w1, e1, e⟩ := Prog.bind_eq_ok e
  obtain ⟨p, w2, e2, e⟩ := Prog.bind_eq_ok e
  obtain ⟨o1, h1, rfl⟩ := modVar_ok e1
  rw [h] at h1; cases h1
  have v2 := virtualAlloc_ok e2
  cases p with
  | none => cases e
  | some p =>
    obtain ⟨_, w3, e3, e⟩ := Prog.bind_eq_ok e
    have v3 := takeOver_ok e3
    obtain ⟨o3, h3, rfl⟩ := modVar_ok e
    rw [v3, v2] at h3
    dsimp only at h3
    rw [upd_same] at h3
    cases h3
    refine ⟨fun k hk => ?_, _, upd_same _ _ _, ?_, rfl⟩
    · exact (upd_other _ _ hk).trans ((congrFun (v3.trans v2) k).trans (upd_other _ _ hk))
    · dsimp only
      split <;> omega

theorem grow_mono {e : Nat} {w w' : World} {o : Obj} (h : w.vars j = some o)
    (r : Prog.when (e > o.dataSize) (resize al j e) w = .ok () w') : Moves j w w' := by
  unfold Prog.when at r
  split at r
  · rename_i c
    have e0 : getVar j w = .ok o w := by simp only [getVar, h]
    rw [resize, Prog.bind_ok e0] at r
    obtain ⟨_, w1, r1, r2⟩ := Prog.bind_eq_ok r
    obtain ⟨o1, h1, rfl⟩ := modVar_ok r2
    unfold Prog.when at r1
    split at r1
    · rename_i c1
      obtain ⟨hk, o', h', hr, hs⟩ := reserve_ok' h r1
      rw [h1] at h'; cases h'
      refine ⟨fun k hk' => (upd_other _ _ hk').trans (hk k hk'), fun o2 h2 => ?_⟩
      rw [h] at h2; cases h2
      exact ⟨_, upd_same _ _ _, by dsimp only; omega, by dsimp only; omega, .inr (by dsimp only; omega)⟩
    · cases r1
      rw [h] at h1; cases h1
      exact .at h rfl (Nat.le_refl _) (by dsimp only; omega) (.inl rfl)
  · cases r; exact .refl _

theorem writeRaw_mono {src : Source} {w w' : World} (r : writeRaw al j src w = .ok () w') : Moves j w w' := by
  rw [writeRaw] at r
  obtain ⟨o, w0, r0, ra⟩ := Prog.bind_eq_ok r
  obtain ⟨rfl, h⟩ := getVar_ok r0
  obtain ⟨_, w1, r1, rb⟩ := Prog.bind_eq_ok ra
  obtain ⟨o1, w2, r2, rc⟩ := Prog.bind_eq_ok rb
  obtain ⟨rfl, h1⟩ := getVar_ok r2
  obtain ⟨_, w3, r3, rd⟩ := Prog.bind_eq_ok rc
  exact (grow_mono h r1).trans ((Moves.same (memcpy_ok r3)).trans (modVar_mono rd fun o => ⟨rfl, rfl, rfl⟩))

theorem writeWords_mono {k : Nat} {ws : List (Word k)} {w w' : World} (r : writeWords al j ws w = .ok () w') : Moves j w w' := by
  rw [writeWords] at r
  obtain ⟨o, w0, r0, ra⟩ := Prog.bind_eq_ok r
  obtain ⟨rfl, h⟩ := getVar_ok r0
  split at ra
  · obtain ⟨_, w1, r1, rb⟩ := Prog.bind_eq_ok ra
    refine (writeRaw_mono r1).trans ?_
    rw [swapAt] at rb
    obtain ⟨o1, w2, r2, rc⟩ := Prog.bind_eq_ok rb
    obtain ⟨rfl, -⟩ := getVar_ok r2
    obtain ⟨bs, w3, r3, rd⟩ := Prog.bind_eq_ok rc
    obtain rfl := load_ok r3
    exact .same (poke_ok rd)
  · exact writeRaw_mono ra

theorem writeUUIDs_mono {us : List UUID} : ∀ {w w' : World}, writeUUIDs al j us w = .ok () w' → Moves j w w' := by
  induction us with
  | nil => intro w w' r; cases r; exact .refl _
  | cons u us ih =>
    intro w w' r
    rw [writeUUIDs] at r
    obtain ⟨_, w1, r1, r⟩ := Prog.bind_eq_ok r
    exact (writeRaw_mono r1).trans (ih r)

theorem writeItems_mono (sc : Sc) {l : List sc.Val} {w w' : World} (r : writeItems al j sc l w = .ok () w') : Moves j w w' := by
  cases sc with
  | w1 => exact writeRaw_mono r
  | w2 => exact writeWords_mono (k := 2) r
  | w4 => exact writeWords_mono (k := 4) r
  | w8 => exact writeWords_mono (k := 8) r
  | uuid => exact writeUUIDs_mono (us := l) r
  | hash => exact writeRaw_mono r

theorem construct_vars {n : Nat} {w w' : World} (r : construct al j n w = .ok () w') :
    w.vars j = none ∧ (∀ k, k ≠ j → w'.vars k = w.vars k) ∧ ∃ o', w'.vars j = some o' ∧ n ≤ o'.reserved := by
  unfold construct at r
  split at r
  · cases r
  · rename_i h
    split at r
    · rename_i w1 e
      cases r
      obtain ⟨hk, o', h', hr, -⟩ := reserve_ok' (upd_same _ _ _) e
      exact ⟨h, fun k c => (hk k c).trans (upd_other _ _ c), o', h', hr⟩
    · cases r
    · cases r

theorem setPosition_mono {n : Nat} {w w' : World} (r : setPosition al j n w = .ok () w') : Moves j w w' := by
  rw [setPosition] at r
  obtain ⟨o, w0, r0, ra⟩ := Prog.bind_eq_ok r
  obtain ⟨rfl, h⟩ := getVar_ok r0
  obtain ⟨_, w1, r1, rb⟩ := Prog.bind_eq_ok ra
  exact (grow_mono h r1).trans (modVar_mono rb fun o => ⟨rfl, rfl, rfl⟩)

/-- The stream a call is made on. -/
def Call.on : Call → Nat
  | .construct j _ => j
  | .destroy j => j
  | .items j _ _ => j
  | .raw j _ => j
  | .append j _ _ _ => j
  | .seek j _ => j
  | .flip j _ => j
  | .copyConstruct j _ => j
  | .copyAssign j _ => j

/-- A call that neither destroys stream `i` nor copies streams. -/
def Call.Spares (i : Nat) : Call → Prop
  | .destroy j => j ≠ i
  | .copyConstruct _ _ => False
  | .copyAssign _ _ => False
  | _ => True

theorem call_others {c : Call} (hc : ¬ c.Copies) {w w' : World} (r : c.run al w = .ok () w') : ∀ k, k ≠ c.on → w'.vars k = w.vars k := by
  cases c with
  | construct j n => exact (construct_vars r).2.1
  | destroy j =>
    have r : destroy j w = .ok () w' := r
    rw [destroy] at r
    obtain ⟨o, w0, r0, ra⟩ := Prog.bind_eq_ok r
    obtain ⟨rfl, h⟩ := getVar_ok r0
    obtain ⟨_, w1, r1, rb⟩ := Prog.bind_eq_ok ra
    have v1 : w1.vars = w0.vars := by
      cases hd : o.data with
      | none => rw [hd] at r1; cases r1; rfl
      | some a => rw [hd] at r1; cases r1; rfl
    cases rb
    exact fun k hk => (upd_other _ _ hk).trans (congrFun v1 k)
  | items j sc l => exact (writeItems_mono sc r).others
  | raw j bs => exact (writeRaw_mono r).others
  | append j k off len =>
    obtain ⟨o, w0, r0, ra⟩ := Prog.bind_eq_ok (show (getVar k >>= fun o => writeRaw al j (.block o.data off len)) w = .ok () w' from r)
    obtain ⟨rfl, -⟩ := getVar_ok r0
    exact (writeRaw_mono ra).others
  | seek j n => exact (setPosition_mono r).others
  | flip j b => exact (modVar_mono r fun o => ⟨rfl, rfl, rfl⟩).others
  | copyConstruct j k => exact (hc trivial).elim
  | copyAssign j k => exact (hc trivial).elim

theorem Call.Spares.not_copies {c : Call} (hc : c.Spares i) : ¬ c.Copies := by
  cases c <;> first | exact id | exact hc.elim

theorem call_moves {c : Call} (hc : c.Spares i) {w w' : World} (r : c.run al w = .ok () w') (hl : w.vars i ≠ none) :
    ∀ o, w.vars i = some o → ∃ o', w'.vars i = some o' ∧ o.reserved ≤ o'.reserved ∧ o.dataSize ≤ o'.dataSize ∧
      (o'.data = o.data ∨ o.reserved < o'.dataSize) := by
  by_cases e : i = c.on
  · subst e
    cases c with
    | construct j n => exact fun o h => (hl (construct_vars r).1).elim
    | destroy j => exact (hc rfl).elim
    | items j sc l => exact (writeItems_mono sc r).here
    | raw j bs => exact (writeRaw_mono r).here
    | append j k off len =>
      obtain ⟨o, w0, r0, ra⟩ := Prog.bind_eq_ok (show (getVar k >>= fun o => writeRaw al j (.block o.data off len)) w = .ok () w' from r)
      obtain ⟨rfl, -⟩ := getVar_ok r0
      exact (writeRaw_mono ra).here
    | seek j n => exact (setPosition_mono r).here
    | flip j b => exact (modVar_mono r fun o => ⟨rfl, rfl, rfl⟩).here
    | copyConstruct j k => exact hc.elim
    | copyAssign j k => exact hc.elim
  · intro o h
    exact ⟨o, (call_others hc.not_copies r i e).trans h, Nat.le_refl _, Nat.le_refl _, .inl rfl⟩

/-- What `GetData()` of stream `i` returns. -/
def pointer (w : World) (i : Nat) : Option Nat := (w.vars i).bind Obj.data

theorem history_moves (halloc : ∀ n r, al.allocOk n r = true) : ∀ (h : List Call) (w : World) (fs : Files), Owned w → (∀ j, ShowsOne al w j (fs j)) →
    LegalAll h fs → ∃ w', runAll al h w = some w' ∧ Owned w' ∧ (∀ j, ShowsOne al w' j (filesAfter h fs j)) ∧
      ∀ i o, (∀ c ∈ h, c.Spares i) → w.vars i = some o → ∃ o', w'.vars i = some o' ∧ o.reserved ≤ o'.reserved ∧ o.dataSize ≤ o'.dataSize ∧
        (o'.data = o.data ∨ o.reserved < o'.dataSize) := by
  intro h
  induction h with
  | nil => intro w fs hw hs _; exact ⟨w, rfl, hw, hs, fun i o _ h => ⟨o, h, Nat.le_refl _, Nat.le_refl _, .inl rfl⟩⟩
  | cons c cs ih =>
    intro w fs hw hs hl
    obtain ⟨w1, e1, hw1, hs1⟩ := show_call halloc hw hs c hl.1
    obtain ⟨w2, e2, hw2, hs2, hall⟩ := ih w1 _ hw1 hs1 hl.2
    refine ⟨w2, by rw [runAll, e1]; exact e2, hw2, hs2, fun i o hsp ho => ?_⟩
    obtain ⟨o1, h1, r1, s1, d1⟩ := call_moves (hsp c (.head _)) e1 (by rw [ho]; exact nofun) o ho
    obtain ⟨o2, h2, r2, s2, d2⟩ := hall i o1 (fun c hc => hsp c (.tail _ hc)) h1
    refine ⟨o2, h2, by omega, by omega, ?_⟩
    rcases d2 with d2 | d2
    · rcases d1 with d1 | d1
      · exact .inl (d2.trans d1)
      · exact .inr (by omega)
    · exact .inr (by omega)

theorem filesAfter_append (h1 h2 : List Call) (fs : Files) : filesAfter (h1 ++ h2) fs = filesAfter h2 (filesAfter h1 fs) := by
  induction h1 generalizing fs with
  | nil => rfl
  | cons c cs ih => exact ih _

theorem runAll_append (h1 h2 : List Call) {w w1 : World} (e : runAll al h1 w = some w1) : runAll al (h1 ++ h2) w = runAll al h2 w1 := by
  induction h1 generalizing w with
  | nil => cases e; rfl
  | cons c cs ih =>
    rw [runAll] at e
    rw [List.cons_append, runAll]
    split at e
    · exact ih e
    · exact ih e
    · cases e

theorem legalAll_append {h1 h2 : List Call} {fs : Files} (h : LegalAll (h1 ++ h2) fs) : LegalAll h1 fs ∧ LegalAll h2 (filesAfter h1 fs) := by
  induction h1 generalizing fs with
  | nil => exact ⟨trivial, h⟩
  | cons c cs ih => exact ⟨⟨h.1, (ih h.2).1⟩, (ih h.2).2⟩

/-- Reading through a pointer that is still the stream's. -/
theorem view_reads {w : World} {f : Spec.File} (hs : ShowsOne al w i (some f)) (v : View) (hd : v.data = pointer w i) (hz : v.size ≤ f.content.length)
    (hp : v.pos ≤ v.size) :
    (∀ count, v.pos + count < 2 ^ 64 → v.readRaw count w = .ok (((f.content.take v.size).drop v.pos).take count, { v with pos := min (v.pos + count) v.size }) w) ∧
    v.peek w = .ok ((f.content.take v.size).getD v.pos 0) w := by
  obtain ⟨s, ⟨o, a, m, h1, h2, h3, rfl⟩, hg, rfl⟩ := hs
  have hml := hg.mem_len
  have hsl := hg.size_le
  have hrl := hg.res_lt
  have hcl := hg.content_len
  have hz : v.size ≤ (value al w.n o m).content.length := hz
  have hm : (value al w.n o m).content = m.take o.dataSize := rfl
  have hsz : v.size ≤ o.dataSize := by rw [hcl] at hz; exact hz
  have hom : o.dataSize ≤ m.length := by
    have h4 : m.length = o.reserved := hml
    have h5 : o.dataSize ≤ o.reserved := hsl
    omega
  have hro : o.dataSize < 2 ^ 64 := Nat.lt_of_le_of_lt hsl hrl
  have hda : v.data = some a := by rw [hd, pointer, h1]; exact h2
  have cut : ∀ n, v.pos + n ≤ v.size → (m.drop v.pos).take n = (((value al w.n o m).content.take v.size).drop v.pos).take n := by
    intro n hn
    rw [hm, List.take_take, Nat.min_eq_left hsz, List.drop_take, List.take_take, Nat.min_eq_left (by omega)]
  have clen : (((value al w.n o m).content.take v.size).drop v.pos).length = v.size - v.pos := by
    rw [List.length_drop, List.length_take, Nat.min_eq_left hz]
  have ld : ∀ n, v.pos + n ≤ v.size → (Source.block v.data v.pos n).load w = .ok ((((value al w.n o m).content.take v.size).drop v.pos).take n) w := by
    intro n hn
    rw [hda, load_block h3, if_neg (by omega), cut n hn]
  constructor
  · intro count hc
    have hwr : wrap64 (v.pos + count) = v.pos + count := Nat.mod_eq_of_lt hc
    show v.readRaw count w = .ok ((((value al w.n o m).content.take v.size).drop v.pos).take count, _) w
    rw [View.readRaw, hwr]
    by_cases c : v.pos + count > v.size
    · have hsub : sub64 v.size v.pos = v.size - v.pos := by unfold sub64; omega
      simp only [if_pos c, hsub]
      rw [Nat.min_eq_right (by omega), List.take_of_length_le (by rw [clen]; omega)]
      by_cases z : v.size - v.pos = 0
      · rw [if_pos z, Prog.pure_apply, List.eq_nil_of_length_eq_zero (clen.trans z)]
      · rw [if_neg z, Prog.bind_ok (ld _ (by omega)), Prog.pure_apply, List.take_of_length_le (by rw [clen]; omega)]
    · simp only [if_neg c]
      rw [Nat.min_eq_left (by omega)]
      by_cases z : count = 0
      · subst z; rw [if_pos rfl, Prog.pure_apply, List.take_zero]
      · rw [if_neg z, Prog.bind_ok (ld _ (by omega)), Prog.pure_apply]
  · show v.peek w = .ok (((value al w.n o m).content.take v.size).getD v.pos 0) w
    rw [View.peek]
    by_cases c : v.pos ≥ v.size
    · rw [if_pos c, Prog.pure_apply, List.getD_eq_getElem?_getD, List.getElem?_eq_none (by rw [List.length_take]; omega)]; rfl
    · rw [if_neg c, Prog.bind_ok (ld 1 (by omega)), Prog.pure_apply]
      congr 1
      rw [List.getD_eq_getElem?_getD]
      have : v.pos < ((value al w.n o m).content.take v.size).length := by rw [List.length_take]; omega
      rw [List.drop_eq_getElem_cons this, List.getElem?_eq_getElem this]
      rfl

end SHeap
open SHeap in
/-- **C82.** A program makes a read stream over what write stream `i` shows, and goes on making legal calls (on any stream; `i` is not destroyed). As long as
`GetData()` of `i` returns what it returned then, every read through the read stream gives the bytes the write stream has *now*, up to the size it had *then*,
at whatever position the read stream is. And `GetData()` keeps its value while the write stream does not grow. -/
theorem C82_view_shows_the_stream (halloc : ∀ n r, al.allocOk n r = true) (before after : List Call) (hl : LegalAll (before ++ after) fun _ => none)
    (old : Spec.File) (hi : filesAfter before (fun _ => none) i = some old) (hsp : ∀ c ∈ after, c.Spares i) :
    ∃ w1 w2 v now, runAll al before SHeap.start = some w1 ∧ viewOf i w1 = .ok v w1 ∧ v.size = old.content.length ∧ v.pos = 0 ∧
      runAll al after w1 = some w2 ∧ filesAfter (before ++ after) (fun _ => none) i = some now ∧ old.content.length ≤ now.content.length ∧
      (pointer w2 i = pointer w1 i → ∀ pos, pos ≤ v.size →
        (∀ count, pos + count < 2 ^ 64 → View.readRaw { v with pos } count w2 =
          .ok (((now.content.take v.size).drop pos).take count, { v with pos := min (pos + count) v.size }) w2) ∧
        View.peek { v with pos } w2 = .ok ((now.content.take v.size).getD pos 0) w2) ∧
      (now.content.length = old.content.length → pointer w2 i = pointer w1 i) := by
  obtain ⟨hl1, hl2⟩ := legalAll_append hl
  obtain ⟨w1, e1, ho1, hs1, -⟩ := history_moves halloc before SHeap.start (fun _ => none) start_owned (fun _ => rfl) hl1
  obtain ⟨w2, e2, ho2, hs2, hm⟩ := history_moves halloc after w1 _ ho1 hs1 hl2
  have h1 := hs1 i
  rw [hi] at h1
  obtain ⟨s1, ⟨o1, a1, m1, v1, d1, b1, rfl⟩, g1, f1⟩ := id h1
  obtain ⟨o2, v2, hr, hsz, hd⟩ := hm i o1 hsp v1
  have h2 := hs2 i
  have hlen1 : old.content.length = o1.dataSize := by rw [← f1]; exact g1.content_len
  cases hf : filesAfter after (filesAfter before fun _ => none) i with
  | none => rw [hf] at h2; rw [show w2.vars i = none from h2] at v2; cases v2
  | some now =>
    rw [hf] at h2
    obtain ⟨s2, ⟨o2', a2, m2, v2', d2, b2, rfl⟩, g2, f2⟩ := id h2
    rw [v2] at v2'; cases v2'
    have hlen2 : now.content.length = o2.dataSize := by rw [← f2]; exact g2.content_len
    have hp1 : pointer w1 i = o1.data := by rw [pointer, v1]; rfl
    have hp2 : pointer w2 i = o2.data := by rw [pointer, v2]; rfl
    refine ⟨w1, w2, ⟨o1.data, o1.dataSize, 0⟩, now, e1, ?_, hlen1.symm, rfl, e2, by rw [filesAfter_append]; exact hf, by omega, ?_, ?_⟩
    · have e0 : getVar i w1 = .ok o1 w1 := by simp only [getVar, v1]
      rw [viewOf, Prog.bind_ok e0]; rfl
    · intro hp pos hpos
      exact view_reads h2 ⟨o1.data, o1.dataSize, pos⟩ (hp1.symm.trans hp.symm) (by show o1.dataSize ≤ _; omega) hpos
    · intro heq
      rw [hp1, hp2]
      rcases hd with hd | hd
      · exact hd
      · have : o1.dataSize ≤ o1.reserved := g1.size_le
        omega

open SHeap in
/-- **C82.** A stream made with room for `n` bytes keeps its buffer as long as it has at most `n` bytes: read streams over it stay good. -/
theorem C82_room (halloc : ∀ n r, al.allocOk n r = true) (before between after : List Call) (n : Nat)
    (hl : LegalAll (before ++ .construct i n :: between ++ after) fun _ => none) (hsp : ∀ c ∈ between ++ after, c.Spares i) (now : Spec.File)
    (hnow : filesAfter (before ++ .construct i n :: between ++ after) (fun _ => none) i = some now) (hn : now.content.length ≤ n) :
    ∃ w1 w2, runAll al (before ++ .construct i n :: between) SHeap.start = some w1 ∧ runAll al after w1 = some w2 ∧ pointer w2 i = pointer w1 i := by
  obtain ⟨hl1, hl3⟩ := legalAll_append hl
  obtain ⟨hl1, hl2⟩ := legalAll_append hl1
  obtain ⟨w0, e0, ho0, hs0, -⟩ := history_moves halloc before SHeap.start (fun _ => none) start_owned (fun _ => rfl) hl1
  obtain ⟨wc, ec, hoc, hsc⟩ := show_call halloc ho0 hs0 _ hl2.1
  obtain ⟨w1, e1, ho1, hs1, hm1⟩ := history_moves halloc between wc _ hoc hsc hl2.2
  rw [filesAfter_append] at hl3
  obtain ⟨w2, e2, ho2, hs2, hm2⟩ := history_moves halloc after w1 _ ho1 hs1 hl3
  obtain ⟨-, -, oc, vc, rc⟩ := construct_vars (al := al) (j := i) ec
  obtain ⟨o1, v1, r1, z1, d1⟩ := hm1 i oc (fun c hc => hsp c (List.mem_append_left _ hc)) vc
  obtain ⟨o2, v2, r2, z2, d2⟩ := hm2 i o1 (fun c hc => hsp c (List.mem_append_right _ hc)) v1
  have h2 := hs2 i
  rw [filesAfter_append, filesAfter_append] at hnow
  rw [show filesAfter after (filesAfter between ((Call.construct i n).onFiles (filesAfter before fun _ => none))) i = some now from hnow] at h2
  obtain ⟨s2, ⟨o2', a2, m2, v2', -, -, rfl⟩, g2, f2⟩ := h2
  rw [v2] at v2'; cases v2'
  have hlen2 : now.content.length = o2.dataSize := by rw [← f2]; exact g2.content_len
  refine ⟨w1, w2, ?_, e2, ?_⟩
  · rw [runAll_append _ _ e0]
    rw [runAll, ec]; exact e1
  · rw [pointer, pointer, v1, v2]
    show o2.data = o1.data
    rcases d2 with d | d
    · exact d
    · omega

open SHeap in
/-- **C82.** The end of a read stream: when a call changes what `GetData()` of the stream returns (the buffer moved, or the stream was destroyed), the memory is
released, and reading a byte through a read stream made before is undefined behaviour. -/
theorem C82_moved_buffer_is_gone (w w' : World) (hw : Owned w) (hw' : Owned w') (c : Call) (hc : ¬ c.Copies) (r : c.run al w = .ok () w') (a : Nat)
    (hp : pointer w i = some a) (hp' : pointer w' i ≠ some a) (v : View) (hv : v.data = some a) (count : Nat) (h0 : 0 < count)
    (hin : v.pos + count ≤ v.size) (hsz : v.size < 2 ^ 64) : w'.heap a = none ∧ v.readRaw count w' = .ub ∧ v.peek w' = .ub := by
  have gone : w'.heap a = none := by
    cases hm : w'.heap a with
    | none => rfl
    | some m =>
      exfalso
      obtain ⟨j, oj, hj, dj⟩ := hw'.noLeak a m hm
      have hji : j ≠ i := fun e => hp' (by rw [pointer, ← e, hj]; exact dj)
      cases hi : w.vars i with
      | none => rw [pointer, hi] at hp; cases hp
      | some o =>
        have hd : o.data = some a := by rw [pointer, hi] at hp; exact hp
        by_cases e : c.on = i
        · have := call_others hc r j (by rw [e]; exact hji)
          rw [hj] at this
          exact hji (hw.apart j i oj o a this.symm hi dj hd)
        · have := call_others hc r i (Ne.symm e)
          exact hp' (by rw [pointer, this, hi]; exact hd)
  have ld : ∀ n, (Source.block v.data v.pos n).load w' = .ub := by
    intro n; rw [hv]; simp only [Source.load, gone]
  refine ⟨gone, ?_, ?_⟩
  · have hwr : wrap64 (v.pos + count) = v.pos + count := Nat.mod_eq_of_lt (by omega)
    rw [View.readRaw, hwr]
    simp only [if_neg (show ¬ v.pos + count > v.size by omega)]
    rw [if_neg (by omega), Prog.bind_apply, ld]
  · rw [View.peek, if_neg (by omega), Prog.bind_apply, ld]

namespace SHeap

/-- Run a history, make a view of stream `i`, run another history, read. -/
noncomputable def viewDemo (before after : List Call) (i count : Nat) : Option Bytes :=
  match runAll lowAllocator before SHeap.start with
  | none => none
  | some w1 =>
    match viewOf i w1 with
    | .ok v w1 =>
      match runAll lowAllocator after w1 with
      | none => none
      | some w2 =>
        match v.readRaw count w2 with
        | .ok r _ => some r.1
        | _ => none
    | _ => none

end SHeap
open SHeap in
/-- **C82**: a read stream over three bytes sees a later change of them, is of no use once the write stream has grown, and may show the bytes of another stream
that got the memory. -/
theorem C82_demo :
    viewDemo [.construct 0 4, .raw 0 [1, 2, 3]] [.seek 0 1, .raw 0 [7], .seek 0 3, .raw 0 [9]] 0 5 = some [1, 7, 3] ∧
    viewDemo [.construct 0 4, .raw 0 [1, 2, 3]] [.raw 0 [4, 5]] 0 5 = none ∧
    viewDemo [.construct 0 4, .raw 0 [1, 2, 3]] [.raw 0 [4, 5], .construct 1 3, .raw 1 [8, 8]] 0 5 = some [8, 8, 0] := by
  refine ⟨?_, ?_, ?_⟩ <;> decide +kernel

/-! ## Histories of calls on the read stream -/

namespace SHeap

/-- A call on a `MemoryReadStream`: read `count` bytes, `Peek`, `SetPosition( n )`. -/
inductive ViewCall where
  | read (count : Nat)
  | peek
  | seek (n : Nat)

/-- What the call returns. -/
inductive ViewResult where
  | bytes (bs : Bytes)
  | byte (b : Byte)
  | moved (b : Bool)

/-- One call on the read stream. -/
def ViewCall.run (v : View) : ViewCall → Prog World (ViewResult × View)
  | .read count => do let r ← v.readRaw count; return (.bytes r.1, r.2)
  | .peek => do let b ← v.peek; return (.byte b, v)
  | .seek n => return (.moved (v.setPosition n).1, (v.setPosition n).2)

/-- Calls one after the other. -/
def runView : List ViewCall → View → Prog World (List ViewResult × View)
  | [], v => return ([], v)
  | c :: cs, v => do
    let r ← c.run v
    let rs ← runView cs r.2
    return (r.1 :: rs.1, rs.2)

/-- The same calls on a file that is only read: the results and the position. A read stops at the end of the file, `Peek` at the end gives 0, and
`SetPosition` takes every position in the file and the end of the file, and refuses all others. -/
def readFile (content : Bytes) : List ViewCall → Nat → List ViewResult × Nat
  | [], pos => ([], pos)
  | .read count :: cs, pos =>
    let r := readFile content cs (min (pos + count) content.length)
    (.bytes ((content.drop pos).take count) :: r.1, r.2)
  | .peek :: cs, pos =>
    let r := readFile content cs pos
    (.byte (content.getD pos 0) :: r.1, r.2)
  | .seek n :: cs, pos =>
    let r := readFile content cs (if n ≤ content.length then n else pos)
    (.moved (decide (n ≤ content.length)) :: r.1, r.2)

theorem runView_file {w : World} {content : Bytes} {v0 : View} (hlen : content.length = v0.size)
    (h : ∀ pos, pos ≤ v0.size →
        (∀ count, pos + count < 2 ^ 64 → View.readRaw { v0 with pos } count w = .ok ((content.drop pos).take count, { v0 with pos := min (pos + count) v0.size }) w) ∧
        View.peek { v0 with pos } w = .ok (content.getD pos 0) w) :
    ∀ (calls : List ViewCall) (pos : Nat), pos ≤ v0.size → (∀ count, .read count ∈ calls → v0.size + count < 2 ^ 64) →
      runView calls { v0 with pos } w = .ok ((readFile content calls pos).1, { v0 with pos := (readFile content calls pos).2 }) w
  | [], pos, _, _ => rfl
  | .read count :: cs, pos, hp, hc => by
    have hb := hc count (List.mem_cons_self ..)
    rw [runView, Prog.bind_ok (by rw [ViewCall.run, Prog.bind_ok ((h pos hp).1 count (by omega))]; rfl)]
    rw [Prog.bind_ok (runView_file hlen h cs _ (Nat.min_le_right ..) fun c hm => hc c (List.mem_cons_of_mem _ hm))]
    rw [readFile, hlen]; rfl
  | .peek :: cs, pos, hp, hc => by
    rw [runView, Prog.bind_ok (by rw [ViewCall.run, Prog.bind_ok (h pos hp).2]; rfl)]
    rw [Prog.bind_ok (runView_file hlen h cs pos hp fun c hm => hc c (List.mem_cons_of_mem _ hm))]
    rfl
  | .seek n :: cs, pos, hp, hc => by
    by_cases hn : n ≤ v0.size
    · have e : View.setPosition { v0 with pos } n = (true, { v0 with pos := n }) := if_neg (by show ¬ n > v0.size; omega)
      rw [runView, Prog.bind_ok (by rw [ViewCall.run, e]; rfl)]
      rw [Prog.bind_ok (runView_file hlen h cs n hn fun c hm => hc c (List.mem_cons_of_mem _ hm))]
      rw [readFile, hlen, if_pos hn, decide_eq_true hn]; rfl
    · have e : View.setPosition { v0 with pos } n = (false, { v0 with pos }) := if_pos (by show n > v0.size; omega)
      rw [runView, Prog.bind_ok (by rw [ViewCall.run, e]; rfl)]
      rw [Prog.bind_ok (runView_file hlen h cs pos hp fun c hm => hc c (List.mem_cons_of_mem _ hm))]
      rw [readFile, hlen, if_neg hn, decide_eq_false hn]; rfl

end SHeap

open SHeap in
/-- **C82**, for every history of calls on the read stream itself. As long as `GetData()` of the write stream returns what it returned when the read stream was
made, any reads, `Peek`s and `SetPosition`s on the read stream, in any order, do what they do on a file with the bytes the write stream has now, cut to the size it
had then, starting at its first byte. -/
theorem C82_view_histories (halloc : ∀ n r, al.allocOk n r = true) (before after : List Call) (hl : LegalAll (before ++ after) fun _ => none)
    (old : Spec.File) (hi : filesAfter before (fun _ => none) i = some old) (hsp : ∀ c ∈ after, c.Spares i) (calls : List ViewCall)
    (hc : ∀ count, .read count ∈ calls → old.content.length + count < 2 ^ 64) :
    ∃ w1 w2 v now, runAll al before SHeap.start = some w1 ∧ viewOf i w1 = .ok v w1 ∧ runAll al after w1 = some w2 ∧
      filesAfter (before ++ after) (fun _ => none) i = some now ∧
      (pointer w2 i = pointer w1 i →
        ∃ v', runView calls v w2 = .ok ((readFile (now.content.take old.content.length) calls 0).1, v') w2 ∧
          v'.pos = (readFile (now.content.take old.content.length) calls 0).2) := by
  obtain ⟨w1, w2, ⟨d, n, p⟩, now, e1, e2, hs, hp, e3, hn, hle, hr, -⟩ := C82_view_shows_the_stream halloc before after hl old hi hsp
  cases hp
  have hs : n = old.content.length := hs
  subst hs
  refine ⟨w1, w2, _, now, e1, e2, e3, hn, fun he =>
    ⟨⟨d, old.content.length, (readFile (now.content.take old.content.length) calls 0).2⟩, ?_, rfl⟩⟩
  exact runView_file (v0 := ⟨d, old.content.length, 0⟩) (by rw [List.length_take]; exact Nat.min_eq_left hle) (hr he) calls 0 (Nat.zero_le _) hc

/-- The file of `C82_view_histories` at work: reads up to the end, a refused and two accepted positions, the end among them. -/
example : SHeap.readFile [1, 2, 3] [.read 2, .seek 4, .peek, .seek 3, .peek, .read 1, .seek 1, .read 5] 0 =
    ([.bytes [1, 2], .moved false, .byte 3, .moved true, .byte 0, .bytes [], .moved true, .bytes [2, 3]], 3) := rfl

end ISD
