import Verif.Model.Loads
import Verif.Props.Loader

/-!
# C77: concurrent loads do not interfere
-/

namespace ISD

open Loader

namespace Loader

variable {c : HashCore}

/-- A load that returned `Ok`. -/
def startsLoad : Option (Call × Answer) → Bool
  | some (.asyncLoadEntity _, .status .ok) => true
  | _ => false

theorem Steps.append {w w1 w2 : World} {es es' : List (Option (Call × Answer))} (h : Steps c w es w1) (h' : Steps c w1 es' w2) :
    Steps c w (es ++ es') w2 := by
  induction h' with
  | nil => rw [List.append_nil]; exact h
  | snoc _ s ih => rw [← List.append_assoc]; exact .snoc ih s

/-- Threads keep their place, their id and their path. -/
theorem step_keeps {w w' : World} {e : Option (Call × Answer)} (s : Step c w e w') :
    w'.threads.length = w.threads.length + (if startsLoad e then 1 else 0) ∧
    ∀ (i : Nat) (t : Thread), w.threads[i]? = some t → ∃ t' : Thread, w'.threads[i]? = some t' ∧ t'.id = t.id ∧ t'.path = t.path := by
  cases s with
  | init f a arg => exact ⟨rfl, fun i t h => ⟨t, h, rfl, rfl⟩⟩
  | noParams u => exact ⟨rfl, fun i t h => ⟨t, h, rfl, rfl⟩⟩
  | noThread u => exact ⟨rfl, fun i t h => ⟨t, h, rfl, rfl⟩⟩
  | load u =>
    refine ⟨by simp [startsLoad], fun i t h => ⟨t, ?_, rfl, rfl⟩⟩
    rw [List.getElem?_append_left (by obtain ⟨h, _⟩ := List.getElem?_eq_some_iff.mp h; exact h)]
    exact h
  | isLoaded u => exact ⟨rfl, fun i t h => ⟨t, h, rfl, rfl⟩⟩
  | getLoaded u => exact ⟨rfl, fun i t h => ⟨t, h, rfl, rfl⟩⟩
  | thread j t p hj h =>
    refine ⟨by simp [startsLoad], fun i t' h' => ?_⟩
    obtain ⟨hl, _⟩ := List.getElem?_eq_some_iff.mp h'
    by_cases hij : j = i
    · subst hij
      rw [hj] at h'; cases h'
      exact ⟨{ t with phase := p }, by simp only [List.getElem?_set, if_true, hl], rfl, rfl⟩
    · exact ⟨t', by simp only [List.getElem?_set, hij, if_false]; exact h', rfl, rfl⟩
  | files fs => exact ⟨rfl, fun i t h => ⟨t, h, rfl, rfl⟩⟩

theorem steps_keep {w w' : World} {es : List (Option (Call × Answer))} (s : Steps c w es w') :
    w'.threads.length = w.threads.length + (es.filter startsLoad).length ∧
    ∀ (i : Nat) (t : Thread), w.threads[i]? = some t → ∃ t' : Thread, w'.threads[i]? = some t' ∧ t'.id = t.id ∧ t'.path = t.path := by
  induction s with
  | nil => exact ⟨rfl, fun i t h => ⟨t, h, rfl, rfl⟩⟩
  | snoc h s ih =>
    obtain ⟨l1, k1⟩ := ih
    obtain ⟨l2, k2⟩ := step_keeps s
    refine ⟨?_, fun i t h => ?_⟩
    · rw [l2, l1, List.filter_append, List.length_append, Nat.add_assoc]
      congr 2
      rename_i e
      cases he : startsLoad e <;> simp [he]
    · obtain ⟨t1, h1, e1, e2⟩ := k1 i t h
      obtain ⟨t2, h2, e3, e4⟩ := k2 i t1 h1
      exact ⟨t2, h2, e3.trans e1, e4.trans e2⟩

/-- Split a run at an event. -/
theorem Steps.split {w w' : World} {es : List (Option (Call × Answer))} (s : Steps c w es w') :
    ∀ es1 e es2, es = es1 ++ e :: es2 → ∃ w1 w2, Steps c w es1 w1 ∧ Step c w1 e w2 ∧ Steps c w2 es2 w' := by
  induction s with
  | nil => intro es1 e es2 h; simp at h
  | @snoc w1 w2 es0 e0 h s ih =>
    intro es1 e es2 he
    rcases List.eq_nil_or_concat es2 with rfl | ⟨es2', e', rfl⟩
    · obtain ⟨rfl, h2⟩ := List.append_inj' (s₁ := es0) (t₁ := [e0]) (s₂ := es1) (t₂ := [e]) he rfl
      cases h2
      exact ⟨_, _, h, s, .nil _⟩
    · rw [List.concat_eq_append, ← List.cons_append, ← List.append_assoc] at he
      obtain ⟨rfl, h2⟩ := List.append_inj' (s₁ := es0) (t₁ := [e0]) (s₂ := es1 ++ e :: es2') (t₂ := [e']) he rfl
      cases h2
      obtain ⟨a, b, h1, h2, h3⟩ := ih es1 e es2' rfl
      exact ⟨a, b, h1, h2, by rw [List.concat_eq_append]; exact .snoc h3 s⟩

/-- At some time during the run the files were these. -/
def Saw (c : HashCore) (w0 : World) (es : List (Option (Call × Answer))) (fs : List Char → Option Bytes) : Prop :=
  ∃ es1 es2 w1, es = es1 ++ es2 ∧ Steps c w0 es1 w1 ∧ w1.files = fs

/-- What is known of a thread in a run. -/
def Explained (c : HashCore) (w0 : World) (es : List (Option (Call × Answer))) (t : Thread) : Prop :=
  match t.phase with
  | .started => True
  | .opened f => ∃ fs, Saw c w0 es fs ∧ fs (filePath t.path t.id) = some f
  | .reading f b p buffer => (∃ fs, Saw c w0 es fs ∧ fs (filePath t.path t.id) = some f) ∧ ¬ f.length < 32 ∧
      ∃ log, ∀ rs r, ReadLoop f f.length b p buffer rs r → ReadLoop f f.length 0 0 (List.replicate f.length 0) (log ++ rs) r
  | .ended o => ∃ fs sizeOk allocOk rs leaks, Saw c w0 es fs ∧ Loads c ⟨fs, sizeOk, allocOk⟩ t.path t.id rs o leaks

theorem Saw.mono {w0 : World} {es : List (Option (Call × Answer))} {fs : List Char → Option Bytes} (e) (h : Saw c w0 es fs) :
    Saw c w0 (es ++ [e]) fs := by
  obtain ⟨es1, es2, w1, rfl, h1, h2⟩ := h
  exact ⟨es1, es2 ++ [e], w1, List.append_assoc _ _ _, h1, h2⟩

theorem Explained.mono {w0 : World} {es : List (Option (Call × Answer))} {t : Thread} (e) (h : Explained c w0 es t) :
    Explained c w0 (es ++ [e]) t := by
  unfold Explained at h ⊢
  split at h
  · trivial
  · obtain ⟨fs, h1, h2⟩ := h; exact ⟨fs, h1.mono e, h2⟩
  · obtain ⟨⟨fs, h1, h2⟩, h3⟩ := h; exact ⟨⟨fs, h1.mono e, h2⟩, h3⟩
  · obtain ⟨fs, a, b, rs, l, h1, h2⟩ := h; exact ⟨fs, a, b, rs, l, h1.mono e, h2⟩

theorem threadStep_explained {w0 w : World} {es : List (Option (Call × Answer))} (hs : Steps c w0 es w) {t : Thread} {p : Phase}
    (h : Explained c w0 es t) (st : ThreadStep c w.files t p) : Explained c w0 es { t with phase := p } := by
  have now : Saw c w0 es w.files := ⟨es, [], w, (List.append_nil _).symm, hs, rfl⟩
  cases st with
  | cantOpen hp hf => exact ⟨w.files, true, true, [], false, now, .noFile hf⟩
  | opens hp hf => exact ⟨w.files, now, hf⟩
  | noSize hp =>
    rw [Explained, hp] at h
    obtain ⟨fs, h1, h2⟩ := h
    exact ⟨fs, false, true, [], true, h1, .noSize h2 rfl⟩
  | tooSmall hp hl =>
    rw [Explained, hp] at h
    obtain ⟨fs, h1, h2⟩ := h
    exact ⟨fs, true, true, [], true, h1, .tooSmall h2 rfl hl⟩
  | noMemory hp hl =>
    rw [Explained, hp] at h
    obtain ⟨fs, h1, h2⟩ := h
    exact ⟨fs, true, false, [], true, h1, .noMemory h2 rfl hl rfl⟩
  | allocates hp hl =>
    rw [Explained, hp] at h
    exact ⟨h, hl, [], fun _ _ h => h⟩
  | outside hp hlt hb =>
    rw [Explained, hp] at h
    obtain ⟨⟨fs, h1, h2⟩, hl, log, hr⟩ := h
    exact ⟨fs, true, true, _, _, h1, .reads h2 rfl hl rfl (hr _ _ (.outside hlt hb))⟩
  | cantRead hp hlt hb =>
    rw [Explained, hp] at h
    obtain ⟨⟨fs, h1, h2⟩, hl, log, hr⟩ := h
    exact ⟨fs, true, true, _, _, h1, .reads h2 rfl hl rfl (hr _ _ (.failed hlt hb))⟩
  | @reads f b q n buffer hp hlt hb hn hf =>
    rw [Explained, hp] at h
    obtain ⟨h1, hl, log, hr⟩ := h
    refine ⟨h1, hl, log ++ [.got n], fun rs r hrs => ?_⟩
    rw [List.append_assoc]
    exact hr _ _ (.got hlt hb hn hf hrs)
  | finishes hp hlt =>
    rw [Explained, hp] at h
    obtain ⟨⟨fs, h1, h2⟩, hl, log, hr⟩ := h
    exact ⟨fs, true, true, _, _, h1, .reads h2 rfl hl rfl (hr _ _ (.done hlt))⟩

theorem all_explained {files : List Char → Option Bytes} {es : List (Option (Call × Answer))} {w : World} (s : Steps c (newWorld files) es w) :
    ∀ t ∈ w.threads, Explained c (newWorld files) es t := by
  generalize h0 : newWorld files = w0 at s
  induction s with
  | nil => subst h0; intro t ht; cases ht
  | @snoc w1 w2 es e hs st ih =>
    subst h0
    intro t ht
    cases st with
    | load u =>
      rcases List.mem_append.mp ht with ht | ht
      · exact (ih t ht).mono _
      · cases List.mem_singleton.mp ht; exact trivial
    | thread i t0 p hi h =>
      rcases List.mem_or_eq_of_mem_set ht with ht | rfl
      · exact (ih t ht).mono _
      · exact (threadStep_explained hs (ih t0 (List.mem_of_getElem? hi)) h).mono _
    | init f a arg => exact (ih t ht).mono _
    | noParams u => exact (ih t ht).mono _
    | noThread u => exact (ih t ht).mono _
    | isLoaded u => exact (ih t ht).mono _
    | getLoaded u => exact (ih t ht).mono _
    | files fs => exact (ih t ht).mono _

/-- Thread `i` went on to end with `o` by steps of its own, and nothing else changed. -/
def EndsAlone (c : HashCore) (w : World) (i : Nat) (t : Thread) (o : Outcome) : Prop :=
  ∃ es, (∀ e ∈ es, e = none) ∧ Steps c w es { w with threads := w.threads.set i { t with phase := .ended o } }

theorem EndsAlone.step {w : World} {i : Nat} {t : Thread} {p : Phase} {o : Outcome} (hi : w.threads[i]? = some t) (h : ThreadStep c w.files t p)
    (k : EndsAlone c { w with threads := w.threads.set i { t with phase := p } } i { t with phase := p } o) : EndsAlone c w i t o := by
  obtain ⟨es, h1, h2⟩ := k
  refine ⟨none :: es, fun e he => (List.mem_cons.mp he).elim id (h1 e), ?_⟩
  have := Steps.append (Steps.snoc (.nil w) (.thread w i t p hi h)) h2
  simpa [List.set_set] using this

theorem EndsAlone.last {w : World} {i : Nat} {t : Thread} {o : Outcome} (hi : w.threads[i]? = some t) (h : ThreadStep c w.files t (.ended o)) :
    EndsAlone c w i t o := by
  refine ⟨[none], fun e he => List.mem_singleton.mp he, ?_⟩
  exact Steps.snoc (.nil w) (.thread w i t _ hi h)

theorem getElem?_set_phase {w : World} {i : Nat} {t : Thread} (hi : w.threads[i]? = some t) (t' : Thread) : (w.threads.set i t')[i]? = some t' := by
  obtain ⟨hl, _⟩ := List.getElem?_eq_some_iff.mp hi
  simp only [List.getElem?_set, if_true, hl]

theorem readLoop_alone {f : Bytes} {b p : Nat} {buffer : Bytes} {rs : List ReadRes} {r : LoopRes} (h : ReadLoop f f.length b p buffer rs r) :
    ∀ (w : World) (i : Nat) (t : Thread), w.threads[i]? = some t → t.phase = .reading f b p buffer → EndsAlone c w i t (finish c f.length r) := by
  induction h with
  | done h => exact fun w i t hi hp => .last hi (.finishes hp h)
  | outside h hb => exact fun w i t hi hp => .last hi (.outside hp h hb)
  | failed h hb => exact fun w i t hi hp => .last hi (.cantRead hp h hb)
  | got h hb hn hf next ih =>
    exact fun w i t hi hp => .step hi (.reads hp h hb hn hf) (ih _ i _ (getElem?_set_phase hi _) rfl)

end Loader

variable {c : HashCore} {H : Bytes → Bytes}

/-- **C77.** In every interleaving of calls on a loader, threads and changes to the files: there are exactly as many threads as loads that returned
`Ok`, and the thread of a load has the id it was called with and the path the loader had then, whatever happens afterwards. -/
theorem C77_one_thread_per_load {files : List Char → Option Bytes} {es : List (Option (Call × Answer))} {w : World}
    (s : Steps c (newWorld files) es w) :
    w.threads.length = (es.filter startsLoad).length ∧
    ∀ es1 u es2, es = es1 ++ some (.asyncLoadEntity u, .status .ok) :: es2 →
      ∃ (w1 : World) (t : Thread), Steps c (newWorld files) es1 w1 ∧ w.threads[(es1.filter startsLoad).length]? = some t ∧ t.id = u ∧ t.path = w1.path := by
  refine ⟨by simpa [newWorld] using (steps_keep s).1, fun es1 u es2 h => ?_⟩
  obtain ⟨w1, w2, h1, h2, h3⟩ := s.split es1 _ es2 h
  cases h2 with
  | load =>
    have hl : w1.threads.length = (es1.filter startsLoad).length := by simpa [newWorld] using (steps_keep h1).1
    obtain ⟨t, e1, e2, e3⟩ := (steps_keep h3).2 w1.threads.length ⟨u, w1.path, .started⟩ (by simp)
    exact ⟨w1, t, h1, by rw [← hl]; exact e1, e2, e3⟩

/-- **C77.** Whatever the others do, a thread that has ended did what a single load does on the files as they were at some time during the run: it
returns `Ok` exactly if it met no failure and the file of its id under its path was data followed by their hash; it never wrote outside its buffer. -/
theorem C77_loads_do_not_interfere (hc : Sha.Computes c H) {files : List Char → Option Bytes} {es : List (Option (Call × Answer))} {w : World}
    (s : Steps c (newWorld files) es w) {t : Thread} (ht : t ∈ w.threads) {o : Outcome} (ho : t.phase = .ended o) :
    ∃ es1 es2 w1, es = es1 ++ es2 ∧ Steps c (newWorld files) es1 w1 ∧ o ≠ .ub ∧
      (∃ sizeOk allocOk rs leaks, Loads c ⟨w1.files, sizeOk, allocOk⟩ t.path t.id rs o leaks) ∧
      (o = .status .ok → ∃ data, w1.files (filePath t.path t.id) = some (data ++ H data) ∧ (H data).length = 32) := by
  have h := all_explained s t ht
  rw [Explained, ho] at h
  obtain ⟨fs, a, b, rs, l, ⟨es1, es2, w1, e1, h1, rfl⟩, h2⟩ := h
  obtain ⟨k1, k2⟩ := C47_ok_iff hc h2
  exact ⟨es1, es2, w1, e1, h1, k1, ⟨a, b, rs, l, h2⟩, fun e => (k2.mp e).2.2.2⟩

/-- **C77.** Nor does a thread wait for the others: whatever state the others are in, everything that a single load can do on the files as they are now
a new thread can do by steps of its own, which change nothing else. -/
theorem C77_loads_do_not_wait {w : World} {i : Nat} {t : Thread} (hi : w.threads[i]? = some t) (hp : t.phase = .started) {sizeOk allocOk : Bool}
    {rs : List ReadRes} {o : Outcome} {leaks : Bool} (h : Loads c ⟨w.files, sizeOk, allocOk⟩ t.path t.id rs o leaks) : EndsAlone c w i t o := by
  cases h with
  | noFile h => exact .last hi (.cantOpen hp h)
  | noSize h hs => exact .step hi (.opens hp h) (.last (getElem?_set_phase hi _) (.noSize rfl))
  | tooSmall h hs hl => exact .step hi (.opens hp h) (.last (getElem?_set_phase hi _) (.tooSmall rfl hl))
  | noMemory h hs hl ha => exact .step hi (.opens hp h) (.last (getElem?_set_phase hi _) (.noMemory rfl hl))
  | reads h hs hl ha hr =>
    refine .step hi (.opens hp h) (.step (getElem?_set_phase hi _) (.allocates rfl hl) ?_)
    exact readLoop_alone hr _ i _ (getElem?_set_phase (getElem?_set_phase hi _) _) rfl

/-- The path of a loader never changes once it is set, so all loads after a successful `Initialize` use it. -/
theorem C77_path_is_final {w w' : World} {es : List (Option (Call × Answer))} (s : Steps c w es w') (h : w.path ≠ []) : w'.path = w.path := by
  induction s with
  | nil => rfl
  | snoc hs st ih =>
    cases st with
    | init f a arg =>
      rw [← ih]
      rename_i w1 _
      have := C55_initialize f a w1.path arg
      exact this.2.2.1 fun e => h (ih ▸ (this.1.mp e).1)
    | noParams u => exact ih
    | noThread u => exact ih
    | load u => exact ih
    | isLoaded u => exact ih
    | getLoaded u => exact ih
    | thread j t p hj h' => exact ih
    | files fs => exact ih

/-- Finding: no loaded entity is ever visible, whatever was loaded; and a loader that was never initialised starts loads too, of files in the root
directory. -/
theorem C77_nothing_is_ever_loaded {w w' : World} {u : UUID} {a : Answer} :
    (Step c w (some (.isEntityLoaded u, a)) w' → a = .loaded false .ok) ∧ (Step c w (some (.getLoadedEntity u, a)) w' → a = .entity none .ok) ∧
    ∀ files, ∃ w1, Step c (newWorld files) (some (.asyncLoadEntity u, .status .ok)) w1 ∧ w1.threads = [⟨u, [], .started⟩] :=
  ⟨fun h => by cases h; rfl, fun h => by cases h; rfl, fun files => ⟨_, .load _ _, rfl⟩⟩

/-! ## A non-trivial case -/

/-- The files: two entities, one of them damaged. -/
def twoFiles (path : List Char) : Option Bytes :=
  if path = filePath ['C'] ⟨1, 0, 0, .replicate 8 0⟩ then some ([1, 2, 3] ++ sumHash [1, 2, 3])
  else if path = filePath ['C'] ⟨2, 0, 0, .replicate 8 0⟩ then some ([9, 2, 3] ++ sumHash [1, 2, 3])
  else none

/-- Two loads at once: the second has opened its file when the first runs to its end. -/
example : ∃ es w, Steps sumCore (newWorld twoFiles) es w ∧ w.path = ['C'] ∧ (∃ t ∈ w.threads, t.phase = .ended (.status .ok)) ∧
    ∃ t ∈ w.threads, t.phase = .opened ([9, 2, 3] ++ sumHash [1, 2, 3]) := by
  have s1 : Steps sumCore (newWorld twoFiles) _ _ := .snoc (.nil _) (.init _ (fun a => a) (fun _ => 0x10) ['C'])
  have s2 := Steps.snoc s1 (.load _ ⟨1, 0, 0, .replicate 8 0⟩)
  have s3 := Steps.snoc s2 (.load _ ⟨2, 0, 0, .replicate 8 0⟩)
  have s4 := Steps.snoc s3 (.thread _ 1 _ (.opened ([9, 2, 3] ++ sumHash [1, 2, 3])) rfl (.opens rfl (by decide +kernel)))
  have fin : ∀ es4 (w4 : World), Steps sumCore (newWorld twoFiles) es4 w4 → w4.files = twoFiles → w4.path = ['C'] →
      w4.threads = [⟨⟨1, 0, 0, .replicate 8 0⟩, ['C'], .started⟩, ⟨⟨2, 0, 0, .replicate 8 0⟩, ['C'], .opened ([9, 2, 3] ++ sumHash [1, 2, 3])⟩] →
      ∃ es w, Steps sumCore (newWorld twoFiles) es w ∧ w.path = ['C'] ∧ (∃ t ∈ w.threads, t.phase = .ended (.status .ok)) ∧
      ∃ t ∈ w.threads, t.phase = .opened ([9, 2, 3] ++ sumHash [1, 2, 3]) := by
    intro es4 w4 s4 hf hp ht
    obtain ⟨rs, h⟩ := C47_good_file_loads (c := sumCore) (keepAll_computes sumHash) (os := ⟨w4.files, true, true⟩) (path := ['C'])
      (u := ⟨1, 0, 0, .replicate 8 0⟩) (data := [1, 2, 3]) (by rw [hf]; decide +kernel) rfl rfl rfl (fun _ _ => 1) (fun _ m h => ⟨by omega, h⟩)
    obtain ⟨es, _, s5⟩ := C77_loads_do_not_wait (c := sumCore) (i := 0) (w := w4) (t := ⟨⟨1, 0, 0, .replicate 8 0⟩, ['C'], .started⟩)
      (by rw [ht]; rfl) rfl h
    refine ⟨_, _, s4.append s5, hp, ⟨_, by rw [ht]; exact List.mem_cons_self, rfl⟩,
      ⟨_, by rw [ht]; exact List.mem_cons_of_mem _ List.mem_cons_self, rfl⟩⟩
  exact fin _ _ s4 rfl rfl rfl

end ISD
