import Verif.Model.Loader
import Verif.Props.Sha
import Verif.Props.Types

/-!
# C47, C55: the loader
-/

namespace ISD
namespace Loader

theorem toRead_le (total n : Nat) : toRead total n ≤ total - n := by
  unfold toRead
  split
  · exact Nat.mod_le _ _
  · omega

theorem toRead_pos {total n : Nat} (h : n < total) : 0 < toRead total n := by
  unfold toRead
  split
  · rw [Nat.mod_eq_of_lt (by omega)]; omega
  · omega

/-- The loop: what has been read is the start of the file. -/
theorem readLoop_result {file : Bytes} {total : Nat} (ht : file.length = total) {b pos : Nat} {buffer : Bytes}
    {rs : List ReadRes} {r : LoopRes} (h : ReadLoop file total b pos buffer rs r) : b = pos → b ≤ file.length →
      buffer.length = file.length → buffer.take b = file.take b →
      (r = .full file ∧ ∀ x ∈ rs, x ≠ .failed) ∨ (r = .cantRead ∧ ReadRes.failed ∈ rs) := by
    induction h with
    | done h =>
      intro e1 e2 e3 e4
      left
      refine ⟨?_, fun _ h => (nomatch h)⟩
      rw [List.take_of_length_le (by omega), List.take_of_length_le (by omega)] at e4
      rw [e4]
    | @outside b pos buffer h hb =>
      intro e1 e2 e3 e4
      have := toRead_le total b
      omega
    | failed h hb => exact fun _ _ _ _ => .inr ⟨rfl, by simp⟩
    | @got b pos buffer n rs r h hb hn hf next ih =>
      intro e1 e2 e3 e4
      subst e1
      have h1 := toRead_le total b
      have hbuf : (buffer.take b ++ (file.drop b).take n ++ buffer.drop (b + n)).length = file.length := by
        simp only [List.length_append, List.length_take, List.length_drop]; omega
      have htake : (buffer.take b ++ (file.drop b).take n ++ buffer.drop (b + n)).take (b + n) = file.take (b + n) := by
        rw [List.take_append_of_le_length (by simp only [List.length_append, List.length_take, List.length_drop]; omega),
          List.take_of_length_le (by simp only [List.length_append, List.length_take, List.length_drop]; omega), e4,
          List.take_add]
      rcases ih rfl (by omega) hbuf htake with ⟨h2, h3⟩ | ⟨h2, h3⟩
      · exact .inl ⟨h2, fun x hx => (List.mem_cons.1 hx).elim (fun e => by rw [e]; simp) (h3 x)⟩
      · exact .inr ⟨h2, List.mem_cons_of_mem _ h3⟩

/-- The loop ends, whatever positive numbers of bytes the calls give. -/
theorem readLoop_ends {file : Bytes} (next : Nat → Nat → Nat) (hnext : ∀ i m, 0 < m → 0 < next i m ∧ next i m ≤ m) :
    ∀ (k b _i : Nat) (buffer : Bytes), file.length - b ≤ k → b ≤ file.length → buffer.length = file.length →
      ∃ rs r, ReadLoop file file.length b b buffer rs r ∧ ∀ x ∈ rs, x ≠ .failed := by
  intro k
  induction k with
  | zero =>
    intro b i buffer h1 h2 h3
    exact ⟨[], _, .done (by omega), fun _ h => (nomatch h)⟩
  | succ k ih =>
    intro b i buffer h1 h2 h3
    by_cases hlt : b < file.length
    · have hle := toRead_le file.length b
      obtain ⟨n1, n2⟩ := hnext i _ (toRead_pos hlt)
      obtain ⟨rs, r, h4, h5⟩ := ih (b + next i (toRead file.length b)) (i + 1)
        (buffer.take b ++ (file.drop b).take (next i (toRead file.length b)) ++
          buffer.drop (b + next i (toRead file.length b))) (by omega) (by omega)
        (by simp only [List.length_append, List.length_take, List.length_drop]; omega)
      exact ⟨_, r, .got hlt (by omega) n2 (by omega) h4,
        fun x hx => (List.mem_cons.1 hx).elim (fun e => by rw [e]; simp) (h5 x)⟩
    · exact ⟨[], _, .done hlt, fun _ h => (nomatch h)⟩

end Loader

open Loader

variable {c : HashCore} {H : Bytes → Bytes}

/-- **C47.** For an existing file of which the size and the memory can be had, every run that ends gives: `ECorrupted` if
the file has less than 32 bytes; `ECantRead` if a read failed; and otherwise, however the reads were split, `Ok` if the
last 32 bytes are the hash of the rest and `ECorrupted` if not. -/
theorem C47_loads (hc : Sha.Computes c H) {os : OS} {path : List Char} {u : UUID} {f : Bytes} {rs : List ReadRes}
    {o : Outcome} {leaks : Bool} (hf : os.file (filePath path u) = some f) (hs : os.sizeOk = true)
    (ha : os.allocOk = true) (h : Loads c os path u rs o leaks) :
    (f.length < 32 → o = .status .eCorrupted) ∧
    (32 ≤ f.length → ReadRes.failed ∈ rs → o = .status .eCantRead) ∧
    (32 ≤ f.length → ReadRes.failed ∉ rs → ∀ data tail, f = data ++ tail → tail.length = 32 →
      o = .status (if H data = tail then .ok else .eCorrupted)) := by
  cases h with
  | noFile h => rw [hf] at h; cases h
  | noSize h h2 => rw [hs] at h2; cases h2
  | noMemory h h2 h3 h4 => rw [ha] at h4; cases h4
  | tooSmall h h2 h3 =>
    rw [hf] at h; cases h
    exact ⟨fun _ => rfl, fun h => by omega, fun h => by omega⟩
  | @reads f' rs r h h2 h3 h4 hr =>
    rw [hf] at h; cases h
    have := readLoop_result rfl hr rfl (Nat.zero_le _) (by simp) (by simp)
    refine ⟨fun h => absurd h h3, fun _ hx => ?_, fun _ hx data tail e1 e2 => ?_⟩
    · rcases this with ⟨_, h6⟩ | ⟨h5, _⟩
      · exact absurd rfl (h6 _ hx)
      · rw [h5]; rfl
    · rcases this with ⟨h5, _⟩ | ⟨_, h6⟩
      · rw [h5]
        unfold finish
        dsimp only
        have e3 : f.length - 32 = data.length := by rw [e1, List.length_append]; omega
        have e4 := Sha.update_pieces c data
        have e5 := C46_split_independent hc (some data) []
        rw [List.foldl_nil, List.flatten_nil, List.append_nil, Option.getD_some] at e5
        rw [e3, e1, List.take_left, List.drop_left, List.take_of_length_le (by omega), e5]
        by_cases he : H data = tail
        · rw [if_neg (fun h => h he), if_pos he]
        · rw [if_pos he, if_neg he]
      · exact absurd h6 hx

/-- The two ways to fail before anything is read. -/
theorem C47_cant_open {os : OS} {path : List Char} {u : UUID} {rs : List ReadRes}
    {o : Outcome} {leaks : Bool} (hf : os.file (filePath path u) = none ∨ os.sizeOk = false)
    (h : Loads c os path u rs o leaks) : o = .status .eCantOpen := by
  rcases hf with hf | hf
  · cases h with
    | noFile _ => rfl
    | noSize _ _ => rfl
    | tooSmall h _ _ => rw [hf] at h; cases h
    | noMemory h _ _ _ => rw [hf] at h; cases h
    | reads h _ _ _ _ => rw [hf] at h; cases h
  · cases h with
    | noFile _ => rfl
    | noSize _ _ => rfl
    | tooSmall _ h _ => rw [hf] at h; cases h
    | noMemory _ h _ _ => rw [hf] at h; cases h
    | reads _ h _ _ _ => rw [hf] at h; cases h

/-- `Ok` exactly means: the file was there, could be read, and its last 32 bytes are the hash of the rest.  No run writes
outside the buffer. -/
theorem C47_ok_iff (hc : Sha.Computes c H) {os : OS} {path : List Char} {u : UUID} {rs : List ReadRes}
    {o : Outcome} {leaks : Bool} (h : Loads c os path u rs o leaks) :
    o ≠ .ub ∧ (o = .status .ok ↔ os.sizeOk = true ∧ os.allocOk = true ∧ ReadRes.failed ∉ rs ∧
      ∃ data, os.file (filePath path u) = some (data ++ H data) ∧ (H data).length = 32) := by
  cases hf : os.file (filePath path u) with
  | none =>
    have := C47_cant_open (.inl hf) h
    subst this
    exact ⟨fun h => (nomatch h), fun h => (nomatch h), fun ⟨_, _, _, _, h, _⟩ => (nomatch h)⟩
  | some f =>
    cases hs : os.sizeOk with
    | false =>
      have := C47_cant_open (.inr hs) h
      subst this
      exact ⟨fun h => (nomatch h), fun h => (nomatch h), fun ⟨h, _⟩ => (nomatch h)⟩
    | true =>
      cases ha : os.allocOk with
      | false =>
        cases h with
        | noFile h => rw [hf] at h; cases h
        | noSize h h2 => rw [hs] at h2; cases h2
        | noMemory h h2 h3 h4 => exact ⟨fun h => (nomatch h), fun h => (nomatch h), fun ⟨_, h, _⟩ => (nomatch h)⟩
        | tooSmall h h2 h3 => exact ⟨fun h => (nomatch h), fun h => (nomatch h), fun ⟨_, h, _⟩ => (nomatch h)⟩
        | reads h h2 h3 h4 hr => rw [ha] at h4; cases h4
      | true =>
        obtain ⟨k1, k2, k3⟩ := C47_loads hc hf hs ha h
        by_cases hl : f.length < 32
        · have := k1 hl
          subst this
          refine ⟨fun h => (nomatch h), fun h => (nomatch h), ?_⟩
          rintro ⟨_, _, _, d, hd, h32⟩
          injection hd with hd
          rw [hd, List.length_append] at hl
          omega
        · by_cases hx : ReadRes.failed ∈ rs
          · have := k2 (by omega) hx
            subst this
            exact ⟨fun h => (nomatch h), fun h => (nomatch h), fun ⟨_, _, h, _⟩ => absurd hx h⟩
          · have k := k3 (by omega) hx (f.take (f.length - 32)) (f.drop (f.length - 32)) (List.take_append_drop _ _).symm
              (by rw [List.length_drop]; omega)
            subst k
            refine ⟨fun h => (nomatch h), ?_, ?_⟩
            · intro e
              have e2 : H (f.take (f.length - 32)) = f.drop (f.length - 32) := by
                by_cases e2 : H (f.take (f.length - 32)) = f.drop (f.length - 32)
                · exact e2
                · rw [if_neg e2] at e; cases e
              refine ⟨rfl, rfl, hx, f.take (f.length - 32), ?_, ?_⟩
              · rw [e2, List.take_append_drop]
              · rw [e2, List.length_drop]; omega
            · rintro ⟨_, _, _, d, hd, h32⟩
              injection hd with hd
              have e3 : f.length - 32 = d.length := by rw [hd, List.length_append]; omega
              rw [e3, hd, List.take_left, List.drop_left, if_pos rfl]

/-- A run always ends if no read gives 0 bytes, and then it is an `Ok` run for a good file. -/
theorem C47_good_file_loads (hc : Sha.Computes c H) {os : OS} {path : List Char} {u : UUID} {data : Bytes}
    (hf : os.file (filePath path u) = some (data ++ H data)) (h32 : (H data).length = 32) (hs : os.sizeOk = true)
    (ha : os.allocOk = true) (next : Nat → Nat → Nat) (hnext : ∀ i m, 0 < m → 0 < next i m ∧ next i m ≤ m) :
    ∃ rs, Loads c os path u rs (.status .ok) false := by
  obtain ⟨rs, r, h1, h2⟩ := readLoop_ends (file := data ++ H data) next hnext _ 0 0
    (List.replicate (data ++ H data).length 0) (Nat.le_refl _) (Nat.zero_le _) (by simp)
  have hl : ¬ (data ++ H data).length < 32 := by rw [List.length_append]; omega
  have run := Loads.reads (c := c) hf hs hl ha h1
  have hx : ReadRes.failed ∉ rs := fun hx => h2 _ hx rfl
  have := (C47_loads hc hf hs ha run).2.2 (by omega) hx data (H data) rfl h32
  rw [if_pos rfl] at this
  rcases readLoop_result rfl h1 rfl (Nat.zero_le _) (by simp) (by simp) with ⟨h3, _⟩ | ⟨_, h3⟩
  · subst h3
    rw [this] at run
    exact ⟨rs, run⟩
  · exact absurd h3 hx

/-- Different entities are loaded from different files. -/
theorem C47_file_names {path : List Char} {u v : UUID} (h : filePath path u = filePath path v) : u = v := by
  unfold filePath at h
  have h1 := List.append_cancel_left h
  exact C09_uuid_hash_injective.1 _ _ (List.append_cancel_right h1)

/-- Finding: every outcome after the file has been opened other than a completed read leaves the handle open. -/
theorem C47_handle_leaks {os : OS} {path : List Char} {u : UUID} {f : Bytes} {rs : List ReadRes} {o : Outcome}
    {leaks : Bool} (hf : os.file (filePath path u) = some f) (h : Loads c os path u rs o leaks) :
    leaks = true ↔ os.sizeOk = false ∨ f.length < 32 ∨ os.allocOk = false ∨ ReadRes.failed ∈ rs := by
  cases h with
  | noFile h => rw [hf] at h; cases h
  | noSize h h2 => exact ⟨fun _ => .inl h2, fun _ => rfl⟩
  | noMemory h h2 h3 h4 => exact ⟨fun _ => .inr (.inr (.inl h4)), fun _ => rfl⟩
  | tooSmall h h2 h3 => rw [hf] at h; cases h; exact ⟨fun _ => .inr (.inl h3), fun _ => rfl⟩
  | @reads f' rs r h h2 h3 h4 hr =>
    rw [hf] at h; cases h
    rcases readLoop_result rfl hr rfl (Nat.zero_le _) (by simp) (by simp) with ⟨h5, h6⟩ | ⟨h5, h6⟩
    · subst h5
      refine ⟨fun h => (nomatch h), ?_⟩
      rintro (h | h | h | h)
      · rw [h2] at h; cases h
      · exact absurd h h3
      · rw [h4] at h; cases h
      · exact absurd rfl (h6 _ h)
    · subst h5
      exact ⟨fun _ => .inr (.inr (.inr h6)), fun _ => rfl⟩

/-- Finding: calls that keep giving 0 bytes keep the loop going: no run sees only such calls. -/
theorem C47_zero_reads_never_end {file : Bytes} {rs : List ReadRes} {r : LoopRes} {buffer : Bytes}
    (h0 : 0 < file.length) (hl : buffer.length = file.length) (h : ReadLoop file file.length 0 0 buffer rs r) :
    ∃ x ∈ rs, x ≠ .got 0 := by
  have key : ∀ {b p : Nat} {buffer : Bytes} {rs : List ReadRes} {r : LoopRes},
      ReadLoop file file.length b p buffer rs r → b = 0 → buffer.length = file.length → ∃ x ∈ rs, x ≠ .got 0 := by
    intro b p buffer rs r h
    induction h with
    | done h => intro e1 e2; omega
    | @outside b p bf h h2 => intro e1 e2; have := toRead_le file.length b; omega
    | failed => exact fun _ _ => ⟨_, List.mem_singleton.2 rfl, fun h => (nomatch h)⟩
    | @got b p bf n rs r h h2 h3 h4 next ih =>
      intro e1 e2
      by_cases hn : n = 0
      · obtain ⟨x, h5, h6⟩ := ih (by omega)
          (by simp only [List.length_append, List.length_take, List.length_drop]; omega)
        exact ⟨x, List.mem_cons_of_mem _ h5, h6⟩
      · exact ⟨_, List.mem_cons_self, fun h => by cases h; exact hn rfl⟩
  exact key h rfl hl

/-! ## C55: initialising the loader -/

/-- The loader after a sequence of `Initialize` calls, and what they returned. -/
def initCalls (fullPath : List Char → List Char) (attributes : List Char → Nat) :
    List Char → List (List Char) → List Char × List Status
  | path, [] => (path, [])
  | path, a :: as =>
    let r := initLoader fullPath attributes path a
    let t := initCalls fullPath attributes r.1 as
    (t.1, r.2 :: t.2)

/-- **C55.** A call returns `Ok` exactly when the loader has no path yet and the argument names a directory (one with no
other attribute); it then stores the full path.  Any other call changes nothing, and gives `EAlreadyInitialized` if there
is a path and `EParam` otherwise. -/
theorem C55_initialize (fullPath : List Char → List Char) (attributes : List Char → Nat) (path arg : List Char) :
    ((initLoader fullPath attributes path arg).2 = .ok ↔ path = [] ∧ attributes (fullPath arg) = 0x10) ∧
    ((initLoader fullPath attributes path arg).2 = .ok → (initLoader fullPath attributes path arg).1 = fullPath arg) ∧
    ((initLoader fullPath attributes path arg).2 ≠ .ok → (initLoader fullPath attributes path arg).1 = path) ∧
    (path ≠ [] → (initLoader fullPath attributes path arg).2 = .eAlreadyInitialized) ∧
    (path = [] → attributes (fullPath arg) ≠ 0x10 → (initLoader fullPath attributes path arg).2 = .eParam) := by
  unfold initLoader fileAttributeDirectory
  by_cases h1 : path = []
  · by_cases h2 : attributes (fullPath arg) = 0x10 <;> simp [h1, h2]
  · simp [h1]

/-- Over any sequence of calls at most one returns `Ok`, provided the system says that the empty name is no directory. -/
theorem C55_at_most_once (fullPath : List Char → List Char) (attributes : List Char → Nat)
    (hempty : attributes [] ≠ 0x10) (path : List Char) (args : List (List Char)) :
    ((initCalls fullPath attributes path args).2.filter (· = .ok)).length ≤ 1 ∧
      (path ≠ [] → (initCalls fullPath attributes path args) = (path, args.map fun _ => .eAlreadyInitialized)) := by
  induction args generalizing path with
  | nil => exact ⟨Nat.zero_le _, fun _ => rfl⟩
  | cons a as ih =>
    obtain ⟨k1, k2, k3, k4, _⟩ := C55_initialize fullPath attributes path a
    by_cases h : (initLoader fullPath attributes path a).2 = .ok
    · obtain ⟨e1, e2⟩ := k1.1 h
      have hne : (initLoader fullPath attributes path a).1 ≠ [] := by
        rw [k2 h]; intro e3; rw [e3] at e2; exact hempty e2
      have := (ih _).2 hne
      refine ⟨?_, fun h => absurd e1 h⟩
      show (((initLoader fullPath attributes path a).2 ::
        (initCalls fullPath attributes (initLoader fullPath attributes path a).1 as).2).filter (· = .ok)).length ≤ 1
      rw [this, h]
      simp
    · refine ⟨?_, fun hp => ?_⟩
      · show (((initLoader fullPath attributes path a).2 ::
          (initCalls fullPath attributes (initLoader fullPath attributes path a).1 as).2).filter (· = .ok)).length ≤ 1
        rw [List.filter_cons_of_neg (by simpa using h)]
        exact (ih _).1
      · show ((initCalls fullPath attributes (initLoader fullPath attributes path a).1 as).1,
          (initLoader fullPath attributes path a).2 ::
            (initCalls fullPath attributes (initLoader fullPath attributes path a).1 as).2) = _
        rw [k3 h, (ih path).2 hp, k4 hp]
        rfl

/-! ## Cases -/

/-- A hash that is 32 times the sum of the bytes. -/
def sumHash (d : Bytes) : Bytes := List.replicate 32 d.sum

/-- The core that keeps all the data, with that hash. -/
def sumCore : HashCore := ⟨Bytes, [], fun m d => m ++ d, sumHash⟩

/-- A file of 3 bytes and their hash is accepted when the system gives one byte at a time. -/
example : ∃ rs, Loads sumCore ⟨fun _ => some ([1, 2, 3] ++ sumHash [1, 2, 3]), true, true⟩ [] ⟨0, 0, 0, .replicate 8 0⟩ rs
    (.status .ok) false :=
  C47_good_file_loads (keepAll_computes sumHash) rfl rfl rfl rfl (fun _ _ => 1) (fun _ m h => ⟨by omega, h⟩)

/-- Two calls: the first names a directory, the second comes too late. -/
example : initCalls (fun a => 'C' :: ':' :: a) (fun a => if a = [] then 0 else 0x10) [] [['x'], ['y']] =
    (['C', ':', 'x'], [.ok, .eAlreadyInitialized]) := by decide

end ISD
