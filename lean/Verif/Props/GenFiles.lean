import Verif.Model.GenFiles
/-!
# C85: the files of the code generator
-/
namespace ISD
open Gen

/-- What a program that opens a file as text finds in it; nothing if there is no such file or it may not read it. -/
def Spec.textOf (d : Disk) (path : String) : Option Text :=
  (d path).bind fun f => if f.readable then some (decode f.stored) else none

/-- The text of lines. -/
def Spec.textOfLines (lines : List Text) : Text := (lines.map fun l => l ++ ['\n']).flatten

/-- Every file may be read. -/
def Spec.Readable (d : Disk) : Prop := ∀ p f, d p = some f → f.readable = true

/-- No carriage return in any line. -/
def Spec.NoCR (lines : List Text) : Prop := ∀ l ∈ lines, '\r' ∉ l

theorem decode_id : ∀ (l : Text), '\r' ∉ l → decode l = l
  | [], _ => rfl
  | c :: l, h => by
    have hc : c ≠ '\r' := fun e => h (e ▸ List.mem_cons_self)
    have hl := decode_id l (fun e => h (List.mem_cons_of_mem _ e))
    rw [decode, hl]
    · rintro l' rfl; exact absurd rfl hc
    · intro e; exact absurd e hc

theorem decode_encode (windows : Bool) : ∀ (l : Text), '\r' ∉ l → decode (encode windows l) = l := by
  intro l h
  cases windows with
  | false => exact decode_id l h
  | true =>
    induction l with
    | nil => rfl
    | cons c l ih =>
      have hc : c ≠ '\r' := fun e => h (e ▸ List.mem_cons_self)
      have hl := ih (fun e => h (List.mem_cons_of_mem _ e))
      have e : encode true (c :: l) = (if c = '\n' then ['\r', '\n'] else [c]) ++ encode true l := by simp [encode]
      rw [e]
      by_cases hn : c = '\n'
      · subst hn
        rw [if_pos rfl]
        show '\n' :: decode (encode true l) = _
        rw [hl]
      · rw [if_neg hn]
        show decode (c :: encode true l) = _
        rw [decode, hl]
        · rintro l' rfl; exact absurd rfl hc
        · intro e; exact absurd e hc

theorem textOfLines_noCR {lines : List Text} (h : Spec.NoCR lines) : '\r' ∉ Spec.textOfLines lines := by
  intro hm
  obtain ⟨l, hl, hc⟩ := List.mem_flatten.mp hm
  obtain ⟨x, hx, rfl⟩ := List.mem_map.mp hl
  rcases List.mem_append.mp hc with hc | hc
  · exact h x hx hc
  · exact absurd (List.mem_singleton.mp hc) (by decide)

/-- The function with its text named as in the specification. -/
theorem writeLines_eq (w : Bool) (path : String) (lines : List Text) (d : Disk) : writeLines w path lines d =
    match writeLinesHead w path (Spec.textOfLines lines) d with
    | (trace, d', some e) => (trace, d', e)
    | (trace, d', none) => (trace ++ (writeLinesTail w path (Spec.textOfLines lines) d').1, (writeLinesTail w path (Spec.textOfLines lines) d').2, .written) := rfl

/-- What a call does, by what it finds. -/
theorem writeLines_cases (w : Bool) (path : String) (lines : List Text) (d : Disk) :
    ((∃ f, d path = some f ∧ f.readable = false) ∧ writeLines w path lines d = ([d], d, .raised)) ∨
    (Spec.textOf d path = some (Spec.textOfLines lines) ∧ writeLines w path lines d = ([d], d, .skipped)) ∨
    ((∀ f, d path = some f → f.readable = true) ∧ Spec.textOf d path ≠ some (Spec.textOfLines lines) ∧ ∃ head,
      (∀ x ∈ head, x = d ∨ (∃ f, d path = some f ∧ x = d.with path (some { f with readable := w, writable := true })) ∨ x = d.with path none) ∧
      writeLines w path lines d = (head ++
        ((List.range ((encode w (Spec.textOfLines lines)).length + 1)).map (fun n => d.with path (some ⟨(encode w (Spec.textOfLines lines)).take n, true, true⟩)) ++
          [d.with path (some ⟨encode w (Spec.textOfLines lines), true, false⟩)]),
        d.with path (some ⟨encode w (Spec.textOfLines lines), true, false⟩), .written)) := by
  have hww : ∀ (f g : Option File), (d.with path f).with path g = d.with path g := by
    intro f g; funext p; simp only [Disk.with]; split <;> rfl
  cases hf : d path with
  | none =>
    right; right
    refine ⟨fun f h => (by cases h), by simp [Spec.textOf, hf], [d], fun x hx => .inl (List.mem_singleton.mp hx), ?_⟩
    rw [writeLines_eq]; simp only [writeLinesHead, hf, writeLinesTail]
  | some f =>
    cases hr : f.readable with
    | false =>
      left
      refine ⟨⟨f, rfl, hr⟩, ?_⟩
      rw [writeLines_eq]; simp only [writeLinesHead, hf, hr, Bool.not_false, if_true]
    | true =>
      right
      have ht : Spec.textOf d path = some (decode f.stored) := by simp [Spec.textOf, hf, hr]
      by_cases he : Spec.textOfLines lines = decode f.stored
      · left
        refine ⟨by rw [ht, he], ?_⟩
        rw [writeLines_eq]; simp only [writeLinesHead, hf, hr, Bool.not_true, if_false, Bool.false_eq_true]
        simp only [if_pos he]
      · right
        refine ⟨fun g h => by cases h; exact hr, by rw [ht]; intro h; exact he (Option.some.inj h).symm,
          [d, d.with path (some { f with readable := w, writable := true }), d.with path none], ?_, ?_⟩
        · intro x hx
          simp only [List.mem_cons, List.not_mem_nil, or_false] at hx
          rcases hx with rfl | rfl | rfl
          · exact .inl rfl
          · exact .inr (.inl ⟨f, rfl, rfl⟩)
          · exact .inr (.inr rfl)
        · rw [writeLines_eq]; simp only [writeLinesHead, hf, hr, Bool.not_true, if_false, Bool.false_eq_true]
          simp only [if_neg he]
          simp only [writeLinesTail, hww]

theorem disk_other {d : Disk} {path p : String} {f : Option File} (h : p ≠ path) : d.with path f p = d p := if_neg h

theorem disk_self {d : Disk} {path : String} {f : Option File} : d.with path f path = f := if_pos rfl

/-- **C85**, one file: a call never touches another file, at no moment; and unless the file is there and may not be read, it ends with the file holding the text, and it is a file that any
program reads as the lines. -/
theorem C85_file_holds_text (w : Bool) (path : String) (lines : List Text) (hl : Spec.NoCR lines) (d : Disk) :
    (∀ x ∈ (writeLines w path lines d).1, ∀ p, p ≠ path → x p = d p) ∧ (∀ p, p ≠ path → (writeLines w path lines d).2.1 p = d p) ∧
    ((writeLines w path lines d).2.2 = .raised ↔ ∃ f, d path = some f ∧ f.readable = false) ∧
    ((writeLines w path lines d).2.2 ≠ .raised → Spec.textOf (writeLines w path lines d).2.1 path = some (Spec.textOfLines lines)) := by
  rcases writeLines_cases w path lines d with ⟨hx, e⟩ | ⟨hx, e⟩ | ⟨hr, hx, head, hh, e⟩
  · rw [e]
    exact ⟨fun x hx p _ => by rw [List.mem_singleton.mp hx], fun _ _ => rfl, ⟨fun _ => hx, fun _ => rfl⟩, fun h => absurd rfl h⟩
  · rw [e]
    refine ⟨fun x hx p _ => by rw [List.mem_singleton.mp hx], fun _ _ => rfl, ⟨(fun h => nomatch h), ?_⟩, fun _ => hx⟩
    rintro ⟨f, hf, hr⟩
    simp [Spec.textOf, hf, hr] at hx
  · rw [e]
    refine ⟨?_, fun p hp => disk_other hp, ⟨(fun h => nomatch h), ?_⟩, fun _ => ?_⟩
    · intro x hx p hp
      rcases List.mem_append.mp hx with hx | hx
      · rcases hh x hx with rfl | ⟨f, -, rfl⟩ | rfl
        · rfl
        · exact disk_other hp
        · exact disk_other hp
      · rcases List.mem_append.mp hx with hx | hx
        · obtain ⟨n, -, rfl⟩ := List.mem_map.mp hx
          exact disk_other hp
        · rw [List.mem_singleton.mp hx]; exact disk_other hp
    · rintro ⟨f, hf, hr'⟩
      rw [hr f hf] at hr'; cases hr'
    · show Spec.textOf (d.with path (some ⟨_, true, false⟩)) path = _
      rw [Spec.textOf, disk_self]
      show some (decode (encode w _)) = _
      rw [decode_encode w _ (textOfLines_noCR hl)]

/-- **C85**: a file is left alone, down to its rights and at every moment, exactly if it holds the text already; so nothing that depends on it has to be compiled again. -/
theorem C85_unchanged_file_is_left_alone (w : Bool) (path : String) (lines : List Text) (d : Disk) :
    ((writeLines w path lines d).2.2 = .skipped ↔ Spec.textOf d path = some (Spec.textOfLines lines)) ∧
    (Spec.textOf d path = some (Spec.textOfLines lines) → writeLines w path lines d = ([d], d, .skipped)) := by
  rcases writeLines_cases w path lines d with ⟨⟨f, hf, hr⟩, e⟩ | ⟨hx, e⟩ | ⟨hr, hx, head, hh, e⟩
  · have : Spec.textOf d path = none := by simp [Spec.textOf, hf, hr]
    rw [e, this]
    exact ⟨⟨(fun h => nomatch h), fun h => nomatch h⟩, fun h => nomatch h⟩
  · rw [e]; exact ⟨⟨fun _ => hx, fun _ => rfl⟩, fun _ => rfl⟩
  · rw [e]; exact ⟨⟨(fun h => nomatch h), fun h => absurd h hx⟩, fun h => absurd h hx⟩

/-- On Windows every disk a call goes through has only files that may be read, if it began with such a disk. -/
theorem writeLines_readable (path : String) (lines : List Text) {d : Disk} (h : Spec.Readable d) :
    (∀ x ∈ (writeLines true path lines d).1, Spec.Readable x) ∧ Spec.Readable (writeLines true path lines d).2.1 := by
  have hw : ∀ g : Option File, (∀ f, g = some f → f.readable = true) → Spec.Readable (d.with path g) := by
    intro g hg p f hf
    by_cases hp : p = path
    · subst hp; rw [disk_self] at hf; exact hg f hf
    · rw [disk_other hp] at hf; exact h p f hf
  rcases writeLines_cases true path lines d with ⟨⟨f, hf, hr⟩, e⟩ | ⟨hx, e⟩ | ⟨hr, hx, head, hh, e⟩
  · rw [h path f hf] at hr; cases hr
  · rw [e]; exact ⟨fun x hx => by rw [List.mem_singleton.mp hx]; exact h, h⟩
  · rw [e]
    refine ⟨?_, hw _ (fun f hf => by cases hf; rfl)⟩
    intro x hx
    rcases List.mem_append.mp hx with hx | hx
    · rcases hh x hx with rfl | ⟨f, -, rfl⟩ | rfl
      · exact h
      · exact hw _ (fun f hf => by cases hf; rfl)
      · exact hw _ (fun f hf => nomatch hf)
    · rcases List.mem_append.mp hx with hx | hx
      · obtain ⟨n, -, rfl⟩ := List.mem_map.mp hx
        exact hw _ (fun f hf => by cases hf; rfl)
      · rw [List.mem_singleton.mp hx]; exact hw _ (fun f hf => by cases hf; rfl)

theorem textOf_congr {d d' : Disk} {p : String} (h : d p = d' p) : Spec.textOf d p = Spec.textOf d' p := by rw [Spec.textOf, Spec.textOf, h]

/-- One step of a run. -/
theorem generate_cons (w : Bool) (path : String) (lines : List Text) (more : List (String × List Text)) (d : Disk)
    (h : (writeLines w path lines d).2.2 ≠ .raised) :
    generate w ((path, lines) :: more) d = ((writeLines w path lines d).1 ++ (generate w more (writeLines w path lines d).2.1).1,
      (generate w more (writeLines w path lines d).2.1).2) := by
  rw [generate]
  rcases hx : writeLines w path lines d with ⟨tr, d', e⟩
  rw [hx] at h
  cases e with
  | raised => exact absurd rfl h
  | written => rfl
  | skipped => rfl

/-- **C85**, a run: if every file that is there may be read, a run over files of different names writes them all: each holds its text at the end, no other file is ever touched. -/
theorem C85_run_writes_all (w : Bool) : ∀ (files : List (String × List Text)), (files.map Prod.fst).Nodup → (∀ f ∈ files, Spec.NoCR f.2) →
    ∀ d : Disk, Spec.Readable d →
    (generate w files d).2.2 = true ∧ (∀ f ∈ files, Spec.textOf (generate w files d).2.1 f.1 = some (Spec.textOfLines f.2)) ∧
    (∀ p, p ∉ files.map Prod.fst → (generate w files d).2.1 p = d p ∧ ∀ x ∈ (generate w files d).1, x p = d p)
  | [], _, _, d, _ => ⟨rfl, (fun _ h => nomatch h), fun p _ => ⟨rfl, fun x hx => by rw [List.mem_singleton.mp hx]⟩⟩
  | (path, lines) :: more, hn, hc, d, hd => by
    obtain ⟨hn1, hn2⟩ := List.nodup_cons.mp hn
    obtain ⟨h1, h2, h3, h4⟩ := C85_file_holds_text w path lines (hc _ List.mem_cons_self) d
    have hne : (writeLines w path lines d).2.2 ≠ .raised := by
      intro h
      obtain ⟨f, hf, hr⟩ := h3.mp h
      rw [hd path f hf] at hr; cases hr
    have hd' : Spec.Readable (writeLines w path lines d).2.1 := by
      intro p f hf
      by_cases hp : p = path
      · subst hp
        have := h4 hne
        cases hr : f.readable with
        | true => rfl
        | false => simp [Spec.textOf, hf, hr] at this
      · rw [h2 p hp] at hf; exact hd p f hf
    obtain ⟨i1, i2, i3⟩ := C85_run_writes_all w more hn2 (fun f hf => hc f (List.mem_cons_of_mem _ hf)) _ hd'
    rw [generate_cons w path lines more d hne]
    refine ⟨i1, ?_, ?_⟩
    · intro f hf
      rcases List.mem_cons.mp hf with rfl | hf
      · exact (textOf_congr (i3 path hn1).1).trans (h4 hne)
      · exact i2 f hf
    · intro p hp
      have hp1 : p ≠ path := fun e => hp (e ▸ List.mem_cons_self)
      have hp2 : p ∉ more.map Prod.fst := fun e => hp (List.mem_cons_of_mem _ e)
      refine ⟨(i3 p hp2).1.trans (h2 p hp1), fun x hx => ?_⟩
      rcases List.mem_append.mp hx with hx | hx
      · exact h1 x hx p hp1
      · exact ((i3 p hp2).2 x hx).trans (h2 p hp1)

/-- **C85**: a run that finds every file with its text already touches nothing at any moment. -/
theorem C85_second_run_touches_nothing (w : Bool) : ∀ (files : List (String × List Text)) (d : Disk),
    (∀ f ∈ files, Spec.textOf d f.1 = some (Spec.textOfLines f.2)) →
    (generate w files d).2 = (d, true) ∧ ∀ x ∈ (generate w files d).1, x = d
  | [], d, _ => ⟨rfl, fun x hx => List.mem_singleton.mp hx⟩
  | (path, lines) :: more, d, h => by
    have e := (C85_unchanged_file_is_left_alone w path lines d).2 (h _ List.mem_cons_self)
    have i := C85_second_run_touches_nothing w more d (fun f hf => h f (List.mem_cons_of_mem _ hf))
    rw [generate_cons w path lines more d (by rw [e]; exact fun h => nomatch h), e]
    refine ⟨i.1, fun x hx => ?_⟩
    rcases List.mem_append.mp hx with hx | hx
    · exact List.mem_singleton.mp hx
    · exact i.2 x hx

theorem generate_readable : ∀ (files : List (String × List Text)) (d : Disk), Spec.Readable d → ∀ x ∈ (generate true files d).1, Spec.Readable x
  | [], d, hd, x, hx => by rw [List.mem_singleton.mp hx]; exact hd
  | (path, lines) :: more, d, hd, x, hx => by
    have hr := writeLines_readable path lines hd
    have hne : (writeLines true path lines d).2.2 ≠ .raised := by
      intro h
      rcases writeLines_cases true path lines d with ⟨⟨f, hf, hr⟩, e⟩ | ⟨-, e⟩ | ⟨-, -, head, -, e⟩
      · rw [hd path f hf] at hr; cases hr
      · rw [e] at h; cases h
      · rw [e] at h; cases h
    rw [generate_cons true path lines more d hne] at hx
    rcases List.mem_append.mp hx with hx | hx
    · exact hr.1 x hx
    · exact generate_readable more _ hr.2 x hx

/-- **C85**, crashes (Windows, where the project is built): wherever a run is interrupted — between any two calls, or with any part of a text stored — running the generator again, with
the same or with other lines, writes every file. -/
theorem C85_interrupted_run_is_repaired (files files' : List (String × List Text)) (hn : (files'.map Prod.fst).Nodup) (hc : ∀ f ∈ files', Spec.NoCR f.2)
    (d : Disk) (hd : Spec.Readable d) (x : Disk) (hx : x ∈ (generate true files d).1) :
    (generate true files' x).2.2 = true ∧ ∀ f ∈ files', Spec.textOf (generate true files' x).2.1 f.1 = some (Spec.textOfLines f.2) :=
  have h := C85_run_writes_all true files' hn hc x (generate_readable files d hd x hx)
  ⟨h.1, h.2.1⟩

/-- Elsewhere than on Windows this **fails**: a run that is interrupted after it made a file that it replaces writable has taken the right to read it, and every later run raises an
exception at this file until somebody removes it. -/
theorem C85_false_elsewhere (path : String) (lines : List Text) (d : Disk) (f : File) (hf : d path = some f) (hr : f.readable = true)
    (hx : decode f.stored ≠ Spec.textOfLines lines) :
    ∃ x ∈ (writeLines false path lines d).1, ∀ lines', writeLines false path lines' x = ([x], x, .raised) := by
  refine ⟨d.with path (some { f with readable := false, writable := true }), ?_, fun lines' => ?_⟩
  · have e : Spec.textOfLines lines ≠ decode f.stored := hx.symm
    rw [writeLines_eq]; simp only [writeLinesHead, hf, hr, Bool.not_true, if_false, Bool.false_eq_true]
    simp only [if_neg e]
    exact List.mem_append_left _ (List.mem_cons_of_mem _ List.mem_cons_self)
  · rw [writeLines_eq]; simp only [writeLinesHead, disk_self, Bool.not_false, if_true]

/-- The old text is gone before the new one is there: whenever a file is replaced, there is a moment at which an interruption leaves no file. -/
theorem C85_file_is_missing_for_a_moment (w : Bool) (path : String) (lines : List Text) (d : Disk) (f : File) (hf : d path = some f) (hr : f.readable = true)
    (hx : decode f.stored ≠ Spec.textOfLines lines) : ∃ x ∈ (writeLines w path lines d).1, x path = none := by
  refine ⟨(d.with path (some { f with readable := w, writable := true })).with path none, ?_, disk_self⟩
  have e : Spec.textOfLines lines ≠ decode f.stored := hx.symm
  rw [writeLines_eq]; simp only [writeLinesHead, hf, hr, Bool.not_true, if_false, Bool.false_eq_true]
  simp only [if_neg e]
  exact List.mem_append_left _ (List.mem_cons_of_mem _ (List.mem_cons_of_mem _ List.mem_cons_self))

theorem decode_noCR : ∀ l : Text, '\r' ∉ decode l := by
  intro l
  induction l using decode.induct with
  | case1 => simp [decode]
  | case2 l ih => rw [decode]; simp [ih]
  | case3 l h ih => rw [decode]; simp [ih]; exact h
  | case4 c l h1 h2 ih =>
    rw [decode]
    · intro hm
      rcases List.mem_cons.mp hm with e | e
      · exact h2 e.symm
      · exact ih e
    · exact h1
    · exact h2

theorem rstrip_mem {c : Char} {l : Text} (h : c ∈ rstrip l) : c ∈ l := by
  rw [rstrip, List.mem_reverse] at h
  exact List.mem_reverse.mp (List.dropWhile_subset _ h)

/-- Lines have a newline at their end only. -/
theorem readlines_shape : ∀ (t : Text), ∀ l ∈ readlines t, ∃ x, (l = x ∨ l = x ++ ['\n']) ∧ '\n' ∉ x ∧ ∀ c ∈ x, c ∈ t
  | [], l, hl => nomatch hl
  | c :: t, l, hl => by
    have ih := readlines_shape t
    rw [readlines] at hl
    by_cases hc : c = '\n'
    · rw [if_pos hc] at hl
      rcases List.mem_cons.mp hl with rfl | hl
      · exact ⟨[], .inr (by rw [hc]; rfl), by simp, fun c h => nomatch h⟩
      · obtain ⟨x, h1, h2, h3⟩ := ih l hl
        exact ⟨x, h1, h2, fun c h => List.mem_cons_of_mem _ (h3 c h)⟩
    · rw [if_neg hc] at hl
      cases hr : readlines t with
      | nil =>
        rw [hr] at hl
        rw [List.mem_singleton.mp hl]
        exact ⟨[c], .inl rfl, by simpa using Ne.symm hc, fun x h => by rw [List.mem_singleton.mp h]; exact List.mem_cons_self⟩
      | cons y ys =>
        rw [hr] at hl ih
        rcases List.mem_cons.mp hl with rfl | hl
        · obtain ⟨x, h1, h2, h3⟩ := ih y List.mem_cons_self
          refine ⟨c :: x, ?_, ?_, ?_⟩
          · rcases h1 with rfl | rfl
            · exact .inl rfl
            · exact .inr rfl
          · intro h
            rcases List.mem_cons.mp h with h | h
            · exact hc h.symm
            · exact h2 h
          · intro z hz
            rcases List.mem_cons.mp hz with rfl | hz
            · exact List.mem_cons_self
            · exact List.mem_cons_of_mem _ (h3 z hz)
        · obtain ⟨x, h1, h2, h3⟩ := ih l (List.mem_cons_of_mem _ hl)
          exact ⟨x, h1, h2, fun c h => List.mem_cons_of_mem _ (h3 c h)⟩

theorem rstrip_newline {x : Text} : rstrip (x ++ ['\n']) = rstrip x := by
  rw [rstrip, List.reverse_append]
  show (List.dropWhile isSpace ('\n' :: x.reverse)).reverse = _
  rw [List.dropWhile_cons, if_pos (by decide)]; rfl

/-- **C85**: whatever line ends the inlined sources are stored with, the lines taken over from them hold neither newlines nor carriage returns; so they meet what the other theorems ask
for. -/
theorem C85_inlined_lines_are_clean (stored : Text) : Spec.NoCR (inlineFile stored) ∧ ∀ l ∈ inlineFile stored, '\n' ∉ l := by
  have key : ∀ l ∈ inlineFile stored, '\r' ∉ l ∧ '\n' ∉ l := by
    intro l hl
    obtain ⟨y, hy, rfl⟩ := List.mem_map.mp hl
    obtain ⟨x, h1, h2, h3⟩ := readlines_shape _ y hy
    have e : rstrip y = rstrip x := by
      rcases h1 with rfl | rfl
      · rfl
      · exact rstrip_newline
    rw [e]
    exact ⟨fun h => decode_noCR _ (h3 _ (rstrip_mem h)), fun h => h2 (rstrip_mem h)⟩
  exact ⟨fun l hl => (key l hl).1, fun l hl => (key l hl).2⟩

/-- With a carriage return in a line the file is **written again by every run**: what is read back is never equal. -/
theorem C85_false_with_carriage_return (w : Bool) (path : String) (lines : List Text) (h : ¬ Spec.NoCR lines) (d : Disk) :
    (writeLines w path lines d).2.2 ≠ .skipped := by
  intro hs
  have := (C85_unchanged_file_is_left_alone w path lines d).1.mp hs
  rw [Spec.textOf] at this
  obtain ⟨f, -, hf⟩ := Option.bind_eq_some_iff.mp this
  split at hf
  · have hd := Option.some.inj hf
    apply h
    intro l hl hm
    apply decode_noCR f.stored
    rw [hd]
    exact List.mem_flatten.mpr ⟨_, List.mem_map.mpr ⟨l, hl, rfl⟩, List.mem_append_left _ hm⟩
  · cases hf

/-- The files of this project (Generators/*.py, Entities/__init__.py 90-97), in the order of CodeGenerator.py 7-12. -/
def projectFiles : List String :=
  ["../ISD/ISD_EntityWriter.h", "../ISD/ISD_EntityWriter.cpp", "../ISD/ISD_EntityReader.h", "../ISD/ISD_EntityReader.cpp", "../ISD/ISD_DataTypes.h", "../ISD/ISD_DataTypes.cpp",
    "../ISD/ISD_DataValuePointers.h", "../ISD/ISD_CombinedTypes.h", "../ISD/ISD_CombinedTypes.cpp", "../ISD/ISD_DynamicTypes.cpp", "../Tests/DynamicTypesTests.cpp"] ++
  ["Node", "NodeGeometry", "Scene", "SceneLayer", "Mesh", "AttributeLayer", "TestEntity"].flatMap fun n => ["../ISD/ISD_" ++ n ++ ".h", "../ISD/ISD_" ++ n ++ ".cpp"]

/-- **C85** for this project: no file is generated twice, so any run from any disk of readable files, after any interrupted run, leaves every file with its text. -/
theorem C85_project (text text' : String → List Text) (h : ∀ p, Spec.NoCR (text p)) (d : Disk) (hd : Spec.Readable d) (x : Disk)
    (hx : x ∈ (generate true (projectFiles.map fun p => (p, text' p)) d).1) :
    (generate true (projectFiles.map fun p => (p, text p)) x).2.2 = true ∧
    ∀ p ∈ projectFiles, Spec.textOf (generate true (projectFiles.map fun p => (p, text p)) x).2.1 p = some (Spec.textOfLines (text p)) := by
  have hm : (projectFiles.map fun p => (p, text p)).map Prod.fst = projectFiles := by
    rw [List.map_map]; exact List.map_id _
  have := C85_interrupted_run_is_repaired (projectFiles.map fun p => (p, text' p)) (projectFiles.map fun p => (p, text p)) (by rw [hm]; decide +kernel)
    (fun f hf => by obtain ⟨p, -, rfl⟩ := List.mem_map.mp hf; exact h p) d hd x hx
  exact ⟨this.1, fun p hp => this.2 (p, text p) (List.mem_map.mpr ⟨p, hp, rfl⟩)⟩

/-- A disk with one generated file, stored with CR LF and read only. -/
def demoDisk : Disk := fun p => if p = "a.h" then some ⟨"old\r\n".toList, true, false⟩ else none

/-- Non-vacuous: the file is kept for its own text; another text goes through a disk without the file, one with half the text, and one with all of it. -/
theorem C85_demo : (writeLines true "a.h" ["old".toList] demoDisk).2.2 = .skipped ∧ (writeLines true "a.h" ["new".toList] demoDisk).2.2 = .written ∧
    ((writeLines true "a.h" ["new".toList] demoDisk).1.map fun x => x "a.h") =
      [some ⟨"old\r\n".toList, true, false⟩, some ⟨"old\r\n".toList, true, true⟩, none, some ⟨[], true, true⟩, some ⟨"n".toList, true, true⟩, some ⟨"ne".toList, true, true⟩,
        some ⟨"new".toList, true, true⟩, some ⟨"new\r".toList, true, true⟩, some ⟨"new\r\n".toList, true, true⟩, some ⟨"new\r\n".toList, true, false⟩] ∧
    Spec.Readable demoDisk := by
  refine ⟨by decide +kernel, by decide +kernel, by decide +kernel, ?_⟩
  intro p f hf
  simp only [demoDisk] at hf
  split at hf <;> cases hf
  rfl

end ISD
