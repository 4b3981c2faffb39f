import Verif.Proofs.DebugRead
import Verif.Spec.Programs
import Verif.Spec.Managed
import Verif.Proofs.Classes

/-! # Programs and classes in the debug build -/

namespace ISD
open RStream

attribute [local irreducible] dynTable DynClass.all findTypeClass

set_option linter.unusedVariables false

/-! ## Writing -/

theorem WriterOp.debug {α : Type} : ∀ (op : WriterOp α), op.Ok → op.run .debug = op.run .release
  | .write t c key v, h => by
    show onStream _ = onStream _
    rw [typed_debug h.1, if_pos h.2]
  | .beginSection fresh key, h => beginSection_debug fresh key h
  | .endSection ptr, _ => rfl
  | .nullSection fresh key, h => nullSection_debug fresh key h
  | .beginArray fresh key n index, h => beginArray_debug fresh key h n index
  | .beginElement _ _, _ => rfl
  | .endElement _ _, _ => rfl
  | .endArray _, _ => rfl

theorem WriterProgram.debug {α : Type} : ∀ (q : WriterProgram α), q.Ok → q.run .debug = q.run .release
  | .done a, _ => rfl
  | .call op next, h => by
    rw [WriterProgram.run, WriterProgram.run, op.debug h.1]
    exact congrArg _ (funext fun r => (next r).debug (h.2 r))
  | .inner body next, h => by
    rw [WriterProgram.run, WriterProgram.run, body.debug h.1]
    exact congrArg _ (funext fun r => (next r).debug (h.2 r))
  | .own step next, h => by
    rw [WriterProgram.run, WriterProgram.run]
    exact congrArg _ (funext fun r => (next r).debug (h r))

/-- One program after another. -/
def WriterProgram.andThen {α β : Type} : WriterProgram α → (α → WriterProgram β) → WriterProgram β
  | .done a, f => f a
  | .call op next, f => .call op fun r => (next r).andThen f
  | .inner body next, f => .inner body fun r => (next r).andThen f
  | .own step next, f => .own step fun r => (next r).andThen f

theorem prog_assoc {σ α β γ : Type} (x : Prog σ α) (f : α → Prog σ β) (g : β → Prog σ γ) : (x >>= f) >>= g = x >>= fun a => f a >>= g := by
  funext s
  simp only [Prog.bind_apply]
  cases x s <;> rfl

theorem WriterProgram.run_andThen (b : Build) {α β : Type} : ∀ (q : WriterProgram α) (f : α → WriterProgram β),
    (q.andThen f).run b = q.run b >>= fun a => (f a).run b
  | .done a, f => rfl
  | .call op next, f => by
    rw [WriterProgram.run, prog_assoc]
    exact congrArg _ (funext fun r => (next r).run_andThen b f)
  | .inner body next, f => by
    rw [WriterProgram.run, prog_assoc]
    exact congrArg _ (funext fun r => (next r).run_andThen b f)
  | .own step next, f => by
    rw [WriterProgram.run, prog_assoc]
    exact congrArg _ (funext fun r => (next r).run_andThen b f)

theorem WriterProgram.ok_andThen {α β : Type} : ∀ (q : WriterProgram α) (f : α → WriterProgram β), q.Ok → (∀ a, (f a).Ok) → (q.andThen f).Ok
  | .done a, f, _, h => h a
  | .call op next, f, hq, h => ⟨hq.1, fun r => (next r).ok_andThen f (hq.2 r) h⟩
  | .inner body next, f, hq, h => ⟨hq.1, fun r => (next r).ok_andThen f (hq.2 r) h⟩
  | .own step next, f, hq, h => fun r => (next r).ok_andThen f (hq r) h

/-- The routine is a program of calls in order. -/
def Writes {α : Type} (p : Prog WSt α) : Prop := ∃ q : WriterProgram α, q.Ok ∧ q.run .release = p

section writes
variable {α β : Type}

theorem prog_right {σ α : Type} (x : Prog σ α) : (x >>= fun a => (pure a : Prog σ α)) = x := by
  funext s
  rw [Prog.bind_apply]
  cases x s <;> rfl

theorem Writes.pure (a : α) : Writes (pure a) := ⟨.done a, trivial, rfl⟩

theorem Writes.bind {x : Prog WSt α} {f : α → Prog WSt β} (hx : Writes x) (hf : ∀ a, Writes (f a)) : Writes (x >>= f) := by
  obtain ⟨q, hq, rfl⟩ := hx
  refine ⟨q.andThen fun a => (hf a).choose, q.ok_andThen _ hq fun a => (hf a).choose_spec.1, ?_⟩
  rw [WriterProgram.run_andThen]
  exact congrArg _ (funext fun a => (hf a).choose_spec.2)

theorem Writes.ite {c : Prop} [Decidable c] {x y : Prog WSt α} (h1 : c → Writes x) (h2 : ¬ c → Writes y) : Writes (if c then x else y) := by
  by_cases h : c
  · rw [if_pos h]; exact h1 h
  · rw [if_neg h]; exact h2 h

theorem Writes.op (op : WriterOp α) (h : op.Ok) : Writes (op.run .release) :=
  ⟨.call op .done, ⟨h, fun _ => trivial⟩, prog_right _⟩

theorem Writes.inSub {x : Prog WSt α} (hx : Writes x) : Writes (inSubsection x) := by
  obtain ⟨q, hq, rfl⟩ := hx
  exact ⟨.inner q .done, ⟨hq, fun _ => trivial⟩, prog_right _⟩

theorem Writes.ub : Writes (Prog.ub : Prog WSt α) := ⟨.own (β := α) Prog.ub .done, fun _ => trivial, rfl⟩

theorem Writes.write {t : DataType} (ht : t ∈ allTypes) (c : Container) (key : Bytes) (hk : key.length ≤ 40) (v : c.Val t.Val) :
    Writes (EWriter.write t c key v) := Writes.op (.write t c key v) ⟨ht, hk⟩

end writes

theorem tableLoop_writes {K V : Type} {M : Managed V} (hM : ∀ fresh v, Writes (M.write fresh v)) (fresh : Bytes → Nat) (p : Nat) :
    ∀ (i : Nat) (t : Table K V), Writes (tableWriteLoop M fresh p i t)
  | _, [] => .pure _
  | i, (_, v) :: rest => by
    rw [tableWriteLoop]
    refine .bind (Writes.op (.beginElement (some p) i) trivial) fun _ => .ite (fun _ => .pure _) fun _ => ?_
    have h : Writes (endWriteSectionInArray (some p) i >>= fun b => if (!b) = true then (pure false : Prog WSt Bool) else tableWriteLoop M fresh p (i + 1) rest) :=
      .bind (Writes.op (.endElement (some p) i) trivial) fun _ => .ite (fun _ => .pure _) fun _ => tableLoop_writes hM fresh p (i + 1) rest
    cases v with
    | none => exact h
    | some v => exact .bind (.inSub (hM _ _)) fun _ => .ite (fun _ => .pure _) fun _ => h

/-- The objects behind a Varying are of the data types of the library. -/
theorem made_mem {dt ct : Word 4} {cl : DynClass} (e : findTypeClass dt ct = some cl) {o : DynObj} (h : o.madeBy cl = true) : o.t ∈ allTypes := by
  rw [(of_decide_eq_true h).1]
  exact typeId_mem (find_ids e).1

mutual
  /-- Every class writes itself with calls in order. -/
  theorem IsClass.writes : ∀ {V : Type} {M : Managed V} {S : ClassSpec V}, IsClass M S → ∀ fresh v, Writes (M.write fresh v)
    | _, _, _, @IsClass.graph _ _ st h a r s => fun fresh g =>
      .bind (.write h.mem .vector _ (by decide) _) fun _ => .ite (fun _ => .pure _) fun _ =>
        .bind (.write h.mem .vector _ (by decide) _) fun _ => .ite (fun _ => .pure _) fun _ => .pure _
    | _, _, _, .idx t h => fun fresh v => .bind (.write h .idxVector _ (by decide) _) fun _ => .ite (fun _ => .pure _) fun _ => .pure _
    | _, _, _, .varying => fun fresh v => by
      show Writes (Varying.write v)
      rw [Varying.write]
      refine .ite (fun _ => .pure _) fun _ => .bind (.write u16_mem .none _ (by decide) _) fun _ => .ite (fun _ => .pure _) fun _ => ?_
      refine .bind (.write u16_mem .none _ (by decide) _) fun _ => .ite (fun _ => .pure _) fun _ => ?_
      rw [Varying.dynamic]
      cases v.data with
      | none => exact .pure _
      | some o =>
        dsimp only
        cases e : findTypeClass v.ty v.ct with
        | none => exact .pure _
        | some cl => exact .ite (fun hm => .write (made_mem e hm) _ _ (by decide) _) fun _ => .ub
    | _, _, _, @IsClass.table _ _ _ st h M S hM zk ne ord => fun fresh t => by
      refine .bind (.write h.mem .vector _ (by decide) _) fun _ => .ite (fun _ => .pure _) fun _ => ?_
      refine .bind (Writes.op (.beginArray (fresh (key "Entities")) (key "Entities") t.length none) (by decide : (key "Entities").length ≤ 40)) fun r => ?_
      cases r with
      | none => exact .pure _
      | some p =>
        exact .bind (tableLoop_writes hM.writes _ _ _ _) fun _ => .ite (fun _ => .pure _) fun _ => .bind (Writes.op (.endArray (some p)) trivial) fun _ =>
          .ite (fun _ => .pure _) fun _ => .pure _
    | _, _, _, .entity ss h hne => fun fresh v => h.writes fresh v
  theorem AreFields.writes : ∀ {fs : List Field} {ss : FieldSpecs fs}, AreFields ss → ∀ fresh v, Writes (fieldsWrite fresh fs v)
    | _, _, .nil => fun fresh v => .pure _
    | _, _, .base hk ht h => fun fresh v => .bind (.write ht _ _ hk _) fun _ => .ite (fun _ => .pure _) fun _ => h.writes fresh _
    | _, _, @AreFields.sub k _ _ _ _ _ hk hM h => fun fresh v => by
      refine .bind (Writes.op (.beginSection (fresh k) k) hk) fun r => ?_
      cases r with
      | none => exact .pure _
      | some p =>
        exact .bind (.inSub (hM.writes _ _)) fun _ => .ite (fun _ => .pure _) fun _ => .bind (Writes.op (.endSection (some p)) trivial) fun _ => h.writes fresh _
end


/-! ## Reading -/

theorem ownStep_mono {α : Type} (p : Prog Unit α) : Mono Prod.snd (ownStep p : Prog RSt α) := by
  intro s hs
  rw [ownStep]
  cases p () with
  | ok a u => exact hs.onward
  | throw u => exact hs.onward
  | ub => trivial

theorem beginReadSection_mono (env : REnv) (fresh : Nat) (key : Bytes) (hk : key.length ≤ 40) (na : Bool) :
    Mono Prod.snd (beginReadSection env fresh key na) :=
  (beginSection_indep (B := False) (env0 := env) (env1 := env) fresh key (by omega) na False.elim).m0

theorem beginReadArray_mono (env : REnv) (fresh : Nat) (key : Bytes) (hk : key.length ≤ 40) (na wi : Bool) :
    Mono Prod.snd (beginReadSectionsArray env fresh key na wi) :=
  (beginArray_indep (B := False) (env0 := env) (env1 := env) rfl fresh key (by omega) na wi False.elim).m0

theorem ReaderOp.mono (env : REnv) {α : Type} : ∀ (op : ReaderOp α), op.Ok → Mono Prod.snd (op.run .release env)
  | .read t c key dest, h => .onR (typed_mono env t c key h.2 dest)
  | .beginSection fresh key na, h => beginReadSection_mono env fresh key h na
  | .endSection ptr, _ => endSection_mono ptr
  | .beginArray fresh key na wi, h => beginReadArray_mono env fresh key h na wi
  | .beginElement ptr i w, _ => beginInArray_mono ptr i w
  | .endElement ptr i, _ => endInArray_mono ptr i
  | .endArray ptr, _ => endArray_mono ptr

theorem ReaderProgram.mono (env : REnv) {α : Type} : ∀ (q : ReaderProgram α), q.Ok → Mono Prod.snd (q.run .release env)
  | .done a, _ => .pure a
  | .call op next, h => .bind (op.mono env h.1) fun r => (next r).mono env (h.2 r)
  | .inner body next, h => .bind (.inSub (body.mono env h.1)) fun r => (next r).mono env (h.2 r)
  | .own step next, h => .bind (ownStep_mono step) fun r => (next r).mono env (h r)

/-- What a successful call looks like. -/
def ReaderOp.Accepted {α : Type} : ReaderOp α → α → RSt → Prop
  | .read _ _ _ _ => fun r _ => r ≠ none
  | .beginArray _ _ _ _ => ArrayInside
  | _ => fun _ _ => True

theorem ReaderOp.tracks (env : REnv) {α : Type} : ∀ (op : ReaderOp α), op.Ok →
    Tracks Prod.snd (¬ op.Plain) op.Accepted (op.run .debug env) (op.run .release env)
  | .read t c key dest, h => by
    refine ((typed_tracks env h.1 c key h.2 dest).onR).weaken ?_ fun _ _ h => h
    intro hc hp
    cases c with
    | none => exact hc
    | vector => exact hc
    | optionalVector => exact hc
    | optionalValue => exact hp.2.2 rfl hc
    | idxVector => exact hp.1 rfl
    | optionalIdxVector => exact hp.2.1 rfl
  | .beginSection fresh key na, h => by
    show Tracks _ _ _ (Debug.beginReadSection env fresh key na) _
    rw [beginReadSection_debug env fresh key h na]
    exact .same _
  | .endSection ptr, _ => .same _
  | .beginArray fresh key na wi, h => (beginReadArray_tracks env fresh key h na wi).weaken (fun h h' => by cases h.symm.trans h') fun _ _ h => h
  | .beginElement ptr i w, _ => .same _
  | .endElement ptr i, _ => .same _
  | .endArray ptr, _ => .same _

theorem Tracks.inSub {B : Prop} {α : Type} {acc : α → RSt → Prop} {xd xr : Prog RSt α} (h : Tracks Prod.snd B acc xd xr) :
    Tracks Prod.snd B (fun a (st : RSt) => ∃ r, st.1.activeSubsection = some r ∧ acc a (r, st.2)) (inRSubsection xd) (inRSubsection xr) := by
  rintro ⟨rd, s⟩ hs
  rw [inRSubsection, inRSubsection]
  dsimp only
  cases rd.activeSubsection with
  | none => exact .inl rfl
  | some r =>
    dsimp only
    obtain h | ⟨hB, ⟨s', h⟩, hj⟩ := h (r, s) hs
    · exact .inl (by rw [h])
    · refine .inr ⟨hB, ⟨({ rd with activeSubsection := some s'.1 }, s'.2), by rw [h]⟩, ?_⟩
      intro a st e
      cases h1 : xr (r, s) with
      | throw _ => rw [h1] at e; cases e
      | ub => rw [h1] at e; cases e
      | ok b s1 =>
        rw [h1] at e
        cases e
        rintro ⟨r', h2, h3⟩
        cases h2
        exact hj _ _ h1 h3

/-- Any program in the two builds: the same, unless the debug build throws. -/
theorem ReaderProgram.tracks (env : REnv) {B : Prop} {α : Type} : ∀ (q : ReaderProgram α), q.Ok → (¬ B → q.Plain) →
    Tracks Prod.snd B (fun _ _ => False) (q.run .debug env) (q.run .release env)
  | .done a, _, _ => .same _
  | .call op next, h, hB => by
    refine .bind ((op.tracks env h.1).weaken (fun hn => Classical.byContradiction fun hb => hn (hB hb).1) fun _ _ h => h) (op.mono env h.1)
      (fun r => (next r).tracks env (h.2 r) fun hb => (hB hb).2 r) fun _ _ _ _ _ _ _ h => h
  | .inner body next, h, hB => by
    refine .bind (.inSub (body.tracks env h.1 fun hb => (hB hb).1)) (.inSub (body.mono env h.1))
      (fun r => (next r).tracks env (h.2 r) fun hb => (hB hb).2 r) fun _ _ _ _ _ _ _ h => h
  | .own step next, h, hB => .free (ownStep_mono step) fun r => (next r).tracks env (h r) fun hb => hB hb r

/-- One program after another. -/
def ReaderProgram.andThen {α β : Type} : ReaderProgram α → (α → ReaderProgram β) → ReaderProgram β
  | .done a, f => f a
  | .call op next, f => .call op fun r => (next r).andThen f
  | .inner body next, f => .inner body fun r => (next r).andThen f
  | .own step next, f => .own step fun r => (next r).andThen f

theorem ReaderProgram.run_andThen (b : Build) (env : REnv) {α β : Type} : ∀ (q : ReaderProgram α) (f : α → ReaderProgram β),
    (q.andThen f).run b env = q.run b env >>= fun a => (f a).run b env
  | .done a, f => rfl
  | .call op next, f => by
    rw [ReaderProgram.run, prog_assoc]
    exact congrArg _ (funext fun r => (next r).run_andThen b env f)
  | .inner body next, f => by
    rw [ReaderProgram.run, prog_assoc]
    exact congrArg _ (funext fun r => (next r).run_andThen b env f)
  | .own step next, f => by
    rw [ReaderProgram.run, prog_assoc]
    exact congrArg _ (funext fun r => (next r).run_andThen b env f)

theorem ReaderProgram.ok_andThen {α β : Type} : ∀ (q : ReaderProgram α) (f : α → ReaderProgram β), q.Ok → (∀ a, (f a).Ok) → (q.andThen f).Ok
  | .done a, f, _, h => h a
  | .call op next, f, hq, h => ⟨hq.1, fun r => (next r).ok_andThen f (hq.2 r) h⟩
  | .inner body next, f, hq, h => ⟨hq.1, fun r => (next r).ok_andThen f (hq.2 r) h⟩
  | .own step next, f, hq, h => fun r => (next r).ok_andThen f (hq r) h

/-- The routine is a program of calls in order, which in the debug build does the same, or throws where the release build does not accept. -/
def Reads {α : Type} (env : REnv) (acc : α → RSt → Prop) (p : Prog RSt α) : Prop :=
  ∃ q : ReaderProgram α, q.Ok ∧ q.run .release env = p ∧ Tracks Prod.snd True acc (q.run .debug env) p

section reads
variable {α β : Type} {env : REnv} {acc : α → RSt → Prop} {accB : β → RSt → Prop}

theorem Reads.pure (a : α) : Reads env acc (pure a) := ⟨.done a, trivial, rfl, .same _⟩

theorem Reads.bind {x : Prog RSt α} {f : α → Prog RSt β} (hx : Reads env acc x) (hf : ∀ a, Reads env accB (f a))
    (hr : ∀ a s, ¬ acc a s → Rejects accB (f a s)) : Reads env accB (x >>= f) := by
  obtain ⟨q, hq, rfl, ht⟩ := hx
  refine ⟨q.andThen fun a => (hf a).choose, q.ok_andThen _ hq fun a => (hf a).choose_spec.1, ?_, ?_⟩
  · rw [ReaderProgram.run_andThen]
    exact congrArg _ (funext fun a => (hf a).choose_spec.2.1)
  · rw [ReaderProgram.run_andThen]
    exact .bind ht (q.mono env hq) (fun a => (hf a).choose_spec.2.2) fun a s _ h => hr a s h

theorem Reads.ite {c : Prop} [Decidable c] {x y : Prog RSt α} (h1 : c → Reads env acc x) (h2 : ¬ c → Reads env acc y) :
    Reads env acc (if c then x else y) := by
  by_cases h : c
  · rw [if_pos h]; exact h1 h
  · rw [if_neg h]; exact h2 h

theorem Reads.op (op : ReaderOp α) (h : op.Ok) : Reads env op.Accepted (op.run .release env) :=
  ⟨.call op .done, ⟨h, fun _ => trivial⟩, prog_right _, by
    show Tracks _ _ _ (op.run .debug env >>= fun a => (Pure.pure a : Prog RSt α)) _
    rw [prog_right]
    exact (op.tracks env h).weaken (fun _ => trivial) fun _ _ h => h⟩

/-- A call that no check can stop. -/
theorem Reads.plain (op : ReaderOp α) (h : op.Ok) (hp : op.Plain) {f : α → Prog RSt β} (hf : ∀ a, Reads env accB (f a)) :
    Reads env accB (op.run .release env >>= f) := by
  refine .bind (acc := fun _ _ => True) ⟨.call op .done, ⟨h, fun _ => trivial⟩, prog_right _, ?_⟩ hf fun _ _ h => (h trivial).elim
  show Tracks _ _ _ (op.run .debug env >>= fun a => (Pure.pure a : Prog RSt α)) _
  rw [prog_right]
  exact fun s hs => (op.tracks env h s hs).elim .inl fun h => (h.1 hp).elim

theorem Reads.own {p : Prog Unit α} {f : α → Prog RSt β} (hf : ∀ a, Reads env accB (f a)) : Reads env accB (ownStep p >>= f) :=
  .bind (acc := fun _ _ => True) ⟨.own p .done, fun _ => trivial, prog_right _, by
    show Tracks _ _ _ (ownStep p >>= fun a => (Pure.pure a : Prog RSt α)) _
    rw [prog_right]
    exact .same _⟩ hf fun _ _ h => (h trivial).elim

theorem Reads.ub : Reads env acc (Prog.ub : Prog RSt α) := ⟨.own (β := α) Prog.ub .done, fun _ => trivial, rfl, .same _⟩

theorem Reads.inSub {x : Prog RSt (Option α)} (hx : Reads env (fun r _ => r ≠ none) x) : Reads env (fun r _ => r ≠ none) (inRSubsection x) := by
  obtain ⟨q, hq, rfl, ht⟩ := hx
  refine ⟨.inner q .done, ⟨hq, fun _ => trivial⟩, prog_right _, ?_⟩
  show Tracks _ _ _ (inRSubsection (q.run .debug env) >>= fun a => (Pure.pure a : Prog RSt (Option α))) _
  rw [prog_right]
  rintro ⟨rd, s⟩ hs
  obtain h | ⟨hB, h, hj⟩ := ht.inSub (rd, s) hs
  · exact .inl h
  · refine .inr ⟨hB, h, fun a st e ha => hj a st e ?_⟩
    cases h2 : st.1.activeSubsection with
    | some r => exact ⟨r, h2, ha⟩
    | none =>
      rw [inRSubsection] at e
      dsimp only at e
      cases h3 : rd.activeSubsection with
      | none => rw [h3] at e; cases e
      | some r =>
        rw [h3] at e
        dsimp only at e
        cases h4 : q.run .release env (r, s) <;> rw [h4] at e <;> cases e
        cases h2

/-- Go on only with a result. -/
theorem Reads.andThen {x : Prog RSt (Option α)} {f : Option α → Prog RSt (Option β)} (hx : Reads env (fun r _ => r ≠ none) x)
    (hn : f none = Pure.pure none) (hf : ∀ a, Reads env (fun r _ => r ≠ none) (f (some a))) : Reads env (fun r _ => r ≠ none) (x >>= f) := by
  refine .bind hx (fun a => ?_) fun a s h => ?_
  · cases a with
    | none => rw [hn]; exact .pure _
    | some a => exact hf a
  · have : a = none := Classical.not_not.mp h
    subst this
    rw [hn]
    exact .pure fun h => h rfl

theorem Reads.read {t : DataType} (ht : t ∈ allTypes) (c : Container) (key : Bytes) (hk : key.length ≤ 40) (v : c.Val t.Val) :
    Reads env (fun r _ => r ≠ none) (EReader.read env t c key v) := Reads.op (.read t c key v) ⟨ht, hk⟩

end reads

/-- The class reads itself with calls in order, which in the debug build do the same, or throw where the release build fails. -/
def ReadsInDebug {V : Type} (M : Managed V) : Prop := ∀ env fresh v, Reads env (fun r _ => r ≠ none) (M.read env fresh v)

theorem tableLoop_reads {K V : Type} [DecidableEq K] {M : Managed V} (hM : ReadsInDebug M) (ord : TableOrder (K × Option V)) (env : REnv)
    (fresh : Bytes → Nat) (p : Option Nat) : ∀ (i : Nat) (ks : List K) (t : Table K V),
    Reads env (fun r _ => r ≠ none) (tableReadLoop M ord env fresh p i ks t)
  | _, [], _ => .pure _
  | i, k :: ks, t => by
    rw [tableReadLoop]
    refine Reads.plain (.beginElement p i true) trivial trivial fun r => ?_
    obtain ⟨ok, hasData⟩ := r
    dsimp only
    refine .ite (fun _ => .pure _) fun _ => .ite (fun _ => .pure _) fun _ => .ite (fun _ => ?_) fun _ => ?_
    · refine .andThen (.inSub (hM env fresh _)) rfl fun v => ?_
      exact Reads.plain (.endElement p i) trivial trivial fun _ => .ite (fun _ => .pure _) fun _ => tableLoop_reads hM ord env fresh p _ _ _
    · exact Reads.plain (.endElement p i) trivial trivial fun _ => .ite (fun _ => .pure _) fun _ => tableLoop_reads hM ord env fresh p _ _ _

theorem onVarying_own (v : Varying) (p : Prog Varying Bool) :
    onVarying v p = ownStep (match p v with | .ok b v' => Pure.pure (b, v') | .throw _ => Prog.throw | .ub => Prog.ub) := by
  funext st
  rw [onVarying, ownStep]
  cases p v <;> rfl

mutual
  theorem IsClass.readsInDebug : ∀ {V : Type} {M : Managed V} {S : ClassSpec V}, IsClass M S → ReadsInDebug M
    | _, _, _, @IsClass.graph _ _ st h a r s => fun env fresh g =>
      .andThen (.read h.mem .vector _ (by decide) _) rfl fun roots => .andThen (.read h.mem .vector _ (by decide) _) rfl fun pairs => .pure _
    | _, _, _, .idx t h => fun env fresh v => .andThen (.read h .idxVector _ (by decide) _) rfl fun v => .pure _
    | _, _, _, .varying => fun env fresh v => by
      show Reads env _ (Varying.read env v)
      rw [Varying.read, onVarying_own]
      refine .own fun r => .andThen (.read u16_mem .none _ (by decide) _) rfl fun ty => .andThen (.read u16_mem .none _ (by decide) _) rfl fun ct => ?_
      dsimp only
      rw [onVarying_own]
      refine .own fun r => ?_
      obtain ⟨ok, v⟩ := r
      dsimp only
      refine .ite (fun _ => .pure _) fun _ => ?_
      cases v.data with
      | none => exact .pure _
      | some o =>
        dsimp only
        cases e : findTypeClass v.ty v.ct with
        | none => exact .pure _
        | some cl => exact .ite (fun hm => .andThen (.read (made_mem e hm) _ _ (by decide) _) rfl fun x => .pure _) fun _ => .ub
    | _, _, _, @IsClass.table _ _ _ st h M S hM zk ne ord => fun env fresh t => by
      refine .andThen (.read h.mem .vector _ (by decide) _) rfl fun keys => ?_
      refine Reads.plain (.beginArray (fresh (key "Entities")) (key "Entities") false false) (by decide : (key "Entities").length ≤ 40) rfl fun r => ?_
      obtain ⟨p, count, _ | _, idx⟩ := r
      · exact .pure _
      · refine .ite (fun _ => .pure _) fun _ => .andThen (tableLoop_reads hM.readsInDebug ord env fresh p _ _ _) rfl fun t => ?_
        exact Reads.plain (.endArray p) trivial trivial fun _ => .ite (fun _ => .pure _) fun _ => .pure _
    | _, _, _, .entity ss h hne => fun env fresh v => h.readsInDebug env fresh v
  theorem AreFields.readsInDebug : ∀ {fs : List Field} {ss : FieldSpecs fs}, AreFields ss → ∀ env fresh v,
      Reads env (fun r _ => r ≠ none) (fieldsRead env fresh fs v)
    | _, _, .nil => fun env fresh v => .pure _
    | _, _, .base hk ht h => fun env fresh v => .andThen (.read ht _ _ hk _) rfl fun x => .andThen (h.readsInDebug env fresh _) rfl fun rest => .pure _
    | _, _, @AreFields.sub k _ _ _ _ _ hk hM h => fun env fresh v => by
      rw [fieldsRead]
      refine Reads.plain (.beginSection (fresh k) k false) hk trivial fun r => ?_
      obtain ⟨_ | p, _ | _⟩ := r
      · exact .pure _
      · exact .andThen (h.readsInDebug env fresh _) rfl fun rest => .pure _
      · exact .pure _
      · refine .andThen (.inSub (hM.readsInDebug env fresh _)) rfl fun x => ?_
        exact Reads.plain (.endSection (some p)) trivial trivial fun _ => .andThen (h.readsInDebug env fresh _) rfl fun rest => .pure _
end

end ISD
