import Verif.Proofs.OverParse
import Verif.Proofs.ReadTree

/-!
# The overloads, run
-/

namespace ISD.Over

open Cpp (Name Ty)

set_option maxRecDepth 20000

/-- What the names of a type and of its base type have to be. -/
structure Named (d : DataType) (b t : Name) : Prop where
  code : codeNamed (vt b) = some d.vt
  acode : codeNamed (avt b) = some d.avt
  ty : isType d.kind t = true
  bool : d.kind = .bool → d.vt = 0x01 ∧ d.avt = 0x41
  string : d.kind = .string → d.vt = 0xe0 ∧ d.avt = 0xe1

theorem writeSingle_text {d : DataType} {b t : Name} (h : Named d b t) (key : Bytes) (v : Option d.Val) :
    writeSingleText d.kind d.vt key v = writeSingle d key v := by
  obtain ⟨n, vt, avt, k, o⟩ := d
  cases k with
  | bool => exact if_pos (h.bool rfl).1
  | items sc n fl => rfl
  | string => exact if_pos (h.string rfl).1

theorem writeArray_text {d : DataType} {b t : Name} (h : Named d b t) (key : Bytes) (v : Option (List d.Val)) (i : Option (List (Word 4))) :
    writeArrayText d.kind d.avt key v i = writeArray d key v i := by
  obtain ⟨n, vt, avt, k, o⟩ := d
  cases k with
  | bool => exact if_pos (h.bool rfl).2
  | items sc n fl => rfl
  | string => exact if_pos (h.string rfl).2

theorem direct_write {d : DataType} {b t : Name} (h : Named d b t) (call : Ty → Obj d.kind → Prog WStream Bool) (key : Bytes)
    (c : Container) (v : c.Val d.Val) :
    execW call key (writerDirectBody c b t) (Env.entry src (Obj.of c v)) = writeTyped d c key v := by
  cases c with
  | none =>
    simp only [writerDirectBody, execW, execSimpleW, h.code, h.ty]
    exact writeSingle_text h key (some v)
  | optionalValue =>
    cases v with
    | none =>
      simp only [writerDirectBody, execW, execSimpleW, h.code, h.ty, pureStep, pointsTo]
      exact writeSingle_text h key none
    | some v =>
      simp only [writerDirectBody, execW, execSimpleW, h.code, h.ty, pureStep, pointsTo]
      exact writeSingle_text h key (some v)
  | vector =>
    simp only [writerDirectBody, execW, execSimpleW, h.acode, h.ty]
    exact writeArray_text h key (some v) none
  | optionalVector =>
    cases v with
    | none =>
      simp only [writerDirectBody, execW, execSimpleW, h.acode, h.ty, pureStep, pointsTo]
      exact writeArray_text h key none none
    | some v =>
      simp only [writerDirectBody, execW, execSimpleW, h.acode, h.ty, pureStep, pointsTo]
      exact writeArray_text h key (some v) none
  | idxVector =>
    simp only [writerDirectBody, execW, execSimpleW, h.acode, h.ty]
    exact writeArray_text h key (some v.values) (some v.index)
  | optionalIdxVector =>
    cases v with
    | none =>
      simp only [writerDirectBody, execW, execSimpleW, h.acode, h.ty, pureStep, pointsTo]
      exact writeArray_text h key none none
    | some v =>
      simp only [writerDirectBody, execW, execSimpleW, h.acode, h.ty, pureStep, pointsTo]
      exact writeArray_text h key (some v.values) (some v.index)


theorem override_write {K : Kind} {t u : Name} (hu : isType K u = true) (call : Ty → Obj K → Prog WStream Bool) (key : Bytes)
    (c : Container) (v : c.Val K.Val) :
    execW call key (writerOverrideBody c t u) (Env.entry src (Obj.of c v)) = call (c, u) (Obj.of c v) := by
  cases c with
  | none =>
    simp only [writerOverrideBody, execW, execSimpleW, pureStep, hu]
    rfl
  | optionalValue =>
    cases v with
    | none =>
      simp only [writerOverrideBody, execW, execSimpleW, pureStep, hu]
      rfl
    | some v =>
      simp only [writerOverrideBody, execW, execSimpleW, pureStep, hu]
      rfl
  | vector =>
    simp only [writerOverrideBody, execW, execSimpleW, pureStep, hu]
    rfl
  | optionalVector =>
    cases v with
    | none =>
      simp only [writerOverrideBody, execW, execSimpleW, pureStep, hu]
      rfl
    | some v =>
      simp only [writerOverrideBody, execW, execSimpleW, pureStep, hu]
      rfl
  | idxVector =>
    simp only [writerOverrideBody, execW, execSimpleW, pureStep, hu]
    rfl
  | optionalIdxVector =>
    cases v with
    | none =>
      simp only [writerOverrideBody, execW, execSimpleW, pureStep, hu]
      rfl
    | some v =>
      simp only [writerOverrideBody, execW, execSimpleW, pureStep, hu]
      rfl


/-- No run ends with `successEmpty`. -/
def NeverEmpty {α : Type} (p : Prog RStream (RStatus α)) : Prop := ∀ s s', p s ≠ .ok .successEmpty s'

theorem NeverEmpty.bind {α β : Type} {x : Prog RStream β} {f : β → Prog RStream (RStatus α)} (h : ∀ b, NeverEmpty (f b)) :
    NeverEmpty (x >>= f) := by
  intro s s' e
  obtain ⟨b, s1, h1, h2⟩ := Prog.bind_eq_ok e
  exact h b s1 s' h2

theorem NeverEmpty.pure {α : Type} {a : RStatus α} (h : a ≠ .successEmpty) : NeverEmpty (Pure.pure a : Prog RStream (RStatus α)) := by
  intro s s' e
  rw [Prog.pure_apply] at e
  injection e with e1 e2
  exact h e1

theorem NeverEmpty.fail {α : Type} : NeverEmpty (Pure.pure .fail : Prog RStream (RStatus α)) := NeverEmpty.pure (fun h => nomatch h)

theorem NeverEmpty.success {α : Type} {a : α} : NeverEmpty (Pure.pure (.success a) : Prog RStream (RStatus α)) := NeverEmpty.pure (fun h => nomatch h)

theorem NeverEmpty.ite {α : Type} {c : Prop} [Decidable c] {x y : Prog RStream (RStatus α)} (hx : NeverEmpty x) (hy : NeverEmpty y) :
    NeverEmpty (if c then x else y) := by split <;> assumption

theorem never_endEmpty {α : Type} (e : Nat) : NeverEmpty (endReadEmptyLargeBlock (α := α) false e) := NeverEmpty.fail

macro "never" : tactic => `(tactic| repeat' first
  | exact NeverEmpty.fail | exact NeverEmpty.success | exact never_endEmpty _ | refine NeverEmpty.ite ?_ ?_ | refine NeverEmpty.bind fun _ => ?_ | split)

theorem never_singleItems (env : REnv) (vt : Nat) (sc : Sc) (n : Nat) (key : Bytes) : NeverEmpty (readSingleItems env vt sc n key false) := by
  rw [readSingleItems]
  never

theorem never_singleString (env : REnv) (key : Bytes) : NeverEmpty (readSingleString env key false) := by
  rw [readSingleString]
  never

theorem never_single (env : REnv) (d : DataType) (key : Bytes) : NeverEmpty (readSingle env d key false) := by
  obtain ⟨nm, vt, avt, k, o⟩ := d
  cases k with
  | bool =>
    intro s s' e
    obtain ⟨b, s1, h1, h2⟩ := Prog.bind_eq_ok (show readSingleBool env key false s = _ from e)
    cases b with
    | fail => exact NeverEmpty.fail s1 s' h2
    | successEmpty => exact never_singleItems _ _ _ _ _ s s1 h1
    | success a => exact NeverEmpty.success s1 s' h2
  | items sc n fl =>
    intro s s' e
    obtain ⟨b, s1, h1, h2⟩ := Prog.bind_eq_ok (show (readSingleItems env vt sc n key false >>= _) s = _ from e)
    cases b with
    | fail => exact NeverEmpty.fail s1 s' h2
    | successEmpty => exact never_singleItems _ _ _ _ _ s s1 h1
    | success a => exact NeverEmpty.success s1 s' h2
  | string => exact never_singleString env key

theorem never_array (env : REnv) (d : DataType) (key : Bytes) (w : Bool) : NeverEmpty (readArray env d key false w) := by
  obtain ⟨nm, vt, avt, k, o⟩ := d
  cases k with
  | bool =>
    show NeverEmpty (readArrayBool env key false w)
    rw [readArrayBool]
    never
  | items sc n fl =>
    show NeverEmpty (readArrayItems env avt sc n key false w)
    rw [readArrayItems]
    never
  | string =>
    show NeverEmpty (readArrayString env key false w)
    rw [readArrayString]
    never


/-- Two continuations that agree on what the first program can give. -/
theorem bind_same {α β : Type} {x y : Prog RStream α} (hxy : x = y) {f g : α → Prog RStream β}
    (h : ∀ a s s', x s = .ok a s' → f a s' = g a s') : x >>= f = y >>= g := by
  subst hxy
  funext s
  rw [Prog.bind_apply, Prog.bind_apply]
  cases e : x s with
  | ok a s' => exact h a s s' e
  | throw s' => rfl
  | ub => rfl

theorem assoc {α β γ : Type} (x : Prog RStream α) (f : α → Prog RStream β) (g : β → Prog RStream γ) :
    (x >>= f) >>= g = x >>= fun a => f a >>= g := by
  funext s
  simp only [Prog.bind_apply]
  cases x s <;> rfl

theorem readSingle_text {d : DataType} {b t : Name} (h : Named d b t) (env : REnv) (key : Bytes) (ea : Bool) :
    readSingleText env d.kind d.vt key ea = readSingle env d key ea := by
  obtain ⟨n, vt, avt, k, o⟩ := d
  cases k with
  | bool => exact if_pos (h.bool rfl).1
  | items sc n fl => rfl
  | string => exact if_pos (h.string rfl).1

theorem readArray_text {d : DataType} {b t : Name} (h : Named d b t) (env : REnv) (key : Bytes) (ea w : Bool) :
    readArrayText env d.kind d.avt key ea w = readArray env d key ea w := by
  obtain ⟨n, vt, avt, k, o⟩ := d
  cases k with
  | bool => exact if_pos (h.bool rfl).2
  | items sc n fl => rfl
  | string => exact if_pos (h.string rfl).2

/-- `Read` of the model, with objects. -/
def readObj (env : REnv) (d : DataType) (c : Container) (key : Bytes) (v : c.Val d.Val) : Prog RStream (Option (Obj d.kind)) :=
  readTyped env d c key v >>= fun r => pure (r.map (Obj.of c))

theorem direct_read {d : DataType} {b t : Name} (h : Named d b t) (hd : d.overrides = false) (env : REnv)
    (call : Ty → Obj d.kind → Prog RStream (Option (Obj d.kind))) (key : Bytes) (c : Container) (v : c.Val d.Val) :
    execR env call key dst (readerDirectBody c b t) (Env.entry dst (Obj.of c v)) = readObj env d c key v := by
  cases c with
  | none =>
    simp only [readerDirectBody, execR, execSimpleR, h.code, h.ty, readObj, readTyped, assoc]
    refine bind_same (readSingle_text h env key false) fun a s s' e => ?_
    cases a with
    | fail => rfl
    | successEmpty => exact absurd (readSingle_text h env key false ▸ e) (never_single env d key s s')
    | success a => rfl
  | optionalValue =>
    simp only [readerDirectBody, execR, execSimpleR, h.code, h.ty, readObj, readTyped, assoc]
    refine bind_same (readSingle_text h env key true) fun a s s' e => ?_
    cases a <;> rfl
  | vector =>
    simp only [readerDirectBody, execR, execSimpleR, h.acode, h.ty, readObj, readTyped, assoc, hd]
    refine bind_same (readArray_text h env key false false) fun a s s' e => ?_
    cases a with
    | fail => rfl
    | successEmpty => exact absurd (readArray_text h env key false false ▸ e) (never_array env d key false s s')
    | success a => rfl
  | optionalVector =>
    simp only [readerDirectBody, execR, execSimpleR, h.acode, h.ty, readObj, readTyped, assoc]
    refine bind_same (readArray_text h env key true false) fun a s s' e => ?_
    cases a <;> rfl
  | idxVector =>
    simp only [readerDirectBody, execR, execSimpleR, h.acode, h.ty, readObj, readTyped, assoc, hd]
    refine bind_same (readArray_text h env key false true) fun a s s' e => ?_
    cases a with
    | fail => rfl
    | successEmpty => exact absurd (readArray_text h env key false true ▸ e) (never_array env d key true s s')
    | success a => rfl
  | optionalIdxVector =>
    simp only [readerDirectBody, execR, execSimpleR, h.acode, h.ty, readObj, readTyped, assoc]
    refine bind_same (readArray_text h env key true true) fun a s s' e => ?_
    cases a <;> rfl


theorem direct_read_uninit {d : DataType} {b t : Name} (h : Named d b t) (env : REnv)
    (call : Ty → Obj d.kind → Prog RStream (Option (Obj d.kind))) (key : Bytes) (v : d.Val) :
    execR env call key dst (readerDirectBody .none b t) (Env.entry dst ⟨.none, none⟩) = readObj env d .none key v := by
  simp only [readerDirectBody, execR, execSimpleR, h.code, h.ty, readObj, readTyped, assoc]
  refine bind_same (readSingle_text h env key false) fun a s s' e => ?_
  cases a with
  | fail => rfl
  | successEmpty => exact absurd (readSingle_text h env key false ▸ e) (never_single env d key s s')
  | success a => rfl

/-- The value of a container that has just been declared. -/
def dflt (K : Kind) : (c : Container) → c.Val K.Val
  | .none => zero K
  | .optionalValue => none
  | .vector => []
  | .optionalVector => none
  | .idxVector => ⟨[], []⟩
  | .optionalIdxVector => none

theorem direct_read_default {d : DataType} {b t : Name} (h : Named d b t) (hd : d.overrides = false) (env : REnv)
    (call : Ty → Obj d.kind → Prog RStream (Option (Obj d.kind))) (key : Bytes) (c : Container) :
    execR env call key dst (readerDirectBody c b t) (Env.entry dst (Obj.default c)) = readObj env d c key (dflt d.kind c) := by
  cases c with
  | none => exact direct_read_uninit h env call key _
  | optionalValue => exact direct_read h hd env call key .optionalValue none
  | vector => exact direct_read h hd env call key .vector []
  | optionalVector => exact direct_read h hd env call key .optionalVector none
  | idxVector => exact direct_read h hd env call key .idxVector ⟨[], []⟩
  | optionalIdxVector => exact direct_read h hd env call key .optionalIdxVector none

theorem turns_eq {K : Kind} (src : List K.Val) (n : Nat) (hn : n ≤ src.length) (dest : List K.Val) :
    turns src n dest = some (dest ++ src.drop (src.length - n)) := by
  induction n generalizing dest with
  | zero => simp [turns]
  | succ n ih =>
    have hi : src.length - (n + 1) < src.length := by omega
    rw [turns, List.getElem?_eq_getElem hi]
    simp only
    rw [ih (by omega), List.drop_eq_getElem_cons hi, show src.length - (n + 1) + 1 = src.length - n by omega, List.append_assoc]
    rfl

theorem turns_all {K : Kind} (src dest : List K.Val) : turns src src.length dest = some (dest ++ src) := by
  rw [turns_eq src _ (Nat.le_refl _), Nat.sub_self, List.drop_zero]

theorem step_loop {K : Kind} {e : Env K} {p q : Path} {t : Name} {l m : List K.Val} (ht : isType K t = true) (hp : e.vec p = some l)
    (hq : e.vec q = some m) (hne : p.var ≠ q.var) : pureStep e (.loop ii ii ii ii p q p t) = e.setVec q (m ++ l) := by
  have hg : isType K t ∧ ii = ii ∧ ii = ii ∧ ii = ii ∧ p = p ∧ p.var ≠ q.var := ⟨ht, rfl, rfl, rfl, rfl, hne⟩
  show (guard (isType K t ∧ ii = ii ∧ ii = ii ∧ ii = ii ∧ p = p ∧ p.var ≠ q.var) >>= fun _ => e.vec p >>= fun src => e.vec q >>= fun dest =>
    turns src src.length dest >>= fun m => e.setVec q m) = _
  rw [guard, if_pos hg, hp, hq]
  show (turns l l.length m >>= fun m => e.setVec q m) = _
  rw [turns_all]
  rfl

theorem step_decl {K : Kind} {e : Env K} {c : Container} {u x : Name} (hu : isType K u = true) :
    pureStep e (.decl (c, u) x) = some (e.put x (.default c)) := by
  show (guard (isType K u) >>= fun _ => some (e.put x (.default c))) = _
  rw [guard, if_pos hu]
  rfl

theorem override_read {n n' : String} {vt avt : Nat} {k : Kind} {t u : Name} (ht : isType k t = true) (hu : isType k u = true) (env : REnv)
    (call : Ty → Obj k → Prog RStream (Option (Obj k))) (key : Bytes) (c : Container) (v : c.Val k.Val)
    (hcall : call (c, u) (Obj.default c) = readObj env ⟨n', vt, avt, k, false⟩ c key (dflt k c)) :
    execR env call key dst (readerOverrideBody c t u) (Env.entry dst (Obj.of c v)) = readObj env ⟨n, vt, avt, k, true⟩ c key v := by
  have e1 : ∀ ea, readSingle env ⟨n', vt, avt, k, false⟩ key ea = readSingle env ⟨n, vt, avt, k, true⟩ key ea := by
    intro ea; cases k <;> rfl
  have e2 : ∀ ea w, readArray env ⟨n', vt, avt, k, false⟩ key ea w = readArray env ⟨n, vt, avt, k, true⟩ key ea w := by
    intro ea w; cases k <;> rfl
  cases c with
  | none =>
    simp only [readerOverrideBody, execR, execSimpleR, pureStep, hu, ht]
    show (call (.none, u) (Obj.default .none) >>= _) = _
    rw [hcall]
    simp only [readObj, readTyped, assoc]
    refine bind_same (e1 false) fun a s s' e => ?_
    cases a <;> rfl
  | optionalValue =>
    simp only [readerOverrideBody, execR, execSimpleR, step_decl hu]
    show (call (.optionalValue, u) (Obj.default .optionalValue) >>= _) = _
    rw [hcall]
    simp only [readObj, readTyped, assoc]
    refine bind_same (e1 true) fun a s s' e => ?_
    cases a <;> rfl
  | vector =>
    simp only [readerOverrideBody, execR, execSimpleR, step_decl hu]
    show (call (.vector, u) (Obj.default .vector) >>= _) = _
    rw [hcall]
    simp only [readObj, readTyped, assoc]
    refine bind_same (e2 false false) fun a s s' e => ?_
    cases a with
    | fail => rfl
    | successEmpty => rfl
    | success l =>
      show (match pureStep (((Env.entry dst (Obj.of .vector v)).put tmp (Obj.default .vector)).put tmp (Obj.of .vector l.1))
          (.loop ii ii ii ii ⟨tmp, .self⟩ ⟨dst, .self⟩ ⟨tmp, .self⟩ t) with
        | some e' => execSimpleR env key dst [] e' (execR env call key dst [.simple (.ret .true_)])
        | none => Prog.ub) s' = _
      rw [step_loop ht rfl rfl (by decide)]
      rfl
  | optionalVector =>
    simp only [readerOverrideBody, execR, execSimpleR, step_decl hu]
    show (call (.optionalVector, u) (Obj.default .optionalVector) >>= _) = _
    rw [hcall]
    simp only [readObj, readTyped, assoc]
    refine bind_same (e2 true false) fun a s s' e => ?_
    cases a with
    | fail => rfl
    | successEmpty => rfl
    | success l =>
      show (match pureStep ((((Env.entry dst (Obj.of .optionalVector v)).put tmp (Obj.default .optionalVector)).put tmp
            (Obj.of .optionalVector (some l.1))).put dst (Obj.of .optionalVector (some [])))
          (.loop ii ii ii ii ⟨tmp, .values⟩ ⟨dst, .values⟩ ⟨tmp, .values⟩ t) with
        | some e' => execSimpleR env key dst [] e' (execR env call key dst [.simple (.ret .true_)])
        | none => Prog.ub) s' = _
      rw [step_loop ht rfl rfl (by decide)]
      rfl
  | idxVector =>
    simp only [readerOverrideBody, execR, execSimpleR, step_decl hu]
    show (call (.idxVector, u) (Obj.default .idxVector) >>= _) = _
    rw [hcall]
    simp only [readObj, readTyped, assoc]
    refine bind_same (e2 false true) fun a s s' e => ?_
    cases a with
    | fail => rfl
    | successEmpty => rfl
    | success l =>
      show (match pureStep (((((Env.entry dst (Obj.of .idxVector v)).put tmp (Obj.default .idxVector)).put tmp
            (Obj.of .idxVector ⟨l.1, l.2⟩)).put tmp (Obj.of .idxVector ⟨l.1, []⟩)).put dst (Obj.of .idxVector ⟨v.values, l.2⟩))
          (.loop ii ii ii ii ⟨tmp, .values⟩ ⟨dst, .values⟩ ⟨tmp, .values⟩ t) with
        | some e' => execSimpleR env key dst [] e' (execR env call key dst [.simple (.ret .true_)])
        | none => Prog.ub) s' = _
      rw [step_loop ht rfl rfl (by decide)]
      rfl
  | optionalIdxVector =>
    simp only [readerOverrideBody, execR, execSimpleR, step_decl hu]
    show (call (.optionalIdxVector, u) (Obj.default .optionalIdxVector) >>= _) = _
    rw [hcall]
    simp only [readObj, readTyped, assoc]
    refine bind_same (e2 true true) fun a s s' e => ?_
    cases a with
    | fail => rfl
    | successEmpty => rfl
    | success l =>
      show (match pureStep ((((((Env.entry dst (Obj.of .optionalIdxVector v)).put tmp (Obj.default .optionalIdxVector)).put tmp
            (Obj.of .optionalIdxVector (some ⟨l.1, l.2⟩))).put dst (Obj.of .optionalIdxVector (some ⟨[], []⟩))).put tmp
              (Obj.of .optionalIdxVector (some ⟨l.1, []⟩))).put dst (Obj.of .optionalIdxVector (some ⟨[], l.2⟩)))
          (.loop ii ii ii ii ⟨tmp, .values⟩ ⟨dst, .values⟩ ⟨tmp, .values⟩ t) with
        | some e' => execSimpleR env key dst [] e' (execR env call key dst [.simple (.ret .true_)])
        | none => Prog.ub) s' = _
      rw [step_loop ht rfl rfl (by decide)]
      rfl


/-! ## The files -/

theorem plain_iff (s : String) : Plain s ↔ (s.toList ≠ [] ∧ (∀ c ∈ s.toList, Cpp.isId c) ∧ word s.toList = .id s.toList) :=
  ⟨fun h => ⟨h.1, h.2, h.3⟩, fun h => ⟨h.1, h.2.1, h.2.2⟩⟩

theorem plain_names : ∀ b ∈ baseTypes, Plain b.name ∧ ∀ t ∈ b.variants, Plain t.implementingType ∧ Plain t.itemType := by
  simp only [plain_iff]
  decide +kernel

/-- The tokens of a text are those of its lines. -/
theorem tokens_lines (ls : List String) : tokens (ls.flatMap fun l => l.toList ++ ['\n']) = ls.flatMap lineTokens := by
  induction ls with
  | nil => rfl
  | cons l ls ih =>
    have h : tokens ((l.toList ++ ['\n']) ++ ls.flatMap fun l => l.toList ++ ['\n']) =
        lineTokens l ++ tokens (ls.flatMap fun l => l.toList ++ ['\n']) := by
      simp only [tokens, lineTokens]
      rw [run_append, Cpp.run_end, List.map_append]
    rw [List.flatMap_cons, List.flatMap_cons, h, ih]

/-- Lines that are a specialisation. -/
def Parsed (p : List String × Fn) : Prop := ∀ rest, pFn 100 (p.1.flatMap lineTokens ++ rest) = some (p.2, rest)

theorem pFns_step (n : Nat) (ts : List Tok) (f : Fn) (rest : List Tok) (h : pFn 100 ts = some (f, rest)) :
    pFns (n + 1) ts = (pFns n rest).map (f :: ·) := by
  have hne : ts ≠ [.rbrace, .semi] := by
    rintro rfl
    cases h
  rw [pFns]
  · rw [h]
    show (pFns n rest >>= fun l => some (f :: l)) = _
    cases pFns n rest <;> rfl
  · exact hne

theorem pFns_all (ps : List (List String × Fn)) (h : ∀ p ∈ ps, Parsed p) (m : Nat) :
    pFns (ps.length + m) ((ps.flatMap Prod.fst).flatMap lineTokens ++ [.rbrace, .semi]) = some (ps.map Prod.snd) := by
  induction ps with
  | nil => rw [List.flatMap_nil, List.flatMap_nil, List.nil_append]; cases m <;> rfl
  | cons p ps ih =>
    rw [List.flatMap_cons, List.flatMap_append, List.append_assoc, List.length_cons, show ps.length + 1 + m = ps.length + m + 1 by omega,
      pFns_step _ _ _ _ (h p (List.mem_cons_self ..) _), ih fun q hq => h q (List.mem_cons_of_mem _ hq)]
    rfl

/-- The overloads of `Write`: their lines, and what they are. -/
def writerPairs : List (List String × Fn) :=
  baseTypes.flatMap fun b => b.variants.flatMap fun t => containers.map fun c =>
    if t.overridesType then (writerOverride c t.implementingType t.itemType, writerOverrideFn c t.implementingType.toList t.itemType.toList)
    else (writerDirect c b.name t.implementingType, writerDirectFn c b.name.toList t.implementingType.toList)

/-- The overloads of `Read`: their lines, and what they are. -/
def readerPairs : List (List String × Fn) :=
  baseTypes.flatMap fun b => b.variants.flatMap fun t => containers.map fun c =>
    if t.overridesType then (readerOverride c t.implementingType t.itemType, readerOverrideFn c t.implementingType.toList t.itemType.toList)
    else (readerDirect c b.name t.implementingType, readerDirectFn c b.name.toList t.implementingType.toList)

theorem writerOverride_parsed (c : Container) {t u : String} (ht : Plain t) (hu : Plain u) :
    Parsed (writerOverride c t u, writerOverrideFn c t.toList u.toList) := by
  cases c with
  | none => exact writerOverride_none ht hu
  | optionalValue => exact writerOverride_optionalValue ht hu
  | vector => exact writerOverride_vector ht hu
  | optionalVector => exact writerOverride_optionalVector ht hu
  | idxVector => exact writerOverride_idxVector ht hu
  | optionalIdxVector => exact writerOverride_optionalIdxVector ht hu

theorem writerDirect_parsed (c : Container) {b t : String} (hb : Plain b) (ht : Plain t) :
    Parsed (writerDirect c b t, writerDirectFn c b.toList t.toList) := by
  cases c with
  | none => exact writerDirect_none hb ht
  | optionalValue => exact writerDirect_optionalValue hb ht
  | vector => exact writerDirect_vector hb ht
  | optionalVector => exact writerDirect_optionalVector hb ht
  | idxVector => exact writerDirect_idxVector hb ht
  | optionalIdxVector => exact writerDirect_optionalIdxVector hb ht

theorem readerOverride_parsed (c : Container) {t u : String} (ht : Plain t) (hu : Plain u) :
    Parsed (readerOverride c t u, readerOverrideFn c t.toList u.toList) := by
  cases c with
  | none => exact readerOverride_none ht hu
  | optionalValue => exact readerOverride_optionalValue ht hu
  | vector => exact readerOverride_vector ht hu
  | optionalVector => exact readerOverride_optionalVector ht hu
  | idxVector => exact readerOverride_idxVector ht hu
  | optionalIdxVector => exact readerOverride_optionalIdxVector ht hu

theorem readerDirect_parsed (c : Container) {b t : String} (hb : Plain b) (ht : Plain t) :
    Parsed (readerDirect c b t, readerDirectFn c b.toList t.toList) := by
  cases c with
  | none => exact readerDirect_none hb ht
  | optionalValue => exact readerDirect_optionalValue hb ht
  | vector => exact readerDirect_vector hb ht
  | optionalVector => exact readerDirect_optionalVector hb ht
  | idxVector => exact readerDirect_idxVector hb ht
  | optionalIdxVector => exact readerDirect_optionalIdxVector hb ht

theorem writerPairs_parsed : ∀ p ∈ writerPairs, Parsed p := by
  intro p hp
  simp only [writerPairs, List.mem_flatMap, List.mem_map] at hp
  obtain ⟨b, hb, t, ht, c, -, rfl⟩ := hp
  obtain ⟨h1, h2⟩ := plain_names b hb
  obtain ⟨h3, h4⟩ := h2 t ht
  split
  · exact writerOverride_parsed c h3 h4
  · exact writerDirect_parsed c h1 h3

theorem readerPairs_parsed : ∀ p ∈ readerPairs, Parsed p := by
  intro p hp
  simp only [readerPairs, List.mem_flatMap, List.mem_map] at hp
  obtain ⟨b, hb, t, ht, c, -, rfl⟩ := hp
  obtain ⟨h1, h2⟩ := plain_names b hb
  obtain ⟨h3, h4⟩ := h2 t ht
  split
  · exact readerOverride_parsed c h3 h4
  · exact readerDirect_parsed c h1 h3

theorem writerPairs_lines : writerPairs.flatMap Prod.fst = baseTypes.flatMap fun b => b.variants.flatMap (writerVariant b) := by
  simp only [writerPairs, List.flatMap_assoc, List.flatMap_map]
  congr 1
  funext b
  congr 1
  funext t
  rw [writerVariant]
  congr 1
  funext c
  split <;> rfl

theorem readerPairs_lines : readerPairs.flatMap Prod.fst = baseTypes.flatMap fun b => b.variants.flatMap (readerVariant b) := by
  simp only [readerPairs, List.flatMap_assoc, List.flatMap_map]
  congr 1
  funext b
  congr 1
  funext t
  rw [readerVariant]
  congr 1
  funext c
  split <;> rfl

theorem writerPairs_length : writerPairs.length = 324 := by decide +kernel

theorem readerPairs_length : readerPairs.length = 324 := by decide +kernel

theorem expect_append (es ts : List Tok) : expect es (es ++ ts) = some ts := by
  induction es with
  | nil => rfl
  | cons e es ih => rw [List.cons_append, expect, if_pos rfl, ih]

theorem parse_of (ctors : List Tok) (head : List String) (ps : List (List String × Fn)) (h1 : head.flatMap lineTokens = [.namespace_, kw "ISD", .lbrace] ++ ctors)
    (hp : ∀ p ∈ ps, Parsed p) (hl : ps.length = 324) :
    parse ctors (text (head ++ ps.flatMap Prod.fst ++ ["\t};"])) = some (ps.map Prod.snd) := by
  have e : tokens (text (head ++ ps.flatMap Prod.fst ++ ["\t};"])) =
      ([.namespace_, kw "ISD", .lbrace] ++ ctors) ++ ((ps.flatMap Prod.fst).flatMap lineTokens ++ [.rbrace, .semi]) := by
    rw [text, tokens_lines, List.flatMap_append, List.flatMap_append, h1, List.append_assoc]
    rfl
  rw [parse, e, expect_append]
  have := pFns_all ps hp 676
  rw [hl] at this
  exact this


theorem writerHead_tokens : writerHead.flatMap lineTokens = [.namespace_, kw "ISD", .lbrace] ++ writerCtor := by decide +kernel

theorem readerHead_tokens : readerHead.flatMap lineTokens = [.namespace_, kw "ISD", .lbrace] ++ readerCtors := by decide +kernel

/-- The specialisations of `Write`. -/
def writerFile : List Fn := writerPairs.map Prod.snd

/-- The specialisations of `Read`. -/
def readerFile : List Fn := readerPairs.map Prod.snd

theorem parse_writer : parse writerCtor (text writerLines) = some writerFile := by
  have h := parse_of writerCtor writerHead writerPairs writerHead_tokens writerPairs_parsed writerPairs_length
  rw [writerPairs_lines] at h
  exact h

theorem parse_reader : parse readerCtors (text readerLines) = some readerFile := by
  have h := parse_of readerCtors readerHead readerPairs readerHead_tokens readerPairs_parsed readerPairs_length
  rw [readerPairs_lines] at h
  exact h

/-- The types in the order of the files. -/
def keys : List Ty := baseTypes.flatMap fun b => b.variants.flatMap fun t => containers.map fun c => (c, t.implementingType.toList)

theorem writer_keys : writerFile.map Fn.ty = keys := by
  simp only [writerFile, writerPairs, keys, List.map_flatMap, List.map_map]
  congr 1
  funext b
  congr 1
  funext t
  congr 1
  funext c
  simp only [Function.comp]
  split <;> rfl

theorem reader_keys : readerFile.map Fn.ty = keys := by
  simp only [readerFile, readerPairs, keys, List.map_flatMap, List.map_map]
  congr 1
  funext b
  congr 1
  funext t
  congr 1
  funext c
  simp only [Function.comp]
  split <;> rfl

theorem keys_nodup : keys.Nodup := by decide +kernel

theorem find_fn {l : List Fn} (hn : (l.map Fn.ty).Nodup) {f : Fn} (hf : f ∈ l) {ty : Ty} (he : f.ty = ty) :
    l.find? (fun g => decide (g.ty = ty)) = some f := by
  induction l with
  | nil => cases hf
  | cons g l ih =>
    rw [List.map_cons, List.nodup_cons] at hn
    rw [List.find?_cons]
    cases List.mem_cons.mp hf with
    | inl h => subst h; rw [decide_eq_true he]
    | inr h =>
      have : g.ty ≠ ty := fun e => hn.1 (List.mem_map.mpr ⟨f, h, he.trans e.symm⟩)
      rw [decide_eq_false this]
      exact ih hn.2 h

/-- The row of the generator's table that a type has. -/
def rowOk (b : BaseType) (t : Variant) (d : DataType) : Bool :=
  t.implementingType.toList == d.name.toList && t.overridesType == d.overrides && codeNamed (vt b.name.toList) == some d.vt &&
  codeNamed (avt b.name.toList) == some d.avt && kindNamed d.name.toList == some d.kind &&
  (!(d.kind == .bool) || (d.vt == 0x01 && d.avt == 0x41)) && (!(d.kind == .string) || (d.vt == 0xe0 && d.avt == 0xe1)) &&
  (!d.overrides || allTypes.any fun d' => d'.name.toList == t.itemType.toList && !d'.overrides && d'.vt == d.vt && d'.avt == d.avt && d'.kind == d.kind)

theorem rows : (allTypes.all fun d => baseTypes.any fun b => b.variants.any fun t => rowOk b t d) = true := by decide +kernel


/-- What the table says of a type. -/
structure Row (d : DataType) (b : BaseType) (t : Variant) : Prop where
  inTable : b ∈ baseTypes
  inBase : t ∈ b.variants
  name : t.implementingType.toList = d.name.toList
  over : t.overridesType = d.overrides
  named : Named d b.name.toList d.name.toList
  stored : d.overrides = true → ∃ d' ∈ allTypes, d'.name.toList = t.itemType.toList ∧ d'.overrides = false ∧ d'.vt = d.vt ∧ d'.avt = d.avt ∧
    d'.kind = d.kind

theorem row_of {d : DataType} (hd : d ∈ allTypes) : ∃ b t, Row d b t := by
  have h := List.all_eq_true.mp rows d hd
  obtain ⟨b, hb, h⟩ := List.any_eq_true.mp h
  obtain ⟨t, ht, h⟩ := List.any_eq_true.mp h
  simp only [rowOk, Bool.and_eq_true, beq_iff_eq, Bool.or_eq_true, Bool.not_eq_true', beq_eq_false_iff_ne, ne_eq] at h
  obtain ⟨⟨⟨⟨⟨⟨⟨h1, h2⟩, h3⟩, h4⟩, h5⟩, h6⟩, h7⟩, h8⟩ := h
  refine ⟨b, t, hb, ht, h1, h2, ⟨h3, h4, ?_, ?_, ?_⟩, ?_⟩
  · rw [isType, h5]; exact beq_self_eq_true _
  · intro hk
    cases h6 with
    | inl h => exact absurd hk h
    | inr h => exact h
  · intro hk
    cases h7 with
    | inl h => exact absurd hk h
    | inr h => exact h
  · intro ho
    cases h8 with
    | inl h => rw [ho] at h; cases h
    | inr h =>
      obtain ⟨d', hd', h⟩ := List.any_eq_true.mp h
      simp only [Bool.and_eq_true, beq_iff_eq, Bool.not_eq_true'] at h
      exact ⟨d', hd', h.1.1.1.1, h.1.1.1.2, h.1.1.2, h.1.2, h.2⟩

/-- Every type of the generator's table is a data type. -/
theorem listed : ∀ b ∈ baseTypes, ∀ t ∈ b.variants, ∃ d ∈ allTypes, d.name.toList = t.implementingType.toList := by decide +kernel

theorem mem_containers (c : Container) : c ∈ containers := by cases c <;> decide

theorem writer_mem {d : DataType} {b : BaseType} {t : Variant} (h : Row d b t) (c : Container) :
    (if d.overrides then writerOverrideFn c d.name.toList t.itemType.toList else writerDirectFn c b.name.toList d.name.toList) ∈ writerFile := by
  refine List.mem_map.mpr ⟨_, List.mem_flatMap.mpr ⟨b, h.inTable, List.mem_flatMap.mpr ⟨t, h.inBase, List.mem_map.mpr ⟨c, mem_containers c, rfl⟩⟩⟩, ?_⟩
  rw [← h.over, ← h.name]
  split <;> rfl

theorem reader_mem {d : DataType} {b : BaseType} {t : Variant} (h : Row d b t) (c : Container) :
    (if d.overrides then readerOverrideFn c d.name.toList t.itemType.toList else readerDirectFn c b.name.toList d.name.toList) ∈ readerFile := by
  refine List.mem_map.mpr ⟨_, List.mem_flatMap.mpr ⟨b, h.inTable, List.mem_flatMap.mpr ⟨t, h.inBase, List.mem_map.mpr ⟨c, mem_containers c, rfl⟩⟩⟩, ?_⟩
  rw [← h.over, ← h.name]
  split <;> rfl

theorem write_direct {d : DataType} (hd : d ∈ allTypes) (ho : d.overrides = false) (key : Bytes) (n : Nat) (c : Container) (v : c.Val d.Val) :
    writeText writerFile key (n + 1) (c, d.name.toList) (Obj.of (K := d.kind) c v) = writeTyped d c key v := by
  obtain ⟨b, t, h⟩ := row_of hd
  have hm := writer_mem h c
  rw [ho] at hm
  have hf := find_fn (writer_keys ▸ keys_nodup) hm (ty := (c, d.name.toList)) rfl
  rw [writeText, hf]
  show (if _ then _ else _) = _
  rw [if_pos ⟨rfl, rfl, rfl, h.named.ty⟩]
  exact direct_write h.named _ key c v

theorem write_override {nm nm' : String} {vt avt : Nat} {k : Kind} {b : BaseType} {t : Variant}
    (h : Row ⟨nm, vt, avt, k, true⟩ b t) (hd' : ⟨nm', vt, avt, k, false⟩ ∈ allTypes) (hn : nm'.toList = t.itemType.toList)
    (key : Bytes) (n : Nat) (c : Container) (v : c.Val k.Val) :
    writeText writerFile key (n + 2) (c, nm.toList) (Obj.of (K := k) c v) = writeTyped ⟨nm, vt, avt, k, true⟩ c key v := by
  have hm := writer_mem h c
  have hf := find_fn (writer_keys ▸ keys_nodup) hm (ty := (c, nm.toList)) rfl
  obtain ⟨b', t', h'⟩ := row_of hd'
  rw [writeText, hf]
  show (if _ then _ else _) = _
  rw [if_pos ⟨rfl, rfl, rfl, h.named.ty⟩]
  refine (override_write (hn ▸ h'.named.ty) _ key c v).trans ?_
  rw [← hn]
  refine (write_direct hd' rfl key n c v).trans ?_
  cases k <;> cases c <;> rfl

theorem read_direct {d : DataType} (hd : d ∈ allTypes) (ho : d.overrides = false) (env : REnv) (key : Bytes) (n : Nat) (c : Container) (v : c.Val d.Val) :
    readText readerFile env key (n + 1) (c, d.name.toList) (Obj.of (K := d.kind) c v) = readObj env d c key v := by
  obtain ⟨b, t, h⟩ := row_of hd
  have hm := reader_mem h c
  rw [ho] at hm
  have hf := find_fn (reader_keys ▸ keys_nodup) hm (ty := (c, d.name.toList)) rfl
  rw [readText, hf]
  show (if _ then _ else _) = _
  rw [if_pos ⟨(fun h => nomatch h), rfl, rfl, h.named.ty⟩]
  exact direct_read h.named ho env _ key c v

theorem default_c {K : Kind} (c : Container) : (Obj.default c : Obj K).c = c := by cases c <;> rfl

theorem read_direct_default {d : DataType} (hd : d ∈ allTypes) (ho : d.overrides = false) (env : REnv) (key : Bytes) (n : Nat) (c : Container) :
    readText readerFile env key (n + 1) (c, d.name.toList) (Obj.default (K := d.kind) c) = readObj env d c key (dflt d.kind c) := by
  obtain ⟨b, t, h⟩ := row_of hd
  have hm := reader_mem h c
  rw [ho] at hm
  have hf := find_fn (reader_keys ▸ keys_nodup) hm (ty := (c, d.name.toList)) rfl
  rw [readText, hf]
  show (if _ then _ else _) = _
  rw [if_pos ⟨(fun h => nomatch h), rfl, default_c c, h.named.ty⟩]
  exact direct_read_default h.named ho env _ key c

theorem read_override {nm nm' : String} {vt avt : Nat} {k : Kind} {b : BaseType} {t : Variant}
    (h : Row ⟨nm, vt, avt, k, true⟩ b t) (hd' : ⟨nm', vt, avt, k, false⟩ ∈ allTypes) (hn : nm'.toList = t.itemType.toList) (env : REnv)
    (key : Bytes) (n : Nat) (c : Container) (v : c.Val k.Val) :
    readText readerFile env key (n + 2) (c, nm.toList) (Obj.of (K := k) c v) = readObj env ⟨nm, vt, avt, k, true⟩ c key v := by
  have hm := reader_mem h c
  have hf := find_fn (reader_keys ▸ keys_nodup) hm (ty := (c, nm.toList)) rfl
  obtain ⟨b', t', h'⟩ := row_of hd'
  rw [readText, hf]
  show (if _ then _ else _) = _
  rw [if_pos ⟨(fun h => nomatch h), rfl, rfl, h.named.ty⟩]
  refine override_read (n' := nm') h.named.ty (hn ▸ h'.named.ty) env _ key c v ?_
  rw [← hn]
  exact read_direct_default hd' rfl env key n c

theorem write_all {d : DataType} (hd : d ∈ allTypes) (key : Bytes) (n : Nat) (c : Container) (v : c.Val d.Val) :
    writeText writerFile key (n + 2) (c, d.name.toList) (Obj.of (K := d.kind) c v) = writeTyped d c key v := by
  cases ho : d.overrides with
  | false => exact write_direct hd ho key (n + 1) c v
  | true =>
    obtain ⟨b, t, h⟩ := row_of hd
    obtain ⟨d', hd', h1, h2, h3, h4, h5⟩ := h.stored ho
    obtain ⟨nm, vt, avt, k, o⟩ := d
    obtain ⟨nm', vt', avt', k', o'⟩ := d'
    simp only at ho h2 h3 h4 h5 h1
    subst ho h2 h3 h4 h5
    exact write_override h hd' h1 key n c v

theorem read_all {d : DataType} (hd : d ∈ allTypes) (env : REnv) (key : Bytes) (n : Nat) (c : Container) (v : c.Val d.Val) :
    readText readerFile env key (n + 2) (c, d.name.toList) (Obj.of (K := d.kind) c v) = readObj env d c key v := by
  cases ho : d.overrides with
  | false => exact read_direct hd ho env key (n + 1) c v
  | true =>
    obtain ⟨b, t, h⟩ := row_of hd
    obtain ⟨d', hd', h1, h2, h3, h4, h5⟩ := h.stored ho
    obtain ⟨nm, vt, avt, k, o⟩ := d
    obtain ⟨nm', vt', avt', k', o'⟩ := d'
    simp only at ho h2 h3 h4 h5 h1
    subst ho h2 h3 h4 h5
    exact read_override h hd' h1 env key n c v

end ISD.Over
