import Verif.Proofs.HostileEntity

/-! # What a read leaves in its destination -/

namespace ISD

attribute [local irreducible] dynTable DynClass.all findTypeClass

set_option linter.unusedVariables false

/-- The run in place and the run that gives a value end alike: with true and the value made by `f` from the object, with false, or with
an exception; the object has `P`. -/
def InPlaceSim {V W : Type} (x : Res (RSt × V) Bool) (y : Res RSt (Option W)) (f : V → W) (P : V → Prop) : Prop :=
  match x with
  | .ok true (st, v) => y = .ok (some (f v)) st ∧ P v
  | .ok false (st, v) => y = .ok none st ∧ P v
  | .throw (st, v) => y = .throw st ∧ P v
  | .ub => y = .ub

namespace InPlaceSim

variable {V W α : Type} {st : RSt} {v : V} {f : V → W} {P : V → Prop}

theorem done {w : W} (hw : w = f v) (hp : P v) : InPlaceSim ((pure true : Prog (RSt × V) Bool) (st, v)) ((pure (some w) : Prog RSt (Option W)) st) f P :=
  ⟨hw ▸ rfl, hp⟩

theorem fail (hp : P v) : InPlaceSim ((pure false : Prog (RSt × V) Bool) (st, v)) ((pure none : Prog RSt (Option W)) st) f P := ⟨rfl, hp⟩

theorem reader {p : Prog RSt α} {g : α → Prog (RSt × V) Bool} {h : α → Prog RSt (Option W)} (hp : P v)
    (hg : ∀ a st', p st = .ok a st' → InPlaceSim (g a (st', v)) (h a st') f P) : InPlaceSim ((withReader p >>= g) (st, v)) ((p >>= h) st) f P := by
  rw [Prog.bind_apply, Prog.bind_apply]
  unfold withReader
  dsimp only
  cases e : p st with
  | ok a st' => exact hg a st' e
  | throw st' => exact ⟨rfl, hp⟩
  | ub => rfl

theorem object {p : Prog V α} {a : α} {v' : V} {g : α → Prog (RSt × V) Bool} {y : Res RSt (Option W)} (hp : p v = .ok a v')
    (hg : InPlaceSim (g a (st, v')) y f P) : InPlaceSim ((withObject p >>= g) (st, v)) y f P := by
  rw [Prog.bind_apply]
  unfold withObject
  dsimp only
  rw [hp]
  exact hg

theorem ite {c : Prop} [Decidable c] {x y : Prog (RSt × V) Bool} {x' y' : Prog RSt (Option W)} (h1 : c → InPlaceSim (x (st, v)) (x' st) f P)
    (h2 : ¬ c → InPlaceSim (y (st, v)) (y' st) f P) : InPlaceSim ((if c then x else y) (st, v)) ((if c then x' else y') st) f P := by
  by_cases h : c
  · rw [if_pos h, if_pos h]; exact h1 h
  · rw [if_neg h, if_neg h]; exact h2 h

/-- A part of the object is read; the rest goes on when that succeeded. -/
theorem part {A B : Type} {a : A} {put : A → V} {p : Prog (RSt × A) Bool} {q : Prog RSt (Option B)} {φ : A → B} {Q : A → Prop}
    {g : Prog (RSt × V) Bool} {h : Option B → Prog RSt (Option W)} (hx : InPlaceSim (p (st, a)) (q st) φ Q) (hP : ∀ a, Q a → P (put a))
    (h0 : ∀ s, h none s = .ok none s) (hg : ∀ a st', Q a → InPlaceSim (g (st', put a)) (h (some (φ a)) st') f P) :
    InPlaceSim ((do if !(← onPart a put p) then return false else g : Prog (RSt × V) Bool) (st, v)) ((q >>= h) st) f P := by
  rw [Prog.bind_apply, Prog.bind_apply]
  unfold onPart
  dsimp only
  revert hx
  unfold InPlaceSim
  cases p (st, a) with
  | ok b s =>
    obtain ⟨st', a'⟩ := s
    cases b with
    | true => rintro ⟨e, hq⟩; rw [e]; exact hg a' st' hq
    | false =>
      rintro ⟨e, hq⟩
      rw [e]
      dsimp only
      rw [h0]
      exact ⟨rfl, hP _ hq⟩
  | throw s => obtain ⟨st', a'⟩ := s; rintro ⟨e, hq⟩; rw [e]; exact ⟨rfl, hP _ hq⟩
  | ub => intro e; rw [e]

theorem inSub {p : Prog (RSt × V) Bool} {q : Prog RSt (Option W)} (h : ∀ st, InPlaceSim (p (st, v)) (q st) f P) :
    InPlaceSim (inSubInPlace p (st, v)) (inRSubsection q st) f P := by
  unfold inSubInPlace inRSubsection
  dsimp only
  cases e : st.1.activeSubsection with
  | none => rfl
  | some r =>
    dsimp only
    have := h (r, st.2)
    revert this
    unfold InPlaceSim
    cases p ((r, st.2), v) with
    | ok b s => 
      obtain ⟨⟨r', st'⟩, a'⟩ := s
      cases b <;> (rintro ⟨e, hq⟩; rw [e]; exact ⟨rfl, hq⟩)
    | throw s => obtain ⟨⟨r', st'⟩, a'⟩ := s; rintro ⟨e, hq⟩; rw [e]; exact ⟨rfl, hq⟩
    | ub => intro e; rw [e]

theorem mono {x : Res (RSt × V) Bool} {y : Res RSt (Option W)} {Q : V → Prop} (h : InPlaceSim x y f P) (hm : ∀ v, P v → Q v) : InPlaceSim x y f Q := by
  unfold InPlaceSim at h ⊢
  match x with
  | .ok true (st, v) => exact ⟨h.1, hm _ h.2⟩
  | .ok false (st, v) => exact ⟨h.1, hm _ h.2⟩
  | .throw (st, v) => exact ⟨h.1, hm _ h.2⟩
  | .ub => exact h

end InPlaceSim

/-- Reading in place agrees with `read` and leaves a well formed object, however it ends. -/
def InPlaceOk {V : Type} (M : Managed V) (S : ClassSpec V) : Prop :=
  ∀ (L : Leftover) (env : REnv) (fresh : Bytes → Nat) (v : V), S.wf v → ∀ st : RSt,
    InPlaceSim (M.readInPlace L env fresh (st, v)) (M.read env fresh v st) id S.wf

theorem base_inPlace (L : Leftover) (env : REnv) (t : DataType) (c : Container) (k : Bytes) (v : c.Val t.Val) (st : RSt) :
    InPlaceSim (readBaseInPlace L env t c k (st, v)) (EReader.read env t c k v st) id (fun _ => True) := by
  unfold readBaseInPlace
  dsimp only
  cases e : EReader.read env t c k v st with
  | ok r st' =>
    cases r with
    | none => exact ⟨rfl, trivial⟩
    | some v' => exact ⟨rfl, trivial⟩
  | throw st' => exact ⟨rfl, trivial⟩
  | ub => rfl

theorem graph_inPlace {α : Type} [NodeType α] (st : Stored α) (a r s : Bool) : InPlaceOk (graphMF st a r s) (graphSpec st a r s) := by
  intro L env fresh g hg st0
  refine .reader hg fun x st1 _ => ?_
  cases x with
  | none => exact .fail hg
  | some roots =>
    dsimp only
    have hg1 : (graphSpec st a r s).wf { g with roots := OrdSet.ofList (roots.map st.ofVal) } := ⟨OrdSet.sorted_ofList _, hg.2⟩
    refine .object rfl (.reader hg1 fun y st2 _ => ?_)
    cases y with
    | none => exact .fail hg1
    | some pairs => exact .object rfl (.done rfl (insertPairs_valid _ _ ⟨OrdSet.sorted_ofList _, List.Pairwise.nil⟩))

theorem idx_inPlace (t : DataType) : InPlaceOk (idxMF t) (idxSpec t) := by
  intro L env fresh v _ st
  have := base_inPlace L env t .idxVector (key "Values") v st
  show InPlaceSim ((readBaseInPlace L env t .idxVector (key "Values") >>= _) (st, v)) ((EReader.read env t .idxVector (key "Values") v >>= _) st) id _
  rw [Prog.bind_apply, Prog.bind_apply]
  revert this
  unfold InPlaceSim
  cases readBaseInPlace L env t .idxVector (key "Values") (st, v) with
  | ok b s =>
    obtain ⟨st', v'⟩ := s
    cases b <;> (rintro ⟨e, _⟩; rw [e]; exact ⟨rfl, trivial⟩)
  | throw s => obtain ⟨st', v'⟩ := s; rintro ⟨e, _⟩; rw [e]; exact ⟨rfl, trivial⟩
  | ub => intro e; rw [e]

theorem onVarying_run {v v' : Varying} {q : Prog Varying Bool} {b : Bool} (h : q v = .ok b v') (st : RSt) : onVarying v q st = .ok (b, v') st := by
  unfold onVarying
  rw [h]

theorem varying_inPlace : InPlaceOk varyingMF varyingSpec := by
  intro L env fresh v hv st
  obtain ⟨v1, e1, hn, -⟩ := deinitialize_ok hv
  have hw1 : varyingSpec.wf v1 := fun o ho => by rw [hn] at ho; cases ho
  show InPlaceSim (Varying.readInPlace L env (st, v)) (Varying.read env v st) _ _
  rw [Varying.readInPlace, Varying.read, Prog.bind_ok (onVarying_run e1 st)]
  refine .object e1 ?_
  dsimp only
  refine .reader hw1 fun x st1 _ => ?_
  cases x with
  | none => exact .fail hw1
  | some ty =>
    refine .reader hw1 fun x st2 _ => ?_
    cases x with
    | none => exact .fail hw1
    | some ct =>
      dsimp only
      generalize BitVec.setWidth 32 (u16Of ty) = dt
      generalize BitVec.setWidth 32 (u16Of ct) = ct
      have e2 := setType_any hw1 dt ct
      obtain ⟨hw, hf⟩ := newType_wf dt ct
      rw [Prog.bind_ok (onVarying_run e2 st2)]
      refine .object e2 ?_
      dsimp only
      refine .ite (fun _ => .fail hw) fun hs => ?_
      rw [Prog.bind_ok (Prog.get_apply _)]
      dsimp only
      cases ho : newType dt ct with
      | none => exact .fail (by rw [ho] at hw; exact hw)
      | some o =>
        dsimp only
        obtain ⟨cl, hfind, hmem, hmade⟩ := hf o ho
        rw [hfind]
        dsimp only
        rw [if_pos hmade, if_pos hmade]
        have hw' : ∀ x, varyingSpec.wf ⟨dt, ct, some ⟨o.t, o.c, x⟩⟩ := by
          intro x o' ho'
          obtain rfl := Option.some.inj ho'
          obtain ⟨i, j, a1, a2, a3, a4⟩ := hw o ho
          exact ⟨i, j, a1, a2, a3, a4⟩
        have := base_inPlace L env o.t o.c (key "Data") o.v st2
        rw [Prog.bind_apply]
        unfold onPart
        dsimp only
        revert this
        unfold InPlaceSim
        cases readBaseInPlace L env o.t o.c (key "Data") (st2, o.v) with
        | ok b s =>
          obtain ⟨st', v'⟩ := s
          cases b <;> (rintro ⟨e, _⟩; rw [e]; exact ⟨rfl, hw' _⟩)
        | throw s => obtain ⟨st', v'⟩ := s; rintro ⟨e, _⟩; rw [e]; exact ⟨rfl, hw' _⟩
        | ub => intro e; rw [e]

section table

variable {K V : Type} [DecidableEq K] {M : Managed V} {S : ClassSpec V}

/-- Distinct keys, well formed values. -/
def TableWf0 (S : ClassSpec V) (t : Table K V) : Prop := (t.map Prod.fst).Nodup ∧ ∀ k v, (k, some v) ∈ t → S.wf v

theorem TableWf0.emplace {ord : TableOrder (K × Option V)} {t : Table K V} (h : TableWf0 S t) {k : K} (hk : ¬ (t.find k).isSome = true)
    {x : Option V} (hx : ∀ v, x = some v → S.wf v) : TableWf0 S (t.emplace ord k x).1 := by
  have hf : t.find k = none := by
    cases e : t.find k with
    | none => rfl
    | some y => rw [e] at hk; exact absurd rfl hk
  rw [emplace_new hf]
  have hp := ord.perm t (k, x)
  refine ⟨?_, fun k' v hm => ?_⟩
  · rw [(hp.map Prod.fst).nodup_iff, List.map_cons, List.nodup_cons]
    exact ⟨(find_none k).mp hf, h.1⟩
  · rcases List.mem_cons.mp (hp.mem_iff.mp hm) with e | hm
    · cases e; exact hx v rfl
    · exact h.2 k' v hm

theorem loop_inPlace (hM : InPlaceOk M S) (hi : S.wf M.init) (L : Leftover) (env : REnv) (fresh : Bytes → Nat) (ord : TableOrder (K × Option V))
    (p : Option Nat) : ∀ (ks : List K) (i : Nat) (t : Table K V), TableWf0 S t → ∀ st : RSt,
      InPlaceSim (tableReadInPlaceLoop M ord L env fresh p i ks (st, t)) (tableReadLoop M ord env fresh p i ks t st) id (TableWf0 S)
  | [], i, t, ht, st => .done rfl ht
  | k :: ks, i, t, ht, st => by
    rw [tableReadInPlaceLoop, tableReadLoop]
    refine .reader ht fun x st1 _ => ?_
    obtain ⟨ok, hasData⟩ := x
    dsimp only
    refine .ite (fun _ => .fail ht) fun _ => ?_
    rw [Prog.bind_ok (Prog.get_apply _)]
    dsimp only
    refine .ite (fun _ => .fail ht) fun hk => .ite (fun _ => ?_) fun _ => ?_
    · refine .part (.inSub fun st => hM L env fresh M.init hi st) (fun v hv => ht.emplace hk fun v' e => by cases e; exact hv) (fun _ => rfl)
        fun v st2 hv => ?_
      have ht' := ht.emplace (ord := ord) hk (x := some v) fun v' e => by cases e; exact hv
      dsimp only
      refine .reader ht' fun b st3 _ => .ite (fun _ => .fail ht') fun _ => ?_
      exact loop_inPlace hM hi L env fresh ord p ks (i + 1) _ ht' st3
    · have ht' := ht.emplace (ord := ord) hk (x := none) fun v' e => (nomatch e)
      refine .object rfl (.reader ht' fun b st3 _ => .ite (fun _ => .fail ht') fun _ => ?_)
      exact loop_inPlace hM hi L env fresh ord p ks (i + 1) _ ht' st3

theorem table_inPlace (hM : InPlaceOk M S) (hi : S.wf M.init) (st : Stored K) (zk ne : Bool) (ord : TableOrder (K × Option V)) :
    InPlaceOk (tableMF st M zk ne ord) (tableSpec st S zk ne) := by
  intro L env fresh t ht st0
  refine .reader ht fun x st1 _ => ?_
  cases x with
  | none => exact .fail ht
  | some keys =>
    refine .reader ht fun x st2 _ => ?_
    obtain ⟨ptr, count, b, idx⟩ := x
    cases b with
    | false => exact .fail ht
    | true =>
      dsimp only
      refine .ite (fun _ => .fail ht) fun _ => .object rfl ?_
      have hl := loop_inPlace hM hi L env fresh ord ptr (keys.map st.ofVal) 0 [] ⟨List.nodup_nil, fun _ _ h => absurd h List.not_mem_nil⟩ st2
      rw [Prog.bind_apply, Prog.bind_apply]
      revert hl
      unfold InPlaceSim
      cases tableReadInPlaceLoop M ord L env fresh ptr 0 (keys.map st.ofVal) (st2, []) with
      | ok b s =>
        obtain ⟨st', t'⟩ := s
        cases b with
        | false => rintro ⟨e, h⟩; rw [e]; exact ⟨rfl, h⟩
        | true =>
          rintro ⟨e, h⟩
          rw [e]
          exact InPlaceSim.reader (f := id) h fun b st3 _ => .ite (fun _ => .fail h) fun _ => .done rfl h
      | throw s => obtain ⟨st', t'⟩ := s; rintro ⟨e, h⟩; rw [e]; exact ⟨rfl, h⟩
      | ub => intro e; rw [e]

end table

theorem others_inPlace {A B : Type} {a : A} {b : B} {st : RSt} {p : Prog (RSt × B) Bool} {q : Prog RSt (Option B)} {Q : B → Prop} {P : A × B → Prop}
    {k : Option B → Prog RSt (Option (A × B))} (h : InPlaceSim (p (st, b)) (q st) id Q) (hP : ∀ b, Q b → P (a, b))
    (k0 : ∀ s, k none s = .ok none s) (k1 : ∀ b s, k (some b) s = .ok (some (a, b)) s) :
    InPlaceSim (onOthers (A := A) p (st, (a, b))) ((q >>= k) st) id P := by
  rw [Prog.bind_apply]
  unfold onOthers onPart
  dsimp only
  revert h
  unfold InPlaceSim
  cases p (st, b) with
  | ok r s =>
    obtain ⟨st', b'⟩ := s
    cases r with
    | true => rintro ⟨e, hq⟩; rw [e]; dsimp only; rw [k1]; exact ⟨rfl, hP _ hq⟩
    | false => rintro ⟨e, hq⟩; rw [e]; dsimp only; rw [k0]; exact ⟨rfl, hP _ hq⟩
  | throw s => obtain ⟨st', b'⟩ := s; rintro ⟨e, hq⟩; rw [e]; exact ⟨rfl, hP _ hq⟩
  | ub => intro e; rw [e]

mutual
  theorem IsClass.inPlace : ∀ {V : Type} {M : Managed V} {S : ClassSpec V}, IsClass M S → InPlaceOk M S
    | _, _, _, @IsClass.graph _ _ st h a r s => graph_inPlace st a r s
    | _, _, _, .idx t h => idx_inPlace t
    | _, _, _, .varying => varying_inPlace
    | _, _, _, @IsClass.table _ _ _ st h _ _ hM zk ne ord => table_inPlace hM.inPlace hM.lawful.init_wf st zk ne ord
    | _, _, _, .entity ss h _ => fun L env fresh v hv st => h.inPlace L env fresh v hv st
  theorem AreFields.inPlace : ∀ {fs : List Field} {ss : FieldSpecs fs}, AreFields ss → ∀ (L : Leftover) (env : REnv) (fresh : Bytes → Nat)
      (v : FieldsVal fs), ss.wf v → ∀ st : RSt, InPlaceSim (fieldsReadInPlace L env fresh fs (st, v)) (fieldsRead env fresh fs v st) id ss.wf
    | _, _, .nil, L, env, fresh, v, hv, st => .done rfl hv
    | _, _, @AreFields.base k t c fs rest hk ht h, L, env, fresh, v, hv, st => by
      rw [fieldsReadInPlace, fieldsRead]
      refine InPlaceSim.part (st := st) (v := v) (a := v.1) (put := fun a => (a, v.2)) (base_inPlace L env t c k v.1 st) (fun a _ => hv) (fun _ => rfl) fun a st2 _ => ?_
      exact others_inPlace (a := a) (P := (FieldSpecs.base k t c rest).wf) (h.inPlace L env fresh v.2 hv st2) (fun b hb => hb) (fun _ => rfl) (fun _ _ => rfl)
    | _, _, @AreFields.sub k V M S fs rest hk hM h, L, env, fresh, v, hv, st => by
      rw [fieldsReadInPlace, fieldsRead]
      refine InPlaceSim.reader (st := st) (v := v) (P := (FieldSpecs.sub k M S rest).wf) hv fun y st1 _ => ?_
      obtain ⟨ptr, b⟩ := y
      cases b with
      | false => cases ptr <;> exact .fail hv
      | true =>
        cases ptr with
        | none => exact others_inPlace (a := v.1) (P := (FieldSpecs.sub k M S rest).wf) (h.inPlace L env fresh v.2 hv.2 st1) (fun b hb => ⟨hv.1, hb⟩) (fun _ => rfl) (fun _ _ => rfl)
        | some ptr =>
          dsimp only
          refine InPlaceSim.part (st := st1) (v := v) (a := v.1) (put := fun a => (a, v.2)) (.inSub fun st => hM.inPlace L env fresh v.1 hv.1 st)
            (fun a ha => ⟨ha, hv.2⟩) (fun _ => rfl) fun a st2 ha => ?_
          dsimp only
          refine InPlaceSim.reader (st := st2) (v := ((a, v.2) : V × FieldsVal fs)) (P := (FieldSpecs.sub k M S rest).wf) ⟨ha, hv.2⟩ fun y st1 _ => ?_
          exact others_inPlace (a := a) (P := (FieldSpecs.sub k M S rest).wf) (h.inPlace L env fresh v.2 hv.2 st1) (fun b hb => ⟨ha, hb⟩) (fun _ => rfl) (fun _ _ => rfl)
end

end ISD
