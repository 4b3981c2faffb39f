import Verif.Proofs.VaryingHeap
import Verif.Spec.VaryingFail

/-!
# Varying objects whose contents cannot be copied
-/

namespace ISD
namespace VHeap

open Spec.VarProg

theorem copyTypeFails_throws (left : Left) {w : World} {dt ct : Word 4} {cl : DynClass} (hf : findTypeClass dt ct = some cl) {a b : Nat} {o p : DynObj}
    (ha : w.heap a = some o) (ht : o.t = cl.t) (hc : o.c = cl.c) (hb : w.heap b = some p) (ht' : p.t = cl.t) (hc' : p.c = cl.c) :
    copyTypeFails left dt ct (some a) (some b) w = .throw { w with heap := upd w.heap a (some ⟨cl.t, cl.c, left cl.t cl.c⟩) } := by
  unfold copyTypeFails; dsimp only; rw [hf]
  exact (Prog.bind_ok (deref_ok ha ht hc)).trans ((Prog.bind_ok (deref_ok hb ht' hc')).trans rfl)

/-- Copying an empty variable. -/
theorem deepCopyFails_empty (al : Allocator) (left : Left) {w : World} {sv : Nat → Option (Option DynObj)} {L : List Nat} (h : Repr w sv L) {i j : Nat} {v u : Obj}
    (hi : w.vars i = some v) (hj : w.vars j = some u) (he : i = j ∨ u.data = none) :
    ∃ w', deepCopyFails al left i j w = .ok () w' ∧ Repr w' (upd sv i (some none)) L ∧ w'.n = w.n := by
  obtain ⟨w1, x, e1, r1, v1, d1, n1⟩ := deinit_ok h hi
  have : ∃ y, w1.vars j = some y ∧ y.data = none := by
    by_cases hij : j = i
    · subst hij; exact ⟨x, by rw [v1, upd_same], d1⟩
    · exact ⟨u, by rw [v1, upd_other _ _ hij, hj], he.resolve_left fun e => hij e.symm⟩
  obtain ⟨y, hy, dy⟩ := this
  refine ⟨w1, ?_, r1, n1⟩
  rw [deepCopyFails, Prog.bind_ok e1, if_neg (by decide)]
  exact (Prog.bind_ok (getVar_ok hy)).trans (by rw [dy]; rfl)

/-- Copying the object of another variable. -/
theorem deepCopyFails_full (al : Allocator) (left : Left) {w : World} {sv : Nat → Option (Option DynObj)} {L : List Nat} (h : Repr w sv L) {i j : Nat} (hij : i ≠ j)
    {v u : Obj} (hi : w.vars i = some v) (hj : w.vars j = some u) {o : DynObj} (ho : sv j = some (some o)) :
    (al.allocOk w.n = true → ∃ w' x, deepCopyFails al left i j w = .throw w' ∧ Repr w' (upd sv i (some (some ⟨o.t, o.c, left o.t o.c⟩))) L ∧ w'.n = w.n + 1 ∧
      w'.vars i = some x ∧ x.data.isSome) ∧
    (al.allocOk w.n = false → ∃ w' x, deepCopyFails al left i j w = .throw w' ∧ Repr w' (upd sv i (some none)) L ∧ w'.n = w.n + 1 ∧ w'.vars i = some x ∧ x.data = none) := by
  have hji : j ≠ i := fun e => hij e.symm
  obtain ⟨w1, x, e1, r1, v1, d1, n1⟩ := deinit_ok h hi
  have hj1 : w1.vars j = some u := by rw [v1, upd_other _ _ hji, hj]
  have hi1 : w1.vars i = some x := by rw [v1, upd_same]
  rcases r1.cases hj1 with ⟨_, e⟩ | ⟨b, p, cl, du, e, hf, ht, hc, hb⟩
  · rw [upd_other _ _ hji, ho] at e; cases e
  rw [upd_other _ _ hji, ho] at e
  cases e
  have m := setType_ok al r1 hi1 u.ty u.ct
  have start : deepCopyFails al left i j w = (do
      if !(← setType al i u.ty u.ct) then Prog.throw
      let d ← getVar i
      let s ← getVar j
      if !(← copyTypeFails left d.ty d.ct d.data s.data) then Prog.throw : Prog World Unit) w1 := by
    rw [deepCopyFails, Prog.bind_ok e1, if_neg (by decide)]
    exact (Prog.bind_ok (getVar_ok hj1)).trans (by rw [du]; rfl)
  constructor
  · intro ha
    obtain ⟨w2, a, e2, r2, n2, v2⟩ := m.made cl hf (by rw [n1, ha])
    rw [upd_upd] at r2
    have hi2 : w2.vars i = some ⟨u.ty, u.ct, some a⟩ := by rw [v2, upd_same]
    have hj2 : w2.vars j = some u := by rw [v2, upd_other _ _ hji, hj1]
    rcases r2.cases hj2 with ⟨e, _⟩ | ⟨b', p', cl', du', e', hf', ht', hc', hb'⟩
    · rw [du] at e; cases e
    rw [upd_other _ _ hji, ho] at e'
    cases e'
    rw [du] at du'; cases du'
    rcases r2.cases hi2 with ⟨e, _⟩ | ⟨a', q, cl2, da, eq, hfa, hta, hca, haa⟩
    · cases e
    cases da
    have hcl : cl2 = cl := by
      have : findTypeClass u.ty u.ct = some cl2 := hfa
      rw [hf] at this; exact (Option.some.inj this).symm
    subst hcl
    have hcl : cl' = cl2 := by rw [hf] at hf'; exact (Option.some.inj hf').symm
    subst hcl
    have := r2.store hi2 (o := ⟨cl'.t, cl'.c, left cl'.t cl'.c⟩) hfa rfl rfl
    rw [upd_upd] at this
    have eo : (⟨o.t, o.c, left o.t o.c⟩ : DynObj) = ⟨cl'.t, cl'.c, left cl'.t cl'.c⟩ := by rw [ht, hc]
    refine ⟨⟨w2.vars, upd w2.heap a (some ⟨cl'.t, cl'.c, left cl'.t cl'.c⟩), w2.n⟩, ⟨u.ty, u.ct, some a⟩, ?_, eo ▸ this, ?_, hi2, rfl⟩
    · rw [start, Prog.bind_ok e2, if_neg (by decide)]
      refine (Prog.bind_ok (getVar_ok hi2)).trans ((Prog.bind_ok (getVar_ok hj2)).trans ?_)
      rw [du]
      exact Prog.bind_throw (copyTypeFails_throws left hfa haa hta hca hb' ht' hc')
    · dsimp only; rw [n2, n1]
  · intro ha
    obtain ⟨w2, e2, r2, n2⟩ := m.noMemory cl hf (by rw [n1, ha])
    rw [upd_upd] at r2
    have : ∃ x, w2.vars i = some x := by
      have := (r2.var i).isSome
      rw [upd_same] at this
      exact Option.isSome_iff_exists.mp this
    obtain ⟨x, hx⟩ := this
    refine ⟨w2, x, ?_, r2, by rw [n2, n1], hx, ?_⟩
    · rw [start, Prog.bind_throw e2]
    · rcases r2.cases hx with ⟨e, _⟩ | ⟨_, _, _, _, e, _⟩
      · exact e
      · rw [upd_same] at e; cases e

/-- Each statement does what is described, and leaves as many objects as described. -/
theorem stepF_ok (al : Allocator) (op : FOp) {w : World} {s : State} {L : List Nat} (h : Repr w s.vars L) (hn : w.n = s.n)
    (hs : op.op.scoped (fun i => (w.vars i).isSome) = true) :
    Does (op.exec al w) (stepF al.allocOk op s) (op.leaves al w ++ L) ∧ (op.leaves al w).length = leak al.allocOk op s := by
  have use : ∀ {i : Nat}, i ∈ op.op.uses → ∃ v, w.vars i = some v := by
    intro i hi
    have := (Bool.and_eq_true _ _ ▸ hs).1
    exact Option.isSome_iff_exists.mp (List.all_eq_true.mp this i hi)
  cases op with
  | stmt op =>
    refine ⟨step_ok al op h hn hs, ?_⟩
    cases op with
    | moveAssign i j =>
      obtain ⟨v, hv⟩ := use (i := i) (by simp [FOp.op, Op.uses])
      unfold FOp.leaves Op.overwrites leak
      dsimp only
      rw [hv]
      rcases h.cases hv with ⟨ed, es⟩ | ⟨a, o, cl, ed, es, _⟩
      · rw [held_eq es]; simp [ed]
      · rw [held_eq es]; simp [ed]
    | _ => rfl
  | copyFails i j left =>
    have hi : w.vars i = none := by
      have := (Bool.and_eq_true _ _ ▸ hs).2
      simpa [FOp.op, Op.makes] using this
    obtain ⟨u, hj⟩ := use (i := j) (by simp [FOp.op, Op.uses])
    have hij : i ≠ j := by rintro rfl; rw [hi] at hj; cases hj
    have hji : j ≠ i := fun e => hij e.symm
    have h0 : Repr ⟨upd w.vars i (some ⟨0, 0, none⟩), w.heap, w.n⟩ (upd s.vars i (some none)) L :=
      h.setEmpty (i := i) (fun v hv => by rw [hi] at hv; cases hv) (fun v hv => by cases hv; rfl) (.empty _ _) w.n
    have hi0 : (⟨upd w.vars i (some ⟨0, 0, none⟩), w.heap, w.n⟩ : World).vars i = some ⟨0, 0, none⟩ := upd_same _ _ _
    have hj0 : (⟨upd w.vars i (some ⟨0, 0, none⟩), w.heap, w.n⟩ : World).vars j = some u := (upd_other _ _ hji).trans hj
    have hsi : s.vars i = none := by
      have := (h.var i).isSome; rw [hi] at this; exact Option.isSome_eq_false_iff.mp this.symm |> Option.isNone_iff_eq_none.mp
    rcases h.cases hj with ⟨ed, es⟩ | ⟨b, o, cl, hd, es, hf, ht, hc, hb⟩
    · obtain ⟨w', e, r, n'⟩ := deepCopyFails_empty al left h0 hi0 hj0 (.inr ed)
      rw [upd_upd] at r
      have hl : FOp.leaves al (.copyFails i j left) w = [] := by unfold FOp.leaves; dsimp only; rw [e]
      rw [hl]
      refine ⟨Does.ok (w' := w') (out := .done) ?_ ?_ ?_ ?_, ?_⟩
      · exact Prog.bind_ok (show copyConstructFails al left i j w = .ok () w' by unfold copyConstructFails; rw [e])
      · rw [stepF, held_eq es]
      · rw [stepF, held_eq es]; exact r
      · rw [stepF, held_eq es]; exact n'.trans hn
      · rw [leak, held_eq es]; rfl
    · obtain ⟨c1, c2⟩ := deepCopyFails_full al left h0 hij hi0 hj0 (o := o) ((upd_other _ _ hji).trans es)
      have hst : stepF al.allocOk (.copyFails i j left) s = (.threw, s.tick) := by rw [stepF, held_eq es]
      cases hA : al.allocOk w.n with
      | true =>
        obtain ⟨w', x, e, r, n', hx, hxd⟩ := c1 hA
        obtain ⟨a, ha⟩ := Option.isSome_iff_exists.mp hxd
        have hl : FOp.leaves al (.copyFails i j left) w = [a] := by
          unfold FOp.leaves; dsimp only; rw [e]; dsimp only; rw [hx]; show x.data.toList = [a]; rw [ha]; rfl
        have r1 := r.moveSelf (i := i)
        rw [hx, upd_upd, upd_upd] at r1
        have r2 := r1.setEmpty (i := i) (x := none) (y := none) (fun v hv => by
          rw [show (⟨upd w'.vars i (some ⟨0, 0, none⟩), w'.heap, w'.n⟩ : World).vars i = _ from upd_same _ _ _] at hv; cases hv; rfl)
          (fun v hv => by cases hv) .dead w'.n
        rw [upd_upd, upd_upd, upd_self hsi] at r2
        rw [hl]
        have he : (Option.bind (some x) Obj.data).toList = [a] := by show x.data.toList = [a]; rw [ha]; rfl
        rw [he] at r2
        refine ⟨Does.throw (w' := ⟨upd w'.vars i none, w'.heap, w'.n⟩) ?_ ?_ ?_ ?_, ?_⟩
        · exact Prog.bind_throw (show copyConstructFails al left i j w = .throw _ by unfold copyConstructFails; rw [e])
        · rw [hst]
        · rw [hst]; exact r2
        · rw [hst]; exact n'.trans (by dsimp only; rw [hn]; rfl)
        · rw [leak, held_eq es, if_pos ⟨rfl, by rw [← hn, hA]⟩]; rfl
      | false =>
        obtain ⟨w', x, e, r, n', hx, hxd⟩ := c2 hA
        have hl : FOp.leaves al (.copyFails i j left) w = [] := by
          unfold FOp.leaves; dsimp only; rw [e]; dsimp only; rw [hx]; show x.data.toList = []; rw [hxd]; rfl
        have r2 := r.setEmpty (i := i) (x := none) (y := none) (fun v hv => by rw [hx] at hv; cases hv; exact hxd) (fun v hv => by cases hv) .dead w'.n
        rw [upd_upd, upd_upd, upd_self hsi] at r2
        rw [hl]
        refine ⟨Does.throw (w' := ⟨upd w'.vars i none, w'.heap, w'.n⟩) ?_ ?_ ?_ ?_, ?_⟩
        · exact Prog.bind_throw (show copyConstructFails al left i j w = .throw _ by unfold copyConstructFails; rw [e])
        · rw [hst]
        · rw [hst]; exact r2
        · rw [hst]; exact n'.trans (by dsimp only; rw [hn]; rfl)
        · rw [leak, if_neg fun hh => by rw [← hn, hA] at hh; exact nomatch hh.2]; rfl
  | assignFails i j left =>
    obtain ⟨v, hi⟩ := use (i := i) (by simp [FOp.op, Op.uses])
    obtain ⟨u, hj⟩ := use (i := j) (by simp [FOp.op, Op.uses])
    refine ⟨?_, rfl⟩
    show Does _ _ L
    by_cases hij : i = j
    · obtain ⟨w', e, r, n'⟩ := deepCopyFails_empty al left h hi hj (.inl hij)
      have hst : stepF al.allocOk (.assignFails i j left) s = (.done, s.set i none) := by rw [stepF, if_pos hij]
      refine Does.ok (w' := w') (out := .done) (Prog.bind_ok e) ?_ ?_ ?_
      · rw [hst]
      · rw [hst]; exact r
      · rw [hst]; exact n'.trans hn
    · rcases h.cases hj with ⟨ed, es⟩ | ⟨b, o, cl, hd, es, hf, ht, hc, hb⟩
      · obtain ⟨w', e, r, n'⟩ := deepCopyFails_empty al left h hi hj (.inr ed)
        have hst : stepF al.allocOk (.assignFails i j left) s = (.done, s.set i none) := by rw [stepF, if_neg hij, held_eq es]
        refine Does.ok (w' := w') (out := .done) (Prog.bind_ok e) ?_ ?_ ?_
        · rw [hst]
        · rw [hst]; exact r
        · rw [hst]; exact n'.trans hn
      · obtain ⟨c1, c2⟩ := deepCopyFails_full al left h hij hi hj es
        have hst : stepF al.allocOk (.assignFails i j left) s = make al.allocOk s i ⟨o.t, o.c, left o.t o.c⟩ .threw := by rw [stepF, if_neg hij, held_eq es]
        cases hA : al.allocOk w.n with
        | true =>
          obtain ⟨w', x, e, r, n', -, -⟩ := c1 hA
          have hst := hst.trans (if_pos (by rw [← hn, hA]))
          refine Does.throw (w' := w') (Prog.bind_throw e) ?_ ?_ ?_
          · rw [hst]
          · rw [hst]; exact r
          · rw [hst]; exact n'.trans (by rw [hn]; rfl)
        | false =>
          obtain ⟨w', x, e, r, n', -, -⟩ := c2 hA
          have hst := hst.trans (if_neg (by rw [← hn, hA]; decide))
          refine Does.throw (w' := w') (Prog.bind_throw e) ?_ ?_ ?_
          · rw [hst]
          · rw [hst]; exact r
          · rw [hst]; exact n'.trans (by rw [hn]; rfl)

/-- A list of statements. -/
theorem runF_ok (al : Allocator) (ops : List FOp) : ∀ {w : World} {s : State} {L : List Nat}, Repr w s.vars L → w.n = s.n →
    ∃ w' lost, runF al ops w = some ((Spec.VarProg.runF al.allocOk ops s).1, w', lost) ∧
      Repr w' (Spec.VarProg.runF al.allocOk ops s).2.vars (lost ++ L) ∧ w'.n = (Spec.VarProg.runF al.allocOk ops s).2.n ∧
      lost.length = abandonedF al.allocOk ops s := by
  induction ops with
  | nil => intro w s L h hn; exact ⟨w, [], rfl, h, hn, rfl⟩
  | cons op ops ih =>
    intro w s L h hn
    have hsc : (fun i => (w.vars i).isSome) = fun i => (s.vars i).isSome := by
      funext i; exact (h.var i).isSome
    unfold runF Spec.VarProg.runF abandonedF
    rw [hsc]
    by_cases hs : op.op.scoped (fun i => (s.vars i).isSome) = true
    · rw [if_pos hs, if_pos hs, if_pos hs]
      obtain ⟨⟨w1, e1, r1, n1⟩, l1⟩ := stepF_ok al op h hn (by rw [hsc]; exact hs)
      obtain ⟨w2, lost, e2, r2, n2, l2⟩ := ih r1 n1
      refine ⟨w2, op.leaves al w ++ lost, ?_, ?_, n2, ?_⟩
      · generalize op.exec al w = r at e1
        cases r with
        | ok o w' =>
          have := Option.some.inj e1
          cases this
          dsimp only
          rw [e2]; rfl
        | throw w' =>
          have := Option.some.inj e1
          obtain ⟨e3, e4⟩ := Prod.mk.inj this
          subst e4
          dsimp only
          rw [e2, ← e3]; rfl
        | ub => cases e1
      · refine r2.permute (fun a => by simp [or_comm, or_left_comm, or_assoc]) ?_
        rw [List.append_assoc, ((List.perm_append_comm_assoc _ _ _).nodup_iff)]
        exact r2.nodup
      · rw [List.length_append, l2, l1]
    · rw [if_neg hs, if_neg hs, if_neg hs]
      obtain ⟨w2, lost, e2, r2, n2, l2⟩ := ih h hn
      exact ⟨w2, lost, by rw [e2]; rfl, r2, n2, l2⟩

end VHeap
end ISD
