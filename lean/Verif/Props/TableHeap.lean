import Verif.Proofs.TableHeap

/-!
# C88: tables own their objects, and references to entries stay valid
-/

set_option linter.unusedSectionVars false

namespace ISD.TableHeap

variable {K V : Type} [DecidableEq K]

theorem look_none {w : World K V} {t : Nat} : w.look t = none ↔ w.tables t = none := by
  unfold World.look
  cases w.tables t <;> simp

section calls

variable {M : Managed V} {S : ClassSpec V} {w : World K V} (hM : Lawful M S) (ord : TableOrder (K × Option Nat)) (h : Sound S w)

theorem ref_other {w' : World K V} {t : Nat} (ht : w'.tables t = w.tables t) {k : K} {a : Nat} (hr : w.Ref t k a) : w'.Ref t k a := by
  obtain ⟨e, he, hf⟩ := hr
  exact ⟨e, ht.trans he, hf⟩

theorem look_empty {t : Nat} (ht : w.tables t = some []) : w.look t = some noEntries := (look_of ht).trans rfl

include h

theorem sure_clear {t : Nat} {Q : Unit → World K V → Prop}
    (hq : ∀ e heap', w.tables t = some e → Own S ⟨heap', update w.tables t (some [])⟩ [] →
      (∀ t', t' ≠ t → ∀ k a, w.Ref t' k a → heap' a = w.heap a) → Q () ⟨heap', update w.tables t (some [])⟩) :
    Sure (World.clearTable t w) Q := by
  cases he : w.tables t with
  | none =>
    rw [World.clearTable, Prog.bind_apply, table_throw he]
    trivial
  | some e =>
    obtain ⟨heap', e1, o, hh⟩ := clearTable_own (own_nil.mpr h) he
    rw [e1]
    exact hq e heap' he o fun t' ht k a hr => hh a fun k' hr' => ht (h.one hr hr').1

theorem make_own {t : Nat} (ht : w.tables t = none) : Own S ⟨w.heap, update w.tables t (some [])⟩ [] := by
  refine (own_nil.mpr h).relink (fun y hy => by cases hy; exact .nil) (fun a => ?_) (fun y k k' a hy hf => by cases hy; cases hf)
    (fun a y k ha => by cases ha) .nil
  refine ⟨fun h => ?_, fun h => ?_⟩
  · rcases h with h | ⟨y, k, hy, hf⟩
    · cases h
    · cases hy; cases hf
  · rcases h with h | ⟨k, e, he, _⟩
    · cases h
    · rw [ht] at he; cases he

theorem declare_done (t : Nat) : Sure ((Call.declare t : Call K V).run M ord w) (Done M S w (.declare t)) := by
  rw [Call.run]
  refine Sure.bind (sure_make fun ht => ?_)
  refine ⟨own_nil.mp (make_own h ht), ?_, fun _ _ h => ?_, fun t' k a hr _ => ?_, fun _ _ h => ?_⟩
  · have e : (⟨w.heap, update w.tables t (some [])⟩ : World K V).look = setMap w.look t (some noEntries) :=
      look_eq (fun t' h => update_ne _ _ h) (fun _ _ _ _ _ => rfl) (look_empty (update_self ..))
    rw [e]
    exact .declare t (look_none.mpr ht)
  · rcases h with ⟨a, h⟩ | h <;> cases h
  · refine ref_other (update_ne _ _ fun e => ?_) hr
    subst e
    obtain ⟨e, he, -⟩ := hr
    rw [ht] at he; cases he
  · rcases h with h | h <;> cases h

theorem clear_done (t : Nat) : Sure ((Call.clear t : Call K V).run M ord w) (Done M S w (.clear t)) := by
  rw [Call.run]
  refine Sure.bind (sure_clear h fun e heap' he o hh => ?_)
  refine ⟨own_nil.mp o, ?_, fun _ _ h => ?_, fun t' k a hr hd => ref_other (update_ne _ _ fun e => hd e.symm) hr, fun _ _ h => ?_⟩
  · have e : (⟨heap', update w.tables t (some [])⟩ : World K V).look = setMap w.look t (some noEntries) :=
      look_eq (fun t' h => update_ne _ _ h) hh (look_empty (update_self ..))
    rw [e]
    exact .clear t
  · rcases h with ⟨a, h⟩ | h <;> cases h
  · rcases h with h | h <;> cases h

theorem destroy_done (t : Nat) : Sure ((Call.destroy t : Call K V).run M ord w) (Done M S w (.destroy t)) := by
  rw [Call.run]
  refine Sure.bind (sure_clear h fun e heap' he o hh => ?_)
  rw [Prog.bind_ok (setTable_ok ..)]
  obtain ⟨-, o2⟩ := o.takeOut (t := t) (update_self ..) none (.inl rfl)
  have hup : update (update w.tables t (some [])) t none = update w.tables t none := by
    funext t'; unfold update; split <;> rfl
  have o2 : Own S ⟨heap', update (update w.tables t (some [])) t none⟩ [] := o2
  rw [hup] at o2
  have hw : (⟨(⟨heap', update w.tables t (some [])⟩ : World K V).heap, update (⟨heap', update w.tables t (some [])⟩ : World K V).tables t none⟩ : World K V) =
      ⟨heap', update w.tables t none⟩ := by rw [← hup]
  rw [hw]
  refine ⟨own_nil.mp o2, ?_, fun _ _ h => ?_, fun t' k a hr hd => ref_other (update_ne _ _ fun e => hd e.symm) hr, fun _ _ h => ?_⟩
  · have e : (⟨heap', update w.tables t none⟩ : World K V).look = setMap w.look t none :=
      look_eq (fun t' h => update_ne _ _ h) hh
        (by unfold World.look; rw [show (⟨heap', update w.tables t none⟩ : World K V).tables t = none from update_self ..]; rfl)
    rw [e]
    exact .destroy t
  · rcases h with ⟨a, h⟩ | h <;> cases h
  · rcases h with h | h <;> cases h

theorem index_done (t : Nat) (k : K) (hl : (Call.index t k : Call K V).Legit S w) : Sure ((Call.index t k : Call K V).run M ord w) (Done M S w (.index t k)) := by
  rw [Call.run]
  cases he : w.tables t with
  | none =>
    rw [Prog.bind_apply, World.at, Prog.bind_apply, table_throw he]
    trivial
  | some e =>
    obtain ⟨v, hv⟩ := hl _ (look_of he)
    obtain ⟨p, hp, hpv⟩ := Option.map_eq_some_iff.mp hv
    obtain ⟨a, rfl, ha⟩ := Option.bind_eq_some_iff.mp hpv
    rw [Prog.bind_ok (at_ok ord he hp)]
    refine ⟨h, .index t k, fun t' k' h => ?_, fun t' k' a hr _ => hr, fun _ _ h => ?_⟩
    · rcases h with ⟨b, h⟩ | h
      · cases h
      · cases h; exact ⟨a, rfl, e, he, hp⟩
    · rcases h with h | h <;> cases h

theorem change_done (a : Nat) (f : V → V) (hl : (Call.change a f : Call K V).Legit S w) :
    Sure ((Call.change a f : Call K V).run M ord w) (Done M S w (.change a f)) := by
  obtain ⟨⟨t, k, hr⟩, hf⟩ := hl
  obtain ⟨v, hv⟩ := Option.ne_none_iff_exists'.mp ((h.live a).mpr ⟨t, k, hr⟩)
  have erun : (Call.change a f : Call K V).run M ord w = .ok none ⟨update w.heap a (some (f v)), w.tables⟩ := by
    show (match w.heap a with
      | none => _
      | some v => _) = _
    rw [hv]
  rw [erun]
  obtain ⟨m, hm, hmk⟩ := look_at hr hv
  refine ⟨⟨h.keys, fun b => ?_, h.one, fun b x hx => ?_⟩, ?_, fun _ _ h => ?_, fun t' k' b hr' _ => hr', fun _ _ h => ?_⟩
  · show update w.heap a (some (f v)) b ≠ none ↔ ∃ t k, w.Ref t k b
    rw [← h.live b]
    by_cases hb : b = a
    · subst hb; rw [update_self, hv]; simp
    · rw [update_ne _ _ hb]
  · have hx : update w.heap a (some (f v)) b = some x := hx
    by_cases hb : b = a
    · subst hb; rw [update_self] at hx; cases hx; exact hf v (h.wf b v hv)
    · rw [update_ne _ _ hb] at hx; exact h.wf b x hx
  · obtain ⟨e, he, hfk⟩ := hr
    have hsame : update w.tables t (some e) = w.tables := update_same he
    have hfe : ∀ k', e.find k' = if k' = k then some (some a) else e.find k' := by
      intro k'
      by_cases hk : k' = k
      · rw [if_pos hk, hk, hfk]
      · rw [if_neg hk]
    have := look_change (k := k) (x := some (some a)) (e' := e) (heap' := update w.heap a (some (f v))) he
      hfe
      (fun t' k' b hne hr' => update_ne _ _ fun e => hne (h.one (e ▸ hr') ⟨_, he, hfk⟩)) hm
    rw [hsame] at this
    rw [this]
    have hx : ((some (some a) : Option (Option Nat)).map fun p => p.bind (update w.heap a (some (f v)))) = some (some (f v)) :=
      congrArg some (update_self ..)
    rw [hx]
    exact .change t k a f m v ⟨e, he, hfk⟩ hm hmk
  · rcases h with ⟨a, h⟩ | h <;> cases h
  · rcases h with h | h <;> cases h


omit h in
theorem replace_own {t : Nat} {e : Table K Nat} {p : Option Nat} (k : K) (o : Own S w (ptrOf (some p))) (he : w.tables t = some e) :
    ∃ heap' e', World.replace ord t k p w = .ok () ⟨heap', update w.tables t (some e')⟩ ∧ Own S ⟨heap', update w.tables t (some e')⟩ [] ∧
      (∀ k', Table.find e' k' = if k' = k then some p else e.find k') ∧ ∀ b, ¬ w.Ref t k b → heap' b = w.heap b := by
  have hk := o.keys t e he
  have o' : Own S w (ptrOf (some p) ++ []) := by rw [List.append_nil]; exact o
  cases hf : e.find k with
  | none =>
    obtain ⟨h1, h2, h3⟩ := place_find ord hk hf none
    have hfind : ∀ k', Table.find (Table.assign (ord.place e (k, none)) k p) k' = if k' = k then some p else e.find k' := by
      intro k'
      rw [assign_find, h3 k, if_pos rfl, h3 k']
      by_cases hk' : k' = k
      · rw [if_pos hk', if_pos hk']; rfl
      · rw [if_neg hk', if_neg hk', if_neg hk']
    refine ⟨w.heap, Table.assign (ord.place e (k, none)) k p, ?_, ?_, hfind, fun _ _ => rfl⟩
    · rw [World.replace, Prog.bind_ok (table_ok he), h1, Prog.bind_ok (setTable_ok ..), h3 k, if_pos rfl]
      rfl
    · have := Own.change o' he (by rw [assign_keys]; exact h2) hfind
      rw [hf] at this
      exact this
  | some q =>
    have h1 := emplace_there ord (p := none) (show e.find k ≠ none by rw [hf]; simp)
    have hfind : ∀ k', Table.find (Table.assign e k p) k' = if k' = k then some p else e.find k' := by
      intro k'
      rw [assign_find, hf]
      rfl
    have oc := Own.change o' he (by rw [assign_keys]; exact hk) hfind
    rw [hf] at oc
    cases q with
    | none =>
      refine ⟨w.heap, Table.assign e k p, ?_, oc, hfind, fun _ _ => rfl⟩
      rw [World.replace, Prog.bind_ok (table_ok he), h1, Prog.bind_ok (setTable_ok ..), hf]
      rfl
    | some b =>
      obtain ⟨v, hv, od⟩ := oc.delete
      refine ⟨update w.heap b none, Table.assign e k p, ?_, od, hfind, fun c hc => update_ne _ _ fun e1 => hc (e1 ▸ ⟨e, he, hf⟩)⟩
      rw [World.replace, Prog.bind_ok (table_ok he), h1, Prog.bind_ok (setTable_ok ..), hf]
      exact delete_ok hv

/-- A reference to another entry of the changed table, or to an entry of another table. -/
theorem ref_change {t : Nat} {e e' : Table K Nat} {k : K} {x : Option (Option Nat)} {heap' : Nat → Option V} (he : w.tables t = some e)
    (hf : ∀ k', Table.find e' k' = if k' = k then x else e.find k') {t' : Nat} {k' : K} {a : Nat} (hr : w.Ref t' k' a) (hne : ¬ (t = t' ∧ k = k')) :
    (⟨heap', update w.tables t (some e')⟩ : World K V).Ref t' k' a := by
  by_cases ht : t' = t
  · subst ht
    refine ⟨e', update_self .., ?_⟩
    rw [hf, if_neg fun e => hne ⟨rfl, e.symm⟩]
    exact (ref_iff he k' a).mp hr
  · exact ref_other (update_ne _ _ ht) hr

theorem put_done (t : Nat) (k : K) (a : Nat) (v : V) (hl : S.wf v) : Sure ((Call.put t k a v : Call K V).run M ord w) (Done M S w (.put t k a v)) := by
  rw [Call.run]
  refine Sure.bind (sure_new fun ha => ?_)
  cases he : w.tables t with
  | none =>
    rw [Prog.bind_apply, World.replace, Prog.bind_apply, table_throw (w := ⟨update w.heap a (some v), w.tables⟩) he]
    trivial
  | some e =>
    have o1 : Own S (⟨update w.heap a (some v), w.tables⟩ : World K V) (ptrOf (some (some a))) := (own_nil.mpr h).new ha hl
    obtain ⟨heap', e', e1, o, hf, hh⟩ := replace_own ord k o1 he
    rw [Prog.bind_ok e1]
    have hra : ∀ {t k b}, w.Ref t k b → b ≠ a := fun hr e => (h.live _).mpr ⟨_, _, hr⟩ (e ▸ ha)
    have hheap : ∀ t' k' b, ¬ (t' = t ∧ k' = k) → w.Ref t' k' b → heap' b = w.heap b := by
      intro t' k' b hne hr
      have h2 : heap' b = update w.heap a (some v) b := hh b fun hr' => hne (h.one hr hr')
      rw [h2, update_ne _ _ (hra hr)]
    have hav : heap' a = some v := by
      have h2 : heap' a = update w.heap a (some v) a := hh a fun hr' => hra (t := t) (k := k) hr' rfl
      rw [h2, update_self]
    refine ⟨own_nil.mp o, ?_, fun _ _ h => ?_, fun t' k' b hr hd => ref_change h he hf hr hd, fun _ _ h => ?_⟩
    · have e2 := look_change (k := k) (heap' := heap') he hf hheap (look_of he)
      have hx : ((some (some a) : Option (Option Nat)).map fun p => p.bind heap') = some (some v) := congrArg some hav
      rw [hx] at e2
      rw [e2]
      exact .put t k a v _ (look_of he)
    · rcases h with ⟨a, h⟩ | h <;> cases h
    · rcases h with h | h <;> cases h

theorem putNull_done (t : Nat) (k : K) : Sure ((Call.putNull t k : Call K V).run M ord w) (Done M S w (.putNull t k)) := by
  rw [Call.run]
  cases he : w.tables t with
  | none =>
    rw [Prog.bind_apply, World.replace, Prog.bind_apply, table_throw he]
    trivial
  | some e =>
    obtain ⟨heap', e', e1, o, hf, hh⟩ := replace_own (p := none) ord k (own_nil.mpr h) he
    rw [Prog.bind_ok e1]
    have hheap : ∀ t' k' b, ¬ (t' = t ∧ k' = k) → w.Ref t' k' b → heap' b = w.heap b := fun t' k' b hne hr => hh b fun hr' => hne (h.one hr hr')
    refine ⟨own_nil.mp o, ?_, fun _ _ h => ?_, fun t' k' b hr hd => ref_change h he hf hr hd, fun _ _ h => ?_⟩
    · rw [look_change (k := k) (heap' := heap') he hf hheap (look_of he)]
      exact .putNull t k _ (look_of he)
    · rcases h with ⟨a, h⟩ | h <;> cases h
    · rcases h with h | h <;> cases h

omit h in
theorem erased_ptrs {e : Table K Nat} (hk : (e.map Prod.fst).Nodup) (k : K) : ptrs (e.filter fun x => decide (x.1 = k)) = ptrOf (e.find k) := by
  induction e with
  | nil => rfl
  | cons x e ih =>
    obtain ⟨q, p⟩ := x
    rw [List.map_cons, List.nodup_cons] at hk
    rw [find_cons]
    by_cases hq : q = k
    · subst hq
      rw [List.filter_cons_of_pos (by simp), if_pos rfl]
      have : e.filter (fun x => decide (x.1 = q)) = [] := by
        rw [List.filter_eq_nil_iff]
        intro x hx hxq
        exact hk.1 (List.mem_map.mpr ⟨x, hx, of_decide_eq_true hxq⟩)
      rw [this]
      cases p <;> rfl
    · rw [List.filter_cons_of_neg (by simp [hq]), if_neg fun e => hq e.symm]
      exact ih hk.2

theorem erase_done (t : Nat) (k : K) : Sure ((Call.erase t k : Call K V).run M ord w) (Done M S w (.erase t k)) := by
  rw [Call.run]
  refine Sure.bind (sure_table fun e he => ?_)
  rw [Prog.bind_ok (setTable_ok ..)]
  have hk := h.keys t e he
  have hf : ∀ k', Table.find (e.erase k) k' = if k' = k then none else e.find k' := erase_find e k
  have o := Own.change (L := []) (x := none) (e' := e.erase k) (own_nil.mpr h) he (hk.sublist (List.filter_sublist.map _)) hf
  rw [← erased_ptrs hk k] at o
  obtain ⟨heap', e1, o1, hh⟩ := deleteAll_own (by rw [erased_ptrs hk]; exact nodup_ptrOf _) o
  rw [Prog.bind_ok e1]
  have hheap : ∀ t' k' b, ¬ (t' = t ∧ k' = k) → w.Ref t' k' b → heap' b = w.heap b := by
    intro t' k' b hne hr
    refine hh b fun hm => ?_
    rw [erased_ptrs hk, mem_ptrOf] at hm
    exact hne (h.one hr ⟨e, he, hm⟩)
  refine ⟨own_nil.mp o1, ?_, fun _ _ h => ?_, fun t' k' b hr hd => ref_change h he hf hr hd, fun _ _ h => ?_⟩
  · rw [look_change (k := k) (heap' := heap') he hf hheap (look_of he)]
    exact .erase t k _ (look_of he)
  · rcases h with ⟨a, h⟩ | h <;> cases h
  · rcases h with h | h <;> cases h

include hM in
theorem insert_done (t : Nat) (k : K) (a : Nat) (hl : (Call.insert t k a : Call K V).Legit S w) :
    Sure ((Call.insert t k a : Call K V).run M ord w) (Done M S w (.insert t k a)) := by
  rw [Call.run]
  refine Sure.bind (sure_new fun ha => ?_)
  refine Sure.bind (sure_table fun e he => ?_)
  have he : w.tables t = some e := he
  have hk := h.keys t e he
  have hra : ∀ {t k b}, w.Ref t k b → b ≠ a := fun hr e => (h.live _).mpr ⟨_, _, hr⟩ (e ▸ ha)
  cases hf : e.find k with
  | none =>
    obtain ⟨h1, h2, h3⟩ := place_find ord hk hf (some a)
    rw [h1, Prog.bind_ok (setTable_ok ..), if_neg (by simp)]
    have o : Own S (⟨update w.heap a (some M.init), w.tables⟩ : World K V) (ptrOf (some (some a)) ++ []) := (own_nil.mpr h).new ha hM.init_wf
    have o1 := Own.change o he h2 h3
    rw [hf] at o1
    show Sure ((World.at ord t k >>= fun x => pure (some x)) ⟨update w.heap a (some M.init), update w.tables t (some (ord.place e (k, some a)))⟩) _
    rw [Prog.bind_ok (at_ok (w := ⟨update w.heap a (some M.init), update w.tables t (some (ord.place e (k, some a)))⟩) ord (update_self ..)
      (by rw [h3, if_pos rfl]))]
    refine ⟨own_nil.mp o1, ?_, fun t' k' h' => ?_, fun t' k' b hr _ => ?_, fun _ _ h => ?_⟩
    · have e2 := look_change (k := k) (heap' := update w.heap a (some M.init)) he h3 (fun t' k' b _ hr => update_ne _ _ (hra hr)) (look_of he)
      have hx : ((some (some a) : Option (Option Nat)).map fun p => p.bind (update w.heap a (some M.init))) = some (some M.init) :=
        congrArg some (update_self ..)
      rw [hx] at e2
      show Effect _ _ _ _ (⟨update w.heap a (some M.init), update w.tables t (some (ord.place e (k, some a)))⟩ : World K V).look
      rw [e2]
      exact .insertNew t k a _ (look_of he) (by show (e.find k).map _ = none; rw [hf]; rfl)
    · rcases h' with ⟨b, h'⟩ | h'
      · cases h'
        exact ⟨a, rfl, _, update_self .., by rw [h3, if_pos rfl]⟩
      · cases h'
    · refine ref_change h he h3 hr fun hne => ?_
      rw [← hne.1, ref_iff he, ← hne.2, hf] at hr
      cases hr
    · rcases h with h | h <;> cases h
  | some q =>
    have h1 := emplace_there ord (p := some a) (show e.find k ≠ none by rw [hf]; simp)
    rw [h1, Prog.bind_ok (setTable_ok ..), if_pos (by simp), Prog.bind_ok (delete_ok (v := M.init) (update_self ..))]
    have hw : (⟨update (update w.heap a (some M.init)) a none, update w.tables t (some e)⟩ : World K V) = w := by
      have e1 : update (update w.heap a (some M.init)) a none = w.heap := by
        funext b
        by_cases hb : b = a
        · subst hb; rw [update_self, ha]
        · rw [update_ne _ _ hb, update_ne _ _ hb]
      rw [e1, update_same he]
    cases q with
    | none => exact absurd (by show (e.find k).map _ = some none; rw [hf]; rfl) (hl _ (look_of he))
    | some b =>
      obtain ⟨v, hv⟩ := Option.ne_none_iff_exists'.mp ((h.live b).mpr ⟨t, k, e, he, hf⟩)
      show Sure ((World.at ord t k >>= fun x => pure (some x)) ⟨update (update w.heap a (some M.init)) a none, update w.tables t (some e)⟩) _
      rw [hw, Prog.bind_ok (at_ok ord he hf)]
      obtain ⟨m, hm, hmk⟩ := look_at ⟨e, he, hf⟩ hv
      refine ⟨h, .insertOld t k a m v hm hmk, fun t' k' h' => ?_, fun t' k' b hr _ => hr, fun _ _ h => ?_⟩
      · rcases h' with ⟨c, h'⟩ | h'
        · cases h'; exact ⟨b, rfl, e, he, hf⟩
        · cases h'
      · rcases h with h | h <;> cases h

omit h in
theorem copied_rel {same : V → V → Prop} {old heap' : Nat → Option V} {x y : Option (Option Nat)} (hc : x ≠ none → Copied same old heap' x y) (hn : x = none → y = none) :
    OptRel (OptRel same) (y.map fun p => p.bind heap') (x.map fun p => p.bind old) := by
  match x with
  | none => rw [hn rfl]; exact .none
  | some none =>
    rw [show y = some none from hc (by simp)]
    exact .some .none
  | some (some b) =>
    obtain ⟨a, v, v', hy, ha, hb, hs⟩ := hc (by simp)
    rw [hy]
    show OptRel _ (some (heap' a)) (some (old b))
    rw [ha, hb]
    exact .some (.some hs)

omit h in
include hM in
/-- The loop, from a world with an empty table `d`. -/
theorem sure_loop {w1 : World K V} {d s : Nat} {e : Table K Nat} (as : List Nat) (o : Own S w1 []) (hd : w1.tables d = some [])
    (hs : w1.tables s = some e) :
    Sure (World.copyLoop M ord d e as w1) fun _ w' => Sound S w' ∧ (∀ t, t ≠ d → w'.tables t = w1.tables t) ∧
      (∀ b v, w1.heap b = some v → w'.heap b = some v) ∧
      ∃ m m', w1.look s = some m ∧ w'.look d = some m' ∧ ∀ k, OptRel (OptRel (S.rel .exact)) (m' k) (m k) := by
  refine Sure.mono (copyLoop_own hM ord e as w1 [] o hd (o.keys s e hs) (fun _ _ => rfl)
    (fun k b hf => (o.live b).mpr (.inr ⟨s, k, e, hs, hf⟩))) ?_
  rintro - w' ⟨o', ht, hh, acc', hacc, hc⟩
  refine ⟨own_nil.mp o', ht, hh, _, _, look_of hs, look_of hacc, fun k => ?_⟩
  exact copied_rel (hc k).2 (fun hn => by rw [(hc k).1 hn]; rfl)

include hM in
theorem copy_done (d s : Nat) (as : List Nat) : Sure ((Call.copy d s as : Call K V).run M ord w) (Done M S w (.copy d s as)) := by
  rw [Call.run]
  refine Sure.bind (sure_clear h fun e0 heap' he0 o hh => ?_)
  by_cases hne : d = s
  · subst hne
    rw [Prog.bind_ok (table_ok (w := ⟨heap', update w.tables d (some [])⟩) (update_self ..)), World.copyLoop]
    refine ⟨own_nil.mp o, ?_, fun _ _ h => ?_, fun t' k a hr hd => ref_other (update_ne _ _ fun e => hd e.symm) hr, fun _ _ h => ?_⟩
    · have e : (⟨heap', update w.tables d (some [])⟩ : World K V).look = setMap w.look d (some noEntries) :=
        look_eq (fun t' h => update_ne _ _ h) hh (look_empty (update_self ..))
      rw [e]
      exact .copySelf d as
    · rcases h with ⟨a, h⟩ | h <;> cases h
    · rcases h with h | h <;> cases h
  · refine Sure.bind (sure_table fun e he => ?_)
    refine Sure.bind (Sure.mono (sure_loop hM ord as o (update_self ..) he) ?_)
    rintro - w' ⟨hs, ht, hheap, m, m', hm, hm', hrel⟩
    have hsd : s ≠ d := fun e => hne e.symm
    have hlook : w.look s = some m := by
      have e1 : (⟨heap', update w.tables d (some [])⟩ : World K V).look = setMap w.look d (some noEntries) :=
        look_eq (fun t' h => update_ne _ _ h) hh (look_empty (update_self ..))
      rw [e1] at hm
      exact (if_neg hsd).symm.trans hm
    refine ⟨hs, ?_, fun _ _ h => ?_, fun t' k a hr hd => ref_other ?_ hr, fun _ _ h => ?_⟩
    · have e : w'.look = setMap w.look d (some m') := by
        refine look_eq (fun t' h => (ht t' h).trans (update_ne _ _ h)) (fun t' ht' k a hr => ?_) hm'
        obtain ⟨v, hv⟩ := Option.ne_none_iff_exists'.mp ((h.live a).mpr ⟨t', k, hr⟩)
        rw [hv]
        exact hheap a v ((hh t' ht' k a hr).trans hv)
      rw [e]
      exact .copy d s as m m' hne hlook hrel
    · rcases h with ⟨a, h⟩ | h <;> cases h
    · have hd : t' ≠ d := fun e => hd e.symm
      exact (ht t' hd).trans (update_ne _ _ hd)
    · rcases h with h | h <;> cases h

include hM in
theorem copyConstruct_done (d s : Nat) (as : List Nat) : Sure ((Call.copyConstruct d s as : Call K V).run M ord w) (Done M S w (.copyConstruct d s as)) := by
  rw [Call.run]
  refine Sure.bind (sure_table fun e he => ?_)
  refine Sure.bind (sure_make fun hdn => ?_)
  have o := make_own h hdn
  have hne : d ≠ s := by
    rintro rfl
    rw [hdn] at he; cases he
  have hsd : s ≠ d := hne.symm
  refine Sure.bind (Sure.mono (sure_loop hM ord as o (update_self ..) ((update_ne _ _ hsd).trans he)) ?_)
  rintro - w' ⟨hs, ht, hheap, m, m', hm, hm', hrel⟩
  have hlook : w.look s = some m := by
    have e1 : (⟨w.heap, update w.tables d (some [])⟩ : World K V).look = setMap w.look d (some noEntries) :=
      look_eq (fun t' h => update_ne _ _ h) (fun _ _ _ _ _ => rfl) (look_empty (update_self ..))
    rw [e1] at hm
    exact (if_neg hsd).symm.trans hm
  refine ⟨hs, ?_, fun _ _ h => ?_, fun t' k a hr hd => ref_other ?_ hr, fun _ _ h => ?_⟩
  · have e : w'.look = setMap w.look d (some m') := by
      refine look_eq (fun t' h => (ht t' h).trans (update_ne _ _ h)) (fun t' ht' k a hr => ?_) hm'
      obtain ⟨v, hv⟩ := Option.ne_none_iff_exists'.mp ((h.live a).mpr ⟨t', k, hr⟩)
      rw [hv]
      exact hheap a v hv
    rw [e]
    exact .copyConstruct d s as m m' (look_none.mpr hdn) hlook hrel
  · rcases h with ⟨a, h⟩ | h <;> cases h
  · have hd : t' ≠ d := by
      rintro rfl
      obtain ⟨e, he, -⟩ := hr
      rw [hdn] at he; cases he
    exact (ht t' hd).trans (update_ne _ _ hd)
  · rcases h with h | h <;> cases h

omit h in
theorem take_own {d s : Nat} {e : Table K Nat} (hne : d ≠ s) (o : Own S w []) (hd : w.tables d = some []) (hs : w.tables s = some e) :
    World.take d s w = .ok () ⟨w.heap, update (update w.tables s (some [])) d (some e)⟩ ∧
      Own S (⟨w.heap, update (update w.tables s (some [])) d (some e)⟩ : World K V) [] := by
  refine ⟨?_, ?_⟩
  · rw [World.take, Prog.bind_ok (table_ok hs), Prog.bind_ok (setTable_ok ..), setTable_ok]
  · obtain ⟨hn, o1⟩ := o.takeOut hs (some []) (.inr rfl)
    refine Own.putIn (w := ⟨w.heap, update w.tables s (some [])⟩) (o.keys s e hs) hn o1 ?_
    rintro k a ⟨e', he', hf⟩
    rw [show (⟨w.heap, update w.tables s (some [])⟩ : World K V).tables d = w.tables d from update_ne _ _ hne, hd] at he'
    cases he'; cases hf

omit h in
/-- What the tables hold after a move. -/
theorem move_look {w' : World K V} {d s : Nat} {e : Table K Nat} (hne : d ≠ s) (he : w.tables s = some e) (hd : w'.tables d = some e)
    (hs : w'.tables s = some []) (ht : ∀ t, t ≠ d → t ≠ s → w'.tables t = w.tables t) (hh : ∀ t, t ≠ d → ∀ k a, w.Ref t k a → w'.heap a = w.heap a) :
    w'.look = setMap (setMap w.look s (some noEntries)) d (w.look s) := by
  have hmap : ∀ t (e : Table K Nat), w.tables t = some e → t ≠ d →
      (fun k => (e.find k).map fun p => p.bind w'.heap) = fun k => (e.find k).map fun p => p.bind w.heap := by
    intro t e he htd
    funext k
    cases hf : e.find k with
    | none => rfl
    | some p =>
      cases p with
      | none => rfl
      | some a => exact congrArg some (hh t htd k a ⟨e, he, hf⟩)
  funext t
  unfold setMap
  split
  · next h => subst h; rw [look_of hd, look_of he, hmap s e he hne.symm]
  · next h =>
    split
    · next h2 => subst h2; exact look_empty hs
    · next h2 =>
      cases het : w.tables t with
      | none => unfold World.look; rw [ht t h h2, het]; rfl
      | some e' => rw [look_of het, look_of ((ht t h h2).trans het), hmap t e' het h]

/-- Both moves, when the table moved to is empty. -/
theorem move_done {d s : Nat} {c : Call K V} (hc : (c = .moveConstruct d s ∧ w.tables d = none) ∨ c = .moveAssign d s) (hdr : ∀ t k, ¬ c.Drops t k → t ≠ s ∧ (t = d → w.tables d = none))
    (hne : d ≠ s) {e : Table K Nat} (he : w.tables s = some e) {heap' : Nat → Option V} (o : Own S ⟨heap', update w.tables d (some [])⟩ [])
    (hh : ∀ t', t' ≠ d → ∀ k a, w.Ref t' k a → heap' a = w.heap a) :
    Sure ((World.take d s >>= fun _ => (pure none : Prog (World K V) (Option Nat))) ⟨heap', update w.tables d (some [])⟩) (Done M S w c) := by
  obtain ⟨e1, o1⟩ := take_own hne o (update_self ..) ((update_ne _ _ hne.symm).trans he)
  rw [Prog.bind_ok e1]
  have htab : ∀ t, t ≠ d → t ≠ s → update (update (update w.tables d (some [])) s (some [])) d (some e) t = w.tables t := fun t h1 h2 => by
    rw [update_ne _ _ h1, update_ne _ _ h2, update_ne _ _ h1]
  have hlook := move_look (w' := ⟨heap', update (update (update w.tables d (some [])) s (some [])) d (some e)⟩) hne he (update_self ..)
    ((update_ne _ _ hne.symm).trans (update_self ..)) htab hh
  refine ⟨own_nil.mp o1, ?_, fun _ _ h => ?_, fun t' k a hr hd => ?_, fun d' s' hm k a hr => ?_⟩
  · show Effect _ _ _ _ (⟨heap', update (update (update w.tables d (some [])) s (some [])) d (some e)⟩ : World K V).look
    rw [hlook]
    rcases hc with ⟨rfl, hdn⟩ | rfl
    · exact .moveConstruct d s (look_none.mpr hdn)
    · exact .moveAssign d s
  · rcases hc with ⟨rfl, hdn⟩ | rfl <;> rcases h with ⟨a, h⟩ | h <;> cases h
  · obtain ⟨h1, h2⟩ := hdr t' k hd
    refine ref_other (htab t' (fun e => ?_) h1) hr
    obtain ⟨x, hx, -⟩ := hr
    rw [e, h2 e] at hx
    cases hx
  · have : d' = d ∧ s' = s := by
      rcases hc with ⟨rfl, hdn⟩ | rfl <;> rcases hm with hm | hm <;> cases hm <;> exact ⟨rfl, rfl⟩
    obtain ⟨rfl, rfl⟩ := this
    exact ⟨e, update_self .., (ref_iff he k a).mp hr⟩

theorem moveConstruct_done (d s : Nat) : Sure ((Call.moveConstruct d s : Call K V).run M ord w) (Done M S w (.moveConstruct d s)) := by
  rw [Call.run]
  refine Sure.bind (sure_table fun e he => ?_)
  refine Sure.bind (sure_make fun hdn => ?_)
  refine move_done h (.inl ⟨rfl, hdn⟩) (fun t k hd => ⟨fun e => hd e.symm, fun _ => hdn⟩) (fun e => ?_) he (make_own h hdn) (fun _ _ _ _ _ => rfl)
  rw [e, he] at hdn
  cases hdn

theorem moveAssign_done (d s : Nat) (hne : d ≠ s) : Sure ((Call.moveAssign d s : Call K V).run M ord w) (Done M S w (.moveAssign d s)) := by
  rw [Call.run]
  refine Sure.bind (sure_clear h fun e0 heap' he0 o hh => ?_)
  cases he : w.tables s with
  | none =>
    rw [Prog.bind_apply, World.take, Prog.bind_apply, table_throw (w := ⟨heap', update w.tables d (some [])⟩) ((update_ne _ _ hne.symm).trans he)]
    trivial
  | some e =>
    exact move_done h (.inr rfl) (fun t k hd => ⟨fun e => hd (.inr e.symm), fun e => absurd (.inl e.symm) hd⟩) hne he o hh

end calls

/-! ## Calls that are possible return -/

/-- No exception. -/
def Quiet {σ α : Type} (r : Res σ α) : Prop := ∀ s, r ≠ .throw s

theorem Quiet.bind {σ α β : Type} {p : Prog σ α} {f : α → Prog σ β} {s : σ} (h : Quiet (p s)) (h' : ∀ a s', p s = .ok a s' → Quiet (f a s')) :
    Quiet ((p >>= f) s) := by
  rw [Prog.bind_apply]
  cases e : p s with
  | ok a s' => exact h' a s' e
  | throw s' => exact absurd e (h s')
  | ub => exact fun s hs => nomatch hs

theorem quiet_ok {σ α : Type} {a : α} {s : σ} : Quiet (Res.ok a s) := fun _ h => nomatch h

theorem quiet_table {w : World K V} {t : Nat} (h : w.tables t ≠ none) : Quiet (World.table t w) := by
  obtain ⟨e, he⟩ := Option.ne_none_iff_exists'.mp h
  rw [table_ok he]
  exact quiet_ok

theorem quiet_delete {w : World K V} (a : Nat) : Quiet (World.delete a w) := by
  unfold World.delete
  cases w.heap a <;> exact fun _ h => nomatch h

theorem quiet_deleteAll (e : Table K Nat) : ∀ (w : World K V), Quiet (World.deleteAll e w) := by
  induction e with
  | nil => exact fun w => quiet_ok
  | cons x e ih =>
    intro w
    obtain ⟨k, p⟩ := x
    cases p with
    | none => exact ih w
    | some a => exact (quiet_delete a).bind fun _ w' _ => ih w'

theorem quiet_clear {w : World K V} {t : Nat} (h : w.tables t ≠ none) : Quiet (World.clearTable t w) := by
  rw [World.clearTable]
  refine (quiet_table h).bind fun e w' _ => ?_
  rw [Prog.bind_ok (setTable_ok ..)]
  exact quiet_deleteAll e _

theorem quiet_at {w : World K V} (ord : TableOrder (K × Option Nat)) {t : Nat} (k : K) (h : w.tables t ≠ none) : Quiet (World.at ord t k w) := by
  rw [World.at]
  refine (quiet_table h).bind fun e w' _ => ?_
  rw [Prog.bind_ok (setTable_ok ..)]
  cases (Table.emplace ord e k none).1.find k with
  | none => exact fun _ h => nomatch h
  | some p =>
    cases p with
    | none => exact fun _ h => nomatch h
    | some a => exact quiet_ok

theorem quiet_replace {w : World K V} (ord : TableOrder (K × Option Nat)) {t : Nat} (k : K) (p : Option Nat) (h : w.tables t ≠ none) :
    Quiet (World.replace ord t k p w) := by
  rw [World.replace]
  refine (quiet_table h).bind fun e w' _ => ?_
  rw [Prog.bind_ok (setTable_ok ..)]
  cases (Table.emplace ord e k none).1.find k with
  | none => exact quiet_ok
  | some p =>
    cases p with
    | none => exact quiet_ok
    | some a => exact quiet_delete _

theorem make_ok {w : World K V} {t : Nat} (h : w.tables t = none) : World.makeTable t w = .ok () ⟨w.heap, update w.tables t (some [])⟩ := by
  unfold World.makeTable; rw [h]

theorem quiet_loop {M : Managed V} {S : ClassSpec V} (hM : Lawful M S) (ord : TableOrder (K × Option Nat)) (d : Nat) (es : Table K Nat) :
    ∀ (as : List Nat) (w : World K V), (∀ a v, w.heap a = some v → S.wf v) → w.tables d ≠ none → as.Nodup → (∀ a, a ∈ as → w.heap a = none) →
      (es.filter fun x => x.2.isSome).length ≤ as.length → Quiet (World.copyLoop M ord d es as w) := by
  induction es with
  | nil => exact fun as w _ _ _ _ _ => quiet_ok
  | cons x es ih =>
    intro as w hw hd hn hf hl
    obtain ⟨k, p⟩ := x
    obtain ⟨acc, hacc⟩ := Option.ne_none_iff_exists'.mp hd
    cases p with
    | none =>
      rw [World.copyLoop, Prog.bind_ok (table_ok hacc), Prog.bind_ok (setTable_ok ..)]
      refine ih as _ hw ?_ hn hf hl
      show update w.tables d _ d ≠ none
      rw [update_self]; simp
    | some b =>
      cases as with
      | nil => simp at hl
      | cons a as =>
        rw [List.nodup_cons] at hn
        have hl : (es.filter fun x => x.2.isSome).length ≤ as.length := by simpa using hl
        rw [World.copyLoop]
        cases hb : w.heap b with
        | none =>
          rw [Prog.bind_apply, show World.deref b w = .ub by unfold World.deref; rw [hb]]
          exact fun _ h => nomatch h
        | some v =>
          obtain ⟨v', e', hw', -⟩ := hM.construct_ok v (hw b v hb)
          have hnew : newCopy M v w = .ok v' w := by unfold newCopy; rw [e']
          rw [Prog.bind_ok (deref_ok hb), Prog.bind_ok hnew, Prog.bind_ok (new_ok (v := v') (hf a (List.mem_cons_self ..)))]
          have hd' : (⟨update w.heap a (some v'), w.tables⟩ : World K V).tables d = some acc := hacc
          rw [Prog.bind_ok (table_ok hd'), Prog.bind_ok (setTable_ok ..)]
          have hwf : ∀ c u, update w.heap a (some v') c = some u → S.wf u := by
            intro c u hc
            by_cases hca : c = a
            · subst hca; rw [update_self] at hc; cases hc; exact hw'
            · rw [update_ne _ _ hca] at hc; exact hw c u hc
          have hfr : ∀ c, c ∈ as → update w.heap a (some v') c = none := by
            intro c hc
            rw [update_ne _ _ (show c ≠ a from fun e => hn.1 (e ▸ hc))]
            exact hf c (List.mem_cons_of_mem _ hc)
          have htb : ∀ (e : Table K Nat), update w.tables d (some e) d ≠ none := fun e => by rw [update_self]; simp
          split
          · rw [Prog.bind_ok (delete_ok (v := v') (update_self ..))]
            refine ih as _ (fun c u hc => ?_) (htb _) hn.2 (fun c hc => ?_) hl
            · by_cases hca : c = a
              · subst hca
                have hc : update (update w.heap c (some v')) c none c = some u := hc
                rw [update_self] at hc; cases hc
              · exact hwf c u ((update_ne _ _ hca).symm.trans hc)
            · exact (update_ne _ _ (show c ≠ a from fun e => hn.1 (e ▸ hc))).trans (hfr c hc)
          · exact ih as _ hwf (htb _) hn.2 hfr hl

theorem quiet_call {M : Managed V} {S : ClassSpec V} (hM : Lawful M S) (ord : TableOrder (K × Option Nat)) {w : World K V} (h : Sound S w)
    (c : Call K V) (hp : c.Possible w) : Quiet (c.run M ord w) := by
  cases c with
  | declare t =>
    rw [Call.run, Prog.bind_ok (make_ok (look_none.mp hp))]
    exact quiet_ok
  | destroy t =>
    rw [Call.run]
    exact (quiet_clear (mt look_none.mpr hp)).bind fun _ _ _ => quiet_ok
  | insert t k a =>
    have ht : w.tables t ≠ none := mt look_none.mpr hp.1
    obtain ⟨e, he⟩ := Option.ne_none_iff_exists'.mp ht
    rw [Call.run, Prog.bind_ok (new_ok hp.2 _), Prog.bind_ok (table_ok (w := ⟨update w.heap a (some M.init), w.tables⟩) he), Prog.bind_ok (setTable_ok ..)]
    have htb : ∀ (e : Table K Nat), update w.tables t (some e) t ≠ none := fun e => by rw [update_self]; simp
    split
    · rw [Prog.bind_ok (delete_ok (v := M.init) (update_self ..))]
      exact (quiet_at ord k (htb _)).bind fun _ _ _ => quiet_ok
    · exact (quiet_at ord k (htb _)).bind fun _ _ _ => quiet_ok
  | index t k =>
    rw [Call.run]
    exact (quiet_at ord k (mt look_none.mpr hp)).bind fun _ _ _ => quiet_ok
  | put t k a v =>
    rw [Call.run, Prog.bind_ok (new_ok hp.2 _)]
    exact (quiet_replace (w := ⟨update w.heap a (some v), w.tables⟩) (t := t) ord k _ (mt (look_none (w := w)).mpr hp.1)).bind fun _ _ _ => quiet_ok
  | putNull t k =>
    rw [Call.run]
    exact (quiet_replace ord k _ (mt look_none.mpr hp)).bind fun _ _ _ => quiet_ok
  | erase t k =>
    rw [Call.run]
    refine (quiet_table (mt look_none.mpr hp)).bind fun e w' _ => ?_
    rw [Prog.bind_ok (setTable_ok ..)]
    exact (quiet_deleteAll _ _).bind fun _ _ _ => quiet_ok
  | clear t =>
    rw [Call.run]
    exact (quiet_clear (mt look_none.mpr hp)).bind fun _ _ _ => quiet_ok
  | copy d s as =>
    obtain ⟨hd, hn, hf, e, he, hl⟩ := hp
    obtain ⟨e0, he0⟩ := Option.ne_none_iff_exists'.mp (mt look_none.mpr hd)
    obtain ⟨heap', e1, o, hh⟩ := clearTable_own (own_nil.mpr h) he0
    rw [Call.run, Prog.bind_ok e1]
    have hfr : ∀ a, a ∈ as → heap' a = none := by
      intro a ha
      rw [hh a fun k hr => (h.live a).mpr ⟨d, k, hr⟩ (hf a ha)]
      exact hf a ha
    have hdd : update w.tables d (some []) d ≠ none := by rw [update_self]; simp
    by_cases hne : s = d
    · subst hne
      rw [Prog.bind_ok (table_ok (w := ⟨heap', update w.tables s (some [])⟩) (update_self ..))]
      exact (quiet_loop hM ord s [] as _ o.wf hdd hn hfr (Nat.zero_le _)).bind fun _ _ _ => quiet_ok
    · rw [Prog.bind_ok (table_ok (w := ⟨heap', update w.tables d (some [])⟩) ((update_ne _ _ hne).trans he))]
      exact (quiet_loop hM ord d e as _ o.wf hdd hn hfr hl).bind fun _ _ _ => quiet_ok
  | copyConstruct d s as =>
    obtain ⟨hd, hn, hf, e, he, hl⟩ := hp
    rw [Call.run, Prog.bind_ok (table_ok he), Prog.bind_ok (make_ok (look_none.mp hd))]
    have hdd : update w.tables d (some []) d ≠ none := by rw [update_self]; simp
    exact (quiet_loop hM ord d e as ⟨w.heap, update w.tables d (some [])⟩ h.wf hdd hn hf hl).bind fun _ _ _ => quiet_ok
  | moveConstruct d s =>
    obtain ⟨e, he⟩ := Option.ne_none_iff_exists'.mp (mt look_none.mpr hp.2)
    have hne : s ≠ d := by
      rintro rfl
      rw [look_none.mp hp.1] at he; cases he
    rw [Call.run, Prog.bind_ok (table_ok he), Prog.bind_ok (make_ok (look_none.mp hp.1)), World.take]
    have hs : update w.tables d (some []) s ≠ none := by
      rw [update_ne _ _ hne, he]; simp
    exact Quiet.bind ((quiet_table hs).bind fun e w2 _ => quiet_ok) fun _ _ _ => quiet_ok
  | moveAssign d s =>
    rw [Call.run]
    refine (quiet_clear (mt look_none.mpr hp.1)).bind fun _ w' e1 => ?_
    obtain ⟨e0, he0⟩ := Option.ne_none_iff_exists'.mp (mt look_none.mpr hp.1)
    obtain ⟨heap', e1', o, hh⟩ := clearTable_own (own_nil.mpr h) he0
    rw [e1'] at e1
    cases e1
    have hs : update w.tables d (some []) s ≠ none := by
      by_cases hne : s = d
      · rw [hne, update_self]; simp
      · rw [update_ne _ _ hne]; exact mt look_none.mpr hp.2
    rw [World.take]
    refine Quiet.bind ((quiet_table hs).bind fun e w2 _ => ?_) fun _ _ _ => quiet_ok
    exact quiet_ok
  | change a f =>
    show Quiet (match w.heap a with
      | none => Res.ub
      | some v => Res.ok none (⟨update w.heap a (some (f v)), w.tables⟩ : World K V))
    cases w.heap a with
    | none => exact fun _ h => nomatch h
    | some v => exact quiet_ok

/-- The map of a table has the object of a reference. -/
theorem look_ref {w : World K V} {t : Nat} {k : K} {a : Nat} (hr : w.Ref t k a) : ∃ m, w.look t = some m ∧ m k = some (w.heap a) := by
  obtain ⟨e, he, hf⟩ := hr
  refine ⟨_, look_of he, ?_⟩
  show (e.find k).map (fun p => p.bind w.heap) = _
  rw [hf]; rfl

theorem setMap_self {m : Nat → Option (FMap K V)} (t : Nat) (x : Option (FMap K V)) : setMap m t x t = x := if_pos rfl
theorem setMap_ne {m : Nat → Option (FMap K V)} {t t' : Nat} (x : Option (FMap K V)) (h : t' ≠ t) : setMap m t x t' = m t' := if_neg h

theorem with_other (m : FMap K V) {k k' : K} (x : Option (Option V)) (h : k' ≠ k) : m.with k x k' = m k' := if_neg h

/-- The objects that are neither dropped nor changed through a reference keep their values. -/
theorem Done.kept {M : Managed V} {S : ClassSpec V} {w w' : World K V} {c : Call K V} {r : Option Nat} (d : Done M S w c r w') {t : Nat} {k : K}
    {a : Nat} (hr : w.Ref t k a) (hd : ¬ c.Drops t k) (hc : ∀ f, c ≠ .change a f) : w'.heap a = w.heap a := by
  obtain ⟨m, hm, hmk⟩ := look_ref hr
  obtain ⟨m', hm', hmk'⟩ := look_ref (d.stays t k a hr hd)
  have key : m' k = m k → w'.heap a = w.heap a := fun e => by
    rw [hmk, hmk'] at e; exact Option.some.inj e
  have one : ∀ {t' : Nat} {x : Option (FMap K V)}, w'.look = setMap w.look t' x → (t = t' → x = some m' → m' k = m k) → w'.heap a = w.heap a := by
    intro t' x e hx
    rw [e] at hm'
    by_cases ht : t = t'
    · subst ht
      rw [setMap_self] at hm'
      exact key (hx rfl hm')
    · rw [setMap_ne _ ht, hm] at hm'
      cases hm'
      exact key rfl
  have same : w'.look = w.look → w'.heap a = w.heap a := by
    intro e
    rw [e, hm] at hm'
    cases hm'
    exact key rfl
  have wth : ∀ {t' : Nat} {k' : K} {x : Option (Option V)} {m0 : FMap K V}, w.look t' = some m0 → w'.look = setMap w.look t' (some (m0.with k' x)) →
      (t' = t → k' ≠ k) → w'.heap a = w.heap a := by
    intro t' k' x m0 h0 e hne
    refine one e fun ht hx => ?_
    subst ht
    rw [hm] at h0
    cases h0
    cases hx
    exact with_other _ _ fun e => hne rfl e.symm
  have eff := d.effect
  generalize hl : w'.look = L at eff
  cases eff with
  | declare t' h0 =>
    refine one hl fun ht hx => ?_
    rw [← ht, hm] at h0; cases h0
  | destroy t' => exact one hl fun ht _ => absurd ht.symm hd
  | insertNew t' k' a' m0 h0 hk =>
    refine wth h0 hl fun ht e => ?_
    subst ht; subst e
    rw [hm] at h0; cases h0
    rw [hmk] at hk; cases hk
  | insertOld => exact same hl
  | index => exact same hl
  | put t' k' a' v m0 h0 => exact wth h0 hl fun ht e => hd ⟨ht, e⟩
  | putNull t' k' m0 h0 => exact wth h0 hl fun ht e => hd ⟨ht, e⟩
  | erase t' k' m0 h0 => exact wth h0 hl fun ht e => hd ⟨ht, e⟩
  | clear t' => exact one hl fun ht _ => absurd ht.symm hd
  | copy d' s as m0 m1 => exact one hl fun ht _ => absurd ht.symm hd
  | copySelf d' as => exact one hl fun ht _ => absurd ht.symm hd
  | copyConstruct d' s as m0 m1 h0 =>
    refine one hl fun ht hx => ?_
    rw [← ht, hm] at h0; cases h0
  | moveConstruct d' s h0 =>
    have ht : t ≠ d' := by
      rintro rfl
      rw [hm] at h0; cases h0
    rw [hl, setMap_ne _ ht, setMap_ne _ (fun e => hd e.symm), hm] at hm'
    cases hm'
    exact key rfl
  | moveAssign d' s =>
    rw [hl, setMap_ne _ (fun e => hd (.inl e.symm)), setMap_ne _ (fun e => hd (.inr e.symm)), hm] at hm'
    cases hm'
    exact key rfl
  | change t' k' a' f m0 v hr' h0 hk =>
    refine wth h0 hl fun ht e => ?_
    subst ht; subst e
    obtain ⟨e, he, hf⟩ := hr
    have := (ref_iff he _ _).mp hr'
    rw [hf] at this
    cases this
    exact hc f rfl

/-- The heap of a call's result: what is not an object any more. -/
theorem erase_frees {M : Managed V} {S : ClassSpec V} (ord : TableOrder (K × Option Nat)) {w : World K V} (h : Sound S w) {t : Nat} {k : K} {a : Nat}
    (hr : w.Ref t k a) : ∃ w', (Call.erase t k : Call K V).run M ord w = .ok none w' ∧ w'.heap a = none := by
  obtain ⟨e, he, hfa⟩ := hr
  have hk := h.keys t e he
  have hf : ∀ k', Table.find (e.erase k) k' = if k' = k then none else e.find k' := erase_find e k
  have o := Own.change (L := []) (x := none) (e' := e.erase k) (own_nil.mpr h) he (hk.sublist (List.filter_sublist.map _)) hf
  rw [← erased_ptrs hk k] at o
  obtain ⟨heap', e1, o1, hh⟩ := deleteAll_own (by rw [erased_ptrs hk]; exact nodup_ptrOf _) o
  refine ⟨⟨heap', update w.tables t (some (e.erase k))⟩, ?_, ?_⟩
  · rw [Call.run, Prog.bind_ok (table_ok he), Prog.bind_ok (setTable_ok ..)]
    exact (Prog.bind_ok e1).trans rfl
  · refine Classical.byContradiction fun hn => ?_
    rcases (o1.live a).mp hn with h' | ⟨t', k', e', he', hf'⟩
    · cases h'
    · have he' : update w.tables t (some (e.erase k)) t' = some e' := he'
      by_cases ht : t' = t
      · subst ht
        rw [update_self] at he'
        cases he'
        rw [hf] at hf'
        split at hf'
        · cases hf'
        · next hne => exact hne (h.one ⟨e, he, hf'⟩ ⟨e, he, hfa⟩).2
      · rw [update_ne _ _ ht] at he'
        exact ht (h.one ⟨e', he', hf'⟩ ⟨e, he, hfa⟩).1

end ISD.TableHeap

namespace ISD

open TableHeap

variable {K V : Type} [DecidableEq K] {M : Managed V} {S : ClassSpec V}

/-- A call that can be made, and whose caller sees to what callers have to see to, returns; it does to the maps of the tables what it should,
returns the right references, leaves the references to all entries that it does not drop, and every object still belongs to exactly one entry. -/
theorem C88_call (hM : IsClass M S) (ord : TableOrder (K × Option Nat)) {w : World K V} (h : Sound S w) (c : Call K V) (hl : c.Legit S w)
    (hp : c.Possible w) : ∃ r w', c.run M ord w = .ok r w' ∧ Done M S w c r w' := by
  have hs : Sure (c.run M ord w) (Done M S w c) := by
    cases c with
    | declare t => exact declare_done ord h t
    | destroy t => exact destroy_done ord h t
    | insert t k a => exact insert_done hM.lawful ord h t k a hl
    | index t k => exact index_done ord h t k hl
    | put t k a v => exact put_done ord h t k a v hl
    | putNull t k => exact putNull_done ord h t k
    | erase t k => exact erase_done ord h t k
    | clear t => exact clear_done ord h t
    | copy d s as => exact copy_done hM.lawful ord h d s as
    | copyConstruct d s as => exact copyConstruct_done hM.lawful ord h d s as
    | moveConstruct d s => exact moveConstruct_done ord h d s
    | moveAssign d s => exact moveAssign_done ord h d s hl
    | change a f => exact change_done ord h a f hl
  have hq := quiet_call hM.lawful ord h c hp
  cases e : c.run M ord w with
  | ok r w' => rw [e] at hs; exact ⟨r, w', rfl, hs⟩
  | throw w' => exact absurd e (hq w')
  | ub => rw [e] at hs; cases hs

/-- A program may make any sequence of such calls. -/
theorem C88_history (hM : IsClass M S) (ord : TableOrder (K × Option Nat)) (cs : List (Call K V)) :
    ∀ {w : World K V}, Sound S w → LegitAll M S ord w cs → ∃ w', runCalls M ord cs w = .ok () w' ∧ Sound S w' := by
  induction cs with
  | nil => exact fun {w} h _ => ⟨w, rfl, h⟩
  | cons c cs ih =>
    intro w h ⟨hl, hp, hn⟩
    obtain ⟨r, w1, e, d⟩ := C88_call hM ord h c hl hp
    obtain ⟨w', e', h'⟩ := ih d.sound (hn r w1 e)
    refine ⟨w', ?_, h'⟩
    rw [runCalls, Prog.bind_ok e]
    exact e'

theorem start_sound : Sound S (World.start : World K V) :=
  ⟨fun t e h => (by cases h), fun a => ⟨fun h => absurd rfl h, fun ⟨t, k, e, h, _⟩ => (by cases h)⟩, fun ⟨e, h, _⟩ => (by cases h), fun a v h => (by cases h)⟩

/-- Nothing leaks, nothing is shared: after any such history every object is the object of exactly one entry of one table; and when all tables
have been destroyed, no object is left. -/
theorem C88_nothing_leaks (hM : IsClass M S) (ord : TableOrder (K × Option Nat)) (cs : List (Call K V)) (hc : LegitAll M S ord World.start cs) :
    ∃ w', runCalls M ord cs World.start = .ok () w' ∧
      (∀ a, w'.heap a ≠ none → ∃ t k, w'.Ref t k a ∧ ∀ t' k', w'.Ref t' k' a → t' = t ∧ k' = k) ∧
      (∀ t k a, w'.Ref t k a → w'.heap a ≠ none) ∧ ((∀ t, w'.look t = none) → ∀ a, w'.heap a = none) := by
  obtain ⟨w', e, h⟩ := C88_history hM ord cs start_sound hc
  refine ⟨w', e, fun a ha => ?_, fun t k a hr => (h.live a).mpr ⟨t, k, hr⟩, fun hn a => ?_⟩
  · obtain ⟨t, k, hr⟩ := (h.live a).mp ha
    exact ⟨t, k, hr, fun t' k' hr' => h.one hr' hr⟩
  · refine Classical.byContradiction fun ha => ?_
    obtain ⟨t, k, e, he, -⟩ := (h.live a).mp ha
    rw [look_none.mp (hn t)] at he
    cases he

/-- A reference to the object of an entry stays valid, and the entry keeps that object, through any history that does not drop the entry,
whatever else is inserted, erased, cleared, copied or moved; without a change through a reference to it, the object keeps its value too. -/
theorem C88_references_stay (hM : IsClass M S) (ord : TableOrder (K × Option Nat)) (t : Nat) (k : K) (a : Nat) (cs : List (Call K V)) :
    ∀ {w : World K V}, Sound S w → LegitAll M S ord w cs → w.Ref t k a → (∀ c ∈ cs, ¬ c.Drops t k) →
      ∃ w', runCalls M ord cs w = .ok () w' ∧ w'.Ref t k a ∧ ((∀ c ∈ cs, ∀ f, c ≠ .change a f) → w'.heap a = w.heap a) := by
  induction cs with
  | nil => exact fun {w} h _ hr _ => ⟨w, rfl, hr, fun _ => rfl⟩
  | cons c cs ih =>
    intro w h ⟨hl, hp, hn⟩ hr hd
    obtain ⟨r, w1, e, d⟩ := C88_call hM ord h c hl hp
    have hdc := hd c (List.mem_cons_self ..)
    obtain ⟨w', e', hr', hh⟩ := ih d.sound (hn r w1 e) (d.stays t k a hr hdc) fun c' hc' => hd c' (List.mem_cons_of_mem _ hc')
    refine ⟨w', ?_, hr', fun hne => ?_⟩
    · rw [runCalls, Prog.bind_ok e]
      exact e'
    · rw [hh fun c' hc' => hne c' (List.mem_cons_of_mem _ hc')]
      exact d.kept hr hdc (hne c (List.mem_cons_self ..))

/-- A copy shares no object with the table it was copied from, and has an equal object under every key. -/
theorem C88_copy (hM : IsClass M S) (ord : TableOrder (K × Option Nat)) {w : World K V} (h : Sound S w) (d s : Nat) (as : List Nat) (hne : d ≠ s)
    (c : Call K V) (hc : c = .copy d s as ∨ c = .copyConstruct d s as) (hp : c.Possible w) :
    ∃ r w', c.run M ord w = .ok r w' ∧ (∀ k k' a, w'.Ref d k a → ¬ w'.Ref s k' a) ∧ (∀ k a, w.Ref s k a → w'.Ref s k a ∧ w'.heap a = w.heap a) ∧
      ∃ m m', w.look s = some m ∧ w'.look d = some m' ∧ w'.look s = some m ∧ ∀ k, OptRel (OptRel (S.rel .exact)) (m' k) (m k) := by
  have hl : c.Legit S w := by rcases hc with rfl | rfl <;> trivial
  obtain ⟨r, w', e, D⟩ := C88_call hM ord h c hl hp
  have hd : ∀ k, ¬ c.Drops s k := by
    intro k
    rcases hc with rfl | rfl
    · exact hne
    · exact id
  have hch : ∀ a f, c ≠ .change a f := by
    intro a f
    rcases hc with rfl | rfl <;> exact fun h => nomatch h
  refine ⟨r, w', e, fun k k' a h1 h2 => hne (D.sound.one h1 h2).1, fun k a hr => ⟨D.stays s k a hr (hd k), D.kept hr (hd k) (hch a)⟩, ?_⟩
  have eff := D.effect
  generalize w'.look = L at eff
  rcases hc with rfl | rfl
  · cases eff with
    | copy _ _ _ m m' _ hm hr => exact ⟨m, m', hm, setMap_self .., (setMap_ne _ hne.symm).trans hm, hr⟩
    | copySelf => exact absurd rfl hne
  · cases eff with
    | copyConstruct _ _ _ m m' _ hm hr => exact ⟨m, m', hm, setMap_self .., (setMap_ne _ hne.symm).trans hm, hr⟩

/-- References into a table that is moved are references into the table it is moved to; the table it is moved from is empty. -/
theorem C88_move (hM : IsClass M S) (ord : TableOrder (K × Option Nat)) {w : World K V} (h : Sound S w) (d s : Nat) (hne : d ≠ s)
    (c : Call K V) (hc : c = .moveConstruct d s ∨ c = .moveAssign d s) (hp : c.Possible w) :
    ∃ r w', c.run M ord w = .ok r w' ∧ w'.look s = some noEntries ∧ w'.look d = w.look s ∧ ∀ k a, w.Ref s k a → w'.Ref d k a ∧ w'.heap a = w.heap a := by
  have hl : c.Legit S w := by
    rcases hc with rfl | rfl
    · trivial
    · exact hne
  obtain ⟨r, w', e, D⟩ := C88_call hM ord h c hl hp
  have eff := D.effect
  have hlook : w'.look = setMap (setMap w.look s (some noEntries)) d (w.look s) := by
    generalize w'.look = L at eff
    rcases hc with rfl | rfl <;> cases eff <;> rfl
  have hld : w'.look d = w.look s := by rw [hlook, setMap_self]
  refine ⟨r, w', e, by rw [hlook, setMap_ne _ hne.symm, setMap_self], hld, fun k a hr => ?_⟩
  have hr' := D.moved d s hc k a hr
  refine ⟨hr', ?_⟩
  obtain ⟨m, hm, hmk⟩ := look_ref hr
  obtain ⟨m', hm', hmk'⟩ := look_ref hr'
  rw [hld, hm] at hm'
  cases hm'
  rw [hmk] at hmk'
  exact (Option.some.inj hmk').symm

/-- Using a reference after its entry was erased is undefined. -/
theorem C88_dangling (ord : TableOrder (K × Option Nat)) {w : World K V} (h : Sound S w) {t : Nat} {k : K} {a : Nat} (hr : w.Ref t k a) (f : V → V) :
    runCalls M ord [.erase t k, .change a f] w = .ub := by
  obtain ⟨w', e, ha⟩ := erase_frees (M := M) ord h hr
  rw [runCalls, Prog.bind_ok e, runCalls, Prog.bind_apply]
  have : (Call.change a f : Call K V).run M ord w' = .ub := by
    show (match w'.heap a with
      | none => Res.ub
      | some v => _) = _
    rw [ha]
  rw [this]

/-- Two tables of nodes: one is filled, a reference is kept while others are inserted, the table is copied, one entry is erased and the table
moved; the objects are changed through the references. -/
def demoOwners : List (Call EntityRef NodeEnt) :=
  [.declare 1, .insert 1 (demoRef 1) 100, .insert 1 (demoRef 2) 101, .change 100 fun v => ([65], v.2), .insert 1 (demoRef 2) 102, .putNull 1 (demoRef 3),
   .copyConstruct 2 1 [103, 104], .change 100 fun v => ([66], v.2), .erase 1 (demoRef 2), .moveConstruct 3 1, .change 100 fun v => (List.append (α := Byte) v.1 [67], v.2),
   .index 3 (demoRef 1)]

/-- The addresses, keys and names of the objects in the entries of a table after these calls. -/
def demoOwned (cs : List (Call EntityRef NodeEnt)) (t : Nat) : Option (List (EntityRef × Option Nat × Option Bytes)) :=
  match runCalls (entityMF nodeFields) frontOrder cs World.start with
  | .ok () w => (w.tables t).map fun e => e.map fun x => (x.1, x.2, x.2.bind fun a => (w.heap a).map Prod.fst)
  | _ => none

example : demoOwned demoOwners 1 = some [] ∧ demoOwned demoOwners 2 = some [(demoRef 1, some 104, some [65]), (demoRef 2, some 103, some []), (demoRef 3, none, none)] ∧
    demoOwned demoOwners 3 = some [(demoRef 3, none, none), (demoRef 1, some 100, some [66, 67])] ∧ demoOwned (demoOwners ++ [.change 101 id]) 3 = none ∧
    demoOwned (demoOwners ++ [.insert 3 (demoRef 3) 200]) 3 = none := by
  refine ⟨?_, ?_, ?_, ?_, ?_⟩ <;> decide +kernel

/-- The hypotheses hold of a history that inserts, copies, and changes the original through the reference. -/
example : LegitAll (entityMF nodeFields) (entitySpec nodeSpecs) frontOrder World.start
    ([.declare 1, .insert 1 (demoRef 1) 100, .copyConstruct 2 1 [101], .change 100 fun v => ([66], v.2)] : List (Call EntityRef NodeEnt)) := by
  refine ⟨trivial, rfl, fun r w e => ?_⟩
  cases e
  refine ⟨fun m hm => ?_, ⟨?_, rfl⟩, fun r w e => ?_⟩
  · cases hm; exact fun h => nomatch h
  · exact fun h => nomatch h
  cases e
  refine ⟨trivial, ⟨rfl, by simp, by simp; rfl, _, rfl, by decide⟩, fun r w e => ?_⟩
  cases e
  refine ⟨⟨⟨1, demoRef 1, _, rfl, rfl⟩, ?_⟩, trivial, fun _ _ _ => trivial⟩
  exact fun _ _ => trivial

end ISD
