import Verif.Proofs.OrdSet

/-! # The searches of the graph validation -/

namespace ISD

/-- There is a directed path of at least one edge. -/
inductive Path {α : Type} (edges : List (α × α)) : α → α → Prop where
  | edge {a b} (h : (a, b) ∈ edges) : Path edges a b
  | step {a b c} (h : (a, b) ∈ edges) (h2 : Path edges b c) : Path edges a c

theorem Path.snoc {α : Type} {edges : List (α × α)} {a b c : α} (h : Path edges a b) (h2 : (b, c) ∈ edges) : Path edges a c := by
  induction h with
  | edge h => exact .step h (.edge h2)
  | step h _ ih => exact .step h (ih h2)

open OrdSet

namespace Graph

set_option linter.unusedSectionVars false

variable {α : Type} [NodeType α]

/-! ## Depth first search -/

/-- The stack and the path of nodes in progress (top first): above the entry of a node in progress are only children of it, none of which
was in progress. -/
inductive Shape (edges : List (α × α)) : List α → List α → Prop where
  | nil : Shape edges [] []
  | root (r : α) : Shape edges [r] []
  | push {st p ps c} (h : Shape edges st (p :: ps)) (he : (p, c) ∈ edges) (hc : c ∉ p :: ps) : Shape edges (c :: st) (p :: ps)
  | visit {st ps c} (h : Shape edges st ps) (he : ∀ p, ps.head? = some p → (p, c) ∈ edges) (hc : c ∉ ps) : Shape edges (c :: st) (c :: ps)

/-- Every node on the path leads to its top. -/
theorem Shape.reach {edges : List (α × α)} {st ps : List α} (h : Shape edges st ps) {p : α} (hp : ps.head? = some p) :
    ∀ x ∈ ps, x = p ∨ Path edges x p := by
  induction h generalizing p with
  | nil => simp
  | root r => simp
  | push h he hc ih => exact ih hp
  | @visit st ps c h he hc ih =>
    obtain rfl : c = p := by simpa using hp
    intro x hx
    rcases List.mem_cons.mp hx with rfl | hx
    · exact Or.inl rfl
    · cases ps with
      | nil => cases hx
      | cons q ps =>
        right
        have hqc := he q rfl
        rcases ih rfl x hx with rfl | hr
        · exact .edge hqc
        · exact hr.snoc hqc

/-- Entries above the topmost `x`. -/
def above (x : α) (st : List α) : List α := st.takeWhile fun y => decide (y ≠ x)

theorem above_cons_self (x : α) (st : List α) : above x (x :: st) = [] := by
  rw [above, List.takeWhile_cons_of_neg (by simp)]

theorem above_cons (x c : α) (st : List α) (h : c ≠ x) : above x (c :: st) = c :: above x st := by
  rw [above, List.takeWhile_cons_of_pos (by simpa using h)]; rfl

structure Inv (edges : List (α × α)) (s : Dfs α) (ps : List α) : Prop where
  shape : Shape edges s.stack ps
  on : ∀ x, x ∈ s.onStack ↔ x ∈ ps
  sub : ∀ x ∈ ps, x ∈ s.checked
  closed : ∀ x ∈ s.checked, x ∉ ps → ∀ y, (x, y) ∈ edges → y ∈ s.checked ∧ y ∉ ps
  acyclic : ∀ x ∈ s.checked, x ∉ ps → ¬ Path edges x x
  kids : ∀ x ∈ ps, ∀ y, (x, y) ∈ edges → y ≠ x ∧ (y ∈ s.checked ∨ y ∈ above x s.stack)
  univ : ∀ x ∈ s.stack, ∃ e ∈ edges, x = e.1 ∨ x = e.2
  todo : ∀ e ∈ edges, e ∈ s.rem ∨ e.1 ∈ s.checked ∨ e.1 ∈ s.stack
  rem : ∀ e ∈ s.rem, e ∈ edges

/-- The loop over the children. -/
theorem pushChildren_spec (checked onStack : List α) (cs stack : List α) :
    (pushChildren checked onStack cs stack = none → ∃ c ∈ cs, c ∈ checked ∧ c ∈ onStack) ∧
    (∀ st, pushChildren checked onStack cs stack = some st →
      (∀ c ∈ cs, c ∈ checked → c ∉ onStack) ∧ ∃ new, st = new ++ stack ∧ ∀ c, c ∈ new ↔ c ∈ cs ∧ c ∉ checked) := by
  induction cs generalizing stack with
  | nil =>
    refine ⟨fun h => (by cases h), fun st h => ⟨by simp, [], ?_, by simp⟩⟩
    exact (Option.some.inj h).symm
  | cons c cs ih =>
    rw [pushChildren]
    split
    · rename_i h1
      rw [not_contains] at h1
      obtain ⟨i1, i2⟩ := ih (c :: stack)
      refine ⟨fun h => ?_, fun st h => ?_⟩
      · obtain ⟨d, hd, h2⟩ := i1 h; exact ⟨d, List.mem_cons_of_mem _ hd, h2⟩
      · obtain ⟨h2, new, rfl, h3⟩ := i2 st h
        refine ⟨fun d hd hdc => ?_, new ++ [c], by simp, fun d => ?_⟩
        · rcases List.mem_cons.mp hd with rfl | hd
          · exact absurd hdc h1
          · exact h2 d hd hdc
        · rw [List.mem_append, List.mem_singleton, h3, List.mem_cons]
          constructor
          · rintro (⟨h4, h5⟩ | rfl)
            · exact ⟨Or.inr h4, h5⟩
            · exact ⟨Or.inl rfl, h1⟩
          · rintro ⟨h4 | h4, h5⟩
            · exact Or.inr h4
            · exact Or.inl ⟨h4, h5⟩
    · rename_i h1
      rw [not_contains, Decidable.not_not] at h1
      split
      · rename_i h2
        rw [contains_iff] at h2
        exact ⟨fun _ => ⟨c, List.mem_cons_self .., h1, h2⟩, fun st h => by cases h⟩
      · rename_i h2
        rw [contains_iff] at h2
        obtain ⟨i1, i2⟩ := ih stack
        refine ⟨fun h => ?_, fun st h => ?_⟩
        · obtain ⟨d, hd, h3⟩ := i1 h; exact ⟨d, List.mem_cons_of_mem _ hd, h3⟩
        · obtain ⟨h3, new, rfl, h4⟩ := i2 st h
          refine ⟨fun d hd hdc => ?_, new, rfl, fun d => ?_⟩
          · rcases List.mem_cons.mp hd with rfl | hd
            · exact h2
            · exact h3 d hd hdc
          · rw [h4, List.mem_cons]
            constructor
            · rintro ⟨h5, h6⟩; exact ⟨Or.inr h5, h6⟩
            · rintro ⟨rfl | h5, h6⟩
              · exact absurd h1 h6
              · exact ⟨h5, h6⟩

theorem above_append {x : α} {new st : List α} (h : x ∉ new) : above x (new ++ st) = new ++ above x st := by
  induction new with
  | nil => rfl
  | cons c new ih =>
    rw [List.mem_cons, not_or] at h
    rw [List.cons_append, above_cons x c _ (Ne.symm h.1), ih h.2, List.cons_append]

theorem Shape.pushes {edges : List (α × α)} {st ps new : List α} {p : α} (h : Shape edges st (p :: ps))
    (hn : ∀ c ∈ new, (p, c) ∈ edges ∧ c ∉ p :: ps) : Shape edges (new ++ st) (p :: ps) := by
  induction new with
  | nil => exact h
  | cons c new ih =>
    have := hn c (List.mem_cons_self ..)
    exact .push (ih fun d hd => hn d (List.mem_cons_of_mem _ hd)) this.1 this.2

/-- Unchecked nodes of the graph. -/
def unchecked (edges : List (α × α)) (checked : List α) : Nat :=
  ((edges.map Prod.fst ++ edges.map Prod.snd).filter fun x => decide (x ∉ checked)).length

theorem filter_le {β : Type} (l : List β) (p q : β → Bool) (h : ∀ x, q x = true → p x = true) :
    (l.filter q).length ≤ (l.filter p).length := by
  induction l with
  | nil => simp
  | cons y l ih =>
    cases hy : q y with
    | true => simpa [hy, h y hy] using ih
    | false =>
      cases hy2 : p y with
      | true => simp [hy, hy2]; omega
      | false => simpa [hy, hy2] using ih

theorem filter_lt {β : Type} (l : List β) (p q : β → Bool) (h : ∀ x, q x = true → p x = true) (x : β) (hx : x ∈ l) (h1 : p x = true)
    (h2 : q x = false) : (l.filter q).length < (l.filter p).length := by
  induction l with
  | nil => cases hx
  | cons y l ih =>
    rcases List.mem_cons.mp hx with rfl | hx
    · have := filter_le l p q h
      simp [h1, h2]; omega
    · have := ih hx
      cases hy : q y with
      | true => simpa [hy, h y hy] using this
      | false =>
        cases hy2 : p y with
        | true => simp [hy, hy2]; omega
        | false => simpa [hy, hy2] using this

theorem unchecked_lt {edges : List (α × α)} {checked : List α} {x : α} (hx : ∃ e ∈ edges, x = e.1 ∨ x = e.2) (hc : x ∉ checked) :
    unchecked edges (OrdSet.insert x checked) < unchecked edges checked := by
  refine filter_lt _ _ _ (fun y hy => ?_) x ?_ ?_ ?_
  · rw [decide_eq_true_iff, mem_insert, not_or] at hy
    rw [decide_eq_true_iff]; exact hy.2
  · obtain ⟨e, he, h⟩ := hx
    rw [List.mem_append, List.mem_map, List.mem_map]
    rcases h with rfl | rfl
    · exact Or.inl ⟨e, he, rfl⟩
    · exact Or.inr ⟨e, he, rfl⟩
  · simpa using hc
  · simp [mem_insert]

/-- From a state of the invariant the search ends, and reports exactly if there is a cycle. -/
theorem dfs_ends {edges : List (α × α)} (hs : Sorted edges) (s : Dfs α) (ps : List α) (h : Inv edges s ps) :
    ∃ r, Ends (Dfs.step edges) s r ∧ (r = true ↔ ∃ n, Path edges n n) := by
  have hcond : ∀ x, x ∉ ps ∨ x ∈ ps := fun x => (Classical.em _).symm
  cases hst : s.stack with
  | nil =>
    have hps : ps = [] := by
      have := h.shape
      rw [hst] at this
      cases this; rfl
    subst hps
    cases hrem : s.rem with
    | nil =>
      refine ⟨false, .done (by simp [Dfs.step, hst, hrem]), ?_⟩
      have hno : ¬ ∃ n, Path edges n n := by
        rintro ⟨n, hn⟩
        have hsrc : ∃ b, (n, b) ∈ edges := by cases hn with | edge h => exact ⟨_, h⟩ | step h _ => exact ⟨_, h⟩
        obtain ⟨b, hb⟩ := hsrc
        rcases h.todo _ hb with h1 | h1 | h1
        · rw [hrem] at h1; cases h1
        · exact h.acyclic n h1 (by simp) hn
        · rw [hst] at h1; cases h1
      constructor
      · intro hc; cases hc
      · intro hc; exact absurd hc hno
    | cons p rem =>
      by_cases hp : p.1 ∈ s.checked
      · have hstep : Dfs.step edges s = .next { s with rem := rem } := by
          simp [Dfs.step, hst, hrem, (contains_iff s.checked p.1).mpr hp]
        have hinv : Inv edges { s with rem := rem } [] := by
          refine ⟨h.shape, h.on, h.sub, h.closed, h.acyclic, h.kids, h.univ, fun e he => ?_, fun e he => h.rem e (by rw [hrem]; exact List.mem_cons_of_mem _ he)⟩
          rcases h.todo e he with h1 | h1
          · rw [hrem] at h1
            rcases List.mem_cons.mp h1 with rfl | h1
            · exact Or.inr (Or.inl hp)
            · exact Or.inl h1
          · exact Or.inr h1
        obtain ⟨r, h1, h2⟩ := dfs_ends hs { s with rem := rem } [] hinv
        exact ⟨r, .next hstep h1, h2⟩
      · have hstep : Dfs.step edges s = .next { s with rem := rem, stack := [p.1] } := by
          simp [Dfs.step, hst, hrem, (contains_false s.checked p.1).mpr hp]
        have hinv : Inv edges { s with rem := rem, stack := [p.1] } [] := by
          refine ⟨.root _, h.on, h.sub, h.closed, h.acyclic, by simp, fun x hx => ?_, fun e he => ?_, fun e he => h.rem e (by rw [hrem]; exact List.mem_cons_of_mem _ he)⟩
          · obtain rfl : x = p.1 := by simpa using hx
            exact ⟨p, h.rem p (by rw [hrem]; exact List.mem_cons_self ..), Or.inl rfl⟩
          · rcases h.todo e he with h1 | h1 | h1
            · rw [hrem] at h1
              rcases List.mem_cons.mp h1 with rfl | h1
              · exact Or.inr (Or.inr (by simp))
              · exact Or.inl h1
            · exact Or.inr (Or.inl h1)
            · rw [hst] at h1; cases h1
        obtain ⟨r, h1, h2⟩ := dfs_ends hs { s with rem := rem, stack := [p.1] } [] hinv
        exact ⟨r, .next hstep h1, h2⟩
  | cons curr below =>
    have hshape := h.shape
    rw [hst] at hshape
    by_cases hc : curr ∈ s.checked
    · -- the top is done
      -- the path without it, and the shape of the rest
      have hpop : ∃ ps', Shape edges below ps' ∧ (∀ x, x ∈ ps' ↔ x ∈ ps ∧ x ≠ curr) ∧ (∀ p, ps'.head? = some p → (p, curr) ∈ edges) ∧
          (∀ y, (curr, y) ∈ edges → y ∈ s.checked ∧ y ≠ curr) ∧ (∀ x ∈ ps', x ≠ curr) := by
        cases hshape with
        | root r =>
          refine ⟨[], .nil, by simp, by simp, fun y hy => ?_, by simp⟩
          obtain ⟨h1, -⟩ := h.closed curr hc (by simp) y hy
          refine ⟨h1, ?_⟩
          rintro rfl
          exact h.acyclic y hc (by simp) (.edge hy)
        | @push st p ps c h1 he hcn =>
          refine ⟨p :: ps, h1, fun x => ?_, fun q hq => ?_, fun y hy => ?_, fun x hx hxc => hcn (hxc ▸ hx)⟩
          · constructor
            · intro hx; exact ⟨hx, fun hxc => hcn (hxc ▸ hx)⟩
            · exact And.left
          · obtain rfl : p = q := by simpa using hq
            exact he
          · obtain ⟨h2, -⟩ := h.closed curr hc hcn y hy
            refine ⟨h2, ?_⟩
            rintro rfl
            exact h.acyclic y hc hcn (.edge hy)
        | @visit st ps c h1 he hcn =>
          refine ⟨ps, h1, fun x => ?_, he, fun y hy => ?_, fun x hx hxc => hcn (hxc ▸ hx)⟩
          · constructor
            · intro hx; exact ⟨List.mem_cons_of_mem _ hx, fun hxc => hcn (hxc ▸ hx)⟩
            · rintro ⟨hx, hne⟩
              rcases List.mem_cons.mp hx with rfl | hx
              · exact absurd rfl hne
              · exact hx
          · obtain ⟨h2, h3⟩ := h.kids curr (List.mem_cons_self ..) y hy
            rw [hst, above_cons_self] at h3
            rcases h3 with h3 | h3
            · exact ⟨h3, h2⟩
            · cases h3
      obtain ⟨ps', hsh, hps', hhead, hkids, hne⟩ := hpop
      obtain ⟨q1, q2⟩ := pushChildren_spec s.checked (OrdSet.erase curr s.onStack) (children edges curr) below
      have hon : ∀ x, x ∈ OrdSet.erase curr s.onStack ↔ x ∈ ps' := by
        intro x; rw [mem_erase, h.on, hps']
      cases hpc : pushChildren s.checked (OrdSet.erase curr s.onStack) (children edges curr) below with
      | none =>
        refine ⟨true, .done ?_, ?_⟩
        · simp [Dfs.step, hst, (contains_iff s.checked curr).mpr hc, hpc]
        · obtain ⟨c, h1, h2, h3⟩ := q1 hpc
          rw [mem_children hs] at h1
          rw [hon] at h3
          have : ∃ n, Path edges n n := by
            cases hp : ps' with
            | nil => rw [hp] at h3; cases h3
            | cons p ps2 =>
              have hpc := hhead p (by rw [hp]; rfl)
              have hloop : Path edges p c := .step hpc (.edge h1)
              rcases hsh.reach (by rw [hp]; rfl : ps'.head? = some p) c h3 with rfl | hr
              · exact ⟨c, hloop⟩
              · have : ∀ {a b : α}, Path edges a b → ∀ {d}, Path edges b d → Path edges a d := by
                  intro a b hab
                  induction hab with
                  | edge h => intro d hd; exact .step h hd
                  | step h _ ih => intro d hd; exact .step h (ih hd)
                exact ⟨c, this hr hloop⟩
          simp [this]
      | some st =>
        obtain ⟨h1, new, rfl, h2⟩ := q2 st hpc
        have hnew : new = [] := by
          rw [List.eq_nil_iff_forall_not_mem]
          intro c hcn
          obtain ⟨h3, h4⟩ := (h2 c).mp hcn
          rw [mem_children hs] at h3
          exact h4 (hkids c h3).1
        subst hnew
        have hstep : Dfs.step edges s = .next { s with stack := below, onStack := OrdSet.erase curr s.onStack } := by
          simp [Dfs.step, hst, (contains_iff s.checked curr).mpr hc, hpc]
        have hcur : ∀ y, (curr, y) ∈ edges → y ∈ s.checked ∧ y ∉ ps' := by
          intro y hy
          obtain ⟨h3, h4⟩ := hkids y hy
          refine ⟨h3, fun hyp => ?_⟩
          exact h1 y ((mem_children hs curr y).mpr hy) h3 ((hon y).mpr hyp)
        have hclosed : ∀ x ∈ s.checked, x ∉ ps' → ∀ y, (x, y) ∈ edges → y ∈ s.checked ∧ y ∉ ps' := by
          intro x hx hxp y hy
          by_cases hxc : x = curr
          · subst hxc; exact hcur y hy
          · have hxp' : x ∉ ps := fun hc => hxp ((hps' x).mpr ⟨hc, hxc⟩)
            obtain ⟨h3, h4⟩ := h.closed x hx hxp' y hy
            exact ⟨h3, fun hc => h4 ((hps' y).mp hc).1⟩
        have hinv : Inv edges { s with stack := below, onStack := OrdSet.erase curr s.onStack } ps' := by
          refine ⟨hsh, hon, fun x hx => h.sub x ((hps' x).mp hx).1, hclosed, ?_, ?_, ?_, ?_, h.rem⟩
          · intro x hx hxp hpath
            by_cases hxc : x = curr
            · subst hxc
              -- a path from a finished node stays among the nodes finished before
              by_cases hxps : x ∈ ps
              · have hstay : ∀ {a b : α}, Path edges a b → a ∈ s.checked → a ∉ ps → b ∈ s.checked ∧ b ∉ ps := by
                  intro a b hab
                  induction hab with
                  | edge h3 => intro h4 h5; exact h.closed _ h4 h5 _ h3
                  | step h3 _ ih => intro h4 h5; obtain ⟨h6, h7⟩ := h.closed _ h4 h5 _ h3; exact ih h6 h7
                have hfirst : ∀ y, (x, y) ∈ edges → y ∈ s.checked ∧ y ∉ ps := by
                  intro y hy
                  obtain ⟨h3, h4⟩ := hcur y hy
                  exact ⟨h3, fun hc => h4 ((hps' y).mpr ⟨hc, (hkids y hy).2⟩)⟩
                cases hpath with
                | edge h3 => exact (hfirst x h3).2 hxps
                | step h3 h4 =>
                  obtain ⟨h5, h6⟩ := hfirst _ h3
                  exact (hstay h4 h5 h6).2 hxps
              · exact h.acyclic x hx hxps hpath
            · exact h.acyclic x hx (fun hc => hxp ((hps' x).mpr ⟨hc, hxc⟩)) hpath
          · intro x hx y hy
            obtain ⟨h3, h4⟩ := h.kids x ((hps' x).mp hx).1 y hy
            refine ⟨h3, ?_⟩
            rcases h4 with h4 | h4
            · exact Or.inl h4
            · rw [hst, above_cons x curr below (Ne.symm (hne x hx))] at h4
              rcases List.mem_cons.mp h4 with rfl | h4
              · exact Or.inl hc
              · exact Or.inr h4
          · intro x hx; exact h.univ x (by rw [hst]; exact List.mem_cons_of_mem _ hx)
          · intro e he
            rcases h.todo e he with h3 | h3 | h3
            · exact Or.inl h3
            · exact Or.inr (Or.inl h3)
            · rw [hst] at h3
              rcases List.mem_cons.mp h3 with h3 | h3
              · exact Or.inr (Or.inl (h3 ▸ hc))
              · exact Or.inr (Or.inr h3)
        obtain ⟨r, h3, h4⟩ := dfs_ends hs { s with stack := below, onStack := OrdSet.erase curr s.onStack } ps' hinv
        exact ⟨r, .next hstep h3, h4⟩
    · -- the top is visited for the first time
      have hps : curr ∉ ps := fun hx => hc (h.sub curr hx)
      have hsh : Shape edges below ps ∧ ∀ p, ps.head? = some p → (p, curr) ∈ edges := by
        cases hshape with
        | root r => exact ⟨.nil, by simp⟩
        | push h1 he hcn => exact ⟨h1, fun q hq => by rw [List.head?_cons] at hq; exact Option.some.inj hq ▸ he⟩
        | visit h1 he hcn => exact absurd (List.mem_cons_self ..) hps
      obtain ⟨hsh, hhead⟩ := hsh
      have hsh2 : Shape edges (curr :: below) (curr :: ps) := .visit hsh hhead hps
      obtain ⟨q1, q2⟩ := pushChildren_spec (OrdSet.insert curr s.checked) (OrdSet.insert curr s.onStack) (children edges curr) (curr :: below)
      have hon : ∀ x, x ∈ OrdSet.insert curr s.onStack ↔ x ∈ curr :: ps := by
        intro x; rw [mem_insert, h.on, List.mem_cons]
      cases hpc : pushChildren (OrdSet.insert curr s.checked) (OrdSet.insert curr s.onStack) (children edges curr) (curr :: below) with
      | none =>
        refine ⟨true, .done ?_, ?_⟩
        · simp [Dfs.step, hst, (contains_false s.checked curr).mpr hc, hpc]
        · obtain ⟨c, h1, h2, h3⟩ := q1 hpc
          rw [mem_children hs] at h1
          rw [hon] at h3
          have : ∃ n, Path edges n n := by
            rcases hsh2.reach rfl c h3 with rfl | hr
            · exact ⟨c, .edge h1⟩
            · exact ⟨c, hr.snoc h1⟩
          simp [this]
      | some st =>
        obtain ⟨h1, new, rfl, h2⟩ := q2 st hpc
        have hstep : Dfs.step edges s = .next (⟨s.rem, new ++ curr :: below, OrdSet.insert curr s.onStack, OrdSet.insert curr s.checked⟩ : Dfs α) := by
          simp [Dfs.step, hst, (contains_false s.checked curr).mpr hc, hpc]
        have hnew : ∀ c ∈ new, (curr, c) ∈ edges ∧ c ∉ OrdSet.insert curr s.checked := by
          intro c hcn
          obtain ⟨h3, h4⟩ := (h2 c).mp hcn
          exact ⟨(mem_children hs curr c).mp h3, h4⟩
        have hsub : ∀ x ∈ curr :: ps, x ∈ OrdSet.insert curr s.checked := by
          intro x hx
          rw [mem_insert]
          rcases List.mem_cons.mp hx with rfl | hx
          · exact Or.inl rfl
          · exact Or.inr (h.sub x hx)
        have hinv : Inv edges (⟨s.rem, new ++ curr :: below, OrdSet.insert curr s.onStack, OrdSet.insert curr s.checked⟩ : Dfs α) (curr :: ps) := by
          have hnotnew : ∀ x ∈ curr :: ps, x ∉ new := fun x hx hxn => (hnew x hxn).2 (hsub x hx)
          have hold : ∀ x, x ∈ OrdSet.insert curr s.checked → x ∉ curr :: ps → x ∈ s.checked ∧ x ∉ ps := by
            intro x hx hxp
            rw [List.mem_cons, not_or] at hxp
            rcases (mem_insert _ _ _).mp hx with hx | hx
            · exact absurd hx hxp.1
            · exact ⟨hx, hxp.2⟩
          refine ⟨hsh2.pushes fun c hcn => ⟨(hnew c hcn).1, fun hx => (hnew c hcn).2 (hsub c hx)⟩, hon, hsub, ?_, ?_, ?_, ?_, ?_, h.rem⟩
          · intro x hx hxp y hy
            obtain ⟨h3, h4⟩ := hold x hx hxp
            obtain ⟨h5, h6⟩ := h.closed x h3 h4 y hy
            refine ⟨(mem_insert _ _ _).mpr (Or.inr h5), ?_⟩
            rw [List.mem_cons, not_or]
            exact ⟨fun hyc => hc (hyc ▸ h5), h6⟩
          · intro x hx hxp
            obtain ⟨h3, h4⟩ := hold x hx hxp
            exact h.acyclic x h3 h4
          · intro x hx y hy
            rcases List.mem_cons.mp hx with rfl | hx
            · have hmem := (mem_children hs x y).mpr hy
              have hyx : y ≠ x := by
                rintro rfl
                exact h1 y hmem ((mem_insert _ _ _).mpr (Or.inl rfl)) ((mem_insert _ _ _).mpr (Or.inl rfl))
              refine ⟨hyx, ?_⟩
              by_cases hyc : y ∈ OrdSet.insert x s.checked
              · exact Or.inl hyc
              · right
                rw [above_append (hnotnew x (List.mem_cons_self ..))]
                exact List.mem_append_left _ ((h2 y).mpr ⟨hmem, hyc⟩)
            · obtain ⟨h3, h4⟩ := h.kids x hx y hy
              refine ⟨h3, ?_⟩
              rcases h4 with h4 | h4
              · exact Or.inl ((mem_insert _ _ _).mpr (Or.inr h4))
              · right
                rw [above_append (hnotnew x (List.mem_cons_of_mem _ hx)), ← hst]
                exact List.mem_append_right _ h4
          · intro x hx
            rcases List.mem_append.mp hx with hx | hx
            · exact ⟨(curr, x), (hnew x hx).1, Or.inr rfl⟩
            · exact h.univ x (by rw [hst]; exact hx)
          · intro e he
            rcases h.todo e he with h3 | h3 | h3
            · exact Or.inl h3
            · exact Or.inr (Or.inl ((mem_insert _ _ _).mpr (Or.inr h3)))
            · exact Or.inr (Or.inr (List.mem_append_right _ (by rw [← hst]; exact h3)))
        have hlt : unchecked edges (OrdSet.insert curr s.checked) < unchecked edges s.checked :=
          unchecked_lt (h.univ curr (by rw [hst]; exact List.mem_cons_self ..)) hc
        obtain ⟨r, h3, h4⟩ := dfs_ends hs (⟨s.rem, new ++ curr :: below, OrdSet.insert curr s.onStack, OrdSet.insert curr s.checked⟩ : Dfs α) (curr :: ps) hinv
        exact ⟨r, .next hstep h3, h4⟩
termination_by (s.rem.length, unchecked edges s.checked, s.stack.length)
decreasing_by
  all_goals simp_wf
  · simp only [Prod.lex_def]; left; rw [hrem]; simp
  · simp only [Prod.lex_def]; left; rw [hrem]; simp
  · simp only [Prod.lex_def]; right; refine ⟨trivial, Or.inr ⟨trivial, ?_⟩⟩; rw [hst]; simp
  · simp only [Prod.lex_def]; right; exact ⟨trivial, Or.inl hlt⟩

theorem Ends.unique {S R : Type} {step : S → Step S R} {s : S} {r r' : R} (h : Ends step s r) (h' : Ends step s r') : r = r' := by
  induction h with
  | done h =>
    cases h' with
    | done h2 => rw [h] at h2; exact Step.done.inj h2
    | next h2 => rw [h] at h2; cases h2
  | next h _ ih =>
    cases h' with
    | done h2 => rw [h] at h2; cases h2
    | next h2 h3 => rw [h] at h2; obtain rfl := Step.next.inj h2; exact ih h3

theorem dfs_start_inv (edges : List (α × α)) : Inv edges (Dfs.start edges) [] :=
  ⟨.nil, by simp [Dfs.start], by simp, by simp [Dfs.start], by simp [Dfs.start], by simp, by simp [Dfs.start],
    fun e he => Or.inl he, fun e he => he⟩

/-! ## Breadth first search -/

/-- Reachable from the roots, a root itself in no step. -/
def Reachable (edges : List (α × α)) (roots : List α) (n : α) : Prop := n ∈ roots ∨ ∃ r ∈ roots, Path edges r n

theorem Reachable.step {edges : List (α × α)} {roots : List α} {a b : α} (h : Reachable edges roots a) (he : (a, b) ∈ edges) :
    Reachable edges roots b := by
  rcases h with h | ⟨r, hr, h⟩
  · exact Or.inr ⟨a, h, .edge he⟩
  · exact Or.inr ⟨r, hr, h.snoc he⟩

theorem bfs_ends {edges : List (α × α)} (hs : Sorted edges) (roots : List α) (s : Bfs α)
    (h1 : ∀ x, x ∈ s.queue ∨ x ∈ s.reached → Reachable edges roots x)
    (h2 : ∀ x ∈ s.reached, ∀ y, (x, y) ∈ edges → y ∈ s.reached ∨ y ∈ s.queue)
    (h3 : ∀ x ∈ roots, x ∈ s.reached ∨ x ∈ s.queue) :
    ∃ r, Ends (Bfs.step edges) s r ∧ ∀ x, x ∈ r ↔ Reachable edges roots x := by
  cases hq : s.queue with
  | nil =>
    refine ⟨s.reached, .done (by simp [Bfs.step, hq]), fun x => ⟨fun hx => h1 x (Or.inr hx), fun hx => ?_⟩⟩
    have hroot : ∀ x ∈ roots, x ∈ s.reached := fun x hx => (h3 x hx).resolve_right (by simp [hq])
    have hpath : ∀ {a b : α}, Path edges a b → a ∈ s.reached → b ∈ s.reached := by
      intro a b hab
      induction hab with
      | edge h => intro ha; exact (h2 _ ha _ h).resolve_right (by simp [hq])
      | step h _ ih => intro ha; exact ih ((h2 _ ha _ h).resolve_right (by simp [hq]))
    rcases hx with hx | ⟨r, hr, hx⟩
    · exact hroot x hx
    · exact hpath hx (hroot r hr)
  | cons curr queue =>
    by_cases hc : curr ∈ s.reached
    · have hstep : Bfs.step edges s = .next { s with queue := queue } := by
        simp [Bfs.step, hq, (contains_iff s.reached curr).mpr hc]
      obtain ⟨r, h4, h5⟩ := bfs_ends hs roots { s with queue := queue }
        (fun x hx => h1 x (by rw [hq]; exact hx.imp_left (List.mem_cons_of_mem _)))
        (fun x hx y hy => by
          rcases h2 x hx y hy with h | h
          · exact Or.inl h
          · rw [hq] at h
            rcases List.mem_cons.mp h with rfl | h
            · exact Or.inl hc
            · exact Or.inr h)
        (fun x hx => by
          rcases h3 x hx with h | h
          · exact Or.inl h
          · rw [hq] at h
            rcases List.mem_cons.mp h with rfl | h
            · exact Or.inl hc
            · exact Or.inr h)
      exact ⟨r, .next hstep h4, h5⟩
    · have hcur : Reachable edges roots curr := h1 curr (Or.inl (by rw [hq]; exact List.mem_cons_self ..))
      have hstep : Bfs.step edges s = .next ⟨queue ++ (children edges curr).filter (fun c => !OrdSet.contains (OrdSet.insert curr s.reached) c),
          OrdSet.insert curr s.reached⟩ := by
        simp [Bfs.step, hq, (contains_false s.reached curr).mpr hc]
      have hlt : unchecked (edges ++ roots.map fun r => (r, r)) (OrdSet.insert curr s.reached) <
          unchecked (edges ++ roots.map fun r => (r, r)) s.reached := by
        refine unchecked_lt ?_ hc
        rcases hcur with hr | ⟨r, -, hp⟩
        · exact ⟨(curr, curr), List.mem_append_right _ (List.mem_map.mpr ⟨curr, hr, rfl⟩), Or.inl rfl⟩
        · have : ∀ {a b : α}, Path edges a b → ∃ e ∈ edges, b = e.2 := by
            intro a b hab
            induction hab with
            | edge h => exact ⟨_, h, rfl⟩
            | step _ _ ih => exact ih
          obtain ⟨e, he, rfl⟩ := this hp
          exact ⟨e, List.mem_append_left _ he, Or.inr rfl⟩
      obtain ⟨r, h4, h5⟩ := bfs_ends hs roots ⟨queue ++ (children edges curr).filter (fun c => !OrdSet.contains (OrdSet.insert curr s.reached) c),
          OrdSet.insert curr s.reached⟩
        (fun x hx => by
          rcases hx with hx | hx
          · rcases List.mem_append.mp hx with hx | hx
            · exact h1 x (Or.inl (by rw [hq]; exact List.mem_cons_of_mem _ hx))
            · exact hcur.step ((mem_children hs curr x).mp (List.mem_filter.mp hx).1)
          · rcases (mem_insert _ _ _).mp hx with rfl | hx
            · exact hcur
            · exact h1 x (Or.inr hx))
        (fun x hx y hy => by
          by_cases hyr : y ∈ OrdSet.insert curr s.reached
          · exact Or.inl hyr
          · right
            rcases (mem_insert _ _ _).mp hx with rfl | hx
            · exact List.mem_append_right _ (List.mem_filter.mpr ⟨(mem_children hs x y).mpr hy, (not_contains _ _).mpr hyr⟩)
            · rcases h2 x hx y hy with h | h
              · exact absurd ((mem_insert _ _ _).mpr (Or.inr h)) hyr
              · rw [hq] at h
                rcases List.mem_cons.mp h with rfl | h
                · exact absurd ((mem_insert _ _ _).mpr (Or.inl rfl)) hyr
                · exact List.mem_append_left _ h)
        (fun x hx => by
          rcases h3 x hx with h | h
          · exact Or.inl ((mem_insert _ _ _).mpr (Or.inr h))
          · rw [hq] at h
            rcases List.mem_cons.mp h with rfl | h
            · exact Or.inl ((mem_insert _ _ _).mpr (Or.inl rfl))
            · exact Or.inr (List.mem_append_left _ h))
      exact ⟨r, .next hstep h4, h5⟩
termination_by (unchecked (edges ++ roots.map fun r => (r, r)) s.reached, s.queue.length)
decreasing_by
  all_goals simp_wf
  · simp only [Prod.lex_def]; right; refine ⟨trivial, ?_⟩; rw [hq]; simp
  · simp only [Prod.lex_def]; left; exact hlt

end Graph

end ISD
