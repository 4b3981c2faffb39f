import Verif.Proofs.GraphSearch
import Verif.Model.GraphCost

/-! # Bounds on the searches of a graph's validation (C90) -/

namespace ISD.Graph

open OrdSet

variable {α : Type} [NodeType α]

/-- The children listed are the targets of the node's edges, in order, each once. -/
theorem children_eq {edges : List (α × α)} (h : Sorted edges) (a : α) : children edges a = (edges.filter fun e => decide (e.1 = a)).map Prod.snd := by
  have h1 : fromLower (a, (NodeType.inf : α)) edges = edges.filter fun e => !SOrd.lt e.1 a := by
    rw [fromLower, dropWhile_filter h _ (fun x y hxy hy => SOrd.trans _ _ _ hxy hy)]
    congr 1; funext e; rw [Bool.eq_iff_iff, Bool.not_eq_true', Bool.not_eq_true', ← Bool.not_eq_true, ← Bool.not_eq_true, lt_inf_iff]
  have h2 : fromUpper (a, (NodeType.sup : α)) edges = edges.filter fun e => SOrd.lt a e.1 := by
    rw [fromUpper, dropWhile_filter h]
    · congr 1; funext e
      rw [Bool.not_not, Bool.eq_iff_iff, sup_lt_iff]
    · intro x y hxy hy
      rw [Bool.not_eq_true'] at hy ⊢
      rw [Bool.eq_false_iff] at hy ⊢
      intro hc
      exact hy (SOrd.trans _ _ _ hc hxy)
  rw [children, h1, h2, between, take_filter h]
  · congr 2; funext e
    rw [Bool.eq_iff_iff, Bool.and_eq_true, Bool.not_eq_true', Bool.not_eq_true', decide_eq_true_iff]
    constructor
    · rintro ⟨h3, h4⟩
      rcases lt_trans_iff.mp h3 with h5 | h5
      · rw [h5] at h4; cases h4
      · exact h5
    · rintro rfl
      exact ⟨SOrd.irrefl _, SOrd.irrefl _⟩
  · intro x y hxy hx
    have hxy : pairLt x y = true := hxy
    rw [Bool.not_eq_true'] at hx ⊢
    rw [Bool.eq_false_iff] at hx ⊢
    intro hc
    rcases (pairLt_iff x y).mp hxy with h3 | ⟨h3, -⟩
    · exact hx (SOrd.trans _ _ _ h3 hc)
    · rw [h3] at hx; exact hx hc
  · intro x y hxy hx
    have hxy : pairLt x y = true := hxy
    rcases (pairLt_iff x y).mp hxy with h3 | ⟨h3, -⟩
    · exact SOrd.trans _ _ _ hx h3
    · rw [← h3]; exact hx
  · intro e he
    rw [Bool.not_eq_true']; exact asymm he

/-- Edges that start at nodes not in the set. -/
def undone (edges : List (α × α)) (set : List α) : Nat := (edges.filter fun e => decide (e.1 ∉ set)).length

theorem undone_insert {edges : List (α × α)} (h : Sorted edges) (a : α) (set : List α) (ha : a ∉ set) :
    undone edges set = undone edges (OrdSet.insert a set) + (children edges a).length := by
  rw [children_eq h, List.length_map, undone, undone]
  clear h
  induction edges with
  | nil => rfl
  | cons e es ih =>
    by_cases h1 : e.1 = a
    · subst h1
      rw [List.filter_cons_of_pos (by simpa using ha), List.filter_cons_of_neg (by simp [mem_insert]), List.filter_cons_of_pos (by simp)]
      simp only [List.length_cons]; omega
    · rw [List.filter_cons_of_neg (p := fun e : α × α => decide (e.1 = a)) (by simpa using h1)]
      by_cases h2 : e.1 ∈ set
      · rw [List.filter_cons_of_neg (by simpa using h2), List.filter_cons_of_neg (by simp [mem_insert, h2])]
        exact ih
      · rw [List.filter_cons_of_pos (by simpa using h2), List.filter_cons_of_pos (by simp [mem_insert, h1, h2])]
        simp only [List.length_cons]; omega

theorem undone_nil (edges : List (α × α)) : undone edges [] = edges.length := by
  rw [undone, List.filter_eq_self.mpr (by simp)]

theorem pushChildren_length (checked onStack : List α) (cs stack st : List α) (h : pushChildren checked onStack cs stack = some st) :
    st.length ≤ cs.length + stack.length := by
  induction cs generalizing stack with
  | nil => cases h; simp
  | cons c cs ih =>
    rw [pushChildren] at h
    split at h
    · have := ih _ h; simp only [List.length_cons] at this ⊢; omega
    · split at h
      · cases h
      · have := ih _ h; simp only [List.length_cons] at this ⊢; omega

theorem looksAt_le (checked onStack cs : List α) : looksAt checked onStack cs ≤ cs.length := by
  induction cs with
  | nil => exact Nat.le_refl _
  | cons c cs ih =>
    rw [looksAt]
    split
    · simp only [List.length_cons]; omega
    · split <;> simp only [List.length_cons] <;> omega

/-- Nodes on the stack, those not visited yet counted twice. -/
def weight (checked : List α) : List α → Nat
  | [] => 0
  | x :: xs => (if x ∈ checked then 1 else 2) + weight checked xs

theorem weight_append (checked a b : List α) : weight checked (a ++ b) = weight checked a + weight checked b := by
  induction a with
  | nil => simp [weight]
  | cons x xs ih => rw [List.cons_append, weight, weight, ih]; omega

theorem weight_le (checked a : List α) : weight checked a ≤ 2 * a.length := by
  induction a with
  | nil => exact Nat.le_refl _
  | cons x xs ih => rw [weight, List.length_cons]; split <;> omega

theorem weight_insert (c : α) (checked a : List α) : weight (OrdSet.insert c checked) a ≤ weight checked a := by
  induction a with
  | nil => exact Nat.le_refl _
  | cons x xs ih =>
    rw [weight, weight]
    by_cases h : x ∈ checked
    · rw [if_pos h, if_pos ((mem_insert _ _ _).mpr (Or.inr h))]; omega
    · rw [if_neg h]; split <;> omega

/-- Children of visited nodes are visited or above them on the stack. -/
def Above (edges : List (α × α)) (s : Dfs α) : Prop :=
  ∀ x ∈ s.checked, ∀ y ∈ children edges x, y ∈ s.checked ∨ y ∈ above x s.stack

theorem dfs_runs {edges : List (α × α)} (hs : Sorted edges) (D P : Nat) (hD : ∀ a, (children edges a).length ≤ D) (hP : edges.length + 1 ≤ P)
    {s : Dfs α} {r : Bool} (h : Ends (Dfs.step edges) s r) (hk : Above edges s) (hp : s.stack.length + undone edges s.checked ≤ P) :
    ∃ t l p, Runs (Dfs.step edges) (Dfs.looks edges) (fun s => s.stack.length) s r t l p ∧
      t ≤ 1 + 3 * s.rem.length + weight s.checked s.stack + 2 * undone edges s.checked ∧ l ≤ D * t ∧ p ≤ P := by
  have hlook : ∀ s : Dfs α, Dfs.looks edges s ≤ D := by
    intro s
    rw [Dfs.looks]
    split
    · exact Nat.zero_le _
    · split <;> exact Nat.le_trans (looksAt_le _ _ _) (hD _)
  induction h with
  | done h => exact ⟨1, _, _, .done h, by omega, by rw [Nat.mul_one]; exact hlook _, by omega⟩
  | @next s s' r h h2 ih =>
    suffices hx : Above edges s' ∧ s'.stack.length + undone edges s'.checked ≤ P ∧
        3 * s'.rem.length + weight s'.checked s'.stack + 2 * undone edges s'.checked + 1 ≤
          3 * s.rem.length + weight s.checked s.stack + 2 * undone edges s.checked by
      obtain ⟨hx1, hx2, hx3⟩ := hx
      obtain ⟨t, l, p, i1, i2, i3, i4⟩ := ih hx1 hx2
      refine ⟨_, _, _, .next h i1, by omega, ?_, Nat.max_le.mpr ⟨by omega, i4⟩⟩
      have := hlook s
      rw [Nat.mul_add, Nat.mul_one]; omega
    obtain ⟨rem, stack, onStack, checked⟩ := s
    rw [Dfs.step] at h
    cases stack with
    | nil =>
      cases rem with
      | nil => cases h
      | cons p rem =>
        dsimp only at h
        split at h
        · cases h
          exact ⟨hk, hp, by simp only [List.length_cons]; omega⟩
        · rename_i hc
          rw [Bool.not_eq_true, contains_false] at hc
          cases h
          refine ⟨fun x hx y hy => ?_, ?_, ?_⟩
          · rcases hk x hx y hy with h1 | h1
            · exact Or.inl h1
            · cases h1
          · have : undone edges checked ≤ edges.length := List.length_filter_le _ _
            show 1 + undone edges checked ≤ P
            omega
          · show 3 * rem.length + weight checked [p.1] + 2 * undone edges checked + 1 ≤ 3 * (rem.length + 1) + 0 + 2 * undone edges checked
            have := weight_le checked [p.1]
            simp only [List.length_cons, List.length_nil] at this
            omega
    | cons curr below =>
      dsimp only at h
      split at h
      · rename_i hc
        rw [not_contains] at hc
        cases hpc : pushChildren (OrdSet.insert curr checked) (OrdSet.insert curr onStack) (children edges curr) (curr :: below) with
        | none => rw [hpc] at h; cases h
        | some st =>
          rw [hpc] at h
          cases h
          obtain ⟨-, q2⟩ := pushChildren_spec (OrdSet.insert curr checked) (OrdSet.insert curr onStack) (children edges curr) (curr :: below)
          obtain ⟨h1, new, rfl, h3⟩ := q2 st hpc
          have hl := pushChildren_length _ _ _ _ _ hpc
          rw [List.length_append] at hl
          have hu := undone_insert hs curr checked hc
          refine ⟨fun x hx y hy => ?_, ?_, ?_⟩
          · have hxn : x ∉ new := fun hn => ((h3 x).mp hn).2 hx
            show y ∈ OrdSet.insert curr checked ∨ y ∈ above x (new ++ curr :: below)
            by_cases hy2 : y ∈ OrdSet.insert curr checked
            · exact Or.inl hy2
            · right
              rw [above_append hxn, List.mem_append]
              rcases (mem_insert _ _ _).mp hx with rfl | hx
              · exact Or.inl ((h3 y).mpr ⟨hy, hy2⟩)
              · rcases hk x hx y hy with h4 | h4
                · exact absurd ((mem_insert _ _ _).mpr (Or.inr h4)) hy2
                · exact Or.inr h4
          · show (new ++ curr :: below).length + undone edges (OrdSet.insert curr checked) ≤ P
            have hp : (curr :: below).length + undone edges checked ≤ P := hp
            rw [List.length_append]; omega
          · show 3 * rem.length + weight (OrdSet.insert curr checked) (new ++ curr :: below) + 2 * undone edges (OrdSet.insert curr checked) + 1 ≤
              3 * rem.length + weight checked (curr :: below) + 2 * undone edges checked
            have w1 := weight_le (OrdSet.insert curr checked) new
            have w2 := weight_insert curr checked below
            rw [weight_append, weight, weight, if_neg hc, if_pos ((mem_insert _ _ _).mpr (Or.inl rfl))]
            omega
      · rename_i hc
        rw [not_contains, Decidable.not_not] at hc
        cases hpc : pushChildren checked (OrdSet.erase curr onStack) (children edges curr) below with
        | none => rw [hpc] at h; cases h
        | some st =>
          rw [hpc] at h
          cases h
          obtain ⟨-, q2⟩ := pushChildren_spec checked (OrdSet.erase curr onStack) (children edges curr) below
          obtain ⟨h1, new, rfl, h3⟩ := q2 st hpc
          have hkids : ∀ y ∈ children edges curr, y ∈ checked := by
            intro y hy
            rcases hk curr hc y hy with h4 | h4
            · exact h4
            · rw [show above curr (curr :: below) = [] from above_cons_self curr below] at h4
              cases h4
          have hnew : new = [] := by
            rw [List.eq_nil_iff_forall_not_mem]
            intro c hcn
            obtain ⟨h4, h5⟩ := (h3 c).mp hcn
            exact h5 (hkids c h4)
          subst hnew
          refine ⟨fun x hx y hy => ?_, ?_, ?_⟩
          · show y ∈ checked ∨ y ∈ above x below
            by_cases hxc : x = curr
            · subst hxc; exact Or.inl (hkids y hy)
            · rcases hk x hx y hy with h4 | h4
              · exact Or.inl h4
              · rw [show above x (curr :: below) = curr :: above x below from above_cons x curr below (Ne.symm hxc)] at h4
                rcases List.mem_cons.mp h4 with rfl | h4
                · exact Or.inl hc
                · exact Or.inr h4
          · show below.length + undone edges checked ≤ P
            have hp : (curr :: below).length + undone edges checked ≤ P := hp
            rw [List.length_cons] at hp; omega
          · show 3 * rem.length + weight checked below + 2 * undone edges checked + 1 ≤
              3 * rem.length + weight checked (curr :: below) + 2 * undone edges checked
            rw [weight, if_pos hc]
            omega

theorem bfs_runs {edges : List (α × α)} (hs : Sorted edges) (P : Nat) {s : Bfs α} {r : List α} (h : Ends (Bfs.step edges) s r)
    (hp : s.queue.length + undone edges s.reached ≤ P) :
    ∃ t l p, Runs (Bfs.step edges) (Bfs.looks edges) (fun s => s.queue.length) s r t l p ∧
      t ≤ 1 + s.queue.length + undone edges s.reached ∧ l ≤ undone edges s.reached ∧ p ≤ P := by
  induction h with
  | @done s r h =>
    refine ⟨1, _, _, .done h, by omega, ?_, by omega⟩
    obtain ⟨queue, reached⟩ := s
    cases queue with
    | nil => exact Nat.zero_le _
    | cons curr queue =>
      rw [Bfs.step] at h
      dsimp only at h
      split at h <;> cases h
  | @next s s' r h h2 ih =>
    obtain ⟨queue, reached⟩ := s
    cases queue with
    | nil => cases h
    | cons curr queue =>
      have h0 := h
      rw [Bfs.step] at h
      dsimp only at h hp
      rw [List.length_cons] at hp
      split at h
      · rename_i hc
        cases h
        obtain ⟨t, l, p, i1, i2, i3, i4⟩ := ih (show queue.length + undone edges reached ≤ P by omega)
        refine ⟨_, _, _, .next h0 i1, ?_, ?_, Nat.max_le.mpr ⟨by simp only [List.length_cons]; omega, i4⟩⟩
        · dsimp only at i2 ⊢; rw [List.length_cons]; omega
        · rw [Bfs.looks]; dsimp only at i3 ⊢; rw [if_pos hc]; omega
      · rename_i hc
        rw [Bool.not_eq_true, contains_false] at hc
        cases h
        have hu := undone_insert hs curr reached hc
        have hf := List.length_filter_le (fun c => !OrdSet.contains (OrdSet.insert curr reached) c) (children edges curr)
        obtain ⟨t, l, p, i1, i2, i3, i4⟩ := ih (by dsimp only; rw [List.length_append]; omega)
        refine ⟨_, _, _, .next h0 i1, ?_, ?_, Nat.max_le.mpr ⟨by simp only [List.length_cons]; omega, i4⟩⟩
        · dsimp only at i2 ⊢; rw [List.length_append] at i2; rw [List.length_cons]; omega
        · rw [Bfs.looks]; dsimp only at i3 ⊢; rw [if_neg (by rw [Bool.not_eq_true, contains_false]; exact hc)]; omega

end ISD.Graph
