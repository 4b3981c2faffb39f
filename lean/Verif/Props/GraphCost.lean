import Verif.Props.Graph
import Verif.Proofs.GraphSlow

/-!
# C90: validating a graph takes bounded time and memory

`Runs step look held s r turns looks peak` (Model.GraphCost): the loop, started in `s`, ends with `r` after `turns` turns; in all of them it has looked
at edges `looks` times, and its stack or queue never held more than `peak` nodes.
-/

namespace ISD

open Graph

variable {α : Type} [NodeType α]

/-- Counting does not change the searches: they end with a result exactly if they do so with some counts, and the counts are determined. -/
theorem C90_counts_are_those_of_the_search {S R : Type} (step : S → Step S R) (look held : S → Nat) (s : S) :
    (∀ r, Ends step s r ↔ ∃ turns looks peak, Runs step look held s r turns looks peak) ∧
    ∀ r t l p r' t' l' p', Runs step look held s r t l p → Runs step look held s r' t' l' p' → r = r' ∧ t = t' ∧ l = l' ∧ p = p' := by
  refine ⟨fun r => ⟨fun h => ?_, fun h => ?_⟩, fun r t l p r' t' l' p' h => ?_⟩
  · induction h with
    | done h => exact ⟨_, _, _, .done h⟩
    | next h _ ih => obtain ⟨t, l, p, ih⟩ := ih; exact ⟨_, _, _, .next h ih⟩
  · obtain ⟨t, l, p, h⟩ := h
    induction h with
    | done h => exact .done h
    | next h _ ih => exact .next h ih
  · induction h generalizing r' t' l' p' with
    | done h =>
      intro h'
      cases h' with
      | done h2 => rw [h] at h2; exact ⟨Step.done.inj h2, rfl, rfl, rfl⟩
      | next h2 h3 => rw [h] at h2; cases h2
    | next h _ ih =>
      intro h'
      cases h' with
      | done h2 => rw [h] at h2; cases h2
      | next h2 h3 =>
        rw [h] at h2
        obtain rfl := Step.next.inj h2
        obtain ⟨e1, e2, e3, e4⟩ := ih _ _ _ _ h3
        exact ⟨e1, by rw [e2], by rw [e3], by rw [e4]⟩

/-- The search for cycles, on any graph with `E` edges: it ends, tells whether there is a cycle, takes `5 E + 1` turns at most, looks in each turn at no
more edges than the node with the most edges has (so at most `E` in a turn, `E (5 E + 1)` in all), and keeps at most `E + 1` nodes on its stack. -/
theorem C90_cycle_search (g : Graph α) (h : g.Valid) :
    ∃ r turns looks peak, Runs (Dfs.step g.edges) (Dfs.looks g.edges) (fun s => s.stack.length) (Dfs.start g.edges) r turns looks peak ∧
      (r = true ↔ ∃ n, Path g.edges n n) ∧ turns ≤ 5 * g.edges.length + 1 ∧ peak ≤ g.edges.length + 1 ∧
      looks ≤ g.edges.length * (5 * g.edges.length + 1) ∧
      ∀ D, (∀ a, (g.edges.filter fun e => decide (e.1 = a)).length ≤ D) → looks ≤ D * turns := by
  obtain ⟨r, h1, h2⟩ := dfs_ends h.edges (Dfs.start g.edges) [] (dfs_start_inv g.edges)
  have hdeg : ∀ D, (∀ a, (g.edges.filter fun e => decide (e.1 = a)).length ≤ D) → ∃ t l p,
      Runs (Dfs.step g.edges) (Dfs.looks g.edges) (fun s => s.stack.length) (Dfs.start g.edges) r t l p ∧
        t ≤ 5 * g.edges.length + 1 ∧ l ≤ D * t ∧ p ≤ g.edges.length + 1 := by
    intro D hD
    obtain ⟨t, l, p, k1, k2, k3, k4⟩ := dfs_runs h.edges D (g.edges.length + 1) (fun a => by rw [children_eq h.edges, List.length_map]; exact hD a)
      (Nat.le_refl _) h1 (fun x hx => by cases hx) (by
        show 0 + undone g.edges [] ≤ _
        rw [undone_nil]; omega)
    refine ⟨t, l, p, k1, ?_, k3, k4⟩
    have k2 : t ≤ 1 + 3 * g.edges.length + 0 + 2 * undone g.edges [] := k2
    rw [undone_nil] at k2
    omega
  obtain ⟨t, l, p, k1, k2, k3, k4⟩ := hdeg g.edges.length fun a => List.length_filter_le _ _
  refine ⟨r, t, l, p, k1, h2, k2, k4, Nat.le_trans k3 (Nat.mul_le_mul_left _ k2), fun D hD => ?_⟩
  obtain ⟨t', l', p', m1, m2, m3, m4⟩ := hdeg D hD
  obtain ⟨-, rfl, rfl, -⟩ := (C90_counts_are_those_of_the_search _ _ _ _).2 _ _ _ _ _ _ _ _ k1 m1
  exact m3

/-- The search for nodes that cannot be reached, on any graph with `E` edges and `R` roots: it ends with the nodes that can be reached, takes
`R + E + 1` turns at most, looks at edges at most `E` times in all, and keeps at most `R + E` nodes in its queue. -/
theorem C90_reach_search (g : Graph α) (h : g.Valid) :
    ∃ reached turns looks peak, Runs (Bfs.step g.edges) (Bfs.looks g.edges) (fun s => s.queue.length) (Bfs.start g.roots) reached turns looks peak ∧
      (∀ n, n ∈ reached ↔ n ∈ g.roots ∨ ∃ r ∈ g.roots, Path g.edges r n) ∧
      turns ≤ g.roots.length + g.edges.length + 1 ∧ looks ≤ g.edges.length ∧ peak ≤ g.roots.length + g.edges.length := by
  obtain ⟨r, h1, h2⟩ := bfs_ends h.edges g.roots (Bfs.start g.roots)
    (fun x hx => by
      rcases hx with hx | hx
      · exact Or.inl hx
      · cases hx)
    (fun x hx => by cases hx) (fun x hx => Or.inr hx)
  obtain ⟨t, l, p, k1, k2, k3, k4⟩ := bfs_runs h.edges (g.roots.length + g.edges.length) h1 (by
    show g.roots.length + undone g.edges [] ≤ _
    rw [undone_nil]; omega)
  have k2 : t ≤ 1 + g.roots.length + undone g.edges [] := k2
  have k3 : l ≤ undone g.edges [] := k3
  rw [undone_nil] at k2 k3
  exact ⟨r, t, l, p, k1, h2, by omega, k3, k4⟩

/-- The search for cycles is not linear: for every `n` there is a graph without cycles with `3 n + 3` edges on which it looks at edges `n * n` times and
more (each time a node is taken from the stack its edges are looked at again, and a node can be on the stack many times). -/
theorem C90_false_linear (n : Nat) (hn : n < 2 ^ 62) :
    ∃ g : Graph UUID, g.Valid ∧ g.edges.length = 3 * n + 3 ∧ (¬ ∃ x, Path g.edges x x) ∧
      ∀ r turns looks peak, Runs (Dfs.step g.edges) (Dfs.looks g.edges) (fun s => s.stack.length) (Dfs.start g.edges) r turns looks peak →
        r = false ∧ n * n ≤ looks := by
  have hN : n + n + 3 ≤ 2 ^ 64 := by omega
  have hf := numberedUUID_ascending
  refine ⟨⟨[], slowEdges numberedUUID n n⟩, ⟨List.Pairwise.nil, slow_sorted hf hN⟩, ?_, fun ⟨x, hx⟩ => slow_acyclic hf hN x hx, fun r t l p hr => ⟨?_, ?_⟩⟩
  · show (slowEdges numberedUUID n n).length = _
    rw [slow_length]; omega
  · obtain ⟨r', h1, h2⟩ := dfs_ends (slow_sorted hf hN) (Dfs.start (slowEdges numberedUUID n n)) [] (dfs_start_inv _)
    have he := Ends.unique (((C90_counts_are_those_of_the_search _ _ _ _).1 r).mpr ⟨t, l, p, hr⟩) h1
    rw [he, Bool.eq_false_iff]
    intro hc
    obtain ⟨x, hx⟩ := h2.mp hc
    exact slow_acyclic hf hN x hx
  · refine Nat.le_trans ?_ (slow_looks hf hN hr)
    exact Nat.mul_le_mul_right _ (by omega)

/-! ## Non-trivial cases -/

/-- A graph with a cycle behind a shared node, and roots. -/
example : (⟨[⟨1⟩, ⟨2⟩], [(⟨1⟩, ⟨3⟩), (⟨2⟩, ⟨3⟩), (⟨3⟩, ⟨4⟩), (⟨4⟩, ⟨3⟩)]⟩ : Graph (Unsigned 4)).Valid :=
  ⟨by unfold OrdSet.Sorted; decide, by unfold OrdSet.Sorted; decide⟩

/-- On this graph the search for cycles reports, within the bounds. -/
example : ∃ turns looks peak, Runs (Dfs.step [((⟨1⟩ : Unsigned 4), (⟨2⟩ : Unsigned 4)), (⟨2⟩, ⟨1⟩)]) (Dfs.looks [(⟨1⟩, ⟨2⟩), (⟨2⟩, ⟨1⟩)])
    (fun s => s.stack.length) (Dfs.start [(⟨1⟩, ⟨2⟩), (⟨2⟩, ⟨1⟩)]) true turns looks peak ∧ turns ≤ 11 ∧ peak ≤ 3 := by
  obtain ⟨r, t, l, p, h1, h2, h3, h4, -⟩ := C90_cycle_search (⟨[], [(⟨1⟩, ⟨2⟩), (⟨2⟩, ⟨1⟩)]⟩ : Graph (Unsigned 4))
    ⟨List.Pairwise.nil, by unfold OrdSet.Sorted; decide⟩
  have hr : r = true := h2.mpr ⟨⟨1⟩, .step (b := ⟨2⟩) (by decide) (.edge (by decide))⟩
  subst hr
  exact ⟨t, l, p, h1, h3, h4⟩

end ISD
