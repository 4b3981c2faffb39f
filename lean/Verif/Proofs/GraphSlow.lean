import Verif.Proofs.GraphCost
import Verif.Proofs.Order

/-! # Graphs on which the search for cycles is slow (C90) -/

namespace ISD.Graph

open OrdSet

section family

variable {α : Type} [NodeType α]

theorem pushChildren_eq (checked onStack : List α) (cs stack st : List α) (h : pushChildren checked onStack cs stack = some st) :
    st = (cs.filter fun c => !OrdSet.contains checked c).reverse ++ stack ∧ looksAt checked onStack cs = cs.length := by
  induction cs generalizing stack with
  | nil => cases h; exact ⟨rfl, rfl⟩
  | cons c cs ih =>
    rw [pushChildren] at h
    rw [looksAt]
    split at h
    · rename_i h1
      obtain ⟨h2, h3⟩ := ih _ h
      rw [if_pos h1, List.filter_cons_of_pos (p := fun c => !OrdSet.contains checked c) h1, h2, h3]
      exact ⟨by simp, rfl⟩
    · rename_i h1
      split at h
      · cases h
      · rename_i h4
        obtain ⟨h2, h3⟩ := ih _ h
        rw [if_neg h1, if_neg h4, List.filter_cons_of_neg (p := fun c => !OrdSet.contains checked c) h1, h2, h3]
        exact ⟨rfl, rfl⟩

/-- A run without report that looks at edges `l` times from a state with this stack and these visited nodes. -/
def Looks (edges : List (α × α)) (stack checked : List α) (l : Nat) : Prop :=
  ∃ (s : Dfs α) (t p : Nat), s.stack = stack ∧ s.checked = checked ∧
    Runs (Dfs.step edges) (Dfs.looks edges) (fun s => s.stack.length) s false t l p

theorem Looks.visit {edges : List (α × α)} {curr : α} {below checked : List α} {l : Nat} (h : Looks edges (curr :: below) checked l)
    (hc : curr ∉ checked) : ∃ l', Looks edges (((children edges curr).filter fun c => !OrdSet.contains (OrdSet.insert curr checked) c).reverse ++ curr :: below)
      (OrdSet.insert curr checked) l' ∧ l' ≤ l := by
  obtain ⟨⟨rem, stack, onStack, checked⟩, t, p, h1, h2, h3⟩ := h
  dsimp only at h1 h2
  subst h1 h2
  have hc' : (!OrdSet.contains checked curr) = true := by rw [not_contains]; exact hc
  generalize hr : false = r at h3
  cases h3 with
  | done h =>
    subst hr
    simp only [Dfs.step, hc', if_true] at h
    split at h <;> cases h
  | next h h4 =>
    subst hr
    simp only [Dfs.step, hc', if_true] at h
    split at h
    · cases h
    · rename_i st hp
      obtain ⟨h5, -⟩ := pushChildren_eq _ _ _ _ _ hp
      cases h
      exact ⟨_, ⟨_, _, _, h5, rfl, h4⟩, by omega⟩

theorem Looks.pop {edges : List (α × α)} {curr : α} {below checked : List α} {l : Nat} (h : Looks edges (curr :: below) checked l)
    (hc : curr ∈ checked) (hk : ∀ c ∈ children edges curr, c ∈ checked) :
    ∃ l', Looks edges below checked l' ∧ l = l' + (children edges curr).length := by
  obtain ⟨⟨rem, stack, onStack, checked⟩, t, p, h1, h2, h3⟩ := h
  dsimp only at h1 h2
  subst h1 h2
  have hc' : (!OrdSet.contains checked curr) = false := by rw [Bool.eq_false_iff, ne_eq, not_contains]; exact fun h => h hc
  have hnil : ((children edges curr).filter fun c => !OrdSet.contains checked c) = [] := by
    rw [List.filter_eq_nil_iff]
    intro c hcm
    rw [not_contains]
    exact fun h => h (hk c hcm)
  generalize hr : false = r at h3
  cases h3 with
  | done h =>
    subst hr
    simp only [Dfs.step, hc', Bool.false_eq_true, if_false] at h
    split at h <;> cases h
  | next h h4 =>
    subst hr
    simp only [Dfs.step, hc', Bool.false_eq_true, if_false] at h
    split at h
    · cases h
    · rename_i st hp
      obtain ⟨h5, h6⟩ := pushChildren_eq _ _ _ _ _ hp
      rw [hnil] at h5
      cases h
      refine ⟨_, ⟨_, _, _, h5, rfl, h4⟩, ?_⟩
      simp only [Dfs.looks, hc', Bool.false_eq_true, if_false]
      rw [Nat.add_comm, ← h6]

/-- Leaves on top of the stack are visited and taken off. -/
theorem Looks.leaves {edges : List (α × α)} : ∀ (ls : List α) (below checked : List α) (l : Nat), Looks edges (ls ++ below) checked l →
    ls.Nodup → (∀ x ∈ ls, children edges x = [] ∧ x ∉ checked) →
    ∃ checked' l', Looks edges below checked' l' ∧ l' ≤ l ∧ ∀ x, x ∈ checked' ↔ x ∈ ls ∨ x ∈ checked
  | [], below, checked, l, h, _, _ => ⟨checked, l, h, Nat.le_refl _, by simp⟩
  | x :: ls, below, checked, l, h, hn, hl => by
    obtain ⟨h1, h2⟩ := hl x (List.mem_cons_self ..)
    obtain ⟨l1, h3, h4⟩ := Looks.visit (below := ls ++ below) h h2
    rw [h1] at h3
    obtain ⟨l2, h5, h6⟩ := Looks.pop (curr := x) (below := ls ++ below) h3 ((mem_insert _ _ _).mpr (Or.inl rfl)) (by rw [h1]; simp)
    rw [List.nodup_cons] at hn
    obtain ⟨c', l3, h7, h8, h9⟩ := Looks.leaves ls below _ l2 h5 hn.2 (fun y hy => ⟨(hl y (List.mem_cons_of_mem _ hy)).1, by
      rw [mem_insert, not_or]
      exact ⟨fun e => hn.1 (e ▸ hy), (hl y (List.mem_cons_of_mem _ hy)).2⟩⟩)
    refine ⟨c', l3, h7, by omega, fun y => ?_⟩
    rw [h9, mem_insert, List.mem_cons]
    constructor
    · rintro (h | h | h)
      · exact Or.inl (Or.inr h)
      · exact Or.inl (Or.inl h)
      · exact Or.inr h
    · rintro ((h | h) | h)
      · exact Or.inr (Or.inl h)
      · exact Or.inl h
      · exact Or.inr (Or.inr h)

/-- The stack when the search is at the `i`-th node of the chain: the hub once for each node before it. -/
def waiting (c : Nat → α) (hub : α) : Nat → List α
  | 0 => []
  | i + 1 => hub :: c i :: waiting c hub i

structure Family (edges : List (α × α)) (c : Nat → α) (hub : α) (ls : List α) (n : Nat) : Prop where
  chain : ∀ i, i < n → children edges (c i) = [hub, c (i + 1)]
  last : children edges (c n) = [hub]
  centre : children edges hub = ls
  leaves : ∀ x ∈ ls, children edges x = []
  inj : ∀ i j, i ≤ n → j ≤ n → c i = c j → i = j
  hub_ne : ∀ i, i ≤ n → c i ≠ hub
  leaf_ne : ∀ x ∈ ls, x ≠ hub ∧ ∀ i, i ≤ n → x ≠ c i
  nodup : ls.Nodup

variable {edges : List (α × α)} {c : Nat → α} {hub : α} {ls : List α} {n : Nat}

theorem Family.down (F : Family edges c hub ls n) : ∀ (i : Nat) (checked : List α) (l : Nat), i ≤ n →
    Looks edges (waiting c hub (i + 1)) checked l → hub ∈ checked → (∀ x ∈ ls, x ∈ checked) → (∀ j, j ≤ n → c j ∈ checked) → (i + 1) * ls.length ≤ l := by
  intro i
  induction i with
  | zero =>
    intro checked l hi h hh hl hc
    obtain ⟨l1, -, h2⟩ := Looks.pop (curr := hub) (below := c 0 :: waiting c hub 0) h hh (by rw [F.centre]; exact hl)
    rw [F.centre] at h2
    rw [Nat.zero_add, Nat.one_mul]; omega
  | succ i ih =>
    intro checked l hi h hh hl hc
    obtain ⟨l1, h1, h2⟩ := Looks.pop (curr := hub) (below := c (i + 1) :: waiting c hub (i + 1)) h hh (by rw [F.centre]; exact hl)
    rw [F.centre] at h2
    obtain ⟨l2, h3, h4⟩ := Looks.pop h1 (hc _ hi) (by
      intro y hy
      by_cases he : i + 1 = n
      · rw [he, F.last, List.mem_singleton] at hy
        rw [hy]; exact hh
      · rw [F.chain _ (by omega)] at hy
        simp only [List.mem_cons, List.not_mem_nil, or_false] at hy
        rcases hy with rfl | rfl
        · exact hh
        · exact hc _ (by omega))
    have := ih checked l2 (by omega) h3 hh hl hc
    rw [Nat.add_mul (i + 1) 1, Nat.one_mul]; omega

theorem Family.up (F : Family edges c hub ls n) : ∀ (k i : Nat) (checked : List α) (l : Nat), i + k = n →
    Looks edges (c i :: waiting c hub i) checked l → (∀ x, x ∈ checked ↔ ∃ j, j < i ∧ x = c j) → (n + 1) * ls.length ≤ l := by
  intro k
  induction k with
  | zero =>
    intro i checked l hi h hc
    obtain rfl : i = n := by omega
    have hne : c i ∉ checked := by
      rw [hc]; rintro ⟨j, hj, he⟩
      have := F.inj i j (Nat.le_refl _) (by omega) he
      omega
    obtain ⟨l1, h1, h2⟩ := Looks.visit h hne
    have hhub : hub ∉ OrdSet.insert (c i) checked := by
      rw [mem_insert, hc]
      rintro (he | ⟨j, hj, he⟩)
      · exact F.hub_ne i (Nat.le_refl _) he.symm
      · exact F.hub_ne j (by omega) he.symm
    rw [F.last, List.filter_cons_of_pos (by rw [not_contains]; exact hhub)] at h1
    obtain ⟨l2, h3, h4⟩ := Looks.visit (curr := hub) (below := c i :: waiting c hub i) h1 hhub
    rw [F.centre, List.filter_eq_self.mpr (by
      intro x hx
      rw [not_contains, mem_insert, mem_insert, hc]
      rintro (he | he | ⟨j, hj, he⟩)
      · exact (F.leaf_ne x hx).1 he
      · exact (F.leaf_ne x hx).2 i (Nat.le_refl _) he
      · exact (F.leaf_ne x hx).2 j (by omega) he)] at h3
    obtain ⟨c', l3, h5, h6, h7⟩ := Looks.leaves ls.reverse _ _ _ h3 (List.pairwise_reverse.mpr (F.nodup.imp fun h => Ne.symm h)) (fun x hx => by
      rw [List.mem_reverse] at hx
      refine ⟨F.leaves x hx, ?_⟩
      rw [mem_insert, mem_insert, hc]
      rintro (he | he | ⟨j, hj, he⟩)
      · exact (F.leaf_ne x hx).1 he
      · exact (F.leaf_ne x hx).2 i (Nat.le_refl _) he
      · exact (F.leaf_ne x hx).2 j (by omega) he)
    have := F.down i c' l3 (Nat.le_refl _) h5 ((h7 _).mpr (Or.inr ((mem_insert _ _ _).mpr (Or.inl rfl))))
      (fun x hx => (h7 x).mpr (Or.inl (List.mem_reverse.mpr hx)))
      (fun j hj => (h7 _).mpr (Or.inr (by
        rw [mem_insert, mem_insert, hc]
        by_cases hji : j = i
        · exact Or.inr (Or.inl (hji ▸ rfl))
        · exact Or.inr (Or.inr ⟨j, by omega, rfl⟩))))
    omega
  | succ k ih =>
    intro i checked l hi h hc
    have hne : c i ∉ checked := by
      rw [hc]; rintro ⟨j, hj, he⟩
      have := F.inj i j (by omega) (by omega) he
      omega
    obtain ⟨l1, h1, h2⟩ := Looks.visit h hne
    have hhub : hub ∉ OrdSet.insert (c i) checked := by
      rw [mem_insert, hc]
      rintro (he | ⟨j, hj, he⟩)
      · exact F.hub_ne i (by omega) he.symm
      · exact F.hub_ne j (by omega) he.symm
    have hnext : c (i + 1) ∉ OrdSet.insert (c i) checked := by
      rw [mem_insert, hc]
      rintro (he | ⟨j, hj, he⟩)
      · have := F.inj (i + 1) i (by omega) (by omega) he; omega
      · have := F.inj (i + 1) j (by omega) (by omega) he; omega
    rw [F.chain i (by omega), List.filter_cons_of_pos (by rw [not_contains]; exact hhub),
      List.filter_cons_of_pos (by rw [not_contains]; exact hnext)] at h1
    have := ih (i + 1) _ l1 (by omega) h1 (fun x => by
      rw [mem_insert, hc]
      constructor
      · rintro (rfl | ⟨j, hj, rfl⟩)
        · exact ⟨i, by omega, rfl⟩
        · exact ⟨j, by omega, rfl⟩
      · rintro ⟨j, hj, rfl⟩
        by_cases hji : j = i
        · exact Or.inl (hji ▸ rfl)
        · exact Or.inr ⟨j, by omega, rfl⟩)
    omega

/-! ### The graphs -/

/-- Nodes `f i`, ..., `f (i + k)`, each with an edge to the hub `f 1` and, but for the last, to the next. -/
def chainEdges (f : Nat → α) : Nat → Nat → List (α × α)
  | 0, i => [(f i, f 1)]
  | k + 1, i => (f i, f 1) :: (f i, f (i + 1)) :: chainEdges f k (i + 1)

/-- `f 0` and a chain of `n` nodes more, all with an edge to the hub `f 1`, which has `m` children. -/
def slowEdges (f : Nat → α) (n m : Nat) : List (α × α) :=
  (f 0, f 1) :: (f 0, f 2) :: (((List.range m).map fun j => (f 1, f (n + 3 + j))) ++ chainEdges f n 2)

/-- The nodes are in order. -/
def Ascending (f : Nat → α) (N : Nat) : Prop := ∀ i j, i < j → j < N → SOrd.lt (f i) (f j) = true

theorem Ascending.inj {f : Nat → α} {N : Nat} (h : Ascending f N) {i j : Nat} (hi : i < N) (hj : j < N) (he : f i = f j) : i = j := by
  rcases Nat.lt_trichotomy i j with h1 | h1 | h1
  · have := h i j h1 hj; rw [he, SOrd.irrefl] at this; cases this
  · exact h1
  · have := h j i h1 hi; rw [he, SOrd.irrefl] at this; cases this

omit [NodeType α] in
theorem chain_length (f : Nat → α) : ∀ k i, (chainEdges f k i).length = 2 * k + 1
  | 0, _ => rfl
  | k + 1, i => by rw [chainEdges, List.length_cons, List.length_cons, chain_length f k]; omega

omit [NodeType α] in
theorem slow_length (f : Nat → α) (n m : Nat) : (slowEdges f n m).length = m + 2 * n + 3 := by
  rw [slowEdges, List.length_cons, List.length_cons, List.length_append, List.length_map, List.length_range, chain_length]; omega

omit [NodeType α] in
theorem mem_chain (f : Nat → α) : ∀ (k i : Nat) (e : α × α), e ∈ chainEdges f k i → ∃ j, i ≤ j ∧ j ≤ i + k ∧ e.1 = f j
  | 0, i, e, h => by
    rw [chainEdges, List.mem_singleton] at h
    exact ⟨i, by omega, by omega, by rw [h]⟩
  | k + 1, i, e, h => by
    rw [chainEdges, List.mem_cons, List.mem_cons] at h
    rcases h with rfl | rfl | h
    · exact ⟨i, by omega, by omega, rfl⟩
    · exact ⟨i, by omega, by omega, rfl⟩
    · obtain ⟨j, h1, h2, h3⟩ := mem_chain f k (i + 1) e h
      exact ⟨j, by omega, by omega, h3⟩

theorem pair_first {a b c d : α} (h : SOrd.lt a c = true) : SOrd.lt (a, b) (c, d) = true := (pairLt_iff (a, b) (c, d)).mpr (Or.inl h)
theorem pair_second {a b d : α} (h : SOrd.lt b d = true) : SOrd.lt (a, b) (a, d) = true := (pairLt_iff (a, b) (a, d)).mpr (Or.inr ⟨rfl, h⟩)

theorem chain_sorted {f : Nat → α} {N : Nat} (hf : Ascending f N) : ∀ (k i : Nat), 1 ≤ i → i + k < N → Sorted (chainEdges f k i)
  | 0, i, _, _ => List.pairwise_singleton _ _
  | k + 1, i, h1, h2 => by
    have hl : ∀ x, ∀ e ∈ chainEdges f k (i + 1), SOrd.lt (f i, x) e = true := by
      intro x e he
      obtain ⟨j, h3, h4, h5⟩ := mem_chain f k (i + 1) e he
      obtain ⟨e1, e2⟩ := e
      dsimp only at h5
      subst h5
      exact pair_first (hf i j (by omega) (by omega))
    rw [chainEdges]
    refine List.Pairwise.cons (fun e he => ?_) (List.Pairwise.cons (hl _) (chain_sorted hf k (i + 1) (by omega) (by omega)))
    rcases List.mem_cons.mp he with rfl | he
    · exact pair_second (hf 1 (i + 1) (by omega) (by omega))
    · exact hl _ e he

theorem slow_sorted {f : Nat → α} {n m N : Nat} (hf : Ascending f N) (h : n + m + 3 ≤ N) : Sorted (slowEdges f n m) := by
  have hrest : ∀ x, ∀ e ∈ ((List.range m).map fun j => (f 1, f (n + 3 + j))) ++ chainEdges f n 2, SOrd.lt (f 0, x) e = true := by
    intro x e he
    rcases List.mem_append.mp he with he | he
    · obtain ⟨j, h1, rfl⟩ := List.mem_map.mp he
      exact pair_first (hf 0 1 (by omega) (by omega))
    · obtain ⟨j, h3, h4, h5⟩ := mem_chain f n 2 e he
      obtain ⟨e1, e2⟩ := e
      dsimp only at h5
      subst h5
      exact pair_first (hf 0 j (by omega) (by omega))
  rw [slowEdges]
  refine List.Pairwise.cons (fun e he => ?_) (List.Pairwise.cons (hrest _) (List.pairwise_append.mpr ⟨?_, chain_sorted hf n 2 (by omega) (by omega), ?_⟩))
  · rcases List.mem_cons.mp he with rfl | he
    · exact pair_second (hf 1 2 (by omega) (by omega))
    · exact hrest _ e he
  · refine List.Pairwise.map _ (R := fun a b => a < b ∧ b < m) (fun a b hab => pair_second (hf _ _ (by omega) (by omega))) ?_
    refine List.Pairwise.imp_of_mem (fun {a b} ha hb hab => ⟨hab, List.mem_range.mp hb⟩) List.pairwise_lt_range
  · intro a ha b hb
    obtain ⟨j, h1, rfl⟩ := List.mem_map.mp ha
    obtain ⟨j', h3, h4, h5⟩ := mem_chain f n 2 b hb
    obtain ⟨e1, e2⟩ := b
    dsimp only at h5
    subst h5
    exact pair_first (hf 1 j' (by omega) (by omega))

/-- Edges with the given start. -/
def outOf (edges : List (α × α)) (a : α) : List α := (edges.filter fun e => decide (e.1 = a)).map Prod.snd

theorem outOf_nil (edges : List (α × α)) (a : α) (h : ∀ e ∈ edges, e.1 ≠ a) : outOf edges a = [] := by
  rw [outOf, List.filter_eq_nil_iff.mpr (fun e he => by simpa using h e he)]; rfl

theorem outOf_append (e1 e2 : List (α × α)) (a : α) : outOf (e1 ++ e2) a = outOf e1 a ++ outOf e2 a := by
  rw [outOf, List.filter_append, List.map_append]; rfl

theorem outOf_cons_pos (e : α × α) (es : List (α × α)) (a : α) (h : e.1 = a) : outOf (e :: es) a = e.2 :: outOf es a := by
  rw [outOf, List.filter_cons_of_pos (by simpa using h)]; rfl

theorem outOf_cons_neg (e : α × α) (es : List (α × α)) (a : α) (h : e.1 ≠ a) : outOf (e :: es) a = outOf es a := by
  rw [outOf, List.filter_cons_of_neg (by simpa using h)]; rfl

theorem outOf_chain {f : Nat → α} {N : Nat} (hf : Ascending f N) : ∀ (k i x : Nat), i + k < N → i ≤ x → x ≤ i + k →
    outOf (chainEdges f k i) (f x) = if x = i + k then [f 1] else [f 1, f (x + 1)]
  | 0, i, x, h1, h2, h3 => by
    obtain rfl : x = i := by omega
    rw [if_pos (by omega), chainEdges, outOf_cons_pos _ _ _ rfl]; rfl
  | k + 1, i, x, h1, h2, h3 => by
    rw [chainEdges]
    by_cases he : x = i
    · subst he
      rw [if_neg (by omega), outOf_cons_pos _ _ _ rfl, outOf_cons_pos _ _ _ rfl, outOf_nil]
      intro e hm hc
      obtain ⟨j, h4, h5, h6⟩ := mem_chain f k (x + 1) e hm
      have := hf.inj (by omega) (by omega) (h6.symm.trans hc)
      omega
    · have hne : f i ≠ f x := fun hc => he (hf.inj (by omega) (by omega) hc).symm
      rw [outOf_cons_neg _ _ _ hne, outOf_cons_neg _ _ _ hne, outOf_chain hf k (i + 1) x (by omega) (by omega) (by omega)]
      by_cases h4 : x = i + 1 + k
      · rw [if_pos h4, if_pos (by omega)]
      · rw [if_neg h4, if_neg (by omega)]

theorem outOf_chain_none {f : Nat → α} {N : Nat} (hf : Ascending f N) (k i x : Nat) (h1 : i + k < N) (hx : x < N) (h2 : x < i ∨ i + k < x) :
    outOf (chainEdges f k i) (f x) = [] := by
  refine outOf_nil _ _ fun e he hc => ?_
  obtain ⟨j, h4, h5, h6⟩ := mem_chain f k i e he
  have := hf.inj (by omega) hx (h6.symm.trans hc)
  omega

theorem outOf_fan (f : Nat → α) (n m : Nat) : outOf ((List.range m).map fun j => (f 1, f (n + 3 + j))) (f 1) =
    (List.range m).map fun j => f (n + 3 + j) := by
  rw [outOf, List.filter_eq_self.mpr (by simp), List.map_map]; rfl

theorem outOf_fan_none (f : Nat → α) (n m : Nat) (a : α) (h : f 1 ≠ a) : outOf ((List.range m).map fun j => (f 1, f (n + 3 + j))) a = [] := by
  refine outOf_nil _ _ fun e he => ?_
  obtain ⟨j, h1, rfl⟩ := List.mem_map.mp he
  exact h

/-- The nodes of the chain. -/
def chainNode (f : Nat → α) (i : Nat) : α := if i = 0 then f 0 else f (i + 1)

theorem slow_family {f : Nat → α} {n m N : Nat} (hf : Ascending f N) (h : n + m + 3 ≤ N) :
    Family (slowEdges f n m) (chainNode f) (f 1) ((List.range m).map fun j => f (n + 3 + j)) (n + 1) := by
  have hs := slow_sorted hf h
  have hout : ∀ a, children (slowEdges f n m) a = outOf (slowEdges f n m) a := children_eq hs
  have hne : ∀ {i j : Nat}, i < N → j < N → i ≠ j → f i ≠ f j := fun hi hj hij hc => hij (hf.inj hi hj hc)
  have hnode : ∀ i, i ≤ n + 1 → ∃ j, chainNode f i = f j ∧ j ≠ 1 ∧ j < n + 3 ∧ (i = 0 → j = 0) ∧ (i ≠ 0 → j = i + 1) := by
    intro i hi
    by_cases h0 : i = 0
    · exact ⟨0, by rw [chainNode, if_pos h0], by omega, by omega, fun _ => rfl, fun h => absurd h0 h⟩
    · exact ⟨i + 1, by rw [chainNode, if_neg h0], by omega, by omega, fun h => absurd h h0, fun _ => rfl⟩
  have hkid : ∀ j, 2 ≤ j → j ≤ n + 2 → children (slowEdges f n m) (f j) = if j = 2 + n then [f 1] else [f 1, f (j + 1)] := by
    intro j h1 h2
    rw [hout, slowEdges, outOf_cons_neg _ _ _ (hne (by omega) (by omega) (by omega)), outOf_cons_neg _ _ _ (hne (by omega) (by omega) (by omega)),
      outOf_append, outOf_fan_none f n m _ (hne (by omega) (by omega) (by omega)), List.nil_append, outOf_chain hf n 2 j (by omega) h1 (by omega)]
  refine ⟨fun i hi => ?_, ?_, ?_, fun x hx => ?_, fun i j hi hj he => ?_, fun i hi => ?_, fun x hx => ?_, ?_⟩
  · by_cases h0 : i = 0
    · subst h0
      show children _ (f 0) = [f 1, f 2]
      rw [hout, slowEdges, outOf_cons_pos _ _ _ rfl, outOf_cons_pos _ _ _ rfl, outOf_append,
        outOf_fan_none f n m _ (hne (by omega) (by omega) (by omega)), outOf_chain_none hf n 2 0 (by omega) (by omega) (by omega)]
      rfl
    · rw [chainNode, if_neg h0, hkid _ (by omega) (by omega), if_neg (by omega), chainNode, if_neg (by omega)]
  · rw [chainNode, if_neg (by omega), hkid _ (by omega) (by omega), if_pos (by omega)]
  · rw [hout, slowEdges, outOf_cons_neg _ _ _ (hne (by omega) (by omega) (by omega)), outOf_cons_neg _ _ _ (hne (by omega) (by omega) (by omega)),
      outOf_append, outOf_fan, outOf_chain_none hf n 2 1 (by omega) (by omega) (by omega), List.append_nil]
  · obtain ⟨j, h1, rfl⟩ := List.mem_map.mp hx
    have h1 := List.mem_range.mp h1
    rw [hout, slowEdges, outOf_cons_neg _ _ _ (hne (by omega) (by omega) (by omega)), outOf_cons_neg _ _ _ (hne (by omega) (by omega) (by omega)),
      outOf_append, outOf_fan_none f n m _ (hne (by omega) (by omega) (by omega)), outOf_chain_none hf n 2 _ (by omega) (by omega) (by omega)]
    rfl
  · obtain ⟨a, a1, a2, a3, a4, a5⟩ := hnode i hi
    obtain ⟨b, b1, b2, b3, b4, b5⟩ := hnode j hj
    rw [a1, b1] at he
    have := hf.inj (by omega) (by omega) he
    by_cases h0 : i = 0 <;> by_cases h1 : j = 0 <;> omega
  · obtain ⟨a, a1, a2, a3, a4, a5⟩ := hnode i hi
    rw [a1]
    exact hne (by omega) (by omega) a2
  · obtain ⟨j, h1, rfl⟩ := List.mem_map.mp hx
    have h1 := List.mem_range.mp h1
    refine ⟨hne (by omega) (by omega) (by omega), fun i hi => ?_⟩
    obtain ⟨a, a1, a2, a3, a4, a5⟩ := hnode i hi
    rw [a1]
    exact hne (by omega) (by omega) (by omega)
  · refine List.Pairwise.map _ (R := fun a b => a < b ∧ b < m) (fun a b hab => hne (by omega) (by omega) (by omega)) ?_
    refine List.Pairwise.imp_of_mem (fun {a b} ha hb hab => ⟨hab, List.mem_range.mp hb⟩) List.pairwise_lt_range

/-- Paths lead on: from the chain to later nodes of it and the hub, from the hub to the leaves. -/
theorem slow_acyclic {f : Nat → α} {n m N : Nat} (hf : Ascending f N) (h : n + m + 3 ≤ N) (a : α) : ¬ Path (slowEdges f n m) a a := by
  -- a rank that every edge raises
  have hedge : ∀ a b, (a, b) ∈ slowEdges f n m → ∃ i j, i < N ∧ j < N ∧ a = f i ∧ b = f j ∧
      (if i = 0 then 0 else if i = 1 then n + 3 else if i < n + 3 then i else n + 4) < (if j = 0 then 0 else if j = 1 then n + 3 else if j < n + 3 then j else n + 4) := by
    intro a b he
    rw [slowEdges, List.mem_cons, List.mem_cons, List.mem_append] at he
    rcases he with he | he | he | he
    · cases he; exact ⟨0, 1, by omega, by omega, rfl, rfl, by simp⟩
    · cases he; exact ⟨0, 2, by omega, by omega, rfl, rfl, by simp⟩
    · obtain ⟨j, h1, h2⟩ := List.mem_map.mp he
      have h1 := List.mem_range.mp h1
      cases h2
      refine ⟨1, n + 3 + j, by omega, by omega, rfl, rfl, ?_⟩
      rw [if_neg (by omega), if_pos rfl, if_neg (by omega), if_neg (by omega), if_neg (by omega)]; omega
    · have hc : ∀ k i, i + k = n + 2 → 2 ≤ i → (a, b) ∈ chainEdges f k i → ∃ x, 2 ≤ x ∧ x ≤ n + 2 ∧ a = f x ∧ (b = f 1 ∨ (x < n + 2 ∧ b = f (x + 1))) := by
        intro k
        induction k with
        | zero =>
          intro i hi h2 hm
          rw [chainEdges, List.mem_singleton] at hm
          cases hm
          exact ⟨i, h2, by omega, rfl, Or.inl rfl⟩
        | succ k ih =>
          intro i hi h2 hm
          rw [chainEdges, List.mem_cons, List.mem_cons] at hm
          rcases hm with hm | hm | hm
          · cases hm; exact ⟨i, h2, by omega, rfl, Or.inl rfl⟩
          · cases hm; exact ⟨i, h2, by omega, rfl, Or.inr ⟨by omega, rfl⟩⟩
          · exact ih (i + 1) (by omega) (by omega) hm
      obtain ⟨x, h1, h2, rfl, h3⟩ := hc n 2 (by omega) (by omega) he
      rcases h3 with rfl | ⟨h3, rfl⟩
      · refine ⟨x, 1, by omega, by omega, rfl, rfl, ?_⟩
        rw [if_neg (by omega), if_neg (by omega), if_pos (by omega), if_neg (by omega), if_pos rfl]; omega
      · refine ⟨x, x + 1, by omega, by omega, rfl, rfl, ?_⟩
        rw [if_neg (by omega), if_neg (by omega), if_pos (by omega), if_neg (by omega), if_neg (by omega), if_pos (by omega)]; omega
  generalize hr : (fun i => if i = 0 then 0 else if i = 1 then n + 3 else if i < n + 3 then i else n + 4) = rank at hedge
  have hedge' : ∀ a b, (a, b) ∈ slowEdges f n m → ∃ i j, i < N ∧ j < N ∧ a = f i ∧ b = f j ∧ rank i < rank j := by
    intro a b he
    obtain ⟨i, j, h1, h2, h3, h4, h5⟩ := hedge a b he
    exact ⟨i, j, h1, h2, h3, h4, by rw [← hr]; exact h5⟩
  have hpath : ∀ a b, Path (slowEdges f n m) a b → ∃ i j, i < N ∧ j < N ∧ a = f i ∧ b = f j ∧ rank i < rank j := by
    intro a b hp
    induction hp with
    | edge h => exact hedge' _ _ h
    | step h _ ih =>
      obtain ⟨i, j, h1, h2, h3, h4, h5⟩ := hedge' _ _ h
      obtain ⟨i', j', k1, k2, k3, k4, k5⟩ := ih
      have := hf.inj h2 k1 (h4.symm.trans k3)
      subst this
      exact ⟨i, j', h1, k2, h3, k4, by omega⟩
  intro hp
  obtain ⟨i, j, h1, h2, h3, h4, h5⟩ := hpath a a hp
  have := hf.inj h1 h2 (h3.symm.trans h4)
  subst this
  omega

/-- On these graphs every run looks at edges `(n + 2) * m` times at least. -/
theorem slow_looks {f : Nat → α} {n m N : Nat} (hf : Ascending f N) (h : n + m + 3 ≤ N) {r : Bool} {t l p : Nat}
    (hr : Runs (Dfs.step (slowEdges f n m)) (Dfs.looks (slowEdges f n m)) (fun s => s.stack.length) (Dfs.start (slowEdges f n m)) r t l p) :
    (n + 2) * m ≤ l := by
  have hs := slow_sorted hf h
  have hends : ∀ {S R : Type} {step : S → Step S R} {look held : S → Nat} {s : S} {r : R} {t l p : Nat}, Runs step look held s r t l p → Ends step s r := by
    intro S R step look held s r t l p hr
    induction hr with
    | done h => exact .done h
    | next h _ ih => exact .next h ih
  obtain ⟨r', e1, e2⟩ := dfs_ends hs _ [] (dfs_start_inv (slowEdges f n m))
  obtain rfl := Ends.unique (hends hr) e1
  have hfalse : r = false := by
    rw [Bool.eq_false_iff]
    intro hc
    obtain ⟨x, hx⟩ := e2.mp hc
    exact slow_acyclic hf h x hx
  subst hfalse
  have F := slow_family hf h
  generalize hst : Dfs.start (slowEdges f n m) = s at hr
  generalize hr2 : false = r at hr
  have hstep : Dfs.step (slowEdges f n m) s = .next ⟨(f 0, f 2) :: (((List.range m).map fun j => (f 1, f (n + 3 + j))) ++ chainEdges f n 2), [f 0], [], []⟩ := by
    rw [← hst]; rfl
  cases hr with
  | done h => rw [hstep] at h; cases h
  | next h4 h5 =>
    subst hr2
    rw [hstep] at h4
    cases h4
    have := F.up (n + 1) 0 [] _ (by omega) ⟨_, _, _, rfl, rfl, h5⟩ (by simp)
    rw [List.length_map, List.length_range] at this
    exact Nat.le_trans this (Nat.le_add_left _ _)

end family

/-! ### Ascending UUIDs -/

/-- `k` bytes of a number, highest first. -/
def beBytes : Nat → Nat → Bytes
  | 0, _ => []
  | k + 1, i => UInt8.ofNat (i / 256 ^ k) :: beBytes k (i % 256 ^ k)

theorem beBytes_length : ∀ k i, (beBytes k i).length = k
  | 0, _ => rfl
  | k + 1, i => by rw [beBytes, List.length_cons, beBytes_length k]

theorem memcmp_be : ∀ (k i j : Nat), i < j → j < 256 ^ k → memcmp (beBytes k i) (beBytes k j) < 0
  | 0, i, j, h1, h2 => by rw [Nat.pow_zero] at h2; omega
  | k + 1, i, j, h1, h2 => by
    have hp : 0 < 256 ^ k := Nat.pow_pos (by omega)
    have hb : ∀ x, x < 256 ^ (k + 1) → (UInt8.ofNat (x / 256 ^ k)).toNat = x / 256 ^ k := by
      intro x hx
      have : x / 256 ^ k < 256 := by
        rw [Nat.div_lt_iff_lt_mul hp, Nat.mul_comm]; rwa [Nat.pow_succ] at hx
      rw [UInt8.toNat_ofNat']
      exact Nat.mod_eq_of_lt this
    have hd : i / 256 ^ k ≤ j / 256 ^ k := Nat.div_le_div_right (Nat.le_of_lt h1)
    rw [beBytes, beBytes, memcmp, hb i (by omega), hb j h2]
    split
    · omega
    · rw [if_neg (by omega)]
      have he : i / 256 ^ k = j / 256 ^ k := by omega
      refine memcmp_be k _ _ ?_ (Nat.mod_lt _ hp)
      have e1 := Nat.div_add_mod i (256 ^ k)
      have e2 := Nat.div_add_mod j (256 ^ k)
      rw [he] at e1
      omega

theorem memcmp_prefix : ∀ (p a b : Bytes), memcmp (p ++ a) (p ++ b) = memcmp a b
  | [], _, _ => rfl
  | x :: p, a, b => by rw [List.cons_append, List.cons_append, memcmp, if_neg (by omega), if_neg (by omega), memcmp_prefix p]

/-- The UUID with the number in its last eight bytes. -/
def numberedUUID (i : Nat) : UUID := ⟨0, 0, 0, ⟨(beBytes 8 i).toArray, by rw [List.size_toArray, beBytes_length]⟩⟩

theorem numberedUUID_ascending : Ascending numberedUUID (2 ^ 64) := by
  intro i j h1 h2
  show UUID.less _ _ = true
  rw [UUID.less, decide_eq_true_iff]
  show memcmp (((0 : Word 4).image ++ (0 : Word 2).image ++ (0 : Word 2).image) ++ beBytes 8 i)
    (((0 : Word 4).image ++ (0 : Word 2).image ++ (0 : Word 2).image) ++ beBytes 8 j) < 0
  rw [memcmp_prefix]
  exact memcmp_be 8 i j h1 (by omega)

end ISD.Graph
