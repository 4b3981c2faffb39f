import Verif.Proofs.GraphSearch
import Verif.Proofs.Order

/-! # Directed graphs (C27 – C32) -/

namespace ISD

open OrdSet

set_option linter.unusedSectionVars false

variable {α : Type} [NodeType α]

/-- What `std::set` guarantees of its elements: they are kept in ascending order without duplicates. -/
structure Graph.Valid (g : Graph α) : Prop where
  roots : Sorted g.roots
  edges : Sorted g.edges

/-! ## C27 -/

/-- Changes of the edges of a graph. -/
inductive GraphOp (α : Type) where
  | insert (a b : α)
  | clear

/-- The calls of the client, one after the other. -/
def runGraph (g : Graph α) : List (GraphOp α) → Graph α
  | [] => g
  | .insert a b :: ops => runGraph (g.insertEdge a b) ops
  | .clear :: ops => runGraph Graph.empty ops

/-- `(a,b)` was inserted and the graph not cleared since. -/
def InsertedSinceClear (ops : List (GraphOp α)) (a b : α) : Prop :=
  ∃ before after, ops = before ++ GraphOp.insert a b :: after ∧ GraphOp.clear ∉ after

theorem Graph.Valid.empty : (Graph.empty : Graph α).Valid := ⟨List.Pairwise.nil, List.Pairwise.nil⟩

theorem Graph.Valid.insertEdge {g : Graph α} (h : g.Valid) (a b : α) : (g.insertEdge a b).Valid := ⟨h.roots, sorted_insert _ h.edges⟩

theorem runGraph_valid (ops : List (GraphOp α)) (g : Graph α) (h : g.Valid) : (runGraph g ops).Valid := by
  induction ops generalizing g with
  | nil => exact h
  | cons op ops ih =>
    cases op with
    | insert a b => exact ih _ (h.insertEdge a b)
    | clear => exact ih _ .empty

theorem runGraph_edges (ops : List (GraphOp α)) (g : Graph α) (a b : α) :
    (a, b) ∈ (runGraph g ops).edges ↔ InsertedSinceClear ops a b ∨ ((a, b) ∈ g.edges ∧ GraphOp.clear ∉ ops) := by
  induction ops generalizing g with
  | nil =>
    simp only [runGraph, List.not_mem_nil, not_false_eq_true, and_true]
    constructor
    · exact Or.inr
    · rintro (⟨before, after, h, -⟩ | h)
      · simp at h
      · exact h
  | cons op ops ih =>
    have hcons : InsertedSinceClear (op :: ops) a b ↔ InsertedSinceClear ops a b ∨ (op = .insert a b ∧ GraphOp.clear ∉ ops) := by
      constructor
      · rintro ⟨before, after, h, h2⟩
        cases before with
        | nil =>
          rw [List.nil_append, List.cons.injEq] at h
          exact Or.inr ⟨h.1, h.2 ▸ h2⟩
        | cons o before =>
          rw [List.cons_append, List.cons.injEq] at h
          exact Or.inl ⟨before, after, h.2, h2⟩
      · rintro (⟨before, after, h, h2⟩ | ⟨h, h2⟩)
        · exact ⟨op :: before, after, by rw [h]; rfl, h2⟩
        · exact ⟨[], ops, by rw [h]; rfl, h2⟩
    rw [hcons]
    cases op with
    | insert x y =>
      rw [runGraph, ih, Graph.insertEdge, mem_insert]
      simp only [Prod.mk.injEq, GraphOp.insert.injEq, List.mem_cons, reduceCtorEq, false_or]
      constructor
      · rintro (h | ⟨h | h, h2⟩)
        · exact Or.inl (Or.inl h)
        · exact Or.inl (Or.inr ⟨⟨h.1.symm, h.2.symm⟩, h2⟩)
        · exact Or.inr ⟨h, h2⟩
      · rintro ((h | ⟨h, h2⟩) | ⟨h, h2⟩)
        · exact Or.inl h
        · exact Or.inr ⟨Or.inl ⟨h.1.symm, h.2.symm⟩, h2⟩
        · exact Or.inr ⟨Or.inr h, h2⟩
    | clear =>
      rw [runGraph, ih]
      simp [Graph.empty]

/-- **C27**: after any calls on a new graph, `HasEdge` tells exactly the edges inserted since the last `Clear`; on an existing graph also
its own edges as long as it is not cleared. -/
theorem C27_edges_are_a_set (ops : List (GraphOp α)) (a b : α) :
    ((runGraph Graph.empty ops).hasEdge a b = true ↔ InsertedSinceClear ops a b) ∧
    (∀ g : Graph α, (runGraph g ops).hasEdge a b = true ↔
      InsertedSinceClear ops a b ∨ (g.hasEdge a b = true ∧ GraphOp.clear ∉ ops)) := by
  constructor
  · rw [Graph.hasEdge, contains_iff, runGraph_edges]; simp [Graph.empty]
  · intro g
    rw [Graph.hasEdge, contains_iff, runGraph_edges, Graph.hasEdge, contains_iff]

/-- A history with a repeated edge, a clear and an edge after it. -/
example : InsertedSinceClear [.insert 1 2, .clear, .insert 2 3, .insert 2 3, .insert (1 : Nat) 3] 2 3 ∧
    ¬ InsertedSinceClear [.insert 1 2, .clear, .insert 2 3, .insert 2 3, .insert (1 : Nat) 3] 1 2 := by
  constructor
  · exact ⟨[.insert 1 2, .clear, .insert 2 3], [.insert 1 3], rfl, by simp⟩
  · rintro ⟨before, after, h, h2⟩
    match before with
    | [] => simp at h; rw [← h] at h2; simp at h2
    | [_] => simp at h
    | [_, _] => simp at h
    | [_, _, _] => simp at h
    | [_, _, _, _] => simp at h
    | _ :: _ :: _ :: _ :: _ :: _ => simp at h

/-! ## C28 -/

/-- **C28** (partial): `GetSuccessors( n )` enumerates edges from `n` only, none twice, and every successor except the largest value of the
node type. Missing: the successor with that value is left out (see `C28_false`). -/
theorem C28_successors_partial (g : Graph α) (h : g.Valid) (n : α) :
    (∀ e ∈ g.getSuccessors n, e.1 = n) ∧ (g.getSuccessors n).Nodup ∧
    (∀ b, (n, b) ∈ g.getSuccessors n ↔ g.hasEdge n b = true ∧ b ≠ NodeType.sup) := by
  rw [Graph.getSuccessors_eq h.edges]
  refine ⟨fun e he => ?_, h.edges.nodup.sublist List.filter_sublist, fun b => ?_⟩
  · simpa using (of_decide_eq_true (List.mem_filter.mp he).2).1
  · rw [Graph.hasEdge, contains_iff, List.mem_filter]; simp

/-- The full C28 fails for every node type: an edge to the largest value is not enumerated. -/
theorem C28_false (g : Graph α) (h : g.Valid) (n : α) : (g.insertEdge n NodeType.sup).hasEdge n NodeType.sup = true ∧
    (n, NodeType.sup) ∉ (g.insertEdge n NodeType.sup).getSuccessors n := by
  constructor
  · rw [Graph.hasEdge, contains_iff]; exact (mem_insert _ _ _).mpr (Or.inl rfl)
  · intro hc; exact (((C28_successors_partial _ (h.insertEdge _ _) n).2.2 _).mp hc).2 rfl

/-! ## C29 -/

theorem sameItems_iff {β : Type} [DecidableEq β] : ∀ l r : List β, l.length = r.length → (Graph.sameItems l r = true ↔ l = r)
  | [], [], _ => by simp [Graph.sameItems]
  | [], _ :: _, h => by simp at h
  | _ :: _, [], h => by simp at h
  | x :: xs, y :: ys, h => by
    rw [Graph.sameItems]
    by_cases hxy : x = y
    · rw [if_neg (by simp [hxy]), sameItems_iff xs ys (by simpa using h), hxy]; simp
    · rw [if_pos hxy]; simp [hxy]

/-- Both graphs have the same roots and the same edges. -/
def Graph.SameContent (l r : Graph α) : Prop := (∀ n, n ∈ l.roots ↔ n ∈ r.roots) ∧ (∀ a b, l.hasEdge a b = true ↔ r.hasEdge a b = true)

theorem Graph.SameContent.eq {l r : Graph α} (hl : l.Valid) (hr : r.Valid) (h : l.SameContent r) : l = r := by
  obtain ⟨h1, h2⟩ := h
  have e1 : l.roots = r.roots := sorted_ext hl.roots hr.roots h1
  have e2 : l.edges = r.edges := sorted_ext hl.edges hr.edges fun ⟨a, b⟩ => by
    have := h2 a b; rwa [Graph.hasEdge, Graph.hasEdge, contains_iff, contains_iff] at this
  cases l; cases r; simp_all

/-- **C29**, equality: two objects are equal exactly if they have the same content, however they were built; a missing one equals only a
missing one. (`samePtr` can be true only if both pointers are the same.) -/
theorem C29_equality (l r : Graph α) (hl : l.Valid) (hr : r.Valid) :
    (Graph.equals false (some l) (some r) = true ↔ l.SameContent r) ∧
    Graph.equals true (some l) (some l) = true ∧ Graph.equals true (Option.none : Option (Graph α)) Option.none = true ∧
    Graph.equals false (some l) Option.none = false ∧ Graph.equals false Option.none (some r) = false := by
  refine ⟨?_, rfl, rfl, rfl, rfl⟩
  have hiff : l.SameContent r ↔ l.roots = r.roots ∧ l.edges = r.edges := by
    constructor
    · intro h; have := h.eq hl hr; subst this; exact ⟨rfl, rfl⟩
    · rintro ⟨h1, h2⟩
      exact ⟨fun n => by rw [h1], fun a b => by rw [Graph.hasEdge, Graph.hasEdge, h2]⟩
  rw [hiff, Graph.equals]
  simp only [Bool.false_eq_true, if_false]
  by_cases h1 : l.roots.length = r.roots.length
  · by_cases h2 : l.edges.length = r.edges.length
    · rw [if_neg (by simp [h1]), if_neg (by simp [h2])]
      rw [← sameItems_iff _ _ h1, ← sameItems_iff _ _ h2]
      cases Graph.sameItems l.roots r.roots <;> simp
    · rw [if_neg (by simp [h1]), if_pos h2]
      simp only [Bool.false_eq_true, false_iff, not_and]
      intro _ h; exact absurd (congrArg List.length h) h2
  · rw [if_pos h1]
    simp only [Bool.false_eq_true, false_iff, not_and]
    intro h; exact absurd (congrArg List.length h) h1

/-- **C29**, copying: the destination gets the content of the source whatever it held before, also if both are the same object; from a null
pointer it becomes empty. -/
theorem C29_copying (s : Graph α) (h : s.Valid) :
    (Graph.deepCopy (some s)).SameContent s ∧ (Graph.deepCopy (some s)).Valid ∧ Graph.deepCopy (some s) = s ∧
    Graph.deepCopy (Option.none : Option (Graph α)) = Graph.empty := by
  have he : Graph.deepCopy (some s) = s := by
    rw [Graph.deepCopy]; simp only [ofList_sorted h.roots, ofList_sorted h.edges]
  rw [he]
  exact ⟨⟨fun _ => Iff.rfl, fun _ _ => Iff.rfl⟩, h, rfl, rfl⟩

/-- Two graphs built in different orders. -/
example : Graph.equals false (some (runGraph Graph.empty [.insert ⟨1#8⟩ ⟨2#8⟩, .insert ⟨0#8⟩ ⟨1#8⟩, .insert (⟨1#8⟩ : Unsigned 1) ⟨2#8⟩]))
    (some (runGraph Graph.empty [.insert ⟨0#8⟩ ⟨1#8⟩, .insert ⟨1#8⟩ ⟨2#8⟩])) = true := by decide

/-! ## C30 – C32 -/

/-- `n` has an incoming edge. -/
def Graph.HasIncoming (g : Graph α) (n : α) : Prop := ∃ a, g.hasEdge a n = true
/-- `n` has an outgoing edge. -/
def Graph.HasOutgoing (g : Graph α) (n : α) : Prop := ∃ b, g.hasEdge n b = true
/-- There is a directed cycle (a path of at least one edge from a node to itself). -/
def Graph.HasCycle (g : Graph α) : Prop := ∃ n, Path g.edges n n
/-- `n` is a root or can be reached from one along edges. -/
def Graph.Reached (g : Graph α) (n : α) : Prop := Graph.Reachable g.edges g.roots n

theorem fold_mem (p : α × α → Bool) (f : α × α → α) (edges : List (α × α)) (set : List α) (x : α) :
    x ∈ edges.foldl (fun set e => if p e then OrdSet.insert (f e) set else set) set ↔ x ∈ set ∨ ∃ e ∈ edges, p e = true ∧ x = f e := by
  induction edges generalizing set with
  | nil => simp
  | cons e edges ih =>
    rw [List.foldl_cons, ih]
    by_cases hp : p e = true
    · rw [if_pos hp, mem_insert]; simp only [List.mem_cons, exists_eq_or_imp, hp, true_and]
      constructor
      · rintro ((h | h) | h)
        · exact Or.inr (Or.inl h)
        · exact Or.inl h
        · exact Or.inr (Or.inr h)
      · rintro (h | h | h)
        · exact Or.inl (Or.inr h)
        · exact Or.inl (Or.inl h)
        · exact Or.inr h
    · rw [if_neg hp]; simp [hp]

theorem fold_sorted (p : α × α → Bool) (f : α × α → α) (edges : List (α × α)) (set : List α) (h : Sorted set) :
    Sorted (edges.foldl (fun set e => if p e then OrdSet.insert (f e) set else set) set) := by
  induction edges generalizing set with
  | nil => exact h
  | cons e edges ih =>
    rw [List.foldl_cons]
    apply ih
    split
    · exact sorted_insert _ h
    · exact h

theorem down_mem_aux (edges : List (α × α)) (set : List α) (x : α) :
    x ∈ edges.foldl (fun set e => if !OrdSet.contains set e.2 then OrdSet.insert e.2 set else set) set ↔ x ∈ set ∨ ∃ e ∈ edges, x = e.2 := by
  induction edges generalizing set with
  | nil => simp
  | cons e edges ih =>
    rw [List.foldl_cons, ih]
    simp only [List.mem_cons, exists_eq_or_imp]
    split
    · rw [mem_insert]
      constructor
      · rintro ((h | h) | h)
        · exact Or.inr (Or.inl h)
        · exact Or.inl h
        · exact Or.inr (Or.inr h)
      · rintro (h | h | h)
        · exact Or.inl (Or.inr h)
        · exact Or.inl (Or.inl h)
        · exact Or.inr h
    · rename_i hc
      rw [not_contains, Decidable.not_not] at hc
      constructor
      · rintro (h | h)
        · exact Or.inl h
        · exact Or.inr (Or.inr h)
      · rintro (h | h | h)
        · exact Or.inl h
        · exact Or.inl (h ▸ hc)
        · exact Or.inr h

theorem down_sorted_aux (edges : List (α × α)) (set : List α) (h : Sorted set) :
    Sorted (edges.foldl (fun set e => if !OrdSet.contains set e.2 then OrdSet.insert e.2 set else set) set) := by
  induction edges generalizing set with
  | nil => exact h
  | cons e edges ih =>
    rw [List.foldl_cons]
    apply ih
    split
    · exact sorted_insert _ h
    · exact h

theorem mem_downstream (g : Graph α) (n : α) : n ∈ Graph.downstreamNodes g.edges ↔ g.HasIncoming n := by
  rw [Graph.downstreamNodes, down_mem_aux]
  simp only [List.not_mem_nil, false_or, Graph.HasIncoming, Graph.hasEdge, contains_iff]
  constructor
  · rintro ⟨⟨a, b⟩, h, rfl⟩; exact ⟨a, h⟩
  · rintro ⟨a, h⟩; exact ⟨(a, n), h, rfl⟩

theorem mem_rootNodes (g : Graph α) (n : α) : n ∈ Graph.rootNodes g.edges ↔ g.HasOutgoing n ∧ ¬ g.HasIncoming n := by
  rw [Graph.rootNodes, fold_mem (fun e => !OrdSet.contains (Graph.downstreamNodes g.edges) e.1) Prod.fst]
  simp only [List.not_mem_nil, false_or, not_contains, mem_downstream, Graph.HasOutgoing, Graph.hasEdge, contains_iff]
  constructor
  · rintro ⟨⟨a, b⟩, h, h2, rfl⟩; exact ⟨⟨b, h⟩, h2⟩
  · rintro ⟨⟨b, h⟩, h2⟩; exact ⟨(n, b), h, h2, rfl⟩

theorem downstream_nodup (g : Graph α) : (Graph.downstreamNodes g.edges).Nodup :=
  (down_sorted_aux _ _ List.Pairwise.nil).nodup

theorem rootNodes_nodup (g : Graph α) : (Graph.rootNodes g.edges).Nodup :=
  (fold_sorted (fun e => !OrdSet.contains (Graph.downstreamNodes g.edges) e.1) Prod.fst _ _ List.Pairwise.nil).nodup

/-- `l` lists exactly the nodes with the property, each once. -/
def Lists (l : List α) (p : α → Prop) : Prop := l.Nodup ∧ ∀ n, n ∈ l ↔ p n

/-- **C30**: the search for cycles of an acyclic graph type ends on every graph, always the same way, and finds a cycle exactly if there
is one. -/
theorem C30_cycle_search (g : Graph α) (h : g.Valid) :
    ∃ found, Graph.Ends (Graph.Dfs.step g.edges) (Graph.Dfs.start g.edges) found ∧
      (∀ other, Graph.Ends (Graph.Dfs.step g.edges) (Graph.Dfs.start g.edges) other → other = found) ∧ (found = true ↔ g.HasCycle) := by
  obtain ⟨r, h1, h2⟩ := Graph.dfs_ends h.edges _ [] (Graph.dfs_start_inv g.edges)
  exact ⟨r, h1, fun o ho => ho.unique h1, h2⟩

/-- **C30**: validation of a graph type that is declared acyclic (and nothing else) returns, and reports one error if there is a cycle and
none otherwise. -/
theorem C30_acyclic_validation (g : Graph α) (h : g.Valid) :
    ∃ reports, Graph.Validates true false false g reports ∧ (∀ other, Graph.Validates true false false g other → other = reports) ∧
      (g.HasCycle → reports = [Graph.invalidSetup]) ∧ (¬ g.HasCycle → reports = []) := by
  obtain ⟨r, h1, h2, h3⟩ := C30_cycle_search g h
  refine ⟨_, ⟨[], r, fun hc => (by cases hc), fun _ => h1⟩, ?_, ?_, ?_⟩
  · rintro _ ⟨reached, c, -, hc⟩
    rw [h2 c (hc rfl)]; simp
  · intro hc; rw [h3.mpr hc]; simp
  · intro hc
    have : r = false := by rw [← Bool.not_eq_true, h3]; exact hc
    rw [this]; simp

theorem validates_exists (g : Graph α) (h : g.Valid) :
    ∃ reached cycle, Graph.Ends (Graph.Bfs.step g.edges) (Graph.Bfs.start g.roots) reached ∧
      Graph.Ends (Graph.Dfs.step g.edges) (Graph.Dfs.start g.edges) cycle ∧ (cycle = true ↔ g.HasCycle) ∧ (∀ n, n ∈ reached ↔ g.Reached n) := by
  obtain ⟨r, h1, h2⟩ := Graph.dfs_ends h.edges _ [] (Graph.dfs_start_inv g.edges)
  obtain ⟨q, h3, h4⟩ := Graph.bfs_ends h.edges g.roots (Graph.Bfs.start g.roots)
    (fun x hx => by simp [Graph.Bfs.start] at hx; exact Or.inl hx) (by simp [Graph.Bfs.start]) (fun x hx => Or.inr hx)
  exact ⟨q, r, h3, h1, h2, h4⟩

/-- The number of reports of each kind, in full. This covers **C30**, **C31** and **C32**: validation of any graph type returns on every
valid graph, always the same way, and reports
* one invalid count if the type is single rooted and not exactly one node has outgoing but no incoming edges, and one more if it is also
  rooted and `Roots` has not exactly one element;
* if the type is rooted, one invalid object per node of `Roots` with incoming edges, one missing object per node with outgoing and no
  incoming edges that is not in `Roots`, and one invalid setup per node with incoming edges that cannot be reached from `Roots`;
* if the type is acyclic, one invalid setup if there is a cycle;
* nothing else. -/
theorem C32_validation_reports (acyclic rooted singleRoot : Bool) (g : Graph α) (h : g.Valid) :
    ∃ reports tops badRoots missing unreachable,
      Graph.Validates acyclic rooted singleRoot g reports ∧
      (∀ other, Graph.Validates acyclic rooted singleRoot g other → other = reports) ∧
      Lists tops (fun n => g.HasOutgoing n ∧ ¬ g.HasIncoming n) ∧
      Lists badRoots (fun n => n ∈ g.roots ∧ g.HasIncoming n) ∧
      Lists missing (fun n => (g.HasOutgoing n ∧ ¬ g.HasIncoming n) ∧ n ∉ g.roots) ∧
      Lists unreachable (fun n => g.HasIncoming n ∧ ¬ g.Reached n) ∧
      ∃ cyclic : Bool, (cyclic = true ↔ g.HasCycle) ∧
      reports =
        (if singleRoot = true ∧ tops.length ≠ 1 then [Graph.invalidCount] else []) ++
        (if rooted = true ∧ singleRoot = true ∧ g.roots.length ≠ 1 then [Graph.invalidCount] else []) ++
        List.replicate (if rooted = true then badRoots.length else 0) Graph.invalidObject ++
        List.replicate (if rooted = true then missing.length else 0) Graph.missingObject ++
        List.replicate (if rooted = true then unreachable.length else 0) Graph.invalidSetup ++
        (if acyclic = true ∧ cyclic = true then [Graph.invalidSetup] else []) := by
  obtain ⟨q, r, h1, h2, h3, h4⟩ := validates_exists g h
  refine ⟨_, Graph.rootNodes g.edges, g.roots.filter fun n => OrdSet.contains (Graph.downstreamNodes g.edges) n,
    (Graph.rootNodes g.edges).filter fun n => !OrdSet.contains g.roots n,
    (Graph.downstreamNodes g.edges).filter fun n => !OrdSet.contains q n, ⟨q, r, fun _ => h1, fun _ => h2⟩, ?_,
    ⟨rootNodes_nodup g, mem_rootNodes g⟩, ⟨h.roots.nodup.filter _, fun n => ?_⟩, ⟨(rootNodes_nodup g).filter _, fun n => ?_⟩,
    ⟨(downstream_nodup g).filter _, fun n => ?_⟩, r, h3, ?_⟩
  · rintro _ ⟨q', r', e1, e2⟩
    cases rooted <;> cases acyclic <;> (try rw [(e1 rfl).unique h1]) <;> (try rw [(e2 rfl).unique h2]) <;> simp
  · rw [List.mem_filter, contains_iff, mem_downstream]
  · rw [List.mem_filter, not_contains, mem_rootNodes]
  · rw [List.mem_filter, not_contains, mem_downstream, h4]
  · cases rooted <;> cases acyclic <;> cases singleRoot <;> simp [List.map_const']

/-- **C31**: validation of a graph type that is declared rooted reports one invalid setup for exactly each node with incoming edges that
cannot be reached from `Roots`. -/
theorem C31_rooted_validation (g : Graph α) (h : g.Valid) :
    ∃ reports, Graph.Validates false true false g reports ∧ (∀ other, Graph.Validates false true false g other → other = reports) ∧
      ∃ unreachable, Lists unreachable (fun n => g.HasIncoming n ∧ ¬ g.Reached n) ∧
        reports.count Graph.invalidSetup = unreachable.length := by
  obtain ⟨reports, tops, badRoots, missing, unreachable, h1, h2, -, -, -, h6, c, -, rfl⟩ := C32_validation_reports false true false g h
  refine ⟨_, h1, h2, unreachable, h6, ?_⟩
  simp [List.count_append, List.count_replicate, Graph.invalidSetup, Graph.invalidObject, Graph.missingObject]

/-- What the flags of the type ask of a graph. -/
structure Graph.MeetsFlags (acyclic rooted singleRoot : Bool) (g : Graph α) : Prop where
  single : singleRoot = true → ∃ n, ∀ m, g.HasOutgoing m ∧ ¬ g.HasIncoming m ↔ m = n
  singleSet : singleRoot = true → rooted = true → ∃ n, ∀ m, m ∈ g.roots ↔ m = n
  rootsTop : rooted = true → ∀ n ∈ g.roots, ¬ g.HasIncoming n
  topsRoots : rooted = true → ∀ n, g.HasOutgoing n → ¬ g.HasIncoming n → n ∈ g.roots
  reachable : rooted = true → ∀ n, g.HasIncoming n → g.Reached n
  acyclic : acyclic = true → ¬ g.HasCycle

theorem lists_one {l : List α} {p : α → Prop} (h : Lists l p) : l.length = 1 ↔ ∃ n, ∀ m, p m ↔ m = n := by
  obtain ⟨hn, hp⟩ := h
  constructor
  · intro hl
    match l, hl with
    | [n], _ => exact ⟨n, fun m => by rw [← hp]; simp⟩
  · rintro ⟨n, hm⟩
    match l with
    | [] => exact absurd ((hp n).mpr ((hm n).mpr rfl)) (by simp)
    | [_] => rfl
    | a :: b :: l =>
      have ha := (hm a).mp ((hp a).mp (by simp))
      have hb := (hm b).mp ((hp b).mp (by simp))
      rw [ha, hb] at hn; simp at hn

theorem lists_nil {l : List α} {p : α → Prop} (h : Lists l p) : l.length = 0 ↔ ∀ n, ¬ p n := by
  constructor
  · intro hl n hn
    rw [List.eq_nil_of_length_eq_zero hl] at h
    exact absurd ((h.2 n).mpr hn) (by simp)
  · intro hn
    rw [List.length_eq_zero_iff, List.eq_nil_iff_forall_not_mem]
    intro n hl; exact hn n ((h.2 n).mp hl)

/-- **C32**: validation reports nothing exactly if the graph meets the flags of its type. -/
theorem C32_validates_iff_meets_flags (acyclic rooted singleRoot : Bool) (g : Graph α) (h : g.Valid) :
    Graph.Validates acyclic rooted singleRoot g [] ↔ g.MeetsFlags acyclic rooted singleRoot := by
  obtain ⟨reports, tops, badRoots, missing, unreachable, h1, h2, h3, h4, h5, h6, c, h7, hr⟩ :=
    C32_validation_reports acyclic rooted singleRoot g h
  have hroots : Lists g.roots (fun n => n ∈ g.roots) := ⟨h.roots.nodup, fun _ => Iff.rfl⟩
  have hnil : Graph.Validates acyclic rooted singleRoot g [] ↔ reports = [] :=
    ⟨fun hv => (h2 _ hv).symm, fun hv => hv ▸ h1⟩
  rw [hnil, hr]
  simp only [List.append_eq_nil_iff, List.replicate_eq_nil_iff]
  constructor
  · rintro ⟨⟨⟨⟨⟨e1, e2⟩, e3⟩, e4⟩, e5⟩, e6⟩
    refine ⟨fun hs => ?_, fun hs hro => ?_, fun hro n hn hi => ?_, fun hro n ho hi => ?_, fun hro n hi => ?_, fun ha hc => ?_⟩
    · refine (lists_one h3).mp ?_
      apply Decidable.byContradiction
      intro hne
      rw [if_pos ⟨hs, hne⟩] at e1; cases e1
    · refine (lists_one hroots).mp ?_
      apply Decidable.byContradiction
      intro hne
      rw [if_pos ⟨hro, hs, hne⟩] at e2; cases e2
    · rw [if_pos hro] at e3; exact (lists_nil h4).mp e3 n ⟨hn, hi⟩
    · rw [if_pos hro] at e4
      exact Decidable.byContradiction fun hne => (lists_nil h5).mp e4 n ⟨⟨ho, hi⟩, hne⟩
    · rw [if_pos hro] at e5
      exact Classical.byContradiction fun hne => (lists_nil h6).mp e5 n ⟨hi, hne⟩
    · rw [if_pos ⟨ha, h7.mpr hc⟩] at e6; cases e6
  · intro hm
    refine ⟨⟨⟨⟨⟨?_, ?_⟩, ?_⟩, ?_⟩, ?_⟩, ?_⟩
    · rw [if_neg]; rintro ⟨hs, hne⟩; exact hne ((lists_one h3).mpr (hm.single hs))
    · rw [if_neg]; rintro ⟨hro, hs, hne⟩; exact hne ((lists_one hroots).mpr (hm.singleSet hs hro))
    · split
      · rename_i hro; exact (lists_nil h4).mpr fun n hn => hm.rootsTop hro n hn.1 hn.2
      · rfl
    · split
      · rename_i hro; exact (lists_nil h5).mpr fun n hn => hn.2 (hm.topsRoots hro n hn.1.1 hn.1.2)
      · rfl
    · split
      · rename_i hro; exact (lists_nil h6).mpr fun n hn => hn.2 (hm.reachable hro n hn.1)
      · rfl
    · rw [if_neg]; rintro ⟨ha, hc⟩; exact hm.acyclic ha (h7.mp hc)

/-- A cyclic graph with a self loop elsewhere, and a diamond. -/
example : (runGraph (Graph.empty : Graph (Unsigned 1)) [.insert ⟨1#8⟩ ⟨2#8⟩, .insert ⟨2#8⟩ ⟨1#8⟩]).HasCycle :=
  ⟨⟨1#8⟩, .step (b := ⟨2#8⟩) (by decide) (.edge (by decide))⟩

/-- A loop run for at most `n` turns. -/
def runLoop {S R : Type} (step : S → Graph.Step S R) : Nat → S → Option R
  | 0, _ => Option.none
  | n + 1, s =>
    match step s with
    | .done r => some r
    | .next s => runLoop step n s

theorem runLoop_ends {S R : Type} (step : S → Graph.Step S R) (n : Nat) (s : S) (r : R) (h : runLoop step n s = some r) : Graph.Ends step s r := by
  induction n generalizing s with
  | zero => cases h
  | succ n ih =>
    rw [runLoop] at h
    cases hs : step s with
    | done r' => rw [hs] at h; exact .done (by rw [hs]; exact congrArg _ (Option.some.inj h))
    | next s' => rw [hs] at h; exact .next hs (ih s' h)

/-- A diamond under one root. -/
def diamond : Graph (Unsigned 1) :=
  ⟨[⟨0#8⟩], (runGraph Graph.empty [.insert ⟨0#8⟩ ⟨1#8⟩, .insert ⟨0#8⟩ ⟨2#8⟩, .insert ⟨1#8⟩ ⟨3#8⟩, .insert ⟨2#8⟩ ⟨3#8⟩]).edges⟩

/-- The diamond meets all flags. -/
example : ∃ reports, Graph.Validates true true true diamond reports ∧ reports = [] :=
  ⟨_, ⟨[⟨0#8⟩, ⟨1#8⟩, ⟨2#8⟩, ⟨3#8⟩], false, fun _ => runLoop_ends _ 6 _ _ (by decide), fun _ => runLoop_ends _ 30 _ _ (by decide)⟩, by decide⟩

end ISD
