import Verif.Props.Graph
import Verif.Model.GraphCalls
import Verif.Props.Storing

/-!
# C76: a graph is a set of roots and a set of edges under every history of calls
-/

namespace ISD

open OrdSet

variable {α : Type} [NodeType α]

/-! ## The two sets -/

/-- A set of roots and a set of edges. -/
structure NodeSets (α : Type) where
  root : α → Prop
  edge : α → α → Prop

/-- What a call does to the two sets. -/
def NodeSets.step (s : NodeSets α) : GraphCall α → NodeSets α
  | .insertEdge a b => ⟨s.root, fun x y => (x = a ∧ y = b) ∨ s.edge x y⟩
  | .edgesEmplace a b => ⟨s.root, fun x y => (x = a ∧ y = b) ∨ s.edge x y⟩
  | .edgesErase a b => ⟨s.root, fun x y => s.edge x y ∧ ¬ (x = a ∧ y = b)⟩
  | .edgesClear => ⟨s.root, fun _ _ => False⟩
  | .rootsInsert n => ⟨fun x => x = n ∨ s.root x, s.edge⟩
  | .rootsErase n => ⟨fun x => s.root x ∧ x ≠ n, s.edge⟩
  | .rootsClear => ⟨fun _ => False, s.edge⟩
  | .clear => ⟨fun _ => False, fun _ _ => False⟩
  | .copyNull => ⟨fun _ => False, fun _ _ => False⟩
  | .copyFrom g => ⟨fun x => x ∈ g.roots, fun x y => (x, y) ∈ g.edges⟩
  | .copySelf => s
  | .assignFrom g => ⟨fun x => x ∈ g.roots, fun x y => (x, y) ∈ g.edges⟩
  | .assignSelf => s

/-- What a history does to the two sets. -/
def NodeSets.steps (s : NodeSets α) (cs : List (GraphCall α)) : NodeSets α := cs.foldl NodeSets.step s

/-- The sets of an empty graph. -/
def NodeSets.none : NodeSets α := ⟨fun _ => False, fun _ _ => False⟩

/-- Other graphs in a call are graphs: their sets are `std::set`s. -/
def GraphCall.Ok : GraphCall α → Prop
  | .copyFrom g => g.Valid
  | .assignFrom g => g.Valid
  | _ => True

/-- What a program can see of a graph is these two sets: `HasEdge` and `Roots().find` tell membership, and iterating over `Roots()` and `Edges()` visits
the members in ascending order, each once (so `size()` is their number). -/
structure Shows (g : Graph α) (s : NodeSets α) : Prop where
  hasEdge : ∀ a b, g.hasEdge a b = true ↔ s.edge a b
  hasRoot : ∀ n, OrdSet.contains g.roots n = true ↔ s.root n
  roots : g.roots.Pairwise (fun a b => SOrd.lt a b = true) ∧ ∀ n, n ∈ g.roots ↔ s.root n
  edges : g.edges.Pairwise (fun a b => SOrd.lt a b = true) ∧ ∀ a b, (a, b) ∈ g.edges ↔ s.edge a b

theorem Shows.of {g : Graph α} {s : NodeSets α} (hv : g.Valid) (hr : ∀ n, n ∈ g.roots ↔ s.root n) (he : ∀ a b, (a, b) ∈ g.edges ↔ s.edge a b) :
    Shows g s where
  hasEdge a b := by rw [Graph.hasEdge, contains_iff]; exact he a b
  hasRoot n := by rw [contains_iff]; exact hr n
  roots := ⟨hv.roots, hr⟩
  edges := ⟨hv.edges, he⟩

theorem Shows.valid {g : Graph α} {s : NodeSets α} (h : Shows g s) : g.Valid := ⟨h.roots.1, h.edges.1⟩

theorem call_shows {g : Graph α} {s : NodeSets α} (h : Shows g s) (c : GraphCall α) (hc : c.Ok) : Shows (c.run g) (s.step c) := by
  have hv := h.valid
  have ins : ∀ a b, Shows { g with edges := OrdSet.insert (a, b) g.edges } ⟨s.root, fun x y => (x = a ∧ y = b) ∨ s.edge x y⟩ := fun a b =>
    .of ⟨hv.roots, sorted_insert _ hv.edges⟩ h.roots.2 fun x y => by
      show (x, y) ∈ OrdSet.insert (a, b) g.edges ↔ _
      rw [mem_insert, h.edges.2, Prod.mk.injEq]
  have src : ∀ g' : Graph α, g'.Valid → Shows g' ⟨fun x => x ∈ g'.roots, fun x y => (x, y) ∈ g'.edges⟩ := fun g' hg =>
    .of hg (fun _ => Iff.rfl) fun _ _ => Iff.rfl
  cases c with
  | insertEdge a b => exact ins a b
  | edgesEmplace a b => exact ins a b
  | edgesErase a b =>
    refine .of ⟨hv.roots, sorted_erase _ hv.edges⟩ h.roots.2 fun x y => ?_
    show (x, y) ∈ OrdSet.erase (a, b) g.edges ↔ s.edge x y ∧ ¬ (x = a ∧ y = b)
    rw [mem_erase, h.edges.2, ne_eq, Prod.mk.injEq]
  | edgesClear => exact .of ⟨hv.roots, .nil⟩ h.roots.2 fun x y => by simp [GraphCall.run, NodeSets.step]
  | rootsInsert n =>
    refine .of ⟨sorted_insert _ hv.roots, hv.edges⟩ (fun x => ?_) h.edges.2
    show x ∈ OrdSet.insert n g.roots ↔ x = n ∨ s.root x
    rw [mem_insert, h.roots.2]
  | rootsErase n =>
    refine .of ⟨sorted_erase _ hv.roots, hv.edges⟩ (fun x => ?_) h.edges.2
    show x ∈ OrdSet.erase n g.roots ↔ s.root x ∧ x ≠ n
    rw [mem_erase, h.roots.2]
  | rootsClear => exact .of ⟨.nil, hv.edges⟩ (fun x => by simp [GraphCall.run, NodeSets.step]) h.edges.2
  | clear => exact .of .empty (fun x => by simp [GraphCall.run, NodeSets.step, Graph.empty]) fun x y => by simp [GraphCall.run, NodeSets.step, Graph.empty]
  | copyNull =>
    exact .of .empty (fun x => by simp [GraphCall.run, NodeSets.step, Graph.empty, Graph.deepCopy]) fun x y => by
      simp [GraphCall.run, NodeSets.step, Graph.empty, Graph.deepCopy]
  | copyFrom g' =>
    show Shows (Graph.deepCopy (some g')) _
    rw [(C29_copying g' hc).2.2.1]
    exact src g' hc
  | copySelf =>
    show Shows (Graph.deepCopy (some g)) s
    rw [(C29_copying g hv).2.2.1]
    exact h
  | assignFrom g' => exact src g' hc
  | assignSelf => exact h

/-- **C76.** Under every history of calls, in any order and with any arguments, a graph is a set of roots and a set of edges. -/
theorem C76_graph_is_two_sets {g : Graph α} {s : NodeSets α} (h : Shows g s) (cs : List (GraphCall α)) (hc : ∀ c ∈ cs, c.Ok) :
    Shows (GraphCall.runAll cs g) (s.steps cs) := by
  induction cs generalizing g s with
  | nil => exact h
  | cons c cs ih => exact ih (call_shows h c (hc c List.mem_cons_self)) fun c' h' => hc c' (List.mem_cons_of_mem _ h')

/-- A new graph has no roots and no edges. -/
theorem C76_new_graph (st : Stored α) (ac ro si : Bool) : Shows (graphMF (α := α) st ac ro si).init NodeSets.none :=
  .of .empty (fun x => by simp [graphMF, Graph.empty, NodeSets.none]) fun x y => by simp [graphMF, Graph.empty, NodeSets.none]

/-- What was built does not depend on how: if two histories lead to the same sets, then the graphs compare equal, are stored as the same bytes by the
same calls, and are validated alike. -/
theorem C76_order_does_not_matter (st : Stored α) (ac ro si : Bool) {g g' : Graph α} {s s' : NodeSets α} (h : Shows g s) (h' : Shows g' s')
    (cs cs' : List (GraphCall α)) (hc : ∀ c ∈ cs, c.Ok) (hc' : ∀ c ∈ cs', c.Ok) (hr : ∀ n, (s.steps cs).root n ↔ (s'.steps cs').root n)
    (he : ∀ a b, (s.steps cs).edge a b ↔ (s'.steps cs').edge a b) :
    (graphMF st ac ro si).equals (GraphCall.runAll cs g) (GraphCall.runAll cs' g') = some true ∧
    (∀ fresh w, (graphMF st ac ro si).write fresh (GraphCall.runAll cs g) w = (graphMF st ac ro si).write fresh (GraphCall.runAll cs' g') w) ∧
    (∀ reports ok, (graphMF st ac ro si).validate (GraphCall.runAll cs g) reports ok ↔ (graphMF st ac ro si).validate (GraphCall.runAll cs' g') reports ok) := by
  have k := C76_graph_is_two_sets h cs hc
  have k' := C76_graph_is_two_sets h' cs' hc'
  have same : (GraphCall.runAll cs g).SameContent (GraphCall.runAll cs' g') :=
    ⟨fun n => by rw [k.roots.2, k'.roots.2]; exact hr n, fun a b => by rw [k.hasEdge, k'.hasEdge]; exact he a b⟩
  have e := same.eq k.valid k'.valid
  refine ⟨congrArg some ((C29_equality _ _ k.valid k'.valid).1.mpr same), fun _ _ => by rw [e], fun _ _ => by rw [e]⟩

/-- And different sets are told apart. -/
theorem C76_equal_means_same_sets (st : Stored α) (ac ro si : Bool) {g g' : Graph α} {s s' : NodeSets α} (h : Shows g s) (h' : Shows g' s')
    (e : (graphMF st ac ro si).equals g g' = some true) : (∀ n, s.root n ↔ s'.root n) ∧ ∀ a b, s.edge a b ↔ s'.edge a b := by
  have same : g.SameContent g' := (C29_equality _ _ h.valid h'.valid).1.mp (Option.some.inj e)
  exact ⟨fun n => by rw [← h.roots.2, ← h'.roots.2]; exact same.1 n, fun a b => by rw [← h.hasEdge, ← h'.hasEdge]; exact same.2 a b⟩

/-! ## Non-trivial cases -/

/-- Two histories to the same graph. -/
def demoGraphCalls : List (GraphCall (Unsigned 1)) × List (GraphCall (Unsigned 1)) :=
  ([.insertEdge ⟨3⟩ ⟨1⟩, .rootsInsert ⟨7⟩, .insertEdge ⟨1⟩ ⟨2⟩, .rootsErase ⟨7⟩, .rootsInsert ⟨3⟩, .copySelf],
   [.rootsInsert ⟨3⟩, .insertEdge ⟨1⟩ ⟨2⟩, .edgesClear, .edgesEmplace ⟨1⟩ ⟨2⟩, .edgesEmplace ⟨9⟩ ⟨9⟩, .insertEdge ⟨3⟩ ⟨1⟩, .edgesErase ⟨9⟩ ⟨9⟩])

example : (GraphCall.runAll demoGraphCalls.1 Graph.empty).edges = [(⟨1⟩, ⟨2⟩), (⟨3⟩, ⟨1⟩)] ∧
    (GraphCall.runAll demoGraphCalls.2 Graph.empty).edges = [(⟨1⟩, ⟨2⟩), (⟨3⟩, ⟨1⟩)] ∧
    (GraphCall.runAll demoGraphCalls.1 Graph.empty).roots = [⟨3⟩] ∧ (GraphCall.runAll demoGraphCalls.2 Graph.empty).roots = [⟨3⟩] ∧
    (∀ c ∈ demoGraphCalls.1, c.Ok) ∧ ∀ c ∈ demoGraphCalls.2, c.Ok := by
  refine ⟨by decide, by decide, by decide, by decide, fun c hc => ?_, fun c hc => ?_⟩
  all_goals
    simp only [demoGraphCalls, List.mem_cons, List.not_mem_nil, or_false] at hc
    rcases hc with rfl | rfl | rfl | rfl | rfl | rfl | rfl <;> trivial

end ISD
