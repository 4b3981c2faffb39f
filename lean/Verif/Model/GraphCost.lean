import Verif.Model.Graph

/-!
# The work of the searches of a graph's validation (ISD_DirectedGraph.h 234-352)

The searches are those of `Model.Graph`, turn by turn. Here the edges that each turn looks at and the nodes waiting in the stack or the queue are counted.
The work of `std::set` for finding and inserting one element is not counted.
-/

namespace ISD.Graph

variable {α : Type} [NodeType α]

/-- How many edges one run of the loop over the children looks at (lines 273-293): all of them, or up to the one that makes it report. -/
def looksAt (checked onStack : List α) : List α → Nat
  | [] => 0
  | c :: cs =>
    if !OrdSet.contains checked c then looksAt checked onStack cs + 1
    else if OrdSet.contains onStack c then 1
    else looksAt checked onStack cs + 1

/-- How many edges one turn of `ValidateNoCycles` looks at (lines 244-297; the loop over the children runs in every turn of the inner loop,
also when the node is taken from the stack). -/
def Dfs.looks (edges : List (α × α)) (s : Dfs α) : Nat :=
  match s.stack with
  | [] => 0
  | curr :: _ =>
    if !OrdSet.contains s.checked curr then looksAt (OrdSet.insert curr s.checked) (OrdSet.insert curr s.onStack) (children edges curr)
    else looksAt s.checked (OrdSet.erase curr s.onStack) (children edges curr)

/-- How many edges one turn of the search in `ValidateRooted` looks at (lines 314-341). -/
def Bfs.looks (edges : List (α × α)) (s : Bfs α) : Nat :=
  match s.queue with
  | [] => 0
  | curr :: _ => if OrdSet.contains s.reached curr then 0 else (children edges curr).length

/-- The loop ends with `r` after `turns` turns, has looked at `looks` edges in all (an edge counts each time), and has held at most `peak` nodes
in its stack or queue. -/
inductive Runs {S R : Type} (step : S → Step S R) (look held : S → Nat) : S → R → Nat → Nat → Nat → Prop where
  | done {s r} (h : step s = .done r) : Runs step look held s r 1 (look s) (held s)
  | next {s s' r t l p} (h : step s = .next s') (h2 : Runs step look held s' r t l p) :
      Runs step look held s r (t + 1) (look s + l) (max (held s) p)

end ISD.Graph
