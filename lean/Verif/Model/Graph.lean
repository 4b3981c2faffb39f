import Verif.Model.Reader

/-!
# Directed graphs (ISD_DirectedGraph.h) and the validator (ISD_EntityValidator.h)

`std::set` is modelled by the strictly ascending list of its elements; the standard library's tree is trusted.
-/

namespace ISD

/-! ## std::set -/

/-- A type with the strict total order that `std::set` uses. -/
class SOrd (α : Type) where
  lt : α → α → Bool
  irrefl : ∀ a, lt a a = false
  trans : ∀ a b c, lt a b = true → lt b c = true → lt a c = true
  tri : ∀ a b, lt a b = true ∨ a = b ∨ lt b a = true

/-- `operator<` of `std::pair`. -/
def pairLt {α β : Type} [SOrd α] [SOrd β] (a b : α × β) : Bool :=
  SOrd.lt a.1 b.1 || (!SOrd.lt b.1 a.1 && SOrd.lt a.2 b.2)

namespace OrdSet

variable {α : Type} [SOrd α]

/-- `insert` / `emplace`: an equivalent element is kept. -/
def insert (x : α) : List α → List α
  | [] => [x]
  | y :: ys => if SOrd.lt x y then x :: y :: ys else if SOrd.lt y x then y :: insert x ys else y :: ys

/-- `find( x ) != end()`. -/
def contains (l : List α) (x : α) : Bool := l.any fun y => !SOrd.lt x y && !SOrd.lt y x

/-- `erase( x )`. -/
def erase (x : α) (l : List α) : List α := l.filter fun y => SOrd.lt x y || SOrd.lt y x

/-- The elements from `lower_bound( x )` to the end. -/
def fromLower (x : α) (l : List α) : List α := l.dropWhile fun y => SOrd.lt y x

/-- The elements from `upper_bound( x )` to the end. -/
def fromUpper (x : α) (l : List α) : List α := l.dropWhile fun y => !SOrd.lt x y

/-- The elements between two iterators, given by the elements from each to the end. -/
def between (first last : List α) : List α := first.take (first.length - last.length)

/-- Construction from a range. -/
def ofList (l : List α) : List α := l.foldl (fun s x => insert x s) []

end OrdSet

/-- A node type: an order with `data_type_information<T>::inf` and `sup` as bounds, and `==`. -/
class NodeType (α : Type) extends SOrd α where
  inf : α
  sup : α
  inf_le : ∀ a, lt a inf = false
  le_sup : ∀ a, lt sup a = false
  [dec : DecidableEq α]

instance {α : Type} [NodeType α] : DecidableEq α := NodeType.dec

/-! ## The graph -/

/-- `DirectedGraph<T>` (ISD_DirectedGraph.h 47-49). -/
structure Graph (α : Type) where
  roots : List α
  edges : List (α × α)

section pairOrder

variable {α β : Type} [SOrd α] [SOrd β]

theorem pairLt_iff (a b : α × β) : pairLt a b = true ↔ SOrd.lt a.1 b.1 = true ∨ (a.1 = b.1 ∧ SOrd.lt a.2 b.2 = true) := by
  unfold pairLt
  rw [Bool.or_eq_true, Bool.and_eq_true, Bool.not_eq_true']
  constructor
  · rintro (h | ⟨h1, h2⟩)
    · exact Or.inl h
    · rcases SOrd.tri a.1 b.1 with h | h | h
      · exact Or.inl h
      · exact Or.inr ⟨h, h2⟩
      · rw [h] at h1; cases h1
  · rintro (h | ⟨h1, h2⟩)
    · exact Or.inl h
    · exact Or.inr ⟨by rw [h1]; exact SOrd.irrefl _, h2⟩

/-- Pairs are ordered lexicographically, as `std::pair` is. -/
instance : SOrd (α × β) where
  lt := pairLt
  irrefl a := by
    rw [Bool.eq_false_iff]
    intro h
    rcases (pairLt_iff a a).mp h with h | ⟨-, h⟩ <;> rw [SOrd.irrefl] at h <;> cases h
  trans a b c h1 h2 := by
    rw [pairLt_iff] at h1 h2 ⊢
    rcases h1 with h1 | ⟨e1, h1⟩ <;> rcases h2 with h2 | ⟨e2, h2⟩
    · exact Or.inl (SOrd.trans _ _ _ h1 h2)
    · exact Or.inl (e2 ▸ h1)
    · exact Or.inl (e1 ▸ h2)
    · exact Or.inr ⟨e1.trans e2, SOrd.trans _ _ _ h1 h2⟩
  tri a b := by
    rw [pairLt_iff, pairLt_iff]
    rcases SOrd.tri a.1 b.1 with h | h | h
    · exact Or.inl (Or.inl h)
    · rcases SOrd.tri a.2 b.2 with h2 | h2 | h2
      · exact Or.inl (Or.inr ⟨h, h2⟩)
      · exact Or.inr (Or.inl (Prod.ext h h2))
      · exact Or.inr (Or.inr (Or.inr ⟨h.symm, h2⟩))
    · exact Or.inr (Or.inr (Or.inl h))

end pairOrder

namespace Graph

variable {α : Type} [NodeType α]

/-- Default construction (line 40) and `MF::Clear` (lines 119-123). -/
def empty : Graph α := ⟨[], []⟩

/-- `InsertEdge` (lines 71-75). -/
def insertEdge (g : Graph α) (a b : α) : Graph α := { g with edges := OrdSet.insert (a, b) g.edges }

/-- `HasEdge` (lines 77-81). The code names an undeclared type `pair_type`; it is read as `std::pair<const T, const T>`. -/
def hasEdge (g : Graph α) (a b : α) : Bool := OrdSet.contains g.edges (a, b)

/-- `GetSuccessors` (lines 83-101): the edges between the two iterators. -/
def getSuccessors (g : Graph α) (a : α) : List (α × α) :=
  OrdSet.between (OrdSet.fromLower (a, NodeType.inf) g.edges) (OrdSet.fromLower (a, NodeType.sup) g.edges)

/-- `MF::DeepCopy` (lines 125-136); `none` is the null pointer. -/
def deepCopy (source : Option (Graph α)) : Graph α :=
  match source with
  | none => empty
  | some s => ⟨OrdSet.ofList s.roots, OrdSet.ofList s.edges⟩

/-- The comparison loops (lines 155-174). Sizes were compared before, so both iterators end together. -/
def sameItems {β : Type} [DecidableEq β] : List β → List β → Bool
  | [], _ => true
  | x :: xs, y :: ys => if x ≠ y then false else sameItems xs ys
  | _ :: _, [] => false

/-- `MF::Equals` (lines 138-177); `lSame` says that the two pointers are equal. -/
def equals (samePtr : Bool) (l r : Option (Graph α)) : Bool :=
  if samePtr then true
  else
    match l, r with
    | some l, some r =>
      if l.roots.length ≠ r.roots.length then false
      else if l.edges.length ≠ r.edges.length then false
      else if !sameItems l.roots r.roots then false
      else sameItems l.edges r.edges
    | _, _ => false

/-! ### Validation -/

/-- `ValidationError` (ISD_EntityValidator.h 10-19). -/
def invalidCount : Nat := 0x01
def nullNotAllowed : Nat := 0x02
def missingObject : Nat := 0x04
def invalidObject : Nat := 0x08
def invalidSetup : Nat := 0x10
def invalidValue : Nat := 0x20

/-- The children of a node as both validations list them (lines 270-272 and 328-330): from `lower_bound((curr,inf))` to
`upper_bound((curr,sup))`. -/
def children (edges : List (α × α)) (curr : α) : List α :=
  (OrdSet.between (OrdSet.fromLower (curr, NodeType.inf) edges) (OrdSet.fromUpper (curr, NodeType.sup) edges)).map Prod.snd

/-- State of `ValidateNoCycles` (lines 236-242): edges of the outer loop not yet taken, the stack (top first), the sets. -/
structure Dfs (α : Type) where
  rem : List (α × α)
  stack : List α
  onStack : List α
  checked : List α

/-- Outcome of one step: returned (with or without reporting a cycle), or a new state. -/
inductive Step (S R : Type) where
  | done (r : R)
  | next (s : S)

/-- The loop over the children (lines 273-293): the new stack, or `none` if a cycle is reported. -/
def pushChildren (checked onStack : List α) : List α → List α → Option (List α)
  | [], stack => some stack
  | c :: cs, stack =>
    if !OrdSet.contains checked c then pushChildren checked onStack cs (c :: stack)
    else if OrdSet.contains onStack c then none
    else pushChildren checked onStack cs stack

/-- One turn of the outer or the inner loop (lines 244-297). -/
def Dfs.step (edges : List (α × α)) (s : Dfs α) : Step (Dfs α) Bool :=
  match s.stack with
  | [] =>
    match s.rem with
    | [] => .done false
    | p :: rem =>
      if OrdSet.contains s.checked p.1 then .next { s with rem := rem }
      else .next { s with rem := rem, stack := [p.1] }
  | curr :: below =>
    if !OrdSet.contains s.checked curr then
      let checked := OrdSet.insert curr s.checked
      let onStack := OrdSet.insert curr s.onStack
      match pushChildren checked onStack (children edges curr) (curr :: below) with
      | none => .done true
      | some stack => .next { s with stack := stack, checked := checked, onStack := onStack }
    else
      let onStack := OrdSet.erase curr s.onStack
      match pushChildren s.checked onStack (children edges curr) below with
      | none => .done true
      | some stack => .next { s with stack := stack, onStack := onStack }

/-- Start of `ValidateNoCycles`. -/
def Dfs.start (edges : List (α × α)) : Dfs α := ⟨edges, [], [], []⟩

/-- State of the search in `ValidateRooted` (lines 304-305). -/
structure Bfs (α : Type) where
  queue : List α
  reached : List α

/-- One turn of the loop (lines 314-341); the result is the set `reached`. -/
def Bfs.step (edges : List (α × α)) (s : Bfs α) : Step (Bfs α) (List α) :=
  match s.queue with
  | [] => .done s.reached
  | curr :: queue =>
    if OrdSet.contains s.reached curr then .next { s with queue := queue }
    else
      let reached := OrdSet.insert curr s.reached
      .next ⟨queue ++ (children edges curr).filter (fun c => !OrdSet.contains reached c), reached⟩

/-- Start of `ValidateRooted` (lines 307-311). -/
def Bfs.start (roots : List α) : Bfs α := ⟨roots, []⟩

/-- A loop: from `s` it ends with `r` (in some number of turns). There is no bound on the turns, and a loop that never ends has no
result. -/
inductive Ends {S R : Type} (step : S → Step S R) : S → R → Prop where
  | done {s r} (h : step s = .done r) : Ends step s r
  | next {s s' r} (h : step s = .next s') (h2 : Ends step s' r) : Ends step s r

/-- Nodes with incoming edges (lines 361-367). -/
def downstreamNodes (edges : List (α × α)) : List α :=
  edges.foldl (fun set p => if !OrdSet.contains set p.2 then OrdSet.insert p.2 set else set) []

/-- Nodes with outgoing but no incoming edges (lines 369-375). -/
def rootNodes (edges : List (α × α)) : List α :=
  edges.foldl (fun set p => if !OrdSet.contains (downstreamNodes edges) p.1 then OrdSet.insert p.1 set else set) []

/-- `MF::Validate` (lines 359-430) for the flags of the type: the reports it makes, in order. The two searches are given by their results
(`Ends`): `reached` of `ValidateRooted` and whether `ValidateNoCycles` found a cycle. -/
inductive Validates (acyclic rooted singleRoot : Bool) (g : Graph α) : List Nat → Prop where
  | mk (reached : List α) (cycle : Bool) (h1 : rooted = true → Ends (Bfs.step g.edges) (Bfs.start g.roots) reached)
      (h2 : acyclic = true → Ends (Dfs.step g.edges) (Dfs.start g.edges) cycle) :
      Validates acyclic rooted singleRoot g
        ((if singleRoot ∧ (rootNodes g.edges).length ≠ 1 then [invalidCount] else []) ++
        (if rooted then
          (if singleRoot ∧ g.roots.length ≠ 1 then [invalidCount] else []) ++
          (g.roots.filter fun n => OrdSet.contains (downstreamNodes g.edges) n).map (fun _ => invalidObject) ++
          ((rootNodes g.edges).filter fun n => !OrdSet.contains g.roots n).map (fun _ => missingObject) ++
          ((downstreamNodes g.edges).filter fun n => !OrdSet.contains reached n).map (fun _ => invalidSetup)
        else []) ++
        (if acyclic ∧ cycle then [invalidSetup] else []))

end Graph

/-! ## The validator -/

/-- `EntityValidator` (ISD_EntityValidator.h 21-38). -/
structure Validator where
  errorCount : Nat
  errorIds : Nat

namespace Validator

/-- A new validator (lines 23-24). -/
def start : Validator := ⟨0, 0⟩

/-- `ReportError` (lines 27-33): a 32 bit counter and a 64 bit set of ids. -/
def reportError (v : Validator) (id : Nat) : Validator := ⟨(v.errorCount + 1) % 2 ^ 32, v.errorIds ||| id⟩

/-- `ClearErrorCount` (line 35). -/
def clearErrorCount (v : Validator) : Validator := { v with errorCount := 0 }

end Validator

end ISD
