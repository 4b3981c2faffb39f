/-
`thread_safe_map` (ISD_thread_safe_map.h) under every schedule of any number of threads.

Each public method is the sequence lock, access `Data`, unlock, return.  The access is not assumed atomic: it starts by
looking at the map and ends by storing its result, so that two overlapping accesses would lose updates.  Only the mutex
keeps them apart.
-/

namespace ISD
namespace TSMap

/-- A call of one of the three public methods (ISD_thread_safe_map.h 28, 39, 45). -/
inductive Op (K V : Type) where
  | find (k : K)
  | insert (k : K) (v : V)
  | erase (k : K)

/-- What a call gives back: the pair of `find` (line 34, 36), the flag of `insert` (line 42), the count of `erase`
(line 48), or an exception (copying the value in `find` or allocating the node in `insert` can throw; `std::map` is
unchanged then, and `lock_guard` releases the mutex). -/
inductive Ret (V : Type) where
  | found (v : V) (ok : Bool)
  | inserted (ok : Bool)
  | erased (n : Nat)
  | threw

variable {K V : Type}

/-- `std::map::find` and the test against `end()` (lines 31-36) on the list of entries; `default` is `_Ty()`. -/
def mapFind [DecidableEq K] (dflt : V) (d : List (K × V)) (k : K) : V × Bool :=
  match d with
  | [] => (dflt, false)
  | (k', v) :: r => if k' = k then (v, true) else mapFind dflt r k

/-- `std::map::insert(value).second` (line 42): an existing key is left as it is. -/
def mapInsert [DecidableEq K] (dflt : V) (d : List (K × V)) (k : K) (v : V) : List (K × V) × Bool :=
  if (mapFind dflt d k).2 then (d, false) else (d ++ [(k, v)], true)

/-- `std::map::erase(key)` (line 48): removes the entries of the key and gives their number. -/
def mapErase [DecidableEq K] (d : List (K × V)) (k : K) : List (K × V) × Nat :=
  let r := d.filter fun e => !decide (e.1 = k)
  (r, d.length - r.length)

/-- The body of each method between lock and unlock, as a function of the map it sees (lines 31-36, 42, 48). -/
def access [DecidableEq K] (dflt : V) (d : List (K × V)) : Op K V → List (K × V) × Ret V
  | .find k => let r := mapFind dflt d k; (d, .found r.1 r.2)
  | .insert k v => let r := mapInsert dflt d k v; (r.1, .inserted r.2)
  | .erase k => let r := mapErase d k; (r.1, .erased r.2)

/-- Which accesses can throw: `find` copies a value, `insert` allocates. -/
def Op.mayThrow : Op K V → Bool
  | .find _ => true
  | .insert _ _ => true
  | .erase _ => false

/-- Where a thread is.  `id` numbers the calls. -/
inductive Thread (K V : Type) where
  /-- not inside a method -/
  | idle
  /-- called, before `lock_guard` has locked (lines 30, 41, 47) -/
  | called (id : Nat) (op : Op K V)
  /-- has the mutex, has not looked at `Data` -/
  | locked (id : Nat) (op : Op K V)
  /-- is using `Data`, and saw it as `seen` when it began -/
  | accessing (id : Nat) (op : Op K V) (seen : List (K × V))
  /-- the access is done and the return value computed -/
  | accessed (id : Nat) (op : Op K V) (r : Ret V)
  /-- `lock_guard` has unlocked, before the return -/
  | unlocked (id : Nat) (op : Op K V) (r : Ret V)

/-- What the callers see. -/
inductive Event (K V : Type) where
  | call (id : Nat) (tid : Nat) (op : Op K V)
  | ret (id : Nat) (tid : Nat) (r : Ret V)

/-- The object (`Data`, `AccessMutex`: lines 24-25), the threads, and the history of calls and returns so far. -/
structure State (K V : Type) where
  data : List (K × V)
  mutex : Option Nat
  threads : Nat → Thread K V
  nextId : Nat
  history : List (Event K V)

/-- A new map: nothing called yet. -/
def State.start : State K V := ⟨[], none, fun _ => .idle, 0, []⟩

/-- Thread `t` moves to `x`. -/
def setThread (f : Nat → Thread K V) (t : Nat) (x : Thread K V) : Nat → Thread K V := fun u => if u = t then x else f u

/-- One step of one thread (lines 28-49). -/
inductive Step [DecidableEq K] (dflt : V) : State K V → State K V → Prop where
  /-- some method is called (28, 39, 45) -/
  | call (s : State K V) (t : Nat) (op : Op K V) (h : s.threads t = .idle) :
      Step dflt s { s with
        threads := setThread s.threads t (.called s.nextId op), nextId := s.nextId + 1,
        history := s.history ++ [.call s.nextId t op] }
  /-- `lock_guard` constructed: possible only while nobody has the mutex (30, 41, 47) -/
  | lock (s : State K V) (t id : Nat) (op : Op K V) (h : s.threads t = .called id op) (hm : s.mutex = none) :
      Step dflt s { s with threads := setThread s.threads t (.locked id op), mutex := some t }
  /-- the access to `Data` begins -/
  | enter (s : State K V) (t id : Nat) (op : Op K V) (h : s.threads t = .locked id op) :
      Step dflt s { s with threads := setThread s.threads t (.accessing id op s.data) }
  /-- the access ends: its effect, computed from the map it saw, is stored (31-36, 42, 48) -/
  | leave (s : State K V) (t id : Nat) (op : Op K V) (seen : List (K × V)) (h : s.threads t = .accessing id op seen) :
      Step dflt s { s with
        data := (access dflt seen op).1,
        threads := setThread s.threads t (.accessed id op (access dflt seen op).2) }
  /-- the access throws: the map it saw is kept -/
  | throws (s : State K V) (t id : Nat) (op : Op K V) (seen : List (K × V)) (h : s.threads t = .accessing id op seen)
      (hop : op.mayThrow = true) :
      Step dflt s { s with data := seen, threads := setThread s.threads t (.accessed id op .threw) }
  /-- `lock_guard` destroyed (end of the method, also when an exception passes) -/
  | unlock (s : State K V) (t id : Nat) (op : Op K V) (r : Ret V) (h : s.threads t = .accessed id op r) :
      Step dflt s { s with threads := setThread s.threads t (.unlocked id op r), mutex := none }
  /-- the caller gets the result -/
  | ret (s : State K V) (t id : Nat) (op : Op K V) (r : Ret V) (h : s.threads t = .unlocked id op r) :
      Step dflt s { s with
        threads := setThread s.threads t .idle,
        history := s.history ++ [.ret id t r] }

/-- Every state any schedule can reach. -/
inductive Reachable [DecidableEq K] (dflt : V) : State K V → Prop where
  | start : Reachable dflt State.start
  | step {s s' : State K V} (h : Reachable dflt s) (st : Step dflt s s') : Reachable dflt s'

end TSMap
end ISD
