import Verif.Model.Sha
/-!
# `SHA256` objects and their memory (ISD_SHA256.h, ISD_SHA256.cpp)

A `SHA256` holds a pointer to the context of the library, which it allocates and frees. The class has neither a copy constructor nor an assignment, so the compiler makes them.
-/
namespace ISD.ShaHeap

/-- Contexts by address, and objects by name with their pointers (`none` is null; ISD_SHA256.h 14). -/
structure State (c : HashCore) where
  mem : Nat → Option c.Ctx
  objs : Nat → Option (Option Nat)

/-- One entry changed. -/
def upd {α : Type} (f : Nat → Option α) (k : Nat) (v : Option α) : Nat → Option α := fun x => if x = k then v else f x

/-- A call. `answer` is what `malloc` returns; `spent` is what the library leaves of a context of which the digest was taken (its buffer is padded in place). -/
inductive Call (c : HashCore)
  | construct (o : Nat) (data : Option Bytes) (answer : Option Nat)
  | update (o : Nat) (data : Bytes)
  | digest (o : Nat) (spent : c.Ctx)
  | destroy (o : Nat)
  | copy (o p : Nat)
  | assign (o p : Nat)

/-- `Update` through a pointer (ISD_SHA256.cpp 25-44): with no data the pointer is not used. -/
def updateAt (c : HashCore) (ptr : Option Nat) (data : Bytes) : Prog (State c) (Option Bytes) := fun s =>
  if data = [] then .ok none s
  else match ptr with
    | none => .ub
    | some a => match s.mem a with
      | none => .ub
      | some m => .ok none { s with mem := upd s.mem a (some (Sha.update c m data)) }

/-- A call on the memory. Calls on objects that do not exist, and answers of `malloc` that are in use, are no calls of a program; they are `throw` here and excluded by `possible`. -/
def run (c : HashCore) : Call c → Prog (State c) (Option Bytes)
  | .construct o data answer => fun s =>
    -- ISD_SHA256.cpp 10-18; `librock_SHA256_Init( 0 )` does nothing but give the size
    let s := { s with mem := match answer with
                        | none => s.mem
                        | some a => upd s.mem a (some c.init)
                      objs := upd s.objs o (some answer) }
    match data with
    | none => .ok none s
    | some d => updateAt c answer d s
  | .update o data => fun s =>
    match s.objs o with
    | none => .throw s
    | some ptr => updateAt c ptr data s
  | .digest o spent => fun s =>
    -- ISD_SHA256.cpp 47-50
    match s.objs o with
    | none => .throw s
    | some none => .ub
    | some (some a) => match s.mem a with
      | none => .ub
      | some m => .ok (some (Sha.getDigest c m)) { s with mem := upd s.mem a (some spent) }
  | .destroy o => fun s =>
    -- ISD_SHA256.cpp 20-23: freeing null does nothing, freeing what is not allocated is undefined
    match s.objs o with
    | none => .throw s
    | some none => .ok none { s with objs := upd s.objs o none }
    | some (some a) => match s.mem a with
      | none => .ub
      | some _ => .ok none { mem := upd s.mem a none, objs := upd s.objs o none }
  | .copy o p => fun s =>
    -- the copy constructor of the compiler
    match s.objs p with
    | none => .throw s
    | some ptr => .ok none { s with objs := upd s.objs o (some ptr) }
  | .assign o p => fun s =>
    -- the assignment of the compiler
    match s.objs p with
    | none => .throw s
    | some ptr => .ok none { s with objs := upd s.objs o (some ptr) }

/-- A call that a program can make: on objects that exist, new names for new objects, and `malloc` answers with memory that is free. -/
def possible {c : HashCore} (s : State c) : Call c → Prop
  | .construct o _ answer => s.objs o = none ∧ ∀ a, answer = some a → s.mem a = none
  | .update o _ => s.objs o ≠ none
  | .digest o _ => s.objs o ≠ none
  | .destroy o => s.objs o ≠ none
  | .copy o p => s.objs o = none ∧ s.objs p ≠ none
  | .assign o p => s.objs o ≠ none ∧ s.objs p ≠ none

/-- Histories: the calls with what they returned. -/
inductive Hist {c : HashCore} : State c → List (Call c × Option Bytes) → State c → Prop
  | nil (s) : Hist s [] s
  | cons {s s' s'' : State c} {k : Call c} {r : Option Bytes} {l} : possible s k → run c k s = .ok r s' → Hist s' l s'' → Hist s ((k, r) :: l) s''

end ISD.ShaHeap
