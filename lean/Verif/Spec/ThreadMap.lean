import Verif.Model.ThreadMap

/-
What a linearizable map is: a plain map used by one caller at a time, and the relation between a concurrent history and
a sequential one.
-/

namespace ISD
namespace TSMap

/-- A plain map. -/
abbrev PlainMap (K V : Type) := K → Option V

variable {K V : Type}

/-- The empty map. -/
def PlainMap.empty : PlainMap K V := fun _ => none

/-- What one call does to a plain map when it is the only one, and what it gives back: `find` gives the value or the
default, `insert` never overwrites, `erase` gives 1 or 0; a call that throws has no effect, and `erase` never throws. -/
inductive Does [DecidableEq K] (dflt : V) : PlainMap K V → Op K V → Ret V → PlainMap K V → Prop where
  | findHit (m : PlainMap K V) (k : K) (v : V) (h : m k = some v) : Does dflt m (.find k) (.found v true) m
  | findMiss (m : PlainMap K V) (k : K) (h : m k = none) : Does dflt m (.find k) (.found dflt false) m
  | insertNew (m : PlainMap K V) (k : K) (v : V) (h : m k = none) :
      Does dflt m (.insert k v) (.inserted true) (fun x => if x = k then some v else m x)
  | insertOld (m : PlainMap K V) (k : K) (v : V) (h : m k ≠ none) : Does dflt m (.insert k v) (.inserted false) m
  | eraseHit (m : PlainMap K V) (k : K) (h : m k ≠ none) :
      Does dflt m (.erase k) (.erased 1) (fun x => if x = k then none else m x)
  | eraseMiss (m : PlainMap K V) (k : K) (h : m k = none) : Does dflt m (.erase k) (.erased 0) m
  | findThrew (m : PlainMap K V) (k : K) : Does dflt m (.find k) .threw m
  | insertThrew (m : PlainMap K V) (k : K) (v : V) : Does dflt m (.insert k v) .threw m

/-- One call of a sequential history. -/
structure Entry (K V : Type) where
  id : Nat
  op : Op K V
  r : Ret V

/-- A plain map goes from `m` to `m'` by these calls, one after the other, with these results. -/
inductive Sequential [DecidableEq K] (dflt : V) : PlainMap K V → List (Entry K V) → PlainMap K V → Prop where
  | done (m : PlainMap K V) : Sequential dflt m [] m
  | next {m m' m'' : PlainMap K V} {e : Entry K V} {es : List (Entry K V)} (h : Does dflt m e.op e.r m')
      (t : Sequential dflt m' es m'') : Sequential dflt m (e :: es) m''

/-- `S` explains the history `h`, and a plain map fed with `S` ends as `m`.  `[x, y].Sublist l` says that `x` occurs
before `y` in `l`. -/
structure Linearization [DecidableEq K] (dflt : V) (h : List (Event K V)) (S : List (Entry K V)) (m : PlainMap K V) :
    Prop where
  /-- the order is one a plain map can run with the same results -/
  legal : Sequential dflt PlainMap.empty S m
  /-- each call occurs at most once -/
  once : (S.map Entry.id).Nodup
  /-- only calls that were made occur -/
  made : ∀ e ∈ S, ∃ t, Event.call e.id t e.op ∈ h
  /-- every call that returned occurs, with the operation that was called and the result that was returned -/
  returned : ∀ id t r, Event.ret id t r ∈ h → ∃ op, Event.call id t op ∈ h ∧ ⟨id, op, r⟩ ∈ S
  /-- a call that returned before another was made comes before it -/
  realTime : ∀ a ta ra b tb opb, [Event.ret a ta ra, Event.call b tb opb].Sublist h → ∀ e ∈ S, e.id = b →
    ∃ e' : Entry K V, e'.id = a ∧ [e', e].Sublist S

end TSMap
end ISD
