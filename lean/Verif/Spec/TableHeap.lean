import Verif.Model.TableHeap
import Verif.Props.TableCalls

/-!
# What tables that own objects are supposed to do
-/

namespace ISD.TableHeap

variable {K V : Type} [DecidableEq K]

/-- The entry of table `t` under `k` points to the object at address `a`. -/
def World.Ref (w : World K V) (t : Nat) (k : K) (a : Nat) : Prop := ∃ e, w.tables t = some e ∧ e.find k = some (some a)

/-- What a table holds: the finite map from its keys to objects. No map: there is no such table. -/
def World.look (w : World K V) (t : Nat) : Option (FMap K V) := (w.tables t).map fun e k => (e.find k).map fun p => p.bind w.heap

/-- One table changed. -/
def setMap (m : Nat → Option (FMap K V)) (t : Nat) (x : Option (FMap K V)) : Nat → Option (FMap K V) := fun t' => if t' = t then x else m t'

/-- The empty map. -/
def noEntries : FMap K V := fun _ => none

/-- Every object belongs to exactly one entry of one table, every table has each key once. -/
structure Sound (S : ClassSpec V) (w : World K V) : Prop where
  keys : ∀ t e, w.tables t = some e → (e.map Prod.fst).Nodup
  live : ∀ a, w.heap a ≠ none ↔ ∃ t k, w.Ref t k a
  one : ∀ {t k t' k' a}, w.Ref t k a → w.Ref t' k' a → t = t' ∧ k = k'
  wf : ∀ a v, w.heap a = some v → S.wf v

/-- What the caller has to see to: `Insert` not under a key with a null, `operator[]` only under a key with an object, no table moved to
itself, references used only while the entry of the object is there, and objects changed to well formed objects. -/
def Call.Legit (S : ClassSpec V) (w : World K V) : Call K V → Prop
  | .insert t k _ => ∀ m, w.look t = some m → m k ≠ some none
  | .index t k => ∀ m, w.look t = some m → ∃ v, m k = some (some v)
  | .put _ _ _ v => S.wf v
  | .moveAssign d s => d ≠ s
  | .change a f => (∃ t k, w.Ref t k a) ∧ ∀ v, S.wf v → S.wf (f v)
  | _ => True

/-- The addresses `as` are free, and there are enough of them for a copy of the table `s`. -/
def World.Room (w : World K V) (s : Nat) (as : List Nat) : Prop :=
  as.Nodup ∧ (∀ a, a ∈ as → w.heap a = none) ∧ ∃ e, w.tables s = some e ∧ (e.filter fun x => x.2.isSome).length ≤ as.length

/-- The tables of the call exist, those it defines do not, the addresses of its new objects are not in use, and there is one for each object
that is copied. -/
def Call.Possible (w : World K V) : Call K V → Prop
  | .declare t => w.look t = none
  | .destroy t => w.look t ≠ none
  | .insert t _ a => w.look t ≠ none ∧ w.heap a = none
  | .index t _ => w.look t ≠ none
  | .put t _ a _ => w.look t ≠ none ∧ w.heap a = none
  | .putNull t _ => w.look t ≠ none
  | .erase t _ => w.look t ≠ none
  | .clear t => w.look t ≠ none
  | .copy d s as => w.look d ≠ none ∧ w.Room s as
  | .copyConstruct d s as => w.look d = none ∧ w.Room s as
  | .moveConstruct d s => w.look d = none ∧ w.look s ≠ none
  | .moveAssign d s => w.look d ≠ none ∧ w.look s ≠ none
  | .change _ _ => True

/-- What a call does to the maps. `same` relates an object to its copies, `new` is a new object. -/
inductive Effect (same : V → V → Prop) (new : V) (w : World K V) : Call K V → (Nat → Option (FMap K V)) → Prop where
  | declare (t) (h : w.look t = none) : Effect same new w (.declare t) (setMap w.look t (some noEntries))
  | destroy (t) : Effect same new w (.destroy t) (setMap w.look t none)
  | insertNew (t k a m) (h : w.look t = some m) (hk : m k = none) :
      Effect same new w (.insert t k a) (setMap w.look t (some (m.with k (some (some new)))))
  | insertOld (t k a m v) (h : w.look t = some m) (hk : m k = some (some v)) : Effect same new w (.insert t k a) w.look
  | index (t k) : Effect same new w (.index t k) w.look
  | put (t k a v m) (h : w.look t = some m) : Effect same new w (.put t k a v) (setMap w.look t (some (m.with k (some (some v)))))
  | putNull (t k m) (h : w.look t = some m) : Effect same new w (.putNull t k) (setMap w.look t (some (m.with k (some none))))
  | erase (t k m) (h : w.look t = some m) : Effect same new w (.erase t k) (setMap w.look t (some (m.with k none)))
  | clear (t) : Effect same new w (.clear t) (setMap w.look t (some noEntries))
  | copy (d s as m m') (hne : d ≠ s) (h : w.look s = some m) (h' : ∀ k, OptRel (OptRel same) (m' k) (m k)) :
      Effect same new w (.copy d s as) (setMap w.look d (some m'))
  | copySelf (d as) : Effect same new w (.copy d d as) (setMap w.look d (some noEntries))
  | copyConstruct (d s as m m') (hd : w.look d = none) (h : w.look s = some m) (h' : ∀ k, OptRel (OptRel same) (m' k) (m k)) :
      Effect same new w (.copyConstruct d s as) (setMap w.look d (some m'))
  | moveConstruct (d s) (hd : w.look d = none) : Effect same new w (.moveConstruct d s) (setMap (setMap w.look s (some noEntries)) d (w.look s))
  | moveAssign (d s) : Effect same new w (.moveAssign d s) (setMap (setMap w.look s (some noEntries)) d (w.look s))
  | change (t k a f m v) (hr : w.Ref t k a) (h : w.look t = some m) (hk : m k = some (some v)) :
      Effect same new w (.change a f) (setMap w.look t (some (m.with k (some (some (f v))))))

/-- The call removes the entry of table `t` under `k`, replaces its pointer, or gives the entry to another table. -/
def Call.Drops (t : Nat) (k : K) : Call K V → Prop
  | .destroy t' => t' = t
  | .put t' k' _ _ => t' = t ∧ k' = k
  | .putNull t' k' => t' = t ∧ k' = k
  | .erase t' k' => t' = t ∧ k' = k
  | .clear t' => t' = t
  | .copy d _ _ => d = t
  | .moveConstruct _ s => s = t
  | .moveAssign d s => d = t ∨ s = t
  | _ => False

/-- What is claimed of a call that returns `r` and leaves `w'`. -/
structure Done (M : Managed V) (S : ClassSpec V) (w : World K V) (c : Call K V) (r : Option Nat) (w' : World K V) : Prop where
  /-- Every object still belongs to exactly one entry. -/
  sound : Sound S w'
  /-- The maps are changed as specified. -/
  effect : Effect (S.rel .exact) M.init w c w'.look
  /-- `Insert` and `operator[]` return a reference to the object of the entry. -/
  returned : ∀ t k, ((∃ a, c = .insert t k a) ∨ c = .index t k) → ∃ b, r = some b ∧ w'.Ref t k b
  /-- References to entries that are not dropped stay what they are. -/
  stays : ∀ t k a, w.Ref t k a → ¬ c.Drops t k → w'.Ref t k a
  /-- References to the entries of a moved table are references to entries of the new one. -/
  moved : ∀ d s, (c = .moveConstruct d s ∨ c = .moveAssign d s) → ∀ k a, w.Ref s k a → w'.Ref d k a

/-- Calls that a program can make one after the other, each as its caller has to see to. -/
def LegitAll (M : Managed V) (S : ClassSpec V) (ord : TableOrder (K × Option Nat)) : World K V → List (Call K V) → Prop
  | _, [] => True
  | w, c :: cs => c.Legit S w ∧ c.Possible w ∧ ∀ r w', c.run M ord w = .ok r w' → LegitAll M S ord w' cs

end ISD.TableHeap
