import Verif.Model.Managed
import Verif.Props.Graph
import Verif.Props.Dynamic
import Verif.Spec.Tree
import Verif.Props.RoundTrip
import Verif.Proofs.ReadTree

/-!
# What the managed classes are supposed to do

`BaseRel` says how base values are compared; each class lifts it to whole objects. With `BaseRel.exact` the lifted relation is "same
contents" (a table being the finite map from its keys), with `BaseRel.cpp` it is the equality a C++ user expects (floats compare by
IEEE 754), and `rel storable v v` says that every `Varying` inside `v` is initialised.
-/

namespace ISD

/-- How base values are related, and whether two uninitialised `Varying` objects count as related. -/
structure BaseRel where
  base : (t : DataType) → t.Val → t.Val → Prop
  uninit : Prop

namespace BaseRel

/-- Identical contents. -/
def exact : BaseRel := ⟨fun _ => Eq, True⟩
/-- C++ `==` of the base values; an uninitialised Varying equals nothing. -/
def cpp : BaseRel := ⟨fun t a b => t.equal a b = true, False⟩
/-- Identical contents, and every Varying is initialised. -/
def storable : BaseRel := ⟨fun _ => Eq, False⟩
/-- One relation after the other. -/
def comp (R S : BaseRel) : BaseRel := ⟨fun t a c => ∃ b, R.base t a b ∧ S.base t b c, R.uninit ∧ S.uninit⟩
/-- Arguments exchanged. -/
def flip (R : BaseRel) : BaseRel := ⟨fun t a b => R.base t b a, R.uninit⟩
/-- Implication. -/
def Le (R S : BaseRel) : Prop := (∀ t a b, R.base t a b → S.base t a b) ∧ (R.uninit → S.uninit)

end BaseRel

/-- Element by element, same length. -/
inductive ListRel {α : Type} (r : α → α → Prop) : List α → List α → Prop where
  | nil : ListRel r [] []
  | cons {a b as bs} (h : r a b) (t : ListRel r as bs) : ListRel r (a :: as) (b :: bs)

/-- Both absent, or both present and related. -/
inductive OptRel {α : Type} (r : α → α → Prop) : Option α → Option α → Prop where
  | none : OptRel r none none
  | some {a b} (h : r a b) : OptRel r (some a) (some b)

/-- Related values, identical index. -/
def IdxRel {α : Type} (r : α → α → Prop) (a b : IdxVec α) : Prop := ListRel r a.values b.values ∧ a.index = b.index

/-- A relation of values lifted to a container. -/
def Container.Rel {α : Type} (r : α → α → Prop) : (c : Container) → c.Val α → c.Val α → Prop
  | .none => r
  | .optionalValue => OptRel r
  | .vector => ListRel r
  | .optionalVector => OptRel (ListRel r)
  | .idxVector => IdxRel r
  | .optionalIdxVector => OptRel (IdxRel r)

/-- What is claimed about a class with contents `V`. -/
structure ClassSpec (V : Type) where
  /-- The contents are ones the public interface can produce. -/
  wf : V → Prop
  /-- Lifting of a relation of base values. -/
  rel : BaseRel → V → V → Prop
  /-- What `Write` stores, as a tree of named items. -/
  nodes : V → Nodes
  /-- An object `Read` may be called on (see C43 for the exception). -/
  destOk : V → Prop
  /-- The object meets the rules of its class. -/
  valid : V → Prop

/-- The stored form of a key is one of the data types and loses nothing. -/
structure Stored.Good {K : Type} (st : Stored K) : Prop where
  mem : st.ty ∈ allTypes
  inv : ∀ k, st.ofVal (st.toVal k) = k

/-! ## Graphs -/

/-- Graphs are related when they have the same roots and edges. -/
def graphSpec {α : Type} [NodeType α] (st : Stored α) (acyclic rooted singleRoot : Bool) : ClassSpec (Graph α) where
  wf g := g.Valid
  rel _ a b := (∀ n, n ∈ a.roots ↔ n ∈ b.roots) ∧ (∀ e, e ∈ a.edges ↔ e ∈ b.edges)
  nodes g := .cons (.value st.ty .vector (key "Roots") (g.roots.map st.toVal))
    (.cons (.value st.ty .vector (key "Edges") (g.edges.flatMap fun e => [st.toVal e.1, st.toVal e.2])) .nil)
  destOk _ := True
  valid g := g.MeetsFlags acyclic rooted singleRoot

/-! ## Tables -/

/-- The stored elements. -/
def tableElems {K V : Type} (nodes : V → Nodes) : Table K V → Elems
  | [] => .nil
  | (_, v) :: rest => .cons (v.elim .nil nodes) (tableElems nodes rest)

/-- Tables are related when they are related as finite maps: per key both absent, both null, or both present and related. -/
def tableSpec {K V : Type} [DecidableEq K] (st : Stored K) (S : ClassSpec V) (zeroKeys nullEntities : Bool) : ClassSpec (Table K V) where
  wf t := (t.map Prod.fst).Nodup ∧ ∀ k v, (k, some v) ∈ t → S.wf v
  rel R a b := ∀ k, OptRel (OptRel (S.rel R)) (a.find k) (b.find k)
  nodes t := .cons (.value st.ty .vector (key "IDs") (t.map fun e => st.toVal e.1))
    (.cons (.array (key "Entities") none (tableElems S.nodes t)) .nil)
  destOk _ := True
  valid t := (zeroKeys = false → ∀ v, (st.zero, v) ∉ t) ∧ (nullEntities = false → ∀ k, (k, none) ∉ t) ∧ ∀ k v, (k, some v) ∈ t → S.valid v

/-! ## Indexed vectors -/

/-- Related when the values are related one by one and the indices are identical. -/
def idxSpec (t : DataType) : ClassSpec (IdxVec t.Val) where
  wf _ := True
  rel R := Container.Rel (R.base t) .idxVector
  nodes v := .cons (.value t .idxVector (key "Values") v) .nil
  destOk d := DestOk t .idxVector d
  valid v := v.values.length ≤ i32Sup ∧ ∀ i ∈ v.index, 0 ≤ i.toInt ∧ i.toInt < v.values.length

/-- An index entry that names no value (or one that an `i32` cannot name). -/
def BadIndex (n : Nat) (i : Word 4) : Prop := i.toInt < 0 ∨ (min n i32Sup : Nat) ≤ i.toInt

instance (n : Nat) (i : Word 4) : Decidable (BadIndex n i) := by unfold BadIndex; infer_instance

/-! ## Varying -/

/-- Objects of the same type with related contents. -/
inductive DynObj.Rel (R : BaseRel) : DynObj → DynObj → Prop where
  | mk (t : DataType) (c : Container) (x y : c.Val t.Val) (h : Container.Rel (R.base t) c x y) : DynObj.Rel R ⟨t, c, x⟩ ⟨t, c, y⟩

/-- Related when both are uninitialised (and that counts), or both have the same type numbers and related objects. An initialised Varying
has the object its type numbers say. -/
def varyingSpec : ClassSpec Varying where
  wf v := ∀ o, v.data = some o → ∃ i j, Spec.TypeId i o.t ∧ Spec.ContainerId j o.c ∧ v.ty = BitVec.ofNat 32 i ∧ v.ct = BitVec.ofNat 32 j
  rel R a b := (a.data = none ∧ b.data = none ∧ R.uninit) ∨
    ∃ o p, a.data = some o ∧ b.data = some p ∧ a.ty = b.ty ∧ a.ct = b.ct ∧ DynObj.Rel R o p
  nodes v :=
    .cons (.value u16Type .none (key "Type") (u16Val (v.ty.setWidth 16)))
    (.cons (.value u16Type .none (key "ContainerType") (u16Val (v.ct.setWidth 16)))
    (v.data.elim .nil fun o => .cons (.value o.t o.c (key "Data") o.v) .nil))
  destOk _ := True
  valid v := v.data.isSome = true

/-! ## Generated entities -/

/-- The specifications of the classes of the variables. -/
inductive FieldSpecs : List Field → Type 1 where
  | nil : FieldSpecs []
  | base (k : Bytes) (t : DataType) (c : Container) {fs : List Field} (rest : FieldSpecs fs) : FieldSpecs (.base k t c :: fs)
  | sub (k : Bytes) {V : Type} (M : Managed V) (S : ClassSpec V) {fs : List Field} (rest : FieldSpecs fs) :
      FieldSpecs (.sub k V M :: fs)

/-- Variable by variable. -/
def FieldSpecs.wf : {fs : List Field} → FieldSpecs fs → FieldsVal fs → Prop
  | _, .nil, _ => True
  | _, .base _ _ _ rest, v => rest.wf v.2
  | _, .sub _ _ S rest, v => S.wf v.1 ∧ rest.wf v.2

/-- Variable by variable. -/
def FieldSpecs.rel (R : BaseRel) : {fs : List Field} → FieldSpecs fs → FieldsVal fs → FieldsVal fs → Prop
  | _, .nil, _, _ => True
  | _, .base _ t c rest, a, b => Container.Rel (R.base t) c a.1 b.1 ∧ rest.rel R a.2 b.2
  | _, .sub _ _ S rest, a, b => S.rel R a.1 b.1 ∧ rest.rel R a.2 b.2

/-- One item per variable: a value, or a section with what the class stores. -/
def FieldSpecs.nodes : {fs : List Field} → FieldSpecs fs → FieldsVal fs → Nodes
  | _, .nil, _ => .nil
  | _, .base k t c rest, v => .cons (.value t c k v.1) (rest.nodes v.2)
  | _, .sub k _ S rest, v => .cons (.sect k (S.nodes v.1)) (rest.nodes v.2)

/-- Variable by variable. -/
def FieldSpecs.destOk : {fs : List Field} → FieldSpecs fs → FieldsVal fs → Prop
  | _, .nil, _ => True
  | _, .base _ t c rest, v => DestOk t c v.1 ∧ rest.destOk v.2
  | _, .sub _ _ S rest, v => S.destOk v.1 ∧ rest.destOk v.2

/-- Every variable of a managed class meets its rules. -/
def FieldSpecs.valid : {fs : List Field} → FieldSpecs fs → FieldsVal fs → Prop
  | _, .nil, _ => True
  | _, .base _ _ _ rest, v => rest.valid v.2
  | _, .sub _ _ S rest, v => S.valid v.1 ∧ rest.valid v.2

/-- Specification of an entity. -/
def entitySpec {fs : List Field} (ss : FieldSpecs fs) : ClassSpec (FieldsVal fs) where
  wf := ss.wf
  rel R := ss.rel R
  nodes := ss.nodes
  destOk := ss.destOk
  valid := ss.valid

/-! ## The classes the code generator can produce -/

mutual
  /-- The managed classes: graphs, indexed vectors, Varying, tables of managed classes, and entities of at least one variable. -/
  inductive IsClass : {V : Type} → Managed V → ClassSpec V → Prop where
    | graph {α : Type} [NodeType α] (st : Stored α) (h : st.Good) (acyclic rooted singleRoot : Bool) :
        IsClass (graphMF st acyclic rooted singleRoot) (graphSpec st acyclic rooted singleRoot)
    | idx (t : DataType) (h : t ∈ allTypes) : IsClass (idxMF t) (idxSpec t)
    | varying : IsClass varyingMF varyingSpec
    | table {K V : Type} [DecidableEq K] (st : Stored K) (h : st.Good) {M : Managed V} {S : ClassSpec V} (hM : IsClass M S)
        (zeroKeys nullEntities : Bool) (ord : TableOrder (K × Option V)) :
        IsClass (tableMF st M zeroKeys nullEntities ord) (tableSpec st S zeroKeys nullEntities)
    | entity {fs : List Field} (ss : FieldSpecs fs) (h : AreFields ss) (hne : fs ≠ []) : IsClass (entityMF fs) (entitySpec ss)
  /-- Variables of an entity: base types in containers, and managed classes, under names of at most 40 bytes. -/
  inductive AreFields : {fs : List Field} → FieldSpecs fs → Prop where
    | nil : AreFields .nil
    | base {k t c fs} {rest : FieldSpecs fs} (hk : k.length ≤ 40) (ht : t ∈ allTypes) (h : AreFields rest) : AreFields (.base k t c rest)
    | sub {k V} {M : Managed V} {S : ClassSpec V} {fs} {rest : FieldSpecs fs} (hk : k.length ≤ 40) (hM : IsClass M S) (h : AreFields rest) :
        AreFields (.sub k M S rest)
end

/-! ## What it means to round trip -/

/-- `v` can be written to any stream with room for it, behind what is there already; reading it back there, whatever follows and whatever
the destination held, returns true, gives an object with the same contents, and stops behind the block. The object read compares equal to
the original exactly when the original's own contents compare equal to themselves (NaNs do not). -/
def RoundTrips {V : Type} (M : Managed V) (S : ClassSpec V) (v : V) (destOk : V → Prop) : Prop :=
  ∀ (w : EWriter) (_ : w.Idle) (s : WStream) (_ : Ready s) (fresh : Bytes → Nat) (_ : s.dataSize + ((S.nodes v).bytes s.flip).length < 2 ^ 60),
    ∃ s' block, M.write fresh v (w, s) = .ok true (w, s') ∧ Ready s' ∧ s'.flip = s.flip ∧ s'.content = s.content ++ block ∧
      ∀ (env : REnv) (fresh' : Bytes → Nat) (r : EReader) (post : Bytes) (dest : V), (∀ n, env.allocOk n = true) → r.Idle →
        (s'.content ++ post).length < 2 ^ 60 → S.wf dest → destOk dest →
        ∃ v', M.read env fresh' dest (r, ⟨s'.content ++ post, s.content.length, s.flip⟩) =
            .ok (some v') (r, ⟨s'.content ++ post, s'.content.length, s.flip⟩) ∧
          S.wf v' ∧ S.rel .exact v' v ∧ (M.equals v' v = some true ↔ S.rel .cpp v v)

end ISD
