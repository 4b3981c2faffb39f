import Verif.Spec.Managed
import Verif.Spec.Accept

/-!
# Specification: what counts as a stored object

`Layout` says which bytes this library writes for an object. Here is the documented format as a relation: which bytes stand for which
object, whoever wrote them. Values may be in any of the forms of `Spec.TypedBlock`; graphs may list roots and edges in any order and more
than once; tables may list their entries in any order.

With `lax` the declared size of the last section of an entity may be wrong (finding of C42: the readers do not look at it).
-/

namespace ISD

/-- The head of a section: value type, declared size of what follows, name. -/
def Spec.sectHead (fl : Bool) (key : Bytes) (size : Nat) : Bytes :=
  [UInt8.ofNat 0xd0] ++ Spec.number fl 8 size ++ [UInt8.ofNat key.length] ++ key

/-- Two by two; a last odd one is dropped. -/
def Spec.pairs {α : Type} : List α → List (α × α)
  | a :: b :: rest => (a, b) :: Spec.pairs rest
  | _ => []

/-- No section among the variables. -/
def Spec.noSections : List Field → Bool
  | [] => true
  | .base _ _ _ :: fs => Spec.noSections fs
  | .sub _ _ _ :: _ => false

mutual
  /-- The bytes stand for the object of this class. -/
  inductive Stands (lax fl : Bool) : {V : Type} → Managed V → ClassSpec V → V → Bytes → Prop where
    /-- A graph: a vector with its roots, a vector with the ends of its edges. -/
    | graph {α : Type} [NodeType α] (st : Stored α) (h : st.Good) (acyclic rooted singleRoot : Bool) (g : Graph α) (roots ends : List st.ty.Val)
        (b1 b2 : Bytes) (h1 : Spec.TypedBlock fl st.ty .vector (key "Roots") roots b1) (h2 : Spec.TypedBlock fl st.ty .vector (key "Edges") ends b2)
        (hr : ∀ n, n ∈ g.roots ↔ n ∈ roots.map st.ofVal) (he : ∀ e, e ∈ g.edges ↔ e ∈ Spec.pairs (ends.map st.ofVal)) :
        Stands lax fl (graphMF st acyclic rooted singleRoot) (graphSpec st acyclic rooted singleRoot) g (b1 ++ b2)
    /-- An indexed vector. -/
    | idx (t : DataType) (ht : t ∈ allTypes) (v : IdxVec t.Val) (b : Bytes) (h : Spec.TypedBlock fl t .idxVector (key "Values") v b) :
        Stands lax fl (idxMF t) (idxSpec t) v b
    /-- A Varying: the numbers of the type and the container of its value, the value. -/
    | varying (i j : Nat) (t : DataType) (c : Container) (x : c.Val t.Val) (b1 b2 b3 : Bytes) (ht : Spec.TypeId i t) (hc : Spec.ContainerId j c)
        (h1 : Spec.TypedBlock fl u16Type .none (key "Type") (u16Val (BitVec.ofNat 16 i)) b1)
        (h2 : Spec.TypedBlock fl u16Type .none (key "ContainerType") (u16Val (BitVec.ofNat 16 j)) b2)
        (h3 : Spec.TypedBlock fl t c (key "Data") x b3) :
        Stands lax fl varyingMF varyingSpec ⟨BitVec.ofNat 32 i, BitVec.ofNat 32 j, some ⟨t, c, x⟩⟩ (b1 ++ b2 ++ b3)
    /-- A table: a vector with the keys, all different, and an array of sections, one for each key; `es` are the entries in that order. -/
    | table {K V : Type} [DecidableEq K] (st : Stored K) (h : st.Good) (M : Managed V) (S : ClassSpec V) (hM : IsClass M S)
        (zeroKeys nullEntities : Bool) (ord : TableOrder (K × Option V)) (t es : Table K V) (keys : List st.ty.Val) (flags : Nat) (b1 bs : Bytes)
        (hp : t.Perm es) (hk : es.map Prod.fst = keys.map st.ofVal) (hn : (es.map Prod.fst).Nodup)
        (h1 : Spec.TypedBlock fl st.ty .vector (key "IDs") keys b1) (hf : flags < 2 ^ 16) (h9 : flags.testBit 9 = false) (h8 : flags.testBit 8 = false)
        (hs : StandElems lax fl M S (es.map Prod.snd) bs) :
        Stands lax fl (tableMF st M zeroKeys nullEntities ord) (tableSpec st S zeroKeys nullEntities) t
          (b1 ++ Spec.largeBlock fl 0xd1 (key "Entities") (Spec.looseHeader fl flags es.length none ++ bs))
    /-- An entity: its variables one after the other. -/
    | entity {fs : List Field} (ss : FieldSpecs fs) (v : FieldsVal fs) (b : Bytes) (h : StandFields lax fl ss v b) :
        Stands lax fl (entityMF fs) (entitySpec ss) v b
  /-- The elements of an array of sections: a section without contents is a null, any other stands for an object. -/
  inductive StandElems (lax fl : Bool) : {V : Type} → Managed V → ClassSpec V → List (Option V) → Bytes → Prop where
    | nil {V : Type} (M : Managed V) (S : ClassSpec V) : StandElems lax fl M S [] []
    | null {V : Type} (M : Managed V) (S : ClassSpec V) (l : List (Option V)) (bs : Bytes) (h : StandElems lax fl M S l bs) :
        StandElems lax fl M S (none :: l) (Spec.element fl [] ++ bs)
    | value {V : Type} (M : Managed V) (S : ClassSpec V) (v : V) (l : List (Option V)) (b bs : Bytes) (hv : Stands lax fl M S v b) (hb : b ≠ [])
        (h : StandElems lax fl M S l bs) : StandElems lax fl M S (some v :: l) (Spec.element fl b ++ bs)
  /-- The variables of an entity: a value as a block, an object as a section that declares its size. -/
  inductive StandFields (lax fl : Bool) : {fs : List Field} → FieldSpecs fs → FieldsVal fs → Bytes → Prop where
    | nil : StandFields lax fl .nil () []
    | base (k : Bytes) (hk : k.length ≤ 40) (t : DataType) (ht : t ∈ allTypes) (c : Container) {fs : List Field} (rest : FieldSpecs fs)
        (x : c.Val t.Val) (v : FieldsVal fs) (b bs : Bytes) (h : Spec.TypedBlock fl t c k x b) (hs : StandFields lax fl rest v bs) :
        StandFields lax fl (.base k t c rest) (x, v) (b ++ bs)
    | sub (k : Bytes) (hk : k.length ≤ 40) {V : Type} (M : Managed V) (S : ClassSpec V) {fs : List Field} (rest : FieldSpecs fs) (x : V)
        (v : FieldsVal fs) (size : Nat) (b bs : Bytes) (hz : size < 2 ^ 64)
        (he : (b ≠ [] ∧ size = 1 + k.length + b.length) ∨ (lax = true ∧ Spec.noSections fs = true)) (h : Stands lax fl M S x b)
        (hs : StandFields lax fl rest v bs) : StandFields lax fl (.sub k M S rest) (x, v) (Spec.sectHead fl k size ++ b ++ bs)
end

end ISD
