import Verif.Props.Layout

/-!
# C70: several values and objects in one stream
-/

namespace ISD

attribute [local irreducible] dynTable DynClass.all findTypeClass

/-- Something a client writes to a stream: a named value, or an object of a managed class. -/
inductive Item where
  | value (t : DataType) (c : Container) (key : Bytes) (v : c.Val t.Val)
  | object {V : Type} (M : Managed V) (S : ClassSpec V) (v : V)

/-- Client program: write the items one after the other, stop at the first refusal. -/
def writeAll (fresh : Bytes → Nat) : List Item → Prog WSt Bool
  | [] => return true
  | .value t c key v :: rest => do
    if !(← EWriter.write t c key v) then return false
    writeAll fresh rest
  | .object M _ v :: rest => do
    if !(← M.write fresh v) then return false
    writeAll fresh rest

/-- Reading items one after the other, each into a destination of its kind, gives them all back: the reader goes from one state to the other,
returning every value exactly and every object with the same contents. -/
inductive ReadsItems (env : REnv) (fresh : Bytes → Nat) : List Item → RSt → RSt → Prop where
  | nil (s) : ReadsItems env fresh [] s s
  | value (t : DataType) (c : Container) (key v rest s s1 s2)
      (h : ∀ dest, DestOk t c dest → EReader.read env t c key dest s = .ok (some v) s1) (hr : ReadsItems env fresh rest s1 s2) :
      ReadsItems env fresh (.value t c key v :: rest) s s2
  | object {V : Type} (M : Managed V) (S : ClassSpec V) (v rest s s1 s2)
      (h : ∀ dest, S.wf dest → S.destOk dest → ∃ v', M.read env fresh dest s = .ok (some v') s1 ∧ S.wf v' ∧ S.rel .exact v' v)
      (hr : ReadsItems env fresh rest s1 s2) :
      ReadsItems env fresh (.object M S v :: rest) s s2

/-- The items can be written: types of the library under keys of at most 40 bytes, and storable objects of managed classes. -/
def Item.Ok (fl : Bool) : Item → Prop
  | .value t _ key _ => t ∈ allTypes ∧ key.length ≤ 40
  | .object M S v => IsClass M S ∧ Storable S fl v

/-- The bytes of the items: the documented blocks of the values and the stored forms of the objects, one after the other. -/
inductive Blocks (fl : Bool) : List Item → Bytes → Prop where
  | nil : Blocks fl [] []
  | value (t : DataType) (c : Container) (key v rest b) (h : Blocks fl rest b) : Blocks fl (.value t c key v :: rest) (Spec.typed fl t c key v ++ b)
  | object {V : Type} (M : Managed V) (S : ClassSpec V) (v rest x b) (hx : StoredAs M v fl x) (hl : x.length < 2 ^ 59) (h : Blocks fl rest b) :
      Blocks fl (.object M S v :: rest) (x ++ b)

theorem blocks_exist (fl : Bool) : ∀ items : List Item, (∀ i ∈ items, i.Ok fl) → ∃ b, Blocks fl items b
  | [], _ => ⟨_, .nil⟩
  | .value t c key v :: rest, h => by
    obtain ⟨b, hb⟩ := blocks_exist fl rest fun i hi => h i (List.mem_cons_of_mem _ hi)
    exact ⟨_, .value t c key v rest b hb⟩
  | .object M S v :: rest, h => by
    obtain ⟨b, hb⟩ := blocks_exist fl rest fun i hi => h i (List.mem_cons_of_mem _ hi)
    obtain ⟨hM, hv⟩ := h _ (List.mem_cons_self ..)
    exact ⟨_, .object M S v rest _ b (storedAs_nodes hM hv) hv.small hb⟩

theorem writeAll_appends (fl : Bool) (fresh : Bytes → Nat) : ∀ (items : List Item), (∀ i ∈ items, i.Ok fl) → ∀ b, Blocks fl items b →
    AppendsT (writeAll fresh items) fl b
  | [], _, _, .nil => .pure fl
  | .value t c key v :: rest, h, _, .value _ _ _ _ _ b hb => by
    have ih := writeAll_appends fl fresh rest (fun i hi => h i (List.mem_cons_of_mem _ hi)) b hb
    exact (typed_appendsT (h _ (List.mem_cons_self ..)).1 c key v fl).andThen ih
  | .object M S v :: rest, h, _, .object _ _ _ _ x b hx hl hb => by
    have ih := writeAll_appends fl fresh rest (fun i hi => h i (List.mem_cons_of_mem _ hi)) b hb
    obtain ⟨hM, hv⟩ := h _ (List.mem_cons_self ..)
    have := hM.lawful.write_ok v hv.wf hv.initialised fresh fl
    rw [← storedAs_unique hM hv hl hx] at this
    exact this.andThen ih

theorem items_readBack (fl : Bool) (fresh : Bytes → Nat) {env : REnv} (he : env.Lucky) (r : EReader) (hr : r.Idle) (d : Bytes) (hd : Small d) :
    ∀ (items : List Item), (∀ i ∈ items, i.Ok fl) → ∀ b, Blocks fl items b → ∀ pos, Has d pos b →
      ReadsItems env fresh items (r, ⟨d, pos, fl⟩) (r, ⟨d, pos + b.length, fl⟩)
  | [], _, _, .nil, pos, _ => .nil _
  | .value t c key v :: rest, h, _, .value _ _ _ _ _ b hb, pos, hp => by
    rw [Has.append] at hp
    have ih := items_readBack fl fresh he r hr d hd rest (fun i hi => h i (List.mem_cons_of_mem _ hi)) b hb _ hp.2
    obtain ⟨ht, hk⟩ := h _ (List.mem_cons_self ..)
    rw [List.length_append, ← Nat.add_assoc]
    exact .value t c key v rest _ _ _ (fun dest hdest => typed_consumesT ht c hk dest v hdest fl he r d pos hr hd hp.1) ih
  | .object M S v :: rest, h, _, .object _ _ _ _ x b hx hl hb, pos, hp => by
    rw [Has.append] at hp
    have ih := items_readBack fl fresh he r hr d hd rest (fun i hi => h i (List.mem_cons_of_mem _ hi)) b hb _ hp.2
    obtain ⟨hM, hv⟩ := h _ (List.mem_cons_self ..)
    rw [List.length_append, ← Nat.add_assoc]
    refine .object M S v rest _ _ _ (fun dest hdw hdo => ?_) ih
    obtain ⟨v', h1, h2, h3⟩ := hM.lawful.read_ok v dest hv.wf hv.initialised hdw hdo env fresh fl he
    rw [← storedAs_unique hM hv hl hx] at h1
    exact ⟨v', h1 r d pos hr hd hp.1, h2, h3⟩

/-- **C70**: any sequence of values and objects, written one after the other behind whatever the stream holds, is stored as the sequence of
their blocks, and reading them one after the other gives them all back and stops behind the last. -/
theorem C70_sequences_round_trip (items : List Item) (s : WStream) (hs : Ready s) (hok : ∀ i ∈ items, i.Ok s.flip) (b : Bytes)
    (hb : Blocks s.flip items b) (hsz : s.dataSize + b.length < 2 ^ 60) (w : EWriter) (hw : w.Idle) (fresh : Bytes → Nat) :
    ∃ s', writeAll fresh items (w, s) = .ok true (w, s') ∧ Ready s' ∧ s'.content = s.content ++ b ∧
      ∀ (env : REnv) (fresh' : Bytes → Nat) (r : EReader) (post : Bytes), (∀ n, env.allocOk n = true) → r.Idle → (s'.content ++ post).length < 2 ^ 60 →
        ReadsItems env fresh' items (r, ⟨s'.content ++ post, s.content.length, s.flip⟩) (r, ⟨s'.content ++ post, s'.content.length, s.flip⟩) := by
  have hl := hs.good.content_len
  obtain ⟨s', e, h⟩ := writeAll_appends s.flip fresh items hok b hb w s s.content hw hs.at (by omega)
  refine ⟨s', e, h.ready, h.content, fun env fresh' r post he hr hsm => ?_⟩
  rw [h.content] at hsm ⊢
  have := items_readBack s.flip fresh' he r hr (s.content ++ b ++ post) hsm items hok b hb s.content.length (Has.mid _ _ _)
  rwa [← List.length_append] at this

/-- Every sequence of such items has blocks. -/
theorem C70_blocks_exist (fl : Bool) (items : List Item) (h : ∀ i ∈ items, i.Ok fl) : ∃ b, Blocks fl items b := blocks_exist fl items h

/-- A node, a number and another node. -/
def demoItems : List Item :=
  [.object (entityMF nodeFields) (entitySpec nodeSpecs) demoNode, .value u16Type .none (key "Number") (u16Val 7),
   .object (entityMF nodeFields) (entitySpec nodeSpecs) demoNode]

example : (∀ i ∈ demoItems, i.Ok false) ∧ Blocks false demoItems
    (demoNodeBytes ++ ([3, 8, 7, 0, 78, 117, 109, 98, 101, 114] ++ (demoNodeBytes ++ []))) := by
  have hn : Storable (entitySpec nodeSpecs) false demoNode :=
    ⟨trivial, ⟨base_storable _, base_storable _, base_storable _, base_storable _, trivial⟩, by rw [node_bytes, demoNode_layout]; decide⟩
  have hs : StoredAs (entityMF nodeFields) demoNode false demoNodeBytes := by
    rw [← demoNode_layout]
    exact C69_Node false demoNode (by rw [demoNode_layout]; decide)
  constructor
  · intro i hi
    simp only [demoItems, List.mem_cons, List.not_mem_nil, or_false] at hi
    rcases hi with rfl | rfl | rfl
    · exact ⟨node_isClass, hn⟩
    · exact ⟨u16_mem, by decide⟩
    · exact ⟨node_isClass, hn⟩
  · have e : [3, 8, 7, 0, 78, 117, 109, 98, 101, 114] = Spec.typed false u16Type .none (key "Number") (u16Val 7) := by decide +kernel
    rw [e]
    exact .object _ _ _ _ _ _ hs (by decide) (.value _ _ _ _ _ _ (.object _ _ _ _ _ _ hs (by decide) .nil))

end ISD
