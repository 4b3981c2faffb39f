import Verif.Proofs.ForeignSound

/-! # Every stored form of an object is read -/

namespace ISD

attribute [local irreducible] dynTable DynClass.all findTypeClass

section

variable {fl : Bool} {env : REnv}

theorem loose_consumesT {t : DataType} (ht : t ∈ allTypes) {c : Container} {key : Bytes} (hk : key.length ≤ 40) {dest v : c.Val t.Val}
    (hdest : DestOk t c dest) (he : env.Lucky) {b : Bytes} (hb : Spec.TypedBlock fl t c key v b) :
    ConsumesT (EReader.read env t c key dest) fl (some v) b := by
  intro r d pos hr hd h
  have := readTyped_loose he (allTypes_ok t ht) c key hk dest v fl b hb d pos hd h
  rw [readInto_ok hdest v] at this
  exact onRStream_ok this

theorem beginReadArray_loose {r : EReader} (hr : r.Idle) {d : Bytes} {pos : Nat} (he : env.Lucky) (fresh : Nat) {key : Bytes} (f n : Nat)
    (hf : f < 2 ^ 16) (h9 : f.testBit 9 = false) (h8 : f.testBit 8 = false) (rest : Bytes) (hk : key.length ≤ 40) (hd : Small d)
    (hn : n < 2 ^ 64) (h : Has d pos (Spec.largeBlock fl 0xd1 key (Spec.looseHeader fl f n none ++ rest))) :
    beginReadSectionsArray env fresh key false false (r, ⟨d, pos, fl⟩) =
      .ok (some fresh, n, true, [])
        (r.inArray (EReader.create fresh (pos + 20 + key.length + rest.length)) n 0 0, ⟨d, pos + 20 + key.length, fl⟩) := by
  have e1 := beginReadLarge_has env hd (by decide) hk h
  obtain ⟨h2, h3, hl⟩ := readFrame h
  have hH : (Spec.looseHeader fl f n none).length = 10 := by rw [looseHeader_length]; rfl
  rw [List.length_append, hH, show pos + 10 + key.length + (10 + rest.length) = pos + 20 + key.length + rest.length by omega] at e1
  rw [hH] at hl
  have e2 := readMeta_loose he f n hf hn none h9 h8 hd h2 (pos + 20 + key.length + rest.length) (by omega) (by omega)
  rw [hH, show pos + 10 + key.length + 10 = pos + 20 + key.length by omega] at e2
  rw [beginReadSectionsArray, Prog.bind_ok (Prog.get_apply _), if_neg (by simp [hr.sub]),
    Prog.bind_ok (onRStream_ok (show beginReadLargeBlock env vtArraySubsection key _ = _ from e1)), if_neg (by omega),
    Prog.bind_ok (Prog.get_apply _), if_neg (by dsimp only; omega), Prog.bind_ok (readSectionsMetadata_ok (show readArrayMetadataAndIndex env _ false _ = .ok (some (f % 256, n, [])) _ from e2))]
  dsimp only
  rw [Prog.bind_ok (modify_ok _ _), Prog.bind_ok (Prog.get_apply _), Prog.pure_apply]
  obtain ⟨a, b, c, d, e, f⟩ := r
  obtain ⟨h1, h2, h3, h4⟩ := hr
  simp only at h1 h2 h3 h4
  subst h1 h2 h3 h4
  rfl

/-- The bytes are read, into any usable object, and give the same contents. -/
def ReadAs {V : Type} (M : Managed V) (S : ClassSpec V) (fl : Bool) (v : V) (b : Bytes) : Prop :=
  ∀ dest, S.wf dest → S.destOk dest → ∀ (env : REnv) (fresh : Bytes → Nat), env.Lucky →
    ∃ v', ConsumesT (M.read env fresh dest) fl (some v') b ∧ S.wf v' ∧ S.rel .exact v' v

theorem graph_readAs {α : Type} [NodeType α] {st : Stored α} (h : st.Good) (a r s : Bool) {g : Graph α} {roots ends : List st.ty.Val}
    {b1 b2 : Bytes} (h1 : Spec.TypedBlock fl st.ty .vector (key "Roots") roots b1) (h2 : Spec.TypedBlock fl st.ty .vector (key "Edges") ends b2)
    (hr : ∀ n, n ∈ g.roots ↔ n ∈ roots.map st.ofVal) (he : ∀ e, e ∈ g.edges ↔ e ∈ Spec.pairs (ends.map st.ofVal)) :
    ReadAs (graphMF st a r s) (graphSpec st a r s) fl g (b1 ++ b2) := by
  intro dest _ _ env fresh hl
  have hk1 : (key "Roots").length ≤ 40 := by decide
  have hk2 : (key "Edges").length ≤ 40 := by decide
  have hv : (⟨OrdSet.ofList (roots.map st.ofVal), []⟩ : Graph α).Valid := ⟨OrdSet.sorted_ofList _, List.Pairwise.nil⟩
  have hg := mem_insertPairs (ends.map st.ofVal) _ hv
  refine ⟨insertPairs ⟨OrdSet.ofList (roots.map st.ofVal), []⟩ (ends.map st.ofVal), ?_, insertPairs_valid _ _ hv, fun n => ?_, fun e => ?_⟩
  · rw [← List.append_nil b2]
    refine ConsumesT.bind (loose_consumesT (c := .vector) h.mem hk1 (fun _ => rfl) hl h1) ?_
    refine ConsumesT.bind (loose_consumesT (c := .vector) h.mem hk2 (fun _ => rfl) hl h2) ?_
    exact .pure fl _
  · rw [hg.1, hr]; exact OrdSet.mem_ofList _ _
  · rw [hg.2, he]; simp

theorem idx_readAs {t : DataType} (h : t ∈ allTypes) {v : IdxVec t.Val} {b : Bytes} (hb : Spec.TypedBlock fl t .idxVector (key "Values") v b) :
    ReadAs (idxMF t) (idxSpec t) fl v b := by
  intro dest _ hdo env fresh hl
  have hk : (key "Values").length ≤ 40 := by decide
  refine ⟨v, ?_, trivial, (idx_lawful t h).rel_refl v trivial⟩
  rw [← List.append_nil b]
  exact ConsumesT.bind (loose_consumesT (c := .idxVector) h hk hdo hl hb) (.pure fl _)

theorem varying_readAs {i j : Nat} {t : DataType} {c : Container} {x : c.Val t.Val} {b1 b2 b3 : Bytes} (h1 : Spec.TypeId i t) (h2 : Spec.ContainerId j c)
    (t1 : Spec.TypedBlock fl u16Type .none (key "Type") (u16Val (BitVec.ofNat 16 i)) b1)
    (t2 : Spec.TypedBlock fl u16Type .none (key "ContainerType") (u16Val (BitVec.ofNat 16 j)) b2)
    (t3 : Spec.TypedBlock fl t c (key "Data") x b3) :
    ReadAs varyingMF varyingSpec fl ⟨BitVec.ofNat 32 i, BitVec.ofNat 32 j, some ⟨t, c, x⟩⟩ (b1 ++ b2 ++ b3) := by
  intro dest hd _ env fresh he
  refine ⟨_, ?_, fun o ho => by cases ho; exact ⟨i, j, h1, h2, rfl, rfl⟩, .inr ⟨_, _, rfl, rfl, rfl, rfl, .mk _ _ _ _ (Container.Rel.refl (fun _ => rfl) _ _)⟩⟩
  obtain ⟨hi, hj⟩ := ids_small h1 h2
  obtain ⟨v', e, hn, _⟩ := deinitialize_ok hd
  have hw : varyingSpec.wf v' := by cases v'; cases hn; exact varying_wf_none _ _
  have hk1 : (key "Type").length ≤ 40 := by decide
  have hk2 : (key "ContainerType").length ≤ 40 := by decide
  have hk3 : (key "Data").length ≤ 40 := by decide
  have w16 : ∀ {n : Nat}, n < 2 ^ 16 → (BitVec.ofNat 16 n).setWidth 32 = BitVec.ofNat 32 n := by
    intro n hn
    apply BitVec.eq_of_toNat_eq
    simp only [BitVec.toNat_setWidth, BitVec.toNat_ofNat]
    omega
  show ConsumesT (Varying.read env dest) fl _ _
  rw [Varying.read, List.append_assoc]
  refine ConsumesT.bind0 (onVarying_ok e fl) ?_
  dsimp only
  refine ConsumesT.bind (loose_consumesT (c := .none) u16_mem hk1 trivial he t1) ?_
  dsimp only
  refine ConsumesT.bind (loose_consumesT (c := .none) u16_mem hk2 trivial he t2) ?_
  dsimp only
  rw [u16_inv, u16_inv, w16 hi, w16 hj]
  refine ConsumesT.bind0 (onVarying_ok (setType_ok hw h1 h2) fl) ?_
  dsimp only
  rw [if_neg (by decide), find_of_ids h1 h2]
  dsimp only
  rw [if_pos (madeBy_self _ _ _ _ _)]
  rw [← List.append_nil b3]
  refine ConsumesT.bind (loose_consumesT (typeId_mem h1) hk3 (destOk_zero t c) he t3) ?_
  exact .pure fl _

/-! ## Tables -/

section table

variable {K V : Type} [DecidableEq K] {M : Managed V} {S : ClassSpec V}

/-- What the loop of `Read` does on elements of a table. -/
def LoopReads (K : Type) [DecidableEq K] (M : Managed V) (S : ClassSpec V) (fl : Bool) (us : List (Option V)) (bs : Bytes) : Prop :=
  ∀ (ord : TableOrder (K × Option V)) (env : REnv) (_ : env.Lucky) (fresh : Bytes → Nat) (ks : List K), ks.length = us.length →
    ∃ xs, ListRel (EntryRel fun x y => S.wf x ∧ S.rel .exact x y) xs (ks.zip us) ∧
      ∀ (r sub : EReader) (_ : sub.Idle) (d : Bytes) (_ : Small d) (n : Nat) (_ : n < 2 ^ 63) (acc : Table K V),
        ((ks.zip us ++ acc).map Prod.fst).Nodup → ∀ pos, Has d pos bs → ∀ i e, i + us.length ≤ n →
        ∃ e', tableReadLoop M ord env fresh (some sub.addr) i ks acc (r.inArray sub n i e, ⟨d, pos, fl⟩) =
          .ok (some (Table.addAll ord acc xs)) (r.inArray sub n (i + us.length) e', ⟨d, pos + bs.length, fl⟩)

theorem loopReads_nil : LoopReads K M S fl [] [] := by
  intro ord env he fresh ks hks
  obtain rfl : ks = [] := List.eq_nil_of_length_eq_zero hks
  exact ⟨[], .nil, fun r sub _ d _ n _ acc _ pos _ i e _ => ⟨e, rfl⟩⟩

theorem loopReads_null {us : List (Option V)} {bs : Bytes} (ih : LoopReads K M S fl us bs) : LoopReads K M S fl (none :: us) (Spec.element fl [] ++ bs) := by
  intro ord env he fresh ks hks
  obtain ⟨k, ks, rfl⟩ : ∃ k l, ks = k :: l := by cases ks with | nil => cases hks | cons k l => exact ⟨k, l, rfl⟩
  rw [List.length_cons, List.length_cons, Nat.add_right_cancel_iff] at hks
  obtain ⟨xs, hxs, ih⟩ := ih ord env he fresh ks hks
  refine ⟨(k, none) :: xs, .cons ⟨rfl, .none⟩ hxs, ?_⟩
  intro r sub hsub d hd n hn acc hnd pos h i e hi
  rw [List.length_cons] at hi ⊢
  have hel : (Spec.element fl []).length = 8 := element_length fl []
  have hr := h.right
  rw [hel] at hr
  have e1 := beginReadElem_ok (r := r) (sub := sub) n i e (by omega) hn hd h.left
  have e3 := endReadElem_ok (r := r) (sub := sub) (s := ⟨d, pos + 8, fl⟩) n i (pos + 8) (by omega) hn rfl
  obtain ⟨hf, hnd'⟩ := emplace_keys (ord := ord) (by rw [List.zip_cons_cons] at hnd; exact hnd) none
  obtain ⟨e', e4⟩ := ih r sub hsub d hd n hn _ hnd' _ hr (i + 1) (pos + 8) (by omega)
  refine ⟨e', ?_⟩
  rw [tableReadLoop, Prog.bind_ok e1]
  dsimp only
  rw [if_neg (by decide), if_neg (by rw [hf]; exact fun h => (nomatch h)), if_neg (by decide),
    Prog.bind_ok (show endReadSectionInArray (some sub.addr) i (r.inArray sub n (i + 1) (pos + 8 + [].length), _) = _ from e3),
    if_neg (by decide), e4, List.length_append, hel]
  rw [show i + 1 + us.length = i + (us.length + 1) by omega, Nat.add_assoc]
  rfl

theorem loopReads_value (hi : S.wf M.init) (ho : S.destOk M.init) {v : V} {b : Bytes} (hv : ReadAs M S fl v b) (hne : b ≠ []) {us : List (Option V)}
    {bs : Bytes} (ih : LoopReads K M S fl us bs) : LoopReads K M S fl (some v :: us) (Spec.element fl b ++ bs) := by
  intro ord env he fresh ks hks
  obtain ⟨k, ks, rfl⟩ : ∃ k l, ks = k :: l := by cases ks with | nil => cases hks | cons k l => exact ⟨k, l, rfl⟩
  rw [List.length_cons, List.length_cons, Nat.add_right_cancel_iff] at hks
  obtain ⟨xs, hxs, ih⟩ := ih ord env he fresh ks hks
  obtain ⟨v', hc, hwv', hrel⟩ := hv M.init hi ho env fresh he
  refine ⟨(k, some v') :: xs, .cons ⟨rfl, .some ⟨hwv', hrel⟩⟩ hxs, ?_⟩
  intro r sub hsub d hd n hn acc hnd pos h i e hi
  rw [List.length_cons] at hi ⊢
  have hel := element_length fl b
  have hr := h.right
  rw [hel, ← Nat.add_assoc] at hr
  have h0 : (b.length != 0) = true := by simp [hne]
  have hb := h.left
  rw [Spec.element, Has.append, number_length] at hb
  have e1 := beginReadElem_ok (r := r) (sub := sub) n i e (by omega) hn hd h.left
  have e2 : inRSubsection (M.read env fresh M.init) (r.inArray sub n (i + 1) (pos + 8 + b.length), ⟨d, pos + 8, fl⟩) =
      .ok (some v') (r.inArray sub n (i + 1) (pos + 8 + b.length), ⟨d, pos + 8 + b.length, fl⟩) :=
    inRSubsection_ok (r := r.inArray sub n (i + 1) (pos + 8 + b.length)) rfl (hc sub d _ hsub hd hb.2)
  have e3 := endReadElem_ok (r := r) (sub := sub) (s := ⟨d, pos + 8 + b.length, fl⟩) n i (pos + 8 + b.length) (by omega) hn rfl
  obtain ⟨hf, hnd'⟩ := emplace_keys (ord := ord) (by rw [List.zip_cons_cons] at hnd; exact hnd) (some v')
  obtain ⟨e', e4⟩ := ih r sub hsub d hd n hn _ hnd' _ hr (i + 1) (pos + 8 + b.length) (by omega)
  refine ⟨e', ?_⟩
  rw [tableReadLoop, Prog.bind_ok e1]
  dsimp only
  rw [if_neg (by decide), if_neg (by rw [hf]; exact fun h => (nomatch h)), if_pos h0, Prog.bind_ok e2]
  dsimp only
  rw [Prog.bind_ok e3, if_neg (by decide), e4, List.length_append, hel]
  rw [show i + 1 + us.length = i + (us.length + 1) by omega,
    show pos + 8 + b.length + bs.length = pos + (8 + b.length + bs.length) by omega]
  rfl

theorem elements_count : ∀ {us : List (Option V)} {bs : Bytes}, StandElems false fl M S us bs → 8 * us.length ≤ bs.length
  | _, _, .nil _ _ => Nat.le_refl _
  | _, _, .null _ _ l bs h => by
    have := elements_count h
    rw [List.length_append, element_length, List.length_cons]; omega
  | _, _, .value _ _ v l b bs hv hb h => by
    have := elements_count h
    rw [List.length_append, element_length, List.length_cons]; omega

theorem table_readAs {st : Stored K} (h : st.Good) (zk ne : Bool) (ord : TableOrder (K × Option V)) {t es : Table K V} {keys : List st.ty.Val}
    {flags : Nat} {b1 bs : Bytes} (hp : t.Perm es) (hk : es.map Prod.fst = keys.map st.ofVal) (hn : (es.map Prod.fst).Nodup)
    (h1 : Spec.TypedBlock fl st.ty .vector (key "IDs") keys b1) (hf : flags < 2 ^ 16) (h9 : flags.testBit 9 = false) (h8 : flags.testBit 8 = false)
    (hc : 8 * es.length ≤ bs.length) (hs : LoopReads K M S fl (es.map Prod.snd) bs) :
    ReadAs (tableMF st M zk ne ord) (tableSpec st S zk ne) fl t
      (b1 ++ Spec.largeBlock fl 0xd1 (key "Entities") (Spec.looseHeader fl flags es.length none ++ bs)) := by
  intro dest _ _ env fresh he
  have hk1 : (key "IDs").length ≤ 40 := by decide
  have hk2 : (key "Entities").length ≤ 40 := by decide
  obtain ⟨xs, hxs, hloop⟩ := hs ord env he fresh (keys.map st.ofVal) (by rw [← hk, List.length_map, List.length_map])
  have hzip : (keys.map st.ofVal).zip (es.map Prod.snd) = es := by
    rw [← hk, List.zip_map', List.map_id'']
    intro e; rfl
  rw [hzip] at hxs hloop
  obtain ⟨hw, hrel⟩ := addAll_ok st zk ne ord hn hxs
  refine ⟨Table.addAll ord [] xs, ConsumesT.bind (loose_consumesT (c := .vector) h.mem hk1 (fun _ => rfl) he h1) ?_, hw, fun k => ?_⟩
  · intro r d pos hr hd h
    have hlen : keys.length = es.length := by have := congrArg List.length hk; simpa using this.symm
    obtain ⟨-, h3, hl⟩ := readFrame h
    have hH : (Spec.looseHeader fl flags es.length none).length = 10 := by rw [looseHeader_length]; rfl
    rw [hH] at h3 hl
    have hlt : es.length < 2 ^ 60 := by unfold Small at hd; omega
    have e1 := beginReadArray_loose hr he (fresh (key "Entities")) flags es.length hf h9 h8 bs hk2 hd (by omega) h
    obtain ⟨e', e2⟩ := hloop r (EReader.create (fresh (key "Entities")) (pos + 20 + (key "Entities").length + bs.length))
      (rcreate_idle _ _) d hd es.length (by omega) [] (by rw [List.append_nil]; exact hn) (pos + 20 + (key "Entities").length)
      (by rw [show pos + 20 + (key "Entities").length = pos + 10 + (key "Entities").length + 10 by omega]; exact h3) 0 0
      (by rw [List.length_map]; omega)
    rw [Nat.zero_add, List.length_map] at e2
    have e3 := endReadArray_ok hr (EReader.create (fresh (key "Entities")) (pos + 20 + (key "Entities").length + bs.length)) es.length e' (by omega)
      (s := ⟨d, pos + 20 + (key "Entities").length + bs.length, fl⟩) rfl
    dsimp only
    rw [Prog.bind_ok (show beginReadSectionsArray env (fresh (key "Entities")) (key "Entities") false false _ = _ from e1)]
    dsimp only
    rw [if_neg (by rw [hlen]; exact fun h => h rfl),
      Prog.bind_ok (show tableReadLoop M ord env fresh (some (fresh (key "Entities"))) 0 (keys.map st.ofVal) [] _ = _ from e2)]
    dsimp only
    rw [Prog.bind_ok (show endReadSectionsArray (some (fresh (key "Entities"))) _ = _ from e3), if_neg (by decide), Prog.pure_apply,
      largeBlock_length, List.length_append, hH]
    rw [show pos + 20 + (key "Entities").length + bs.length = pos + ((key "Entities").length + 10 + (10 + bs.length)) by omega]
  · rw [find_perm hp ((hp.map Prod.fst).nodup_iff.mpr hn)]
    exact hrel k

end table

/-! ## Entities -/

/-- The variables are read. -/
def FieldsReadAs {fs : List Field} (ss : FieldSpecs fs) (fl : Bool) (v : FieldsVal fs) (b : Bytes) : Prop :=
  ∀ dest, ss.wf dest → ss.destOk dest → ∀ (env : REnv) (fresh : Bytes → Nat), env.Lucky →
    ∃ v', ConsumesT (fieldsRead env fresh fs dest) fl (some v') b ∧ ss.wf v' ∧ ss.rel .exact v' v

theorem base_readAs {k : Bytes} (hk : k.length ≤ 40) {t : DataType} (ht : t ∈ allTypes) {c : Container} {fs : List Field} {rest : FieldSpecs fs}
    {x : c.Val t.Val} {v : FieldsVal fs} {b bs : Bytes} (h : Spec.TypedBlock fl t c k x b) (hs : FieldsReadAs rest fl v bs) :
    FieldsReadAs (.base k t c rest) fl (x, v) (b ++ bs) := by
  intro dest hw hdo env fresh he
  obtain ⟨v', h1, h2, h3⟩ := hs dest.2 hw hdo.2 env fresh he
  refine ⟨(x, v'), ?_, h2, Container.Rel.refl (fun _ => rfl) _ _, h3⟩
  have h4 : ConsumesT (do
      match ← fieldsRead env fresh fs dest.2 with
      | none => return none
      | some rest => return some ((x, rest) : FieldsVal (.base k t c :: fs))) fl (some (x, v')) bs := by
    rw [← List.append_nil bs]
    exact ConsumesT.bind h1 (.pure fl _)
  exact ConsumesT.bind (loose_consumesT ht hk hdo.1 he h) h4

theorem sub_readAs {k : Bytes} (hk : k.length ≤ 40) {V : Type} {M : Managed V} {S : ClassSpec V} {fs : List Field} {rest : FieldSpecs fs}
    {x : V} {v : FieldsVal fs} {b bs : Bytes} (hne : b ≠ []) (h : ReadAs M S fl x b) (hs : FieldsReadAs rest fl v bs) :
    FieldsReadAs (.sub k M S rest) fl (x, v) (Spec.sectHead fl k (1 + k.length + b.length) ++ b ++ bs) := by
  intro dest hw hdo env fresh he
  obtain ⟨v', h1, h2, h3⟩ := hs dest.2 hw.2 hdo.2 env fresh he
  obtain ⟨x', g1, g2, g3⟩ := h dest.1 hw.1 hdo.1 env fresh he
  refine ⟨(x', v'), ?_, ⟨g2, h2⟩, g3, h3⟩
  have h4 : ConsumesT (do
      match ← fieldsRead env fresh fs dest.2 with
      | none => return none
      | some rest => return some ((x', rest) : FieldsVal (.sub k V M :: fs))) fl (some (x', v')) bs := by
    rw [← List.append_nil bs]
    exact ConsumesT.bind h1 (.pure fl _)
  exact subRead_consumes (env := env) g1 hne (fresh k) hk (g := fun x => (do
      match ← fieldsRead env fresh fs dest.2 with
      | none => return none
      | some rest => return some ((x, rest) : FieldsVal (.sub k V M :: fs)))) h4

mutual
  theorem Stands.readAs : ∀ {V : Type} {M : Managed V} {S : ClassSpec V} {v : V} {b : Bytes}, Stands false fl M S v b → ReadAs M S fl v b
    | _, _, _, _, _, @Stands.graph _ _ _ _ st h a r s g roots ends b1 b2 h1 h2 hr he => graph_readAs h a r s h1 h2 hr he
    | _, _, _, _, _, .idx t ht v b h => idx_readAs ht h
    | _, _, _, _, _, .varying i j t c x b1 b2 b3 ht hc h1 h2 h3 => varying_readAs ht hc h1 h2 h3
    | _, _, _, _, _, @Stands.table _ _ K V _ st h M S hM zk ne ord t es keys flags b1 bs hp hk hn h1 hf h9 h8 hs =>
      table_readAs h zk ne ord hp hk hn h1 hf h9 h8 (by have := elements_count hs; rwa [List.length_map] at this)
        (hs.loopReads K hM.lawful.init_wf hM.lawful.init_dest)
    | _, _, _, _, _, .entity ss v b h => h.readAs
  theorem StandElems.loopReads (K : Type) [DecidableEq K] : ∀ {V : Type} {M : Managed V} {S : ClassSpec V} {us : List (Option V)} {bs : Bytes},
      StandElems false fl M S us bs → S.wf M.init → S.destOk M.init → LoopReads K M S fl us bs
    | _, _, _, _, _, .nil M S, _, _ => loopReads_nil
    | _, _, _, _, _, .null M S l bs h, hi, ho => loopReads_null (h.loopReads K hi ho)
    | _, _, _, _, _, .value M S v l b bs hv hb h, hi, ho => loopReads_value hi ho hv.readAs hb (h.loopReads K hi ho)
  theorem StandFields.readAs : ∀ {fs : List Field} {ss : FieldSpecs fs} {v : FieldsVal fs} {b : Bytes}, StandFields false fl ss v b → FieldsReadAs ss fl v b
    | _, _, _, _, .nil => fun dest _ _ env fresh he => ⟨(), .pure fl _, trivial, trivial⟩
    | _, _, _, _, .base k hk t ht c rest x v b bs h hs => base_readAs hk ht h hs.readAs
    | _, _, _, _, .sub k hk M S rest x v size b bs hz he h hs => by
      rcases he with ⟨h1, rfl⟩ | ⟨h1, -⟩
      · exact sub_readAs hk h1 h.readAs hs.readAs
      · cases h1
end

end

end ISD
