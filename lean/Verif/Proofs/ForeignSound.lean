import Verif.Spec.Foreign
import Verif.Proofs.ReaderHistory
import Verif.Proofs.LooseBlocks
import Verif.Proofs.ClassLaws

/-! # Whatever the readers of objects accept stands for the object they deliver -/

namespace ISD

attribute [local irreducible] dynTable DynClass.all findTypeClass

set_option linter.unusedVariables false

namespace RWp

variable {α : Type} {U : Prop} {d : Bytes} {fl : Bool} {p : Nat} {rd : EReader}

theorem both {r : Res RSt α} {P Q : α → EReader → Nat → Prop} {W : Prop} (h1 : RWp d fl p r P U) (h2 : RWp d fl p r Q W) :
    RWp d fl p r (fun a r p' => P a r p' ∧ Q a r p') U := by
  cases r with
  | ok a s =>
    obtain ⟨p1, e1, a1, a2, a3⟩ := h1
    obtain ⟨p2, e2, -, -, b3⟩ := h2
    have : p2 = p1 := by rw [e1] at e2; exact (congrArg RStream.pos e2).symm
    subst this
    exact ⟨p2, e1, a1, a2, a3, b3⟩
  | throw s => exact h1
  | ub => exact h1

theorem keeps {x : Prog RSt α} {Q : α → EReader → Nat → Prop} (hx : KeepsReader x) (h : RWp d fl p (x (rd, ⟨d, p, fl⟩)) Q U) :
    RWp d fl p (x (rd, ⟨d, p, fl⟩)) (fun a r p' => Q a r p' ∧ r.addr = rd.addr ∧ r.endPosition = rd.endPosition) U := by
  cases e : x (rd, ⟨d, p, fl⟩) with
  | ok a s =>
    rw [e] at h
    obtain ⟨p', e1, h1, h2, h3⟩ := h
    exact ⟨p', e1, h1, h2, h3, hx.ok _ _ _ e⟩
  | throw s => rw [e] at h; exact h
  | ub => rw [e] at h; exact h

end RWp

/-- The object that was read is one that the consumed bytes stand for. -/
def FoundAs {V : Type} (M : Managed V) (S : ClassSpec V) (d : Bytes) (fl : Bool) (p : Nat) (v : V) (p' : Nat) : Prop :=
  ∃ b, Stands true fl M S v b ∧ Has d p b ∧ p' = p + b.length

/-- Whatever a read accepts stands for the object it delivers. -/
def ReadsFound {V : Type} (M : Managed V) (S : ClassSpec V) (d : Bytes) (fl : Bool) : Prop :=
  ∀ (env : REnv) (fresh : Bytes → Nat) (v : V), S.wf v → S.destOk v → ∀ (rd : EReader) (p : Nat), p ≤ d.length →
    RWp d fl p (M.read env fresh v (rd, ⟨d, p, fl⟩)) (fun r _ p' => ∀ v', r = some v' → p' < d.length → FoundAs M S d fl p v' p') True

section

variable {d : Bytes} {fl : Bool}

theorem baseRead_found (env : REnv) (hd : Small d) {t : DataType} {c : Container} {k : Bytes} (ht : t ∈ allTypes) (hk : k.length ≤ 40)
    {dest : c.Val t.Val} (hdest : DestOk t c dest) {p : Nat} (hp : p ≤ d.length) (rd : EReader) :
    RWp d fl p (EReader.read env t c k dest (rd, ⟨d, p, fl⟩)) (fun x r p' => r = rd ∧ ∀ v', x = some v' → p' < d.length →
      ∃ b, Spec.TypedBlock fl t c k v' b ∧ Has d p b ∧ p' = p + b.length) True := by
  refine .mono (.onR (readTyped_wp env fl hd hp (allTypes_ok t ht) c k hk dest (.inr trivial))) fun x r p' _ _ h => ⟨h.1, fun v' e hl => ?_⟩
  obtain ⟨v, e2, ho⟩ := h.2 v' e
  rw [readInto_ok hdest] at e2
  subst e2
  exact ho.block (.inl hl)

theorem mem_insertPairs {α : Type} [NodeType α] : ∀ (l : List α) (g : Graph α), g.Valid →
    (insertPairs g l).roots = g.roots ∧ ∀ e, e ∈ (insertPairs g l).edges ↔ e ∈ g.edges ∨ e ∈ Spec.pairs l
  | [], g, h => ⟨rfl, fun e => by simp [insertPairs, Spec.pairs]⟩
  | [_], g, h => ⟨rfl, fun e => by simp [insertPairs, Spec.pairs]⟩
  | a :: b :: rest, g, h => by
    obtain ⟨h1, h2⟩ := mem_insertPairs rest _ (h.insertEdge a b)
    refine ⟨h1, fun e => ?_⟩
    rw [insertPairs, h2, Spec.pairs, List.mem_cons, show (g.insertEdge a b).edges = OrdSet.insert (a, b) g.edges from rfl, OrdSet.mem_insert,
      or_comm (a := e = (a, b)), or_assoc]

theorem graph_found {α : Type} [NodeType α] {st : Stored α} (h : st.Good) (a r s : Bool) (hd : Small d) :
    ReadsFound (graphMF st a r s) (graphSpec st a r s) d fl := by
  intro env fresh v hv _ rd p hp
  refine .bind (baseRead_found (c := .vector) env hd h.mem (by decide) (fun _ => rfl) hp rd) fun x r1 p1 _ g1 hx => ?_
  cases x with
  | none => exact .pure g1 fun v' e => (nomatch e)
  | some roots =>
    refine .bind (baseRead_found (c := .vector) env hd h.mem (by decide) (fun _ => rfl) g1 r1) fun y r2 p2 hle g2 hy => ?_
    cases y with
    | none => exact .pure g2 fun v' e => (nomatch e)
    | some pairs =>
      refine .pure g2 fun v' e hl => ?_
      obtain rfl := Option.some.inj e
      obtain ⟨b1, t1, k1, e1⟩ := hx.2 _ rfl (by omega)
      obtain ⟨b2, t2, k2, e2⟩ := hy.2 _ rfl hl
      subst e1
      have hg := mem_insertPairs (pairs.map st.ofVal) ⟨OrdSet.ofList (roots.map st.ofVal), []⟩ ⟨OrdSet.sorted_ofList _, List.Pairwise.nil⟩
      refine ⟨b1 ++ b2, .graph st h a r s _ roots pairs b1 b2 t1 t2 (fun n => ?_) (fun e => ?_), ?_, ?_⟩
      · rw [hg.1]; exact OrdSet.mem_ofList _ _
      · rw [hg.2]; simp
      · rw [Has.append]; exact ⟨k1, k2⟩
      · rw [List.length_append, e2]; omega

theorem idx_found {t : DataType} (h : t ∈ allTypes) (hd : Small d) : ReadsFound (idxMF t) (idxSpec t) d fl := by
  intro env fresh v _ hv rd p hp
  refine .bind (baseRead_found (c := .idxVector) env hd h (by decide) hv hp rd) fun x r1 p1 _ g1 hx => ?_
  cases x with
  | none => exact .pure g1 fun v' e => (nomatch e)
  | some x =>
    refine .pure g1 fun v' e hl => ?_
    obtain rfl := Option.some.inj e
    obtain ⟨b1, t1, k1, e1⟩ := hx.2 _ rfl hl
    exact ⟨b1, .idx t h _ b1 t1, k1, e1⟩

theorem u16_back {x : u16Type.Val} {i : Nat} (h : BitVec.setWidth 32 (u16Of x) = BitVec.ofNat 32 i) (hi : i < 2 ^ 16) :
    x = u16Val (BitVec.ofNat 16 i) := by
  have e : u16Of x = BitVec.ofNat 16 i := by
    apply BitVec.eq_of_toNat_eq
    have := congrArg BitVec.toNat h
    rw [BitVec.toNat_setWidth, BitVec.toNat_ofNat] at this
    have hx := (u16Of x).isLt
    rw [BitVec.toNat_ofNat]
    omega
  rw [← e]
  apply Vector.ext (xs := (x : Vector (Word 2) 1))
  intro j hj
  obtain rfl : j = 0 := by omega
  rfl

theorem varying_found (hd : Small d) : ReadsFound varyingMF varyingSpec d fl := by
  intro env fresh v hv _ rd p hp
  obtain ⟨v1, e1, hn, -⟩ := deinitialize_ok hv
  have hw1 : varyingSpec.wf v1 := fun o ho => by rw [hn] at ho; cases ho
  show RWp d fl p (Varying.read env v (rd, ⟨d, p, fl⟩)) _ True
  rw [Varying.read]
  refine .bind (.both (W := True) (onVarying_rwp e1 hp rd) (Q := fun _ _ p' => p' = p) ?_) fun x r1 p1 _ g1 hx => ?_
  · unfold onVarying; rw [e1]; exact ⟨p, rfl, Nat.le_refl _, hp, rfl⟩
  obtain ⟨⟨rfl, rfl⟩, rfl⟩ := hx
  dsimp only
  refine .bind (baseRead_found (c := .none) env hd u16_mem (by decide) trivial g1 r1) fun x r2 p2 _ g2 hx => ?_
  cases x with
  | none => exact .pure g2 fun v' e => (nomatch e)
  | some ty =>
    refine .bind (baseRead_found (c := .none) env hd u16_mem (by decide) trivial g2 r2) fun y r3 p3 _ g3 hy => ?_
    cases y with
    | none => exact .pure g3 fun v' e => (nomatch e)
    | some ct =>
      dsimp only
      have hs := setType_any hw1 (BitVec.setWidth 32 (u16Of ty)) (BitVec.setWidth 32 (u16Of ct))
      refine .bind (.both (W := True) (onVarying_rwp hs g3 r3) (Q := fun _ _ p' => p' = p3) ?_) fun x r4 p4 _ g4 hz => ?_
      · unfold onVarying; rw [hs]; exact ⟨p3, rfl, Nat.le_refl _, g3, rfl⟩
      obtain ⟨⟨rfl, rfl⟩, rfl⟩ := hz
      dsimp only
      refine .ite (fun _ => .pure g4 fun v' e => (nomatch e)) fun _ => ?_
      cases ho : newType (BitVec.setWidth 32 (u16Of ty)) (BitVec.setWidth 32 (u16Of ct)) with
      | none => exact .pure g4 fun v' e => (nomatch e)
      | some o =>
        dsimp only
        unfold newType at ho
        obtain ⟨cl, hfind, rfl⟩ := Option.map_eq_some_iff.mp ho
        obtain ⟨i1, i2, i3, i4⟩ := find_ids hfind
        obtain ⟨s1, s2⟩ := ids_small i1 i2
        rw [hfind]
        dsimp only
        rw [if_pos (show DynObj.madeBy _ cl = true from decide_eq_true ⟨rfl, rfl⟩)]
        refine .bind (baseRead_found env hd (typeId_mem i1) (by decide) (destOk_zero _ _) g4 r4) fun x r5 p5 _ g5 hz => ?_
        cases x with
        | none => exact .pure g5 fun v' e => (nomatch e)
        | some x =>
          refine .pure g5 fun v' e hl => ?_
          obtain rfl := Option.some.inj e
          obtain ⟨b1, t1, k1, e1⟩ := hx.2 _ rfl (by omega)
          obtain ⟨b2, t2, k2, e2⟩ := hy.2 _ rfl (by omega)
          obtain ⟨b3, t3, k3, e3⟩ := hz.2 _ rfl hl
          subst e1 e2
          have hty := u16_back i3 s1
          have hct := u16_back i4 s2
          rw [hty] at t1
          rw [hct] at t2
          rw [i3, i4]
          refine ⟨b1 ++ b2 ++ b3, .varying cl.dt cl.ct cl.t cl.c x b1 b2 b3 i1 i2 t1 t2 t3, ?_, ?_⟩
          · rw [Has.append, Has.append, List.length_append, ← Nat.add_assoc]; exact ⟨⟨k1, k2⟩, k3⟩
          · rw [List.length_append, List.length_append, e3]; omega

/-! ## Sections -/

theorem sectHead_length (fl : Bool) (k : Bytes) (n : Nat) : (Spec.sectHead fl k n).length = 10 + k.length := by
  simp only [Spec.sectHead, List.length_append, number_length, List.length_singleton]

theorem LargeHead.sectHead {p : Nat} {k : Bytes} {e p1 : Nat} (h : LargeHead d fl p vtSubsection k e p1) (hl : p1 < d.length) :
    ∃ size, size < 2 ^ 64 ∧ Has d p (Spec.sectHead fl k size) ∧ p1 = p + 10 + k.length ∧ e = wrap64 (p + 9 + size) := by
  rcases h.rest with ⟨size, hsz, h9, hs, he, hp1, hkl, -, hkey⟩ | ⟨-, -, hp1⟩
  · refine ⟨size, hsz, ?_, by omega, he⟩
    rw [Spec.sectHead, Has.append, Has.append, Has.append]
    simp only [List.length_append, number_length, List.length_singleton]
    exact ⟨⟨⟨h.code, hs⟩, hkl (by omega)⟩, hkey (by omega)⟩
  · omega

/-- The variables of an entity: all classes among them are known to be read as found. -/
inductive FieldsFound (d : Bytes) (fl : Bool) : {fs : List Field} → FieldSpecs fs → Prop where
  | nil : FieldsFound d fl .nil
  | base {k t c fs} {rest : FieldSpecs fs} (hk : k.length ≤ 40) (ht : t ∈ allTypes) (h : FieldsFound d fl rest) : FieldsFound d fl (.base k t c rest)
  | sub {k V} {M : Managed V} {S : ClassSpec V} {fs} {rest : FieldSpecs fs} (hk : k.length ≤ 40) (hM : IsClass M S) (hf : ReadsFound M S d fl)
      (h : FieldsFound d fl rest) : FieldsFound d fl (.sub k M S rest)

theorem fields_found (hd : Small d) {fs : List Field} {ss : FieldSpecs fs} (hf : FieldsFound d fl ss)
    (env : REnv) (fresh : Bytes → Nat) (v : FieldsVal fs) (hv : ss.wf v) (hdo : ss.destOk v) (rd : EReader) (p : Nat) (hp : p ≤ d.length) :
    RWp d fl p (fieldsRead env fresh fs v (rd, ⟨d, p, fl⟩)) (fun r _ p' => ∀ v', r = some v' → p' < d.length →
      (rd.activeSubsection ≠ none → Spec.noSections fs = true) ∧ ∃ b, StandFields true fl ss v' b ∧ Has d p b ∧ p' = p + b.length) True := by
  match fs, ss, hf, v with
  | _, _, .nil, v =>
    rw [fieldsRead]
    exact .pure hp fun v' e hl => ⟨fun _ => rfl, [], .nil, Has.nil hp, rfl⟩
  | _, _, @FieldsFound.base _ _ k t c fs rest hk ht h, v =>
    rw [fieldsRead]
    refine .bind (baseRead_found env hd ht hk hdo.1 hp rd) fun x r1 p1 _ g1 hx => ?_
    cases x with
    | none => exact .pure g1 fun v' e => (nomatch e)
    | some x =>
      refine .bind (fields_found hd h env fresh v.2 hv hdo.2 r1 p1 g1) fun y r2 p2 _ g2 hy => ?_
      cases y with
      | none => exact .pure g2 fun v' e => (nomatch e)
      | some y =>
        refine .pure g2 fun v' e hl => ?_
        obtain rfl := Option.some.inj e
        obtain ⟨rfl, hx⟩ := hx
        obtain ⟨b1, t1, k1, e1⟩ := hx _ rfl (by omega)
        obtain ⟨hn, b2, t2, k2, e2⟩ := hy _ rfl hl
        subst e1
        refine ⟨hn, b1 ++ b2, .base k hk t ht c rest x y b1 b2 t1 t2, ?_, ?_⟩
        · rw [Has.append]; exact ⟨k1, k2⟩
        · rw [List.length_append, e2]; omega
  | _, _, @FieldsFound.sub _ _ k V M S fs rest hk hM hfM h, v =>
    rw [fieldsRead]
    refine .bind (.both (W := False) (beginSection_post env hd hp (fresh k) hk false).weaken (beginSection_rwp env hd hp _ k hk)) fun x r1 p1 _ g1 hx => ?_
    obtain ⟨ptr, b⟩ := x
    cases b with
    | false => cases ptr <;> exact .pure g1 fun v' e => (nomatch e)
    | true =>
      obtain ⟨hx, hx2⟩ := hx
      obtain ⟨rfl, -⟩ := hx2 rfl
      rcases hx with ⟨hx, -⟩ | ⟨-, hnone, ep, rfl, hne, hhead⟩
      · exact nomatch hx
      dsimp only
      refine .bind (.inSub rfl (.keeps (hM.read_keeps env fresh v.1) (hfM env fresh _ hv.1 hdo.1 _ p1 g1))) fun x r2 p2 _ g2 hx => ?_
      obtain ⟨r3, rfl, hx, hadr, hend⟩ := hx
      cases x with
      | none => exact .pure g2 fun v' e => (nomatch e)
      | some x =>
        refine .bind (endSection_post g2 (.inl rfl)).weaken fun b r4 p4 _ g4 hb => ?_
        obtain ⟨rfl, hb⟩ := hb
        refine .bind (fields_found hd h env fresh v.2 hv.2 hdo.2 r4 p4 g4) fun y r5 p5 _ g5 hy => ?_
        cases y with
        | none => exact .pure g5 fun v' e => (nomatch e)
        | some y =>
          refine .pure g5 fun v' e hl => ?_
          obtain rfl := Option.some.inj e
          obtain ⟨b1, t1, k1, e1⟩ := hx _ rfl (by omega)
          obtain ⟨hn, b2, t2, k2, e2⟩ := hy _ rfl hl
          obtain ⟨size, hsz, hh, hp1, he⟩ := hhead.sectHead (by omega)
          refine ⟨fun hc => absurd hnone hc, Spec.sectHead fl k size ++ b1 ++ b2, .sub k hk M S rest x y size b1 b2 hsz ?_ t1 t2, ?_, ?_⟩
          · rcases hb with ⟨-, rfl⟩ | ⟨-, sub, hs1, hs2, -⟩
            · exact .inr ⟨rfl, hn (by simp)⟩
            · obtain rfl := Option.some.inj hs1
              have h1 : ep = p4 := hend.symm.trans hs2
              left
              refine ⟨fun hc => hne ?_, ?_⟩
              · rw [h1, e1, hc]; rfl
              · have : p4 < 2 ^ 60 := Nat.lt_of_le_of_lt g4 hd
                rw [wrap64] at he
                omega
          · rw [Has.append, Has.append, List.length_append, sectHead_length]
            refine ⟨⟨hh, ?_⟩, ?_⟩
            · rw [show p + (10 + k.length) = p1 by omega]; exact k1
            · rw [show p + (10 + k.length + b1.length) = p4 by omega]; exact k2
          · rw [List.length_append, List.length_append, sectHead_length]; omega

/-! ## Tables -/

theorem element_length (fl : Bool) (b : Bytes) : (Spec.element fl b).length = 8 + b.length := by
  simp only [Spec.element, List.length_append, number_length]

theorem beginElement_found (hd : Small d) {p : Nat} (hp : p ≤ d.length) (ptr : Option Nat) (i : Nat) (rd : EReader) :
    RWp d fl p (beginReadSectionInArray ptr i true (rd, ⟨d, p, fl⟩)) fun x r p1 => x.1 = true → r.activeSubsection = rd.activeSubsection ∧
      rd.subPtr = ptr ∧ ∃ size, NumRead d fl p 8 size p1 ∧ x.2 = (size != 0) ∧ r.activeEndPos = wrap64 (p1 + size) := by
  rw [beginReadSectionInArray]
  refine .get (.ite (fun _ => .pure hp nofun) fun h => .ite (fun _ => .pure hp nofun) fun _ =>
    .ite (fun _ => .pure hp nofun) fun _ => ?_)
  refine .bind (.onR (u64_wp fl hd hp)) fun size r p1 h1 h2 h3 => ?_
  obtain ⟨rfl, h3⟩ := h3
  refine .bind (P := fun _ r' p' => p' = p1 ∧ r'.activeSubsection = r.activeSubsection ∧ r'.activeEndPos = wrap64 (p1 + size))
    ⟨p1, rfl, Nat.le_refl _, h2, rfl, rfl, rfl⟩ fun _ r' p2 h4 h5 h6 => ?_
  obtain ⟨rfl, h6, h7⟩ := h6
  refine .ite (fun hw => absurd hw (by decide)) fun _ => .pure h5 fun _ => ⟨h6, Decidable.byContradiction h, size, h3, rfl, h7⟩

theorem endElement_found {p : Nat} (hp : p ≤ d.length) (ptr : Option Nat) (i : Nat) (rd : EReader) :
    RWp d fl p (endReadSectionInArray ptr i (rd, ⟨d, p, fl⟩)) fun b r p' => r = rd ∧ p' = p ∧ (b = true → p = rd.activeEndPos) := by
  rw [endReadSectionInArray]
  exact .get (.ite (fun _ => .pure hp ⟨rfl, rfl, nofun⟩) fun _ => .ite (fun _ => .pure hp ⟨rfl, rfl, nofun⟩) fun h =>
    .pure hp ⟨rfl, rfl, fun _ => Decidable.byContradiction h⟩)

theorem NumRead.element {p size p1 : Nat} (h : NumRead d fl p 8 size p1) {b : Bytes} (hb : Has d p1 b) {p2 : Nat} (h2 : p2 = p1 + b.length)
    (he : p2 = wrap64 (p1 + size)) (hd : Small d) (hl : p2 < d.length) :
    size = b.length ∧ Has d p (Spec.element fl b) ∧ p2 = p + (Spec.element fl b).length := by
  have hf : p + 8 ≤ d.length := by
    apply Decidable.byContradiction
    intro hc
    have := h.cut (by omega)
    omega
  obtain ⟨e, hs⟩ := h.full hf
  subst e
  have : d.length < 2 ^ 60 := hd
  have hlt := h.lt
  have hsz : size = b.length := by
    rw [wrap64] at he
    omega
  subst hsz
  refine ⟨rfl, ?_, by rw [element_length]; omega⟩
  rw [Spec.element, Has.append, number_length]
  exact ⟨hs, hb⟩

section table

variable {K V : Type} [DecidableEq K] {M : Managed V} {S : ClassSpec V}

theorem readLoop_found (hM : ReadsFound M S d fl) (hk : ∀ env fresh v, KeepsReader (M.read env fresh v)) (hi : S.wf M.init) (ho : S.destOk M.init)
    (hd : Small d) (env : REnv) (fresh : Bytes → Nat) (ord : TableOrder (K × Option V)) (a E : Nat) :
    ∀ (ks : List K) (i : Nat) (t : Table K V), (t.map Prod.fst).Nodup → ∀ (rd : EReader) (p : Nat), p ≤ d.length →
      (∃ sub, rd.activeSubsection = some sub ∧ sub.endPosition = E) →
      RWp d fl p (tableReadLoop M ord env fresh (some a) i ks t (rd, ⟨d, p, fl⟩)) (fun r r' p' => ∀ t', r = some t' →
        (∃ sub, r'.activeSubsection = some sub ∧ sub.endPosition = E) ∧ (t'.map Prod.fst).Nodup ∧
        (p' < d.length → ∃ us bs, us.length = ks.length ∧ t'.Perm (t ++ ks.zip us) ∧ StandElems true fl M S us bs ∧ Has d p bs ∧ p' = p + bs.length)) True
  | [], i, t, ht, rd, p, hp, hs => by
    rw [tableReadLoop]
    refine .pure hp fun t' e => ?_
    obtain rfl := Option.some.inj e
    exact ⟨hs, ht, fun _ => ⟨[], [], rfl, by simp, .nil M S, Has.nil hp, rfl⟩⟩
  | k :: ks, i, t, ht, rd, p, hp, hs => by
    rw [tableReadLoop]
    refine .bind (beginElement_found hd hp (some a) i rd).weaken fun x r1 p1 _ g1 hx => ?_
    obtain ⟨ok, hasData⟩ := x
    dsimp only at hx ⊢
    refine .ite (fun _ => .pure g1 fun t' e => (nomatch e)) fun hok => .ite (fun _ => .pure g1 fun t' e => (nomatch e)) fun hk' => ?_
    obtain ⟨hsub, -, size, hn, rfl, hend⟩ := hx (by simpa using hok)
    rw [← hsub] at hs
    obtain ⟨sub, hsub, hE⟩ := hs
    have hf : t.find k = none := by
      cases e : t.find k with
      | none => rfl
      | some y => rw [e] at hk'; exact absurd rfl hk'
    have hnd : ∀ x, ((t.emplace ord k x).1.map Prod.fst).Nodup := by
      intro x
      rw [emplace_new hf, ((ord.perm t (k, x)).map Prod.fst).nodup_iff, List.map_cons, List.nodup_cons]
      exact ⟨(find_none k).mp hf, ht⟩
    have hpe : ∀ x us, ((t.emplace ord k x).1 ++ ks.zip us).Perm (t ++ (k :: ks).zip (x :: us)) := by
      intro x us
      rw [emplace_new hf, List.zip_cons_cons]
      exact ((ord.perm t (k, x)).append_right _).trans List.perm_middle.symm
    refine .ite (fun hz => ?_) fun hz => ?_
    · refine .bind (.inSub hsub (.keeps (hk env fresh _) (hM env fresh _ hi ho sub p1 g1))) fun x r2 p2 _ g2 hx => ?_
      obtain ⟨r3, rfl, hx, -, hend3⟩ := hx
      cases x with
      | none => exact .pure g2 fun t' e => (nomatch e)
      | some v =>
        refine .bind (endElement_found g2 _ _ _).weaken fun b r4 p4 _ g4 hb => ?_
        obtain ⟨rfl, rfl, hb⟩ := hb
        refine .ite (fun _ => .pure g4 fun t' e => (nomatch e)) fun hbt => ?_
        refine .mono (readLoop_found hM hk hi ho hd env fresh ord a E ks (i + 1) _ (hnd (some v)) _ _ g4 ⟨r3, rfl, hend3.trans hE⟩) fun r r' p' g5 _ h t' e => ?_
        obtain ⟨h1, h2, h3⟩ := h t' e
        refine ⟨h1, h2, fun hl => ?_⟩
        obtain ⟨us, bs, h4, h5, h6, h7, h8⟩ := h3 hl
        obtain ⟨b1, t1, k1, e1⟩ := hx v rfl (by omega)
        obtain ⟨s1, s2, s3⟩ := hn.element k1 e1 ((hb (by simpa using hbt)).trans hend) hd (by omega)
        refine ⟨some v :: us, Spec.element fl b1 ++ bs, by simp [h4], h5.trans (hpe _ _), .value M S v us b1 bs t1 (fun hc => ?_) h6, ?_, ?_⟩
        · subst hc; rw [List.length_nil] at s1; rw [s1] at hz; exact absurd hz (by decide)
        · rw [Has.append, ← s3]; exact ⟨s2, h7⟩
        · rw [List.length_append, h8, s3]; omega
    · refine .bind (endElement_found g1 _ _ _).weaken fun b r4 p4 _ g4 hb => ?_
      obtain ⟨rfl, rfl, hb⟩ := hb
      refine .ite (fun _ => .pure g4 fun t' e => (nomatch e)) fun hbt => ?_
      refine .mono (readLoop_found hM hk hi ho hd env fresh ord a E ks (i + 1) _ (hnd none) _ _ g4 ⟨sub, hsub, hE⟩) fun r r' p' g5 _ h t' e => ?_
      obtain ⟨h1, h2, h3⟩ := h t' e
      refine ⟨h1, h2, fun hl => ?_⟩
      obtain ⟨us, bs, h4, h5, h6, h7, h8⟩ := h3 hl
      obtain ⟨s1, s2, s3⟩ := hn.element (b := []) (Has.nil g4) (show p4 = p4 + 0 from rfl) ((hb (by simpa using hbt)).trans hend) hd (by omega)
      refine ⟨none :: us, Spec.element fl [] ++ bs, by simp [h4], h5.trans (hpe _ _), .null M S us bs h6, ?_, ?_⟩
      · rw [Has.append, ← s3]; exact ⟨s2, h7⟩
      · rw [List.length_append, h8, ← Nat.add_assoc, ← s3]

/-- All there is to know after `BeginReadSectionsArray` for an array without index. -/
theorem beginArray_found (env : REnv) (hd : Small d) {p : Nat} (hp : p ≤ d.length) (fresh : Nat) {key : Bytes} (hk : key.length ≤ 40) (rd : EReader) :
    RWp d fl p (beginReadSectionsArray env fresh key false false (rd, ⟨d, p, fl⟩)) fun x r p1 => x.2.2.1 = true →
      x.1 = some fresh ∧ ∃ e p0 per idx, r.activeSubsection = some (EReader.create fresh e) ∧ e ≠ p0 ∧ LargeHead d fl p vtArraySubsection key e p0 ∧
        MetaRead d fl p0 false per x.2.1 idx p1 := by
  rw [beginReadSectionsArray]
  refine .get (.ite (fun _ => .pure hp nofun) fun hn => ?_)
  refine .bind (.onR (beginLarge_wp env fl hd hp vtArraySubsection (by decide) key hk)) fun e r p1 h1 h2 h3 => ?_
  obtain ⟨rfl, h3⟩ := h3
  refine .ite (fun _ => .pure h2 nofun) fun h0 => .get (.ite (fun _ => ?_) fun hne => ?_)
  · refine .bind (.onR (emptyLarge_wp h2 false e)) fun st r' p2 h4 h5 h6 => ?_
    obtain ⟨rfl, h6⟩ := h6
    obtain rfl := h6 rfl
    exact .pure h5 nofun
  · refine .bind (.metaR (meta_wp env fl hd h2 e false)) fun m r' p2 h4 h5 h6 => ?_
    obtain ⟨⟨n, rfl, hn⟩, h6⟩ := h6
    cases m with
    | none => exact .pure h5 nofun
    | some m =>
      obtain ⟨k, count, idx⟩ := m
      obtain rfl := hn _ _ _ rfl
      exact ⟨p2, rfl, Nat.le_refl _, h5, fun _ => ⟨rfl, e, p1, k, idx, rfl, hne, h3 h0, h6 _ _ _ rfl⟩⟩

theorem table_found {st : Stored K} (h : st.Good) (hM0 : IsClass M S) (hM : ReadsFound M S d fl) (hkp : ∀ env fresh v, KeepsReader (M.read env fresh v)) (hi : S.wf M.init)
    (ho : S.destOk M.init) (zk ne : Bool) (ord : TableOrder (K × Option V)) (hd : Small d) :
    ReadsFound (tableMF st M zk ne ord) (tableSpec st S zk ne) d fl := by
  intro env fresh v hv hdo rd p hp
  refine .bind (baseRead_found (c := .vector) env hd h.mem (by decide) (destOk_zero _ _) hp rd) fun x r1 p1 _ g1 hx => ?_
  cases x with
  | none => exact .pure g1 fun v' e => (nomatch e)
  | some keys =>
    obtain ⟨rfl, hx⟩ := hx
    refine .bind (beginArray_found env hd g1 _ (by decide) _).weaken fun x r2 p2 _ g2 hy => ?_
    obtain ⟨ptr, count, b, idx⟩ := x
    cases b with
    | false => exact .pure g2 fun v' e => (nomatch e)
    | true =>
      obtain ⟨rfl, e, p0, per, idx', hsub, hne, hhead, hmeta⟩ := hy rfl
      dsimp only at hmeta ⊢
      refine .ite (fun _ => .pure g2 fun v' e => (nomatch e)) fun hc => ?_
      have hc : count = keys.length := Decidable.byContradiction hc
      refine .bind (readLoop_found hM hkp hi ho hd env fresh ord _ e _ 0 [] List.nodup_nil r2 p2 g2 ⟨_, hsub, rfl⟩) fun x r3 p3 _ g3 hz => ?_
      cases x with
      | none => exact .pure g3 fun v' e => (nomatch e)
      | some t =>
        obtain ⟨⟨sub, hsub3, hE⟩, hnd, hz⟩ := hz t rfl
        refine .bind (endArray_post g3 (.inl rfl)).weaken fun b r4 p4 _ g4 hb => ?_
        obtain ⟨rfl, hb⟩ := hb
        refine .ite (fun _ => .pure g4 fun v' e => (nomatch e)) fun hbt => .pure g4 fun v' hv' hl => ?_
        obtain rfl := Option.some.inj hv'
        rcases hb with ⟨hb, -⟩ | ⟨-, -, sub', hs', hend, -⟩
        · subst hb; exact absurd rfl hbt
        rw [hsub3] at hs'
        obtain rfl := Option.some.inj hs'
        obtain ⟨us, bs, h4, h5, h6, h7, h8⟩ := hz hl
        obtain ⟨b1, t1, k1, e1⟩ := hx _ rfl (by omega)
        obtain ⟨flags, f1, f2, f3, -, f4, f5⟩ := hmeta.header
        rw [if_neg (by decide)] at f4 f5
        have hep : p4 = e := hend.symm.trans hE
        obtain ⟨q1, q2⟩ := hhead.block hd (Spec.looseHeader fl flags count none ++ bs) (by rw [Has.append, ← f5]; exact ⟨f4, h7⟩)
          (by rw [List.length_append]; omega) (.inr (by omega))
        rw [List.nil_append] at h5
        have hfst : ((keys.map st.ofVal).zip us).map Prod.fst = keys.map st.ofVal := List.map_fst_zip (by omega)
        have hsnd : ((keys.map st.ofVal).zip us).map Prod.snd = us := List.map_snd_zip (by omega)
        have hlen : ((keys.map st.ofVal).zip us).length = count := by rw [List.length_zip, h4, List.length_map]; omega
        refine ⟨b1 ++ Spec.largeBlock fl 0xd1 (key "Entities") (Spec.looseHeader fl flags count none ++ bs), ?_, ?_, ?_⟩
        · rw [← hlen]
          refine .table st h M S hM0 zk ne ord t _ keys flags b1 bs h5 hfst ?_ t1 f1 f2 f3 (by rw [hsnd]; exact h6)
          exact (h5.map Prod.fst).nodup_iff.mp hnd
        · rw [Has.append, ← e1]; exact ⟨k1, q1⟩
        · rw [List.length_append, hep, q2, e1, Nat.add_assoc]; rfl

end table

mutual
  theorem IsClass.found (hd : Small d) : ∀ {V : Type} {M : Managed V} {S : ClassSpec V}, IsClass M S → ReadsFound M S d fl
    | _, _, _, @IsClass.graph _ _ st h a r s => graph_found h a r s hd
    | _, _, _, .idx t h => idx_found h hd
    | _, _, _, .varying => varying_found hd
    | _, _, _, @IsClass.table _ _ _ st h _ _ hM zk ne ord =>
      table_found h hM (hM.found hd) (fun env fresh v => hM.read_keeps env fresh v) hM.lawful.init_wf hM.lawful.init_dest zk ne ord hd
    | _, _, _, .entity ss h hne => fun env fresh v hv hdo rd p hp =>
      .mono (fields_found hd (h.found hd) env fresh v hv hdo rd p hp) fun r r' p' _ _ h v' e hl =>
        let ⟨b, h1, h2, h3⟩ := (h v' e hl).2
        ⟨b, .entity ss v' b h1, h2, h3⟩
  theorem AreFields.found (hd : Small d) : ∀ {fs : List Field} {ss : FieldSpecs fs}, AreFields ss → FieldsFound d fl ss
    | _, _, .nil => .nil
    | _, _, .base hk ht h => .base hk ht (h.found hd)
    | _, _, .sub hk hM h => .sub hk hM (hM.found hd) (h.found hd)
end

end

end ISD
