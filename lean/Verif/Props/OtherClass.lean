import Verif.Props.Exact
import Verif.Props.HostileEntity
import Verif.Props.SectionEnds
import Verif.Props.Entities

/-!
# C91: an object stored by one class and read by another
-/

namespace ISD

open RStream

attribute [local irreducible] dynTable DynClass.all findTypeClass

/-! ## What the claim says -/

/-- What the stored value `v0` of a variable with key `k0`, type `t0` and container `c0` has in common with a variable with key `k`, type `t` and container `c`. -/
structure SameVariable (k : Bytes) (t : DataType) (c : Container) (k0 : Bytes) (t0 : DataType) (c0 : Container) (v0 : c0.Val t0.Val) (followed : Prop) : Prop where
  /-- The names are the same. -/
  name : k = k0
  /-- The types are of one family (integers, floats, bools, strings, ids...). -/
  family : t.vt = t0.vt
  /-- Both are single values or both are vectors. -/
  shape : c.isArray = c0.isArray
  /-- An absent value is only read into a variable that may be absent. -/
  absent : present c0 v0 = false → c.mayBeAbsent = true
  /-- A value that is there has scalars of the same width, and as many of them. -/
  width : present c0 v0 = true → t.kind = t0.kind
  /-- And it has an index if the variable has one (for vectors of strings only checked if something follows). -/
  index : present c0 v0 = true → t.kind ≠ .string ∨ followed → c.hasIndex = c0.hasIndex

/-- One of the variables is of a managed class. -/
def HasManaged (gs : List Field) : Prop := ∃ k V M, Field.sub k V M ∈ gs

/-- The variables `gs` agree with the stored variables `fs`, one by one; `more` if something follows the stored object. Behind the last variable of a managed class
nothing is claimed: the generated `Read` does not look at the result of `EndReadSection`. -/
def ClassesAgree (more : Prop) : (gs fs : List Field) → FieldsVal fs → Prop
  | [], _, _ => True
  | _ :: _, [], _ => more
  | .base k t c :: gs, .base k0 t0 c0 :: fs, v => SameVariable k t c k0 t0 c0 v.1 (more ∨ fs ≠ []) ∧ ClassesAgree more gs fs v.2
  | .sub k _ _ :: gs, .sub k0 _ _ :: fs, v => k = k0 ∧ (HasManaged gs → ClassesAgree more gs fs v.2)
  | .base .. :: _, .sub .. :: _, _ => False
  | .sub .. :: _, .base .. :: _, _ => False

/-- No name of a variable of a base type in `gs` is a proper suffix of the name of one stored in a small block, or the other way round. (Without that the claim is
false already for a single variable: `C17_false_width`.) -/
def NoSuffix (gs fs : List Field) : Prop :=
  ∀ k t c, Field.base k t c ∈ gs → ∀ k0 t0 c0, Field.base k0 t0 c0 ∈ fs → isSmall t0 c0 = true → k <:+ k0 ∨ k0 <:+ k → k = k0

/-! ## Single calls -/

theorem begins_with_code (env : REnv) {t : DataType} (ht : t ∈ allTypes) {c : Container} {key : Bytes} (hk : key.length ≤ 40)
    {dest : c.Val t.Val} {fl : Bool} {d : Bytes} (hd : d.length < 2 ^ 60) {p : Nat} (hp : p ≤ d.length)
    {v' : c.Val t.Val} {s' : RStream} (h : readTyped env t c key dest ⟨d, p, fl⟩ = .ok (some v') s') : Has d p [UInt8.ofNat (blockCode t c)] := by
  have hok := allTypes_ok t ht
  obtain ⟨-, -, h3, h4⟩ := (readTyped_wp env fl hd hp hok c key hk dest (.inr trivial)).result h
  obtain ⟨v, e, ho⟩ := h4 v' rfl
  cases hs : isSmall t c with
  | true =>
    obtain ⟨block, hb, hh, -⟩ := ho.block (Or.inr (Or.inl hs))
    obtain ⟨value, rfl, -, -⟩ := smallTyped_size hok hs hb; exact hh.small.1
  | false =>
    cases hp : present c v with
    | true => obtain ⟨payload, -, hh, -⟩ := ho.full hs hp; exact hh.large.1
    | false => exact (ho.absent hs hp).code

theorem written_code {t0 : DataType} (ht0 : t0 ∈ allTypes) {c0 : Container} {key0 : Bytes} {v0 : c0.Val t0.Val} {fl : Bool} {d : Bytes} (hd : d.length < 2 ^ 60)
    {p : Nat} (h0 : Has d p (Spec.typed fl t0 c0 key0 v0)) : Has d p [UInt8.ofNat (blockCode t0 c0)] := by
  have hok0 := allTypes_ok t0 ht0
  have hlen0 := h0.len
  have hb0 := typed_isBlock hok0 fl c0 key0 v0 (by omega)
  generalize Spec.typed fl t0 c0 key0 v0 = block0 at *
  cases hs0 : isSmall t0 c0 with
  | true => obtain ⟨value, rfl, -, -⟩ := smallTyped_size hok0 hs0 hb0; exact h0.small.1
  | false => obtain ⟨payload, rfl, -⟩ := largeTyped hok0 hs0 hb0; exact h0.large.1

theorem code_not_section : ∀ t ∈ allTypes, ∀ c, blockCode t c ≠ 0xd0 := by
  have h : ∀ t ∈ allTypes, t.vt ≠ 0xd0 ∧ t.avt ≠ 0xd0 := by decide +kernel
  intro t ht c
  cases c
  · exact (h t ht).1
  · exact (h t ht).1
  · exact (h t ht).2
  · exact (h t ht).2
  · exact (h t ht).2
  · exact (h t ht).2

/-- Reading a variable of a base type where a variable of a base type is stored. -/
theorem base_on_base (env : REnv) {t : DataType} (ht : t ∈ allTypes) {c : Container} {k : Bytes} (hk : k.length ≤ 40) {dest x : c.Val t.Val}
    {t0 : DataType} (ht0 : t0 ∈ allTypes) {c0 : Container} {k0 : Bytes} (hk0 : k0.length ≤ 40) {v0 : c0.Val t0.Val} {fl : Bool} {d : Bytes} (hd : d.length < 2 ^ 60)
    {p : Nat} (h0 : Has d p (Spec.typed fl t0 c0 k0 v0)) (hsuf : isSmall t0 c0 = true → k <:+ k0 ∨ k0 <:+ k → k = k0)
    {s' : RStream} (h : readTyped env t c k dest ⟨d, p, fl⟩ = .ok (some x) s') {followed : Prop}
    (hf : followed → p + (Spec.typed fl t0 c0 k0 v0).length < d.length) :
    SameVariable k t c k0 t0 c0 v0 followed ∧ s' = ⟨d, p + (Spec.typed fl t0 c0 k0 v0).length, fl⟩ := by
  have hlen := h0.len
  obtain ⟨v, -, h1, h2, h3, h4, h5⟩ := C17_core env t ht c k hk dest t0 ht0 c0 k0 hk0 v0 fl d hd p h0 hsuf x s' h
  refine ⟨⟨h1, h2, h3, fun hp => ?_, fun hp => (h5 (h4.trans hp)).1, fun hp hx => (h5 (h4.trans hp)).2 (hx.imp_right hf)⟩, ?_⟩
  · rw [hp] at h4
    cases c <;> first | rfl | cases h4
  · obtain ⟨e1, e2, -, w, -, hpos⟩ := C20_success_consumes_declared_block env t ht c k hk dest d hd p (by omega) fl x s' h
    obtain ⟨data, pos, flip⟩ := s'
    dsimp only at e1 e2 hpos
    subst e1 e2
    obtain ⟨pre, post, rfl, rfl⟩ := h0
    have hs := skip_typed flip t0 (allTypes_ok t0 ht0) c0 k0 hk0 v0 post (by omega)
    rcases hpos with ⟨n, hn, rfl⟩ | ⟨hkey, hsm, hpr, h9, -⟩
    · rw [List.append_assoc, List.drop_left, hs] at hn
      cases hn; rfl
    · exfalso
      have hc := accepted_code env t ht c k hk dest t0 ht0 c0 k0 v0 flip _ hd pre.length ⟨pre, post, rfl, rfl⟩ x _ h
      have hsm0 := (codes t t0 ht ht0 c c0 hc).2.2
      rw [hsm] at hsm0
      obtain ⟨payload, he, -⟩ := largeTyped (allTypes_ok t0 ht0) hsm0.symm (typed_isBlock (allTypes_ok t0 ht0) flip c0 k0 v0 (by omega))
      have hl2 := congrArg List.length he
      rw [largeBlock_length] at hl2
      omega

/-- A variable of a base type is not read where a section is stored. -/
theorem base_on_section (env : REnv) {t : DataType} (ht : t ∈ allTypes) {c : Container} {k : Bytes} (hk : k.length ≤ 40) {dest x : c.Val t.Val}
    {k0 body : Bytes} {fl : Bool} {d : Bytes} (hd : d.length < 2 ^ 60) {p : Nat} (h0 : Has d p (Spec.sect fl k0 body))
    {s' : RStream} (h : readTyped env t c k dest ⟨d, p, fl⟩ = .ok (some x) s') : False := by
  have hlen := h0.len
  exact code_not_section t ht c (code_unique (begins_with_code env ht hk hd (by omega) h) (Has.large h0).1 (blockCode_lt (allTypes_ok t ht) c) (by decide))

/-- Nothing is read at the end. -/
theorem base_at_end (env : REnv) {t : DataType} (ht : t ∈ allTypes) {c : Container} {k : Bytes} (hk : k.length ≤ 40) {dest x : c.Val t.Val}
    {fl : Bool} {d : Bytes} (hd : d.length < 2 ^ 60) {s' : RStream} (h : readTyped env t c k dest ⟨d, d.length, fl⟩ = .ok (some x) s') : False := by
  have := (begins_with_code env ht hk hd (Nat.le_refl _) h).len
  simp only [List.length_singleton] at this
  omega

/-- What `BeginReadSection` tells about the bytes. -/
theorem begin_section_inv {env : REnv} {fresh : Nat} {k : Bytes} (hk : k.length ≤ 40) {rd : EReader} {d : Bytes} {p : Nat} {fl : Bool} (hd : d.length < 2 ^ 60)
    (hp : p ≤ d.length) {a : Nat} {st' : RSt} (h : beginReadSection env fresh k false (rd, ⟨d, p, fl⟩) = .ok (some a, true) st') :
    rd.activeSubsection = none ∧ ∃ e p1, LargeHead d fl p 0xd0 k e p1 ∧ e ≠ p1 ∧ st' = ({ rd with activeSubsection := some (EReader.create a e) }, ⟨d, p1, fl⟩) ∧
      p1 ≤ d.length := by
  rw [beginReadSection, Prog.bind_ok (Prog.get_apply _)] at h
  split at h
  · cases h
  · rename_i hn
    obtain ⟨e, s1, h1, h2⟩ := Prog.bind_eq_ok h
    have hw := RWp.onR (rd := rd) (beginLarge_wp env fl hd hp vtSubsection (by decide) k hk)
    rw [h1] at hw
    obtain ⟨r1, s1⟩ := s1
    obtain ⟨p1, e1, hp1, hp2, e2, hw⟩ := hw
    dsimp only at e1 e2
    subst e1 e2
    split at h2
    · cases h2
    · rename_i he
      rw [Prog.bind_ok (Prog.get_apply _)] at h2
      split at h2
      · obtain ⟨x, s2, h3, h4⟩ := Prog.bind_eq_ok h2
        cases x <;> cases h4
      · rename_i hne
        cases h2
        exact ⟨by cases hx : r1.activeSubsection <;> simp_all, e, p1, hw he, hne, rfl, hp2⟩

/-- `BeginReadSection` where a section is stored. -/
theorem head_on_section {d : Bytes} {fl : Bool} {p : Nat} {k : Bytes} {e p1 : Nat} (hd : d.length < 2 ^ 60) (hk : k.length ≤ 40)
    (h : LargeHead d fl p 0xd0 k e p1) {k0 body : Bytes} (hk0 : k0.length ≤ 40) (h0 : Has d p (Spec.sect fl k0 body)) :
    k = k0 ∧ e = p + (Spec.sect fl k0 body).length := by
  have hlen := h0.len
  obtain ⟨b1, b2, b3, b4, b5⟩ := Has.large h0
  rw [Spec.sect, largeBlock_length] at hlen ⊢
  rcases h.rest with ⟨size, hsz, h9, hsize, he, hp1, hkl, -, hkey⟩ | ⟨hc, -⟩
  · have hkk : k.length = k0.length := code_unique (hkl (by omega)) b3 (by omega) (by omega)
    have hk' : k = k0 := (hkey (by omega)).unique b4 hkk
    have hn := number_inj fl 8 (by omega) (by omega) (hsize.unique b2 (by simp))
    refine ⟨hk', ?_⟩
    rw [wrap64] at he
    omega
  · omega

theorem typed_not_empty (fl : Bool) (t : DataType) (c : Container) (k : Bytes) (v : c.Val t.Val) : 0 < (Spec.typed fl t c k v).length := by
  obtain ⟨nm, vt, avt, kind, ov⟩ := t
  have h1 : ∀ v : Option (Kind.Val kind), 0 < (Spec.single fl ⟨nm, vt, avt, kind, ov⟩ k v).length := by
    intro v
    cases kind <;> cases v <;> simp [Spec.single, Spec.smallBlock, Spec.largeBlock]
  have h2 : ∀ (l : Option (List (Kind.Val kind))) i, 0 < (Spec.array fl ⟨nm, vt, avt, kind, ov⟩ k l i).length := by
    intro l i
    cases kind <;> cases l <;> simp [Spec.array, Spec.largeBlock]
  cases c
  · exact h1 _
  · exact h1 _
  · exact h2 _ _
  · exact h2 _ _
  · exact h2 _ _
  · exact h2 _ _

theorem fields_nonempty {fs : List Field} (ss : FieldSpecs fs) (v : FieldsVal fs) (fl : Bool) (h : fs ≠ []) : 0 < ((ss.nodes v).bytes fl).length := by
  cases ss with
  | nil => exact absurd rfl h
  | base k t c rest =>
    have := typed_not_empty fl t c k v.1
    simp only [FieldSpecs.nodes, Nodes.bytes, Node.bytes, List.length_append]
    omega
  | sub k M S rest =>
    simp only [FieldSpecs.nodes, Nodes.bytes, Node.bytes, List.length_append, Spec.sect, largeBlock_length]
    omega

/-- An open section: no other one is read. -/
theorem open_no_managed (env : REnv) (fresh : Bytes → Nat) : ∀ (gs : List Field) (v : FieldsVal gs) (st st' : RSt) (a : FieldsVal gs), st.1.activeSubsection ≠ none →
    fieldsRead env fresh gs v st = .ok (some a) st' → ¬ HasManaged gs
  | [], v, st, st', a, hn, h => by rintro ⟨k, V, M, hm⟩; cases hm
  | .base k t c :: gs, v, st, st', a, hn, h => by
    rw [fieldsRead] at h
    obtain ⟨x, s1, h1, h2⟩ := Prog.bind_eq_ok h
    have hs : s1.1 = st.1 := by
      unfold EReader.read onRStream at h1
      split at h1
      · cases h1; rfl
      · cases h1
      · cases h1
    cases x with
    | none => cases h2
    | some x =>
      obtain ⟨y, s2, h3, h4⟩ := Prog.bind_eq_ok h2
      cases y with
      | none => cases h4
      | some y =>
        have ih := open_no_managed env fresh gs v.2 s1 s2 y (by rw [hs]; exact hn) h3
        rintro ⟨k', V, M, hm⟩
        rcases List.mem_cons.mp hm with e | hm
        · cases e
        · exact ih ⟨k', V, M, hm⟩
  | .sub k V M :: gs, v, st, st', a, hn, h => by
    rw [fieldsRead] at h
    have hb : beginReadSection env (fresh k) k false st = .ok (none, false) st := by
      rw [beginReadSection, Prog.bind_ok (Prog.get_apply _), if_pos (by cases e : st.1.activeSubsection <;> simp_all)]
      rfl
    rw [Prog.bind_ok hb] at h
    cases h

/-! ## C91 -/

theorem C91_core (env : REnv) (fresh : Bytes → Nat) {d : Bytes} {fl : Bool} (hd : d.length < 2 ^ 60) {more : Prop} :
    ∀ {gs : List Field} {ts : FieldSpecs gs} (_ : AreFields ts) {fs : List Field} {ss : FieldSpecs fs} (_ : AreFields ss) (_ : NoSuffix gs fs)
      (v : FieldsVal fs) (dest : FieldsVal gs) (_ : ts.wf dest) (rd : EReader) (p : Nat) (_ : Has d p ((ss.nodes v).bytes fl))
      (_ : more ↔ p + ((ss.nodes v).bytes fl).length < d.length)
      (w : FieldsVal gs) (st : RSt) (_ : fieldsRead env fresh gs dest (rd, ⟨d, p, fl⟩) = .ok (some w) st), ClassesAgree more gs fs v
  | _, _, .nil, _, _, _, _, v, dest, hw, rd, p, h0, hm, w, st, h => by rw [ClassesAgree]; trivial
  | _, _, .base (k := k) (t := t) (c := c) (fs := gs) hk ht hts, _, _, .nil, _, v, dest, hw, rd, p, h0, hm, w, st, h => by
    rw [ClassesAgree, hm]
    apply Classical.byContradiction
    intro hc
    have hlen := h0.len
    simp only [FieldSpecs.nodes, Nodes.bytes, List.length_nil] at hc hlen
    obtain rfl : p = d.length := by omega
    rw [fieldsRead] at h
    obtain ⟨x, s1, h1, h2⟩ := Prog.bind_eq_ok h
    cases x with
    | none => cases h2
    | some x =>
      unfold EReader.read onRStream at h1
      split at h1
      · rename_i hr
        cases h1
        exact base_at_end env ht hk hd hr
      · cases h1
      · cases h1
  | _, _, .sub (k := k) (M := M) (fs := gs) hk hM hts, _, _, .nil, _, v, dest, hw, rd, p, h0, hm, w, st, h => by
    rw [ClassesAgree, hm]
    apply Classical.byContradiction
    intro hc
    have hlen := h0.len
    simp only [FieldSpecs.nodes, Nodes.bytes, List.length_nil] at hc hlen
    obtain rfl : p = d.length := by omega
    rw [fieldsRead] at h
    obtain ⟨⟨ptr, b⟩, s1, h1, h2⟩ := Prog.bind_eq_ok h
    cases b with
    | false => cases ptr <;> cases h2
    | true =>
      cases ptr with
      | none => exact (begin_none h1).elim
      | some a =>
        obtain ⟨-, e, p1, hh, -⟩ := begin_section_inv hk hd (Nat.le_refl _) h1
        have := hh.code.len
        simp only [List.length_singleton] at this
        omega
  | _, _, .base (k := k) (t := t) (c := c) (fs := gs) hk ht hts, _, _, .base (k := k0) (t := t0) (c := c0) (fs := fs) (rest := ss) hk0 ht0 hss, hsuf,
      v, dest, hw, rd, p, h0, hm, w, st, h => by
    rw [ClassesAgree]
    simp only [FieldSpecs.nodes, Nodes.bytes, Node.bytes] at h0 hm
    rw [Has.append] at h0
    rw [List.length_append] at hm
    have hlen := h0.2.len
    rw [fieldsRead] at h
    obtain ⟨x, s1, h1, h2⟩ := Prog.bind_eq_ok h
    cases x with
    | none => cases h2
    | some x =>
      obtain ⟨y, s2, h3, h4⟩ := Prog.bind_eq_ok h2
      cases y with
      | none => cases h4
      | some y =>
        unfold EReader.read onRStream at h1
        split at h1
        · rename_i hr
          cases h1
          obtain ⟨g1, g2⟩ := base_on_base (followed := more ∨ fs ≠ []) env ht hk ht0 hk0 hd h0.1 (hsuf _ _ _ (List.mem_cons_self ..) _ _ _ (List.mem_cons_self ..)) hr
            (by
              rintro (hx | hx)
              · have := hm.mp hx; omega
              · have := fields_nonempty ss v.2 fl hx; omega)
          subst g2
          refine ⟨g1, C91_core env fresh hd hts hss (fun k t c h k0 t0 c0 h0 => hsuf k t c (List.mem_cons_of_mem _ h) k0 t0 c0 (List.mem_cons_of_mem _ h0)) v.2 dest.2
            hw rd _ h0.2 (hm.trans (by omega)) y s2 h3⟩
        · cases h1
        · cases h1
  | _, _, .base (k := k) (t := t) (c := c) (fs := gs) hk ht hts, _, _, .sub (k := k0) (fs := fs) (rest := ss) hk0 hM0 hss, hsuf, v, dest, hw, rd, p, h0, hm, w, st, h => by
    exfalso
    simp only [FieldSpecs.nodes, Nodes.bytes, Node.bytes] at h0
    rw [Has.append] at h0
    rw [fieldsRead] at h
    obtain ⟨x, s1, h1, h2⟩ := Prog.bind_eq_ok h
    cases x with
    | none => cases h2
    | some x =>
      unfold EReader.read onRStream at h1
      split at h1
      · rename_i hr
        cases h1
        exact base_on_section env ht hk hd h0.1 hr
      · cases h1
      · cases h1
  | _, _, .sub (k := k) (V := V) (M := M) (S := S) (fs := gs) hk hM hts, _, _, .base (k := k0) (t := t0) (c := c0) (fs := fs) (rest := ss) hk0 ht0 hss, hsuf, v, dest, hw, rd, p, h0, hm, w, st, h => by
    exfalso
    simp only [FieldSpecs.nodes, Nodes.bytes, Node.bytes] at h0
    rw [Has.append] at h0
    have hlen := h0.1.len
    rw [fieldsRead] at h
    obtain ⟨⟨ptr, b⟩, s1, h1, h2⟩ := Prog.bind_eq_ok h
    cases b with
    | false => cases ptr <;> cases h2
    | true =>
      cases ptr with
      | none => exact (begin_none h1).elim
      | some a =>
        obtain ⟨-, e, p1, hh, -⟩ := begin_section_inv hk hd (by omega) h1
        exact code_not_section t0 ht0 c0 (code_unique (written_code ht0 hd h0.1) hh.code (blockCode_lt (allTypes_ok t0 ht0) c0) (by decide))
  | _, _, .sub (k := k) (V := V) (M := M) (S := S) (fs := gs) hk hM hts, _, _, .sub (k := k0) (S := S0) (fs := fs) (rest := ss) hk0 hM0 hss, hsuf, v, dest, hw, rd, p, h0, hm, w, st, h => by
    rw [ClassesAgree]
    simp only [FieldSpecs.nodes, Nodes.bytes, Node.bytes] at h0 hm
    rw [Has.append] at h0
    rw [List.length_append] at hm
    have hlen := h0.1.len
    rw [fieldsRead] at h
    obtain ⟨⟨ptr, b⟩, s1, h1, h2⟩ := Prog.bind_eq_ok h
    cases b with
    | false => cases ptr <;> cases h2
    | true =>
      cases ptr with
      | none => exact (begin_none h1).elim
      | some a =>
        obtain ⟨hn, e, p1, hh, hne, rfl, hp1⟩ := begin_section_inv hk hd (by omega) h1
        obtain ⟨rfl, he⟩ := head_on_section hd hk hh hk0 h0.1
        refine ⟨rfl, fun hman => ?_⟩
        obtain ⟨y, s2, h3, h4⟩ := Prog.bind_eq_ok h2
        cases y with
        | none => cases h4
        | some y =>
          obtain ⟨r, r', q1, q2, q3⟩ := inRSubsection_inv h3
          cases q1
          obtain ⟨k1, k2⟩ := (hM.read_keeps env fresh dest.1).ok _ _ _ q2
          dsimp only [EReader.create] at k1 k2
          obtain ⟨⟨g1, g2, -, -⟩, -, -⟩ := C59_accepted_is_well_formed hM hd env fresh dest.1 hw.1 _ p1 hp1 y _ q2
          dsimp only at g1 g2
          have hend := end_open q3
          rw [k1, k2] at hend
          obtain ⟨b, s3, h5, h6⟩ := Prog.bind_eq_ok h4
          obtain ⟨z, s4, h7, h8⟩ := Prog.bind_eq_ok h6
          cases z with
          | none => cases h8
          | some z =>
            rw [h5] at hend
            by_cases hp : s2.2.pos = e
            · rw [if_pos hp] at hend
              cases hend
              obtain ⟨r2, data, pos, flip⟩ := s2
              dsimp only at g1 g2 hp
              subst g1 g2 hp he
              exact C91_core env fresh hd hts hss (fun k t c h k0 t0 c0 h0 => hsuf k t c (List.mem_cons_of_mem _ h) k0 t0 c0 (List.mem_cons_of_mem _ h0)) v.2 dest.2
                hw.2 _ _ h0.2 (hm.trans (by omega)) z _ h7
            · rw [if_neg hp] at hend
              cases hend
              exact absurd hman (open_no_managed env fresh gs dest.2 _ _ z (by rw [q3]; simp) h7)

/-- A file in which an entity `v` with the variables `fs` was stored behind other things, and more things behind it: `file` is what is in the stream after the entity and
whatever else was written, `start` where the entity begins. It was written by the `Write` of its class, to a stream with room for it. -/
def StoredIn {fs : List Field} (ss : FieldSpecs fs) (v : FieldsVal fs) (file : Bytes) (start : Nat) (fl : Bool) (more : Prop) : Prop :=
  ∃ (w : EWriter) (s s' : WStream) (fresh : Bytes → Nat) (post : Bytes), w.Idle ∧ Ready s ∧ s.flip = fl ∧
    s.dataSize + ((ss.nodes v).bytes fl).length < 2 ^ 60 ∧ (entityMF fs).write fresh v (w, s) = .ok true (w, s') ∧
    start = s.content.length ∧ file = s'.content ++ post ∧ (more ↔ post ≠ [])

theorem StoredIn.has {fs : List Field} {ss : FieldSpecs fs} (hss : IsClass (entityMF fs) (entitySpec ss)) {v : FieldsVal fs} (hw : ss.wf v) (hv : ss.rel .storable v v) {file : Bytes} {start : Nat}
    {fl : Bool} {more : Prop} (h : StoredIn ss v file start fl more) :
    Has file start ((ss.nodes v).bytes fl) ∧ (more ↔ start + ((ss.nodes v).bytes fl).length < file.length) := by
  obtain ⟨w, s, s', fresh, post, h1, h2, rfl, h4, h5, rfl, rfl, h8⟩ := h
  have hl := h2.good.content_len
  obtain ⟨s2, e, h⟩ := hss.lawful.write_ok v hw hv fresh s.flip w s s.content h1 h2.at (by show _ + ((ss.nodes v).bytes s.flip).length < _; omega)
  rw [h5] at e
  cases e
  rw [h.content]
  refine ⟨Has.mid _ _ _, ?_⟩
  rw [h8]
  simp only [List.length_append]
  show _ ↔ _ + ((ss.nodes v).bytes s.flip).length < _ + ((ss.nodes v).bytes s.flip).length + _
  cases post <;> simp

/-- **C91.** An entity of one class is stored in a file, at any place; the `Read` of another class is called there. If it returns true, the variables of the two classes
agree one by one, down to the last variable of a managed class of the class read: they have the same names, and types of the same family, shape and width, and no absent
value goes to a variable that must be there. In particular a class with more variables refuses a file that ends with the entity. -/
theorem C91_accepted_only_if_the_classes_agree {fs gs : List Field} {ss : FieldSpecs fs} {ts : FieldSpecs gs} (hss : IsClass (entityMF fs) (entitySpec ss))
    (hts : AreFields ts) (hS : AreFields ss) (hsuf : NoSuffix gs fs) (v : FieldsVal fs) (hw : ss.wf v) (hv : ss.rel .storable v v) {file : Bytes} {start : Nat} {fl : Bool} {more : Prop}
    (hst : StoredIn ss v file start fl more) (hfile : file.length < 2 ^ 60) (env : REnv) (fresh : Bytes → Nat) (dest : FieldsVal gs) (hd : ts.wf dest) (r : EReader)
    (got : FieldsVal gs) (st : RSt) (h : (entityMF gs).read env fresh dest (r, ⟨file, start, fl⟩) = .ok (some got) st) : ClassesAgree more gs fs v := by
  obtain ⟨h1, h2⟩ := hst.has hss hw hv
  exact C91_core env fresh hfile hts hS hsuf v dest hd r start h1 h2 got st h

/-! ## What is accepted -/

/-- The same contents, in a variable that may be absent instead of one that must be there, or the other way round if they are there. -/
inductive SameContents (t : DataType) : (c c' : Container) → c.Val t.Val → c'.Val t.Val → Prop where
  | same (c : Container) (x : c.Val t.Val) : SameContents t c c x x
  | value (x : t.Val) : SameContents t .none .optionalValue x (some x)
  | vector (x : List t.Val) : SameContents t .vector .optionalVector x (some x)
  | indexed (x : IdxVec t.Val) : SameContents t .idxVector .optionalIdxVector x (some x)
  | presentValue (x : t.Val) : SameContents t .optionalValue .none (some x) x
  | presentVector (x : List t.Val) : SameContents t .optionalVector .vector (some x) x
  | presentIndexed (x : IdxVec t.Val) : SameContents t .optionalIdxVector .idxVector (some x) x

/-- `w` has the first variables of `v`. -/
inductive Carried : {fs gs : List Field} → FieldSpecs fs → FieldSpecs gs → FieldsVal fs → FieldsVal gs → Prop where
  | rest {fs : List Field} (ss : FieldSpecs fs) (v : FieldsVal fs) : Carried ss .nil v ()
  | base {fs gs : List Field} (k : Bytes) (t : DataType) (c c' : Container) (x : c.Val t.Val) (y : c'.Val t.Val) (h : SameContents t c c' x y) (ss : FieldSpecs fs)
      (ts : FieldSpecs gs) (v : FieldsVal fs) (w : FieldsVal gs) (h' : Carried ss ts v w) :
      Carried (.base k t c ss) (.base k t c' ts) ((x, v) : c.Val t.Val × FieldsVal fs) ((y, w) : c'.Val t.Val × FieldsVal gs)
  | sub {fs gs : List Field} (k : Bytes) {V : Type} (M : Managed V) (S : ClassSpec V) (x : V) (ss : FieldSpecs fs)
      (ts : FieldSpecs gs) (v : FieldsVal fs) (w : FieldsVal gs) (h' : Carried ss ts v w) :
      Carried (.sub k M S ss) (.sub k M S ts) ((x, v) : V × FieldsVal fs) ((x, w) : V × FieldsVal gs)

theorem SameContents.bytes {t : DataType} {c c' : Container} {x : c.Val t.Val} {y : c'.Val t.Val} (h : SameContents t c c' x y) (fl : Bool) (k : Bytes) :
    Spec.typed fl t c k x = Spec.typed fl t c' k y := by
  cases h <;> rfl

theorem Carried.prefix {fs gs : List Field} {ss : FieldSpecs fs} {ts : FieldSpecs gs} {v : FieldsVal fs} {w : FieldsVal gs} (h : Carried ss ts v w) (fl : Bool) :
    (∃ rest, (ss.nodes v).bytes fl = (ts.nodes w).bytes fl ++ rest) ∧ (ss.wf v → ts.wf w) ∧ (ss.rel .storable v v → ts.rel .storable w w) := by
  induction h with
  | rest ss v => exact ⟨⟨_, rfl⟩, fun _ => trivial, fun _ => trivial⟩
  | base k t c c' x y h ss ts v w h' ih =>
    obtain ⟨⟨rest, e⟩, h1, h2⟩ := ih
    refine ⟨⟨rest, ?_⟩, h1, fun h => ⟨base_storable _, h2 h.2⟩⟩
    simp only [FieldSpecs.nodes, Nodes.bytes, Node.bytes]
    rw [e, h.bytes, List.append_assoc]
  | sub k M S x ss ts v w h' ih =>
    obtain ⟨⟨rest, e⟩, h1, h2⟩ := ih
    refine ⟨⟨rest, ?_⟩, fun h => ⟨h.1, h1 h.2⟩, fun h => ⟨h.1, h2 h.2⟩⟩
    simp only [FieldSpecs.nodes, Nodes.bytes, Node.bytes]
    rw [e, List.append_assoc]

/-- **C91**, what a new version of a class may change: variables dropped at the end, and variables that may now be absent (or no longer may, if they are there). The new
class reads what the old one stored, and finds the same contents. -/
theorem C91_compatible_classes_read {fs gs : List Field} {ss : FieldSpecs fs} {ts : FieldSpecs gs} (hss : IsClass (entityMF fs) (entitySpec ss))
    (hts : IsClass (entityMF gs) (entitySpec ts)) (v : FieldsVal fs) (hw : ss.wf v) (hv : ss.rel .storable v v) {file : Bytes} {start : Nat} {fl : Bool} {more : Prop}
    (hst : StoredIn ss v file start fl more) (hfile : file.length < 2 ^ 60) (w : FieldsVal gs) (hc : Carried ss ts v w) (env : REnv) (he : ∀ n, env.allocOk n = true)
    (fresh : Bytes → Nat) (dest : FieldsVal gs) (hd : ts.wf dest) (hdest : ts.destOk dest) (r : EReader) (hr : r.Idle) :
    ∃ got st, (entityMF gs).read env fresh dest (r, ⟨file, start, fl⟩) = .ok (some got) st ∧ ts.rel .exact got w := by
  obtain ⟨h1, -⟩ := hst.has hss hw hv
  obtain ⟨⟨rest, e⟩, h2, h3⟩ := hc.prefix fl
  rw [e, Has.append] at h1
  obtain ⟨got, g1, -, g3⟩ := hts.lawful.read_ok w dest (h2 hw) (h3 hv) hd hdest env fresh fl he
  exact ⟨got, _, g1 r file start hr hfile h1.1, g3⟩

/-! ## Classes of the repository -/

/-- An `AttributeLayer` reads the `Node` that anyone stored: the bytes do not name the class. -/
theorem C91_AttributeLayer_reads_a_Node (v : NodeEnt) {file : Bytes} {start : Nat} {fl : Bool} {more : Prop}
    (hst : StoredIn nodeSpecs v file start fl more) (hfile : file.length < 2 ^ 60) (env : REnv) (he : ∀ n, env.allocOk n = true)
    (fresh : Bytes → Nat) (dest : AttributeLayer) (r : EReader) (hr : r.Idle) :
    ∃ got st, (entityMF attributeLayerFields).read env fresh dest (r, ⟨file, start, fl⟩) = .ok (some got) st ∧ got.1 = v.1 := by
  obtain ⟨got, st, h1, h2⟩ := C91_compatible_classes_read node_isClass attributeLayer_isClass v trivial
    ⟨base_storable _, base_storable _, base_storable _, base_storable _, trivial⟩ hst hfile ((v.1, ()) : Bytes × Unit) (.base _ _ _ _ _ _ (.same _ _) _ _ _ _ (.rest _ _)) env he
    fresh dest trivial ⟨trivial, trivial⟩ r hr
  exact ⟨got, st, h1, h2.1⟩

/-- A `TestEntity` is not read as a `Node`. -/
theorem C91_Node_refuses_a_TestEntity (v : FieldsVal testEntityFields) {file : Bytes} {start : Nat} {fl : Bool} {more : Prop}
    (hst : StoredIn testEntitySpecs v file start fl more) (hfile : file.length < 2 ^ 60) (env : REnv) (fresh : Bytes → Nat) (dest : NodeEnt) (r : EReader)
    (got : NodeEnt) (st : RSt) : (entityMF nodeFields).read env fresh dest (r, ⟨file, start, fl⟩) ≠ .ok (some got) st := by
  intro h
  have := C91_accepted_only_if_the_classes_agree testEntity_isClass (ts := nodeSpecs)
    (.base (by decide) string_mem (.base (by decide) fvec3_mem (.base (by decide) fvec3_mem (.base (by decide) fvec3_mem .nil))))
    (.base (by decide) string_mem (.base (by decide) string_mem .nil)) ?_ v trivial ⟨base_storable _, base_storable _, trivial⟩ hst hfile env fresh dest trivial r got st h
  · have h2 := this.2.1.name
    revert h2
    decide
  · intro k t c _ k0 t0 c0 h0 hs
    simp only [testEntityFields, List.mem_cons, Field.base.injEq, List.not_mem_nil, or_false] at h0
    rcases h0 with ⟨-, rfl, rfl⟩ | ⟨-, rfl, rfl⟩ <;> cases hs

/-- A `Node` is not read as a `TestEntity`. -/
theorem C91_TestEntity_refuses_a_Node (v : NodeEnt) {file : Bytes} {start : Nat} {fl : Bool} {more : Prop}
    (hst : StoredIn nodeSpecs v file start fl more) (hfile : file.length < 2 ^ 60) (env : REnv) (fresh : Bytes → Nat) (dest : FieldsVal testEntityFields) (r : EReader)
    (got : FieldsVal testEntityFields) (st : RSt) : (entityMF testEntityFields).read env fresh dest (r, ⟨file, start, fl⟩) ≠ .ok (some got) st := by
  intro h
  have := C91_accepted_only_if_the_classes_agree node_isClass (ts := testEntitySpecs)
    (.base (by decide) string_mem (.base (by decide) string_mem .nil))
    (.base (by decide) string_mem (.base (by decide) fvec3_mem (.base (by decide) fvec3_mem (.base (by decide) fvec3_mem .nil)))) ?_ v trivial
    ⟨base_storable _, base_storable _, base_storable _, base_storable _, trivial⟩ hst hfile env fresh dest trivial r got st h
  · have h2 := this.2.1.name
    revert h2
    decide
  · intro k t c h k0 t0 c0 h0 hs
    simp only [nodeFields, testEntityFields, List.mem_cons, Field.base.injEq, List.not_mem_nil, or_false] at h h0
    rcases h with ⟨rfl, -, -⟩ | ⟨rfl, -, -⟩ <;> rcases h0 with ⟨-, rfl, rfl⟩ | ⟨rfl, -, -⟩ | ⟨rfl, -, -⟩ | ⟨rfl, -, -⟩ <;> first | cases hs | decide

/-! ## The hypotheses are met -/

/-- A stored node with a name, followed by more, meets the hypotheses. -/
theorem C91_demo (fl : Bool) (post : Bytes) : ∃ file start, StoredIn nodeSpecs
    (([78, 111, 100, 101], (#v[1, 2, 3], (#v[0, 0, 0], (#v[1, 1, 1], ())))) : Bytes × Vector (Word 4) 3 × Vector (Word 4) 3 × Vector (Word 4) 3 × Unit)
    file start fl (post ≠ []) := by
  have hfl : (demoStream fl).flip = fl := by cases fl <;> rfl
  have hsz : (demoStream fl).dataSize + ((nodeSpecs.nodes
    (([78, 111, 100, 101], (#v[1, 2, 3], (#v[0, 0, 0], (#v[1, 1, 1], ())))) : Bytes × Vector (Word 4) 3 × Vector (Word 4) 3 × Vector (Word 4) 3 × Unit)).bytes fl).length < 2 ^ 60 := by
    cases fl <;> decide +kernel
  obtain ⟨s', block, h1, -⟩ := C41_classes_round_trip node_isClass
    (([78, 111, 100, 101], (#v[1, 2, 3], (#v[0, 0, 0], (#v[1, 1, 1], ())))) : Bytes × Vector (Word 4) 3 × Vector (Word 4) 3 × Vector (Word 4) 3 × Unit) trivial
    ⟨base_storable _, base_storable _, base_storable _, base_storable _, trivial⟩ (EWriter.create 0 0) ⟨rfl, rfl, rfl, rfl⟩ (demoStream fl) (demo_ready fl) (fun _ => 7) (by rw [hfl]; exact hsz)
  exact ⟨_, _, EWriter.create 0 0, demoStream fl, s', fun _ => 7, post, ⟨rfl, rfl, rfl, rfl⟩, demo_ready fl, hfl, hsz, h1, rfl, rfl, Iff.rfl⟩

end ISD
