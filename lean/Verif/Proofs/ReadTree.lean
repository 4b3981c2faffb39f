import Verif.Proofs.WriteTree
import Verif.Proofs.ReadTyped

/-! # Section trees: reading them back -/

namespace ISD

open RStream

/-- No subsection is open. -/
structure EReader.Idle (r : EReader) : Prop where
  sub : r.activeSubsection = none
  size : r.activeArraySize = 0
  index : r.activeIndex = sizeMax
  endPos : r.activeEndPos = 0

theorem rcreate_idle (a e : Nat) : (EReader.create a e).Idle := ⟨rfl, rfl, rfl, rfl⟩

/-- The routine accepts the bytes `bs` wherever they stand, consumes exactly them, returns `a`, and leaves the reader object as it was. -/
def ConsumesT {α : Type} (p : Prog RSt α) (fl : Bool) (a : α) (bs : Bytes) : Prop :=
  ∀ r d pos, r.Idle → Small d → Has d pos bs → p (r, ⟨d, pos, fl⟩) = .ok a (r, ⟨d, pos + bs.length, fl⟩)

theorem onRStream_ok {α : Type} {p : Prog RStream α} {r : EReader} {s s' : RStream} {a : α} (h : p s = .ok a s') :
    onRStream p (r, s) = .ok a (r, s') := by
  simp only [onRStream, h]

theorem inRSubsection_ok {α : Type} {p : Prog RSt α} {r sub sub' : EReader} {s s' : RStream} {a : α}
    (hw : r.activeSubsection = some sub) (h : p (sub, s) = .ok a (sub', s')) :
    inRSubsection p (r, s) = .ok a ({ r with activeSubsection := some sub' }, s') := by
  simp only [inRSubsection, hw, h]

theorem beginReadSect_ok {r : EReader} (hr : r.Idle) {d : Bytes} {pos : Nat} {fl : Bool} (env : REnv) (fresh : Nat) {key body : Bytes}
    (na : Bool) (hk : key.length ≤ 40) (hd : Small d) (h : Has d pos (Spec.sect fl key body)) (hb : body ≠ []) :
    beginReadSection env fresh key na (r, ⟨d, pos, fl⟩) =
      .ok (some fresh, true) ({ r with activeSubsection := some (EReader.create fresh (pos + 10 + key.length + body.length)) },
        ⟨d, pos + 10 + key.length, fl⟩) := by
  have e1 := beginReadLarge_has env hd (by decide) hk h
  have : 0 < body.length := by cases body with | nil => exact absurd rfl hb | cons => simp
  rw [beginReadSection, Prog.bind_ok (Prog.get_apply _), if_neg (by simp [hr.sub]),
    Prog.bind_ok (onRStream_ok (show beginReadLargeBlock env vtSubsection key _ = _ from e1)), if_neg (by omega),
    Prog.bind_ok (Prog.get_apply _), if_neg (by dsimp only; omega), Prog.bind_ok (modify_ok _ _), Prog.pure_apply]

theorem beginReadSect_null {r : EReader} (hr : r.Idle) {d : Bytes} {pos : Nat} {fl : Bool} (env : REnv) (fresh : Nat) {key : Bytes}
    (hk : key.length ≤ 40) (hd : Small d) (h : Has d pos (Spec.sect fl key [])) :
    beginReadSection env fresh key true (r, ⟨d, pos, fl⟩) = .ok (none, true) (r, ⟨d, pos + 10 + key.length, fl⟩) := by
  have e1 := beginReadLarge_has env hd (by decide) hk h
  rw [List.length_nil, Nat.add_zero] at e1
  have e2 := readEmpty_none (α := Unit) (pos + 10 + key.length) (⟨d, pos + 10 + key.length, fl⟩ : RStream) rfl
  rw [beginReadSection, Prog.bind_ok (Prog.get_apply _), if_neg (by simp [hr.sub]),
    Prog.bind_ok (onRStream_ok (show beginReadLargeBlock env vtSubsection key _ = _ from e1)), if_neg (by omega),
    Prog.bind_ok (Prog.get_apply _), if_pos rfl, Prog.bind_ok (onRStream_ok e2)]
  rfl

theorem endReadSect_ok {r : EReader} (hr : r.Idle) (sub : EReader) {s : RStream} (h : s.pos = sub.endPosition) :
    endReadSection (some sub.addr) ({ r with activeSubsection := some sub }, s) = .ok true (r, s) := by
  rw [endReadSection, Prog.bind_ok (Prog.get_apply _), if_neg (by simp [EReader.subPtr])]
  dsimp only
  rw [Prog.bind_ok (onRStream_ok (endReadLarge_ok h)), if_neg (by decide), Prog.bind_ok (modify_ok _ _), Prog.pure_apply]
  obtain ⟨a, b, c, d, e, f⟩ := r
  obtain ⟨h1, h2, h3, h4⟩ := hr
  simp only at h1 h2 h3 h4
  subst h1 h2 h3 h4
  rfl

theorem Prog.bind_eq_ok {σ α β : Type} {p : Prog σ α} {f : α → Prog σ β} {s s'' : σ} {b : β} (h : (p >>= f) s = .ok b s'') :
    ∃ a s', p s = .ok a s' ∧ f a s' = .ok b s'' := by
  rw [Prog.bind_apply] at h
  split at h
  · exact ⟨_, _, by assumption, h⟩
  · cases h
  · cases h

theorem metadataCount_eq {env : REnv} {e : Nat} {wi : Bool} {s s' : RStream} {k n : Nat} {idx : List (Word 4)}
    (h : readArrayMetadataAndIndex env e wi s = .ok (some (k, n, idx)) s') : metadataCount s = some n := by
  rw [readArrayMetadataAndIndex, Prog.bind_ok (Prog.get_apply _)] at h
  obtain ⟨flags, s1, e1, h⟩ := Prog.bind_eq_ok h
  rw [metadataCount, Prog.bind_ok e1]
  by_cases hf : flags &&& 0x200 ≠ 0
  · rw [if_pos hf] at h; cases h
  · rw [if_neg hf] at h ⊢
    obtain ⟨c, s2, e2, h⟩ := Prog.bind_eq_ok h
    rw [Prog.bind_ok e2, Prog.pure_apply]
    dsimp only
    congr 1
    split at h
    · split at h
      · cases h
      · obtain ⟨c2, s3, e3, h⟩ := Prog.bind_eq_ok h
        rw [Prog.bind_ok (Prog.get_apply _)] at h
        split at h
        · cases h
        · obtain ⟨_, s4, e4, h⟩ := Prog.bind_eq_ok h
          obtain ⟨⟨_, l⟩, s5, e5, h⟩ := Prog.bind_eq_ok h
          dsimp only at h
          rw [Prog.bind_ok (Prog.get_apply _)] at h
          split at h
          · cases h
          · cases h; rfl
    · split at h
      · cases h
      · rw [Prog.bind_ok (Prog.get_apply _)] at h
        split at h
        · cases h
        · cases h; rfl

theorem readSectionsMetadata_ok {env : REnv} {e : Nat} {wi : Bool} {r : EReader} {s s' : RStream} {k n : Nat} {idx : List (Word 4)}
    (h : readArrayMetadataAndIndex env e wi s = .ok (some (k, n, idx)) s') :
    readSectionsMetadata env e wi (r, s) = .ok (some (k, n, idx)) ({ r with activeArraySize := n }, s') := by
  simp only [readSectionsMetadata, h, metadataCount_eq h, Option.getD_some]

/-- A reader in the middle of an array of sections: `i` elements have been started. -/
def EReader.inArray (r sub : EReader) (size i e : Nat) : EReader :=
  { r with activeSubsection := some sub, activeArraySize := size, activeIndex := wrap64 (i + sizeMax), activeEndPos := e }

theorem beginReadArray_ok {r : EReader} (hr : r.Idle) {d : Bytes} {pos : Nat} {fl : Bool} {env : REnv} (he : env.Lucky) (fresh : Nat)
    {key : Bytes} (na : Bool) (n : Nat) (index : Option (List (Word 4))) (rest : Bytes) (hk : key.length ≤ 40) (hd : Small d)
    (hn : n < 2 ^ 64) (h : Has d pos (Spec.largeBlock fl 0xd1 key (Spec.arrayHeader fl 0 n index ++ rest))) :
    beginReadSectionsArray env fresh key na index.isSome (r, ⟨d, pos, fl⟩) =
      .ok (some fresh, n, true, index.getD [])
        (r.inArray (EReader.create fresh (pos + 10 + key.length + ((Spec.arrayHeader fl 0 n index).length + rest.length))) n 0 0,
          ⟨d, pos + 10 + key.length + (Spec.arrayHeader fl 0 n index).length, fl⟩) := by
  have e1 := beginReadLarge_has env hd (by decide) hk h
  obtain ⟨h2, h3, hl⟩ := readFrame h
  have hH : 10 ≤ (Spec.arrayHeader fl 0 n index).length := by rw [arrayHeader_length]; omega
  rw [List.length_append] at e1
  have e2 := readMeta_has he 0 n (by decide) hn index hd h2
    (pos + 10 + key.length + ((Spec.arrayHeader fl 0 n index).length + rest.length)) (by omega) (by omega)
  rw [beginReadSectionsArray, Prog.bind_ok (Prog.get_apply _), if_neg (by simp [hr.sub]),
    Prog.bind_ok (onRStream_ok (show beginReadLargeBlock env vtArraySubsection key _ = _ from e1)), if_neg (by omega),
    Prog.bind_ok (Prog.get_apply _), if_neg (by dsimp only; omega), Prog.bind_ok (readSectionsMetadata_ok e2)]
  dsimp only
  rw [Prog.bind_ok (modify_ok _ _), Prog.bind_ok (Prog.get_apply _), Prog.pure_apply]
  obtain ⟨a, b, c, d, e, f⟩ := r
  obtain ⟨h1, h2, h3, h4⟩ := hr
  simp only at h1 h2 h3 h4
  subst h1 h2 h3 h4
  rfl

theorem beginReadArray_null {r : EReader} (hr : r.Idle) {d : Bytes} {pos : Nat} {fl : Bool} (env : REnv) (fresh : Nat) {key : Bytes}
    (wi : Bool) (hk : key.length ≤ 40) (hd : Small d) (h : Has d pos (Spec.sectArray fl key none none)) :
    beginReadSectionsArray env fresh key true wi (r, ⟨d, pos, fl⟩) = .ok (none, 0, true, []) (r, ⟨d, pos + 10 + key.length, fl⟩) := by
  have e1 := beginReadLarge_has env hd (by decide) hk h
  rw [Option.elim_none, List.length_nil, Nat.add_zero] at e1
  have e2 := readEmpty_none (α := Unit) (pos + 10 + key.length) (⟨d, pos + 10 + key.length, fl⟩ : RStream) rfl
  rw [beginReadSectionsArray, Prog.bind_ok (Prog.get_apply _), if_neg (by simp [hr.sub]),
    Prog.bind_ok (onRStream_ok (show beginReadLargeBlock env vtArraySubsection key _ = _ from e1)), if_neg (by omega),
    Prog.bind_ok (Prog.get_apply _), if_pos rfl, Prog.bind_ok (onRStream_ok e2)]
  rfl

theorem endReadArray_ok {r : EReader} (hr : r.Idle) (sub : EReader) (n e : Nat) (hn : n < 2 ^ 64) {s : RStream}
    (h : s.pos = sub.endPosition) :
    endReadSectionsArray (some sub.addr) (r.inArray sub n n e, s) = .ok true (r, s) := by
  have hwr : wrap64 (wrap64 (n + sizeMax) + 1) = n := by unfold wrap64 sizeMax; omega
  rw [endReadSectionsArray, Prog.bind_ok (Prog.get_apply _), if_neg (by simp [EReader.subPtr, EReader.inArray]),
    if_neg (by simp [EReader.inArray, hwr])]
  dsimp only [EReader.inArray]
  rw [Prog.bind_ok (onRStream_ok (endReadLarge_ok h)), if_neg (by decide), Prog.bind_ok (modify_ok _ _), Prog.pure_apply]
  obtain ⟨a, b, c, d, e, f⟩ := r
  obtain ⟨h1, h2, h3, h4⟩ := hr
  simp only at h1 h2 h3 h4
  subst h1 h2 h3 h4
  rfl

theorem beginReadElem_ok {r sub : EReader} {d : Bytes} {pos : Nat} {fl : Bool} {body : Bytes} (n i e : Nat) (hi : i < n) (hn : n < 2 ^ 63)
    (hd : Small d) (h : Has d pos (Spec.element fl body)) :
    beginReadSectionInArray (some sub.addr) i true (r.inArray sub n i e, ⟨d, pos, fl⟩) =
      .ok (true, body.length != 0) (r.inArray sub n (i + 1) (pos + 8 + body.length), ⟨d, pos + 8, fl⟩) := by
  rw [Spec.element, Has.append, number_length] at h
  have hl := h.2.len
  have e1 := readU64_has (fl := fl) hd (by omega) h.1
  have hwi : wrap64 (wrap64 (i + sizeMax) + 1) = i := by unfold wrap64 sizeMax; omega
  have hwi1 : wrap64 (i + 1 + sizeMax) = i := by unfold wrap64 sizeMax; omega
  have hwp : wrap64 (pos + 8 + body.length) = pos + 8 + body.length := Nat.mod_eq_of_lt (by omega)
  rw [beginReadSectionInArray, Prog.bind_ok (Prog.get_apply _), if_neg (by simp [EReader.subPtr, EReader.inArray]),
    if_neg (by simp [EReader.inArray, hwi]), if_neg (by simp [EReader.inArray]; omega),
    Prog.bind_ok (onRStream_ok e1), Prog.bind_ok (modify_ok _ _), if_neg (by decide), Prog.pure_apply]
  simp only [EReader.inArray, hwi1, hwp]

theorem endReadElem_ok {r sub : EReader} {s : RStream} (n i e : Nat) (hi : i < n) (hn : n < 2 ^ 63) (h : s.pos = e) :
    endReadSectionInArray (some sub.addr) i (r.inArray sub n (i + 1) e, s) = .ok true (r.inArray sub n (i + 1) e, s) := by
  have hwi1 : wrap64 (i + 1 + sizeMax) = i := by unfold wrap64 sizeMax; omega
  rw [endReadSectionInArray, Prog.bind_ok (Prog.get_apply _), if_neg (by simp [EReader.subPtr, EReader.inArray, hwi1]),
    if_neg (by simp [EReader.inArray, h]), Prog.pure_apply]

theorem single_ne_nil (fl : Bool) (t : DataType) (key : Bytes) (v : Option t.Val) : Spec.single fl t key v ≠ [] := by
  obtain ⟨nm, vt, avt, kind, ov⟩ := t
  cases kind <;> simp [Spec.single, Spec.smallBlock, Spec.largeBlock]

theorem array_ne_nil (fl : Bool) (t : DataType) (key : Bytes) (v : Option (List t.Val)) (index : Option (List (Word 4))) :
    Spec.array fl t key v index ≠ [] := by
  obtain ⟨nm, vt, avt, kind, ov⟩ := t
  cases kind <;> simp [Spec.array, Spec.largeBlock]

theorem node_ne_nil (fl : Bool) (n : Node) : n.bytes fl ≠ [] := by
  cases n with
  | value t c key v =>
    cases c with
    | none => exact single_ne_nil _ _ _ _
    | optionalValue => exact single_ne_nil _ _ _ _
    | vector => exact array_ne_nil _ _ _ _ _
    | optionalVector => exact array_ne_nil _ _ _ _ _
    | idxVector => exact array_ne_nil _ _ _ _ _
    | optionalIdxVector => exact array_ne_nil _ _ _ _ _
  | sect key body => simp [Node.bytes, Spec.sect, Spec.largeBlock]
  | nullSect key => simp [Node.bytes, Spec.sect, Spec.largeBlock]
  | array key index elems => simp [Node.bytes, Spec.sectArray, Spec.largeBlock]
  | nullArray key => simp [Node.bytes, Spec.sectArray, Spec.largeBlock]

theorem readInto_ok {t : DataType} {c : Container} {dest : c.Val t.Val} (h : DestOk t c dest) (v : c.Val t.Val) :
    readInto t c dest v = v := by
  cases c with
  | vector =>
    by_cases ho : t.overrides
    · have := h ho; simp only [readInto, if_pos ho]; rw [this]; rfl
    · simp [readInto, ho]
  | idxVector =>
    by_cases ho : t.overrides
    · have := h ho; simp only [readInto, if_pos ho, this]; rfl
    · simp [readInto, ho]
  | _ => rfl

mutual
  theorem Node.read_consumes {env : REnv} (he : env.Lucky) (fresh : Bytes → Nat) (fl : Bool) (n : Node) (sh : Shape) (hf : FitsNode sh n) :
      ConsumesT (sh.read env fresh) fl (some n) (n.bytes fl) := by
    match n with
    | .value t c key v =>
      cases hf with
      | value _ _ _ dest _ ht hk hd' =>
      intro r d pos hr hd h
      have e := readTyped_consumes he (allTypes_ok t ht) c key hk dest v fl d pos hd h
      rw [readInto_ok hd'] at e
      rw [Shape.read, EReader.read, Prog.bind_ok (onRStream_ok e)]
      rfl
    | .nullSect key =>
      cases hf with
      | nullSect _ body hk =>
      intro r d pos hr hd h
      rw [Shape.read, Prog.bind_ok (beginReadSect_null hr env (fresh key) hk hd h)]
      dsimp only
      rw [Prog.pure_apply, Node.bytes, Spec.sect, largeBlock_length, List.length_nil]
      rw [show pos + (key.length + 10 + 0) = pos + 10 + key.length by omega]
    | .nullArray key =>
      cases hf with
      | nullArray _ wi elem hk =>
      intro r d pos hr hd h
      rw [Shape.read, Prog.bind_ok (beginReadArray_null hr env (fresh key) wi hk hd h)]
      dsimp only
      rw [Prog.pure_apply, Node.bytes, Spec.sectArray, largeBlock_length, Option.elim_none, List.length_nil]
      rw [show pos + (key.length + 10 + 0) = pos + 10 + key.length by omega]
    | .sect key .nil => cases hf
    | .sect key (.cons n ns) =>
      cases hf with
      | sect _ body s ss _ _ hk hfa hb =>
      subst hb
      intro r d pos hr hd h
      rw [Node.bytes] at h ⊢
      have hne : (Nodes.cons n ns).bytes fl ≠ [] := by
        rw [Nodes.bytes]
        intro hc
        exact node_ne_nil fl n (List.append_eq_nil_iff.mp hc).1
      have e1 := beginReadSect_ok hr env (fresh key) true hk hd h hne
      obtain ⟨-, -, -, -, h5⟩ := Has.large h
      have e2 := Nodes.read_consumes he fresh fl (.cons n ns) (.cons s ss) hfa
        (EReader.create (fresh key) (pos + 10 + key.length + ((Nodes.cons n ns).bytes fl).length)) d _ (rcreate_idle _ _) hd h5
      have e3 := endReadSect_ok hr (EReader.create (fresh key) (pos + 10 + key.length + ((Nodes.cons n ns).bytes fl).length))
        (s := ⟨d, pos + 10 + key.length + ((Nodes.cons n ns).bytes fl).length, fl⟩) rfl
      rw [Shape.read, Prog.bind_ok e1]
      dsimp only
      rw [Prog.bind_ok (inRSubsection_ok (r := { r with activeSubsection := some (EReader.create (fresh key)
        (pos + 10 + key.length + ((Nodes.cons n ns).bytes fl).length)) }) rfl e2)]
      dsimp only
      rw [Prog.bind_ok (show endReadSection (some (fresh key)) _ = _ from e3), if_neg (by decide), Prog.pure_apply, Spec.sect,
        largeBlock_length]
      rw [show pos + (key.length + 10 + ((Nodes.cons n ns).bytes fl).length) =
        pos + 10 + key.length + ((Nodes.cons n ns).bytes fl).length by omega]
    | .array key index elems =>
      cases hf with
      | array _ wi elem _ _ hk hi hfe =>
      subst hi
      intro r d pos hr hd h
      rw [Node.bytes, Spec.sectArray, Option.elim_some, bodies_length] at h ⊢
      have hge := elements_ge fl (elems.bodies fl)
      rw [bodies_length] at hge
      obtain ⟨h2, h3, hl⟩ := readFrame h
      have e1 := beginReadArray_ok hr he (fresh key) true elems.length index _ hk hd (by omega) h
      obtain ⟨e', e2⟩ := Elems.read_ok he fresh fl elems elem 0 hfe r
        (EReader.create (fresh key) (pos + 10 + key.length + ((Spec.arrayHeader fl 0 elems.length index).length +
          ((elems.bodies fl).flatMap (Spec.element fl)).length))) (rcreate_idle _ _) d _ hd h3 elems.length 0
        (by omega) (by omega)
      rw [Nat.zero_add] at e2
      have e3 := endReadArray_ok hr (EReader.create (fresh key) (pos + 10 + key.length + ((Spec.arrayHeader fl 0 elems.length index).length +
          ((elems.bodies fl).flatMap (Spec.element fl)).length))) elems.length e' (by omega)
        (s := ⟨d, pos + 10 + key.length + (Spec.arrayHeader fl 0 elems.length index).length +
          ((elems.bodies fl).flatMap (Spec.element fl)).length, fl⟩) (by rw [EReader.create, Nat.add_assoc])
      rw [Shape.read, Prog.bind_ok e1]
      dsimp only
      rw [Prog.bind_ok (show readElems _ (fresh key) 0 elems.length _ = _ from e2)]
      dsimp only
      rw [Prog.bind_ok (show endReadSectionsArray (some (fresh key)) _ = _ from e3), if_neg (by decide), Prog.pure_apply, largeBlock_length,
        List.length_append]
      rw [show pos + 10 + key.length + (Spec.arrayHeader fl 0 elems.length index).length +
          ((elems.bodies fl).flatMap (Spec.element fl)).length = pos + (key.length + 10 + ((Spec.arrayHeader fl 0 elems.length index).length +
          ((elems.bodies fl).flatMap (Spec.element fl)).length)) by omega]
      cases index <;> rfl
  theorem Nodes.read_consumes {env : REnv} (he : env.Lucky) (fresh : Bytes → Nat) (fl : Bool) (ns : Nodes) (sh : Shapes)
      (hf : FitsAll sh ns) : ConsumesT (sh.read env fresh) fl (some ns) (ns.bytes fl) := by
    match ns with
    | .nil =>
      cases hf
      intro r d pos hr hd h
      rfl
    | .cons n ns =>
      cases hf with
      | cons s ss _ _ h1 h2 =>
      intro r d pos hr hd h
      rw [Nodes.bytes] at h ⊢
      have e1 := Node.read_consumes he fresh fl n s h1 r d pos hr hd h.left
      have e2 := Nodes.read_consumes he fresh fl ns ss h2 r d _ hr hd h.right
      rw [Shapes.read, Prog.bind_ok e1]
      dsimp only
      rw [Prog.bind_ok e2, List.length_append, ← Nat.add_assoc]
      rfl
  theorem Elems.read_ok {env : REnv} (he : env.Lucky) (fresh : Bytes → Nat) (fl : Bool) (es : Elems) (elem : Nat → Shapes) (i : Nat)
      (hf : FitsElems elem i es) (r sub : EReader) (hsub : sub.Idle) (d : Bytes) (pos : Nat) (hd : Small d)
      (h : Has d pos ((es.bodies fl).flatMap (Spec.element fl))) (n e : Nat) (hi : i + es.length ≤ n) (hn : n < 2 ^ 63) :
      ∃ e', readElems (fun i => (elem i).read env fresh) sub.addr i es.length (r.inArray sub n i e, ⟨d, pos, fl⟩) =
        .ok (some es) (r.inArray sub n (i + es.length) e', ⟨d, pos + ((es.bodies fl).flatMap (Spec.element fl)).length, fl⟩) := by
    match es with
    | .nil => exact ⟨e, rfl⟩
    | .cons b es =>
      rw [Elems.bodies, List.flatMap_cons] at h ⊢
      rw [Elems.length] at hi ⊢
      have hel : (Spec.element fl (b.bytes fl)).length = 8 + (b.bytes fl).length := by
        rw [Spec.element, List.length_append, number_length]
      have hr := h.right
      rw [hel, ← Nat.add_assoc] at hr
      have e1 := beginReadElem_ok (r := r) (sub := sub) n i e (by omega) hn hd h.left
      have e3 := endReadElem_ok (r := r) (sub := sub) (s := ⟨d, pos + 8 + (b.bytes fl).length, fl⟩) n i
        (pos + 8 + (b.bytes fl).length) (by omega) hn rfl
      have hbody : (if (b.bytes fl).length != 0 then inRSubsection ((elem i).read env fresh) else pure (some .nil) : Prog RSt (Option Nodes))
          (r.inArray sub n (i + 1) (pos + 8 + (b.bytes fl).length), ⟨d, pos + 8, fl⟩) =
          .ok (some b) (r.inArray sub n (i + 1) (pos + 8 + (b.bytes fl).length), ⟨d, pos + 8 + (b.bytes fl).length, fl⟩) := by
        match b with
        | .nil => rfl
        | .cons m ms =>
          cases hf with
          | cons _ _ _ _ hfa _ =>
          have hne : (Nodes.cons m ms).bytes fl ≠ [] := by
            rw [Nodes.bytes]
            intro hc
            exact node_ne_nil fl m (List.append_eq_nil_iff.mp hc).1
          have h0 : (((Nodes.cons m ms).bytes fl).length != 0) = true := by
            simp [hne]
          have hb := h.left
          rw [Spec.element, Has.append, number_length] at hb
          rw [if_pos h0]
          exact inRSubsection_ok (r := r.inArray sub n (i + 1) _) rfl
            (Nodes.read_consumes he fresh fl (.cons m ms) (elem i) hfa sub d _ hsub hd hb.2)
      have hfe : FitsElems elem (i + 1) es := by cases hf <;> assumption
      obtain ⟨e', e4⟩ := Elems.read_ok he fresh fl es elem (i + 1) hfe r sub hsub d _ hd hr n (pos + 8 + (b.bytes fl).length)
        (by omega) hn
      refine ⟨e', ?_⟩
      rw [readElems, Prog.bind_ok e1]
      dsimp only
      rw [if_neg (by decide), Prog.bind_ok hbody]
      dsimp only
      rw [Prog.bind_ok e3, if_neg (by decide), Prog.bind_ok e4]
      dsimp only
      rw [Prog.pure_apply, List.length_append, hel]
      rw [show i + 1 + es.length = i + (es.length + 1) by omega,
        show pos + 8 + (b.bytes fl).length + ((es.bodies fl).flatMap (Spec.element fl)).length =
          pos + (8 + (b.bytes fl).length + ((es.bodies fl).flatMap (Spec.element fl)).length) by omega]
end

end ISD
