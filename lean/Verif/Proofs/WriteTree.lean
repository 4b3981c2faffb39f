import Verif.Spec.Tree
import Verif.Proofs.WriteTyped

/-! # Section trees: what the writer appends -/

namespace ISD

open WStream

mutual
  /-- Known data types and keys of at most 40 bytes, throughout. -/
  def Node.Valid : Node → Prop
    | .value t _ key _ => t ∈ allTypes ∧ key.length ≤ 40
    | .sect key body => key.length ≤ 40 ∧ body.Valid
    | .nullSect key => key.length ≤ 40
    | .array key _ elems => key.length ≤ 40 ∧ elems.Valid
    | .nullArray key => key.length ≤ 40
  /-- See `Node.Valid`. -/
  def Nodes.Valid : Nodes → Prop
    | .nil => True
    | .cons n ns => n.Valid ∧ ns.Valid
  /-- See `Node.Valid`. -/
  def Elems.Valid : Elems → Prop
    | .nil => True
    | .cons b es => b.Valid ∧ es.Valid
end

/-- No subsection is open. -/
structure EWriter.Idle (w : EWriter) : Prop where
  sub : w.activeSubsection = none
  size : w.activeArraySize = 0
  index : w.activeArrayIndex = sizeMax
  start : w.activeArrayIndexStart = 0

theorem create_idle (a pos : Nat) : (EWriter.create a pos).Idle := ⟨rfl, rfl, rfl, rfl⟩

/-- From any idle writer on a healthy stream at its end, the routine returns true, appends exactly `bs`, and leaves the writer as it was. -/
def AppendsT (p : Prog WSt Bool) (fl : Bool) (bs : Bytes) : Prop :=
  ∀ w s c, w.Idle → WAt s c fl → c.length + bs.length < 2 ^ 63 → ∃ s', p (w, s) = .ok true (w, s') ∧ WAt s' (c ++ bs) fl

theorem onStream_ok {α : Type} {p : Prog WStream α} {w : EWriter} {s s' : WStream} {a : α} (h : p s = .ok a s') :
    onStream p (w, s) = .ok a (w, s') := by
  simp only [onStream, h]

theorem inSubsection_ok {α : Type} {p : Prog WSt α} {w sub sub' : EWriter} {s s' : WStream} {a : α}
    (hw : w.activeSubsection = some sub) (h : p (sub, s) = .ok a (sub', s')) :
    inSubsection p (w, s) = .ok a ({ w with activeSubsection := some sub' }, s') := by
  simp only [inSubsection, hw, h]

theorem modify_ok {σ : Type} (f : σ → σ) (s : σ) : Prog.modify f s = .ok () (f s) := rfl

theorem EWriter.Idle.restore {w : EWriter} (h : w.Idle) (x : Option EWriter) :
    { ({ w with activeSubsection := x } : EWriter) with activeSubsection := none } = w := by
  obtain ⟨a, b, c, d, e, f⟩ := w
  have := h.sub
  simp only at this
  subst this
  rfl

theorem beginSect_ok {w : EWriter} {s : WStream} {c : Bytes} {fl : Bool} (hw : w.Idle) (h : WAt s c fl) (fresh : Nat) (key : Bytes)
    (hb : c.length + (key.length + 10) < 2 ^ 63) :
    ∃ s1, beginWriteSection fresh key (w, s) =
        .ok (some fresh) ({ w with activeSubsection := some (EWriter.create fresh c.length) }, s1) ∧
      WAt s1 (c ++ openHeader fl vtSubsection key) fl := by
  obtain ⟨s1, e1, h1⟩ := beginLarge_appends vtSubsection key fl s c h (by rw [openHeader_length]; omega)
  refine ⟨s1, ?_, h1⟩
  rw [beginWriteSection, Prog.bind_ok (Prog.get_apply _), if_neg (by simp [hw.sub]), Prog.bind_ok (modify_ok _ _),
    Prog.bind_ok (onStream_ok e1), if_neg (by decide), Prog.pure_apply]
  simp only [h.pos]

theorem endSect_ok {w : EWriter} {s : WStream} {c payload key : Bytes} {fl : Bool} (hw : w.Idle) (sub : EWriter)
    (hs : sub.startPosition = c.length)
    (h : WAt s (c ++ openHeader fl vtSubsection key ++ payload) fl)
    (hb : (c ++ openHeader fl vtSubsection key ++ payload).length < 2 ^ 63) :
    ∃ s1, endWriteSection (some sub.addr) ({ w with activeSubsection := some sub }, s) = .ok true (w, s1) ∧
      WAt s1 (c ++ Spec.sect fl key payload) fl := by
  obtain ⟨s1, e1, h1⟩ := endLarge_ok vtSubsection key payload h hb sub.startPosition hs
  refine ⟨s1, ?_, h1⟩
  rw [endWriteSection, Prog.bind_ok (Prog.get_apply _), if_neg (by simp [EWriter.subPtr])]
  dsimp only
  rw [Prog.bind_ok (onStream_ok e1), if_neg (by decide), Prog.bind_ok (modify_ok _ _), Prog.pure_apply]
  dsimp only
  rw [hw.restore (some sub)]

theorem writeSect_appends {p : Prog WSt Bool} {fl : Bool} {bs : Bytes} (hp : AppendsT p fl bs) (fresh : Nat) (key : Bytes) :
    AppendsT (do
      match ← beginWriteSection fresh key with
      | none => return false
      | some q =>
        if !(← inSubsection p) then return false
        endWriteSection (some q)) fl (Spec.sect fl key bs) := by
  intro w s c hw h hb
  rw [Spec.sect, largeBlock_length] at hb
  obtain ⟨s1, e1, h1⟩ := beginSect_ok hw h fresh key (by omega)
  obtain ⟨s2, e2, h2⟩ := hp (EWriter.create fresh c.length) s1 _ (create_idle _ _) h1
    (by rw [List.length_append, openHeader_length]; omega)
  obtain ⟨s3, e3, h3⟩ := endSect_ok (key := key) hw (EWriter.create fresh c.length) rfl h2
    (by rw [List.length_append, List.length_append, openHeader_length]; omega)
  refine ⟨s3, ?_, h3⟩
  rw [Prog.bind_ok e1]
  dsimp only
  rw [Prog.bind_ok (inSubsection_ok (w := { w with activeSubsection := some (EWriter.create fresh c.length) }) rfl e2),
    if_neg (by decide)]
  exact e3

theorem writeNullSect_appends (fl : Bool) (fresh : Nat) (key : Bytes) :
    AppendsT (writeNullSection fresh key) fl (Spec.sect fl key []) := by
  intro w s c hw h hb
  rw [Spec.sect, largeBlock_length] at hb
  obtain ⟨s1, e1, h1⟩ := beginSect_ok hw h fresh key (by omega)
  rw [← List.append_nil (c ++ openHeader fl vtSubsection key)] at h1
  obtain ⟨s3, e3, h3⟩ := endSect_ok (key := key) hw (EWriter.create fresh c.length) rfl h1
    (by rw [List.length_append, List.length_append, openHeader_length, List.length_nil]; omega)
  refine ⟨s3, ?_, h3⟩
  rw [writeNullSection, Prog.bind_ok e1]
  exact e3

/-- A writer in the middle of an array of sections: `i` elements have been started. -/
def EWriter.inArray (w sub : EWriter) (size i start : Nat) : EWriter :=
  { w with activeSubsection := some sub, activeArraySize := size, activeArrayIndex := wrap64 (i + sizeMax), activeArrayIndexStart := start }

theorem beginArray_ok {w : EWriter} {s : WStream} {c : Bytes} {fl : Bool} (hw : w.Idle) (h : WAt s c fl) (fresh : Nat) (key : Bytes)
    (n : Nat) (index : Option (List (Word 4))) (hn : n < sizeMax)
    (hb : c.length + (key.length + 10) + (Spec.arrayHeader fl 0 n index).length < 2 ^ 63) :
    ∃ s1, beginWriteSectionsArray fresh key n index (w, s) =
        .ok (some fresh) (w.inArray (EWriter.create fresh c.length) n 0 0, s1) ∧
      WAt s1 (c ++ openHeader fl vtArraySubsection key ++ Spec.arrayHeader fl 0 n index) fl := by
  obtain ⟨s1, e1, h1⟩ := beginLarge_appends vtArraySubsection key fl s c h (by rw [openHeader_length]; omega)
  obtain ⟨s2, e2, h2⟩ := writeArrayMeta_appends 0 n (by decide) index fl s1 _ h1
    (by rw [List.length_append, openHeader_length]; omega)
  refine ⟨s2, ?_, h2⟩
  rw [beginWriteSectionsArray, Prog.bind_ok (Prog.get_apply _), if_neg (by simp [hw.sub]), Prog.bind_ok (modify_ok _ _),
    Prog.bind_ok (onStream_ok e1), if_neg (by decide), if_neg (by omega), Prog.bind_ok (onStream_ok e2), if_neg (by decide),
    Prog.bind_ok (modify_ok _ _), Prog.pure_apply]
  simp only [h.pos, EWriter.inArray, Nat.zero_add]
  rfl

theorem endArray_ok {w : EWriter} {s : WStream} {c payload key : Bytes} {fl : Bool} (hw : w.Idle) (sub : EWriter) (n st : Nat)
    (hs : sub.startPosition = c.length) (hn : n < 2 ^ 64)
    (h : WAt s (c ++ openHeader fl vtArraySubsection key ++ payload) fl)
    (hb : (c ++ openHeader fl vtArraySubsection key ++ payload).length < 2 ^ 63) :
    ∃ s1, endWriteSectionsArray (some sub.addr) (w.inArray sub n n st, s) = .ok true (w, s1) ∧
      WAt s1 (c ++ Spec.largeBlock fl 0xd1 key payload) fl := by
  obtain ⟨s1, e1, h1⟩ := endLarge_ok vtArraySubsection key payload h hb sub.startPosition hs
  refine ⟨s1, ?_, h1⟩
  have hwr : wrap64 (wrap64 (n + sizeMax) + 1) = n := by unfold wrap64 sizeMax; omega
  rw [endWriteSectionsArray, Prog.bind_ok (Prog.get_apply _), if_neg (by simp [EWriter.subPtr, EWriter.inArray]),
    if_neg (by simp [EWriter.inArray, hwr])]
  dsimp only [EWriter.inArray]
  rw [Prog.bind_ok (onStream_ok e1), if_neg (by decide), Prog.bind_ok (modify_ok _ _), Prog.pure_apply]
  obtain ⟨a, b, c, d, e, f⟩ := w
  obtain ⟨h1, h2, h3, h4⟩ := hw
  simp only at h1 h2 h3 h4
  subst h1 h2 h3 h4
  rfl

theorem writeNullArray_appends (fl : Bool) (fresh : Nat) (key : Bytes) :
    AppendsT (writeNullSectionsArray fresh key) fl (Spec.sectArray fl key none none) := by
  intro w s c hw h hb
  rw [Spec.sectArray, largeBlock_length] at hb
  obtain ⟨s1, e1, h1⟩ := beginLarge_appends vtArraySubsection key fl s c h (by rw [openHeader_length]; omega)
  rw [← List.append_nil (c ++ openHeader fl vtArraySubsection key)] at h1
  obtain ⟨s3, e3, h3⟩ := endArray_ok (key := key) hw (EWriter.create fresh c.length) 0 0 rfl (by decide) h1
    (by rw [List.length_append, List.length_append, openHeader_length, List.length_nil]; omega)
  refine ⟨s3, ?_, h3⟩
  have e2 : beginWriteSectionsArray fresh key sizeMax none (w, s) =
      .ok (some fresh) (w.inArray (EWriter.create fresh c.length) 0 0 0, s1) := by
    rw [beginWriteSectionsArray, Prog.bind_ok (Prog.get_apply _), if_neg (by simp [hw.sub]), Prog.bind_ok (modify_ok _ _),
      Prog.bind_ok (onStream_ok e1), if_neg (by decide), if_pos rfl, Prog.bind_ok (modify_ok _ _), Prog.pure_apply]
    simp only [h.pos, EWriter.inArray, Nat.zero_add]
    rw [hw.index, hw.start]
    rfl
  rw [writeNullSectionsArray, Prog.bind_ok e2]
  exact e3

theorem writeElem_ok {p : Prog WSt Bool} {fl : Bool} {bs : Bytes} (hp : AppendsT p fl bs) {w sub : EWriter} (hsub : sub.Idle)
    {s : WStream} {c : Bytes} (h : WAt s c fl) (n i st : Nat) (hi : i < n) (hn : n < 2 ^ 63)
    (hb : c.length + (Spec.element fl bs).length < 2 ^ 63) :
    ∃ st' s1 s2 s3,
      beginWriteSectionInArray (some sub.addr) i (w.inArray sub n i st, s) = .ok true (w.inArray sub n (i + 1) st', s1) ∧
      inSubsection p (w.inArray sub n (i + 1) st', s1) = .ok true (w.inArray sub n (i + 1) st', s2) ∧
      endWriteSectionInArray (some sub.addr) i (w.inArray sub n (i + 1) st', s2) = .ok true (w.inArray sub n (i + 1) st', s3) ∧
      WAt s3 (c ++ Spec.element fl bs) fl := by
  rw [Spec.element, List.length_append, number_length] at hb
  obtain ⟨s1, e1, h1⟩ := writeU64_appends maxInt64 fl s c h (by rw [number_length]; omega)
  obtain ⟨s2, e2, h2⟩ := hp sub s1 _ hsub h1 (by rw [List.length_append, number_length]; omega)
  have hl : (c ++ Spec.number fl 8 maxInt64 ++ bs).length = c.length + 8 + bs.length := by
    simp only [List.length_append, number_length]
  obtain ⟨t1, t2, s3, f1, f2, f3, h3⟩ := patch_at c (Spec.number fl 8 maxInt64) bs (by simp) bs.length h2 (by rw [hl]; omega)
  have hwi : wrap64 (wrap64 (i + sizeMax) + 1) = i := by unfold wrap64 sizeMax; omega
  have hwi1 : wrap64 (i + 1 + sizeMax) = i := by unfold wrap64 sizeMax; omega
  refine ⟨c.length, s1, s2, s3, ?_, ?_, ?_, ?_⟩
  · rw [beginWriteSectionInArray, Prog.bind_ok (Prog.get_apply _), if_neg (by simp [EWriter.subPtr, EWriter.inArray]),
      if_neg (by simp [EWriter.inArray, hwi]), if_neg (by simp [EWriter.inArray]; omega), Prog.bind_ok (modify_ok _ _),
      Prog.bind_ok (onStream_ok e1), Prog.bind_ok (Prog.get_apply _), Prog.pure_apply]
    have hp1 : s1.pos = wrap64 (s.pos + 8) := by
      rw [h1.pos, h.pos, wrap64, Nat.mod_eq_of_lt (by omega), List.length_append, number_length]
    simp only [EWriter.inArray, hp1, beq_self_eq_true, hwi1, h.pos]
  · exact inSubsection_ok (w := w.inArray sub n (i + 1) c.length) rfl e2
  · have hp2 : s2.pos = c.length + 8 + bs.length := by rw [h2.pos, hl]
    have hsz : sub64 (sub64 s2.pos c.length) 8 = bs.length := by
      rw [hp2, sub64_of_le (a := c.length + 8 + bs.length) (b := c.length) (by omega) (by omega),
        sub64_of_le (by omega) (by omega)]
      omega
    rw [hl, ← hp2] at f3
    rw [endWriteSectionInArray, Prog.bind_ok (Prog.get_apply _), if_neg (by simp [EWriter.subPtr, EWriter.inArray, hwi1])]
    dsimp only [EWriter.inArray]
    rw [hsz, Prog.bind_ok (onStream_ok f1), Prog.bind_ok (onStream_ok f2), Prog.bind_ok (onStream_ok f3), Prog.pure_apply]
    have hd : s2.pos > c.length := by omega
    simp only [hd, decide_true]
  · simpa only [Spec.element, List.append_assoc] using h3

theorem bodies_length (fl : Bool) (es : Elems) : (es.bodies fl).length = es.length := by
  match es with
  | .nil => rfl
  | .cons b es => rw [Elems.bodies, List.length_cons, bodies_length fl es, Elems.length]

theorem elements_ge (fl : Bool) (l : List Bytes) : 8 * l.length ≤ (l.flatMap (Spec.element fl)).length := by
  induction l with
  | nil => simp
  | cons y l ih =>
    rw [List.flatMap_cons, List.length_append, Spec.element, List.length_append, number_length, List.length_cons]; omega

mutual
  theorem Node.write_appends (fresh : Bytes → Nat) (fl : Bool) (n : Node) (hv : n.Valid) :
      AppendsT (n.write fresh) fl (n.bytes fl) := by
    match n with
    | .value t c key v =>
      intro w s cc hw h hb
      obtain ⟨s', e, h'⟩ := writeTyped_appends (allTypes_ok t hv.1) c key v fl s cc h hb
      exact ⟨s', by rw [Node.write, EWriter.write, onStream_ok e], h'⟩
    | .sect key body => exact writeSect_appends (Nodes.write_appends fresh fl body hv.2) (fresh key) key
    | .nullSect key => exact writeNullSect_appends fl (fresh key) key
    | .nullArray key => exact writeNullArray_appends fl (fresh key) key
    | .array key index elems =>
      intro w s c hw h hb
      rw [Node.bytes, Spec.sectArray, largeBlock_length, Option.elim_some, List.length_append] at hb
      have hge := elements_ge fl (elems.bodies fl)
      rw [bodies_length] at hb hge
      obtain ⟨s1, e1, h1⟩ := beginArray_ok hw h (fresh key) key elems.length index (by unfold sizeMax; omega) (by omega)
      obtain ⟨st, s2, e2, h2⟩ := Elems.write_ok fresh fl elems hv.2 w (EWriter.create (fresh key) c.length) (create_idle _ _) s1 _ h1
        elems.length 0 0 (by omega) (by omega) (by simp only [List.length_append, openHeader_length]; omega)
      rw [Nat.zero_add] at e2
      rw [List.append_assoc] at h2
      obtain ⟨s3, e3, h3⟩ := endArray_ok hw (EWriter.create (fresh key) c.length) elems.length st rfl (by omega) h2
        (by simp only [List.length_append, openHeader_length]; omega)
      refine ⟨s3, ?_, ?_⟩
      · rw [Node.write, Prog.bind_ok e1]
        dsimp only
        rw [Prog.bind_ok (show Elems.write fresh (fresh key) 0 elems _ = _ from e2), if_neg (by decide)]
        exact e3
      · rw [Node.bytes, Spec.sectArray, Option.elim_some, bodies_length]
        exact h3
  theorem Nodes.write_appends (fresh : Bytes → Nat) (fl : Bool) (ns : Nodes) (hv : ns.Valid) :
      AppendsT (ns.write fresh) fl (ns.bytes fl) := by
    match ns with
    | .nil => exact fun w s c hw h hb => ⟨s, rfl, by rw [Nodes.bytes, List.append_nil]; exact h⟩
    | .cons n ns =>
      intro w s c hw h hb
      rw [Nodes.bytes, List.length_append] at hb
      obtain ⟨s1, e1, h1⟩ := Node.write_appends fresh fl n hv.1 w s c hw h (by omega)
      obtain ⟨s2, e2, h2⟩ := Nodes.write_appends fresh fl ns hv.2 w s1 _ hw h1 (by rw [List.length_append]; omega)
      refine ⟨s2, ?_, by rw [Nodes.bytes, ← List.append_assoc]; exact h2⟩
      rw [Nodes.write, Prog.bind_ok e1, if_neg (by decide)]
      exact e2
  theorem Elems.write_ok (fresh : Bytes → Nat) (fl : Bool) (es : Elems) (hv : es.Valid) (w sub : EWriter) (hsub : sub.Idle)
      (s : WStream) (c : Bytes) (h : WAt s c fl) (n i st : Nat) (hi : i + es.length ≤ n) (hn : n < 2 ^ 63)
      (hb : c.length + ((es.bodies fl).flatMap (Spec.element fl)).length < 2 ^ 63) :
      ∃ st' s', es.write fresh sub.addr i (w.inArray sub n i st, s) = .ok true (w.inArray sub n (i + es.length) st', s') ∧
        WAt s' (c ++ (es.bodies fl).flatMap (Spec.element fl)) fl := by
    match es with
    | .nil => exact ⟨st, s, rfl, by simpa [Elems.bodies] using h⟩
    | .cons b es =>
      rw [Elems.bodies, List.flatMap_cons, List.length_append] at hb
      rw [Elems.length] at hi
      obtain ⟨st1, s1, s2, s3, e1, e2, e3, h3⟩ := writeElem_ok (Nodes.write_appends fresh fl b hv.1) (w := w) hsub h n i st
        (by omega) hn (by omega)
      obtain ⟨st4, s4, e4, h4⟩ := Elems.write_ok fresh fl es hv.2 w sub hsub s3 _ h3 n (i + 1) st1 (by omega) hn
        (by rw [List.length_append]; omega)
      refine ⟨st4, s4, ?_, ?_⟩
      · rw [Elems.write, Prog.bind_ok e1, if_neg (by decide), Prog.bind_ok e2, if_neg (by decide), Prog.bind_ok e3, if_neg (by decide),
          e4, Elems.length]
        rw [show i + 1 + es.length = i + (es.length + 1) by omega]
      · rw [Elems.bodies, List.flatMap_cons, ← List.append_assoc]
        exact h4
end

end ISD
