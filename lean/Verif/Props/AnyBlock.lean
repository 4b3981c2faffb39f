import Verif.Proofs.LooseBlocks
import Verif.Props.Memory

/-!
# C80: every block of the documented format is read, whoever wrote it

`Spec.TypedBlock` (Spec/Accept.lean) is the documented layout as a relation: it leaves open what the documentation leaves open (which
non-zero byte is `true`, the unused bits of a bool array, unused flags, the item size of bool and string arrays). C52 shows that what is
accepted is such a block; here: every such block is accepted.
-/

namespace ISD

open RStream

/-- **C80.** Whatever the type, the container, the key and the surrounding bytes: a block of the documented format is read, its value is
delivered, and the cursor stands right behind it. -/
theorem C80_every_block_is_read (env : REnv) (t : DataType) (ht : t ∈ allTypes) (c : Container) (key : Bytes) (hk : key.length ≤ 40)
    (dest v : c.Val t.Val) (fl : Bool) (pre block post : Bytes) (hd : (pre ++ block ++ post).length < 2 ^ 60)
    (hm : GrantsUpTo (4 * (pre ++ block ++ post).length) env) (hb : Spec.TypedBlock fl t c key v block) :
    readTyped env t c key dest ⟨pre ++ block ++ post, pre.length, fl⟩ =
      .ok (some (readInto t c dest v)) ⟨pre ++ block ++ post, pre.length + block.length, fl⟩ := by
  have h := readTyped_loose (env := ⟨fun _ => true, env.junkKey⟩) (fun _ => rfl) (allTypes_ok t ht) c key hk dest v fl block hb
    (pre ++ block ++ post) pre.length hd ⟨pre, post, rfl, rfl⟩
  exact C60_accepted_value_needs_little_memory_partial ⟨fun _ => true, env.junkKey⟩ env t ht c key hk dest _ hd _ (by simp) fl rfl hm _ _ h

/-- **C80**, with C52: which bytes are accepted. A read returns true and stops before the end of the stream exactly if a block of the requested
type, container and key starts at the cursor and ends there; the result is the value of that block. -/
theorem C80_accepted_exactly (env : REnv) (t : DataType) (ht : t ∈ allTypes) (c : Container) (key : Bytes) (hk : key.length ≤ 40)
    (dest : c.Val t.Val) (fl : Bool) (d : Bytes) (hd : d.length < 2 ^ 60) (hm : GrantsUpTo (4 * d.length) env) (p : Nat) (hp : p ≤ d.length)
    (v' : c.Val t.Val) (s' : RStream) (he : s'.pos < d.length ∨ isSmall t c = true) :
    readTyped env t c key dest ⟨d, p, fl⟩ = .ok (some v') s' ↔
      ∃ v pre block post, d = pre ++ block ++ post ∧ p = pre.length ∧ Spec.TypedBlock fl t c key v block ∧
        v' = readInto t c dest v ∧ s' = ⟨d, p + block.length, fl⟩ := by
  constructor
  · intro h
    obtain ⟨v, e, hb⟩ := C52_accepted_bytes_are_a_block env t ht c key hk dest d hd p hp fl v' s' h
    obtain ⟨h1, h2, h3⟩ := (readTyped_wp env fl hd hp (allTypes_ok t ht) c key hk dest (.inr trivial)).result h
    have hb := hb (he.imp_right .inl)
    refine ⟨v, d.take p, (d.drop p).take (s'.pos - p), (d.drop p).drop (s'.pos - p), ?_, ?_, hb, e, ?_⟩
    · rw [List.append_assoc, List.take_append_drop, List.take_append_drop]
    · rw [List.length_take]; omega
    · rw [List.length_take, List.length_drop, h1]
      simp only [RStream.mk.injEq, true_and, and_true]
      omega
  · rintro ⟨v, pre, block, post, rfl, rfl, hb, rfl, rfl⟩
    exact C80_every_block_is_read env t ht c key hk dest v fl pre block post hd hm hb

theorem readInto_inj {t : DataType} {c : Container} {dest v w : c.Val t.Val} (h : readInto t c dest v = readInto t c dest w) : v = w := by
  cases c with
  | vector =>
    simp only [readInto] at h
    split at h
    · exact List.append_cancel_left h
    · exact h
  | idxVector =>
    simp only [readInto] at h
    split at h
    · obtain ⟨a, b⟩ := v
      obtain ⟨a', b'⟩ := w
      simp only [IdxVec.mk.injEq] at h
      rw [List.append_cancel_left h.1, h.2]
    · exact h
  | _ => exact h

/-- **C80.** The format is unambiguous: for one type, container and key, no two different blocks can start at the same place, and no bytes stand for
two values. -/
theorem C80_unambiguous (t : DataType) (ht : t ∈ allTypes) (c : Container) (key : Bytes) (hk : key.length ≤ 40) (v w : c.Val t.Val) (fl : Bool)
    (b b' x x' : Bytes) (hl : (b ++ x).length < 2 ^ 60) (h : b ++ x = b' ++ x') (hb : Spec.TypedBlock fl t c key v b)
    (hb' : Spec.TypedBlock fl t c key w b') : v = w ∧ b = b' ∧ x = x' := by
  have e1 := C80_every_block_is_read luckyEnv t ht c key hk v v fl [] b x hl (fun _ _ => rfl) hb
  have e2 := C80_every_block_is_read luckyEnv t ht c key hk v w fl [] b' x' (by rw [List.nil_append, ← h]; exact hl) (fun _ _ => rfl) hb'
  rw [List.nil_append] at e1 e2
  rw [← h, e1] at e2
  simp only [Res.ok.injEq, Option.some.injEq, RStream.mk.injEq, List.length_nil, Nat.zero_add, true_and, and_true] at e2
  exact ⟨readInto_inj e2.1, List.append_inj h e2.2⟩

/-- A vector of three bools as another program might store it: flags with unused bits set and an item size, and rubbish in the unused bits. -/
def foreignBools : Bytes := Spec.largeBlock false 0x41 [75] (Spec.looseHeader false 0xfc37 3 none ++ [0xfd])

/-- **C80** for that block: it is not what this library writes, and it is read. -/
theorem C80_demo : Spec.TypedBlock false boolType .vector [75] [true, false, true] foreignBools ∧
    foreignBools ≠ Spec.typed false boolType .vector [75] [true, false, true] ∧
    (∀ (x y : Bytes), (x ++ foreignBools ++ y).length < 2 ^ 60 → ∀ dest, readTyped luckyEnv boolType .vector [75] dest ⟨x ++ foreignBools ++ y, x.length, false⟩ =
      .ok (some [true, false, true]) ⟨x ++ foreignBools ++ y, x.length + foreignBools.length, false⟩) := by
  have h : Spec.TypedBlock false boolType .vector [75] [true, false, true] foreignBools :=
    ⟨0xfc37, 3, [0xfd], by decide, by decide, by decide, trivial, by decide, ⟨rfl, rfl, by decide⟩, rfl⟩
  exact ⟨h, by decide, fun x y hl dest => C80_every_block_is_read luckyEnv boolType (by decide +kernel) .vector [75] (by decide) dest _ false x _ y hl (fun _ _ => rfl) h⟩

end ISD
