import Verif.Proofs.WriteTyped
import Verif.Proofs.ReadStream
import Verif.Model.Reader

/-! # Every typed read accepts the block of the specification -/

namespace ISD

open RStream

/-- The routine accepts the bytes `bs` wherever they stand, consumes exactly them, and returns `a`. -/
def Consumes {α : Type} (p : Prog RStream α) (fl : Bool) (a : α) (bs : Bytes) : Prop :=
  ∀ d pos, Small d → Has d pos bs → p ⟨d, pos, fl⟩ = .ok a ⟨d, pos + bs.length, fl⟩

/-- All allocations succeed. -/
def REnv.Lucky (env : REnv) : Prop := ∀ n, env.allocOk n = true

theorem readU8_byte {d : Bytes} {pos : Nat} {fl : Bool} {n : Nat} (hd : Small d) (hn : n < 256)
    (h : Has d pos [UInt8.ofNat n]) : readU8 ⟨d, pos, fl⟩ = .ok n ⟨d, pos + 1, fl⟩ :=
  readU8_has hd hn (by rw [number_one]; exact h)

theorem readKey_has (env : REnv) {d : Bytes} {pos : Nat} {fl : Bool} {key : Bytes} (hd : Small d) (hk : key.length ≤ 40)
    (h : Has d pos key) :
    readKey env key.length ⟨d, pos, fl⟩ =
      .ok (key.length, key ++ env.junkKey.toList.drop key.length) ⟨d, pos + key.length, fl⟩ := by
  rw [readKey, Prog.bind_ok (readRaw_has hd h key.length 40 rfl hk)]
  rfl

theorem resizeTo_ok {env : REnv} (he : env.Lucky) {n elem : Nat} (h : n * elem < 2 ^ 63) (s : RStream) :
    resizeTo env n elem s = .ok () s := by
  rw [resizeTo, if_neg (by rw [he]; simp; omega)]
  rfl

theorem resizeBool_ok {env : REnv} (he : env.Lucky) {n : Nat} (h : n < 2 ^ 63) (s : RStream) :
    resizeBool env n s = .ok () s := by
  rw [resizeBool, if_neg (by rw [he]; simp; omega)]
  rfl

/-- The parts of a large block in the buffer. -/
theorem Has.large {d : Bytes} {pos : Nat} {fl : Bool} {vt : Nat} {key payload : Bytes}
    (h : Has d pos (Spec.largeBlock fl vt key payload)) :
    Has d pos [UInt8.ofNat vt] ∧ Has d (pos + 1) (Spec.number fl 8 (1 + key.length + payload.length)) ∧
      Has d (pos + 9) [UInt8.ofNat key.length] ∧ Has d (pos + 10) key ∧ Has d (pos + 10 + key.length) payload := by
  rw [Spec.largeBlock, Has.append, Has.append, Has.append, Has.append] at h
  obtain ⟨⟨⟨⟨h1, h2⟩, h3⟩, h4⟩, h5⟩ := h
  simp only [List.length_append, List.length_singleton, number_length] at h2 h3 h4 h5
  exact ⟨h1, h2, h3, h4, by rw [Nat.add_assoc]; exact h5⟩

theorem beginReadLarge_has (env : REnv) {d : Bytes} {pos : Nat} {fl : Bool} {vt : Nat} {key payload : Bytes} (hd : Small d)
    (hvt : vt < 256) (hk : key.length ≤ 40) (h : Has d pos (Spec.largeBlock fl vt key payload)) :
    beginReadLargeBlock env vt key ⟨d, pos, fl⟩ =
      .ok (pos + 10 + key.length + payload.length) ⟨d, pos + 10 + key.length, fl⟩ := by
  obtain ⟨h1, h2, h3, h4, h5⟩ := h.large
  have hl := h5.len
  have e1 := readU8_byte (fl := fl) hd hvt h1
  have e2 := readU64_has (fl := fl) hd (by omega) h2
  have e3 := readU8_byte (fl := fl) hd (by omega) h3
  have e4 := readKey_has env (fl := fl) hd hk h4
  have hw : wrap64 (pos + 1 + 8 + (1 + key.length + payload.length)) = pos + 10 + key.length + payload.length := by
    rw [wrap64, Nat.mod_eq_of_lt (by omega)]; omega
  have hle : ¬ pos + 10 + key.length + payload.length > d.length := by omega
  have ht : (key ++ env.junkKey.toList.drop key.length).take key.length = key := List.take_left
  simp only [beginReadLargeBlock, Prog.bind_apply, Prog.get_apply, Prog.ite_apply, e1, e2, e3, e4, hw, RStream.size, if_neg hle,
    Prog.pure_apply, ne_eq, not_true_eq_false, if_false, ht]

theorem endReadLarge_ok {s : RStream} {e : Nat} (h : s.pos = e) : endReadLargeBlock e s = .ok true s := by
  subst h
  simp only [endReadLargeBlock, Prog.bind_apply, Prog.get_apply, Prog.pure_apply, beq_self_eq_true]

/-! ## Single values -/

theorem Has.small {d : Bytes} {pos : Nat} {vt : Nat} {value key : Bytes}
    (h : Has d pos (Spec.smallBlock vt value key)) :
    Has d pos [UInt8.ofNat vt] ∧ Has d (pos + 1) [UInt8.ofNat (value.length + key.length)] ∧
      Has d (pos + 2) value ∧ Has d (pos + 2 + value.length) key := by
  rw [Spec.smallBlock, Has.append, Has.append, Has.cons] at h
  obtain ⟨⟨⟨h1, h2⟩, h3⟩, h4⟩ := h
  exact ⟨h1, h2, h3, by rw [List.length_append, ← Nat.add_assoc] at h4; exact h4⟩

theorem readSingleItems_some (env : REnv) (vt : Nat) (hvt : vt < 256) (sc : Sc) (n : Nat) (hn : sc.size * n ≤ 128)
    (key : Bytes) (hk : key.length ≤ 40) (ea : Bool) (fl : Bool) (l : List sc.Val) (hl : l.length = n) :
    Consumes (readSingleItems env vt sc n key ea) fl (.success l) (Spec.smallBlock vt (Spec.scalars fl sc l) key) := by
  intro d pos hd h
  obtain ⟨h1, h2, h3, h4⟩ := h.small
  have hlen := h4.len
  have hsl : (Spec.scalars fl sc l).length = sc.size * n := by rw [scalars_length, hl, Nat.mul_comm]
  rw [hsl] at h2 h4 hlen
  have e1 := readU8_byte (fl := fl) hd hvt h1
  have e2 : readU8 ⟨d, pos + 1, fl⟩ = _ := readU8_byte (fl := fl) hd (by omega) h2
  rw [show pos + 1 + 1 = pos + 2 from rfl] at e2
  have e3 := readItems_has sc l (List.replicate n sc.zero) hd h3 n hl.symm (by simp)
  rw [hl, Nat.mul_comm] at e3
  have e4 := readKey_has env (fl := fl) hd hk h4
  have hw : wrap64 (pos + 2 + (sc.size * n + key.length)) = pos + 2 + sc.size * n + key.length := by
    rw [wrap64, Nat.mod_eq_of_lt (by omega)]; omega
  have ht : (key ++ env.junkKey.toList.drop key.length).take key.length = key := List.take_left
  have hb : pos + (Spec.smallBlock vt (Spec.scalars fl sc l) key).length = pos + 2 + sc.size * n + key.length := by
    rw [smallBlock_length, hsl]; omega
  rw [hb]
  simp only [readSingleItems, Prog.bind_apply, Prog.get_apply, Prog.ite_apply, e1, e2, e3, e4, hw,
    Prog.pure_apply, ne_eq, not_true_eq_false, if_false, ht, or_self]

theorem readSingleItems_none (env : REnv) (vt : Nat) (hvt : vt < 256) (sc : Sc) (n : Nat) (h0 : 0 < sc.size * n)
    (key : Bytes) (hk : key.length ≤ 40) (fl : Bool) :
    Consumes (readSingleItems env vt sc n key true) fl .successEmpty (Spec.smallBlock vt [] key) := by
  intro d pos hd h
  obtain ⟨h1, h2, h3, h4⟩ := h.small
  have hlen := h4.len
  rw [List.length_nil, Nat.zero_add] at h2 
  rw [List.length_nil, Nat.add_zero] at h4 hlen
  have e1 := readU8_byte (fl := fl) hd hvt h1
  have e2 : readU8 ⟨d, pos + 1, fl⟩ = _ := readU8_byte (fl := fl) hd (by omega) h2
  rw [show pos + 1 + 1 = pos + 2 from rfl] at e2
  have e4 := readKey_has env (fl := fl) hd hk h4
  have hw : wrap64 (pos + 2 + key.length) = pos + 2 + key.length := by
    rw [wrap64, Nat.mod_eq_of_lt (by omega)]
  have ht : (key ++ env.junkKey.toList.drop key.length).take key.length = key := List.take_left
  have hb : pos + (Spec.smallBlock vt [] key).length = pos + 2 + key.length := by
    rw [smallBlock_length, List.length_nil]; omega
  have hne : ¬ key.length = sc.size * n + key.length := by omega
  rw [hb]
  simp only [readSingleItems, Prog.bind_apply, Prog.get_apply, Prog.ite_apply, e1, e2, e4, hw, hne,
    Prog.pure_apply, ne_eq, not_true_eq_false, not_false_eq_true, if_false, if_true, ht, or_self, Bool.not_true, Bool.false_eq_true] 

theorem readSingleBool_some (env : REnv) (key : Bytes) (hk : key.length ≤ 40) (ea : Bool) (fl b : Bool) :
    Consumes (readSingleBool env key ea) fl (.success b) (Spec.smallBlock 1 [if b then 1 else 0] key) := by
  intro d pos hd h
  have hs : [if b then (1 : Byte) else 0] = Spec.scalars fl .w1 [if b then 1#8 else 0#8] := by
    cases b <;> cases fl <;> decide
  rw [hs] at h ⊢
  have e := readSingleItems_some env 1 (by decide) .w1 1 (by decide) key hk ea fl _ rfl d pos hd h
  rw [readSingleBool, Prog.bind_ok e]
  cases b <;> rfl

theorem readSingleBool_none (env : REnv) (key : Bytes) (hk : key.length ≤ 40) (fl : Bool) :
    Consumes (readSingleBool env key true) fl .successEmpty (Spec.smallBlock 1 [] key) := by
  intro d pos hd h
  have e := readSingleItems_none env 1 (by decide) .w1 1 (by decide) key hk fl d pos hd h
  rw [readSingleBool, Prog.bind_ok e]
  rfl

theorem readSingleString_some {env : REnv} (he : env.Lucky) (key : Bytes) (hk : key.length ≤ 40) (ea : Bool) (fl : Bool) (x : Bytes) :
    Consumes (readSingleString env key ea) fl (.success x) (Spec.largeBlock fl vtString key (Spec.sizedString fl x)) := by
  intro d pos hd h
  have e1 := beginReadLarge_has env hd (by decide) hk h
  obtain ⟨-, -, -, -, h5⟩ := h.large
  rw [sizedString_length] at e1
  rw [Spec.sizedString, Has.append, number_length] at h5
  have hl := h5.2.len
  have e2 := readU64_has (fl := fl) hd (by omega) h5.1
  have e3 := readRaw_has (fl := fl) hd h5.2 x.length x.length rfl (Nat.le_refl _)
  have hb : pos + (Spec.largeBlock fl vtString key (Spec.sizedString fl x)).length = pos + 10 + key.length + (8 + x.length) := by
    rw [largeBlock_length, sizedString_length]; omega
  have hs : sub64 (pos + 10 + key.length + (8 + x.length)) (pos + 10 + key.length + 8) = x.length := by
    rw [sub64_of_le (by omega) (by omega)]; omega
  have c1 : ¬ pos + 10 + key.length + (8 + x.length) = 0 := by omega
  have c2 : ¬ pos + 10 + key.length = pos + 10 + key.length + (8 + x.length) := by omega
  have c3 : pos + 10 + key.length + 8 + x.length = pos + 10 + key.length + (8 + x.length) := by omega
  have c4 : ¬ x.length > x.length := by omega
  rw [hb]
  have hr := resizeTo_ok he (n := x.length) (elem := 1) (by omega) ⟨d, pos + 10 + key.length + 8, fl⟩
  generalize pos + 10 + key.length + (8 + x.length) = E at *
  generalize hp : pos + 10 + key.length = P at *
  rw [readSingleString, Prog.bind_ok e1, if_neg c1, Prog.bind_ok (Prog.get_apply _), if_neg (show ¬ (⟨d, P, fl⟩ : RStream).pos = E from c2),
    Prog.bind_ok e2, Prog.bind_ok (Prog.get_apply _), if_neg (show ¬ x.length > sub64 E (P + 8) by rw [hs]; exact c4),
    Prog.bind_ok hr, Prog.bind_ok e3, if_neg (fun hc => hc.2 rfl), Prog.bind_ok (endReadLarge_ok c3), if_neg (by decide), Prog.pure_apply,
    c3]

theorem readSingleString_none (env : REnv) (key : Bytes) (hk : key.length ≤ 40) (fl : Bool) :
    Consumes (readSingleString env key true) fl .successEmpty (Spec.largeBlock fl vtString key []) := by
  intro d pos hd h
  have e1 := beginReadLarge_has env hd (by decide) hk h
  have hb : pos + (Spec.largeBlock fl vtString key []).length = pos + 10 + key.length := by
    rw [largeBlock_length, List.length_nil]; omega
  rw [List.length_nil, Nat.add_zero] at e1
  have c1 : ¬ pos + 10 + key.length = 0 := by omega
  rw [hb]
  rw [readSingleString, Prog.bind_ok e1, if_neg c1, Prog.bind_ok (Prog.get_apply _), if_pos rfl, if_pos rfl,
    Prog.bind_ok (endReadLarge_ok (s := ⟨d, pos + 10 + key.length, fl⟩) (e := pos + 10 + key.length) rfl), if_neg (by decide), Prog.pure_apply]

end ISD
