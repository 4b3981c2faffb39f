import Verif.Model.Sha

/-!
# C46: the digest does not depend on how the data is split
-/

namespace ISD
namespace Sha

/-- The library computes `H`: fed with any pieces whose lengths are positive `int`s, it gives the hash of them joined. -/
def Computes (c : HashCore) (H : Bytes → Bytes) : Prop :=
  ∀ pieces : List Bytes, (∀ p ∈ pieces, 0 < p.length ∧ p.length ≤ 2 ^ 31 - 1) →
    c.final (pieces.foldl c.update c.init) = H pieces.flatten

/-- The pieces `Update` hands to the library. -/
theorem update_pieces (c : HashCore) (data : Bytes) : ∃ pieces : List Bytes,
    (∀ p ∈ pieces, 0 < p.length ∧ p.length ≤ 2 ^ 31 - 1) ∧ pieces.flatten = data ∧
      ∀ m, update c m data = pieces.foldl c.update m := by
  unfold update
  induction h : data.length using Nat.strongRecOn generalizing data with
  | _ n ih =>
    by_cases hd : data.length > 0
    · have him : intMax = 2147483647 := rfl
      generalize hl : (if data.length > intMax then intMax else data.length) = len
      have h1 : 0 < len ∧ len ≤ 2147483647 ∧ len ≤ data.length := by
        rw [← hl]; split <;> omega
      obtain ⟨ps, p1, p2, p3⟩ := ih (data.drop len).length (by rw [List.length_drop]; omega) (data.drop len) rfl
      refine ⟨data.take len :: ps, ?_, ?_, ?_⟩
      · intro p hp
        rcases List.mem_cons.1 hp with e | e
        · subst e
          rw [List.length_take, Nat.min_eq_left h1.2.2]
          exact ⟨h1.1, h1.2.1⟩
        · exact p1 p e
      · rw [List.flatten_cons, p2, List.take_append_drop]
      · intro m
        rw [updateLoop, dif_pos hd]
        dsimp only
        rw [hl, p3, List.foldl_cons]
    · have : data = [] := List.length_eq_zero_iff.1 (by omega)
      subst this
      exact ⟨[], fun _ h => (nomatch h), rfl, fun m => by rw [updateLoop, dif_neg hd]; rfl⟩

end Sha

open Sha

/-- **C46.** However the data is split between the constructor and any number of `Update` calls of any lengths (also
empty ones and ones above `INT_MAX`), `GetDigest` gives the hash of all of it joined. -/
theorem C46_split_independent {c : HashCore} {H : Bytes → Bytes} (hc : Computes c H) (first : Option Bytes)
    (rest : List Bytes) :
    getDigest c (rest.foldl (update c) (construct c first)) = H (first.getD [] ++ rest.flatten) := by
  have key : ∀ (rest : List Bytes) (m : c.Ctx) (ps : List Bytes),
      (∀ p ∈ ps, 0 < p.length ∧ p.length ≤ 2 ^ 31 - 1) → m = ps.foldl c.update c.init →
      getDigest c (rest.foldl (update c) m) = H (ps.flatten ++ rest.flatten) := by
    intro rest
    induction rest with
    | nil =>
      intro m ps h1 h2
      subst h2
      rw [List.flatten_nil, List.append_nil]
      exact hc ps h1
    | cons d rest ih =>
      intro m ps h1 h2
      obtain ⟨qs, q1, q2, q3⟩ := update_pieces c d
      rw [List.foldl_cons, ih (update c m d) (ps ++ qs) (fun p hp => (List.mem_append.1 hp).elim (h1 p) (q1 p))
        (by rw [q3, h2, List.foldl_append])]
      rw [List.flatten_append, q2, List.flatten_cons, List.append_assoc]
  cases first with
  | none => exact key rest c.init [] (fun _ h => (nomatch h)) rfl
  | some d => exact key (d :: rest) c.init [] (fun _ h => (nomatch h)) rfl

/-- In particular two ways of splitting the same data give the same digest. -/
theorem C46_same_data {c : HashCore} {H : Bytes → Bytes} (hc : Computes c H) (a b : List Bytes)
    (h : a.flatten = b.flatten) :
    getDigest c (a.foldl (update c) (construct c none)) = getDigest c (b.foldl (update c) (construct c none)) := by
  rw [C46_split_independent hc, C46_split_independent hc, h]

/-- Such cores exist: the one that keeps all the data and hashes it at the end. -/
theorem keepAll_computes (H : Bytes → Bytes) :
    Computes ⟨Bytes, [], fun m d => m ++ d, H⟩ H := by
  intro ps _
  show H (ps.foldl (fun m d => m ++ d) []) = H ps.flatten
  have : ∀ (ps : List Bytes) (m : Bytes), ps.foldl (fun m d => m ++ d) m = m ++ ps.flatten := by
    intro ps
    induction ps with
    | nil => intro m; simp
    | cons p ps ih => intro m; rw [List.foldl_cons, ih, List.flatten_cons, List.append_assoc]
  rw [this]
  rfl

end ISD
