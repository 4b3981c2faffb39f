import Verif.Model.Graph

/-! # Facts about ordered sets -/

namespace ISD

namespace OrdSet

variable {α : Type} [SOrd α]

/-- Strictly ascending. -/
def Sorted (l : List α) : Prop := l.Pairwise fun a b => SOrd.lt a b = true

theorem asymm {a b : α} (h : SOrd.lt a b = true) : SOrd.lt b a = false := by
  rw [Bool.eq_false_iff]
  intro h2
  have := SOrd.trans _ _ _ h h2
  rw [SOrd.irrefl] at this; cases this

theorem eq_iff (a b : α) : (!SOrd.lt a b && !SOrd.lt b a) = true ↔ a = b := by
  constructor
  · intro h
    rw [Bool.and_eq_true, Bool.not_eq_true', Bool.not_eq_true'] at h
    rcases SOrd.tri a b with h1 | h1 | h1
    · rw [h1] at h; cases h.1
    · exact h1
    · rw [h1] at h; cases h.2
  · rintro rfl; rw [SOrd.irrefl]; rfl

theorem contains_iff (l : List α) (x : α) : contains l x = true ↔ x ∈ l := by
  rw [contains, List.any_eq_true]
  constructor
  · rintro ⟨y, hy, h⟩
    rw [(eq_iff x y).mp h]; exact hy
  · intro h; exact ⟨x, h, (eq_iff x x).mpr rfl⟩

theorem contains_false (l : List α) (x : α) : contains l x = false ↔ x ∉ l := by
  rw [← contains_iff, Bool.not_eq_true]

theorem not_contains (l : List α) (x : α) : (!contains l x) = true ↔ x ∉ l := by
  rw [Bool.not_eq_true', contains_false]

theorem mem_insert (x y : α) (l : List α) : y ∈ insert x l ↔ y = x ∨ y ∈ l := by
  induction l with
  | nil => simp [insert]
  | cons z l ih =>
    rw [insert]
    split
    · simp
    · rename_i h1
      split
      · rw [List.mem_cons, ih, List.mem_cons]
        constructor
        · rintro (h | h | h)
          · exact Or.inr (Or.inl h)
          · exact Or.inl h
          · exact Or.inr (Or.inr h)
        · rintro (h | h | h)
          · exact Or.inr (Or.inl h)
          · exact Or.inl h
          · exact Or.inr (Or.inr h)
      · rename_i h2
        have : x = z := by
          rcases SOrd.tri x z with h | h | h
          · exact absurd h h1
          · exact h
          · exact absurd h h2
        subst this
        rw [List.mem_cons]
        constructor
        · exact Or.inr
        · rintro (h | h)
          · exact Or.inl h
          · exact h

theorem sorted_insert (x : α) {l : List α} (h : Sorted l) : Sorted (insert x l) := by
  induction l with
  | nil => exact List.pairwise_singleton _ _
  | cons z l ih =>
    rw [insert]
    obtain ⟨h1, h2⟩ := List.pairwise_cons.mp h
    split
    · rename_i h3
      refine List.pairwise_cons.mpr ⟨fun y hy => ?_, h⟩
      rcases List.mem_cons.mp hy with rfl | hy
      · exact h3
      · exact SOrd.trans _ _ _ h3 (h1 y hy)
    · split
      · rename_i h4
        refine List.pairwise_cons.mpr ⟨fun y hy => ?_, ih h2⟩
        rcases (mem_insert x y l).mp hy with rfl | hy
        · exact h4
        · exact h1 y hy
      · exact h

theorem mem_erase (x y : α) (l : List α) : y ∈ erase x l ↔ y ∈ l ∧ y ≠ x := by
  rw [erase, List.mem_filter]
  constructor
  · rintro ⟨h1, h2⟩
    refine ⟨h1, ?_⟩
    rintro rfl
    rw [SOrd.irrefl] at h2; cases h2
  · rintro ⟨h1, h2⟩
    refine ⟨h1, ?_⟩
    rcases SOrd.tri x y with h | h | h
    · rw [h]; rfl
    · exact absurd h.symm h2
    · rw [h, Bool.or_true]

theorem sorted_erase (x : α) {l : List α} (h : Sorted l) : Sorted (erase x l) := h.filter _

theorem mem_foldl_insert (l s : List α) (y : α) : y ∈ l.foldl (fun s x => insert x s) s ↔ y ∈ l ∨ y ∈ s := by
  induction l generalizing s with
  | nil => simp
  | cons x l ih =>
    rw [List.foldl_cons, ih, mem_insert, List.mem_cons]
    constructor
    · rintro (h | h | h)
      · exact Or.inl (Or.inr h)
      · exact Or.inl (Or.inl h)
      · exact Or.inr h
    · rintro ((h | h) | h)
      · exact Or.inr (Or.inl h)
      · exact Or.inl h
      · exact Or.inr (Or.inr h)

theorem mem_ofList (l : List α) (y : α) : y ∈ ofList l ↔ y ∈ l := by
  rw [ofList, mem_foldl_insert]; simp

theorem sorted_ofList (l : List α) : Sorted (ofList l) := by
  have : ∀ (l s : List α), Sorted s → Sorted (l.foldl (fun s x => insert x s) s) := by
    intro l
    induction l with
    | nil => exact fun s h => h
    | cons x l ih => exact fun s h => ih _ (sorted_insert x h)
  exact this l [] List.Pairwise.nil

/-- Sets with the same elements are the same. -/
theorem sorted_ext {l r : List α} (hl : Sorted l) (hr : Sorted r) (h : ∀ x, x ∈ l ↔ x ∈ r) : l = r := by
  induction l generalizing r with
  | nil =>
    cases r with
    | nil => rfl
    | cons y r => exact absurd ((h y).mpr (List.mem_cons_self ..)) (by simp)
  | cons x l ih =>
    cases r with
    | nil => exact absurd ((h x).mp (List.mem_cons_self ..)) (by simp)
    | cons y r =>
      obtain ⟨hl1, hl2⟩ := List.pairwise_cons.mp hl
      obtain ⟨hr1, hr2⟩ := List.pairwise_cons.mp hr
      have hxy : x = y := by
        rcases List.mem_cons.mp ((h x).mp (List.mem_cons_self ..)) with h1 | h1
        · exact h1
        · rcases List.mem_cons.mp ((h y).mpr (List.mem_cons_self ..)) with h2 | h2
          · exact h2.symm
          · have := SOrd.trans _ _ _ (hr1 x h1) (hl1 y h2)
            rw [SOrd.irrefl] at this; cases this
      subst hxy
      congr 1
      refine ih hl2 hr2 fun z => ?_
      have hz := h z
      rw [List.mem_cons, List.mem_cons] at hz
      constructor
      · intro hm
        rcases hz.mp (Or.inr hm) with rfl | h1
        · have := hl1 z hm; rw [SOrd.irrefl] at this; cases this
        · exact h1
      · intro hm
        rcases hz.mpr (Or.inr hm) with rfl | h1
        · have := hr1 z hm; rw [SOrd.irrefl] at this; cases this
        · exact h1

theorem ofList_sorted {l : List α} (h : Sorted l) : ofList l = l := sorted_ext (sorted_ofList l) h (mem_ofList l)

theorem Sorted.nodup {l : List α} (h : Sorted l) : l.Nodup := by
  refine List.Pairwise.imp ?_ h
  rintro a b hab rfl
  rw [SOrd.irrefl] at hab; cases hab

/-- In an ascending list dropping and taking while an order condition holds is filtering. -/
theorem dropWhile_filter {l : List α} (h : Sorted l) (p : α → Bool)
    (hp : ∀ a b, SOrd.lt a b = true → p b = true → p a = true) : l.dropWhile p = l.filter fun x => !p x := by
  induction l with
  | nil => rfl
  | cons x l ih =>
    obtain ⟨h1, h2⟩ := List.pairwise_cons.mp h
    cases hx : p x with
    | true => rw [List.dropWhile_cons_of_pos hx, ih h2, List.filter_cons_of_neg (by simp [hx])]
    | false =>
      rw [List.dropWhile_cons_of_neg (by simp [hx]), List.filter_cons_of_pos (by simp [hx])]
      congr 1
      symm
      rw [List.filter_eq_self]
      intro y hy
      cases hyp : p y with
      | false => rfl
      | true => rw [hp x y (h1 y hy) hyp] at hx; cases hx

theorem take_filter {l : List α} (h : Sorted l) (p q : α → Bool)
    (hp : ∀ a b, SOrd.lt a b = true → p a = true → p b = true) (hq : ∀ a b, SOrd.lt a b = true → q a = true → q b = true)
    (hqp : ∀ a, q a = true → p a = true) :
    (l.filter p).take ((l.filter p).length - (l.filter q).length) = l.filter fun x => p x && !q x := by
  induction l with
  | nil => rfl
  | cons x l ih =>
    obtain ⟨h1, h2⟩ := List.pairwise_cons.mp h
    cases hx : p x with
    | false =>
      have hqx : q x = false := by rw [Bool.eq_false_iff]; intro hc; rw [hqp x hc] at hx; cases hx
      rw [List.filter_cons_of_neg (by simp [hx]), List.filter_cons_of_neg (by simp [hqx]), List.filter_cons_of_neg (by simp [hx])]
      exact ih h2
    | true =>
      rw [List.filter_cons_of_pos hx]
      cases hqx : q x with
      | true =>
        have e1 : l.filter p = l := List.filter_eq_self.mpr fun y hy => hp x y (h1 y hy) hx
        have e2 : l.filter q = l := List.filter_eq_self.mpr fun y hy => hq x y (h1 y hy) hqx
        rw [List.filter_cons_of_pos hqx, e1, e2, Nat.sub_self, List.take_zero, List.filter_cons_of_neg (by simp [hqx])]
        symm
        rw [List.filter_eq_nil_iff]
        intro y hy
        simp [hq x y (h1 y hy) hqx]
      | false =>
        rw [List.filter_cons_of_neg (by simp [hqx]), List.filter_cons_of_pos (by simp [hx, hqx]), List.length_cons]
        have hle : (l.filter q).length ≤ (l.filter p).length := by
          clear ih h h1 h2
          induction l with
          | nil => simp
          | cons y l ih =>
            cases hy : q y with
            | true => simpa [hy, hqp y hy] using ih
            | false =>
              cases hy2 : p y with
              | true => simp [hy, hy2]; omega
              | false => simpa [hy, hy2] using ih
        rw [Nat.succ_sub hle, List.take_succ_cons, ih h2]

end OrdSet

open OrdSet

namespace Graph

variable {α : Type} [NodeType α]

theorem lt_inf_iff (a : α) (e : α × α) : SOrd.lt e (a, (NodeType.inf : α)) = true ↔ SOrd.lt e.1 a = true := by
  show pairLt _ _ = true ↔ _
  rw [pairLt_iff]
  constructor
  · rintro (h | ⟨-, h⟩)
    · exact h
    · rw [NodeType.inf_le] at h; cases h
  · exact Or.inl

theorem sup_lt_iff (a : α) (e : α × α) : SOrd.lt (a, (NodeType.sup : α)) e = true ↔ SOrd.lt a e.1 = true := by
  show pairLt _ _ = true ↔ _
  rw [pairLt_iff]
  constructor
  · rintro (h | ⟨-, h⟩)
    · exact h
    · rw [NodeType.le_sup] at h; cases h
  · exact Or.inl

theorem lt_sup_iff (a : α) (e : α × α) : SOrd.lt e (a, (NodeType.sup : α)) = true ↔
    SOrd.lt e.1 a = true ∨ (e.1 = a ∧ e.2 ≠ NodeType.sup) := by
  show pairLt _ _ = true ↔ _
  rw [pairLt_iff]
  constructor
  · rintro (h | ⟨h1, h⟩)
    · exact Or.inl h
    · refine Or.inr ⟨h1, ?_⟩
      intro hc
      have h : SOrd.lt e.2 (NodeType.sup : α) = true := h
      rw [hc, SOrd.irrefl] at h; cases h
  · rintro (h | ⟨h1, h⟩)
    · exact Or.inl h
    · refine Or.inr ⟨h1, ?_⟩
      show SOrd.lt e.2 (NodeType.sup : α) = true
      rcases SOrd.tri e.2 (NodeType.sup : α) with h2 | h2 | h2
      · exact h2
      · exact absurd h2 h
      · rw [NodeType.le_sup] at h2; cases h2

theorem lt_trans_iff {a b : α} : SOrd.lt a b = false ↔ SOrd.lt b a = true ∨ a = b := by
  constructor
  · intro h
    rcases SOrd.tri a b with h2 | h2 | h2
    · rw [h2] at h; cases h
    · exact Or.inr h2
    · exact Or.inl h2
  · rintro (h | rfl)
    · exact asymm h
    · exact SOrd.irrefl _

/-- The children listed by the validations are the successors. -/
theorem mem_children {edges : List (α × α)} (h : Sorted edges) (a b : α) : b ∈ children edges a ↔ (a, b) ∈ edges := by
  have h1 : fromLower (a, (NodeType.inf : α)) edges = edges.filter fun e => !SOrd.lt e.1 a := by
    rw [fromLower, dropWhile_filter h _ (fun x y hxy hy => SOrd.trans _ _ _ hxy hy)]
    congr 1; funext e; rw [Bool.eq_iff_iff, Bool.not_eq_true', Bool.not_eq_true', ← Bool.not_eq_true, ← Bool.not_eq_true, lt_inf_iff]
  have h2 : fromUpper (a, (NodeType.sup : α)) edges = edges.filter fun e => SOrd.lt a e.1 := by
    rw [fromUpper, dropWhile_filter h]
    · congr 1; funext e
      rw [Bool.not_not, Bool.eq_iff_iff, sup_lt_iff]
    · intro x y hxy hy
      rw [Bool.not_eq_true'] at hy ⊢
      rw [Bool.eq_false_iff] at hy ⊢
      intro hc
      exact hy (SOrd.trans _ _ _ hc hxy)
  rw [children, h1, h2, between, take_filter h]
  · simp only [List.mem_map, List.mem_filter, Bool.and_eq_true, Bool.not_eq_true']
    constructor
    · rintro ⟨e, ⟨he, h3, h4⟩, rfl⟩
      have : e.1 = a := by
        rcases lt_trans_iff.mp h3 with h5 | h5
        · rw [h5] at h4; cases h4
        · exact h5
      rw [← this]; exact he
    · intro he
      exact ⟨(a, b), ⟨he, SOrd.irrefl _, SOrd.irrefl _⟩, rfl⟩
  · intro x y hxy hx
    have hxy : pairLt x y = true := hxy
    rw [Bool.not_eq_true'] at hx ⊢
    rw [Bool.eq_false_iff] at hx ⊢
    intro hc
    rcases (pairLt_iff x y).mp hxy with h3 | ⟨h3, -⟩
    · exact hx (SOrd.trans _ _ _ h3 hc)
    · rw [h3] at hx; exact hx hc
  · intro x y hxy hx
    have hxy : pairLt x y = true := hxy
    rcases (pairLt_iff x y).mp hxy with h3 | ⟨h3, -⟩
    · exact SOrd.trans _ _ _ hx h3
    · rw [← h3]; exact hx
  · intro e he
    rw [Bool.not_eq_true']; exact asymm he

/-- `GetSuccessors` leaves out the largest node value. -/
theorem getSuccessors_eq {g : Graph α} (h : Sorted g.edges) (a : α) :
    g.getSuccessors a = g.edges.filter fun e => decide (e.1 = a ∧ e.2 ≠ NodeType.sup) := by
  have h1 : fromLower (a, (NodeType.inf : α)) g.edges = g.edges.filter fun e => !SOrd.lt e (a, (NodeType.inf : α)) :=
    dropWhile_filter h _ (fun x y hxy hy => SOrd.trans _ _ _ hxy hy)
  have h2 : fromLower (a, (NodeType.sup : α)) g.edges = g.edges.filter fun e => !SOrd.lt e (a, (NodeType.sup : α)) :=
    dropWhile_filter h _ (fun x y hxy hy => SOrd.trans _ _ _ hxy hy)
  have hmono : ∀ z x y : α × α, SOrd.lt x y = true → (!SOrd.lt x z) = true → (!SOrd.lt y z) = true := by
    intro z x y hxy hx
    rw [Bool.not_eq_true'] at hx ⊢
    rw [Bool.eq_false_iff] at hx ⊢
    exact fun hc => hx (SOrd.trans _ _ _ hxy hc)
  rw [getSuccessors, h1, h2, between, take_filter h _ _ (hmono _) (hmono _)]
  · congr 1; funext e
    rw [Bool.not_not, Bool.eq_iff_iff, Bool.and_eq_true, Bool.not_eq_true', decide_eq_true_iff, lt_sup_iff, ← Bool.not_eq_true, lt_inf_iff,
      Bool.not_eq_true]
    constructor
    · rintro ⟨h3, h4 | h4⟩
      · rw [h3] at h4; cases h4
      · exact h4
    · intro h4; exact ⟨by rw [h4.1]; exact SOrd.irrefl _, Or.inr h4⟩
  · intro e he
    rw [Bool.not_eq_true', ← Bool.not_eq_true] at he ⊢
    rw [lt_sup_iff] at he
    rw [lt_inf_iff]
    exact fun hc => he (Or.inl hc)

end Graph

end ISD
