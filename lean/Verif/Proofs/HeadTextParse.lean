import Verif.Proofs.HeadTextLex
import Verif.Proofs.OverExec

/-!
# ISD_EntityWriter.h and ISD_EntityReader.h parse: the declarations
-/

namespace ISD.Head

open Cpp (Raw Name Ty)
open DynText (w y expect expect_append)

set_option maxRecDepth 20000

/-! ## Parsing -/

theorem pTy_tok (c : Container) (t : Name) (ts : List Raw) (h1 : ∀ ts', ts ≠ y '<' :: ts') (h2 : ∀ ts', ts ≠ y ':' :: ts') : pTy (tyTok c t ++ ts) = some ((c, t), ts) := by
  cases c with
  | none =>
    rw [tyTok, List.singleton_append]
    cases ts with
    | nil => rfl
    | cons x ts =>
      unfold pTy
      split
      · next e => exact absurd (congrArg List.tail e) (by intro e; exact h2 _ e)
      · next e => exact absurd (congrArg List.tail e) (by intro e; exact h1 _ e)
      · next e => simp only [List.cons.injEq, Raw.word.injEq] at e; obtain ⟨rfl, rfl⟩ := e; rfl
      · next e => exact absurd rfl (e _ _)
  | optionalValue => rfl
  | vector => rfl
  | optionalVector => rfl
  | idxVector => rfl
  | optionalIdxVector => rfl

/-- What a declaration says. -/
def declOf (isConst : Bool) (ty : Ty) : Decl := ⟨ty, ty, isConst⟩

theorem pDecl_tok {name : String} (isConst : Bool) (c : Container) (t : Name) (ht : t ≠ "const".toList) (ts : List Raw) :
    pDecl name (declTok name isConst c t ++ ts) = some (declOf isConst (c, t), ts) := by
  have e1 : ∀ r, pTy (tyTok c t ++ ([y '>'] ++ parameters ++ r)) = some ((c, t), [y '>'] ++ parameters ++ r) := fun r =>
    pTy_tok c t _ (fun _ h => by cases h) (fun _ h => by cases h)
  have e2 : ∀ r, pTy (tyTok c t ++ ([y '&', w "value", y ')', y ';'] ++ r)) = some ((c, t), [y '&', w "value", y ')', y ';'] ++ r) := fun r =>
    pTy_tok c t _ (fun _ h => by cases h) (fun _ h => by cases h)
  have e3 : ∀ r, expect [w "const"] (tyTok c t ++ r) = none := by
    intro r
    cases c with
    | none => exact if_neg fun e => ht (Raw.word.inj e).symm
    | optionalValue => rfl
    | vector => rfl
    | optionalVector => rfl
    | idxVector => rfl
    | optionalIdxVector => rfl
  cases isConst with
  | true =>
    simp only [pDecl, declTok, List.append_assoc, expect_append, Option.bind_eq_bind, Option.bind_some, if_true]
    rw [← List.append_assoc [y '>'], e1]
    simp only [Option.bind_some, expect_append, e2]
    rfl
  | false =>
    simp only [pDecl, declTok, List.append_assoc, expect_append, Option.bind_eq_bind, Option.bind_some, Bool.false_eq_true, if_false, List.nil_append]
    rw [← List.append_assoc [y '>'], e1]
    simp only [Option.bind_some, expect_append, e2, e3]
    rfl

theorem pDecls_tok {name : String} (isConst : Bool) (rest : List Raw) : ∀ (tys : List Ty) (n : Nat), tys.length < n → (∀ p ∈ tys, p.2 ≠ "const".toList) →
    pDecls name n ((tys.flatMap fun p => declTok name isConst p.1 p.2) ++ ([y '}', y ';'] ++ rest)) = some (tys.map (declOf isConst), rest) := by
  intro tys
  induction tys with
  | nil =>
    intro n hn _
    cases n with
    | zero => cases hn
    | succ n => rfl
  | cons p tys ih =>
    intro n hn h
    cases n with
    | zero => cases hn
    | succ n =>
      have h1 := pDecl_tok (name := name) isConst p.1 p.2 (h p (List.mem_cons_self ..)) ((tys.flatMap fun p => declTok name isConst p.1 p.2) ++ ([y '}', y ';'] ++ rest))
      have h2 := ih n (Nat.lt_of_succ_lt_succ hn) fun q hq => h q (List.mem_cons_of_mem _ hq)
      rw [List.flatMap_cons, List.append_assoc, pDecls]
      · rw [h1]
        simp only [Option.bind_eq_bind, Option.bind_some, h2]
        rfl
      · intro ts e
        exact absurd (congrArg List.head? e) (by simp [declTok, w, y])

/-! ## The headers -/

theorem order_names : ∀ p ∈ order, p.2 ≠ "const".toList := by
  have h : ∀ b ∈ Over.baseTypes, ∀ v ∈ b.variants, v.implementingType.toList ≠ "const".toList := by decide +kernel
  have h' : ∀ cs, ∀ p ∈ tys cs Over.baseTypes, p.2 ≠ "const".toList := by
    intro cs p hp
    simp only [tys, List.mem_flatMap, List.mem_map] at hp
    obtain ⟨b, hb, v, hv, c, -, rfl⟩ := hp
    exact h b hb v hv
  intro p hp
  rw [order, List.mem_append] at hp
  exact hp.elim (h' _ p) (h' _ p)

theorem declTok_length (name : String) (isConst : Bool) (l : List Ty) : l.length ≤ (l.flatMap fun p => declTok name isConst p.1 p.2).length := by
  induction l with
  | nil => exact Nat.le_refl _
  | cons p l ih =>
    rw [List.flatMap_cons, List.length_append, List.length_cons]
    have : 1 ≤ (declTok name isConst p.1 p.2).length := by
      rw [declTok, List.length_append]
      exact Nat.le_trans (by decide : 1 ≤ 6) (Nat.le_add_right _ _)
    omega

theorem mem_order (c : Container) (name : Name) : (c, name) ∈ order ↔ ∃ d ∈ allTypes, d.name.toList = name := by
  constructor
  · intro h
    have h' : ∀ cs, (c, name) ∈ tys cs Over.baseTypes → ∃ d ∈ allTypes, d.name.toList = name := by
      intro cs hp
      simp only [tys, List.mem_flatMap, List.mem_map, Prod.mk.injEq] at hp
      obtain ⟨b, hb, v, hv, c', -, -, e⟩ := hp
      obtain ⟨d, hd, e'⟩ := Over.listed b hb v hv
      exact ⟨d, hd, e'.trans e⟩
    rw [order, List.mem_append] at h
    exact h.elim (h' _) (h' _)
  · rintro ⟨d, hd, rfl⟩
    obtain ⟨b, v, h⟩ := Over.row_of hd
    have h' : ∀ cs, c ∈ cs → (c, d.name.toList) ∈ tys cs Over.baseTypes := by
      intro cs hc
      exact List.mem_flatMap.mpr ⟨b, h.inTable, List.mem_flatMap.mpr ⟨v, h.inBase, List.mem_map.mpr ⟨c, hc, by rw [h.name]⟩⟩⟩
    rw [order, List.mem_append]
    cases c
    · exact Or.inl (h' _ (by decide))
    · exact Or.inl (h' _ (by decide))
    · exact Or.inr (h' _ (by decide))
    · exact Or.inr (h' _ (by decide))
    · exact Or.inr (h' _ (by decide))
    · exact Or.inr (h' _ (by decide))

theorem order_nodup : order.Nodup := by decide +kernel

/-- The members of the writer. -/
def writerMembers : List Member := [.reference "MemoryWriteStream".toList "dstream".toList, .constant "start_position".toList,
  .owner "EntityWriter".toList "active_subsection".toList, .number "active_array_size".toList true, .number "active_array_index".toList false,
  .number "active_array_index_start_position".toList true]

/-- The members of the reader. -/
def readerMembers : List Member := [.reference "MemoryReadStream".toList "sstream".toList, .constant "end_position".toList,
  .owner "EntityReader".toList "active_subsection".toList, .number "active_subsection_array_size".toList true, .number "active_subsection_index".toList false,
  .number "active_subsection_end_pos".toList true]

/-- `EntityWriter( …`: a method, of which the first token is not `public`. -/
theorem writer_members (n : Nat) (x : Name) (ts : List Raw) : pMembers (n + 7) (writerMemberTok ++ (.word x :: ts)) = some (writerMembers, .word x :: ts) := rfl

theorem reader_members (n : Nat) (x : Name) (ts : List Raw) : pMembers (n + 7) (readerMemberTok ++ (.word x :: ts)) = some (readerMembers, .word x :: ts) := rfl

theorem parse_frame (f : Frame) (isConst : Bool) (memberTok : List Raw) (ms : List Member) (l : List Ty) (hl : ∀ p ∈ l, p.2 ≠ "const".toList)
    (hm : ∀ n ts, pMembers (n + 7) (memberTok ++ (f.methods ++ ts)) = some (ms, f.methods ++ ts)) (hb : 7 ≤ f.before.length) :
    parse f ((f.before ++ (memberTok ++ f.methods)) ++ (l.flatMap fun p => declTok f.name isConst p.1 p.2) ++ ([y '}', y ';'] ++ f.after)) =
      some ⟨ms, l.map (declOf isConst)⟩ := by
  simp only [List.append_assoc]
  generalize hn : (f.before ++ (memberTok ++ (f.methods ++ ((l.flatMap fun p => declTok f.name isConst p.1 p.2) ++ ([y '}', y ';'] ++ f.after))))).length = n
  have h2 : l.length < n := by
    rw [← hn]
    simp only [List.length_append]
    have := declTok_length f.name isConst l
    omega
  obtain ⟨m, rfl⟩ : ∃ m, n = m + 7 := ⟨n - 7, by
    rw [← hn, List.length_append] at *
    omega⟩
  have e1 := hm m ((l.flatMap fun p => declTok f.name isConst p.1 p.2) ++ ([y '}', y ';'] ++ f.after))
  have e2 := pDecls_tok (name := f.name) isConst f.after l (m + 7) h2 hl
  have e3 : expect f.after f.after = some [] := by
    have := expect_append f.after []
    rwa [List.append_nil] at this
  rw [parse, hn]
  simp only [Option.bind_eq_bind, Option.bind_some, expect_append, e1]
  rw [e2]
  simp only [Option.bind_some, e3]
  rfl

theorem writer_tokens : tokens writerText = (writerFrame.before ++ (writerMemberTok ++ writerFrame.methods)) ++
    (order.flatMap fun p => declTok writerFrame.name true p.1 p.2) ++ ([y '}', y ';'] ++ writerFrame.after) := by
  obtain ⟨h1, h2⟩ := declarations_tokens (fun t ht => writer_base ht) (fun t ht => writer_arrays ht)
  rw [writerText, tokens_lines, writerLines, List.flatMap_append, List.flatMap_append, writer_head.2, h2, writer_tail.2]
  · rfl
  · intro l hl
    rw [writerLines, List.mem_append, List.mem_append] at hl
    rcases hl with (hl | hl) | hl
    · exact writer_head.1 l hl
    · exact h1 l hl
    · exact writer_tail.1 l hl

theorem reader_tokens : tokens readerText = (readerFrame.before ++ (readerMemberTok ++ readerFrame.methods)) ++
    (order.flatMap fun p => declTok readerFrame.name false p.1 p.2) ++ ([y '}', y ';'] ++ readerFrame.after) := by
  obtain ⟨h1, h2⟩ := declarations_tokens (fun t ht => reader_base ht) (fun t ht => reader_arrays ht)
  rw [readerText, tokens_lines, readerLines, List.flatMap_append, List.flatMap_append, reader_head.2, h2, reader_tail.2]
  · rfl
  · intro l hl
    rw [readerLines, List.mem_append, List.mem_append] at hl
    rcases hl with (hl | hl) | hl
    · exact reader_head.1 l hl
    · exact h1 l hl
    · exact reader_tail.1 l hl

/-- What ISD_EntityWriter.h says. -/
def writerHeader : Header := ⟨writerMembers, order.map (declOf true)⟩

/-- What ISD_EntityReader.h says. -/
def readerHeader : Header := ⟨readerMembers, order.map (declOf false)⟩

theorem parse_writer : parse writerFrame (tokens writerText) = some writerHeader := by
  rw [writer_tokens]
  exact parse_frame writerFrame true _ writerMembers order order_names (fun n ts => writer_members n _ _) (by decide)

theorem parse_reader : parse readerFrame (tokens readerText) = some readerHeader := by
  rw [reader_tokens]
  exact parse_frame readerFrame false _ readerMembers order order_names (fun n ts => reader_members n _ _) (by decide)

theorem filter_one {α : Type} [BEq α] [LawfulBEq α] [DecidableEq α] {a : α} : ∀ {l : List α}, l.Nodup → l.filter (fun b => b == a) = if a ∈ l then [a] else []
  | [], _ => rfl
  | b :: l, h => by
    obtain ⟨h1, h2⟩ := List.nodup_cons.1 h
    rw [List.filter_cons, filter_one h2]
    by_cases e : b = a
    · subst e
      rw [if_pos (beq_self_eq_true b), if_neg h1, if_pos (List.mem_cons_self ..)]
    · rw [if_neg (by rw [beq_iff_eq]; exact e)]
      by_cases hm : a ∈ l
      · rw [if_pos hm, if_pos (List.mem_cons_of_mem _ hm)]
      · rw [if_neg hm, if_neg fun h' => (List.mem_cons.1 h').elim (fun e' => e e'.symm) hm]

theorem declares_iff (ms : List Member) (isConst : Bool) (ty : Ty) : (Header.mk ms (order.map (declOf isConst))).declares isConst ty = decide (ty ∈ order) := by
  have h : ((order.map (declOf isConst)).filter fun d => d.ty == ty) = (order.filter fun t => t == ty).map (declOf isConst) := by
    rw [List.filter_map]; rfl
  rw [Header.declares, h, filter_one order_nodup]
  by_cases hm : ty ∈ order
  · rw [if_pos hm, decide_eq_true hm]
    show (ty == ty && isConst == isConst) = true
    rw [beq_self_eq_true, beq_self_eq_true]; rfl
  · rw [if_neg hm, decide_eq_false hm]; rfl

end ISD.Head
