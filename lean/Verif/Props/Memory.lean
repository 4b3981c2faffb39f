import Verif.Proofs.Memory
import Verif.Props.HostileEntity

/-!
# C60: how much memory a read asks for

The reader resizes its vectors and strings to the counts it finds in the stream, after comparing them with what is left of the block.
-/

namespace ISD

attribute [local irreducible] dynTable DynClass.all findTypeClass

/-- An allocator that grants every request of at most `B` bytes (and may refuse larger ones). -/
def GrantsUpTo (B : Nat) (env : REnv) : Prop := ∀ n, n ≤ B → env.allocOk n = true

/-- **C60** for the typed read calls: whatever the bytes, if a read returns true with some allocator, it returns true with the same result for
every allocator that grants requests of at most four times the length of the stream — so it never asks for more. -/
theorem C60_accepted_value_needs_little_memory_partial (env env' : REnv) (t : DataType) (ht : t ∈ allTypes) (c : Container) (k : Bytes)
    (hk : k.length ≤ 40) (dest : c.Val t.Val) (d : Bytes) (hd : d.length < 2 ^ 60) (p : Nat) (hp : p ≤ d.length) (fl : Bool)
    (hj : env'.junkKey = env.junkKey) (hB : GrantsUpTo (4 * d.length) env') (v : c.Val t.Val) (s : RStream)
    (h : readTyped env t c k dest ⟨d, p, fl⟩ = .ok (some v) s) :
    readTyped env' t c k dest ⟨d, p, fl⟩ = .ok (some v) s :=
  typed_follows hj hB hd hp (allTypes_ok t ht) c k hk dest _ _ h (fun e => nomatch e)

/-- **C60** for whole objects: every class — graph, indexed vector, Varying, table or generated entity, nested in any way. -/
theorem C60_accepted_object_needs_little_memory_partial {V : Type} {M : Managed V} {S : ClassSpec V} (hM : IsClass M S) (env env' : REnv)
    (fresh : Bytes → Nat) (dest : V) (hw : S.wf dest) (r : EReader) (d : Bytes) (hd : d.length < 2 ^ 60) (p : Nat) (hp : p ≤ d.length) (fl : Bool)
    (hj : env'.junkKey = env.junkKey) (hB : GrantsUpTo (4 * d.length) env') (v : V) (st : RSt)
    (h : M.read env fresh dest (r, ⟨d, p, fl⟩) = .ok (some v) st) :
    M.read env' fresh dest (r, ⟨d, p, fl⟩) = .ok (some v) st :=
  hM.onlyReads.modest hd env env' hj hB fresh dest hw r p hp _ _ h (fun e => nomatch e)

/-- Grants requests of less than 2^60 bytes. -/
def hugeEnv : REnv := ⟨fun n => decide (n < 2 ^ 60), Vector.replicate 40 0⟩

/-- Grants four times the length of `longSection`. -/
def modestEnv : REnv := ⟨fun n => decide (n ≤ 4 * longSection.length), Vector.replicate 40 0⟩

/-- An object read from a file that nobody wrote, with little memory. -/
example : ∃ v st, (entityMF demoSceneFields).read luckyEnv (fun _ => 1) (fieldsInit _) (EReader.create 0 0, ⟨longSection, 0, false⟩) =
    .ok (some v) st ∧ (entityMF demoSceneFields).read modestEnv (fun _ => 1) (fieldsInit _) (EReader.create 0 0, ⟨longSection, 0, false⟩) =
    .ok (some v) st := by
  obtain ⟨v, st, e⟩ := Res.accepted_iff (r := (entityMF demoSceneFields).read luckyEnv (fun _ => 1) (fieldsInit _) (EReader.create 0 0, ⟨longSection, 0, false⟩))
    (by decide +kernel)
  refine ⟨v, st, e, ?_⟩
  exact (scene_reads frontOrder frontOrder frontOrder).modest (by decide +kernel) luckyEnv modestEnv rfl (fun n hn => decide_eq_true hn) _ _
    (scene_reads frontOrder frontOrder frontOrder).init_wf _ 0 (Nat.zero_le _) _ _ e (fun h => nomatch h)

/-- A block of an array of strings whose size ends inside its own header, with 2^57 strings declared. -/
def greedyFile : Bytes :=
  [0xe1] ++ Spec.number false 8 3 ++ [1, 65] ++ Spec.number false 2 0 ++ Spec.number false 8 (2 ^ 57) ++ List.replicate 8 0xff

/-- How a call ended: 0 returned false, 1 returned true, 2 threw, 3 undefined behaviour. -/
def Res.code {σ α : Type} : Res σ (Option α) → Nat
  | .ok none _ => 0
  | .ok (some _) _ => 1
  | .throw _ => 2
  | .ub => 3

/-- **C60 is false for reads that are refused**: for these 29 bytes the reader asks for 2^62 bytes before it notices that the block is too
short — the read, which would return false, throws with an allocator that grants everything below 2^60 bytes. (The room left in the block is
computed as an unsigned difference, which wraps when the cursor is already behind the end of the block.) -/
theorem C60_false_for_refused_reads : greedyFile.length = 29 ∧
    (readTyped luckyEnv stringType .vector [65] [] ⟨greedyFile, 0, false⟩).code = 0 ∧
    (readTyped hugeEnv stringType .vector [65] [] ⟨greedyFile, 0, false⟩).code = 2 ∧ GrantsUpTo (2 ^ 60 - 1) hugeEnv :=
  ⟨by decide +kernel, by decide +kernel, by decide +kernel, fun n hn => decide_eq_true (by omega)⟩

end ISD
