/-!
# Basic vocabulary of the model

Bytes, unsigned 64 bit arithmetic with explicit wrap-around, the memory image of scalars on the x64 host, and
the outcome type of a C++ call (normal return / exception / undefined behaviour).
-/

namespace ISD

/-- `u8` (ISD_Types.h, `typedef` section via `<cstdint>`). -/
abbrev Byte := UInt8
/-- A run of bytes in memory or on the wire. -/
abbrev Bytes := List Byte

/-- Wrap-around of a `u64` computation. Every unguarded `u64` addition / multiplication of the C++ source is
followed by this function in the model. -/
def wrap64 (n : Nat) : Nat := n % 2 ^ 64

/-- The `k` bytes of the number `n`, least significant byte first: the memory image of a `k`-byte integer on the
(x64, little endian) host. -/
def leBytes : Nat → Nat → Bytes
  | 0, _ => []
  | k + 1, n => UInt8.ofNat (n % 256) :: leBytes k (n / 256)

/-- The number whose little endian image is the byte list. -/
def fromLE : Bytes → Nat
  | [] => 0
  | b :: bs => b.toNat + 256 * fromLE bs

/-- A scalar of `k` bytes as a bit pattern: `u8,u16,u32,u64`, the signed types and `float`/`double` (ISD_Types.h). -/
abbrev Word (k : Nat) := BitVec (8 * k)

/-- Host memory image of a scalar. -/
def Word.image {k : Nat} (w : Word k) : Bytes := leBytes k w.toNat

/-- Scalar stored in a host memory image. -/
def Word.ofImage (k : Nat) (bs : Bytes) : Word k := BitVec.ofNat (8 * k) (fromLE bs)

/-- The result of a C++ call: normal return, an exception (`std::bad_alloc`, `std::length_error`), or undefined
behaviour (access outside an object, null dereference). Normal return and exception keep the state. -/
inductive Res (σ α : Type) where
  | ok (a : α) (s : σ)
  | throw (s : σ)
  | ub
  deriving Repr, DecidableEq

/-- A C++ routine acting on the state `σ`. -/
def Prog (σ α : Type) := σ → Res σ α

namespace Prog
variable {σ α β : Type}

/-- `return a;` -/
def pure (a : α) : Prog σ α := fun s => .ok a s
/-- Sequencing: an exception or undefined behaviour ends the routine. -/
def bind (x : Prog σ α) (f : α → Prog σ β) : Prog σ β := fun s =>
  match x s with
  | .ok a s' => f a s'
  | .throw s' => .throw s'
  | .ub => .ub

instance : Monad (Prog σ) where
  pure := Prog.pure
  bind := Prog.bind

/-- Read the whole object state. -/
def get : Prog σ σ := fun s => .ok s s
/-- Replace the object state. -/
def set (s : σ) : Prog σ Unit := fun _ => .ok () s
/-- Update the object state. -/
def modify (f : σ → σ) : Prog σ Unit := fun s => .ok () (f s)
/-- `if( c ) { p }` without an else branch. -/
def when (c : Prop) [Decidable c] (p : Prog σ Unit) : Prog σ Unit := if c then p else Pure.pure ()
/-- Throw a C++ exception. -/
def throw : Prog σ α := fun s => .throw s
/-- Undefined behaviour. -/
def ub : Prog σ α := fun _ => .ub

@[simp] theorem pure_apply (a : α) (s : σ) : (Pure.pure a : Prog σ α) s = .ok a s := rfl
@[simp] theorem get_apply (s : σ) : (get : Prog σ σ) s = .ok s s := rfl
@[simp] theorem set_apply (s t : σ) : (set t : Prog σ Unit) s = .ok () t := rfl
@[simp] theorem modify_apply (f : σ → σ) (s : σ) : (modify f : Prog σ Unit) s = .ok () (f s) := rfl
@[simp] theorem throw_apply (s : σ) : (throw : Prog σ α) s = .throw s := rfl
@[simp] theorem ub_apply (s : σ) : (ub : Prog σ α) s = .ub := rfl
theorem bind_apply (x : Prog σ α) (f : α → Prog σ β) (s : σ) :
    (x >>= f) s = match x s with
      | .ok a s' => f a s'
      | .throw s' => .throw s'
      | .ub => .ub := rfl
theorem bind_ok {x : Prog σ α} {f : α → Prog σ β} {s s' : σ} {a : α} (h : x s = .ok a s') :
    (x >>= f) s = f a s' := by rw [bind_apply, h]
theorem bind_throw {x : Prog σ α} {f : α → Prog σ β} {s s' : σ} (h : x s = .throw s') :
    (x >>= f) s = .throw s' := by rw [bind_apply, h]
@[simp] theorem ite_apply (c : Prop) [Decidable c] (x y : Prog σ α) (s : σ) :
    (if c then x else y) s = if c then x s else y s := by split <;> rfl
end Prog

end ISD
