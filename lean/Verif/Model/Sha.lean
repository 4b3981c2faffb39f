import Verif.Model.Basic

/-
`SHA256` (ISD_SHA256.cpp): the class around librock_sha256.

The library itself is not in the repository (an empty submodule directory).  It is a parameter: a context type with
`init`, `update` (which takes an `int` length, so at most 2^31 - 1 bytes) and `final`.
-/

namespace ISD

/-- `librock_SHA256_Init`, `_Update`, `_StoreFinal` as they are called (ISD_SHA256.cpp 12-13, 38, 49). -/
structure HashCore where
  Ctx : Type
  init : Ctx
  update : Ctx → Bytes → Ctx
  final : Ctx → Bytes

namespace Sha

/-- `INT_MAX` (line 33). -/
def intMax : Nat := 2 ^ 31 - 1

/-- The loop of `SHA256::Update` (lines 30-41) on the bytes from `Data` to `End`. -/
def updateLoop (c : HashCore) (m : c.Ctx) (data : Bytes) : c.Ctx :=
  if _h : data.length > 0 then
    -- lines 32-35: the length, capped at INT_MAX
    let len := if data.length > intMax then intMax else data.length
    -- line 38, then line 40
    updateLoop c (c.update m (data.take len)) (data.drop len)
  else m
termination_by data.length
decreasing_by
  rw [List.length_drop]
  have : intMax = 2147483647 := rfl
  split <;> omega

/-- `SHA256::Update` (lines 25-44). -/
def update (c : HashCore) (m : c.Ctx) (data : Bytes) : c.Ctx := updateLoop c m data

/-- `SHA256::SHA256` (lines 10-18): `none` is the null pointer.  Not modelled: `malloc` failing (the context pointer would
be null and `librock_SHA256_Init(0)` only gives its size). -/
def construct (c : HashCore) (data : Option Bytes) : c.Ctx :=
  match data with
  | none => c.init
  | some d => update c c.init d

/-- `SHA256::GetDigest` (lines 47-50). -/
def getDigest (c : HashCore) (m : c.Ctx) : Bytes := c.final m

end Sha
end ISD
