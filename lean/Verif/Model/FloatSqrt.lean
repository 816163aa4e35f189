import Verif.Model.Float
/-
IEEE square root, as computed by `simd_fsqrt` and `llvm.sqrt.*` (src/codegen/llvm.rs:115, src/codegen/math/float/sqrt.rs:13-37).
-/
namespace PackedSimd.Flt
open Spec

variable {w : Nat} (man : Nat)

/-- The bits of the integer square root of `n` from bit `k - 1` down; `r` are the bits found so far. -/
def isqrtFrom (n : Nat) : Nat → Nat → Nat
  | 0, r => r
  | k + 1, r => isqrtFrom n k (if (r + 2 ^ k) * (r + 2 ^ k) ≤ n then r + 2 ^ k else r)

/-- The integer square root. -/
def isqrt (n : Nat) : Nat := isqrtFrom n (Nat.log2 n / 2 + 1) 0

/-- Magnitude bits of the square root of the positive value `m` (in units of `2^-low`): the root is found in half units, with a further bit telling
whether it is exact, and rounded. -/
def sqrtMag (w man : Nat) (m : Nat) : Nat :=
  let n := 4 * (m * 2 ^ low w man)
  let s := isqrt n
  roundMag w man (2 * s + if s * s = n then 0 else 1) 4

/-- `llvm.sqrt`: NaN for NaN and for negative numbers; zeros keep their sign. -/
def sqrt (x : BitVec w) : BitVec w :=
  if isNaN man x then qnan w man
  else if magBits x = 0 then x
  else if isNeg x then qnan w man
  else if isInf man x then x
  else mk w false (sqrtMag w man (magUnits man (magBits x)))

end PackedSimd.Flt
