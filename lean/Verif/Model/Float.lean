import Verif.Spec.Float
import Verif.Model.Intrinsics
/-
Floating-point lanes: the LLVM instructions behind the platform intrinsics, on bit patterns.

A lane is its bit pattern `BitVec w`; `man` is the number of fraction bits (23 for `f32`, 52 for `f64`).
Simplification: an operation that produces a NaN produces the quiet NaN with zero payload and positive sign (hardware may choose another one).
-/
namespace PackedSimd.Flt
open Spec (magBits isNeg infMag magUnits low)

variable {w : Nat} (man : Nat)

/-- NaN test on the bit pattern. -/
def isNaN (x : BitVec w) : Bool := decide (infMag w man < magBits x)
def isInf (x : BitVec w) : Bool := decide (magBits x = infMag w man)

/-- Sign-magnitude bits as an integer: orders all non-NaN patterns. -/
def key (x : BitVec w) : Int := if isNeg x then -(magBits x) else magBits x

/-- `fcmp oeq`, `une`, `olt`, `ole`, `ogt`, `oge`: what `simd_eq` .. `simd_ge` (src/codegen/llvm.rs) are on float vectors. -/
def oeq (a b : BitVec w) : Bool := !isNaN man a && !isNaN man b && decide (key a = key b)
def une (a b : BitVec w) : Bool := !oeq man a b
def olt (a b : BitVec w) : Bool := !isNaN man a && !isNaN man b && decide (key a < key b)
def ole (a b : BitVec w) : Bool := !isNaN man a && !isNaN man b && decide (key a ≤ key b)
def ogt (a b : BitVec w) : Bool := olt man b a
def oge (a b : BitVec w) : Bool := ole man b a

/-- `llvm.minnum` / `llvm.maxnum` (`simd_fmin`, `simd_fmax`): a NaN operand is ignored; which of two equal operands (`+0`, `-0`) is returned
is unspecified: `pick` chooses. -/
def minNum (pick : BitVec w → BitVec w → Bool) (a b : BitVec w) : BitVec w :=
  if isNaN man a then b
  else if isNaN man b then a
  else if olt man a b then a
  else if olt man b a then b
  else if pick a b then a else b
def maxNum (pick : BitVec w → BitVec w → Bool) (a b : BitVec w) : BitVec w :=
  if isNaN man a then b
  else if isNaN man b then a
  else if olt man b a then a
  else if olt man a b then b
  else if pick a b then a else b

/-- Assemble a pattern from sign and magnitude bits. -/
def mk (w : Nat) (neg : Bool) (b : Nat) : BitVec w := BitVec.ofNat w (if neg then 2 ^ (w - 1) + b else b)

/-- The quiet NaN. -/
def qnan (w man : Nat) : BitVec w := mk w false (infMag w man + 2 ^ (man - 1))

/-- Round the magnitude `num / den` (units of `2^-low`) to nearest, ties to even; overflow gives infinity. -/
def roundMag (w man : Nat) (num den : Nat) : Nat :=
  let s := Nat.log2 (num / den) - man
  let d := den * 2 ^ s
  let q := num / d
  let r := num % d
  let q' := if 2 * r < d then q else if d < 2 * r then q + 1 else q + q % 2
  min (s * 2 ^ man + q') (infMag w man)

/-- `sitofp` / `uitofp`. -/
def fromInt (w man : Nat) (z : Int) : BitVec w := mk w (decide (z < 0)) (roundMag w man (z.natAbs * 2 ^ low w man) 1)

/-- `fpext` / `fptrunc`. -/
def convert (w' man' : Nat) (x : BitVec w) : BitVec w' :=
  if isNaN man x then qnan w' man'
  else if isInf man x then mk w' (isNeg x) (infMag w' man')
  else mk w' (isNeg x) (roundMag w' man' (magUnits man (magBits x) * 2 ^ low w' man') (2 ^ low w man))

/-- `fptosi` / `fptoui`: truncate; the instruction's result is undefined (poison) for NaN, infinities and values out of range. -/
def toInt (s : Bool) (w' : Nat) (x : BitVec w) : R (BitVec w') :=
  if isNaN man x || isInf man x then .error .ub
  else
    let m : Nat := magUnits man (magBits x) / 2 ^ low w man
    let z : Int := if isNeg x then -m else m
    if (if s then decide (-(2 ^ w' : Int) ≤ 2 * z) && decide (2 * z < 2 ^ w') else decide (0 ≤ z) && decide (z < 2 ^ w')) then
      .ok (BitVec.ofInt w' z)
    else .error .ub

/-- Signed value of a finite pattern in units of `2^-low`. -/
def units (x : BitVec w) : Int := if isNeg x then -(magUnits man (magBits x)) else magUnits man (magBits x)

/-- Round a signed exact value; `zneg` is the sign of an exact zero. -/
def roundInt (w man : Nat) (zneg : Bool) (num : Int) (den : Nat) : BitVec w :=
  if num = 0 then mk w zneg 0 else mk w (decide (num < 0)) (roundMag w man num.natAbs den)

/-- `fadd`. -/
def add (a b : BitVec w) : BitVec w :=
  if isNaN man a || isNaN man b then qnan w man
  else if isInf man a then (if isInf man b && isNeg a != isNeg b then qnan w man else a)
  else if isInf man b then b
  else roundInt w man (isNeg a && isNeg b) (units man a + units man b) 1

/-- Flip the sign bit. -/
def negate (x : BitVec w) : BitVec w := x ^^^ BitVec.ofNat w (2 ^ (w - 1))

/-- `fsub`. -/
def sub (a b : BitVec w) : BitVec w := if isNaN man b then qnan w man else add man a (negate b)

/-- `fmul`. -/
def mul (a b : BitVec w) : BitVec w :=
  let neg := isNeg a != isNeg b
  if isNaN man a || isNaN man b then qnan w man
  else if isInf man a then (if magBits b = 0 then qnan w man else mk w neg (infMag w man))
  else if isInf man b then (if magBits a = 0 then qnan w man else mk w neg (infMag w man))
  else mk w neg (roundMag w man (magUnits man (magBits a) * magUnits man (magBits b)) (2 ^ low w man))

/-- `fdiv`. -/
def div (a b : BitVec w) : BitVec w :=
  let neg := isNeg a != isNeg b
  if isNaN man a || isNaN man b then qnan w man
  else if isInf man a then (if isInf man b then qnan w man else mk w neg (infMag w man))
  else if isInf man b then mk w neg 0
  else if magBits b = 0 then (if magBits a = 0 then qnan w man else mk w neg (infMag w man))
  else mk w neg (roundMag w man (magUnits man (magBits a) * 2 ^ low w man) (magUnits man (magBits b)))

/-- `frem`: the remainder of the truncated quotient (C `fmod`), which is always representable. -/
def rem (a b : BitVec w) : BitVec w :=
  if isNaN man a || isNaN man b then qnan w man
  else if isInf man a || decide (magBits b = 0) then qnan w man
  else if isInf man b then a
  else mk w (isNeg a) (roundMag w man (magUnits man (magBits a) % magUnits man (magBits b)) 1)

/-- `llvm.fabs`: clear the sign bit. -/
def abs (x : BitVec w) : BitVec w := mk w false (magBits x)

end PackedSimd.Flt
