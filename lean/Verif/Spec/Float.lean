import Verif.Spec.Basic
/-
IEEE-754 binary floating point: what a bit pattern means.

A format is given by the width `w` of the bit pattern and the number `man` of fraction bits: binary32 is `w = 32`, `man = 23`,
binary64 is `w = 64`, `man = 52`.  Finite numbers are integer multiples of the least positive number `2 ^ (-low)`, so their values are
given as integers, in that unit.
-/
namespace PackedSimd.Spec

variable {w : Nat} (man : Nat)

/-- A format has at least one fraction bit and at least two exponent bits. -/
def Format (w man : Nat) : Prop := 1 ≤ man ∧ man + 3 ≤ w

/-- The least positive number of the format is `2 ^ (-low)`: 149 for binary32, 1074 for binary64. -/
def low (w man : Nat) : Nat := 2 ^ (w - 2 - man) + man - 2

example : low 32 23 = 149 ∧ low 64 52 = 1074 := by decide

/-- The bits other than the sign bit: exponent field, then fraction field. -/
def magBits (x : BitVec w) : Nat := x.toNat % 2 ^ (w - 1)
/-- The sign bit. -/
def isNeg (x : BitVec w) : Bool := decide (2 ^ (w - 1) ≤ x.toNat)
/-- Exponent field all ones, fraction zero. -/
def infMag (w man : Nat) : Nat := (2 ^ (w - 1 - man) - 1) * 2 ^ man

/-- Value (in units of `2 ^ (-low)`) of the magnitude bits `b`: with exponent field `E` and fraction `F`, `F` if `E = 0` (subnormal),
`(2^man + F) * 2^(E-1)` otherwise. -/
def magUnits (b : Nat) : Nat :=
  let E := b / 2 ^ man
  let F := b % 2 ^ man
  if E = 0 then F else (2 ^ man + F) * 2 ^ (E - 1)

/-- The meaning of a bit pattern.  (`num 0` for both zeros.) -/
inductive FVal where
  | nan
  | inf (neg : Bool)
  | num (z : Int)
deriving DecidableEq

def valueOf (x : BitVec w) : FVal :=
  if infMag w man < magBits x then .nan
  else if magBits x = infMag w man then .inf (isNeg x)
  else .num (if isNeg x then -(magUnits man (magBits x)) else magUnits man (magBits x))

/-- IEEE comparison of two values of the same format: `none` = unordered. -/
def FVal.cmp : FVal → FVal → Option Ordering
  | .nan, _ => none
  | _, .nan => none
  | .inf a, .inf b => some (compare b a)
  | .inf a, .num _ => some (if a then .lt else .gt)
  | .num _, .inf b => some (if b then .gt else .lt)
  | .num y, .num z => some (compare y z)

/-- The smaller / larger of two values, ignoring NaN (IEEE `minNum`, `maxNum`). -/
def FVal.min : FVal → FVal → FVal
  | .nan, y => y
  | x, .nan => x
  | .inf true, _ => .inf true
  | _, .inf true => .inf true
  | .inf false, y => y
  | x, .inf false => x
  | .num y, .num z => .num (Min.min y z)
def FVal.max : FVal → FVal → FVal
  | .nan, y => y
  | x, .nan => x
  | .inf false, _ => .inf false
  | _, .inf false => .inf false
  | .inf true, y => y
  | x, .inf true => x
  | .num y, .num z => .num (Max.max y z)

/-- Round to nearest, ties to even, of the exact magnitude `num / den` (in units of `2 ^ (-low)`): `b` are magnitude bits at least as close as
any others, counting the infinity pattern as the power of two following the largest finite number; on a tie the fraction is even. -/
def IsNearestEven (w man : Nat) (num den b : Nat) : Prop :=
  b ≤ infMag w man ∧
  (∀ c, c ≤ infMag w man →
    ((magUnits man b * den : Nat) - num : Int).natAbs ≤ ((magUnits man c * den : Nat) - num : Int).natAbs) ∧
  (∀ c, c ≤ infMag w man → c ≠ b →
    ((magUnits man b * den : Nat) - num : Int).natAbs = ((magUnits man c * den : Nat) - num : Int).natAbs → b % 2 = 0)

/-- An exact (unrounded) result: a fraction `num / den` in units of `2 ^ (-low)`. -/
inductive Exact where
  | nan
  | inf (neg : Bool)
  | frac (num : Int) (den : Nat)

/-- `x` is the exact result `e` correctly rounded (to nearest, ties to even; a non-zero result keeps its sign even if it is rounded to
zero or to infinity). -/
def RoundsTo (e : Exact) (x : BitVec w) : Prop :=
  match e with
  | .nan => valueOf man x = .nan
  | .inf neg => valueOf man x = .inf neg
  | .frac num den => 0 < den ∧ IsNearestEven w man num.natAbs den (magBits x) ∧ (num ≠ 0 → isNeg x = decide (num < 0))

/-- IEEE addition, subtraction, multiplication and division before rounding; `%` as C's `fmod`. -/
def exactAdd (x y : BitVec w) : Exact :=
  match valueOf man x, valueOf man y with
  | .nan, _ => .nan
  | _, .nan => .nan
  | .inf p, .inf q => if p = q then .inf p else .nan
  | .inf p, .num _ => .inf p
  | .num _, .inf q => .inf q
  | .num a, .num b => .frac (a + b) 1
def exactSub (x y : BitVec w) : Exact :=
  match valueOf man x, valueOf man y with
  | .nan, _ => .nan
  | _, .nan => .nan
  | .inf p, .inf q => if p = q then .nan else .inf p
  | .inf p, .num _ => .inf p
  | .num _, .inf q => .inf (!q)
  | .num a, .num b => .frac (a - b) 1
def exactMul (x y : BitVec w) : Exact :=
  match valueOf man x, valueOf man y with
  | .nan, _ => .nan
  | _, .nan => .nan
  | .inf p, .inf q => .inf (p != q)
  | .inf p, .num b => if b = 0 then .nan else .inf (p != decide (b < 0))
  | .num a, .inf q => if a = 0 then .nan else .inf (decide (a < 0) != q)
  | .num a, .num b => .frac (a * b) (2 ^ low w man)
def exactDiv (x y : BitVec w) : Exact :=
  match valueOf man x, valueOf man y with
  | .nan, _ => .nan
  | _, .nan => .nan
  | .inf _, .inf _ => .nan
  | .inf p, .num _ => .inf (p != isNeg y)
  | .num _, .inf _ => .frac 0 1
  | .num a, .num b =>
    if b = 0 then (if a = 0 then .nan else .inf (isNeg x != isNeg y))
    else .frac (if b < 0 then -a * 2 ^ low w man else a * 2 ^ low w man) b.natAbs
def exactRem (x y : BitVec w) : Exact :=
  match valueOf man x, valueOf man y with
  | .nan, _ => .nan
  | _, .nan => .nan
  | .inf _, _ => .nan
  | .num a, .inf _ => .frac a 1
  | .num a, .num b => if b = 0 then .nan else .frac (a.tmod b) 1

/-- `x * y + z` before rounding (IEEE `fusedMultiplyAdd`). -/
def exactFma (x y z : BitVec w) : Exact :=
  match exactMul man x y, valueOf man z with
  | .nan, _ => .nan
  | _, .nan => .nan
  | .inf p, .inf q => if p = q then .inf p else .nan
  | .inf p, .num _ => .inf p
  | .frac _ _, .inf q => .inf q
  | .frac a d, .num c => .frac (a + c * d) d

-- 1.0, -0.0, the largest subnormal, the least normal, infinity, a NaN of binary32
example : valueOf 23 (0x3f800000 : BitVec 32) = .num (2 ^ 149) ∧ valueOf 23 (0x80000000 : BitVec 32) = .num 0 ∧
    valueOf 23 (0x007fffff : BitVec 32) = .num (2 ^ 23 - 1) ∧ valueOf 23 (0x00800000 : BitVec 32) = .num (2 ^ 23) ∧
    valueOf 23 (0xff800000 : BitVec 32) = .inf true ∧ valueOf 23 (0x7fc00000 : BitVec 32) = .nan := by decide +kernel

end PackedSimd.Spec
