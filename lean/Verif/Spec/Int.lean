import Verif.Spec.Basic
/-
Scalar integer specification, in terms of `Int` values and bits only.
-/
namespace PackedSimd.Spec

variable {w : Nat}

/-- `x` is the lane value obtained by wrapping the exact integer `z` into the lane type:
in range, and congruent to `z` modulo `2^w`. -/
def WrapsTo (s : Bool) (w : Nat) (z : Int) (x : BitVec w) : Prop :=
  InRange s w (val s x) ∧ (2 ^ w : Int) ∣ val s x - z

/-- `q` and `r` are quotient and remainder of division rounding toward zero. -/
def TruncDiv (a b q r : Int) : Prop :=
  a = q * b + r ∧ r.natAbs < b.natAbs ∧ (0 ≤ a → 0 ≤ r) ∧ (a ≤ 0 → r ≤ 0)

/-- Operands on which integer division has no defined result. -/
def DivUndefined (s : Bool) (w : Nat) (a b : Int) : Prop :=
  b = 0 ∨ (s = true ∧ 2 * a = -(2 ^ w) ∧ b = -1)

/-- The binary operators of the crate. -/
inductive BinOp where
  | add | sub | mul | div | rem | and | or | xor | shl | shr
deriving DecidableEq

/-- The scalar operation has no defined result on these operands. -/
def ScalarUndefined (op : BinOp) (s : Bool) (x y : BitVec w) : Prop :=
  match op with
  | .div | .rem => DivUndefined s w (val s x) (val s y)
  | .shl | .shr => w ≤ y.toNat
  | _ => False

/-- `r` is the result of the scalar operation `x op y` in a lane type of width `w`, signedness `s`. -/
def ScalarResult (op : BinOp) (s : Bool) (x y r : BitVec w) : Prop :=
  match op with
  | .add => WrapsTo s w (val s x + val s y) r
  | .sub => WrapsTo s w (val s x - val s y) r
  | .mul => WrapsTo s w (val s x * val s y) r
  | .div => ∃ m, TruncDiv (val s x) (val s y) (val s r) m
  | .rem => ∃ q, TruncDiv (val s x) (val s y) q (val s r)
  | .and => ∀ j, j < w → r.getLsbD j = (x.getLsbD j && y.getLsbD j)
  | .or  => ∀ j, j < w → r.getLsbD j = (x.getLsbD j || y.getLsbD j)
  | .xor => ∀ j, j < w → r.getLsbD j = Bool.xor (x.getLsbD j) (y.getLsbD j)
  | .shl => WrapsTo s w (val s x * 2 ^ y.toNat) r
  | .shr => val s r = val s x / 2 ^ y.toNat   -- floor division (positive divisor)

end PackedSimd.Spec

namespace PackedSimd.Spec

variable {w : Nat}

/-- `r` is `x` rotated left by `k`: bit `j` of `x` is found at position `(j + k) mod w` of `r`. -/
def RotatedLeft (k : Nat) (x r : BitVec w) : Prop :=
  ∀ j, j < w → r.getLsbD ((j + k) % w) = x.getLsbD j

/-- `r` is `x` rotated right by `k`: bit `(j + k) mod w` of `x` is found at position `j` of `r`. -/
def RotatedRight (k : Nat) (x r : BitVec w) : Prop :=
  ∀ j, j < w → r.getLsbD j = x.getLsbD ((j + k) % w)

end PackedSimd.Spec
