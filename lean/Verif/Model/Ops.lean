import Verif.Model.Minimal
import Verif.Spec.Int
/-
src/api/ops/*.rs for integer and mask vectors, src/api/select.rs, src/api/cmp/vertical.rs.
`s` is the signedness of the lane type.
-/

namespace PackedSimd
open Intr

variable {α : Type} {w n : Nat}

/-! ### Vertical comparisons (src/api/cmp/vertical.rs:10-68) -/
namespace Cmp

/-- `eq` (vertical.rs:13-16). -/
def eq (a b : Vec (BitVec w) n) : Vec (BitVec w) n := simdEq a b
/-- `ne` (vertical.rs:20-23). -/
def ne (a b : Vec (BitVec w) n) : Vec (BitVec w) n := simdNe a b
/-- `lt` (vertical.rs:27-34); `isMask` is the macro argument `$is_mask`. -/
def lt (isMask s : Bool) (a b : Vec (BitVec w) n) : Vec (BitVec w) n := if isMask then simdGt s a b else simdLt s a b
/-- `le` (vertical.rs:38-45). -/
def le (isMask s : Bool) (a b : Vec (BitVec w) n) : Vec (BitVec w) n := if isMask then simdGe s a b else simdLe s a b
/-- `gt` (vertical.rs:49-56). -/
def gt (isMask s : Bool) (a b : Vec (BitVec w) n) : Vec (BitVec w) n := if isMask then simdLt s a b else simdGt s a b
/-- `ge` (vertical.rs:60-67). -/
def ge (isMask s : Bool) (a b : Vec (BitVec w) n) : Vec (BitVec w) n := if isMask then simdLe s a b else simdGe s a b

end Cmp

/-- `m.select(a, b)` (src/api/select.rs:13-19). -/
def select (m : Vec (BitVec w) n) (a b : Vec α n) : R (Vec α n) := simdSelect m a b

namespace Ops

/-! ### Vector-vector arithmetic (src/api/ops/vector_arithmetic.rs) -/

/-- `Add` (5-12). -/
def add (a b : Vec (BitVec w) n) : Vec (BitVec w) n := simdAdd a b
/-- `Sub` (14-21). -/
def sub (a b : Vec (BitVec w) n) : Vec (BitVec w) n := simdSub a b
/-- `Mul` (23-30). -/
def mul (a b : Vec (BitVec w) n) : Vec (BitVec w) n := simdMul a b
/-- `Div` (32-39). -/
def div (s : Bool) (a b : Vec (BitVec w) n) : R (Vec (BitVec w) n) := simdDiv s a b
/-- `Rem` (41-48). -/
def rem (s : Bool) (a b : Vec (BitVec w) n) : R (Vec (BitVec w) n) := simdRem s a b

/-- The `*Assign` traits (50-83; likewise in scalar_arithmetic.rs:80-113, vector_bitwise.rs:40-57, scalar_bitwise.rs:54-71,
vector_shifts.rs:21-32, scalar_shifts.rs:20-31, vector_mask_bitwise.rs:40-57, scalar_mask_bitwise.rs:54-71): `*self = *self op other`.
The new value of `*self` is returned; if `op` faults, nothing is assigned. -/
def assign {σ τ : Type} (op : σ → τ → R σ) (self : σ) (other : τ) : R σ := do
  let r ← op self other
  return r

/-! ### Vector-scalar and scalar-vector arithmetic (src/api/ops/scalar_arithmetic.rs) -/

/-- `v + x` (5-11), `x + v` (12-18). -/
def addVS (a : Vec (BitVec w) n) (x : BitVec w) : Vec (BitVec w) n := add a (splat n x)
def addSV (x : BitVec w) (a : Vec (BitVec w) n) : Vec (BitVec w) n := add (splat n x) a
/-- `v - x` (20-26), `x - v` (27-33). -/
def subVS (a : Vec (BitVec w) n) (x : BitVec w) : Vec (BitVec w) n := sub a (splat n x)
def subSV (x : BitVec w) (a : Vec (BitVec w) n) : Vec (BitVec w) n := sub (splat n x) a
/-- `v * x` (35-41), `x * v` (42-48). -/
def mulVS (a : Vec (BitVec w) n) (x : BitVec w) : Vec (BitVec w) n := mul a (splat n x)
def mulSV (x : BitVec w) (a : Vec (BitVec w) n) : Vec (BitVec w) n := mul (splat n x) a
/-- `v / x` (50-56), `x / v` (57-63). -/
def divVS (s : Bool) (a : Vec (BitVec w) n) (x : BitVec w) : R (Vec (BitVec w) n) := div s a (splat n x)
def divSV (s : Bool) (x : BitVec w) (a : Vec (BitVec w) n) : R (Vec (BitVec w) n) := div s (splat n x) a
/-- `v % x` (65-71), `x % v` (72-78). -/
def remVS (s : Bool) (a : Vec (BitVec w) n) (x : BitVec w) : R (Vec (BitVec w) n) := rem s a (splat n x)
def remSV (s : Bool) (x : BitVec w) (a : Vec (BitVec w) n) : R (Vec (BitVec w) n) := rem s (splat n x) a

/-! ### Bitwise (src/api/ops/vector_bitwise.rs, scalar_bitwise.rs) -/

/-- `BitXor` (vector_bitwise.rs:16-23). -/
def bitxor (a b : Vec (BitVec w) n) : Vec (BitVec w) n := simdXor a b
/-- `BitAnd` (24-31). -/
def bitand (a b : Vec (BitVec w) n) : Vec (BitVec w) n := simdAnd a b
/-- `BitOr` (32-39). -/
def bitor (a b : Vec (BitVec w) n) : Vec (BitVec w) n := simdOr a b
/-- `Not` (9-15): `splat($true) ^ self`, where `$true` is `!0` for integer vectors (src/api.rs). -/
def not (a : Vec (BitVec w) n) : Vec (BitVec w) n := bitxor (splat n (~~~(0#w))) a

/-- scalar_bitwise.rs:9-22. -/
def bitxorVS (a : Vec (BitVec w) n) (x : BitVec w) : Vec (BitVec w) n := bitxor a (splat n x)
def bitxorSV (x : BitVec w) (a : Vec (BitVec w) n) : Vec (BitVec w) n := bitxor (splat n x) a
/-- scalar_bitwise.rs:24-37. -/
def bitandVS (a : Vec (BitVec w) n) (x : BitVec w) : Vec (BitVec w) n := bitand a (splat n x)
def bitandSV (x : BitVec w) (a : Vec (BitVec w) n) : Vec (BitVec w) n := bitand (splat n x) a
/-- scalar_bitwise.rs:39-52. -/
def bitorVS (a : Vec (BitVec w) n) (x : BitVec w) : Vec (BitVec w) n := bitor a (splat n x)
def bitorSV (x : BitVec w) (a : Vec (BitVec w) n) : Vec (BitVec w) n := bitor (splat n x) a

/-! ### Shifts (src/api/ops/vector_shifts.rs, scalar_shifts.rs) -/

/-- `Shl<V>` (vector_shifts.rs:5-12). -/
def shl (a b : Vec (BitVec w) n) : R (Vec (BitVec w) n) := simdShl a b
/-- `Shr<V>` (vector_shifts.rs:13-20). -/
def shr (s : Bool) (a b : Vec (BitVec w) n) : R (Vec (BitVec w) n) := simdShr s a b
/-- `Shl<u32>` (scalar_shifts.rs:5-11): `self << splat(other as elem_ty)`. -/
def shlU32 (a : Vec (BitVec w) n) (k : BitVec 32) : R (Vec (BitVec w) n) := shl a (splat n (k.setWidth w))
/-- `Shr<u32>` (scalar_shifts.rs:12-18). -/
def shrU32 (s : Bool) (a : Vec (BitVec w) n) (k : BitVec 32) : R (Vec (BitVec w) n) :=
  shr s a (splat n (k.setWidth w))

/-! ### Rotates (src/api/ops/vector_rotates.rs:14-35) -/

/-- `LANE_WIDTH` (15-16): `size_of::<T>() as T * 8`; `w = 8 * size`. -/
def laneWidth (w : Nat) : BitVec w := BitVec.ofNat w (w / 8) * BitVec.ofNat w 8

/-- `rotate_left` (14-20). -/
def rotateLeft (s : Bool) (a n' : Vec (BitVec w) n) : R (Vec (BitVec w) n) := do
  let m ← remVS s n' (laneWidth w)
  let l ← shl a m
  let k ← remVS s (subSV (laneWidth w) m) (laneWidth w)
  let r ← shr s a k
  return bitor l r

/-- `rotate_right` (29-35). -/
def rotateRight (s : Bool) (a n' : Vec (BitVec w) n) : R (Vec (BitVec w) n) := do
  let m ← remVS s n' (laneWidth w)
  let r ← shr s a m
  let k ← remVS s (subSV (laneWidth w) m) (laneWidth w)
  let l ← shl a k
  return bitor r l

/-! ### Neg, min, max -/

/-- `Neg` (src/api/ops/vector_neg.rs:5-11): `splat(-1) * self`. -/
def neg (a : Vec (BitVec w) n) : Vec (BitVec w) n := mul (splat n (BitVec.ofInt w (-1))) a

/-- `min` (src/api/ops/vector_int_min_max.rs:11-13). -/
def min (s : Bool) (a b : Vec (BitVec w) n) : R (Vec (BitVec w) n) := select (Cmp.lt false s a b) a b
/-- `max` (src/api/ops/vector_int_min_max.rs:20-22). -/
def max (s : Bool) (a b : Vec (BitVec w) n) : R (Vec (BitVec w) n) := select (Cmp.gt false s a b) a b

end Ops

/-! ### Mask operators (src/api/ops/vector_mask_bitwise.rs, scalar_mask_bitwise.rs) -/
namespace Mask

/-- `BitXor`/`BitAnd`/`BitOr` (vector_mask_bitwise.rs:16-39). -/
def bitxor (a b : Vec (BitVec w) n) : Vec (BitVec w) n := simdXor a b
def bitand (a b : Vec (BitVec w) n) : Vec (BitVec w) n := simdAnd a b
def bitor  (a b : Vec (BitVec w) n) : Vec (BitVec w) n := simdOr a b
/-- `Not` (vector_mask_bitwise.rs:9-15): `splat(true) ^ self`. -/
def not (a : Vec (BitVec w) n) : Vec (BitVec w) n := bitxor (splat w n true) a
/-- scalar_mask_bitwise.rs:9-52. -/
def bitxorVS (a : Vec (BitVec w) n) (x : Bool) : Vec (BitVec w) n := bitxor a (splat w n x)
def bitxorSV (x : Bool) (a : Vec (BitVec w) n) : Vec (BitVec w) n := bitxor (splat w n x) a
def bitandVS (a : Vec (BitVec w) n) (x : Bool) : Vec (BitVec w) n := bitand a (splat w n x)
def bitandSV (x : Bool) (a : Vec (BitVec w) n) : Vec (BitVec w) n := bitand (splat w n x) a
def bitorVS (a : Vec (BitVec w) n) (x : Bool) : Vec (BitVec w) n := bitor a (splat w n x)
def bitorSV (x : Bool) (a : Vec (BitVec w) n) : Vec (BitVec w) n := bitor (splat w n x) a

end Mask

/-! ### Operator resolution: which function a Rust operator expression calls -/

open Spec (BinOp)

/-- `v op v` for integer vectors. -/
def vecOp (op : BinOp) (s : Bool) (a b : Vec (BitVec w) n) : R (Vec (BitVec w) n) :=
  match op with
  | .add => .ok (Ops.add a b)
  | .sub => .ok (Ops.sub a b)
  | .mul => .ok (Ops.mul a b)
  | .div => Ops.div s a b
  | .rem => Ops.rem s a b
  | .and => .ok (Ops.bitand a b)
  | .or  => .ok (Ops.bitor a b)
  | .xor => .ok (Ops.bitxor a b)
  | .shl => Ops.shl a b
  | .shr => Ops.shr s a b

/-- `v op x` with a scalar of the lane type (the shift operators take a `u32` instead: `Ops.shlU32`, `Ops.shrU32`). -/
def vecScalarOp (op : BinOp) (s : Bool) (a : Vec (BitVec w) n) (x : BitVec w) : Option (R (Vec (BitVec w) n)) :=
  match op with
  | .add => some (.ok (Ops.addVS a x))
  | .sub => some (.ok (Ops.subVS a x))
  | .mul => some (.ok (Ops.mulVS a x))
  | .div => some (Ops.divVS s a x)
  | .rem => some (Ops.remVS s a x)
  | .and => some (.ok (Ops.bitandVS a x))
  | .or  => some (.ok (Ops.bitorVS a x))
  | .xor => some (.ok (Ops.bitxorVS a x))
  | .shl => none
  | .shr => none

/-- `x op v` with a scalar of the lane type on the left. -/
def scalarVecOp (op : BinOp) (s : Bool) (x : BitVec w) (a : Vec (BitVec w) n) : Option (R (Vec (BitVec w) n)) :=
  match op with
  | .add => some (.ok (Ops.addSV x a))
  | .sub => some (.ok (Ops.subSV x a))
  | .mul => some (.ok (Ops.mulSV x a))
  | .div => some (Ops.divSV s x a)
  | .rem => some (Ops.remSV s x a)
  | .and => some (.ok (Ops.bitandSV x a))
  | .or  => some (.ok (Ops.bitorSV x a))
  | .xor => some (.ok (Ops.bitxorSV x a))
  | .shl => none
  | .shr => none

end PackedSimd
