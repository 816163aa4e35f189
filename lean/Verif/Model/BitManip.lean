import Verif.Model.Ops
import Verif.Model.MaskReduce
/-
src/codegen/bit_manip.rs, src/api/bit_manip.rs.
-/
namespace PackedSimd
open Intr

/-- Population count of a number, digit by digit (`u*::count_ones`; LLVM `ctpop`); `fuel` bounds the number of digits. -/
def popcountNat : (fuel : Nat) → Nat → Nat
  | 0, _ => 0
  | fuel + 1, x => x % 2 + popcountNat fuel (x / 2)

/-- Number of trailing zeros among the low `fuel` digits (`u*::trailing_zeros`; LLVM `cttz`). -/
def ctzNat : (fuel : Nat) → Nat → Nat
  | 0, _ => 0
  | fuel + 1, x => if x % 2 = 1 then 0 else 1 + ctzNat fuel (x / 2)

/-- Number of leading zeros of a `fuel`-digit number (`u*::leading_zeros`; LLVM `ctlz`): test the top digit, then the rest. -/
def clzNat : (fuel : Nat) → Nat → Nat
  | 0, _ => 0
  | fuel + 1, x => if 2 ^ fuel ≤ x then 0 else 1 + clzNat fuel x

namespace BitManip

variable {w n : Nat}

/-- Scalar `count_ones`, `leading_zeros`, `trailing_zeros` (result `u32`), on the bit pattern (the signed versions reinterpret as unsigned). -/
def countOnes (x : BitVec w) : BitVec 32 := BitVec.ofNat 32 (popcountNat w x.toNat)
def leadingZeros (x : BitVec w) : BitVec 32 := BitVec.ofNat 32 (clzNat w x.toNat)
def trailingZeros (x : BitVec w) : BitVec 32 := BitVec.ofNat 32 (ctzNat w x.toNat)

/-- LLVM `ctpop`, `ctlz(x, false)`, `cttz(x, false)` on a vector (bit_manip.rs:7-148): the count as a number of the lane type. -/
def llvmCtpop (v : Vec (BitVec w) n) : Vec (BitVec w) n := v.map fun x => BitVec.ofNat w (popcountNat w x.toNat)
def llvmCtlz (v : Vec (BitVec w) n) : Vec (BitVec w) n := v.map fun x => BitVec.ofNat w (clzNat w x.toNat)
def llvmCttz (v : Vec (BitVec w) n) : Vec (BitVec w) n := v.map fun x => BitVec.ofNat w (ctzNat w x.toNat)

/-- The loop of the `scalar:` rule (bit_manip.rs:209-238) and of the aarch64 `u8x8` / `i8x8` `cttz` (bit_manip.rs:288-298, 314-324):
`x = x.replace(i, self.extract(i).f() as $scalar)`. -/
def scalarLoop (f : BitVec w → BitVec 32) (self : Vec (BitVec w) n) : R (Vec (BitVec w) n) :=
  forRange 0 n (fun acc i => do
    let x ← extract self i
    replace acc i ((f x).setWidth w)) self

/-- `let y: $uty = self.cast(); unsafe { f(y).cast() }` (bit_manip.rs:165-168 etc.; the `sized_inner:` rule 185-208 goes through the fixed-width
unsigned type of the same size, with the same effect).  `s` is the signedness of the source type. -/
def viaUnsigned (s : Bool) (f : Vec (BitVec w) n → Vec (BitVec w) n) (self : Vec (BitVec w) n) : R (Vec (BitVec w) n) :=
  let y : Vec (BitVec w) n := simdCastInt s w self
  .ok (simdCastInt false w (f y))

/-- `BitManip::ctpop` (bit_manip.rs:165-168, 191-194, 277-280). -/
def ctpop (t : Target) (s : Bool) (self : Vec (BitVec w) n) : R (Vec (BitVec w) n) :=
  if t.arch = .s390x then scalarLoop countOnes self else viaUnsigned s llvmCtpop self
/-- `BitManip::ctlz`. -/
def ctlz (t : Target) (s : Bool) (self : Vec (BitVec w) n) : R (Vec (BitVec w) n) :=
  if t.arch = .s390x then scalarLoop leadingZeros self else viaUnsigned s llvmCtlz self
/-- `BitManip::cttz`: on aarch64 the 8x8 types use the loop. -/
def cttz (t : Target) (s : Bool) (self : Vec (BitVec w) n) : R (Vec (BitVec w) n) :=
  if t.arch = .s390x then scalarLoop trailingZeros self
  else if t.arch = .aarch64 ∧ w = 8 ∧ n = 8 then scalarLoop trailingZeros self
  else viaUnsigned s llvmCttz self

end BitManip

section
variable {w n : Nat} (t : Target) (s : Bool) (v : Vec (BitVec w) n)

/-- `count_ones` (api/bit_manip.rs:9-11). -/
def countOnes := BitManip.ctpop t s v
/-- `count_zeros` (api/bit_manip.rs:16-18). -/
def countZeros := BitManip.ctpop t s (Ops.not v)
/-- `leading_zeros` (api/bit_manip.rs:23-25). -/
def leadingZeros := BitManip.ctlz t s v
/-- `trailing_zeros` (api/bit_manip.rs:30-32). -/
def trailingZeros := BitManip.cttz t s v
end

end PackedSimd
