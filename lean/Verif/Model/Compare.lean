import Verif.Model.Ops
import Verif.Model.MaskReduce
/-
src/api/cmp/partial_eq.rs, partial_ord.rs, ord.rs (and eq.rs, a marker trait), src/api/bitmask.rs.

The comparison traits only see the masks produced by the vertical comparisons, so they are written over masks here;
`intEq` etc. instantiate them for integer and mask vectors (`ty` is the mask type belonging to the vector type).
-/

namespace PackedSimd
open Intr

namespace Cmp

variable {w n : Nat}

/-- `PartialEq::eq` (partial_eq.rs:13-15) given the mask `self.eq(other)`. -/
def partialEq (t : Target) (ty : MaskTy) (meq : Vec (BitVec (8 * ty.laneBytes t)) ty.lanes) : R Bool := Mask.all t ty meq

/-- `PartialEq::ne` (partial_eq.rs:17-19) given the mask `self.ne(other)`. -/
def partialNe (t : Target) (ty : MaskTy) (mne : Vec (BitVec (8 * ty.laneBytes t)) ty.lanes) : R Bool := Mask.any t ty mne

/-- The loop of `lt` (partial_ord.rs:32-38) and `gt` (partial_ord.rs:52-58): skip lanes that compare equal, return the comparison
of the first one that does not, `false` if there is none. -/
def lexLoop (mcmp meq : Vec (BitVec w) n) : List Nat → R Bool
  | [] => .ok false
  | i :: is => do
    if ← Mask.extract meq i then lexLoop mcmp meq is
    else Mask.extract mcmp i

/-- `PartialOrd::lt` / `PartialOrd::gt` of `LexicographicallyOrdered` (partial_ord.rs:29-39, 49-59). -/
def lexCompare (mcmp meq : Vec (BitVec w) n) : R Bool := lexLoop mcmp meq (List.range n)

/-- `PartialOrd::le` (46-48) and `ge` (50-52): non-short-circuiting `|`. -/
def lexOrEq (cmp eq : R Bool) : R Bool := do
  let a ← cmp
  let b ← eq
  return a || b

/-- `PartialOrd::partial_cmp` (partial_ord.rs:17-27). -/
def lexPartialCmp (eq lt gt : R Bool) : R (Option Ordering) := do
  if ← eq then return some .eq
  else if ← lt then return some .lt
  else if ← gt then return some .gt
  else return none

/-- `Ord::cmp` (ord.rs:19-24): the `None` arm is `unreachable_unchecked`. -/
def lexCmp (pc : R (Option Ordering)) : R Ordering := do
  match ← pc with
  | some o => return o
  | none => .error .ub

end Cmp

/-! ### Integer and mask vectors (`isMask`, `s`: the macro arguments of `impl_cmp_vertical!`) -/
section
variable (t : Target) (ty : MaskTy) (isMask s : Bool) (a b : Vec (BitVec (8 * ty.laneBytes t)) ty.lanes)

/-- `a == b`. -/
def intEq : R Bool := Cmp.partialEq t ty (Cmp.eq a b)
/-- `a != b`. -/
def intNe : R Bool := Cmp.partialNe t ty (Cmp.ne a b)
/-- `a.lex_ord() < b.lex_ord()`. -/
def lexLt : R Bool := Cmp.lexCompare (Cmp.lt isMask s a b) (Cmp.eq a b)
/-- `a.lex_ord() > b.lex_ord()`. -/
def lexGt : R Bool := Cmp.lexCompare (Cmp.gt isMask s a b) (Cmp.eq a b)
/-- `a.lex_ord() <= b.lex_ord()`. -/
def lexLe : R Bool := Cmp.lexOrEq (lexLt t ty isMask s a b) (intEq t ty a b)
/-- `a.lex_ord() >= b.lex_ord()`. -/
def lexGe : R Bool := Cmp.lexOrEq (lexGt t ty isMask s a b) (intEq t ty a b)
/-- `a.lex_ord().partial_cmp(&b.lex_ord())`. -/
def lexPartialCmp : R (Option Ordering) :=
  Cmp.lexPartialCmp (intEq t ty a b) (lexLt t ty isMask s a b) (lexGt t ty isMask s a b)
/-- `a.lex_ord().cmp(&b.lex_ord())`. -/
def lexCmp : R Ordering := Cmp.lexCmp (lexPartialCmp t ty isMask s a b)

end

/-- `bitmask` (src/api/bitmask.rs:12-14); `r` is the width of `$ibitmask_ty`. -/
def bitmask {w n : Nat} (r : Nat) (v : Vec (BitVec w) n) : BitVec r := simdBitmask r v

end PackedSimd
