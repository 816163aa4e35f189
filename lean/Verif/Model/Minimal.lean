import Verif.Model.Intrinsics
/-
src/api/minimal/iuf.rs, src/api/minimal/mask.rs, src/api/default.rs, src/masks.rs
-/

namespace PackedSimd
open Intr

variable {α : Type} {w n : Nat}

/-! ### Numeric vectors (src/api/minimal/iuf.rs) -/

/-- `new(x0, .., xN-1)` (iuf.rs:22-24): the arguments in order become the lanes. -/
def new (xs : Vec α n) : Vec α n := Vector.ofFn fun i => xs[i]

/-- `lanes()` (iuf.rs:28-30). -/
def lanes (_ : Vec α n) : Nat := n

/-- `splat(value)` (iuf.rs:35-41). -/
def splat (n : Nat) (x : α) : Vec α n := Vector.ofFn fun _ => x

/-- `index as u32` on a `usize` index. -/
def asU32 (index : Nat) : Nat := index % 2 ^ 32

/-- `extract_unchecked(index)` (iuf.rs:60-64). -/
def extractUnchecked (v : Vec α n) (index : Nat) : R α := simdExtract v (asU32 index)

/-- `extract(index)` (iuf.rs:49-52). -/
def extract (v : Vec α n) (index : Nat) : R α :=
  if index < n then extractUnchecked v index else .error .panic

/-- `replace_unchecked(index, x)` (iuf.rs:91-98). -/
def replaceUnchecked (v : Vec α n) (index : Nat) (x : α) : R (Vec α n) := simdInsert v (asU32 index) x

/-- `replace(index, x)` (iuf.rs:76-79). -/
def replace (v : Vec α n) (index : Nat) (x : α) : R (Vec α n) :=
  if index < n then replaceUnchecked v index x else .error .panic

/-! ### Scalar masks (src/masks.rs:3-126) -/
namespace MaskLane

/-- `m*::new(x)` (masks.rs:20-26): `!0` or `0`. -/
def new (w : Nat) (x : Bool) : BitVec w := if x then ~~~(0#w) else 0#w
/-- `test` (masks.rs:29-31). -/
def test (x : BitVec w) : Bool := x != 0#w
/-- `Default` (masks.rs:34-39). -/
def default (w : Nat) : BitVec w := 0#w
/-- `eq` / `ne` (masks.rs:44-50). -/
def eq (a b : BitVec w) : Bool := a == b
def ne (a b : BitVec w) : Bool := a != b
/-- `lt` .. `ge` (masks.rs:72-86): the stored integers compared the other way round. -/
def lt (a b : BitVec w) : Bool := b.slt a
def gt (a b : BitVec w) : Bool := a.slt b
def le (a b : BitVec w) : Bool := b.sle a
def ge (a b : BitVec w) : Bool := a.sle b
/-- `partial_cmp` (masks.rs:57-69). -/
def partialCmp (a b : BitVec w) : Option Ordering :=
  if eq a b then some .eq else if b.slt a then some .lt else some .gt
/-- `cmp` (masks.rs:91-96): `None` would be `unreachable_unchecked`. -/
def cmp (a b : BitVec w) : R Ordering :=
  match partialCmp a b with
  | some o => .ok o
  | none => .error .ub

end MaskLane

/-! ### Mask vectors (src/api/minimal/mask.rs) -/
namespace Mask

/-- `bool_to_internal` (mask.rs:27-29): `[0, !0][x as usize]`. -/
def boolToInternal (w : Nat) (x : Bool) : BitVec w := #v[(0#w), ~~~(0#w)][x.toNat]'(by cases x <;> decide)

/-- `new` (mask.rs:20-22). -/
def new (w : Nat) (xs : Vec Bool n) : Vec (BitVec w) n := Vector.ofFn fun i => boolToInternal w xs[i]

/-- `splat` (mask.rs:40-46). -/
def splat (w n : Nat) (x : Bool) : Vec (BitVec w) n := Vector.ofFn fun _ => boolToInternal w x

/-- `extract_unchecked` (mask.rs:65-69): `x != 0`. -/
def extractUnchecked (v : Vec (BitVec w) n) (index : Nat) : R Bool := do
  let x ← simdExtract v (asU32 index)
  return x != 0#w

/-- `extract` (mask.rs:54-57). -/
def extract (v : Vec (BitVec w) n) (index : Nat) : R Bool :=
  if index < n then extractUnchecked v index else .error .panic

/-- `replace_unchecked` (mask.rs:98-106). -/
def replaceUnchecked (v : Vec (BitVec w) n) (index : Nat) (x : Bool) : R (Vec (BitVec w) n) :=
  simdInsert v (asU32 index) (boolToInternal w x)

/-- `replace` (mask.rs:82-85). -/
def replace (v : Vec (BitVec w) n) (index : Nat) (x : Bool) : R (Vec (BitVec w) n) :=
  if index < n then replaceUnchecked v index x else .error .panic

/-- `Default` (src/api/default.rs:5-10, instantiated with `bool` for masks): `splat(false)`. -/
def default (w n : Nat) : Vec (BitVec w) n := splat w n false

end Mask

/-- `Default` for numeric vectors (src/api/default.rs:5-10): `splat(0)`. -/
def default (w n : Nat) : Vec (BitVec w) n := splat n (0#w)

end PackedSimd
