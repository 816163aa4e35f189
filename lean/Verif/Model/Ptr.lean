import Verif.Model.Cast
import Verif.Model.Slices
import Verif.Model.Compare
/-
src/api/minimal/ptr.rs (pointer vectors `cptrxN<T>`, `mptrxN<T>`) and src/api/ptr/gather_scatter.rs.
A pointer lane is an address; `k` = bytes of a pointer of the target, `sz` = `size_of::<T>()`.
-/
namespace PackedSimd
open Intr

namespace Intr

/-- Read one element of `k` bytes; the address must be aligned (llvm.rs:118, LLVM `masked.gather` with the alignment of `T`). -/
def loadElem (e : Endian) (k align : Nat) (m : Mem) (addr : Nat) : R (BitVec (8 * k)) :=
  if isAligned addr align then do
    let bs ← m.load addr k
    return laneOfBytes e bs
  else .error .ub

/-- Write one element. -/
def storeElem (e : Endian) {k : Nat} (align : Nat) (m : Mem) (addr : Nat) (x : BitVec (8 * k)) : R Mem :=
  if isAligned addr align then m.store addr (laneBytes e x) else .error .ub

/-- `simd_gather(value, pointers, mask)` (llvm.rs:118): enabled lanes are loaded, the others keep `value`. -/
def simdGather (e : Endian) {k a w n : Nat} (align : Nat) (m : Mem) (value : Vec (BitVec (8 * k)) n) (ptrs : Vec (BitVec a) n)
    (mask : Vec (BitVec w) n) : R (Vec (BitVec (8 * k)) n) :=
  if mask.all legalMaskLane then
    lanesOrUb (Vector.ofFn fun i => if mask[i] != 0#w then loadElem e k align m (ptrs[i]).toNat else .ok value[i])
  else .error .ub

/-- `simd_scatter(value, pointers, mask)` (llvm.rs:119): enabled lanes are stored, from the first to the last. -/
def simdScatter (e : Endian) {k a w n : Nat} (align : Nat) (value : Vec (BitVec (8 * k)) n) (ptrs : Vec (BitVec a) n)
    (mask : Vec (BitVec w) n) (m : Mem) : R Mem :=
  if mask.all legalMaskLane then
    (List.finRange n).foldlM (fun m i => if mask[i] != 0#w then storeElem e align m (ptrs[i]).toNat value[i] else .ok m) m
  else .error .ub

end Intr

namespace Ptr
variable (t : Target) {n : Nat}

/-- A pointer vector: addresses. -/
abbrev PVec (n : Nat) := Vec (BitVec (8 * t.ptrBytes)) n

/-- `new` (ptr.rs:23-25), `splat` (36-42), `extract` (64-67), `replace` (92-95) and the `_unchecked` forms have the bodies of
iuf.rs, modelled by `PackedSimd.new`, `splat`, `extract`, `replace`. -/
def null (n : Nat) : PVec t n := splat n 0

/-- `mem::transmute` between a pointer vector and `usizexN` / `isizexN`. -/
def toInt (v : PVec t n) : Vec (BitVec (8 * t.ptrBytes)) n := transmute t.endian t.ptrBytes n rfl v
def ofInt (v : Vec (BitVec (8 * t.ptrBytes)) n) : PVec t n := transmute t.endian t.ptrBytes n rfl v

/-- `eq` … `ge` (ptr.rs:299-361): compare as `usizexN`. -/
def eq (a b : PVec t n) : Vec (BitVec (8 * t.ptrBytes)) n := simdEq (toInt t a) (toInt t b)
def ne (a b : PVec t n) : Vec (BitVec (8 * t.ptrBytes)) n := simdNe (toInt t a) (toInt t b)
def lt (a b : PVec t n) : Vec (BitVec (8 * t.ptrBytes)) n := simdLt false (toInt t a) (toInt t b)
def le (a b : PVec t n) : Vec (BitVec (8 * t.ptrBytes)) n := simdLe false (toInt t a) (toInt t b)
def gt (a b : PVec t n) : Vec (BitVec (8 * t.ptrBytes)) n := simdGt false (toInt t a) (toInt t b)
def ge (a b : PVec t n) : Vec (BitVec (8 * t.ptrBytes)) n := simdGe false (toInt t a) (toInt t b)

/-- `is_null` (ptr.rs:54-56). -/
def isNull (v : PVec t n) : Vec (BitVec (8 * t.ptrBytes)) n := eq t v (null t n)

/-- `Default` (ptr.rs:269-275). -/
def default (n : Nat) : PVec t n := null t n

/-- The mask type `msizexN` of a pointer vector with 2, 4 or 8 lanes (src/vPtr.rs). -/
inductive Count where
  | x2 | x4 | x8
deriving DecidableEq

def Count.mask : Count → MaskTy
  | .x2 => .msizex2
  | .x4 => .msizex4
  | .x8 => .msizex8

/-- `PartialEq` (ptr.rs:425-434). -/
def partialEq (c : Count) (a b : Vec (BitVec (8 * c.mask.laneBytes t)) c.mask.lanes) : R Bool :=
  Mask.all t c.mask (match c with
    | .x2 => eq t a b
    | .x4 => eq t a b
    | .x8 => eq t a b)
def partialNe (c : Count) (a b : Vec (BitVec (8 * c.mask.laneBytes t)) c.mask.lanes) : R Bool :=
  Mask.any t c.mask (match c with
    | .x2 => ne t a b
    | .x4 => ne t a b
    | .x8 => ne t a b)

/-- `Hash` (ptr.rs:991-997): the hash of the `usizexN` with the same bits. -/
def hash {σ : Type} (H : Hasher σ (BitVec (8 * t.ptrBytes))) (v : PVec t n) (st : σ) : σ := PackedSimd.hash t.endian H (toInt t v) st

/-- `From<[*T; N]>` (ptr.rs:506-520) and `Into<[*T; N]>` (521-535): copy all bytes. -/
def fromArray (a : Vector (BitVec (8 * t.ptrBytes)) n) : PVec t n := fromBytes t.endian t.ptrBytes n (toBytes t.endian a)
def intoArray (v : PVec t n) : Vector (BitVec (8 * t.ptrBytes)) n := fromBytes t.endian t.ptrBytes n (toBytes t.endian v)

/-! ### Pointer arithmetic (ptr.rs:1075-1299); `sz as isize` wraps like any integer conversion -/

/-- `wrapping_offset` (ptr.rs:1093-1101). -/
def wrappingOffset (sz : Nat) (v : PVec t n) (count : Vec (BitVec (8 * t.ptrBytes)) n) : PVec t n :=
  ofInt t (Ops.add (toInt t v) (Ops.mulVS count (BitVec.ofNat _ sz)))

/-- `offset` (ptr.rs:1075-1078). -/
def offset (sz : Nat) (v : PVec t n) (count : Vec (BitVec (8 * t.ptrBytes)) n) : PVec t n := wrappingOffset t sz v count

/-- `wrapping_offset_from` (ptr.rs:1165-1170): `(y - x) / size_of::<T>() as isize` with `x` = self, `y` = origin. -/
def wrappingOffsetFrom (sz : Nat) (v origin : PVec t n) : R (Vec (BitVec (8 * t.ptrBytes)) n) :=
  let x := toInt t v
  let y := toInt t origin
  Ops.divVS true (Ops.sub y x) (BitVec.ofNat _ sz)

/-- `offset_from` (ptr.rs:1146-1149). -/
def offsetFrom (sz : Nat) (v origin : PVec t n) : R (Vec (BitVec (8 * t.ptrBytes)) n) := wrappingOffsetFrom t sz v origin

/-- `count.cast()` from `usizexN` to `isizexN` (an `impl_from_cast!` row). -/
def usizeToIsize (count : Vec (BitVec (8 * t.ptrBytes)) n) : R (Vec (BitVec (8 * t.ptrBytes)) n) :=
  Cast.fromCast t.ptrBytes .isize .usize count

/-- `add` (ptr.rs:1212-1214). -/
def add (sz : Nat) (v : PVec t n) (count : Vec (BitVec (8 * t.ptrBytes)) n) : R (PVec t n) := do
  let c ← usizeToIsize t count
  return offset t sz v c

/-- `sub` (ptr.rs:1257-1261): `self.offset(-x)`. -/
def sub (sz : Nat) (v : PVec t n) (count : Vec (BitVec (8 * t.ptrBytes)) n) : R (PVec t n) := do
  let x ← usizeToIsize t count
  return offset t sz v (Ops.neg x)

/-- `wrapping_add` (ptr.rs:1277-1279). -/
def wrappingAdd (sz : Nat) (v : PVec t n) (count : Vec (BitVec (8 * t.ptrBytes)) n) : R (PVec t n) := do
  let c ← usizeToIsize t count
  return wrappingOffset t sz v c

/-- `wrapping_sub` (ptr.rs:1296-1299): `self.wrapping_offset(-1 * x)`. -/
def wrappingSub (sz : Nat) (v : PVec t n) (count : Vec (BitVec (8 * t.ptrBytes)) n) : R (PVec t n) := do
  let x ← usizeToIsize t count
  return wrappingOffset t sz v (Ops.mulSV (BitVec.ofInt _ (-1)) x)

/-! ### Gather and scatter (src/api/ptr/gather_scatter.rs); `w` = width of the mask lanes, `k` = size of `T` -/

/-- `read` (gather_scatter.rs:24-35). -/
def read {w k : Nat} (align : Nat) (m : Mem) (v : PVec t n) (mask : Vec (BitVec w) n) (value : Vec (BitVec (8 * k)) n) :
    R (Vec (BitVec (8 * k)) n) := simdGather t.endian align m value v mask

/-- `write` (gather_scatter.rs:132-139). -/
def write {w k : Nat} (align : Nat) (v : PVec t n) (mask : Vec (BitVec w) n) (value : Vec (BitVec (8 * k)) n) (m : Mem) : R Mem :=
  simdScatter t.endian align value v mask m

end Ptr
end PackedSimd
