import Verif.Model.Cast
import Verif.Model.Shuffle
import Verif.Model.Slices
import Verif.Model.Compare
/-
Histories of safe API calls that produce masks: mask element values (`m8` .. `msize`, src/masks.rs) and mask vectors.

`MaskElem t k x` / `MaskVec t k n v`: the `k`-byte mask element `x` / the mask vector `v` with `n` lanes of `k` bytes can be obtained on target `t`
by some sequence of safe calls.  Operands that are not masks are arbitrary.  `allow dst src` restricts the vector types between which `cast` may be
used (to state which conversions are sound).
-/
namespace PackedSimd
open Intr Cast

mutual

inductive MaskElem (allow : VTy → VTy → Prop) (t : Target) : (k : Nat) → BitVec (8 * k) → Prop
  /-- `m8::new` … (masks.rs:20-26). -/
  | new (k : Nat) (b : Bool) : MaskElem allow t k (MaskLane.new (8 * k) b)
  /-- `Default` (masks.rs:34-39). -/
  | default (k : Nat) : MaskElem allow t k (MaskLane.default (8 * k))
  /-- An element of `From<mNxM> for [mN; M]` (api/from/from_array.rs:17-26). -/
  | ofArray {k n : Nat} {v : Vec (BitVec (8 * k)) n} (i : Nat) (hi : i < n) : MaskVec allow t k n v → MaskElem allow t k (toArray t.endian v)[i]

inductive MaskVec (allow : VTy → VTy → Prop) (t : Target) : (k n : Nat) → Vec (BitVec (8 * k)) n → Prop
  /-- `new` (api/minimal/mask.rs:20-22). -/
  | new (k : Nat) {n : Nat} (xs : Vec Bool n) : MaskVec allow t k n (Mask.new (8 * k) xs)
  /-- `splat` (mask.rs:40-46). -/
  | splat (k n : Nat) (b : Bool) : MaskVec allow t k n (Mask.splat (8 * k) n b)
  /-- `Default` (api/default.rs). -/
  | default (k n : Nat) : MaskVec allow t k n (Mask.default (8 * k) n)
  /-- `replace` (mask.rs:82-85), when it does not panic. -/
  | replace {k n i : Nat} {v r : Vec (BitVec (8 * k)) n} (b : Bool) : MaskVec allow t k n v → Mask.replace v i b = .ok r → MaskVec allow t k n r
  /-- Vertical comparisons of integer, mask and pointer vectors (api/cmp/vertical.rs, api/minimal/ptr.rs:296-362, is_null ptr.rs:54-56). -/
  | eq {k n : Nat} (a b : Vec (BitVec (8 * k)) n) : MaskVec allow t k n (Cmp.eq a b)
  | ne {k n : Nat} (a b : Vec (BitVec (8 * k)) n) : MaskVec allow t k n (Cmp.ne a b)
  | lt {k n : Nat} (isMask s : Bool) (a b : Vec (BitVec (8 * k)) n) : MaskVec allow t k n (Cmp.lt isMask s a b)
  | le {k n : Nat} (isMask s : Bool) (a b : Vec (BitVec (8 * k)) n) : MaskVec allow t k n (Cmp.le isMask s a b)
  | gt {k n : Nat} (isMask s : Bool) (a b : Vec (BitVec (8 * k)) n) : MaskVec allow t k n (Cmp.gt isMask s a b)
  | ge {k n : Nat} (isMask s : Bool) (a b : Vec (BitVec (8 * k)) n) : MaskVec allow t k n (Cmp.ge isMask s a b)
  /-- Vertical comparisons of float vectors. -/
  | feq {k n : Nat} (man : Nat) (a b : Vec (BitVec (8 * k)) n) : MaskVec allow t k n (FVec.eq man a b)
  | fne {k n : Nat} (man : Nat) (a b : Vec (BitVec (8 * k)) n) : MaskVec allow t k n (FVec.ne man a b)
  | flt {k n : Nat} (man : Nat) (a b : Vec (BitVec (8 * k)) n) : MaskVec allow t k n (FVec.lt man a b)
  | fle {k n : Nat} (man : Nat) (a b : Vec (BitVec (8 * k)) n) : MaskVec allow t k n (FVec.le man a b)
  | fgt {k n : Nat} (man : Nat) (a b : Vec (BitVec (8 * k)) n) : MaskVec allow t k n (FVec.gt man a b)
  | fge {k n : Nat} (man : Nat) (a b : Vec (BitVec (8 * k)) n) : MaskVec allow t k n (FVec.ge man a b)
  /-- `is_nan`, `is_infinite`, `is_finite` (api/math/float/consts.rs). -/
  | isNan {k n : Nat} (man : Nat) (a : Vec (BitVec (8 * k)) n) : MaskVec allow t k n (FVec.isNan man a)
  | isInfinite {k n : Nat} (man : Nat) (a : Vec (BitVec (8 * k)) n) : MaskVec allow t k n (FVec.isInfinite man a)
  | isFinite {k n : Nat} (man : Nat) (a : Vec (BitVec (8 * k)) n) : MaskVec allow t k n (FVec.isFinite man a)
  /-- Boolean operators between masks, and with `bool` (api/ops/vector_mask_bitwise.rs, scalar_mask_bitwise.rs); the `…Assign` forms are the same. -/
  | bitand {k n : Nat} {a b : Vec (BitVec (8 * k)) n} : MaskVec allow t k n a → MaskVec allow t k n b → MaskVec allow t k n (Mask.bitand a b)
  | bitor {k n : Nat} {a b : Vec (BitVec (8 * k)) n} : MaskVec allow t k n a → MaskVec allow t k n b → MaskVec allow t k n (Mask.bitor a b)
  | bitxor {k n : Nat} {a b : Vec (BitVec (8 * k)) n} : MaskVec allow t k n a → MaskVec allow t k n b → MaskVec allow t k n (Mask.bitxor a b)
  | not {k n : Nat} {a : Vec (BitVec (8 * k)) n} : MaskVec allow t k n a → MaskVec allow t k n (Mask.not a)
  | bitandVS {k n : Nat} {a : Vec (BitVec (8 * k)) n} (x : Bool) : MaskVec allow t k n a → MaskVec allow t k n (Mask.bitandVS a x)
  | bitandSV {k n : Nat} {a : Vec (BitVec (8 * k)) n} (x : Bool) : MaskVec allow t k n a → MaskVec allow t k n (Mask.bitandSV x a)
  | bitorVS {k n : Nat} {a : Vec (BitVec (8 * k)) n} (x : Bool) : MaskVec allow t k n a → MaskVec allow t k n (Mask.bitorVS a x)
  | bitorSV {k n : Nat} {a : Vec (BitVec (8 * k)) n} (x : Bool) : MaskVec allow t k n a → MaskVec allow t k n (Mask.bitorSV x a)
  | bitxorVS {k n : Nat} {a : Vec (BitVec (8 * k)) n} (x : Bool) : MaskVec allow t k n a → MaskVec allow t k n (Mask.bitxorVS a x)
  | bitxorSV {k n : Nat} {a : Vec (BitVec (8 * k)) n} (x : Bool) : MaskVec allow t k n a → MaskVec allow t k n (Mask.bitxorSV x a)
  /-- `select` between masks (api/select.rs). -/
  | select {k k' n : Nat} {m : Vec (BitVec (8 * k')) n} {a b r : Vec (BitVec (8 * k)) n} : MaskVec allow t k' n m → MaskVec allow t k n a →
      MaskVec allow t k n b → PackedSimd.select m a b = .ok r → MaskVec allow t k n r
  /-- `shuffle!` of one or two masks (api/shuffle.rs). -/
  | shuffle {k n m : Nat} {a b : Vec (BitVec (8 * k)) n} {idx : Vector Nat m} {r : Vec (BitVec (8 * k)) m} : MaskVec allow t k n a →
      MaskVec allow t k n b → shuffle2 a b idx = some r → MaskVec allow t k m r
  /-- `shuffle1_dyn` with any index vector (api/shuffle1_dyn.rs, codegen/shuffle1_dyn.rs). -/
  | shuffle1Dyn (ty : MaskTy) {v idx r : Vec (BitVec (8 * ty.laneBytes t)) ty.lanes} : MaskVec allow t (ty.laneBytes t) ty.lanes v →
      shuffle1DynNonU t ty v idx = .ok r → MaskVec allow t (ty.laneBytes t) ty.lanes r
  /-- `cast` to a mask vector (api/cast.rs). -/
  | cast {dst src : VTy} {f} {x : Vec (BitVec (src.elem.bits t.ptrBytes)) src.lanes} {y : Vec (BitVec (dst.elem.bits t.ptrBytes)) src.lanes} :
      Casts t.ptrBytes dst src f → allow dst src → dst.elem.kind = .mask →
      (src.elem.kind = .mask → MaskVec allow t (src.elem.bytes t.ptrBytes) src.lanes x) →
      f x = .ok y → MaskVec allow t (dst.elem.bytes t.ptrBytes) src.lanes y
  /-- `From` between mask vectors (api/from/from_vector.rs). -/
  | fromVector {dst src : VTy} {x : Vec (BitVec (src.elem.bits t.ptrBytes)) src.lanes} {y : Vec (BitVec (dst.elem.bits t.ptrBytes)) src.lanes} :
      Listed Tables.fromTable dst src → dst.elem.kind = .mask →
      (src.elem.kind = .mask → MaskVec allow t (src.elem.bytes t.ptrBytes) src.lanes x) →
      Cast.fromVector t.ptrBytes dst.elem src.elem x = .ok y → MaskVec allow t (dst.elem.bytes t.ptrBytes) src.lanes y
  /-- `FromBits` / `into_bits` to a mask vector (api/into_bits.rs). -/
  | fromBits {dst src : VTy} {x : src.Val t.ptrBytes} (h : src.bytes t.ptrBytes = dst.bytes t.ptrBytes) :
      Listed Tables.bitsTable dst src → dst.elem.kind = .mask →
      (src.elem.kind = .mask → MaskVec allow t (src.elem.bytes t.ptrBytes) src.lanes x) →
      MaskVec allow t (dst.elem.bytes t.ptrBytes) dst.lanes (Cast.fromBits t.ptrBytes t.endian dst src h x)
  /-- `From<[mN; M]>` (api/from/from_array.rs:6-15). -/
  | fromArray {k n : Nat} {a : Vector (BitVec (8 * k)) n} : (∀ i (hi : i < n), MaskElem allow t k a[i]) → MaskVec allow t k n (fromArray t.endian a)

end

end PackedSimd
