import Verif.Model.Bytes
/-
Horizontal mask reductions: src/codegen/reductions/mask.rs, mask/fallback_impl.rs, mask/x86.rs, mask/x86/{sse,sse2,avx,avx2}.rs,
mask/arm.rs, mask/aarch64.rs and the API on top, src/api/reductions/mask.rs.

`transmute` and unions between mask vectors keep the bytes, so the implementations are modelled on the byte image
(`List Byte`, memory order) of the mask: a transmute is the identity on it, the two halves of a union are its two halves.
-/

namespace PackedSimd

/-- The mask vector types for which reductions are implemented (mask.rs:39-69). -/
inductive MaskTy where
  | m8x2 | m8x4 | m8x8 | m8x16 | m8x32 | m8x64
  | m16x2 | m16x4 | m16x8 | m16x16 | m16x32
  | m32x2 | m32x4 | m32x8 | m32x16
  | m64x2 | m64x4 | m64x8
  | m128x1 | m128x2 | m128x4
  | msizex2 | msizex4 | msizex8
deriving DecidableEq, Repr

namespace MaskTy

/-- Number of lanes (src/v16.rs .. src/v512.rs, src/vSize.rs). -/
def lanes : MaskTy → Nat
  | m8x2 => 2 | m8x4 => 4 | m8x8 => 8 | m8x16 => 16 | m8x32 => 32 | m8x64 => 64
  | m16x2 => 2 | m16x4 => 4 | m16x8 => 8 | m16x16 => 16 | m16x32 => 32
  | m32x2 => 2 | m32x4 => 4 | m32x8 => 8 | m32x16 => 16
  | m64x2 => 2 | m64x4 => 4 | m64x8 => 8
  | m128x1 => 1 | m128x2 => 2 | m128x4 => 4
  | msizex2 => 2 | msizex4 => 4 | msizex8 => 8

/-- Bytes per lane; `msize` lanes are `isize_` (src/masks.rs:125-126, src/codegen/pointer_sized_int.rs). -/
def laneBytes (t : Target) : MaskTy → Nat
  | m8x2 | m8x4 | m8x8 | m8x16 | m8x32 | m8x64 => 1
  | m16x2 | m16x4 | m16x8 | m16x16 | m16x32 => 2
  | m32x2 | m32x4 | m32x8 | m32x16 => 4
  | m64x2 | m64x4 | m64x8 => 8
  | m128x1 | m128x2 | m128x4 => 16
  | msizex2 | msizex4 | msizex8 => t.ptrBytes

end MaskTy

/-- How a target implements `All` and `Any` for a mask type. -/
inductive MaskImpl where
  /-- transmute to one unsigned integer of the given size, compare with `max_value()` / `0` (fallback_impl.rs:25-40 etc.) -/
  | asInt (bytes : Nat)
  /-- transmute to `[u128; cnt]`, compare with `[max_value(); cnt]` / `[0; cnt]` (fallback_impl.rs:115-135, 146-166) -/
  | asU128s (cnt : Nat)
  /-- `fallback_to_other_impl!` (fallback_impl.rs:3-20): transmute to another mask type and reduce that -/
  | other (ty : MaskTy)
  /-- `recurse_half!` (fallback_impl.rs:212-237) -/
  | halves (ty : MaskTy)
  /-- `_mm(256)_movemask_{epi8,ps,pd}` compared with the constant having the low `cnt` bits set, `!= 0` for `any`:
  lanes of `k` bytes, `cnt` of them (sse.rs:5-35, sse2.rs:5-68, avx.rs:34-95, avx2.rs:5-35) -/
  | movemask (k cnt : Nat)
  /-- `_mm256_testc_si256(self, splat(true)) != 0` / `_mm256_testz_si256(self, self) == 0` (avx.rs:6-31) -/
  | testcz
  /-- `simd_reduce_all` / `simd_reduce_any` (x86.rs:115-132) -/
  | intrinsic
  /-- `vpmin_u*(halves.0, halves.1)` then reduce the half vector (arm.rs:5-38) -/
  | pairwise (ty : MaskTy)
  /-- `vminvq_u*(self) != 0` / `vmaxvq_u*(self) != 0` on 16-byte vectors (aarch64.rs:4-23) -/
  | acrossVector
  /-- duplicate the 64-bit vector into a 128-bit one and reduce that (aarch64.rs:26-53) -/
  | duplicate (ty : MaskTy)
  /-- `compile_error!("unsupported target_pointer_width")` -/
  | compileError
deriving DecidableEq, Repr

open MaskTy MaskImpl

/-- `fallback_impl!` (fallback_impl.rs:23-210). -/
def fallbackImpl (t : Target) : MaskTy → MaskImpl
  | m8x2 => asInt 2
  | m8x4 => asInt 4
  | m16x2 => other m8x4
  | m8x8 => asInt 8
  | m16x4 => other m8x8
  | m32x2 => other m16x4
  | m8x16 => asInt 16
  | m16x8 => other m8x16
  | m32x4 => other m16x8
  | m64x2 => other m32x4
  | m128x1 => other m64x2
  | m8x32 => asU128s 2
  | m16x16 => other m8x32
  | m32x8 => other m16x16
  | m64x4 => other m32x8
  | m128x2 => other m64x4
  | m8x64 => asU128s 4
  | m16x32 => other m8x64
  | m32x16 => other m16x32
  | m64x8 => other m32x16
  | m128x4 => other m64x8
  | msizex2 => if t.ptrBytes = 8 then other m64x2 else if t.ptrBytes = 4 then other m32x2 else compileError
  | msizex4 => if t.ptrBytes = 8 then other m64x4 else if t.ptrBytes = 4 then other m32x4 else compileError
  | msizex8 => if t.ptrBytes = 8 then other m64x8 else if t.ptrBytes = 4 then other m32x8 else compileError

/-- `x86_m8x32_impl!` (x86.rs:68-82). -/
def x86M8x32 (t : Target) (id half : MaskTy) : MaskImpl :=
  if t.avx2 then movemask 1 32 else if t.avx then testcz else if t.sse2 then halves half else fallbackImpl t id
/-- `x86_m32x8_impl!` (x86.rs:85-97). -/
def x86M32x8 (t : Target) (id half : MaskTy) : MaskImpl :=
  if t.avx then movemask 4 8 else if t.sse then halves half else fallbackImpl t id
/-- `x86_m64x4_impl!` (x86.rs:100-112). -/
def x86M64x4 (t : Target) (id half : MaskTy) : MaskImpl :=
  if t.avx then movemask 8 4 else if t.sse then halves half else fallbackImpl t id

/-- `impl_mask_reductions!` for x86 and x86_64 (x86.rs:135-216). -/
def x86Impl (t : Target) : MaskTy → MaskImpl
  | m8x16 => if t.sse2 then movemask 1 16 else fallbackImpl t m8x16                                          -- x86.rs:27-37
  | m16x8 => if t.sse2 then movemask 1 16 else fallbackImpl t m16x8
  | m32x4 => if t.sse then movemask 4 4 else fallbackImpl t m32x4                                            -- x86.rs:40-50
  | m64x2 => if t.sse2 then movemask 8 2 else if t.sse then movemask 4 4 else fallbackImpl t m64x2           -- x86.rs:53-62
  | m128x1 => intrinsic
  | m8x32 => x86M8x32 t m8x32 m8x16
  | m16x16 => x86M8x32 t m16x16 m16x8
  | m32x8 => x86M32x8 t m32x8 m32x4
  | m64x4 => x86M64x4 t m64x4 m64x2
  | m128x2 => intrinsic
  | ty => fallbackImpl t ty   -- m8x8, m16x4, m32x2 and msize (same table as fallback_impl.rs), and the default arm

/-- `impl_mask_reductions!` for ARM v7 + NEON (arm.rs:41-56). -/
def armImpl (t : Target) : MaskTy → MaskImpl
  | m8x16 => pairwise m8x8
  | m16x8 => pairwise m16x4
  | m32x4 => pairwise m32x2
  | ty => fallbackImpl t ty

/-- `impl_mask_reductions!` for AArch64 + NEON (aarch64.rs:56-81). -/
def aarch64Impl (t : Target) : MaskTy → MaskImpl
  | m8x8 => duplicate m8x16
  | m16x4 => duplicate m16x8
  | m32x2 => duplicate m32x4
  | m8x16 => acrossVector
  | m16x8 => acrossVector
  | m32x4 => acrossVector
  | ty => fallbackImpl t ty

/-- The `cfg_if!` of mask.rs:21-37. -/
def maskImpl (t : Target) (ty : MaskTy) : MaskImpl :=
  if t.arch = .x86 ∨ t.arch = .x86_64 then x86Impl t ty
  else if t.arch = .arm ∧ t.v7 ∧ t.neon ∧ t.coreArch then armImpl t ty
  else if t.arch = .aarch64 ∧ t.neon then aarch64Impl t ty
  else fallbackImpl t ty

/-- The `k`-byte lanes of a byte image. -/
def lanesOfBytes (e : Endian) (k : Nat) (bs : List Byte) : List (BitVec (8 * k)) :=
  List.ofFn fun i : Fin (bs.length / k) => laneOfBytes e (Vector.ofFn fun j : Fin k => bs.getD (i.val * k + j.val) 0#8)

/-- The bytes of a list of lanes. -/
def bytesOfLanes (e : Endian) {k : Nat} (xs : List (BitVec (8 * k))) : List Byte :=
  xs.flatMap fun x => (laneBytes e x).toList

/-- Intel `movemask`: bit `i` is the sign bit of lane `i`; the other bits of the `i32` are zero. -/
def x86Movemask {w : Nat} (lanes : List (BitVec w)) : BitVec 32 :=
  BitVec.ofNat 32 (lanes.foldr (fun x acc => (if x.msb then 1 else 0) + 2 * acc) 0)

/-- NEON `vpmin_u*` / `vpmax_u*`: `f` of adjacent pairs of the first operand, then of the second. -/
def pairs {α : Type} (f : α → α → α) : List α → List α
  | a :: b :: rest => f a b :: pairs f rest
  | _ => []
def vpairwise {α : Type} (f : α → α → α) (a b : List α) : List α := pairs f a ++ pairs f b

/-- NEON `vminvq_u*` / `vmaxvq_u*`: across-vector minimum / maximum. -/
def vacross {α : Type} (f : α → α → α) : List α → R α
  | [] => .error .ub
  | x :: xs => .ok (xs.foldl f x)

/-- Unsigned minimum / maximum of two lanes. -/
def uminLane {w : Nat} (a b : BitVec w) : BitVec w := if a.ult b then a else b
def umaxLane {w : Nat} (a b : BitVec w) : BitVec w := if a.ult b then b else a

/-- `All::all` of the target for mask type `ty`, on the byte image.  `fuel` bounds the chain of calls to the `all` of other mask types
(the chains in the source have length at most six; running out is an error, and shown not to happen). -/
def allBytes (t : Target) : (fuel : Nat) → MaskTy → List Byte → R Bool
  | 0, _, _ => .error .ub
  | fuel + 1, ty, bs =>
    match maskImpl t ty with
    | asInt k => .ok (lanesOfBytes t.endian k bs == [BitVec.allOnes (8 * k)])
    | asU128s cnt => .ok (lanesOfBytes t.endian 16 bs == List.replicate cnt (BitVec.allOnes (8 * 16)))
    | other ty' => allBytes t fuel ty' bs
    | halves h => do
        if ← allBytes t fuel h (bs.take (bs.length / 2)) then allBytes t fuel h (bs.drop (bs.length / 2)) else return false
    | movemask k cnt =>
        .ok (x86Movemask (lanesOfBytes t.endian k bs) == BitVec.ofNat 32 (2 ^ cnt - 1))
    | testcz =>
        -- testc(a, b): CF = ((NOT a) AND b) == 0, with b the bytes of `splat(true)`
        .ok (bs.all fun b => (~~~b &&& BitVec.allOnes 8) == 0#8)
    | intrinsic => do
        let ls := lanesOfBytes t.endian (ty.laneBytes t) bs
        Intr.simdReduceAll ⟨ls.toArray, rfl⟩
    | pairwise h => do
        let k := h.laneBytes t
        let lo := lanesOfBytes t.endian k (bs.take (bs.length / 2))
        let hi := lanesOfBytes t.endian k (bs.drop (bs.length / 2))
        allBytes t fuel h (bytesOfLanes t.endian (vpairwise uminLane lo hi))
    | acrossVector => do
        let r ← vacross uminLane (lanesOfBytes t.endian (ty.laneBytes t) bs)
        return r != 0#_
    | duplicate d => allBytes t fuel d (bs ++ bs)
    | compileError => .error .ub

/-- `Any::any` of the target for mask type `ty`, on the byte image. -/
def anyBytes (t : Target) : (fuel : Nat) → MaskTy → List Byte → R Bool
  | 0, _, _ => .error .ub
  | fuel + 1, ty, bs =>
    match maskImpl t ty with
    | asInt k => .ok (lanesOfBytes t.endian k bs != [0#(8 * k)])
    | asU128s cnt => .ok (lanesOfBytes t.endian 16 bs != List.replicate cnt (0#(8 * 16)))
    | other ty' => anyBytes t fuel ty' bs
    | halves h => do
        if ← anyBytes t fuel h (bs.take (bs.length / 2)) then return true else anyBytes t fuel h (bs.drop (bs.length / 2))
    | movemask k _ => .ok (x86Movemask (lanesOfBytes t.endian k bs) != 0#32)
    | testcz =>
        -- testz(a, a): ZF = (a AND a) == 0
        .ok (!(bs.all fun b => (b &&& b) == 0#8))
    | intrinsic => do
        let ls := lanesOfBytes t.endian (ty.laneBytes t) bs
        Intr.simdReduceAny ⟨ls.toArray, rfl⟩
    | pairwise h => do
        let k := h.laneBytes t
        let lo := lanesOfBytes t.endian k (bs.take (bs.length / 2))
        let hi := lanesOfBytes t.endian k (bs.drop (bs.length / 2))
        anyBytes t fuel h (bytesOfLanes t.endian (vpairwise umaxLane lo hi))
    | acrossVector => do
        let r ← vacross umaxLane (lanesOfBytes t.endian (ty.laneBytes t) bs)
        return r != 0#_
    | duplicate d => anyBytes t fuel d (bs ++ bs)
    | compileError => .error .ub

namespace Mask

/-- `all` (src/api/reductions/mask.rs:8-10). -/
def all (t : Target) (ty : MaskTy) (m : Vec (BitVec (8 * ty.laneBytes t)) ty.lanes) : R Bool :=
  allBytes t 8 ty (toBytes t.endian m).toList

/-- `any` (src/api/reductions/mask.rs:13-15). -/
def any (t : Target) (ty : MaskTy) (m : Vec (BitVec (8 * ty.laneBytes t)) ty.lanes) : R Bool :=
  anyBytes t 8 ty (toBytes t.endian m).toList

/-- `none` (src/api/reductions/mask.rs:18-20). -/
def none (t : Target) (ty : MaskTy) (m : Vec (BitVec (8 * ty.laneBytes t)) ty.lanes) : R Bool := do
  return !(← any t ty m)

end Mask

end PackedSimd
