import Verif.Model.Ops
import Verif.Model.Bytes
import Verif.Model.MaskReduce
/-
src/api/shuffle.rs, src/codegen/shuffle1_dyn.rs, src/api/shuffle1_dyn.rs, src/api/swap_bytes.rs, src/codegen/swap_bytes.rs.

The vector types are indexed by `MaskTy`, used here as the name of a vector *shape* (lane size and count): `m8x16` stands for
`u8x16`, `i8x16` and `m8x16`, `msizex2` for `usizex2`, `isizex2`, `msizex2` and pointer vectors, `m32x4` also for `f32x4`, and so on.
-/

namespace PackedSimd
open Intr

/-! ### `shuffle!` (src/api/shuffle.rs:73-184) -/

/-- Index-list lengths for which the macro has a rule. -/
def shuffleArity (m : Nat) : Bool := m == 2 || m == 4 || m == 8 || m == 16 || m == 32 || m == 64

/-- `shuffle!(a, b, [i0, .., iM-1])` (shuffle.rs:75-178): the rules call `simd_shuffle` with the list as a constant.  `none` is a compile
error.  (The element-type table of src/codegen/shuffle.rs, which further restricts `m`, is not modelled here.) -/
def shuffle2 {α : Type} {n m : Nat} (a b : Vec α n) (idx : Vector Nat m) : Option (Vec α m) :=
  if shuffleArity m then simdShuffle a b idx else none

/-- `shuffle!(v, [i0, .., iM-1])` (shuffle.rs:179-183): `match v { v => shuffle!(v, v, [..]) }`. -/
def shuffle1 {α : Type} {n m : Nat} (v : Vec α n) (idx : Vector Nat m) : Option (Vec α m) := shuffle2 v v idx

/-- Unwrap a `shuffle!` with literal indices: the crate compiles, so the indices are in range (`ub` is never reached). -/
def expectCompiled {α : Type} : Option α → R α
  | some a => .ok a
  | none => .error .ub

/-! ### `shuffle1_dyn` (src/codegen/shuffle1_dyn.rs) -/
namespace Shuf

variable {α : Type} {w n : Nat}

/-- `x as usize`: truncation or zero extension to the pointer width. -/
def asUsize (t : Target) (x : BitVec w) : Nat := (x.setWidth (8 * t.ptrBytes)).toNat

/-- `impl_fallback!` (shuffle1_dyn.rs:11-25). -/
def fallback (t : Target) (v idx : Vec (BitVec w) n) : R (Vec (BitVec w) n) :=
  forRange 0 n (fun result i => do
    let j ← extract idx i
    let x ← extract v (asUsize t j)
    replace result i x) (splat n 0#w)

/-- `vtbl1_u8` / `vqtbl1q_u8` (NEON): out-of-range indices give zero. -/
def neonTbl (v idx : Vec (BitVec 8) n) : Vec (BitVec 8) n :=
  Vector.ofFn fun i => if h : (idx[i.val]).toNat < n then v[(idx[i.val]).toNat] else 0#8

/-- `_mm_shuffle_epi8` (SSSE3): zero if bit 7 of the index is set, else the low four bits select. -/
def pshufb (v idx : Vec (BitVec 8) 16) : Vec (BitVec 8) 16 :=
  Vector.ofFn fun i => if (idx[i.val]).msb then 0#8 else v[(idx[i.val]).toNat % 16]'(Nat.mod_lt _ (by decide))

/-- `_mm_permutevar_ps` (AVX): the low two bits select. -/
def permutevarPs (v idx : Vec (BitVec 32) 4) : Vec (BitVec 32) 4 :=
  Vector.ofFn fun i => v[(idx[i.val]).toNat % 4]'(Nat.mod_lt _ (by decide))

/-- `_mm_permutevar_pd` (AVX): bit 1 selects. -/
def permutevarPd (v idx : Vec (BitVec 64) 2) : Vec (BitVec 64) 2 :=
  Vector.ofFn fun i => if (idx[i.val]).getLsbD 1 then v[1] else v[0]

def isX86 (t : Target) : Bool := t.arch == .x86 || t.arch == .x86_64
def aarch64Neon (t : Target) : Bool := t.arch == .aarch64 && t.neon && t.coreArch

/-- `u8x8` (shuffle1_dyn.rs:28-63). -/
def u8x8 (t : Target) (v idx : Vec (BitVec 8) 8) : R (Vec (BitVec 8) 8) :=
  if aarch64Neon t then .ok (neonTbl v idx) else fallback t v idx

/-- `u8x16` (shuffle1_dyn.rs:64-145). -/
def u8x16 (t : Target) (v idx : Vec (BitVec 8) 16) : R (Vec (BitVec 8) 16) :=
  if isX86 t && t.ssse3 then .ok (pshufb v idx)
  else if aarch64Neon t then .ok (neonTbl v idx)
  else fallback t v idx

/-- `u16x8` (shuffle1_dyn.rs:146-161). -/
def u16x8 (t : Target) (v idx : Vec (BitVec 16) 8) : R (Vec (BitVec 16) 8) := do
  let i8 : Vec (BitVec 8) 8 := simdCastInt false 8 (Ops.mulVS idx 2#16)
  let i16 ← expectCompiled (shuffle1 i8 #v[0, 0, 1, 1, 2, 2, 3, 3, 4, 4, 5, 5, 6, 6, 7, 7])
  let o : Vec (BitVec 8) 16 := new #v[0, 1, 0, 1, 0, 1, 0, 1, 0, 1, 0, 1, 0, 1, 0, 1]
  let s : Vec (BitVec (8 * 1)) 16 := transmute t.endian (k := 2) (n := 8) 1 16 rfl v
  let r ← u8x16 t s (Ops.add i16 o)
  return transmute t.endian (k := 1) (n := 16) 2 8 rfl r

/-- `u32x4` (shuffle1_dyn.rs:162-207). -/
def u32x4 (t : Target) (v idx : Vec (BitVec 32) 4) : R (Vec (BitVec 32) 4) :=
  if isX86 t && t.avx then .ok (permutevarPs v idx)
  else do
    let i4 : Vec (BitVec 8) 4 := simdCastInt false 8 (Ops.mulVS idx 4#32)
    let i16 ← expectCompiled (shuffle1 i4 #v[0, 0, 0, 0, 1, 1, 1, 1, 2, 2, 2, 2, 3, 3, 3, 3])
    let o : Vec (BitVec 8) 16 := new #v[0, 1, 2, 3, 0, 1, 2, 3, 0, 1, 2, 3, 0, 1, 2, 3]
    let s : Vec (BitVec (8 * 1)) 16 := transmute t.endian (k := 4) (n := 4) 1 16 rfl v
    let r ← u8x16 t s (Ops.add i16 o)
    return transmute t.endian (k := 1) (n := 16) 4 4 rfl r

/-- `u64x2` (shuffle1_dyn.rs:208-256). -/
def u64x2 (t : Target) (v idx : Vec (BitVec 64) 2) : R (Vec (BitVec 64) 2) :=
  if isX86 t && t.avx then do
    let i ← Ops.shlU32 idx 1#32
    return permutevarPd v i
  else do
    let i2 : Vec (BitVec 8) 2 := simdCastInt false 8 (Ops.mulVS idx 8#64)
    let i16 ← expectCompiled (shuffle1 i2 #v[0, 0, 0, 0, 0, 0, 0, 0, 1, 1, 1, 1, 1, 1, 1, 1])
    let o : Vec (BitVec 8) 16 := new #v[0, 1, 2, 3, 4, 5, 6, 7, 0, 1, 2, 3, 4, 5, 6, 7]
    let s : Vec (BitVec (8 * 1)) 16 := transmute t.endian (k := 8) (n := 2) 1 16 rfl v
    let r ← u8x16 t s (Ops.add i16 o)
    return transmute t.endian (k := 1) (n := 16) 8 2 rfl r

end Shuf

/-- `shuffle1_dyn` of the unsigned vector of shape `ty` (shuffle1_dyn.rs:27-299). -/
def shuffle1Dyn (t : Target) (ty : MaskTy) (v idx : Vec (BitVec (8 * ty.laneBytes t)) ty.lanes) :
    R (Vec (BitVec (8 * ty.laneBytes t)) ty.lanes) :=
  match ty, v, idx with
  | .m8x8, v, idx => Shuf.u8x8 t v idx
  | .m8x16, v, idx => Shuf.u8x16 t v idx
  | .m16x8, v, idx => Shuf.u16x8 t v idx
  | .m32x4, v, idx => Shuf.u32x4 t v idx
  | .m64x2, v, idx => Shuf.u64x2 t v idx
  | .m128x1, v, _ => .ok v                                  -- shuffle1_dyn.rs:257-265
  | _, v, idx => Shuf.fallback t v idx

/-- `shuffle1_dyn` of a signed, mask, float or pointer vector (shuffle1_dyn.rs:302-315, 387-400): reinterpret as the unsigned vector of the
same shape, shuffle, reinterpret back. -/
def shuffle1DynNonU (t : Target) (ty : MaskTy) (v idx : Vec (BitVec (8 * ty.laneBytes t)) ty.lanes) :
    R (Vec (BitVec (8 * ty.laneBytes t)) ty.lanes) := do
  let u := transmute t.endian (ty.laneBytes t) ty.lanes rfl v
  let r ← shuffle1Dyn t ty u idx
  return transmute t.endian (ty.laneBytes t) ty.lanes rfl r

/-! ### `swap_bytes` (src/codegen/swap_bytes.rs, src/api/swap_bytes.rs) -/

/-- The rule (total size in bytes) chosen for each shape (swap_bytes.rs:119-149). -/
def swapClass (t : Target) : MaskTy → Nat
  | .m8x2 => 2
  | .m8x4 | .m16x2 => 4
  | .m8x8 | .m16x4 | .m32x2 => 8
  | .m8x16 | .m16x8 | .m32x4 | .m64x2 | .m128x1 => 16
  | .m8x32 | .m16x16 | .m32x8 | .m64x4 | .m128x2 => 32
  | .m8x64 | .m16x32 | .m32x16 | .m64x8 | .m128x4 => 64
  | .msizex2 => if t.ptrBytes = 4 then 8 else if t.ptrBytes = 8 then 16 else 0
  | .msizex4 => if t.ptrBytes = 4 then 16 else if t.ptrBytes = 8 then 32 else 0
  | .msizex8 => if t.ptrBytes = 4 then 32 else if t.ptrBytes = 8 then 64 else 0

/-- The literal index lists of the rules (swap_bytes.rs:18, 30, 44-46, 61-64, 81-86, 99-108). -/
def swapIndices : Nat → List Nat
  | 2 => [1, 0]
  | 4 => [3, 2, 1, 0]
  | 8 => [7, 6, 5, 4, 3, 2, 1, 0]
  | 16 => [15, 14, 13, 12, 11, 10, 9, 8, 7, 6, 5, 4, 3, 2, 1, 0]
  | 32 => [31, 30, 29, 28, 27, 26, 25, 24, 23, 22, 21, 20, 19, 18, 17, 16,
           15, 14, 13, 12, 11, 10, 9, 8, 7, 6, 5, 4, 3, 2, 1, 0]
  | 64 => [63, 62, 61, 60, 59, 58, 57, 56, 55, 54, 53, 52, 51, 50, 49, 48,
           47, 46, 45, 44, 43, 42, 41, 40, 39, 38, 37, 36, 35, 34, 33, 32,
           31, 30, 29, 28, 27, 26, 25, 24, 23, 22, 21, 20, 19, 18, 17, 16,
           15, 14, 13, 12, 11, 10, 9, 8, 7, 6, 5, 4, 3, 2, 1, 0]
  | _ => []

/-- `SwapBytes::swap_bytes` (swap_bytes.rs:12-117): transmute to `u8xN`, shuffle, transmute back (the `v16` rule shuffles the `u8x2`
directly, which is the same thing).  Transmutes between types of different size do not compile (`none`). -/
def swapBytes (t : Target) (ty : MaskTy) (v : Vec (BitVec (8 * ty.laneBytes t)) ty.lanes) :
    Option (Vec (BitVec (8 * ty.laneBytes t)) ty.lanes) :=
  if h : (swapIndices (swapClass t ty)).length = ty.lanes * ty.laneBytes t then do
    let bytes : Vec (BitVec 8) (ty.lanes * ty.laneBytes t) := toBytes t.endian v
    let result ← shuffle1 bytes (⟨(swapIndices (swapClass t ty)).toArray, h⟩ : Vector Nat (ty.lanes * ty.laneBytes t))
    return fromBytes t.endian (ty.laneBytes t) ty.lanes result
  else none

section
variable (t : Target) (ty : MaskTy) (v : Vec (BitVec (8 * ty.laneBytes t)) ty.lanes)

/-- `to_le` (api/swap_bytes.rs:17-26). -/
def toLe : Option (Vec (BitVec (8 * ty.laneBytes t)) ty.lanes) := match t.endian with | .little => some v | .big => swapBytes t ty v
/-- `to_be` (api/swap_bytes.rs:33-42). -/
def toBe : Option (Vec (BitVec (8 * ty.laneBytes t)) ty.lanes) := match t.endian with | .big => some v | .little => swapBytes t ty v
/-- `from_le` (api/swap_bytes.rs:49-58). -/
def fromLe : Option (Vec (BitVec (8 * ty.laneBytes t)) ty.lanes) := match t.endian with | .little => some v | .big => swapBytes t ty v
/-- `from_be` (api/swap_bytes.rs:65-74). -/
def fromBe : Option (Vec (BitVec (8 * ty.laneBytes t)) ty.lanes) := match t.endian with | .big => some v | .little => swapBytes t ty v
end

end PackedSimd
