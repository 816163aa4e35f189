import Verif.Model.Bytes
/-
src/api/slice/from_slice.rs, src/api/slice/write_to_slice.rs, src/api/from/from_array.rs, src/api/hash.rs

`debug_assert!`s are not modelled (they are absent in release builds and implied by the callers' checks).
-/

namespace PackedSimd

/-- A Rust slice `&[T]` / `&mut [T]`: start address and number of elements. -/
structure Slice where
  addr : Nat
  len  : Nat

/-- `ptr.align_offset(a) == 0`. -/
def isAligned (addr align : Nat) : Bool := addr % align == 0

namespace SliceIO

variable {k n : Nat}

/-- `from_slice_aligned_unchecked` (from_slice.rs:42-49): `*(ptr as *const Self)`; dereferencing a misaligned vector pointer is
undefined behaviour. -/
def fromSliceAlignedUnchecked (e : Endian) (k n align : Nat) (m : Mem) (s : Slice) : R (Vec (BitVec (8 * k)) n) :=
  if isAligned s.addr align then do
    let bs ← m.load s.addr (n * k)
    return fromBytes e k n bs
  else .error .ub

/-- `from_slice_unaligned_unchecked` (from_slice.rs:57-65): `x = splat(0)`, then copy `size_of::<Self>()` bytes over it. -/
def fromSliceUnalignedUnchecked (e : Endian) (k n : Nat) (m : Mem) (s : Slice) : R (Vec (BitVec (8 * k)) n) := do
  let x : Vec (BitVec (8 * k)) n := splat n 0
  let bs ← m.load s.addr (n * k)
  let xBytes := toBytes e x
  -- copy_nonoverlapping(target_ptr, self_ptr, size_of::<Self>()): every byte of `x` is overwritten
  let xBytes' : Vector Byte (n * k) := Vector.ofFn fun p => if p.val < n * k then bs[p] else xBytes[p]
  return fromBytes e k n xBytes'

/-- `from_slice_aligned` (from_slice.rs:13-20). -/
def fromSliceAligned (e : Endian) (k n align : Nat) (m : Mem) (s : Slice) : R (Vec (BitVec (8 * k)) n) :=
  if n ≤ s.len then
    if isAligned s.addr align then fromSliceAlignedUnchecked e k n align m s else .error .panic
  else .error .panic

/-- `from_slice_unaligned` (from_slice.rs:28-33). -/
def fromSliceUnaligned (e : Endian) (k n : Nat) (m : Mem) (s : Slice) : R (Vec (BitVec (8 * k)) n) :=
  if n ≤ s.len then fromSliceUnalignedUnchecked e k n m s else .error .panic

/-- `write_to_slice_aligned_unchecked` (write_to_slice.rs:43-53). -/
def writeToSliceAlignedUnchecked (e : Endian) (align : Nat) (v : Vec (BitVec (8 * k)) n) (m : Mem) (s : Slice) : R Mem :=
  if isAligned s.addr align then m.store s.addr (toBytes e v) else .error .ub

/-- `write_to_slice_unaligned_unchecked` (write_to_slice.rs:61-66). -/
def writeToSliceUnalignedUnchecked (e : Endian) (v : Vec (BitVec (8 * k)) n) (m : Mem) (s : Slice) : R Mem :=
  m.store s.addr (toBytes e v)

/-- `write_to_slice_aligned` (write_to_slice.rs:13-20). -/
def writeToSliceAligned (e : Endian) (align : Nat) (v : Vec (BitVec (8 * k)) n) (m : Mem) (s : Slice) : R Mem :=
  if n ≤ s.len then
    if isAligned s.addr align then writeToSliceAlignedUnchecked e align v m s else .error .panic
  else .error .panic

/-- `write_to_slice_unaligned` (write_to_slice.rs:28-33). -/
def writeToSliceUnaligned (e : Endian) (v : Vec (BitVec (8 * k)) n) (m : Mem) (s : Slice) : R Mem :=
  if n ≤ s.len then writeToSliceUnalignedUnchecked e v m s else .error .panic

end SliceIO

/-! ### Arrays (src/api/from/from_array.rs) -/

/-- `From<[T; N]> for V` (6-15): union reinterpretation of the array's bytes. -/
def fromArray (e : Endian) {k n : Nat} (a : Vector (BitVec (8 * k)) n) : Vec (BitVec (8 * k)) n :=
  transmute e k n rfl a
/-- `From<V> for [T; N]` (17-26). -/
def toArray (e : Endian) {k n : Nat} (v : Vec (BitVec (8 * k)) n) : Vector (BitVec (8 * k)) n :=
  transmute e k n rfl v

/-! ### Hash (src/api/hash.rs) -/

/-- A hasher as `Hash for [T; N]` drives it (`<[T] as Hash>::hash`: length prefix, then the elements). -/
structure Hasher (σ α : Type) where
  writeLengthPrefix : σ → Nat → σ
  writeElem : σ → α → σ

/-- `<[T; N] as Hash>::hash`. -/
def hashArray {σ α : Type} {n : Nat} (H : Hasher σ α) (a : Vector α n) (st : σ) : σ :=
  a.toList.foldl H.writeElem (H.writeLengthPrefix st n)

/-- `m*::hash` (masks.rs:99-104): hashes the Boolean `self.0 != 0` (the hasher is the one driven with `bool`s). -/
def MaskLane.hash {σ : Type} {w : Nat} (H : Hasher σ Bool) (x : BitVec w) (st : σ) : σ := H.writeElem st (x != 0#w)

/-- `V::hash` (hash.rs:7-15): reinterpret as an array and hash that. -/
def hash {σ : Type} (e : Endian) {k n : Nat} (H : Hasher σ (BitVec (8 * k))) (v : Vec (BitVec (8 * k)) n) (st : σ) : σ :=
  hashArray H (transmute e k n rfl v) st

end PackedSimd
