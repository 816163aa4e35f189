/-
Basic vocabulary of the packed_simd model.

* `Fault` / `R`      : panics and undefined behaviour are explicit outcomes.
* `Vec α n`          : `Simd<[T; N]>` (src/lib.rs, `pub struct Simd<A: sealed::SimdArray>(pub(crate) A::Tuple)`).
* `LaneCount n`      : the lane counts the crate offers (1 .. 64).
* `Endian`, `Target` : the compilation target that `#[cfg(..)]` attributes consult.
-/

namespace PackedSimd

/-- The two ways an operation can fail to return: a Rust panic, or undefined behaviour
(precondition violated / LLVM poison or UB reached). -/
inductive Fault where
  | panic
  | ub
deriving DecidableEq, Repr

/-- Outcome of running an API function. -/
abbrev R (α : Type) := Except Fault α

deriving instance DecidableEq for Except

/-- A SIMD vector with `n` lanes; lane `i` is `v[i]`. -/
abbrev Vec (α : Type) (n : Nat) := Vector α n

/-- Lane counts available in the crate: at least one lane, at most 64
(largest: `u8x64`, src/v512.rs). -/
class LaneCount (n : Nat) : Prop where
  pos : 0 < n
  le  : n ≤ 64

instance : LaneCount 1  := ⟨by decide, by decide⟩
instance : LaneCount 2  := ⟨by decide, by decide⟩
instance : LaneCount 4  := ⟨by decide, by decide⟩
instance : LaneCount 8  := ⟨by decide, by decide⟩
instance : LaneCount 16 := ⟨by decide, by decide⟩
instance : LaneCount 32 := ⟨by decide, by decide⟩
instance : LaneCount 64 := ⟨by decide, by decide⟩

/-- `target_endian`. -/
inductive Endian where
  | little
  | big
deriving DecidableEq, Repr

/-- `target_arch` values that occur in `cfg` attributes of the crate; `other` is any architecture
not mentioned anywhere. -/
inductive Arch where
  | x86 | x86_64 | arm | aarch64 | powerpc | powerpc64 | wasm32 | s390x | sparc64 | other
deriving DecidableEq, Repr

/-- `target_pointer_width` in bytes (`src/codegen/pointer_sized_int.rs` supports 8..64 bits). -/
abbrev PtrBytes := Nat

/-- The compilation target: everything the crate's `cfg` attributes look at. -/
structure Target where
  arch     : Arch
  endian   : Endian
  /-- bytes in a `usize` -/
  ptrBytes : PtrBytes
  sse      : Bool
  sse2     : Bool
  ssse3    : Bool
  sse42    : Bool
  avx      : Bool
  avx2     : Bool
  /-- `target_feature = "v7"` -/
  v7       : Bool
  /-- `target_feature = "neon"` -/
  neon     : Bool
  /-- cargo feature `core_arch` -/
  coreArch : Bool
  /-- cargo feature `sleef-sys` -/
  sleef    : Bool
deriving DecidableEq, Repr

/-- Pointer widths the crate supports (others hit `compile_error!`). -/
def Target.Supported (t : Target) : Prop := t.ptrBytes = 4 ∨ t.ptrBytes = 8

/-- `for i in lo..n { acc = body(acc, i)? }` — the loop shape used throughout the crate. -/
def forRange {σ : Type} (lo hi : Nat) (body : σ → Nat → R σ) (init : σ) : R σ :=
  (List.range' lo (hi - lo)).foldlM body init

end PackedSimd
