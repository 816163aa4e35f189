/-
The `Vec` buffers of examples/mandelbrot/src/{scalar_par,simd_par}.rs and the documented contracts of the operations used on them (std,
`Vec::with_capacity`, `Vec::set_len`, `GlobalAlloc::dealloc`).  Only sizes are modelled; the contents are those of Mandelbrot.lean.
-/
namespace PackedSimd.Ex.Mandel

/-- Which part of a contract is broken. -/
inductive Breach where
  | capacity       -- `set_len`: the new length exceeds the capacity
  | uninitialised  -- `set_len`: an element below the new length has not been initialised
  | layout         -- the memory is freed with another size or alignment than it was allocated with
deriving DecidableEq

/-- Which parts are checked. -/
structure Checks where
  capacity : Bool
  uninitialised : Bool
  layout : Bool

/-- A `Vec`: the size and alignment its memory was allocated with, the size and alignment of its elements, its capacity and length, and how many
bytes from the start have been written. -/
structure RawVec where
  allocSize : Nat
  allocAlign : Nat
  elemSize : Nat
  elemAlign : Nat
  cap : Nat
  len : Nat
  written : Nat

/-- `Vec::with_capacity(n)`: "at least" `n`, `slack` more. -/
def RawVec.withCapacity (elemSize elemAlign n slack : Nat) : RawVec := ⟨(n + slack) * elemSize, elemAlign, elemSize, elemAlign, n + slack, 0, 0⟩

/-- `Vec::set_len(n)`. -/
def RawVec.setLen (C : Checks) (v : RawVec) (n : Nat) : Except Breach RawVec :=
  if C.capacity ∧ v.cap < n then .error .capacity
  else if C.uninitialised ∧ v.written < n * v.elemSize then .error .uninitialised
  else .ok { v with len := n }

/-- Every element has been assigned (the parallel loop over `par_chunks_mut`). -/
def RawVec.fill (v : RawVec) : RawVec := { v with written := v.len * v.elemSize }

/-- `transmute::<Vec<A>, Vec<B>>`: pointer, capacity and length stay as they are. -/
def RawVec.transmute (v : RawVec) (elemSize elemAlign : Nat) : RawVec := { v with elemSize, elemAlign }

/-- Dropping the vector frees `cap * elemSize` bytes of alignment `elemAlign`. -/
def RawVec.drop (C : Checks) (v : RawVec) : Except Breach Unit :=
  if C.layout ∧ v.cap * v.elemSize ≠ 0 ∧ ¬(v.allocSize = v.cap * v.elemSize ∧ v.allocAlign = v.elemAlign) then .error .layout else .ok ()

/-- The buffer of `scalar_par::generate` (scalar_par.rs:97-111). -/
def scalarBuffer (C : Checks) (slack width height : Nat) : Except Breach RawVec := do
  let len := width * height
  let out := RawVec.withCapacity 4 4 len slack
  let out ← out.setLen C len
  return out.fill

/-- The buffer of `simd_par::generate` (simd_par.rs:133-155), `u32x8` being 32 bytes aligned to 32. -/
def simdBuffer (C : Checks) (slack width height : Nat) : Except Breach RawVec := do
  let widthInBlocks := width / 8
  let len := widthInBlocks * height
  let out := RawVec.withCapacity 32 32 len slack
  let out ← out.setLen C len
  let out := out.fill
  let out := out.transmute 4 4
  out.setLen C (width * height)

end PackedSimd.Ex.Mandel
