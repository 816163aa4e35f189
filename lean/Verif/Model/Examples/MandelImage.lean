import Verif.Model.Examples.Mandelbrot
/-
examples/mandelbrot/src/{lib,main}.rs: choosing an algorithm and writing the image.  The lane type is `f64` with IEEE arithmetic.  The `ispc`
feature is off (its code is not Rust); the buffers are assumed to be allocated (`width * height` does not overflow).
-/
namespace PackedSimd
namespace Ex.Mandel

/-- `type Range = ops::Range<f64>` (lib.rs:33). -/
structure Range where
  start : F64
  end_ : F64

/-- `enum Algorithm` (lib.rs:41-48). -/
inductive Algorithm where
  | scalar | simd | ispc
deriving DecidableEq

/-- `THRESHOLD` (lib.rs:173) and `ITER_LIMIT` (179). -/
def THRESHOLD : F64 := F64.ofInt 4
def ITER_LIMIT : Nat := 50

/-- `DEFAULT_REGION` (lib.rs:167): `(-1.5..0.5, -1.0..1.0)`, as bit patterns. -/
def DEFAULT_REGION : Range × Range :=
  (⟨⟨0xbff8000000000000⟩, ⟨0x3fe0000000000000⟩⟩, ⟨⟨0xbff0000000000000⟩, ⟨0x3ff0000000000000⟩⟩)

/-- `dx`, `dy` and the start values, the same text in scalar_par.rs:82,95 and simd_par.rs:118,131. -/
def grid (dims : Nat × Nat) (xr yr : Range) : Grid F64 where
  xStart := xr.start
  yStart := yr.start
  dx := (xr.end_ - xr.start) / F64.ofInt dims.1
  dy := (yr.end_ - yr.start) / F64.ofInt dims.2
  ofIndex n := F64.ofInt n

/-- `struct Mandelbrot` (lib.rs:50-53). -/
structure Mandelbrot where
  dims : Nat × Nat
  data : List (BitVec 32)
deriving DecidableEq

/-- `Mandelbrot::generate_region` (lib.rs:63-80); `f64s = f64x8`. -/
def generateRegion (t : Target) (dims : Nat × Nat) (region : Range × Range) (algo : Algorithm) : R Mandelbrot := do
  let g := grid dims region.1 region.2
  let data ← match algo with
    | .scalar => generateScalar F64.gt THRESHOLD ITER_LIMIT g dims.1 dims.2
    | .simd => generateSimd t .m64x8 F64.le THRESHOLD ITER_LIMIT g dims.1 dims.2
    | .ispc => .error .panic                              -- unimplemented!
  return ⟨dims, data⟩

/-- `Mandelbrot::generate` (lib.rs:57-59). -/
def generate (t : Target) (dims : Nat × Nat) (algo : Algorithm) : R Mandelbrot := generateRegion t dims DEFAULT_REGION algo

/-! ### Writers -/

/-- `dyn io::Write`: `write_all`, which tells whether all was written. -/
structure Writer (σ : Type) where
  writeAll : List (BitVec 8) → σ → σ × Bool

/-- How a call ended. -/
inductive Ended where
  | ok | err | panic
deriving DecidableEq

/-- `write!(f, ...)` and successive writes with `?`: the pieces one after the other, up to the first which fails. -/
def writePieces {σ : Type} (W : Writer σ) : List (List (BitVec 8)) → σ → σ × Bool
  | [], f => (f, true)
  | p :: ps, f =>
    let (f, ok) := W.writeAll p f
    if ok then writePieces W ps f else (f, false)

/-- ASCII text. -/
def ascii (s : List Char) : List (BitVec 8) := s.map fun c => BitVec.ofNat 8 c.toNat

/-- `Display` of `usize` (core library): decimal digits without leading zeros. -/
def decimal (n : Nat) : List (BitVec 8) :=
  if n < 10 then [BitVec.ofNat 8 (48 + n)] else decimal (n / 10) ++ [BitVec.ofNat 8 (48 + n % 10)]

/-- The pieces of `write_header` (lib.rs:83-92). -/
def header (dims : Nat × Nat) (color : Bool) : List (List (BitVec 8)) :=
  [ascii ['P'], decimal (if color then 6 else 4), ascii ['\n'], decimal dims.1, ascii [' '], decimal dims.2] ++
    (if color then [ascii [' ', '2', '5', '5']] else []) ++ [ascii ['\n']]

/-- `par_chunks(n)` (rayon): consecutive chunks of `n` elements, the last one possibly shorter. -/
def chunks {α : Type} (n : Nat) (xs : List α) : List (List α) :=
  (List.range ((xs.length + (n - 1)) / n)).map fun j => (xs.drop (j * n)).take n

/-- The byte of a chunk in `output_pbm` (lib.rs:106-113). -/
def pbmByte (ch : List (BitVec 32)) : BitVec 8 :=
  ch.zipIdx.foldl (fun result p =>
    let undiverged := p.1 == BitVec.ofNat 32 ITER_LIMIT
    result ||| (BitVec.ofNat 8 undiverged.toNat) <<< (7 - p.2)) 0

/-- `Mandelbrot::output_pbm` (lib.rs:95-117); `collect` keeps the order. -/
def outputPbm {σ : Type} (W : Writer σ) (mb : Mandelbrot) (f : σ) : σ × Ended :=
  let (f, ok) := writePieces W (header mb.dims false) f
  if ok then
    if mb.data.length % 8 = 0 then
      let buf := (chunks 8 mb.data).map pbmByte
      let (f, ok) := W.writeAll buf f
      (f, if ok then .ok else .err)
    else (f, .panic)
  else (f, .err)

/-- `COLORS` (lib.rs:127-133). -/
def COLORS : List (F32 × F32 × F32) :=
  [(F32.ofInt 0, F32.ofInt 7, F32.ofInt 100), (F32.ofInt 32, F32.ofInt 107, F32.ofInt 203), (F32.ofInt 237, F32.ofInt 255, F32.ofInt 255),
   (F32.ofInt 255, F32.ofInt 170, F32.ofInt 0), (F32.ofInt 0, F32.ofInt 2, F32.ofInt 0)]

/-- `SCALE` (lib.rs:134). -/
def SCALE : Nat := 12

/-- `x as u8` for a float (Rust reference): truncation; NaN gives 0, values out of range give the nearest `u8`. -/
def asU8 (x : F32) : BitVec 8 :=
  if Flt.isNaN 23 x.bits then 0
  else if Flt.isInf 23 x.bits then (if x.bits.msb then 0 else 255)
  else BitVec.ofInt 8 (max 0 (min 255 (Int.tdiv (Flt.units 23 x.bits) (2 ^ 149))))

/-- The three bytes of a pixel in `output_ppm` (lib.rs:126-156).  The `u32` arithmetic cannot overflow (`val % 12 * 5 ≤ 55`). -/
def color (val : BitVec 32) : R (List (BitVec 8)) :=
  let colorCount := COLORS.length
  if val = BitVec.ofNat 32 ITER_LIMIT then .ok [0, 0, 0]
  else
    let val := (val.toNat % SCALE) * colorCount / SCALE
    let left := val % colorCount
    let right := (left + 1) % colorCount
    let alpha := F32.ofInt ((val - left : Nat) : Int)
    match COLORS[left]?, COLORS[right]? with
    | some (r1, g1, b1), some (r2, g2, b2) =>
      .ok [asU8 (r1 + (r2 - r1) * alpha), asU8 (g1 + (g2 - g1) * alpha), asU8 (b1 + (b2 - b1) * alpha)]
    | _, _ => .error .panic                               -- index out of bounds

/-- `Mandelbrot::output_ppm` (lib.rs:120-160). -/
def outputPpm {σ : Type} (W : Writer σ) (mb : Mandelbrot) (f : σ) : σ × Ended :=
  let (f, ok) := writePieces W (header mb.dims true) f
  if ok then
    match mb.data.mapM color with
    | .ok cs =>
      let (f, ok) := W.writeAll cs.flatten f
      (f, if ok then .ok else .err)
    | .error _ => (f, .panic)
  else (f, .err)

/-- `main` (main.rs:32-53) with the parsed options. -/
def main {σ : Type} (t : Target) (W : Writer σ) (algo : String) (width height : Nat) (color : Bool) (stdout : σ) : σ × Ended :=
  let algo? := if algo = "scalar" then some Algorithm.scalar else if algo = "simd" then some .simd else if algo = "ispc" then some .ispc else none
  match algo? with
  | none => (stdout, .panic)
  | some a =>
    match generate t (width, height) a with
    | .error _ => (stdout, .panic)
    | .ok mb =>
      let (stdout, e) := if color then outputPpm W mb stdout else outputPbm W mb stdout
      (stdout, if e = .ok then .ok else .panic)           -- unwrap

/-- A file that has room for `k` bytes: `write_all` writes what fits and then fails. -/
def capped (k : Nat) : Writer (List (BitVec 8)) where
  writeAll bytes f := if f.length + bytes.length ≤ k then (f ++ bytes, true) else ((f ++ bytes).take k, false)

end Ex.Mandel
end PackedSimd
