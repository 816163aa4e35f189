import Verif.Model.Examples.AoOcclusion
import Verif.Model.Concurrent
/-
examples/aobench/src/{image,scalar,vector,tiled,scalar_parallel,vector_parallel,tiled_parallel}.rs, over an arbitrary lane arithmetic.

The programs are threads (`Prog`) on the memory `img.fdata`, one element at a time.  `usize` computations are on natural numbers: indices are
at most `3 * width * height`, which `Image::new` has computed without overflow (a release build of `Image::new` wraps; images whose size
overflows are not modelled).  Raw pointers into `fdata` are indices, an access outside of it is undefined behaviour.  `is_x86_feature_detected!`
only selects between copies of `ao_impl` (vector.rs:66-115, tiled.rs:80-129), which is modelled once.
-/
namespace PackedSimd.Ex.Ao
open V3N

variable {α σ : Type} {n : Nat}

/-! ### Slices of `fdata` -/

/-- The slice `fdata[base..base + len]`. -/
structure Window where
  base : Nat
  len : Nat

/-- `image[j]`. -/
def sload (s : Window) (j : Nat) : Prog α α := if j < s.len then .load (s.base + j) .ret else .fault .panic
/-- `image[j] = x`. -/
def sstore (s : Window) (j : Nat) (x : α) : Prog α Unit := if j < s.len then .store (s.base + j) x (.ret ()) else .fault .panic
/-- `image[j] = f(image[j])`, as in `image[j] += ret`. -/
def supdate (s : Window) (j : Nat) (f : α → α) : Prog α Unit := do
  let x ← sload s j
  sstore s j (f x)

/-- `for i in 0..k`. -/
def loop {τ : Type} (k : Nat) (body : τ → Nat → Prog α τ) (init : τ) : Prog α τ := (List.range k).foldlM body init

variable [Add α] [Sub α] [Mul α] [Div α] [Neg α] (F : Fns α)

/-! ### The rays -/

/-- The size of the image and the number of samples per pixel in each direction. -/
structure Size where
  w : Nat
  h : Nat
  ns : Nat

/-- Direction of a sample (scalar.rs:21-30; scalar_parallel.rs:22-31). -/
def dirScalar (z : Size) (x y u v : Nat) : V3 α :=
  let x := F.ofUsize x; let y := F.ofUsize y; let u := F.ofUsize u; let v := F.ofUsize v
  let h := F.ofUsize z.h; let w := F.ofUsize z.w; let ns := F.ofUsize z.ns
  V3.normalized F ⟨(x + u / ns - w / F.lit 2) / (w / F.lit 2) * w / h, -(y + v / ns - h / F.lit 2) / (h / F.lit 2), F.lit (-1)⟩

/-- `inv_ns` (vector.rs:18). -/
def invNs (z : Size) : α := F.lit 1 / F.ofUsize z.ns

/-- Direction of a sample (vector.rs:24-35). -/
def dirVector (z : Size) (x y u v : Nat) : V3 α :=
  let du := F.ofUsize u * invNs F z
  let dv := F.ofUsize v * invNs F z
  let x := F.ofUsize x; let y := F.ofUsize y; let h := F.ofUsize z.h; let w := F.ofUsize z.w
  V3.normalized F ⟨(x + du - w * F.lit 0.5) / (w * F.lit 0.5) * w / h, -(y + dv - h * F.lit 0.5) / (h * F.lit 0.5), F.lit (-1)⟩

/-- Direction of a sample (vector_parallel.rs:23-34). -/
def dirVectorPar (z : Size) (x y u v : Nat) : V3 α :=
  let du := F.ofUsize u * invNs F z
  let dv := F.ofUsize v * invNs F z
  let x := F.ofUsize x; let y := F.ofUsize y; let h := F.ofUsize z.h; let w := F.ofUsize z.w
  V3.normalized F ⟨(x + du - w / F.lit 2) / (w / F.lit 2) * w / h, -(y + dv - h / F.lit 2) / (h / F.lit 2), F.lit (-1)⟩

/-- `f32xN::incr(x, step)` (geometry/mod.rs:48-75). -/
def incrF (n : Nat) (x step : α) : Vec α n := Vector.ofFn fun i => x + F.lit i.val * step

/-- Directions of a packet of samples (tiled.rs:22, 24, 32-43; tiled_parallel.rs:21, 24, 32-43). -/
def dirTiled (n : Nat) (z : Size) (x y u v : Nat) : V3N α n :=
  let yf := splat n (F.ofUsize y)
  let xf := incrF F n (F.ofUsize x) (F.lit 1)
  let du := F.ofUsize u * invNs F z
  let dv := F.ofUsize v * invNs F z
  let hf := F.ofUsize z.h; let wf := F.ofUsize z.w
  V3N.normalized F ⟨(xf + splat n (du - wf / F.lit 2)) / splat n (wf / F.lit 2 * hf / wf),
    vneg F (yf + splat n (dv - hf / F.lit 2)) / splat n (hf / F.lit 2), splat n (F.lit (-1))⟩

/-! ### One ray -/

/-- The value of a ray (scalar.rs:32-47; scalar_parallel.rs:33-48). -/
def shadeScalar (S : Scene α σ n) (dir : V3 α) (s : σ) : R (α × σ) :=
  let ray : Ray α := ⟨V3.zero F, dir⟩
  let isect := castRay F S.plane S.spheres ray
  if isect.hit then aoScalar F S s isect else .ok (F.lit 0, s)

/-- The value of a ray (vector.rs:37-52; vector_parallel.rs:36-51). -/
def shadeVector (t : Target) (dbg : Bool) (S : Scene α σ n) (dir : V3 α) (s : σ) : R (α × σ) :=
  let ray : Ray α := ⟨V3.zero F, dir⟩
  let isect := castRay F S.plane S.spheres ray
  if isect.hit then aoVector F t dbg S s isect else .ok (F.lit 0, s)

/-- `image[offset + c] = f(image[offset + c])` for `c` = 0, 1, 2. -/
def pixelUpdate (s : Window) (offset : Nat) (f : α → α) : Prog α Unit := do
  supdate s (offset + 0) f
  supdate s (offset + 1) f
  supdate s (offset + 2) f

/-! ### One pixel -/

/-- One sample (scalar.rs:20-53). -/
def sampleScalar (S : Scene α σ n) (z : Size) (win : Window) (offset x y u : Nat) (s : σ) (v : Nat) : Prog α σ := do
  let (ret, s) ← Prog.lift (shadeScalar F S (dirScalar F z x y u v) s)
  pixelUpdate win offset (· + ret)
  return s

/-- One pixel (scalar.rs:17-60). -/
def pixelScalar (S : Scene α σ n) (z : Size) (win : Window) (offset x y : Nat) (s : σ) : Prog α σ := do
  let s ← loop z.ns (fun s u => loop z.ns (sampleScalar F S z win offset x y u) s) s
  let ns := F.ofUsize (z.ns * z.ns)
  pixelUpdate win offset (· / ns)
  return s

/-- One sample (vector.rs:23-60); `dir` is `dirVector` or `dirVectorPar`. -/
def sampleVector (t : Target) (dbg : Bool) (S : Scene α σ n) (z : Size) (dir : Nat → Nat → Nat → Nat → V3 α) (win : Window)
    (offset x y u : Nat) (s : σ) (v : Nat) : Prog α σ := do
  let (ret, s) ← Prog.lift (shadeVector F t dbg S (dir x y u v) s)
  let ret := ret * invNs F z * invNs F z
  pixelUpdate win offset (· + ret)
  return s

/-- One pixel (vector.rs:20-62). -/
def pixelVector (t : Target) (dbg : Bool) (S : Scene α σ n) (z : Size) (dir : Nat → Nat → Nat → Nat → V3 α) (win : Window)
    (offset x y : Nat) (s : σ) : Prog α σ :=
  loop z.ns (fun s u => loop z.ns (sampleVector F t dbg S z dir win offset x y u) s) s

/-! ### Packets of pixels -/

/-- `ptr.add(offset + usizexN::incr(c, 3))` as indices into `fdata` (tiled.rs:25-28; geometry/mod.rs:101-123). -/
def pixelPtrs (n : Nat) (offset c : Nat) : Vec Nat n := Vector.ofFn fun i => offset + (c + i.val * 3)

/-- `p.read(mask, splat(d))`: a gather of the lanes selected by the mask (src/api/ptr/gather_scatter.rs; C29). -/
def gather (m : Vec Bool n) (p : Vec Nat n) (d : α) : Prog α (Vec α n) :=
  (List.finRange n).foldlM (fun (r : Vec α n) i => if m[i] then .load p[i] fun x => .ret (r.set i x) else .ret r) (splat n d)

/-- `p.write(mask, v)`: a scatter of the lanes selected by the mask. -/
def scatter (m : Vec Bool n) (p : Vec Nat n) (v : Vec α n) : Prog α Unit :=
  (List.finRange n).foldlM (fun _ i => if m[i] then .store p[i] v[i] (.ret ()) else .ret ()) ()

/-- One packet of samples (tiled.rs:31-74; tiled_parallel.rs:31-74). -/
def sampleTiled (dbg : Bool) (S : Scene α σ n) (z : Size) (offset x y u : Nat) (s : σ) (v : Nat) : Prog α σ := do
  let isect ← Prog.lift (castN F dbg S.plane S.spheres ⟨V3N.zero F n, dirTiled F n z x y u v⟩)
  if many isect.hit then
    let (ao, s) ← Prog.lift (aoTiled F dbg S s isect)
    let ret := ao * splat n (invNs F z * invNs F z)
    let r ← gather isect.hit (pixelPtrs n offset 0) (F.lit 0)
    let g ← gather isect.hit (pixelPtrs n offset 1) (F.lit 0)
    let b ← gather isect.hit (pixelPtrs n offset 2) (F.lit 0)
    scatter isect.hit (pixelPtrs n offset 0) (r + ret)
    scatter isect.hit (pixelPtrs n offset 1) (g + ret)
    scatter isect.hit (pixelPtrs n offset 2) (b + ret)
    return s
  else return s

/-- One packet of pixels (tiled.rs:23-76). -/
def pixelTiled (dbg : Bool) (S : Scene α σ n) (z : Size) (offset x y : Nat) (s : σ) : Prog α σ :=
  loop z.ns (fun s u => loop z.ns (sampleTiled F dbg S z offset x y u) s) s

/-! ### Serial rendering -/

/-- `scalar::ao` (scalar.rs:8-62) on an image whose `fdata` has `len` elements. -/
def aoImageScalar (S : Scene α σ n) (z : Size) (len : Nat) (s : σ) : Prog α σ :=
  loop z.h (fun s y => loop z.w (fun s x => pixelScalar F S z ⟨0, len⟩ (3 * (y * z.w + x)) x y s) s) s

/-- `vector::ao` (vector.rs:9-64). -/
def aoImageVector (t : Target) (dbg : Bool) (S : Scene α σ n) (z : Size) (len : Nat) (s : σ) : Prog α σ :=
  loop z.h (fun s y => loop z.w (fun s x => pixelVector F t dbg S z (dirVector F z) ⟨0, len⟩ (3 * (y * z.w + x)) x y s) s) s

/-- A row of packets (tiled.rs:23-76): `x` in `(0..w).step_by(n)`. -/
def rowTiled (dbg : Bool) (S : Scene α σ n) (z : Size) (s : σ) (y : Nat) : Prog α σ :=
  loop ((z.w + n - 1) / n) (fun s j => pixelTiled F dbg S z (3 * (y * z.w + j * n)) (j * n) y s) s

/-- `tiled::ao` (tiled.rs:9-78). -/
def aoImageTiled (dbg : Bool) (S : Scene α σ n) (z : Size) (s : σ) : Prog α σ :=
  if z.w % n = 0 then loop z.h (rowTiled F dbg S z) s else .fault .panic

/-! ### Parallel rendering -/

/-- How the scene of a row is made on a thread whose random generators are in state `τ` (`S::default()`), and what is left of the generators
when the row is finished. -/
structure Maker (τ σ ρ : Type) where
  new : τ → σ × ρ
  finish : σ → ρ → τ

/-- `scene::Test`: 128 numbers are drawn from the generator of the thread (scene/test.rs:15-68). -/
def testMaker : Maker AoRandom.Rng (TestState F32) AoRandom.Rng := ⟨TestState.default, fun _ r => r⟩
/-- `scene::Random`: the scene has no state of its own (scene/random.rs:12-54). -/
def randomMaker (n : Nat) : Maker (RandomState n) (RandomState n) Unit := ⟨fun s => (s, ()), fun s _ => s⟩

/-- `fdata.par_chunks_mut(3 * w).enumerate()` (rayon): the number of chunks, and chunk `y`. -/
def chunkCount (w len : Nat) : Nat := (len + 3 * w - 1) / (3 * w)
def chunk (w len y : Nat) : Window := ⟨3 * w * y, min (3 * w) (len - 3 * w * y)⟩

variable {τ ρ : Type}

/-- The closure of a row (scalar_parallel.rs:15-62 and the others): `assert!(image.len() == 3 * w)`, a new scene, the pixels. -/
def rowTask (M : Maker τ σ ρ) (z : Size) (len : Nat) (pixels : Window → Nat → σ → Prog α σ) (g : τ) (y : Nat) : Prog α τ := do
  let win := chunk z.w len y
  if win.len = 3 * z.w then
    let (s, r) := M.new g
    let s ← pixels win y s
    return M.finish s r
  else .fault .panic

/-- Row of `scalar_parallel::ao` (scalar_parallel.rs:18-61). -/
def rowScalarPar (S : Scene α σ n) (z : Size) (win : Window) (y : Nat) (s : σ) : Prog α σ :=
  loop z.w (fun s x => pixelScalar F S z win (3 * x) x y s) s
/-- Row of `vector_parallel::ao` (vector_parallel.rs:19-61). -/
def rowVectorPar (t : Target) (dbg : Bool) (S : Scene α σ n) (z : Size) (win : Window) (y : Nat) (s : σ) : Prog α σ :=
  loop z.w (fun s x => pixelVector F t dbg S z (dirVectorPar F z) win (3 * x) x y s) s
/-- Row of `tiled_parallel::ao` (tiled_parallel.rs:22-76): the chunk is not used, pixels are accessed through a pointer to all of `fdata`. -/
def rowTiledPar (dbg : Bool) (S : Scene α σ n) (z : Size) (_ : Window) (y : Nat) (s : σ) : Prog α σ := rowTiled F dbg S z s y

/-- The threads of a parallel rendering: rayon gives each thread rows to work on, one after the other; `work` lists for each thread its rows
and the state of its random generators.  `par_chunks_mut(0)` panics. -/
def parThreads (M : Maker τ σ ρ) (z : Size) (len : Nat) (pixels : Window → Nat → σ → Prog α σ) (work : List (List Nat × τ)) : R (List (Prog α τ)) :=
  if 3 * z.w = 0 then .error .panic
  else .ok (work.map fun p => p.1.foldlM (rowTask M z len pixels) p.2)

/-- `scalar_parallel::ao`. -/
def parScalar (M : Maker τ σ ρ) (S : Scene α σ n) (z : Size) (len : Nat) (work : List (List Nat × τ)) : R (List (Prog α τ)) :=
  parThreads M z len (rowScalarPar F S z) work
/-- `vector_parallel::ao`. -/
def parVector (t : Target) (dbg : Bool) (M : Maker τ σ ρ) (S : Scene α σ n) (z : Size) (len : Nat) (work : List (List Nat × τ)) : R (List (Prog α τ)) :=
  parThreads M z len (rowVectorPar F t dbg S z) work
/-- `tiled_parallel::ao`. -/
def parTiled (dbg : Bool) (M : Maker τ σ ρ) (S : Scene α σ n) (z : Size) (len : Nat) (work : List (List Nat × τ)) : R (List (Prog α τ)) :=
  if z.w % n = 0 then parThreads M z len (rowTiledPar F dbg S z) work else .error .panic

/-! ### image.rs -/

/-- `Image` (image.rs:9-14); the pixels as bytes and as floats. -/
structure Image where
  width : Nat
  height : Nat
  data : List (BitVec 8)
  fdata : List F32

/-- `Image::new` (17-24). -/
def Image.new (w h : Nat) : Image := ⟨w, h, List.replicate (w * h * 3) 0, List.replicate (w * h * 3) ⟨0⟩⟩

/-- `x as isize` (64 bits) for a float (Rust reference): truncation; NaN gives 0, values out of range give the nearest `isize`. -/
def asIsize (x : F32) : Int :=
  if Flt.isNaN 23 x.bits then 0
  else if Flt.isInf 23 x.bits then (if x.bits.msb then -2 ^ 63 else 2 ^ 63 - 1)
  else max (-2 ^ 63) (min (2 ^ 63 - 1) (Int.tdiv (Flt.units 23 x.bits) (2 ^ 149)))

/-- `clamp` (39-50). -/
def clamp (x : F32) : BitVec 8 :=
  let i := asIsize (x * ⟨Flt.roundInt 32 23 false (511 * 2 ^ 149) 2⟩)
  let i := if i < 0 then 0 else i
  let i := if i > 255 then 255 else i
  BitVec.ofInt 8 i

/-- The bytes handed to the encoder by `write_png` (67-88), which fails before that if the file cannot be created. -/
def Image.toBytes (I : Image) (soa : Bool) : R (List (BitVec 8)) :=
  if soa then do
    let len := I.width * I.height
    -- `fdata.split_at(len)`, `tail.split_at(len)` panic if there are fewer elements
    if I.fdata.length < len then .error .panic else
    let r := I.fdata.take len
    let tail := I.fdata.drop len
    if tail.length < len then .error .panic else
    let g := tail.take len
    let b := tail.drop len
    if r.length = len ∧ g.length = len ∧ b.length = len then
      forRange 0 len (fun data i => do
        let x ← lget r i
        let data ← lset data (3 * i + 0) (clamp x)
        let x ← lget g i
        let data ← lset data (3 * i + 1) (clamp x)
        let x ← lget b i
        lset data (3 * i + 2) (clamp x)) I.data
    else .error .panic
  else .ok ((I.fdata.zip I.data).map (fun p => clamp p.1) ++ I.data.drop I.fdata.length)
where
  /-- `v[j] = x`. -/
  lset (l : List (BitVec 8)) (j : Nat) (x : BitVec 8) : R (List (BitVec 8)) := if j < l.length then .ok (l.set j x) else .error .panic

end PackedSimd.Ex.Ao
