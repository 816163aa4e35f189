import Verif.Model.Concurrent
import Verif.Model.Examples.Stencil
import Verif.Model.Examples.Mandelbrot
/-
The tasks of the parallel example programs as threads on the shared memory they write: examples/stencil/src/simd_par.rs,
examples/options_pricing/src/simd_par.rs and examples/mandelbrot/src/{scalar_par,simd_par}.rs.  One thread for every task that rayon runs: a worker that
runs several tasks one after the other only has fewer executions.  What the tasks read through shared references (`&[f32]`, the other grid, `xs`) cannot
change meanwhile and is not part of this memory.
-/
namespace PackedSimd.Ex.Par
open Prog
open Options (loadAt)

variable {α : Type} {n : Nat}

/-- Read a vector at element `a`, without any check: one load for every lane. -/
def rawLoad : (n : Nat) → (a : Nat) → Prog α (Vec α n)
  | 0, _ => .ret #v[]
  | n + 1, a => do
    let v ← rawLoad n a
    let x ← Prog.load (a + n) .ret
    return v.push x

/-- Write lanes from element `a` on, without any check. -/
def rawStore : List α → Nat → Prog α Unit
  | [], _ => .ret ()
  | x :: xs, a => .store a x (rawStore xs (a + 1))

/-- `from_slice_unaligned_unchecked(s.get_unchecked(i..))` for the slice `s` of `len` elements at element `base`
(src/api/slice/from_slice.rs:57-65): only builds with debug assertions compare lengths, and `get_unchecked` compares nothing. -/
def loadChunk (dbg : Bool) (n base len i : Nat) : Prog α (Vec α n) :=
  if dbg && decide (i ≤ len) && !decide (i + n ≤ len) then .fault .panic else rawLoad n (base + i)

/-- `v.write_to_slice_unaligned_unchecked(s.get_unchecked_mut(i..))` (src/api/slice/write_to_slice.rs:61-66). -/
def storeChunk (dbg : Bool) (v : Vec α n) (base len i : Nat) : Prog α Unit :=
  if dbg && decide (i ≤ len) && !decide (i + n ≤ len) then .fault .panic else rawStore v.toList (base + i)

/-! ### Stencil -/

section
open Stencil
variable [Add α] [Sub α] [Mul α] (E : Env α)

/-- The body of the loops of `step_x8` (examples/stencil/src/simd.rs:18-64) when `a_out` is the chunk of `len` elements at element `base`. -/
def blockTask (n : Nat) (aIn : List α) (base len : Nat) (nxy zIdx yIdx x : Int) : Prog α Unit := do
  let outIdx ← lift (i32 E.dbg (x + yIdx))
  let index ← lift (i32 E.dbg (zIdx + outIdx))
  let cur0 ← lift (curSimd E n aIn nxy index 0 0 0)
  let c0 ← lift (aget E.coef 0)
  let div ← lift (forInt 1 4 (divSimd E aIn nxy index) (splat n c0 * cur0))
  let vsq ← lift (loadU E n E.vsq index)
  let next ← loadChunk E.dbg n base len (asUsize E.t outIdx)
  let sum := vfma E cur0 (splat n E.two) (splat n E.negOne * next)
  storeChunk E.dbg (vfma E vsq div sum) base len (asUsize E.t outIdx)

/-- `for i in lo..hi` over `i32`, in a task. -/
def forIntTask (lo hi : Int) (body : Int → Prog α Unit) : Prog α Unit :=
  ((List.range (hi - lo).toNat).map fun (k : Nat) => lo + (k : Int)).foldlM (fun _ i => body i) ()
/-- `for x in (lo..hi).step_by(n)` over `i32`, in a task. -/
def forStepTask (lo hi : Int) (n : Nat) (body : Int → Prog α Unit) : Prog α Unit :=
  ((List.range (((hi - lo).toNat + n - 1) / n)).map fun (k : Nat) => lo + (k : Int) * n).foldlM (fun _ i => body i) ()

/-- `step_x8` (simd.rs:6-69). -/
def stepTask (n : Nat) (aIn : List α) (base len : Nat) (z0 z1 : Int) : Prog α Unit := do
  let dx ← lift (i32 E.dbg (E.x1 - E.x0))
  if dx.tmod n = 0 then
    let nxy ← lift (i32 E.dbg (E.nx * E.ny))
    forIntTask z0 z1 fun z => do
      let zIdx ← lift (i32 E.dbg (z * nxy))
      forIntTask E.y0 E.y1 fun y => do
        let yIdx ← lift (i32 E.dbg (y * E.nx))
        forStepTask E.x0 E.x1 n (blockTask E n aIn base len nxy zIdx yIdx)
  else .fault .panic

/-- The closure of the `for_each` (simd_par.rs:19-26, 33-40) on chunk `z` of a grid of `total` elements; the last chunk may be shorter than `size`. -/
def planeTask (n : Nat) (aIn : List α) (size total z : Nat) : Prog α Unit := do
  let z1 ← lift (i32 E.dbg ((z : Int) + 1))
  stepTask E n aIn (z * size) (min size (total - z * size)) z z1

/-- The tasks of one time step (simd_par.rs:14-26, 28-40); `order` is the order in which they are started. -/
def halfTasks (n : Nat) (order : List Nat → List Nat) (z0 z1 : Int) (aIn : List α) (total : Nat) : R (List (Prog α Unit)) := do
  let (size, zs) ← planes E z0 z1 total
  return (order zs).map (planeTask E n aIn size total)

/-- All executions of the time steps `t .. t1` of `x8_par_impl` (simd_par.rs:12-42): in each step the tasks make their accesses in any order, and
`for_each` returns when all of them have ended. -/
inductive StencilExec (n : Nat) (z0 z1 t1 : Int) : Int → List α × List α → List α × List α → Prop
  | done {t : Int} {s : List α × List α} (h : t1 ≤ t) : StencilExec n z0 z1 t1 t s s
  | even {t : Int} {s r : List α × List α} {ts ts' : List (Prog α Unit)} {m : List α} (h : t < t1) (h2 : t % 2 = 0)
      (order : List Nat → List Nat) (ho : ∀ l, (order l).Perm l) (ht : halfTasks E n order z0 z1 s.1 s.2.length = .ok ts)
      (hs : Steps (ts, s.2) (ts', m)) (hd : ∀ p ∈ ts', ∃ b, p = .ret b) (hr : StencilExec n z0 z1 t1 (t + 1) (s.1, m) r) : StencilExec n z0 z1 t1 t s r
  | odd {t : Int} {s r : List α × List α} {ts ts' : List (Prog α Unit)} {m : List α} (h : t < t1) (h2 : t % 2 ≠ 0)
      (order : List Nat → List Nat) (ho : ∀ l, (order l).Perm l) (ht : halfTasks E n order z0 z1 s.2 s.1.length = .ok ts)
      (hs : Steps (ts, s.1) (ts', m)) (hd : ∀ p ∈ ts', ∃ b, p = .ret b) (hr : StencilExec n z0 z1 t1 (t + 1) (m, s.2) r) : StencilExec n z0 z1 t1 t s r

end

/-! ### Option pricing -/

/-- The closure of `for_each` (examples/options_pricing/src/simd_par.rs:15-26) on chunk `i` of a `result` of `total` elements.  (The source asserts that
the chunk has 8 elements, the number of lanes of `f32s`.) -/
def priceTask (dbg : Bool) (kernel : Vec α n → Vec α n → Vec α n → Vec α n → Vec α n → R (Vec α n)) (I : Options.Input α) (total i : Nat) :
    Prog α Unit := do
  let len := min n (total - i * n)
  if dbg && len != n then .fault .panic
  else
    let s ← lift (loadAt dbg n I.sa i)
    let x ← lift (loadAt dbg n I.xa i)
    let t ← lift (loadAt dbg n I.ta i)
    let r ← lift (loadAt dbg n I.ra i)
    let v ← lift (loadAt dbg n I.va i)
    let w ← lift (kernel s x t r v)
    storeChunk dbg w (i * n) len 0

/-- The tasks of `parallel` (simd_par.rs:14), started in the order `order`. -/
def priceTasks (dbg : Bool) (kernel : Vec α n → Vec α n → Vec α n → Vec α n → Vec α n → R (Vec α n)) (I : Options.Input α) (order : List Nat) (total : Nat) :
    List (Prog α Unit) := order.map (priceTask dbg kernel I total)

/-! ### Mandelbrot -/

section
open Mandel
variable {γ : Type} [Add α] [Sub α] [Mul α]

/-- `row.iter_mut().enumerate().for_each(|(j, count)| *count = value(j))` on chunk `i` of `width` elements of a buffer of `total` elements. -/
def fillTask (value : Nat → Nat → R γ) (width total i : Nat) : Prog γ Unit :=
  (List.range (min width (total - i * width))).foldlM (fun _ j => do
    let v ← lift (value i j)
    Prog.store (i * width + j) v (.ret ())) ()

/-- The tasks of `out.par_chunks_mut(width).enumerate().for_each(..)`: chunk size 0 panics. -/
def fillTasks (value : Nat → Nat → R γ) (width total : Nat) (order : List Nat → List Nat) : R (List (Prog γ Unit)) :=
  if width = 0 then .error .panic else .ok ((order (List.range ((total + width - 1) / width))).map (fillTask value width total))

/-- `x` of column `j` (scalar_par.rs:81-92), as stored in `xs`. -/
def columnStart (g : Grid α) (j : Nat) : α := g.xStart + g.dx * g.ofIndex j

/-- The tasks of `(0..width).into_par_iter().map(..).collect_into_vec(&mut buf)` (scalar_par.rs:86-89): element `j` of the buffer is written by task `j`. -/
def columnTasks (g : Grid α) (width : Nat) (order : List Nat → List Nat) : List (Prog α Unit) :=
  (order (List.range width)).map fun j => Prog.store j (columnStart g j) (.ret ())

/-- The value `scalar_par::generate` stores in column `j` of row `i` (scalar_par.rs:103-108); `xs[j]` panics out of bounds. -/
def scalarPixel (gt : α → α → Bool) (threshold : α) (limit : Nat) (g : Grid α) (xs : List α) (i j : Nat) : R (BitVec 32) := do
  let x ← lget xs j
  return BitVec.ofNat 32 (countScalar gt threshold limit ⟨x, g.yStart + g.dy * g.ofIndex i⟩)

/-- Element `b` of the buffer `xs` of `simd_par::generate` (simd_par.rs:117-129). -/
def columnBlock (ty : MaskTy) (g : Grid α) (b : Nat) : Vec α ty.lanes := Vector.ofFn fun l : Fin ty.lanes => columnStart g (b * ty.lanes + l.val)
/-- The buffer `xs` of `simd_par::generate`, filled before the tasks start. -/
def simdColumns (ty : MaskTy) (g : Grid α) (width : Nat) : List (Vec α ty.lanes) := (List.range (width / ty.lanes)).map (columnBlock ty g)

/-- The vector `simd_par::generate` stores in block `j` of row `i` (simd_par.rs:140-145). -/
def simdBlock (t : Target) (ty : MaskTy) (le : α → α → Bool) (threshold : α) (limit : Nat) (g : Grid α) (xs : List (Vec α ty.lanes)) (i j : Nat) :
    R (Vec (BitVec 32) ty.lanes) := do
  let x ← lget xs j
  countSimd t ty le threshold limit ⟨x, splat ty.lanes (g.yStart + g.dy * g.ofIndex i)⟩

end

end PackedSimd.Ex.Par
