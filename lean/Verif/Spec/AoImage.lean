import Verif.Model.Examples.AoImage
/-
What rendering an image is expected to do.
-/
namespace PackedSimd.Spec.Ao
open Ex Ex.Ao Ex.Ao.V3N

variable {α σ : Type} {n : Nat}

/-- The image (`r g b r g b …`) with the given grey values. -/
def gray (C : List α) : List α := C.flatMap fun c => [c, c, c]

/-- Values added to `c` one after the other: `value 0`, `value 1`, …, `value (k - 1)`, each of which may use up random numbers. -/
def addUp [Add α] (value : Nat → σ → R (α × σ)) : (k : Nat) → α → σ → R (α × σ)
  | 0, c, s => .ok (c, s)
  | k + 1, c, s => do
    let (c, s) ← addUp value k c s
    let (r, s) ← value k s
    return (c + r, s)

/-- The new grey values of pixels with the given old ones, in the order of the pixels; `pixel k` computes the new value of pixel number `k`
from the old one. -/
def render (pixel : Nat → α → σ → R (α × σ)) : (k : Nat) → List α → σ → R (List α × σ)
  | _, [], s => .ok ([], s)
  | k, c :: l, s => do
    let (c, s) ← pixel k c s
    let (l, s) ← render pixel (k + 1) l s
    return (c :: l, s)

/-- Sample `j` of pixel `k`: column and row of the pixel, and the position of the sample within the pixel. -/
def sampleOf {β : Type} (z : Size) (f : Nat → Nat → Nat → Nat → β) (k j : Nat) : β := f (k % z.w) (k / z.w) (j / z.ns) (j % z.ns)

end PackedSimd.Spec.Ao

namespace PackedSimd.Spec.Ao
open Ex Ex.Ao Ex.Ao.V3N

variable {α σ : Type} {n : Nat}

/-- A value changed by `value 0`, `value 1`, …, `value (k - 1)`. -/
def changes {γ : Type} (value : Nat → γ → σ → R (γ × σ)) : (k : Nat) → γ → σ → R (γ × σ)
  | 0, c, s => .ok (c, s)
  | k + 1, c, s => do
    let (c, s) ← changes value k c s
    value k c s

/-- The grey values of consecutive packets of pixels. -/
def lanesOf (P : List (Vec α n)) : List α := P.flatMap Vector.toList

/-- Column and row of the first pixel of packet `k`, and the position of sample `j` within its pixel. -/
def packetOf {β : Type} (n : Nat) (z : Size) (f : Nat → Nat → Nat → Nat → β) (k j : Nat) : β :=
  f (k % (z.w / n) * n) (k / (z.w / n)) (j / z.ns) (j % z.ns)

variable [Add α] [Sub α] [Mul α] [Div α] [Neg α] (F : Fns α)

/-- What the tiled program does with the grey values of a packet of pixels for one sample with the given directions: nothing if no ray hits, otherwise
the lanes whose ray hits increase by the ambient occlusion, multiplied with `1 / ns²`. -/
def tiledSample (dbg : Bool) (S : Scene α σ n) (z : Size) (dir : V3N α n) (c : Vec α n) (s : σ) : R (Vec α n × σ) := do
  let isect ← castN F dbg S.plane S.spheres ⟨V3N.zero F n, dir⟩
  if many isect.hit then
    let (ao, s) ← aoTiled F dbg S s isect
    return (Vector.ofFn fun i => if isect.hit[i] then c[i] + ao[i] * (invNs F z * invNs F z) else c[i], s)
  else return (c, s)

/-- The new rows of a parallel rendering made by one thread, which works on the given rows one after the other: each with a new scene, for which the
generator of the thread is used (`M`); `row y` computes the new row number `y` from the old one. -/
def rowsOf {γ τ ρ : Type} (M : Maker τ σ ρ) (row : Nat → List γ → σ → R (List γ × σ)) (old : List (List γ)) : List Nat → τ → R (List (Nat × List γ))
  | [], _ => .ok []
  | y :: ys, g => do
    let (s, r) := M.new g
    let (new, s) ← row y (old[y]?.getD []) s
    let rest ← rowsOf M row old ys (M.finish s r)
    return (y, new) :: rest

/-- Every row is given to exactly one thread. -/
def EachRowOnce {τ : Type} (h : Nat) (work : List (List Nat × τ)) : Prop := (work.flatMap Prod.fst).Perm (List.range h)

end PackedSimd.Spec.Ao
