import Verif.Model.Examples.Stencil
/-
What one time step and a whole run of the stencil programs should do.
-/
namespace PackedSimd.Ex.Stencil

variable {α : Type} [Add α] [Sub α] [Mul α]

/-- The weighted sum over the cell and its eighteen neighbours along the axes; `a k` is the element at index `k`. -/
def laplacian (coef : Vector α 4) (nx nxy : Int) (a : Int → α) (j : Int) : α :=
  let ring (i : Int) := a (j + i) + a (j - i) + a (j + i * nx) + a (j - i * nx) + a (j + i * nxy) + a (j - i * nxy)
  coef[0] * a j + coef[1] * ring 1 + coef[2] * ring 2 + coef[3] * ring 3

/-- The new value of cell `j`: `2 cur - old + vsq * laplacian`. -/
def newValue (two : α) (coef : Vector α 4) (nx nxy : Int) (vsq a : Int → α) (j : Int) (old : α) : α :=
  two * a j - old + vsq j * laplacian coef nx nxy a j

/-- Element `k` of a slice (only used within bounds). -/
def elem (d : α) (l : List α) (k : Int) : α := l.getD k.toNat d

/-- Index `j` belongs to a cell of the box `x0..x1 × y0..y1 × z0..z1`. -/
def InBox (E : Env α) (z0 z1 : Int) (j : Nat) : Prop :=
  ∃ x y z : Int, E.x0 ≤ x ∧ x < E.x1 ∧ E.y0 ≤ y ∧ y < E.y1 ∧ z0 ≤ z ∧ z < z1 ∧ (j : Int) = z * (E.nx * E.ny) + y * E.nx + x

/-- `out'` is `out` with `upd` applied to the elements satisfying `P`. -/
structure Updates (upd : Nat → α → α) (P : Nat → Prop) (out out' : List α) : Prop where
  length : out'.length = out.length
  hit : ∀ j, P j → out'[j]? = out[j]?.map (upd j)
  miss : ∀ j, ¬ P j → out'[j]? = out[j]?

/-- One time step: exactly the cells of the box get their new values. -/
def TimeStep (E : Env α) (z0 z1 : Int) (aIn out out' : List α) : Prop :=
  Updates (fun j old => newValue E.two E.coef E.nx (E.nx * E.ny) (elem E.two E.vsq) (elem E.two aIn) j old) (InBox E z0 z1) out out'

/-- `m` time steps from time `t` on: at even times the odd grid is updated from the even one, at odd times the other way round. -/
inductive Evolves (E : Env α) (z0 z1 : Int) : Int → Nat → List α × List α → List α × List α → Prop
  | zero (t : Int) (s : List α × List α) : Evolves E z0 z1 t 0 s s
  | even {t : Int} {m : Nat} {e o o' : List α} {s : List α × List α} (h : t % 2 = 0) :
      TimeStep E z0 z1 e o o' → Evolves E z0 z1 (t + 1) m (e, o') s → Evolves E z0 z1 t (m + 1) (e, o) s
  | odd {t : Int} {m : Nat} {e o e' : List α} {s : List α × List α} (h : t % 2 ≠ 0) :
      TimeStep E z0 z1 o e e' → Evolves E z0 z1 (t + 1) m (e', o) s → Evolves E z0 z1 t (m + 1) (e, o) s

/-- The box lies in the grid, at least three planes away from its first and last plane; the grid has fewer than 2^31 cells. -/
structure Geometry (E : Env α) (z0 z1 nz : Int) : Prop where
  hx0 : 0 ≤ E.x0
  hx01 : E.x0 ≤ E.x1
  hx1 : E.x1 ≤ E.nx
  hy0 : 0 ≤ E.y0
  hy1 : E.y1 ≤ E.ny
  hz0 : 3 ≤ z0
  hz01 : z0 ≤ z1
  hz1 : z1 + 3 ≤ nz
  hnx : 0 < E.nx
  hny : 0 < E.ny
  hsize : E.nx * E.ny * nz < 2 ^ 31
  hvsq : E.vsq.length = (E.nx * E.ny * nz).toNat

end PackedSimd.Ex.Stencil

namespace PackedSimd.Ex.Stencil

/-- What the arithmetic has to satisfy for the two formulations of an update to be the same: an unfused `mul_adde`, and commutativity. -/
structure Laws {α : Type} [Add α] [Sub α] [Mul α] (E : Env α) : Prop where
  fma : ∀ a b c : α, E.fma a b c = a * b + c
  add_comm : ∀ a b : α, a + b = b + a
  mul_comm : ∀ a b : α, a * b = b * a
  sub : ∀ a b : α, a - b = a + E.negOne * b

/-- The grid as it should be initialised: in the left half the even grid holds `x / n_x`, in the right half `y / n_y`; the odd grid is zero; `vsq` is
`x y z` over the number of cells. -/
structure Initialised {α : Type} [Div α] [Zero α] (ofInt : Int → α) (nx ny nz : Int) (g : Grid α) : Prop where
  even_len : (g.even.length : Int) = nx * ny * nz
  odd_len : (g.odd.length : Int) = nx * ny * nz
  vsq_len : (g.vsq.length : Int) = nx * ny * nz
  even : ∀ x y z : Nat, (x : Int) < nx → (y : Int) < ny → (z : Int) < nz → ∀ k : Nat, (k : Int) = z * (nx * ny) + y * nx + x →
    g.even[k]? = some (if (x : Int) < nx / 2 then ofInt x / ofInt nx else ofInt y / ofInt ny)
  odd : ∀ x y z : Nat, (x : Int) < nx → (y : Int) < ny → (z : Int) < nz → ∀ k : Nat, (k : Int) = z * (nx * ny) + y * nx + x → g.odd[k]? = some 0
  vsq : ∀ x y z : Nat, (x : Int) < nx → (y : Int) < ny → (z : Int) < nz → ∀ k : Nat, (k : Int) = z * (nx * ny) + y * nx + x →
    g.vsq[k]? = some (ofInt ((x : Int) * y * z) / ofInt (nx * ny * nz))

end PackedSimd.Ex.Stencil
