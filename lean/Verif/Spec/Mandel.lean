import Mathlib.Order.Basic
import Mathlib.Data.Nat.Notation
/-
Escape counts of the iteration `z ↦ z² + c`, from the mathematics.
-/
namespace PackedSimd.Spec

/-- The orbit of `c` under `z ↦ z² + c` starting at `c`, in coordinates, with the operations grouped as a programmer writes
`x' = c.x + (x² - y²)`, `y' = c.y + (xy + xy)` (the grouping matters only for inexact arithmetic). -/
def orbit {α : Type} [Add α] [Sub α] [Mul α] (c : α × α) : ℕ → α × α
  | 0 => c
  | n + 1 =>
    let z := orbit c n
    (c.1 + (z.1 * z.1 - z.2 * z.2), c.2 + (z.1 * z.2 + z.1 * z.2))

/-- The squared modulus of the `n`-th point. -/
def orbitNorm {α : Type} [Add α] [Sub α] [Mul α] (c : α × α) (n : ℕ) : α :=
  (orbit c n).1 * (orbit c n).1 + (orbit c n).2 * (orbit c n).2

/-- `k` is the escape count: the first step at which the predicate holds, or `limit` if it holds at no step before `limit`. -/
def EscapeCount (escaped : ℕ → Prop) (limit k : ℕ) : Prop :=
  k ≤ limit ∧ (∀ j, j < k → ¬ escaped j) ∧ (k < limit → escaped k)

end PackedSimd.Spec
