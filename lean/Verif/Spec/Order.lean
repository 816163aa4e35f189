import Verif.Spec.Basic
/-
Ordering of arrays, reductions over arrays: specification vocabulary.
-/
namespace PackedSimd.Spec

variable {α : Type}

/-- Lexicographic comparison of two arrays (lists) of numbers. -/
def arrayCompare : List Int → List Int → Ordering
  | [], [] => .eq
  | [], _ :: _ => .lt
  | _ :: _, [] => .gt
  | x :: xs, y :: ys => if x < y then .lt else if y < x then .gt else arrayCompare xs ys

/-- Lexicographic partial comparison of two arrays from a partial comparison of elements: the first pair that does not compare
equal decides. -/
def arrayPartialCompare (pc : α → α → Option Ordering) : List α → List α → Option Ordering
  | [], [] => some .eq
  | [], _ :: _ => some .lt
  | _ :: _, [] => some .gt
  | x :: xs, y :: ys => if pc x y = some .eq then arrayPartialCompare pc xs ys else pc x y

/-- The lane values of an integer vector, in order. -/
def laneVals {w n : Nat} (s : Bool) (v : Vec (BitVec w) n) : List Int := v.toList.map (val s)

/-- Truth values as numbers: `false < true`. -/
def boolVals (bs : List Bool) : List Int := bs.map fun b => if b then 1 else 0

/-- A way of bracketing a reduction. -/
inductive Tree (α : Type) where
  | leaf (x : α)
  | node (l r : Tree α)

/-- Leaves from left to right. -/
def Tree.leaves : Tree α → List α
  | .leaf x => [x]
  | .node l r => l.leaves ++ r.leaves

/-- Evaluate the bracketing with a binary operation. -/
def Tree.eval (op : α → α → α) : Tree α → α
  | .leaf x => x
  | .node l r => op (l.eval op) (r.eval op)

/-- The documented balanced bracketing `((x0+x1)+(x2+x3))+((x4+x5)+(x6+x7))` of `2^d` elements. -/
def balanced (f : Nat → α) : (d : Nat) → (start : Nat) → Tree α
  | 0, i => .leaf (f i)
  | d + 1, i => .node (balanced f d i) (balanced f d (i + 2 ^ d))

end PackedSimd.Spec
