import Mathlib.Data.List.Rotate
import Mathlib.Data.Nat.Factorial.Basic
import Mathlib.Algebra.BigOperators.Group.Finset.Basic
import Mathlib.Data.List.Range
import Mathlib.Algebra.BigOperators.Ring.Finset
/-
What the fannkuch-redux benchmark asks for.
-/
namespace PackedSimd.Ex.Fannkuch
open Nat

/-- Reverse the first `k` cards, where `k` is the first card. -/
def flip (p : List Nat) : List Nat := (p.take (p.headD 1)).reverse ++ p.drop (p.headD 1)

/-- It takes `m` flips until the first card is 1. -/
inductive Flips : List Nat → Nat → Prop
  | done {p : List Nat} : p.head? = some 1 → Flips p 0
  | step {p : List Nat} {k m : Nat} : p.head? = some k → k ≠ 1 → Flips (flip p) m → Flips p (m + 1)

/-- The cards `1, .., n`. -/
def cards (n : Nat) : List Nat := List.range' 1 n

/-- Permutation number `k` of the first `m` elements of `p`, in the order of the benchmark: rotate the first `m` elements left by `k / (m-1)!`, then
apply permutation number `k % (m-1)!` to the first `m - 1`. -/
def nthPerm {α : Type} : Nat → Nat → List α → List α
  | 0, _, p => p
  | m + 1, k, p => nthPerm m (k % m !) ((p.take (m + 1)).rotate (k / m !) ++ p.drop (m + 1))

/-- The answer for `n` cards: the largest number of flips any permutation takes, and the sum of the numbers of flips of all permutations in the
benchmark's order with alternating signs. -/
def Answer (n : Nat) (checksum : Int) (maxflips : Nat) : Prop :=
  ∃ fl : List Nat → Nat, (∀ p, p.Perm (cards n) → Flips p (fl p)) ∧ (∀ p, p.Perm (cards n) → fl p ≤ maxflips) ∧
    (∃ p, p.Perm (cards n) ∧ fl p = maxflips) ∧ checksum = ∑ k ∈ Finset.range n !, (-1) ^ k * (fl (nthPerm n k (cards n)) : Int)

end PackedSimd.Ex.Fannkuch
