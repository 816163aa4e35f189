import Verif.Model.Examples.AoOcclusion
/-
What the ambient occlusion functions are expected to do with the random numbers.
-/
namespace PackedSimd.Spec.Ao
open Ex.Ao

/-- Consecutive pairs of a list. -/
def pairUp {α : Type} : List α → List (α × α)
  | a :: b :: l => (a, b) :: pairUp l
  | _ => []

/-- Random numbers from a list, until it is used up. -/
def pop {α : Type} : List α → R (α × List α)
  | [] => .error .panic
  | x :: l => .ok (x, l)

/-- The scene `S` with random numbers from a list. -/
def fromList {α σ : Type} {n : Nat} (S : Scene α σ n) (m : Nat) : Scene α (List α) m := ⟨S.nao, pop, S.plane, S.spheres, defaultRandN m pop⟩

/-- `k` successive calls of `rand_f32xN`. -/
def drawsN {α σ : Type} {n : Nat} (randN : σ → R (Vec α n × Vec α n × σ)) : Nat → σ → R (List (Vec α n × Vec α n) × σ)
  | 0, s => .ok ([], s)
  | k + 1, s => do
    let (a, b, s) ← randN s
    let (l, s) ← drawsN randN k s
    return ((a, b) :: l, s)

/-- The random numbers of lane `i`, in the order in which the scalar algorithm uses them. -/
def laneDraws {α : Type} {n : Nat} (l : List (Vec α n × Vec α n)) (i : Nat) (h : i < n) : List α := l.flatMap fun p => [p.1[i], p.2[i]]

end PackedSimd.Spec.Ao
