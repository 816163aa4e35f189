import Verif.Model.Basic
/-
Independent specification vocabulary.  Nothing here refers to the model of the code:
lanes are read with plain `v[i]`, numbers are `Int`/`Nat`, truth values are `Bool`.
-/

namespace PackedSimd.Spec

/-- A mask lane that stands for the truth value `b`: all bits equal to `b`. -/
def IsMaskLane {w : Nat} (x : BitVec w) (b : Bool) : Prop := ∀ j, j < w → x.getLsbD j = b

/-- Every lane of the mask vector is all-zeros or all-ones. -/
def ValidMask {w n : Nat} (v : Vec (BitVec w) n) : Prop := ∀ i (_ : i < n), ∃ b, IsMaskLane v[i] b

/-- `v` is the mask vector whose lane `i` stands for `f i`. -/
def Denotes {w n : Nat} (v : Vec (BitVec w) n) (f : Nat → Bool) : Prop := ∀ i (_ : i < n), IsMaskLane v[i] (f i)

/-- The abstract "map" effect of a sequence of lane updates: later updates win. -/
def applyWrites {α : Type} (f : Nat → α) : List (Nat × α) → (Nat → α)
  | [] => f
  | (i, x) :: rest => applyWrites (fun j => if j = i then x else f j) rest

/-- Value of an integer lane: two's complement if `signed`, binary otherwise, written out from the bits' natural number. -/
def val {w : Nat} (signed : Bool) (x : BitVec w) : Int :=
  if signed && decide (2 ^ w ≤ 2 * x.toNat) then (x.toNat : Int) - 2 ^ w else x.toNat

/-- `z` is a value of the integer type with this width and signedness. -/
def InRange (signed : Bool) (w : Nat) (z : Int) : Prop :=
  if signed then -(2 ^ w : Int) ≤ 2 * z ∧ 2 * z < 2 ^ w else 0 ≤ z ∧ z < 2 ^ w

end PackedSimd.Spec
