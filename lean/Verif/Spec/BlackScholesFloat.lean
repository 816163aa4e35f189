import Verif.Spec.BlackScholes
import Verif.Spec.FloatReal
import Verif.Model.Examples.Options
/-
What is asked of `f32` and of the mathematical library for the Black-Scholes programs, and the quantities they compute on the way.
-/
namespace PackedSimd.Ex.Options
open Spec

/-- Every literal is the decimal number of the source, rounded to nearest. -/
def LitOk (F : Fns F32) : Prop := ∀ q : ℚ, RoundsTo 23 (.frac (q.num * 2 ^ 149) q.den) (F.lit q).bits

/-- Literals rounded to nearest, `abs` clears the sign bit, comparison is IEEE's, and on numbers at most zero the exponential is off by no more than `X`
units of `2^-24`. -/
structure CndFns (X : ℝ) (F : Fns F32) : Prop where
  lit : LitOk F
  abs : ∀ x, F.abs x = ⟨Flt.abs x.bits⟩
  gt : ∀ x y, F.gt x y = Flt.ogt 23 x.bits y.bits
  exp : ∀ y, IsFinite 23 y.bits → realVal 23 y.bits ≤ 0 →
    IsFinite 23 (F.exp y).bits ∧ |realVal 23 (F.exp y).bits - Real.exp (realVal 23 y.bits)| ≤ X / 2 ^ 24

/-- The two arguments of the distribution function and the discount factor, as the programs compute them. -/
def d1Computed (F : Fns F32) (s x t r v : F32) : F32 := (F.ln (s / x) + (r + v * v * F.lit 0.5) * t) / (v * F.sqrt t)
def d2Computed (F : Fns F32) (s x t r v : F32) : F32 := d1Computed F s x t r v - v * F.sqrt t
def discountComputed (F : Fns F32) (t r : F32) : F32 := F.exp (-r * t)

/-- A number between 0 and `2^60`, or between `-2^60` and `2^60`. -/
def Moderate (x : F32) : Prop := IsFinite 23 x.bits ∧ 0 ≤ realVal 23 x.bits ∧ realVal 23 x.bits ≤ 2 ^ 60
def Bounded (x : F32) : Prop := IsFinite 23 x.bits ∧ |realVal 23 x.bits| ≤ 2 ^ 60

/-- The price the formula gives for the computed arguments and discount factor. -/
noncomputable def formulaAt (F : Fns F32) (s x t r v : F32) : ℝ :=
  realVal 23 s.bits * normalCdf (realVal 23 (d1Computed F s x t r v).bits)
    - realVal 23 x.bits * realVal 23 (discountComputed F t r).bits * normalCdf (realVal 23 (d2Computed F s x t r v).bits)

/-- Stock and discounted strike: the size of the numbers in play. -/
noncomputable def sizeAt (F : Fns F32) (s x t r : F32) : ℝ := realVal 23 s.bits + realVal 23 x.bits * realVal 23 (discountComputed F t r).bits

end PackedSimd.Ex.Options
