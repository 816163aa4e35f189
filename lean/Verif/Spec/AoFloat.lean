import Verif.Spec.Aobench
import Verif.Spec.Sqrt
/-
Vectors of `f32` as vectors of real numbers, and the functions aobench uses.
-/
namespace PackedSimd.Spec.Ao
open Ex Ex.Ao

/-- All components are numbers. -/
def FiniteV (a : V3 F32) : Prop := IsFinite 23 a.x.bits ∧ IsFinite 23 a.y.bits ∧ IsFinite 23 a.z.bits
/-- The vector of real numbers. -/
noncomputable def toReal (a : V3 F32) : V3 ℝ := ⟨realVal 23 a.x.bits, realVal 23 a.y.bits, realVal 23 a.z.bits⟩

/-- `2^-24`, the relative error of one `f32` operation. -/
noncomputable def ulp : ℝ := 1 / 2 ^ 24

/-- `f32::sqrt` is IEEE's square root. -/
def RootOk (sqrt : F32 → F32) : Prop := ∀ x, IsSqrt 23 x.bits (sqrt x).bits

/-- `mul_adde` multiplies and adds, with one rounding or two. -/
def MulAddOk (ma : F32 → F32 → F32 → F32) : Prop := ∀ a b c : F32,
  RoundsTo 23 (exactFma 23 a.bits b.bits c.bits) (ma a b c).bits ∨
  ∃ p, RoundsTo 23 (exactMul 23 a.bits b.bits) p ∧ RoundsTo 23 (exactAdd 23 p c.bits) (ma a b c).bits

/-- `s` and `c` are numbers between -1 and 1 with `s² + c² = 1` up to `ε`. -/
def TrigOk (ε : ℝ) (s c : F32) : Prop := IsFinite 23 s.bits ∧ IsFinite 23 c.bits ∧ |realVal 23 s.bits| ≤ 1 ∧ |realVal 23 c.bits| ≤ 1 ∧
  |realVal 23 s.bits ^ 2 + realVal 23 c.bits ^ 2 - 1| ≤ ε

/-- Of length 1 up to `δ`. -/
def AlmostUnit (δ : ℝ) (a : V3 F32) : Prop := FiniteV a ∧ |inner (toReal a) (toReal a) - 1| ≤ δ

/-- Every component of `a` is that of `e` up to `c` roundings. -/
def Close (c : ℝ) (a : V3 F32) (e : V3 ℝ) : Prop := FiniteV a ∧ |(toReal a).x - e.x| ≤ c * ulp * |e.x| + 1 / 2 ^ 150 ∧
  |(toReal a).y - e.y| ≤ c * ulp * |e.y| + 1 / 2 ^ 150 ∧ |(toReal a).z - e.z| ≤ c * ulp * |e.z| + 1 / 2 ^ 150

/-- The unit vector in the direction of `v`. -/
noncomputable def direction (v : V3 ℝ) : V3 ℝ := scale (1 / √(inner v v)) v

/-- The vector product. -/
noncomputable def vprod (a b : V3 ℝ) : V3 ℝ := ⟨a.y * b.z - a.z * b.y, a.z * b.x - a.x * b.z, a.x * b.y - a.y * b.x⟩

/-- `b₀` and `b₁` are of length 1 and at right angles to `n` and to each other, up to rounding, and `b₀`, `b₁`, `n` are right-handed. -/
def AlmostBasis (n b₀ b₁ : V3 F32) : Prop := AlmostUnit (9.5 * ulp) b₀ ∧ AlmostUnit (9.5 * ulp) b₁ ∧
  |inner (toReal b₀) (toReal n)| ≤ 12 * ulp ∧ |inner (toReal b₁) (toReal n)| ≤ 12 * ulp ∧ |inner (toReal b₁) (toReal b₀)| ≤ 12 * ulp ∧
  0.9 ≤ inner (toReal b₁) (vprod (toReal n) (toReal b₀))

/-- `d` is of length 1 and its cosine with the normal `n` is the root of `1 - r`, up to the deviation `δ` of the normal, the error `ε` of sine and
cosine, and rounding. -/
def AlmostSample (δ ε : ℝ) (n : V3 F32) (r : ℝ) (d : V3 F32) : Prop := AlmostUnit (δ + ε + 60 * ulp) d ∧
  ∃ z : ℝ, 0 ≤ z ∧ z ≤ 1 ∧ |z ^ 2 - (1 - r)| ≤ 4 * ulp ∧ |inner (toReal d) (toReal n) - z| ≤ δ + 31 * ulp

end PackedSimd.Spec.Ao
