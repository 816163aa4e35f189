import Verif.Props.Math
import Verif.Lemmas.FloatOps
/-
C63, C64: `mul_add` and `mul_adde`.
-/
namespace PackedSimd.Props
open Math Spec

theorem format_fty (e : FTy) : Format (8 * e.bytes) e.man := by cases e <;> (constructor <;> decide)

/-- The library's `fma` functions round `x * y + z` once. -/
def FmaCorrect (W : World) : Prop :=
  ∀ (e : FTy) (lib : Lib) (x y z : FLane e), lib.op = .fma → RoundsTo e.man (exactFma e.man x y z) (W.fn e lib [x, y, z])

/-- **C63** (every architecture but s390x). `mul_add` is fused: each lane is the exact `x * y + z` rounded once.
Missing: s390x, where the claim is false (`C63_s390x_fails`). -/
theorem C63_fused_partial (t : Target) (hf : FeaturesClosed t) (ht : t.arch ≠ .s390x) (W : World) (hW : FmaCorrect W) (ty : FVTy) (hty : ty ∈ floatTypes)
    (junk : Nat → Nat → Byte) (x y z : FV ty) :
    ∃ r, eval t W junk .mulAdd ty [x, y, z] = .ok r ∧
      ∀ i (hi : i < ty.lanes), RoundsTo ty.elem.man (exactFma ty.elem.man x[i] y[i] z[i]) r[i] := by
  obtain ⟨S, hS, h⟩ := C46_lanewise t hf W .mulAdd ty hty
  obtain ⟨r, hr, hl⟩ := h junk [x, y, z] rfl
  refine ⟨r, hr, fun i hi => ?_⟩
  rw [hl i hi]
  cases hS with
  | library lib hn hop hacc hfn =>
    cases hn
    rw [hfn]
    exact hW _ _ _ _ _ hop
  | mulThenAdd h => exact absurd h ht

/-- On every architecture, s390x included, `mul_adde` is the exact result rounded once or the product rounded and then the sum rounded, provided the
library's `fmuladd` functions are one of the two. -/
theorem C64_mul_adde (t : Target) (hf : FeaturesClosed t) (W : World)
    (hW : ∀ (e : FTy) (lib : Lib) (x y z : FLane e), lib.op = .fmuladd →
      RoundsTo e.man (exactFma e.man x y z) (W.fn e lib [x, y, z]) ∨
      ∃ p, RoundsTo e.man (exactMul e.man x y) p ∧ RoundsTo e.man (exactAdd e.man p z) (W.fn e lib [x, y, z]))
    (ty : FVTy) (hty : ty ∈ floatTypes) (junk : Nat → Nat → Byte) (x y z : FV ty) :
    ∃ r, eval t W junk .mulAdde ty [x, y, z] = .ok r ∧ ∀ i (hi : i < ty.lanes),
      RoundsTo ty.elem.man (exactFma ty.elem.man x[i] y[i] z[i]) r[i] ∨
      ∃ p, RoundsTo ty.elem.man (exactMul ty.elem.man x[i] y[i]) p ∧ RoundsTo ty.elem.man (exactAdd ty.elem.man p z[i]) r[i] := by
  obtain ⟨S, hS, h⟩ := C46_lanewise t hf W .mulAdde ty hty
  obtain ⟨r, hr, hl⟩ := h junk [x, y, z] rfl
  refine ⟨r, hr, fun i hi => ?_⟩
  rw [hl i hi]
  cases hS with
  | library lib hn hop hacc hfn =>
    cases hn
    rw [hfn]
    exact hW _ _ _ _ _ hop
  | mulThenAdde h hS =>
    right
    have hS' : S ([x, y, z].map (·[i])) = Flt.add ty.elem.man (Flt.mul ty.elem.man x[i] y[i]) z[i] := hS _ _ _
    rw [hS']
    exact ⟨_, mul_rounds (format_fty _) _ _, add_rounds (format_fty _) _ _⟩

/-! ### A correct library exists -/

/-- A correctly rounded fused multiply-add. -/
def fma (man : Nat) {w : Nat} (x y z : BitVec w) : BitVec w :=
  match exactFma man x y z with
  | .nan => Flt.qnan w man
  | .inf neg => Flt.mk w neg (infMag w man)
  | .frac num den => Flt.roundInt w man false num den

theorem fma_rounds {man w : Nat} (hf : Format w man) (x y z : BitVec w) : RoundsTo man (exactFma man x y z) (fma man x y z) := by
  unfold fma
  cases h : exactFma man x y z with
  | nan => exact valueOf_qnan hf
  | inf neg => exact valueOf_inf hf neg
  | frac num den =>
    apply roundsTo_roundInt hf
    unfold exactFma at h
    have hden : ∀ a d, exactMul man x y = .frac a d → 0 < d := by
      intro a d hm
      unfold exactMul at hm
      split at hm <;> (try split at hm) <;> first | (cases hm; exact Nat.two_pow_pos _) | cases hm
    split at h <;> (try split at h) <;> first | (cases h; exact hden _ _ (by assumption)) | cases h

/-- A library whose ternary functions are correctly rounded fused multiply-adds. -/
def fmaWorld : World :=
  ⟨fun e _ l => match l with | [x, y, z] => fma e.man x y z | _ => 0, fun _ _ x => (x, x)⟩

theorem fmaWorld_correct : FmaCorrect fmaWorld := fun e _ x y z _ => fma_rounds (format_fty e) x y z

/-- An s390x target. -/
def s390 : Target :=
  { arch := .s390x, endian := .big, ptrBytes := 8, sse := false, sse2 := false, ssse3 := false, sse42 := false, avx := false, avx2 := false,
    v7 := false, neon := false, coreArch := false, sleef := false }

/-- **C63 is false on s390x**: `mul_add` rounds the product first.  With `x = y = 1 + 2⁻¹²` and `z = -(1 + 2⁻¹¹)` the exact result is `2⁻²⁴`; it returns 0. -/
theorem C63_s390x_fails : ∃ (x y z : FV ⟨.f32, 4⟩) (r : FV ⟨.f32, 4⟩), FeaturesClosed s390 ∧ FmaCorrect fmaWorld ∧
    eval s390 fmaWorld (fun _ _ => 0) .mulAdd ⟨.f32, 4⟩ [x, y, z] = .ok r ∧
    ∀ i (hi : i < 4), valueOf 23 r[i] = .num 0 ∧ exactFma 23 x[i] y[i] z[i] = .frac (2 ^ (125 + 149)) (2 ^ 149) ∧
      ¬ RoundsTo 23 (exactFma 23 x[i] y[i] z[i]) r[i] := by
  refine ⟨#v[0x3F800800, 0x3F800800, 0x3F800800, 0x3F800800], #v[0x3F800800, 0x3F800800, 0x3F800800, 0x3F800800],
    #v[0xBF801000, 0xBF801000, 0xBF801000, 0xBF801000], #v[0, 0, 0, 0], by decide, fmaWorld_correct, by decide +kernel, ?_⟩
  have hx : exactFma 23 (0x3F800800 : BitVec 32) 0x3F800800 0xBF801000 = .frac (2 ^ (125 + 149)) (2 ^ 149) := by
    have h1 : valueOf 23 (0x3F800800 : BitVec 32) = .num ((2 ^ 23 + 2 ^ 11) * 2 ^ 126) := by decide +kernel
    have h2 : valueOf 23 (0xBF801000 : BitVec 32) = .num (-((2 ^ 23 + 2 ^ 12) * 2 ^ 126)) := by decide +kernel
    have h3 : low 32 23 = 149 := by decide
    unfold exactFma exactMul
    rw [h1, h2, h3]
    simp only []
    congr 1
  have key : ¬ RoundsTo 23 (exactFma 23 (0x3F800800 : BitVec 32) 0x3F800800 0xBF801000) (0 : BitVec 32) := by
    rw [hx]
    rintro ⟨_, ⟨_, hn, _⟩, _⟩
    have := hn 0x33800000 (by decide)
    exact absurd this (by decide +kernel)
  have h0 : valueOf 23 (0 : BitVec 32) = .num 0 := by decide +kernel
  intro i hi
  have : i = 0 ∨ i = 1 ∨ i = 2 ∨ i = 3 := by omega
  rcases this with rfl | rfl | rfl | rfl <;> exact ⟨h0, hx, key⟩

/-! ### Concrete case -/

example : eval x64Sleef fmaWorld (fun _ _ => 0) .mulAdd ⟨.f32, 2⟩ [#v[0x3F800800, 0x40000000], #v[0x3F800800, 0x40400000], #v[0xBF801000, 0x3F800000]] =
    .ok #v[0x33800000, 0x40E00000] := by decide +kernel

end PackedSimd.Props
