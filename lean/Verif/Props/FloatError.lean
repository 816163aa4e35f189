import Verif.Lemmas.SumError
import Verif.Props.Sums
import Verif.Props.MulAdd
/-
C111: the standard model of floating-point arithmetic for the lanes of float vectors.
C112: the accuracy of sums and dot products.
-/
namespace PackedSimd.Props
open PackedSimd Spec Ex Math

variable {w n man : Nat}

/-! ## C111 -/

/-- **C111** Sums and differences of finite lanes: the relative error is at most half the distance from 1 to the next float, also for subnormal
results; the result is finite exactly below the overflow threshold, and an infinity of the right sign from there on. -/
theorem C111_add_sub (hf : Format w man) (a b : Vec (BitVec w) n) (i : Nat) (h : i < n) (ha : IsFinite man a[i]) (hb : IsFinite man b[i]) :
    RealRound man (FVec.add man a b)[i] (realVal man a[i] + realVal man b[i]) (relErr man (realVal man a[i] + realVal man b[i])) ∧
    RealRound man (FVec.sub man a b)[i] (realVal man a[i] - realVal man b[i]) (relErr man (realVal man a[i] - realVal man b[i])) := by
  simp only [FVec.add, FVec.sub, Vector.getElem_zipWith]
  exact ⟨flt_add hf ha hb, flt_sub hf ha hb⟩

/-- **C111** Products and quotients of finite lanes: that relative error, or half the least positive float if the result is too small for it. -/
theorem C111_mul_div (hf : Format w man) (a b : Vec (BitVec w) n) (i : Nat) (h : i < n) (ha : IsFinite man a[i]) (hb : IsFinite man b[i]) :
    RealRound man (FVec.mul man a b)[i] (realVal man a[i] * realVal man b[i]) (relOrTiny w man (realVal man a[i] * realVal man b[i])) ∧
    (realVal man b[i] ≠ 0 →
      RealRound man (FVec.div man a b)[i] (realVal man a[i] / realVal man b[i]) (relOrTiny w man (realVal man a[i] / realVal man b[i]))) := by
  simp only [FVec.mul, FVec.div, Vector.getElem_zipWith]
  exact ⟨flt_mul hf ha hb, flt_div hf ha hb⟩

/-- **C111** `mul_add` makes that error once (s390x excepted, where it is not fused: C63). -/
theorem C111_mul_add (t : Target) (hf : FeaturesClosed t) (ht : t.arch ≠ .s390x) (W : World) (hW : FmaCorrect W) (ty : FVTy) (hty : ty ∈ floatTypes)
    (junk : Nat → Nat → Byte) (x y z : FV ty) :
    ∃ r, eval t W junk .mulAdd ty [x, y, z] = .ok r ∧ ∀ i (hi : i < ty.lanes),
      IsFinite ty.elem.man x[i] → IsFinite ty.elem.man y[i] → IsFinite ty.elem.man z[i] →
      RealRound ty.elem.man r[i] (realVal ty.elem.man x[i] * realVal ty.elem.man y[i] + realVal ty.elem.man z[i])
        (relOrTiny (8 * ty.elem.bytes) ty.elem.man (realVal ty.elem.man x[i] * realVal ty.elem.man y[i] + realVal ty.elem.man z[i])) := by
  obtain ⟨r, hr, h⟩ := C63_fused_partial t hf ht W hW ty hty junk x y z
  exact ⟨r, hr, fun i hi hx hy hz => real_fma (format_fty _) hx hy hz (h i hi)⟩

/-- **C111** Comparisons of finite lanes compare the real numbers. -/
theorem C111_compare (hf : Format w man) (a b : Vec (BitVec w) n) (i : Nat) (h : i < n) (ha : IsFinite man a[i]) (hb : IsFinite man b[i]) :
    ∃ lt le eq : Bool, IsMaskLane (FVec.lt man a b)[i] lt ∧ IsMaskLane (FVec.le man a b)[i] le ∧ IsMaskLane (FVec.eq man a b)[i] eq ∧
      (lt = true ↔ realVal man a[i] < realVal man b[i]) ∧ (le = true ↔ realVal man a[i] ≤ realVal man b[i]) ∧
      (eq = true ↔ realVal man a[i] = realVal man b[i]) := by
  obtain ⟨h1, -, h3, h4, -⟩ := C18_float hf a b i h
  obtain ⟨c1, c2, -⟩ := cmp_real (man := man) ha hb
  refine ⟨_, _, _, h3, h4, h1, ?_, ?_, ?_⟩
  · rw [beq_iff_eq, c1]
  · rw [Bool.or_eq_true, beq_iff_eq, beq_iff_eq, c1, c2, le_iff_lt_or_eq]
  · rw [beq_iff_eq, c2]

/-- `f32`: the sum of 1 and 2^-24 is 1, with the largest possible relative error; the sum of the two greatest floats overflows; the square of the
least positive float is 0. -/
example : valueOf 23 (Flt.add 23 (0x3f800000 : BitVec 32) 0x33800000) = .num (2 ^ 149) ∧ valueOf 23 (Flt.add 23 (0x7f7fffff : BitVec 32) 0x7f7fffff) = .inf false ∧
    valueOf 23 (Flt.mul 23 (1 : BitVec 32) 1) = .num 0 := by decide +kernel

/-! ## C112 -/

theorem sumAccurate_of (hf : Format w man) {l : List (BitVec w)} {r : BitVec w} (h : SumOf (Flt.add man) (Flt.fromInt w man 0) l r) : SumAccurate man l r :=
  ⟨fun hr => ⟨sumOf_finite_mem hf h hr, (sumOf_error hf h hr).1⟩, fun hl hs => sumOf_finite hf h hl hs⟩

/-- **C112** The horizontal sum of a float vector, on every target. -/
theorem C112_sum [LaneCount n] (hf : Format w man) (t : Target) (v : Vec (BitVec w) n) : ∃ r, FVec.sum man t v = .ok r ∧ SumAccurate man v.toList r := by
  obtain ⟨r, h1, h2⟩ := vsum_vec t (fltArith w man) v
  exact ⟨r, h1, sumAccurate_of hf h2⟩

/-- **C112** Both slice sums of the example program, for every length and lane count. -/
theorem C112_slice_sums [LaneCount n] (hf : Format w man) (t : Target) (x : List (BitVec w)) (h : x.length % n = 0) :
    (∃ r, sumVer t (fltArith w man) n x = .ok r ∧ SumAccurate man x r) ∧ (∃ r, sumHor t (fltArith w man) n x = .ok r ∧ SumAccurate man x r) := by
  obtain ⟨⟨r1, h1, h2⟩, ⟨r2, h3, h4⟩⟩ := (C49_slice_sums t (fltArith w man) x).1 h
  exact ⟨⟨r1, h1, sumAccurate_of hf h2⟩, ⟨r2, h3, sumAccurate_of hf h4⟩⟩

/-- **C112** The parallel slice sum of an aligned slice, for every way rayon splits the work. -/
theorem C112_parallel_sum [LaneCount n] (hf : Format w man) (t : Target) (e a : Nat) (he : 0 < e) (sched : Sched) (x : List (BitVec w))
    (h : x.length % n = 0) (hne : x ≠ []) (ha : a % n = 0) :
    ∃ r, sumVerPar t (fltArith w man) n e (n * e) sched (a * e) x = .ok r ∧ SumAccurate man x r := by
  obtain ⟨r, h1, h2⟩ := C50_aligned_partial t (fltArith w man) e a he sched x h hne ha
  exact ⟨r, h1, sumAccurate_of hf h2⟩

/-- **C112** Both dot products: the error of a finite result is at most `((1+u)^n - 1) Σ|aᵢ bᵢ|` plus `n (1+u)^(n-1)` times half the least positive float. -/
theorem C112_dot [LaneCount n] (hf : Format w man) (t : Target) (a b : List (BitVec w)) (hab : a.length = b.length) (h : a.length % n = 0) :
    ∃ r r', dotSimd t (fltArith w man) n a b = .ok r ∧ dotScalar (fltArith w man) a b = .ok r' ∧ ∀ s ∈ [r, r'], IsFinite man s →
      |realVal man s - realDot man a b| ≤ ((1 + unitRoundoff man) ^ a.length - 1) * absDot man a b +
        a.length * (1 + unitRoundoff man) ^ (a.length - 1) * tiny w man := by
  obtain ⟨⟨r1, h1, h2⟩, h3, _⟩ := (C51_sums (n := n) t (fltArith w man) a b).1 hab
  obtain ⟨r2, h3, h4⟩ := h3 h
  refine ⟨r2, r1, h3, h1, fun s hs hfin => ?_⟩
  simp only [List.mem_cons, List.not_mem_nil, or_false] at hs
  rcases hs with rfl | rfl
  · exact dot_error hf hab h4 hfin
  · exact dot_error hf hab h2 hfin

/-- The two orders of summation may differ, within the bound: 1 + 2^-24 + 2^-24 + 2^-24 in `f32`, one lane after the other or pairwise. -/
example : sumVer x64Avx (fltArith 32 23) 2 [0x3f800000, 0x33800000, 0x33800000, 0x33800000] = .ok 0x3f800001#32 ∧
    sumVer x64Avx (fltArith 32 23) 4 [0x3f800000, 0x33800000, 0x33800000, 0x33800000] = .ok 0x3f800000#32 := by decide +kernel

end PackedSimd.Props
