import Verif.Lemmas.F32Real
import Verif.Lemmas.Matrix
import Verif.Lemmas.Sums
/-
`f32` arithmetic without rounding errors: multiples of powers of two with few bits.
-/
namespace PackedSimd.F32R
open Spec Ex

theorem low_eq : low 32 23 = 149 := by decide

/-- Nothing is lost in rounding a number of the format. -/
theorem exact_of_rounds {num : Int} {den : Nat} {x : BitVec 32} (h : RoundsTo 23 (.frac num den) x) {v : ℝ} (hv : v = (num : ℝ) / den / 2 ^ 149)
    (hx : IsFinite 23 x) (z : ℤ) (hz : z.natAbs ≤ 2 ^ 24) (s : ℕ) (hs : s ≤ 245) (e : v = z * (2 ^ s / 2 ^ 149)) : realVal 23 x = v := by
  have hd : (0 : ℝ) < den := by exact_mod_cast h.1
  have hL : (0 : ℝ) < 2 ^ 149 := by positivity
  obtain ⟨b, hb⟩ := exists_mag (man := 23) s _ hz
  have hb' : b ≤ infMag 32 23 := by
    by_contra hlt
    have h1 := magUnits_lt (man := 23) (Nat.lt_of_not_le hlt)
    have h2 : 2 ^ 24 * 2 ^ 245 ≤ magUnits 23 (infMag 32 23) := by decide +kernel
    have h3 : z.natAbs * 2 ^ s ≤ 2 ^ 24 * 2 ^ 245 := Nat.mul_le_mul hz (Nat.pow_le_pow_right (by norm_num) hs)
    omega
  have h1 := (nearTo_of h.1 h.2.1).2 b hb'
  have h2 := rounds_err h (v := v) (by rw [low_eq]; exact hv) hx _ h1
  rw [low_eq] at h2
  have hav : |v| = (num.natAbs : ℝ) / den / 2 ^ 149 := by
    rw [hv, abs_div, abs_div, abs_of_pos hL, abs_of_pos hd, Nat.cast_natAbs, Int.cast_abs]
  have hbv : ((magUnits 23 b : ℕ) : ℝ) / 2 ^ 149 = |v| := by
    have : (0 : ℝ) < 2 ^ s / 2 ^ 149 := by positivity
    rw [e, abs_mul, abs_of_pos this, hb]
    push_cast
    rw [Nat.cast_natAbs, Int.cast_abs]
    ring
  have h3 : ((magUnits 23 b : ℕ) : ℝ) = num.natAbs / den := by
    have := hbv.trans hav
    rwa [div_left_inj' hL.ne'] at this
  rw [h3, sub_self, abs_zero, zero_div] at h2
  exact sub_eq_zero.1 (abs_eq_zero.1 (le_antisymm h2 (abs_nonneg _)))

/-- `x` is `r`, a multiple `z` of `2^(k d)` with `|z| ≤ b`. -/
def IsMul (k : ℤ) (d b : ℕ) (x : F32) (r : ℝ) : Prop := Fin' x ∧ rv x = r ∧ ∃ z : ℤ, r = z * (2 : ℝ) ^ (k * d) ∧ z.natAbs ≤ b

theorem unit_eq {k : ℤ} {d : ℕ} (hk : |k| ≤ 24) (hd : d ≤ 4) : ∃ s : ℕ, s ≤ 245 ∧ (2 : ℝ) ^ (k * d) = 2 ^ s / 2 ^ 149 := by
  obtain ⟨h1, h2⟩ := abs_le.1 hk
  have h3 : (0 : ℤ) ≤ d := by omega
  have h4 : (d : ℤ) ≤ 4 := by omega
  refine ⟨(k * d + 149).toNat, ?_, ?_⟩
  · have : k * d ≤ 96 := by nlinarith
    omega
  · have : 0 ≤ k * d + 149 := by nlinarith
    rw [eq_div_iff (by positivity), ← zpow_natCast (2 : ℝ) (k * d + 149).toNat, Int.toNat_of_nonneg this, zpow_add₀ (by norm_num)]
    norm_cast

theorem small_exact {z : ℤ} (hz : z.natAbs ≤ 2 ^ 24) {s : ℕ} (hs : s ≤ 245) : |(z : ℝ) * (2 ^ s / 2 ^ 149)| < 2 ^ 127 := by
  have h1 : (0 : ℝ) ≤ 2 ^ s / 2 ^ 149 := by positivity
  have h2 : |(z : ℝ)| ≤ 2 ^ 24 := by rw [← Int.cast_abs, ← Nat.cast_natAbs]; exact_mod_cast hz
  have h3 : (2 : ℝ) ^ s / 2 ^ 149 ≤ 2 ^ 245 / 2 ^ 149 := div_le_div_of_nonneg_right (pow_le_pow_right₀ (by norm_num) hs) (by positivity)
  rw [abs_mul, abs_of_nonneg h1]
  calc _ ≤ 2 ^ 24 * ((2 : ℝ) ^ 245 / 2 ^ 149) := mul_le_mul h2 h3 h1 (by norm_num)
    _ < _ := by norm_num

variable {k : ℤ} {d d' b b' : ℕ} {x y : F32} {r s : ℝ}

theorem IsMul.add (hk : |k| ≤ 24) (hx : IsMul k d b x r) (hy : IsMul k d b' y s) (hd : d ≤ 4) (hb : b + b' ≤ 2 ^ 24) :
    IsMul k d (b + b') (x + y) (r + s) := by
  obtain ⟨fx, rfl, z, hz, hzb⟩ := hx
  obtain ⟨fy, rfl, z', hz', hzb'⟩ := hy
  obtain ⟨s, hs, hu⟩ := unit_eq hk hd
  have hzz : (z + z').natAbs ≤ b + b' := (Int.natAbs_add_le _ _).trans (by omega)
  have e : rv x + rv y = ((z + z' : ℤ) : ℝ) * 2 ^ (k * d) := by rw [hz, hz']; push_cast; ring
  have hlt : |rv x + rv y| < 2 ^ 127 := by rw [e, hu]; exact small_exact (by omega) hs
  have hf := (add_ok fx fy hlt).1
  refine ⟨hf, ?_, z + z', e, hzz⟩
  obtain ⟨p, hp⟩ := fx
  obtain ⟨q, hq⟩ := fy
  have hr := add_rounds fmt x.bits y.bits
  unfold exactAdd at hr
  rw [hp, hq] at hr
  refine exact_of_rounds hr ?_ hf (z + z') (by omega) s hs (by rw [e, hu])
  unfold rv
  rw [realVal_num hp, realVal_num hq, low_eq]
  push_cast
  ring

theorem IsMul.sub (hk : |k| ≤ 24) (hx : IsMul k d b x r) (hy : IsMul k d b' y s) (hd : d ≤ 4) (hb : b + b' ≤ 2 ^ 24) :
    IsMul k d (b + b') (x - y) (r - s) := by
  obtain ⟨fx, rfl, z, hz, hzb⟩ := hx
  obtain ⟨fy, rfl, z', hz', hzb'⟩ := hy
  obtain ⟨s, hs, hu⟩ := unit_eq hk hd
  have hzz : (z - z').natAbs ≤ b + b' := (Int.natAbs_sub_le _ _).trans (by omega)
  have e : rv x - rv y = ((z - z' : ℤ) : ℝ) * 2 ^ (k * d) := by rw [hz, hz']; push_cast; ring
  have hlt : |rv x - rv y| < 2 ^ 127 := by rw [e, hu]; exact small_exact (by omega) hs
  have hf := (sub_ok fx fy hlt).1
  refine ⟨hf, ?_, z - z', e, hzz⟩
  obtain ⟨p, hp⟩ := fx
  obtain ⟨q, hq⟩ := fy
  have hr := sub_rounds fmt x.bits y.bits
  unfold exactSub at hr
  rw [hp, hq] at hr
  refine exact_of_rounds hr ?_ hf (z - z') (by omega) s hs (by rw [e, hu])
  unfold rv
  rw [realVal_num hp, realVal_num hq, low_eq]
  push_cast
  ring

theorem IsMul.mul (hk : |k| ≤ 24) (hx : IsMul k d b x r) (hy : IsMul k d' b' y s) (hd : d + d' ≤ 4) (hb : b * b' ≤ 2 ^ 24) :
    IsMul k (d + d') (b * b') (x * y) (r * s) := by
  obtain ⟨fx, rfl, z, hz, hzb⟩ := hx
  obtain ⟨fy, rfl, z', hz', hzb'⟩ := hy
  obtain ⟨s, hs, hu⟩ := unit_eq hk hd
  have hzz : (z * z').natAbs ≤ b * b' := by rw [Int.natAbs_mul]; exact Nat.mul_le_mul hzb hzb'
  have e : rv x * rv y = ((z * z' : ℤ) : ℝ) * 2 ^ (k * (d + d' : ℕ)) := by
    rw [hz, hz', show k * ((d + d' : ℕ) : ℤ) = k * d + k * d' by push_cast; ring, zpow_add₀ (by norm_num)]
    push_cast
    ring
  have hlt : |rv x * rv y| < 2 ^ 127 := by rw [e, hu]; exact small_exact (by omega) hs
  have hf := (mul_ok fx fy hlt).1
  refine ⟨hf, ?_, z * z', e, hzz⟩
  obtain ⟨p, hp⟩ := fx
  obtain ⟨q, hq⟩ := fy
  have hr := mul_rounds fmt x.bits y.bits
  unfold exactMul at hr
  rw [hp, hq] at hr
  refine exact_of_rounds hr ?_ hf (z * z') (by omega) s hs (by rw [e, hu])
  unfold rv
  rw [realVal_num hp, realVal_num hq]
  simp only [low_eq]
  push_cast
  rw [div_mul_div_comm, div_div]
  norm_num

theorem neg_ok {a : F32} (ha : Fin' a) : Fin' (-a) ∧ rv (-a) = -rv a := by
  obtain ⟨h1, h2⟩ := negate_spec fmt a.bits
  have hf : Fin' (-a) := by
    refine (finite_iff _).2 ?_
    show magBits (Flt.negate a.bits) < _
    rw [h1]
    exact (finite_iff _).1 ha
  refine ⟨hf, ?_⟩
  unfold rv
  rw [realVal_num (valueOf_finite hf), realVal_num (valueOf_finite ha)]
  show ((if isNeg (Flt.negate a.bits) = true then _ else _ : ℤ) : ℝ) / _ = _
  have h1' : magBits (-a).bits = magBits a.bits := h1
  rw [h1', h2]
  cases isNeg a.bits <;> simp [neg_div]

theorem IsMul.neg (hx : IsMul k d b x r) : IsMul k d b (-x) (-r) := by
  obtain ⟨fx, rfl, z, hz, hzb⟩ := hx
  obtain ⟨h1, h2⟩ := neg_ok fx
  exact ⟨h1, h2, -z, by rw [hz]; push_cast; ring, by rwa [Int.natAbs_neg]⟩

theorem IsMul.mono (hx : IsMul k d b x r) (h : b ≤ b') : IsMul k d b' x r := by
  obtain ⟨fx, h1, z, hz, hzb⟩ := hx
  exact ⟨fx, h1, z, hz, hzb.trans h⟩

theorem isZero_iff {a : F32} (ha : Fin' a) : F32.isZero a = true ↔ rv a = 0 := by
  obtain ⟨-, c2, -⟩ := cmp_real (man := 23) ha zero_ok.1
  unfold F32.isZero
  rw [show (0 : BitVec 32) = (0 : F32).bits from rfl, oeq_iff fmt, beq_iff_eq, c2]
  exact ⟨fun h => h.trans zero_ok.2, fun h => h.trans zero_ok.2.symm⟩

/-! ### Relative errors of normal results -/

theorem mul_rel {a b : F32} (ha : Fin' a) (hb : Fin' b) (h : |rv a * rv b| < 2 ^ 127) (h' : rv a * rv b = 0 ∨ 1 / 2 ^ 126 ≤ |rv a * rv b|) :
    Fin' (a * b) ∧ |rv (a * b) - rv a * rv b| ≤ ν * |rv a * rv b| := by
  have hm := flt_mul fmt ha hb
  have hfin : Fin' (a * b) := hm.1.2 (lt_of_lt_of_le h overflow_ge)
  refine ⟨hfin, ?_⟩
  rcases h' with h' | h'
  · have := mul_near ha hb hfin 0 zero_ok.1
    rw [h', zero_ok.2, sub_self, abs_zero] at this
    rw [h', abs_zero, mul_zero]
    exact this
  · refine (hm.2.1 hfin).trans ?_
    rw [u_eq, tiny_eq]
    refine max_le le_rfl ?_
    calc η = ν * (1 / 2 ^ 126) := by unfold η ν; norm_num
      _ ≤ _ := mul_le_mul_of_nonneg_left h' ν_pos.le

theorem div_rel {a b : F32} (ha : Fin' a) (hb : Fin' b) (h0 : rv b ≠ 0) (h : |rv a / rv b| < 2 ^ 127) (h' : 1 / 2 ^ 126 ≤ |rv a / rv b|) :
    Fin' (a / b) ∧ |rv (a / b) - rv a / rv b| ≤ ν * |rv a / rv b| := by
  have hm := flt_div fmt ha hb h0
  have hfin : Fin' (a / b) := hm.1.2 (lt_of_lt_of_le h overflow_ge)
  refine ⟨hfin, (hm.2.1 hfin).trans ?_⟩
  rw [u_eq, tiny_eq]
  refine max_le le_rfl ?_
  calc η = ν * (1 / 2 ^ 126) := by unfold η ν; norm_num
    _ ≤ _ := mul_le_mul_of_nonneg_left h' ν_pos.le

end PackedSimd.F32R
