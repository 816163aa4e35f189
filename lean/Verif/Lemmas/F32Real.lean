import Verif.Lemmas.FloatSqrt
import Verif.Lemmas.Cast
import Verif.Lemmas.AoExact
import Verif.Spec.AoFloat
/-
`f32` arithmetic in terms of real numbers, with relative errors `ν = 2^-24` and absolute errors `η = 2^-150`.
-/
namespace PackedSimd.F32R
open Spec Ex

theorem fmt : Format 32 23 := ⟨by decide, by decide⟩

/-- Finite, and the value. -/
def Fin' (a : F32) : Prop := IsFinite 23 a.bits
noncomputable def rv (a : F32) : ℝ := realVal 23 a.bits

noncomputable def ν : ℝ := 1 / 2 ^ 24
noncomputable def η : ℝ := 1 / 2 ^ 150

theorem u_eq : unitRoundoff 23 = ν := by unfold unitRoundoff ν; norm_num
theorem tiny_eq : tiny 32 23 = η := by unfold tiny η; rw [show low 32 23 = 149 by decide]
theorem ν_pos : 0 < ν := by unfold ν; norm_num
theorem ν_le : ν ≤ 1 / 16000000 := by unfold ν; norm_num
theorem η_pos : 0 < η := by unfold η; norm_num
theorem η_le : η ≤ ν / 10 ^ 36 := by unfold η ν; norm_num

theorem overflow_ge : (2 : ℝ) ^ 127 ≤ overflow 32 23 := by
  unfold overflow
  rw [show low 32 23 = 149 by decide, le_div_iff₀ (by positivity), le_div_iff₀ (by norm_num)]
  have h : 2 ^ 127 * 2 ^ 149 * 2 ≤ magUnits 23 (infMag 32 23 - 1) + magUnits 23 (infMag 32 23) := by decide +kernel
  exact_mod_cast h

theorem max_le_sum (v : ℝ) : max (unitRoundoff 23 * |v|) (tiny 32 23) ≤ ν * |v| + η := by
  rw [u_eq, tiny_eq]
  have h3 : 0 ≤ ν * |v| := mul_nonneg ν_pos.le (abs_nonneg _)
  exact max_le (by linarith [η_pos]) (by linarith)

/-! ### Nearest floats -/

/-- A rounded quotient is as near to the exact one as any float. -/
theorem near_of_rounds {w man : Nat} (hf : Format w man) {num : Int} {den : Nat} {x : BitVec w} (h : RoundsTo man (.frac num den) x) {v : ℝ}
    (hv : v = (num : ℝ) / den / 2 ^ low w man) (hx : IsFinite man x) (c : BitVec w) (hc : IsFinite man c) : |realVal man x - v| ≤ |realVal man c - v| := by
  have hL : (0 : ℝ) < 2 ^ low w man := by positivity
  have hI := infMag_pos hf
  obtain ⟨hd, hn, hs⟩ := h
  have hd' : (0 : ℝ) < den := by exact_mod_cast hd
  obtain ⟨-, hnear⟩ := nearTo_of hd hn
  have hm := hnear (magBits c) ((finite_iff c).1 hc).le
  have e1 := rounds_err (man := man) ⟨hd, hn, hs⟩ hv hx _ le_rfl
  refine e1.trans ((div_le_div_of_nonneg_right hm hL.le).trans ?_)
  have hab : |v| = (num.natAbs : ℝ) / den / 2 ^ low w man := by
    rw [hv, abs_div, abs_div, abs_of_pos hL, abs_of_pos hd', Nat.cast_natAbs, Int.cast_abs]
  have : |(magUnits man (magBits c) : ℝ) - num.natAbs / den| / 2 ^ low w man = |(|realVal man c|) - (|v|)| := by
    rw [abs_realVal hc, hab, ← sub_div, abs_div, abs_of_pos hL]
  rw [this]
  exact abs_abs_sub_abs_le_abs_sub _ _

/-- Rounding does not go past a float. -/
theorem near_le {x v c : ℝ} (h : |x - v| ≤ |c - v|) (hv : v ≤ c) : x ≤ c := by
  rw [abs_of_nonneg (by linarith : (0 : ℝ) ≤ c - v)] at h
  linarith [le_abs_self (x - v)]
theorem near_ge {x v c : ℝ} (h : |x - v| ≤ |c - v|) (hv : c ≤ v) : c ≤ x := by
  rw [abs_of_nonpos (by linarith : c - v ≤ 0)] at h
  linarith [neg_abs_le (x - v)]

/-! ### Operations -/

theorem real_mul {x y r : BitVec 32} (hx : IsFinite 23 x) (hy : IsFinite 23 y) (h : RoundsTo 23 (exactMul 23 x y) r) :
    RealRound 23 r (realVal 23 x * realVal 23 y) (max (unitRoundoff 23 * |realVal 23 x * realVal 23 y|) (tiny 32 23)) := by
  obtain ⟨a, ha⟩ := hx
  obtain ⟨b, hb⟩ := hy
  unfold exactMul at h
  rw [ha, hb] at h
  rw [realVal_num ha, realVal_num hb]
  exact (realRound_of fmt h (by push_cast; field_simp)).1

theorem real_add {x y r : BitVec 32} (hx : IsFinite 23 x) (hy : IsFinite 23 y) (h : RoundsTo 23 (exactAdd 23 x y) r) :
    RealRound 23 r (realVal 23 x + realVal 23 y) (unitRoundoff 23 * |realVal 23 x + realVal 23 y|) := by
  obtain ⟨a, ha⟩ := hx
  obtain ⟨b, hb⟩ := hy
  unfold exactAdd at h
  rw [ha, hb] at h
  rw [realVal_num ha, realVal_num hb]
  exact (realRound_of fmt h (by push_cast; ring)).2 rfl

theorem add_ok {a b : F32} (ha : Fin' a) (hb : Fin' b) (h : |rv a + rv b| < 2 ^ 127) :
    Fin' (a + b) ∧ |rv (a + b) - (rv a + rv b)| ≤ ν * |rv a + rv b| := by
  have := flt_add fmt ha hb
  have hfin : Fin' (a + b) := this.1.2 (lt_of_lt_of_le h overflow_ge)
  rw [u_eq] at this
  exact ⟨hfin, this.2.1 hfin⟩
theorem sub_ok {a b : F32} (ha : Fin' a) (hb : Fin' b) (h : |rv a - rv b| < 2 ^ 127) :
    Fin' (a - b) ∧ |rv (a - b) - (rv a - rv b)| ≤ ν * |rv a - rv b| := by
  have := flt_sub fmt ha hb
  have hfin : Fin' (a - b) := this.1.2 (lt_of_lt_of_le h overflow_ge)
  rw [u_eq] at this
  exact ⟨hfin, this.2.1 hfin⟩
theorem mul_ok {a b : F32} (ha : Fin' a) (hb : Fin' b) (h : |rv a * rv b| < 2 ^ 127) :
    Fin' (a * b) ∧ |rv (a * b) - rv a * rv b| ≤ ν * |rv a * rv b| + η := by
  have := flt_mul fmt ha hb
  have hfin : Fin' (a * b) := this.1.2 (lt_of_lt_of_le h overflow_ge)
  exact ⟨hfin, (this.2.1 hfin).trans (max_le_sum _)⟩

/-- Products and differences do not go past floats. -/
theorem mul_near {a b : F32} (ha : Fin' a) (hb : Fin' b) (h : Fin' (a * b)) (c : F32) (hc : Fin' c) :
    |rv (a * b) - rv a * rv b| ≤ |rv c - rv a * rv b| := by
  obtain ⟨x, hx⟩ := ha
  obtain ⟨y, hy⟩ := hb
  have hr := mul_rounds fmt a.bits b.bits
  unfold exactMul at hr
  rw [hx, hy] at hr
  exact near_of_rounds fmt hr (by unfold rv; rw [realVal_num hx, realVal_num hy]; push_cast; field_simp) h c.bits hc
theorem sub_near {a b : F32} (ha : Fin' a) (hb : Fin' b) (h : Fin' (a - b)) (c : F32) (hc : Fin' c) :
    |rv (a - b) - (rv a - rv b)| ≤ |rv c - (rv a - rv b)| := by
  obtain ⟨x, hx⟩ := ha
  obtain ⟨y, hy⟩ := hb
  have hr := sub_rounds fmt a.bits b.bits
  unfold exactSub at hr
  rw [hx, hy] at hr
  exact near_of_rounds fmt hr (by unfold rv; rw [realVal_num hx, realVal_num hy]; push_cast; ring) h c.bits hc

theorem zero_ok : Fin' (0 : F32) ∧ rv (0 : F32) = 0 := by
  have h : valueOf 23 (0 : F32).bits = .num 0 := by decide +kernel
  exact ⟨⟨_, h⟩, by unfold rv; rw [realVal_num h]; simp⟩
theorem one_ok : Fin' (1 : F32) ∧ rv (1 : F32) = 1 := by
  have h : valueOf 23 (1 : F32).bits = .num (2 ^ 149) := by decide +kernel
  refine ⟨⟨_, h⟩, ?_⟩
  unfold rv
  rw [realVal_num h, show low 32 23 = 149 by decide]
  norm_num

theorem lt_iff {a b : F32} (ha : Fin' a) (hb : Fin' b) : Flt.olt 23 a.bits b.bits = true ↔ rv a < rv b := by
  obtain ⟨c1, -, -⟩ := cmp_real (man := 23) ha hb
  rw [olt_iff fmt, beq_iff_eq, c1]
  rfl
theorem gt_iff {a b : F32} (ha : Fin' a) (hb : Fin' b) : Flt.ogt 23 a.bits b.bits = true ↔ rv b < rv a := by
  obtain ⟨-, -, c3⟩ := cmp_real (man := 23) ha hb
  rw [ogt_iff fmt, beq_iff_eq, c3]
  rfl

/-! ### Sums of products -/

/-- One more addition. -/
theorem err_step {s s1 p x y a b k m : ℝ} (hk : 1 ≤ k) (hm : 1 ≤ m) (hm' : m ≤ 100) (h1 : |s1 - x| ≤ k * (ν * a) + m * η) (h2 : |p - y| ≤ ν * b + η)
    (ha : |x| ≤ a) (hb : |y| ≤ b) (hs : |s - (s1 + p)| ≤ ν * |s1 + p| + η) :
    |s - (x + y)| ≤ (k + 1 + k / 1000000) * (ν * (a + b)) + (m + 3) * η := by
  have hν := ν_pos
  have hη := η_pos
  have hνl := ν_le
  have a0 : 0 ≤ a := (abs_nonneg _).trans ha
  have b0 : 0 ≤ b := (abs_nonneg _).trans hb
  have va : 0 ≤ ν * a := mul_nonneg hν.le a0
  have vb : 0 ≤ ν * b := mul_nonneg hν.le b0
  set e := k * (ν * (a + b)) + (m + 1) * η with he
  have hkb : ν * b ≤ k * (ν * b) := le_mul_of_one_le_left vb hk
  have he1 : |s1 + p - (x + y)| ≤ e := by
    have : s1 + p - (x + y) = (s1 - x) + (p - y) := by ring
    rw [this]
    refine (abs_add_le _ _).trans ?_
    rw [he]
    linarith
  have he2 : |s1 + p| ≤ a + b + e := by
    have : s1 + p = (s1 + p - (x + y)) + (x + y) := by ring
    rw [this]
    refine (abs_add_le _ _).trans ?_
    have := abs_add_le x y
    linarith
  have he3 : |s - (x + y)| ≤ ν * |s1 + p| + η + e := by
    have : s - (x + y) = (s - (s1 + p)) + (s1 + p - (x + y)) := by ring
    rw [this]
    refine (abs_add_le _ _).trans ?_
    linarith
  have he4 : ν * |s1 + p| ≤ ν * (a + b) + ν * e := by
    have := mul_le_mul_of_nonneg_left he2 hν.le
    linarith
  have e0 : 0 ≤ e := (abs_nonneg _).trans he1
  have he5 : ν * e ≤ 1 / 16000000 * e := mul_le_mul_of_nonneg_right hνl e0
  have hmη : ν * ((m + 1) * η) ≤ 1 / 2 * η := by
    rw [← mul_assoc]
    refine mul_le_mul_of_nonneg_right ?_ hη.le
    calc ν * (m + 1) ≤ 1 / 16000000 * (m + 1) := mul_le_mul_of_nonneg_right hνl (by linarith)
      _ ≤ 1 / 2 := by linarith
  have hk2 : ν * (k * (ν * (a + b))) ≤ 1 / 16000000 * (k * (ν * (a + b))) :=
    mul_le_mul_of_nonneg_right hνl (mul_nonneg (by linarith) (mul_nonneg hν.le (by linarith)))
  have hk3 : 0 ≤ k * (ν * (a + b)) := mul_nonneg (by linarith) (mul_nonneg hν.le (by linarith))
  rw [he, mul_add] at he4
  rw [he] at he3
  have : (k + 1 + k / 1000000) * (ν * (a + b)) = k * (ν * (a + b)) + ν * (a + b) + 1 / 1000000 * (k * (ν * (a + b))) := by ring
  rw [this]
  linarith

/-- The error of a sum of three products. -/
theorem dot_err {s s1 p1 p2 p3 x y z : ℝ} (h1 : |p1 - x| ≤ ν * |x| + η) (h2 : |p2 - y| ≤ ν * |y| + η) (h3 : |p3 - z| ≤ ν * |z| + η)
    (hs1 : |s1 - (p1 + p2)| ≤ ν * |p1 + p2| + η) (hs : |s - (s1 + p3)| ≤ ν * |s1 + p3| + η) :
    |s - (x + y + z)| ≤ 3.001 * (ν * (|x| + |y| + |z|)) + 7 * η := by
  have hν := ν_pos
  have e1 := err_step (k := 1) (m := 1) le_rfl le_rfl (by norm_num) (by rw [one_mul, one_mul]; exact h1) h2 le_rfl le_rfl hs1
  have e2 := err_step (k := 1 + 1 + 1 / 1000000) (m := 1 + 3) (by norm_num) (by norm_num) (by norm_num) e1 h3 (abs_add_le _ _) le_rfl hs
  refine e2.trans ?_
  have : 0 ≤ ν * (|x| + |y| + |z|) := by positivity
  have h' : (1 + 1 + 1 / 1000000 + 1 + (1 + 1 + 1 / 1000000) / 1000000) * (ν * (|x| + |y| + |z|)) ≤ 3.001 * (ν * (|x| + |y| + |z|)) :=
    mul_le_mul_of_nonneg_right (by norm_num) this
  linarith

open Ex.Ao Spec.Ao

theorem ma_ok {ma : F32 → F32 → F32 → F32} (hma : MulAddOk ma) {a b c : F32} (ha : Fin' a) (hb : Fin' b) (hc : Fin' c) (h1 : |rv a * rv b| ≤ 2 ^ 125)
    (h2 : |rv c| ≤ 2 ^ 125) : Fin' (ma a b c) ∧ ∃ p, |p - rv a * rv b| ≤ ν * |rv a * rv b| + η ∧ |rv (ma a b c) - (p + rv c)| ≤ ν * |p + rv c| + η := by
  have hν := ν_pos
  have hη := η_pos
  have hνl := ν_le
  have hη1 : η ≤ 1 := by unfold η; norm_num
  have hp : ∀ p, |p - rv a * rv b| ≤ ν * |rv a * rv b| + η → |p| < 2 ^ 126 := fun p hp => by
    have : p = (p - rv a * rv b) + rv a * rv b := by ring
    rw [this]
    refine lt_of_le_of_lt (abs_add_le _ _) ?_
    have : ν * |rv a * rv b| ≤ 1 / 16000000 * 2 ^ 125 := mul_le_mul hνl h1 (abs_nonneg _) (by norm_num)
    norm_num at this h1 hp ⊢
    linarith
  rcases hma a b c with h | ⟨p, hp1, hp2⟩
  · have hr := real_fma fmt ha hb hc h
    have hfin : Fin' (ma a b c) := hr.1.2 (lt_of_lt_of_le (lt_of_le_of_lt (abs_add_le _ _) (by
      have h1' : |realVal 23 a.bits * realVal 23 b.bits| ≤ 2 ^ 125 := h1
      have h2' : |realVal 23 c.bits| ≤ 2 ^ 125 := h2
      norm_num at h1' h2' ⊢
      linarith)) overflow_ge)
    refine ⟨hfin, rv a * rv b, ?_, (hr.2.1 hfin).trans (max_le_sum _)⟩
    rw [sub_self, abs_zero]
    positivity
  · have hr := real_mul ha hb hp1
    have hlt : |rv a * rv b| < 2 ^ 127 := lt_of_le_of_lt h1 (by norm_num)
    have hpf : IsFinite 23 p := hr.1.2 (lt_of_lt_of_le hlt overflow_ge)
    have he := (hr.2.1 hpf).trans (max_le_sum _)
    have hr2 := real_add hpf hc hp2
    have hpl := hp _ he
    have hfin : Fin' (ma a b c) := hr2.1.2 (lt_of_lt_of_le (lt_of_le_of_lt (abs_add_le _ _) (by
      have h2' : |realVal 23 c.bits| ≤ 2 ^ 125 := h2
      norm_num at hpl h2' ⊢
      linarith)) overflow_ge)
    refine ⟨hfin, realVal 23 p, he, ?_⟩
    have := hr2.2.1 hfin
    rw [u_eq] at this
    exact this.trans (le_add_of_nonneg_right hη.le)

/-- The sum of the absolute values of the products. -/
noncomputable def absInner (a o : V3 ℝ) : ℝ := |a.x * o.x| + |a.y * o.y| + |a.z * o.z|

/-- What the two dot products have in common. -/
def DotOk (dot : V3 F32 → V3 F32 → F32) : Prop := ∀ a o, FiniteV a → FiniteV o → absInner (toReal a) (toReal o) ≤ 2 ^ 120 →
  Fin' (dot a o) ∧ |rv (dot a o) - inner (toReal a) (toReal o)| ≤ 3.001 * (ν * absInner (toReal a) (toReal o)) + 7 * η

/-- A rounded number is not much greater. -/
theorem bound_of_err {r v B : ℝ} (h : |r - v| ≤ ν * |v| + η) (hv : |v| ≤ B) : |r| ≤ 1.001 * B + 1 := by
  have hη1 : η ≤ 1 := by unfold η; norm_num
  have : r = (r - v) + v := by ring
  rw [this]
  refine (abs_add_le _ _).trans ?_
  have : ν * |v| ≤ 1 / 16000000 * B := mul_le_mul ν_le hv (abs_nonneg _) (by norm_num)
  have hB : 0 ≤ B := (abs_nonneg _).trans hv
  linarith

theorem dot_dotOk : DotOk V3.dot := by
  intro a o ⟨ax, ay, az⟩ ⟨ox, oy, oz⟩ hA
  have hη := η_pos
  unfold absInner at hA
  have b1 : |rv a.x * rv o.x| ≤ 2 ^ 120 := le_trans (by have := abs_nonneg (rv a.y * rv o.y); have := abs_nonneg (rv a.z * rv o.z); change _ ≤ |rv a.x * rv o.x| + |rv a.y * rv o.y| + |rv a.z * rv o.z|; linarith) hA
  have b2 : |rv a.y * rv o.y| ≤ 2 ^ 120 := le_trans (by have := abs_nonneg (rv a.x * rv o.x); have := abs_nonneg (rv a.z * rv o.z); change _ ≤ |rv a.x * rv o.x| + |rv a.y * rv o.y| + |rv a.z * rv o.z|; linarith) hA
  have b3 : |rv a.z * rv o.z| ≤ 2 ^ 120 := le_trans (by have := abs_nonneg (rv a.y * rv o.y); have := abs_nonneg (rv a.x * rv o.x); change _ ≤ |rv a.x * rv o.x| + |rv a.y * rv o.y| + |rv a.z * rv o.z|; linarith) hA
  obtain ⟨f1, e1⟩ := mul_ok ax ox (lt_of_le_of_lt b1 (by norm_num))
  obtain ⟨f2, e2⟩ := mul_ok ay oy (lt_of_le_of_lt b2 (by norm_num))
  obtain ⟨f3, e3⟩ := mul_ok az oz (lt_of_le_of_lt b3 (by norm_num))
  have c1 := bound_of_err e1 b1
  have c2 := bound_of_err e2 b2
  have c3 := bound_of_err e3 b3
  have c12 : |rv (a.x * o.x) + rv (a.y * o.y)| ≤ 2 ^ 122 := (abs_add_le _ _).trans (by norm_num at c1 c2 ⊢; linarith)
  obtain ⟨f4, e4⟩ := add_ok f1 f2 (lt_of_le_of_lt c12 (by norm_num))
  have e4' : |rv (a.x * o.x + a.y * o.y) - (rv (a.x * o.x) + rv (a.y * o.y))| ≤ ν * |rv (a.x * o.x) + rv (a.y * o.y)| + η := by linarith
  have c4 := bound_of_err e4' c12
  have c5 : |rv (a.x * o.x + a.y * o.y) + rv (a.z * o.z)| < 2 ^ 127 := lt_of_le_of_lt (abs_add_le _ _) (by norm_num at c3 c4 ⊢; linarith)
  obtain ⟨f5, e5⟩ := add_ok f4 f3 c5
  exact ⟨f5, dot_err e1 e2 e3 e4' (e5.trans (le_add_of_nonneg_right hη.le))⟩

theorem mdot_dotOk (F : Fns F32) (hma : MulAddOk F.mulAdde) : DotOk (mdot F) := by
  intro a o ⟨ax, ay, az⟩ ⟨ox, oy, oz⟩ hA
  have hη := η_pos
  unfold absInner at hA
  have b1 : |rv a.x * rv o.x| ≤ 2 ^ 120 := le_trans (by have := abs_nonneg (rv a.y * rv o.y); have := abs_nonneg (rv a.z * rv o.z); change _ ≤ |rv a.x * rv o.x| + |rv a.y * rv o.y| + |rv a.z * rv o.z|; linarith) hA
  have b2 : |rv a.y * rv o.y| ≤ 2 ^ 120 := le_trans (by have := abs_nonneg (rv a.x * rv o.x); have := abs_nonneg (rv a.z * rv o.z); change _ ≤ |rv a.x * rv o.x| + |rv a.y * rv o.y| + |rv a.z * rv o.z|; linarith) hA
  have b3 : |rv a.z * rv o.z| ≤ 2 ^ 120 := le_trans (by have := abs_nonneg (rv a.y * rv o.y); have := abs_nonneg (rv a.x * rv o.x); change _ ≤ |rv a.x * rv o.x| + |rv a.y * rv o.y| + |rv a.z * rv o.z|; linarith) hA
  obtain ⟨f3, e3⟩ := mul_ok az oz (lt_of_le_of_lt b3 (by norm_num))
  have c3 := bound_of_err e3 b3
  obtain ⟨f2, p2, e2, e4⟩ := ma_ok hma ay oy f3 (b2.trans (by norm_num)) (c3.trans (by norm_num))
  have c2 := bound_of_err e2 b2
  have c23 : |p2 + rv (a.z * o.z)| ≤ 2 ^ 122 := (abs_add_le _ _).trans (by norm_num at c2 c3 ⊢; linarith)
  have c4 := bound_of_err e4 c23
  obtain ⟨f1, p1, e1, e5⟩ := ma_ok hma ax ox f2 (b1.trans (by norm_num)) (c4.trans (by norm_num))
  refine ⟨f1, ?_⟩
  have := dot_err e3 e2 e1 (by rw [add_comm (rv (a.z * o.z))]; exact e4) (by rw [add_comm (rv (F.mulAdde _ _ _))]; exact e5)
  have hi : inner (toReal a) (toReal o) = rv a.z * rv o.z + rv a.y * rv o.y + rv a.x * rv o.x := by
    show rv a.x * rv o.x + rv a.y * rv o.y + rv a.z * rv o.z = _
    ring
  have ha : absInner (toReal a) (toReal o) = |rv a.z * rv o.z| + |rv a.y * rv o.y| + |rv a.x * rv o.x| := by
    show |rv a.x * rv o.x| + |rv a.y * rv o.y| + |rv a.z * rv o.z| = _
    ring
  rw [hi, ha]
  exact this

end PackedSimd.F32R
