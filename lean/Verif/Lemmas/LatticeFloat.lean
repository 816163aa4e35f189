import Verif.Lemmas.Lattice
import Verif.Lemmas.MatrixFloat
import Verif.Lemmas.AoBytes
/-
The binomial lattice in `f32`.
-/
namespace PackedSimd.Ex.Options
open Spec F32R

/-! ### More on `f32` operations -/

theorem div_near {a b : F32} (ha : Fin' a) (hb : Fin' b) (h0 : rv b ≠ 0) (h : Fin' (a / b)) (c : F32) (hc : Fin' c) :
    |rv (a / b) - rv a / rv b| ≤ |rv c - rv a / rv b| := by
  obtain ⟨x, hx⟩ := ha
  obtain ⟨y, hy⟩ := hb
  have hr := div_rounds fmt a.bits b.bits
  unfold exactDiv at hr
  rw [hx, hy] at hr
  unfold rv at h0
  rw [realVal_num hy] at h0
  have hy0 : y ≠ 0 := by rintro rfl; simp at h0
  have hyR : (y : ℝ) ≠ 0 := by exact_mod_cast hy0
  dsimp only at hr
  rw [if_neg hy0] at hr
  refine near_of_rounds fmt hr ?_ h c.bits hc
  unfold rv
  rw [realVal_num hx, realVal_num hy]
  have hL : (2 : ℝ) ^ low 32 23 ≠ 0 := by positivity
  rw [Nat.cast_natAbs, Int.cast_abs]
  split
  · rename_i hneg
    have : (y : ℝ) < 0 := by exact_mod_cast hneg
    rw [abs_of_neg this]
    push_cast
    field_simp
  · rename_i hneg
    have : (0 : ℝ) < y := by
      have : 0 < y := by omega
      exact_mod_cast this
    rw [abs_of_pos this]
    push_cast
    field_simp

theorem div_ok {a b : F32} (ha : Fin' a) (hb : Fin' b) (h0 : rv b ≠ 0) (h : |rv a / rv b| < 2 ^ 127) :
    Fin' (a / b) ∧ |rv (a / b) - rv a / rv b| ≤ ν * |rv a / rv b| + η := by
  have := flt_div fmt ha hb h0
  have hfin : Fin' (a / b) := this.1.2 (lt_of_lt_of_le h overflow_ge)
  exact ⟨hfin, (this.2.1 hfin).trans (max_le_sum _)⟩

/-- Differences are monotone. -/
theorem sub_mono {a b c : F32} (ha : Fin' a) (hb : Fin' b) (hc : Fin' c) (h1 : Fin' (a - c)) (h2 : Fin' (b - c)) (hca : rv c ≤ rv a) (hab : rv a ≤ rv b) :
    rv (a - c) ≤ rv (b - c) := by
  have z1 := sub_near ha hc h1 0 zero_ok.1
  have z2 := sub_near hb hc h2 0 zero_ok.1
  rw [zero_ok.2] at z1 z2
  have p1 : 0 ≤ rv (a - c) := near_ge z1 (by linarith)
  have p2 : 0 ≤ rv (b - c) := near_ge z2 (by linarith)
  obtain ⟨x, hx⟩ := ha
  obtain ⟨y, hy⟩ := hb
  obtain ⟨z, hz⟩ := hc
  have r1 := sub_rounds fmt a.bits c.bits
  have r2 := sub_rounds fmt b.bits c.bits
  unfold exactSub at r1 r2
  rw [hx, hz] at r1
  rw [hy, hz] at r2
  unfold rv at hca hab
  have hL : (0 : ℝ) < 2 ^ low 32 23 := by positivity
  rw [realVal_num hx, realVal_num hz, div_le_div_iff_of_pos_right hL] at hca
  rw [realVal_num hx, realVal_num hy, div_le_div_iff_of_pos_right hL] at hab
  have hca : z ≤ x := by exact_mod_cast hca
  have hab : x ≤ y := by exact_mod_cast hab
  have hm := nearest_mono r1.1 r1.2.1 r2.2.1 (by omega)
  rw [← abs_of_nonneg p1, ← abs_of_nonneg p2]
  show |realVal 23 (a - c).bits| ≤ |realVal 23 (b - c).bits|
  rw [abs_realVal h1, abs_realVal h2, div_le_div_iff_of_pos_right hL]
  exact_mod_cast magUnits_le hm

/-- `max(0, y)` of a number, or of something that is not above every number. -/
theorem max_zero_ok (pick : BitVec 32 → BitVec 32 → Bool) (y : F32) (h : Fin' y ∨ valueOf 23 y.bits = .nan ∨ valueOf 23 y.bits = .inf true) :
    let m : F32 := ⟨Flt.maxNum 23 pick 0 y.bits⟩
    Fin' m ∧ (rv m = 0 ∨ Fin' y ∧ 0 < rv y ∧ rv m = rv y) := by
  intro m
  have hz := zero_ok
  have h0 : Flt.isNaN 23 (0 : BitVec 32) = false := by decide
  have hm : m = ⟨Flt.maxNum 23 pick 0 y.bits⟩ := rfl
  unfold Flt.maxNum at hm
  rw [h0] at hm
  rcases h with h | h | h
  · have hn : Flt.isNaN 23 y.bits = false := by
      rw [Bool.eq_false_iff]
      intro hn
      obtain ⟨z, hz⟩ := h
      rw [(isNaN_iff y.bits).1 hn] at hz
      cases hz
    rw [hn] at hm
    simp only [Bool.false_eq_true, if_false] at hm
    have l1 := lt_iff (a := y) (b := 0) h hz.1
    have l2 := lt_iff (a := 0) (b := y) hz.1 h
    rw [hz.2] at l1 l2
    by_cases c1 : Flt.olt 23 y.bits 0 = true
    · rw [if_pos c1] at hm
      rw [hm]
      exact ⟨hz.1, .inl hz.2⟩
    · rw [if_neg c1] at hm
      by_cases c2 : Flt.olt 23 0 y.bits = true
      · rw [if_pos c2] at hm
        rw [hm]
        exact ⟨h, .inr ⟨h, l2.1 c2, rfl⟩⟩
      · rw [if_neg c2] at hm
        have e0 : rv y = 0 := le_antisymm (not_lt.1 fun h => c2 (l2.2 h)) (not_lt.1 fun h => c1 (l1.2 h))
        rw [hm]
        split
        · exact ⟨hz.1, .inl hz.2⟩
        · exact ⟨h, .inl e0⟩
  · have hn : Flt.isNaN 23 y.bits = true := (isNaN_iff y.bits).2 h
    rw [hn] at hm
    simp only [Bool.false_eq_true, if_false, if_true] at hm
    rw [hm]
    exact ⟨hz.1, .inl hz.2⟩
  · have hn : Flt.isNaN 23 y.bits = false := by
      rw [Bool.eq_false_iff]
      intro hn
      rw [(isNaN_iff y.bits).1 hn] at h
      cases h
    rw [hn] at hm
    have c1 : Flt.olt 23 y.bits 0 = true := by
      rw [olt_iff fmt, h]
      decide +kernel
    simp only [Bool.false_eq_true, if_false, c1, if_true] at hm
    rw [hm]
    exact ⟨hz.1, .inl hz.2⟩

/-- A leaf of the lattice. -/
theorem payoff_ok (pick : BitVec 32 → BitVec 32 → Bool) {x z : F32} (hx : Fin' x) (h0 : 0 ≤ rv x) (h1 : rv x ≤ 2 ^ 126) (hz : Flt.olt 23 z.bits 0 = false) :
    let m : F32 := ⟨Flt.maxNum 23 pick 0 (x - z).bits⟩
    Fin' m ∧ 0 ≤ rv m ∧ rv m ≤ rv x := by
  intro m
  have hr := sub_rounds fmt x.bits z.bits
  have key : (Fin' (x - z) ∧ rv (x - z) ≤ rv x) ∨ valueOf 23 (x - z).bits = .nan ∨ valueOf 23 (x - z).bits = .inf true := by
    rcases finite_or (man := 23) z.bits with hf | hn | ⟨p, hp⟩
    · have z0 : 0 ≤ rv z := by
        have := lt_iff (a := z) (b := 0) hf zero_ok.1
        rw [zero_ok.2] at this
        refine not_lt.1 fun h => ?_
        have := this.2 h
        rw [show (0 : F32).bits = 0 from rfl, hz] at this
        cases this
      have hs := flt_sub fmt hx hf
      by_cases hfin : Fin' (x - z)
      · exact .inl ⟨hfin, near_le (sub_near hx hf hfin x hx) (by linarith)⟩
      · obtain ⟨p, hp, hpv⟩ := hs.2.2 hfin
        have hov : ¬|realVal 23 x.bits - realVal 23 z.bits| < overflow 32 23 := fun h => hfin (hs.1.2 h)
        have : realVal 23 x.bits - realVal 23 z.bits < 0 := by
          by_contra hc
          rw [abs_of_nonneg (not_lt.1 hc)] at hov
          apply hov
          refine lt_of_lt_of_le ?_ overflow_ge
          have : realVal 23 x.bits - realVal 23 z.bits ≤ 2 ^ 126 := by
            have e1 : rv x = realVal 23 x.bits := rfl
            have e2 : rv z = realVal 23 z.bits := rfl
            linarith
          refine lt_of_le_of_lt this (by norm_num)
        rw [hpv.2 this] at hp
        exact .inr (.inr hp)
    · obtain ⟨a, ha⟩ := hx
      unfold exactSub at hr
      rw [ha, hn] at hr
      exact .inr (.inl hr)
    · obtain ⟨a, ha⟩ := hx
      unfold exactSub at hr
      rw [ha, hp] at hr
      have hp' : p = false := by
        rw [Bool.eq_false_iff]
        intro h
        have : Flt.olt 23 z.bits 0 = true := by
          rw [olt_iff fmt, hp, h]
          decide +kernel
        rw [hz] at this
        cases this
      rw [hp'] at hr
      exact .inr (.inr hr)
  obtain ⟨hm, hv⟩ := max_zero_ok pick (x - z) (key.imp (·.1) id)
  refine ⟨hm, ?_⟩
  rcases hv with hv | ⟨hy, hy0, hv⟩
  · show 0 ≤ rv m ∧ rv m ≤ rv x
    rw [hv]
    exact ⟨le_rfl, h0⟩
  · show 0 ≤ rv m ∧ rv m ≤ rv x
    rw [hv]
    refine ⟨hy0.le, ?_⟩
    rcases key with h | h | h
    · exact h.2
    · obtain ⟨_, hy⟩ := hy; rw [h] at hy; cases hy
    · obtain ⟨_, hy⟩ := hy; rw [h] at hy; cases hy

/-- The computed probabilities. -/
theorem probs_ok {u D : F32} (hu : Fin' u) (hD : Fin' D) (h1 : 1 ≤ rv D) (h2 : rv D ≤ rv u) (h3 : 1 < rv u) (h4 : rv u ≤ 2 ^ 126) :
    let p := (D - 1 / u) / (u - 1 / u)
    Fin' p ∧ 0 ≤ rv p ∧ rv p ≤ 1 ∧ Fin' (1 - p) ∧ 0 ≤ rv (1 - p) ∧ rv (1 - p) + rv p ≤ 1 + ν := by
  dsimp only
  have one := one_ok
  have hν := ν_pos
  have hνl := ν_le
  have u0 : rv u ≠ 0 := by linarith
  have q0 : 0 ≤ 1 / rv u := by positivity
  have q1 : 1 / rv u ≤ 1 := (div_le_one (by linarith)).2 h3.le
  obtain ⟨fd, -⟩ := div_ok one.1 hu u0 (by rw [one.2, abs_of_nonneg q0]; exact lt_of_le_of_lt q1 (by norm_num))
  have d0 : 0 ≤ rv (1 / u) := by
    have := div_near one.1 hu u0 fd 0 zero_ok.1
    rw [zero_ok.2, one.2] at this
    exact near_ge this q0
  have d1 : rv (1 / u) ≤ 1 := by
    have := div_near one.1 hu u0 fd 1 one.1
    rw [one.2] at this
    exact near_le this q1
  generalize 1 / u = d at *
  have nb : ∀ y : ℝ, 0 ≤ y → y ≤ 2 ^ 126 → |y| < 2 ^ 127 := fun y h h' => by
    rw [abs_of_nonneg h]
    exact lt_of_le_of_lt h' (by norm_num)
  obtain ⟨fn, -⟩ := sub_ok hD fd (nb _ (by linarith) (by linarith))
  obtain ⟨fe, ee⟩ := sub_ok hu fd (nb _ (by linarith) (by linarith))
  have hmono := sub_mono hD hu fd fn fe (by linarith) h2
  have n0 : 0 ≤ rv (D - d) := by
    have := sub_near hD fd fn 0 zero_ok.1
    rw [zero_ok.2] at this
    exact near_ge this (by linarith)
  have e0 : 0 < rv (u - d) := by
    rw [abs_of_nonneg (by linarith : (0 : ℝ) ≤ rv u - rv d)] at ee
    have := (abs_le.1 ee).1
    nlinarith
  have r0 : 0 ≤ rv (D - d) / rv (u - d) := by positivity
  have r1 : rv (D - d) / rv (u - d) ≤ 1 := (div_le_one e0).2 hmono
  obtain ⟨fp, -⟩ := div_ok fn fe e0.ne' (nb _ r0 (r1.trans (by norm_num)))
  have p0 : 0 ≤ rv ((D - d) / (u - d)) := by
    have := div_near fn fe e0.ne' fp 0 zero_ok.1
    rw [zero_ok.2] at this
    exact near_ge this r0
  have p1 : rv ((D - d) / (u - d)) ≤ 1 := by
    have := div_near fn fe e0.ne' fp 1 one.1
    rw [one.2] at this
    exact near_le this r1
  generalize (D - d) / (u - d) = p at *
  obtain ⟨fq, eq⟩ := sub_ok one.1 fp (by rw [one.2]; exact nb _ (by linarith) (le_trans (by linarith : 1 - rv p ≤ 1) (by norm_num)))
  have q0 : 0 ≤ rv (1 - p) := by
    have := sub_near one.1 fp fq 0 zero_ok.1
    rw [zero_ok.2, one.2] at this
    exact near_ge this (by linarith)
  refine ⟨fp, p0, p1, fq, q0, ?_⟩
  rw [one.2, abs_of_nonneg (by linarith : (0 : ℝ) ≤ 1 - rv p)] at eq
  have := (abs_le.1 eq).2
  nlinarith

/-! ### One step back -/

/-- The weighted sum of two nodes. -/
theorem mix_ok {q p a b : F32} (hq : Fin' q) (hp : Fin' p) (ha : Fin' a) (hb : Fin' b) (q0 : 0 ≤ rv q) (p0 : 0 ≤ rv p) (hpq : rv q + rv p ≤ 1 + ν)
    (a0 : 0 ≤ rv a) (b0 : 0 ≤ rv b) (a1 : rv a ≤ 2 ^ 125) (b1 : rv b ≤ 2 ^ 125) :
    let S := q * a + p * b
    let W := rv q * rv a + rv p * rv b
    Fin' S ∧ 0 ≤ rv S ∧ (1 - ν) ^ 2 * W - 2 * η ≤ rv S ∧ rv S ≤ (1 + ν) ^ 2 * W + 2 * (1 + ν) * η ∧ 0 ≤ W ∧ W ≤ (1 + ν) * 2 ^ 125 := by
  intro S W
  have hν := ν_pos
  have hνl := ν_le
  have hη := η_pos
  have hηl : η ≤ 1 := by unfold η; norm_num
  have t1 : rv q * rv a ≤ rv q * 2 ^ 125 := mul_le_mul_of_nonneg_left a1 q0
  have t2 : rv p * rv b ≤ rv p * 2 ^ 125 := mul_le_mul_of_nonneg_left b1 p0
  have w1 : 0 ≤ rv q * rv a := mul_nonneg q0 a0
  have w2 : 0 ≤ rv p * rv b := mul_nonneg p0 b0
  have hW : W ≤ (1 + ν) * 2 ^ 125 := by
    have : rv q * 2 ^ 125 + rv p * 2 ^ 125 = (rv q + rv p) * 2 ^ 125 := by ring
    have : (rv q + rv p) * 2 ^ 125 ≤ (1 + ν) * 2 ^ 125 := mul_le_mul_of_nonneg_right hpq (by positivity)
    show rv q * rv a + rv p * rv b ≤ _
    linarith
  have hWn : W ≤ 2 ^ 126 := hW.trans (by
    have : (1 + ν) ≤ 2 := by linarith
    calc (1 + ν) * 2 ^ 125 ≤ 2 * 2 ^ 125 := by nlinarith
      _ = 2 ^ 126 := by norm_num)
  have eW : W = rv q * rv a + rv p * rv b := rfl
  obtain ⟨f1, m1⟩ := mul_ok hq ha (by rw [abs_of_nonneg w1]; exact lt_of_le_of_lt (by linarith : _ ≤ (2 : ℝ) ^ 126) (by norm_num))
  obtain ⟨f2, m2⟩ := mul_ok hp hb (by rw [abs_of_nonneg w2]; exact lt_of_le_of_lt (by linarith : _ ≤ (2 : ℝ) ^ 126) (by norm_num))
  have z1 : 0 ≤ rv (q * a) := by
    have := mul_near hq ha f1 0 zero_ok.1
    rw [zero_ok.2] at this
    exact near_ge this w1
  have z2 : 0 ≤ rv (p * b) := by
    have := mul_near hp hb f2 0 zero_ok.1
    rw [zero_ok.2] at this
    exact near_ge this w2
  rw [abs_of_nonneg w1] at m1
  rw [abs_of_nonneg w2] at m2
  have m1 := abs_le.1 m1
  have m2 := abs_le.1 m2
  have eS : S = q * a + p * b := rfl
  clear_value S W
  generalize q * a = x at *
  generalize p * b = y at *
  have u1 : rv x + rv y ≤ (1 + ν) * W + 2 * η := by rw [eW]; nlinarith [m1.2, m2.2]
  have u2 : (1 - ν) * W - 2 * η ≤ rv x + rv y := by rw [eW]; nlinarith [m1.1, m2.1]
  have W0 : 0 ≤ W := by rw [eW]; linarith
  obtain ⟨fs, es⟩ := add_ok f1 f2 (by
    rw [abs_of_nonneg (by linarith)]
    have : (1 + ν) * W ≤ (1 + 1 / 16000000) * 2 ^ 126 := mul_le_mul (by linarith) hWn W0 (by norm_num)
    refine lt_of_le_of_lt (u1.trans (add_le_add this (by linarith : 2 * η ≤ 2))) (by norm_num))
  rw [abs_of_nonneg (by linarith : 0 ≤ rv x + rv y)] at es
  have es := abs_le.1 es
  have s1 : rv S ≤ (1 + ν) * (rv x + rv y) := by rw [eS]; linarith [es.2]
  have s2 : (1 - ν) * (rv x + rv y) ≤ rv S := by rw [eS]; linarith [es.1]
  have n1 : 0 ≤ 1 - ν := by linarith
  refine ⟨eS ▸ fs, (mul_nonneg n1 (by linarith)).trans s2, ?_, ?_, W0, hW⟩
  · have := mul_le_mul_of_nonneg_left u2 n1
    nlinarith
  · have := mul_le_mul_of_nonneg_left u1 (by linarith : 0 ≤ 1 + ν)
    nlinarith

/-- What one step back must satisfy: `c` relative errors and some absolute ones. -/
def BackStep (c : Nat) (q p D : ℝ) (f : F32 → F32 → F32) : Prop :=
  ∀ a b, Fin' a → Fin' b → 0 ≤ rv a → 0 ≤ rv b → rv a ≤ 2 ^ 125 → rv b ≤ 2 ^ 125 →
    Fin' (f a b) ∧ 0 ≤ rv (f a b) ∧ (1 - ν) ^ c * ((q * rv a + p * rv b) / D) - 3 * η ≤ rv (f a b) ∧
    rv (f a b) ≤ (1 + ν) ^ c * ((q * rv a + p * rv b) / D) + 3 * (1 + ν) ^ c * η

theorem step_div {q p D : F32} (hq : Fin' q) (hp : Fin' p) (hD : Fin' D) (q0 : 0 ≤ rv q) (p0 : 0 ≤ rv p) (hpq : rv q + rv p ≤ 1 + ν) (D1 : 1 ≤ rv D) :
    BackStep 3 (rv q) (rv p) (rv D) fun a b => (q * a + p * b) / D := by
  intro a b ha hb a0 b0 a1 b1
  dsimp only
  have hν := ν_pos
  have hνl := ν_le
  have hη := η_pos
  have hηl : η ≤ 1 := by unfold η; norm_num
  obtain ⟨fs, s0, s1, s2, W0, hW⟩ := mix_ok hq hp ha hb q0 p0 hpq a0 b0 a1 b1
  generalize q * a + p * b = S at *
  generalize rv q * rv a + rv p * rv b = W at *
  have D0 : 0 < rv D := by linarith
  have r0 : 0 ≤ rv S / rv D := by positivity
  have r1 : rv S / rv D ≤ rv S := div_le_self s0 D1
  have s3 : rv S ≤ (2 : ℝ) ^ 126 := by
    refine s2.trans ?_
    have h1 : (1 + ν) ^ 2 * W ≤ (1 + 1 / 16000000) ^ 2 * ((1 + 1 / 16000000) * 2 ^ 125) :=
      mul_le_mul (pow_le_pow_left₀ (by linarith) (by linarith) 2) (hW.trans (by gcongr)) W0 (by norm_num)
    have h2 : 2 * (1 + ν) * η ≤ 4 := by nlinarith
    refine (add_le_add h1 h2).trans (by norm_num)
  obtain ⟨fv, ev⟩ := div_ok fs hD D0.ne' (by rw [abs_of_nonneg r0]; exact lt_of_le_of_lt (r1.trans s3) (by norm_num))
  have v0 : 0 ≤ rv (S / D) := by
    have := div_near fs hD D0.ne' fv 0 zero_ok.1
    rw [zero_ok.2] at this
    exact near_ge this r0
  rw [abs_of_nonneg r0] at ev
  have ev := abs_le.1 ev
  have w0 : 0 ≤ W / rv D := by positivity
  have k1 : rv S / rv D ≤ (1 + ν) ^ 2 * (W / rv D) + 2 * (1 + ν) * η := by
    rw [div_le_iff₀ D0, add_mul, mul_assoc, div_mul_cancel₀ _ D0.ne']
    have : 2 * (1 + ν) * η ≤ 2 * (1 + ν) * η * rv D := le_mul_of_one_le_right (by positivity) D1
    linarith
  have k2 : (1 - ν) ^ 2 * (W / rv D) - 2 * η ≤ rv S / rv D := by
    rw [le_div_iff₀ D0, sub_mul, mul_assoc, div_mul_cancel₀ _ D0.ne']
    have : 2 * η ≤ 2 * η * rv D := le_mul_of_one_le_right (by positivity) D1
    linarith
  refine ⟨fv, v0, ?_, ?_⟩
  · have h := mul_le_mul_of_nonneg_left k2 (by linarith : 0 ≤ 1 - ν)
    have : (1 - ν) * ((1 - ν) ^ 2 * (W / rv D) - 2 * η) = (1 - ν) ^ 3 * (W / rv D) - 2 * η + 2 * ν * η := by ring
    have : 0 ≤ 2 * ν * η := by positivity
    linarith [ev.1]
  · have h := mul_le_mul_of_nonneg_left k1 (by linarith : 0 ≤ 1 + ν)
    have e1 : (1 + ν) * ((1 + ν) ^ 2 * (W / rv D) + 2 * (1 + ν) * η) = (1 + ν) ^ 3 * (W / rv D) + 2 * (1 + ν) ^ 2 * η := by ring
    have e2 : (1 + ν) ^ 2 * η ≤ (1 + ν) ^ 3 * η := mul_le_mul_of_nonneg_right (pow_le_pow_right₀ (by linarith) (by norm_num)) hη.le
    have e3 : η ≤ (1 + ν) ^ 3 * η := le_mul_of_one_le_left hη.le (one_le_pow₀ (by linarith))
    linarith [ev.2]

theorem step_mul {q p D : F32} (hq : Fin' q) (hp : Fin' p) (hD : Fin' D) (q0 : 0 ≤ rv q) (p0 : 0 ≤ rv p) (hpq : rv q + rv p ≤ 1 + ν) (D1 : 1 ≤ rv D)
    (D2 : rv D ≤ 2 ^ 126) : BackStep 4 (rv q) (rv p) (rv D) fun a b => (q * a + p * b) * (1 / D) := by
  intro a b ha hb a0 b0 a1 b1
  dsimp only
  have hν := ν_pos
  have hνl := ν_le
  have hη := η_pos
  have hηl : η ≤ 1 := by unfold η; norm_num
  have D0 : 0 < rv D := by linarith
  have i0 : 0 < 1 / rv D := by positivity
  have i1 : 1 / rv D ≤ 1 := (div_le_one D0).2 D1
  obtain ⟨fi, ei⟩ := div_rel one_ok.1 hD D0.ne' (by rw [one_ok.2, abs_of_pos i0]; exact lt_of_le_of_lt i1 (by norm_num))
    (by rw [one_ok.2, abs_of_pos i0]; exact one_div_le_one_div_of_le D0 D2)
  have i2 : rv (1 / D) ≤ 1 := by
    have := div_near one_ok.1 hD D0.ne' fi 1 one_ok.1
    rw [one_ok.2] at this
    exact near_le this i1
  rw [one_ok.2, abs_of_pos i0] at ei
  have ei := abs_le.1 ei
  obtain ⟨fs, s0, s1, s2, W0, hW⟩ := mix_ok hq hp ha hb q0 p0 hpq a0 b0 a1 b1
  generalize q * a + p * b = S at *
  generalize rv q * rv a + rv p * rv b = W at *
  generalize (1 : F32) / D = I at *
  have I0 : 0 < rv I := by nlinarith [ei.1]
  have r0 : 0 ≤ rv S * rv I := by positivity
  have r1 : rv S * rv I ≤ rv S := mul_le_of_le_one_right s0 i2
  have s3 : rv S ≤ (2 : ℝ) ^ 126 := by
    refine s2.trans ?_
    have h1 : (1 + ν) ^ 2 * W ≤ (1 + 1 / 16000000) ^ 2 * ((1 + 1 / 16000000) * 2 ^ 125) :=
      mul_le_mul (pow_le_pow_left₀ (by linarith) (by linarith) 2) (hW.trans (by gcongr)) W0 (by norm_num)
    have h2 : 2 * (1 + ν) * η ≤ 4 := by nlinarith
    refine (add_le_add h1 h2).trans (by norm_num)
  obtain ⟨fv, ev⟩ := mul_ok fs fi (by rw [abs_of_nonneg r0]; exact lt_of_le_of_lt (r1.trans s3) (by norm_num))
  have v0 : 0 ≤ rv (S * I) := by
    have := mul_near fs fi fv 0 zero_ok.1
    rw [zero_ok.2] at this
    exact near_ge this r0
  rw [abs_of_nonneg r0] at ev
  have ev := abs_le.1 ev
  have w0 : 0 ≤ W / rv D := by positivity
  have k1 : rv S * rv I ≤ (1 + ν) ^ 3 * (W / rv D) + 2 * (1 + ν) ^ 2 * η := by
    have h1 : rv S * rv I ≤ ((1 + ν) ^ 2 * W + 2 * (1 + ν) * η) * ((1 + ν) * (1 / rv D)) :=
      mul_le_mul s2 (by linarith [ei.2]) I0.le (by positivity)
    have e1 : ((1 + ν) ^ 2 * W + 2 * (1 + ν) * η) * ((1 + ν) * (1 / rv D)) = (1 + ν) ^ 3 * (W / rv D) + 2 * (1 + ν) ^ 2 * η * (1 / rv D) := by ring
    have : 2 * (1 + ν) ^ 2 * η * (1 / rv D) ≤ 2 * (1 + ν) ^ 2 * η := mul_le_of_le_one_right (by positivity) i1
    linarith
  have k2 : (1 - ν) ^ 3 * (W / rv D) - 2 * η ≤ rv S * rv I := by
    have h1 : rv S * ((1 - ν) * (1 / rv D)) ≤ rv S * rv I := mul_le_mul_of_nonneg_left (by linarith [ei.1]) s0
    have h2 : ((1 - ν) ^ 2 * W - 2 * η) * ((1 - ν) * (1 / rv D)) ≤ rv S * ((1 - ν) * (1 / rv D)) :=
      mul_le_mul_of_nonneg_right s1 (mul_nonneg (by linarith) i0.le)
    have e1 : ((1 - ν) ^ 2 * W - 2 * η) * ((1 - ν) * (1 / rv D)) = (1 - ν) ^ 3 * (W / rv D) - 2 * η * ((1 - ν) * (1 / rv D)) := by ring
    have : 2 * η * ((1 - ν) * (1 / rv D)) ≤ 2 * η := mul_le_of_le_one_right (by positivity) (mul_le_one₀ (by linarith) i0.le i1)
    linarith
  refine ⟨fv, v0, ?_, ?_⟩
  · have h := mul_le_mul_of_nonneg_left k2 (by linarith : 0 ≤ 1 - ν)
    have : (1 - ν) * ((1 - ν) ^ 3 * (W / rv D) - 2 * η) = (1 - ν) ^ 4 * (W / rv D) - 2 * η + 2 * ν * η := by ring
    have : 0 ≤ 2 * ν * η := by positivity
    linarith [ev.1]
  · have h := mul_le_mul_of_nonneg_left k1 (by linarith : 0 ≤ 1 + ν)
    have e1 : (1 + ν) * ((1 + ν) ^ 3 * (W / rv D) + 2 * (1 + ν) ^ 2 * η) = (1 + ν) ^ 4 * (W / rv D) + 2 * (1 + ν) ^ 3 * η := by ring
    have e2 : (1 + ν) ^ 3 * η ≤ (1 + ν) ^ 4 * η := mul_le_mul_of_nonneg_right (pow_le_pow_right₀ (by linarith) (by norm_num)) hη.le
    have e3 : η ≤ (1 + ν) ^ 4 * η := le_mul_of_one_le_left hη.le (one_le_pow₀ (by linarith))
    linarith [ev.2]

/-! ### All steps -/

theorem pow_up (k : Nat) (h : (k : ℝ) * ν < 1) : (1 + ν) ^ k ≤ 1 / (1 - k * ν) := by
  have hν := ν_pos
  have hνl := ν_le
  rw [le_div_iff₀ (by linarith)]
  have h1 : 1 - k * ν ≤ (1 - ν) ^ k := by
    have := one_add_mul_le_pow (a := -ν) (by linarith) k
    rw [← sub_eq_add_neg] at this
    linarith
  calc (1 + ν) ^ k * (1 - k * ν) ≤ (1 + ν) ^ k * (1 - ν) ^ k := mul_le_mul_of_nonneg_left h1 (by positivity)
    _ = (1 - ν ^ 2) ^ k := by rw [← mul_pow]; ring_nf
    _ ≤ 1 := pow_le_one₀ (by nlinarith) (by nlinarith)

theorem pow_down (k : Nat) : 1 - k * ν ≤ (1 - ν) ^ k := by
  have hν := ν_pos
  have hνl := ν_le
  have := one_add_mul_le_pow (a := -ν) (by linarith) k
  rw [← sub_eq_add_neg] at this
  linarith

theorem level_eq_of {β : Type} (f : β → β → β) {v w : Nat → β} (m k : Nat) (h : ∀ j, k ≤ j → j ≤ k + m → v j = w j) : level f v m k = level f w m k := by
  induction m generalizing k with
  | zero => exact h k le_rfl le_rfl
  | succ m ih => rw [level, level, ih k fun j h1 h2 => h j h1 (by omega), ih (k + 1) fun j h1 h2 => h j (by omega) (by omega)]

/-- The lattice of floats against the lattice of real numbers with the same leaves. -/
theorem lattice_float {c : Nat} {q p D : ℝ} (q0 : 0 ≤ q) (p0 : 0 ≤ p) (hpq : q + p ≤ 1 + ν) (D1 : 1 ≤ D) {f : F32 → F32 → F32} (hf : BackStep c q p D f)
    {v : Nat → F32} (hv : ∀ j, Fin' (v j) ∧ 0 ≤ rv (v j) ∧ rv (v j) ≤ 2 ^ 120) (m k : Nat) (hm : (c + 1) * m ≤ 4000000) :
    let E := level (fun a b => (q * a + p * b) / D) (fun j => rv (v j)) m k
    let L := level f v m k
    Fin' L ∧ 0 ≤ rv L ∧ 0 ≤ E ∧ E ≤ (1 + ν) ^ m * 2 ^ 120 ∧ (1 - ν) ^ (c * m) * E - 4 * m * η ≤ rv L ∧
      rv L ≤ (1 + ν) ^ (c * m) * E + 4 * m * (1 + ν) ^ ((c + 1) * m) * η := by
  have hν := ν_pos
  have hνl := ν_le
  have hη := η_pos
  have hηl : η ≤ 1 / 10 ^ 36 := by unfold η; norm_num
  have hD0 : 0 < D := by linarith
  have n1 : 0 ≤ 1 - ν := by linarith
  have n2 : 0 < 1 + ν := by linarith
  induction m generalizing k with
  | zero =>
    intro E L
    obtain ⟨h1, h2, h3⟩ := hv k
    simp only [E, L, level, pow_zero, one_mul, mul_zero, Nat.cast_zero, zero_mul, sub_zero, add_zero]
    exact ⟨h1, h2, h2, h3, le_rfl, le_rfl⟩
  | succ m ih =>
    have hm' : (c + 1) * m ≤ 4000000 := by rw [Nat.mul_succ] at hm; omega
    obtain ⟨fa, a0, ea0, ea1, la, ua⟩ := ih k hm'
    obtain ⟨fb, b0, eb0, eb1, lb, ub⟩ := ih (k + 1) hm'
    intro E L
    have hE : E = (q * level (fun a b => (q * a + p * b) / D) (fun j => rv (v j)) m k + p * level (fun a b => (q * a + p * b) / D) (fun j => rv (v j)) m (k + 1)) / D := rfl
    have hL : L = f (level f v m k) (level f v m (k + 1)) := rfl
    clear_value E L
    generalize level (fun a b => (q * a + p * b) / D) (fun j => rv (v j)) m k = Ea at *
    generalize level (fun a b => (q * a + p * b) / D) (fun j => rv (v j)) m (k + 1) = Eb at *
    generalize level f v m k = A at *
    generalize level f v m (k + 1) = B at *
    -- no overflow
    have hP : (1 + ν) ^ ((c + 1) * m) ≤ 2 := by
      have hk : (((c + 1) * m : Nat) : ℝ) * ν ≤ 1 / 4 := by
        have : (((c + 1) * m : Nat) : ℝ) ≤ 4000000 := by exact_mod_cast hm'
        nlinarith
      refine (pow_up _ (by linarith)).trans ?_
      rw [div_le_iff₀ (by linarith)]
      linarith
    have hPs : (1 + ν) ^ (c * m) * (1 + ν) ^ m = (1 + ν) ^ ((c + 1) * m) := by rw [← pow_add]; congr 1; ring
    have hm1 : (m : ℝ) ≤ 4000000 := by
      have : m ≤ (c + 1) * m := Nat.le_mul_of_pos_left m (by omega)
      exact_mod_cast this.trans hm'
    have habs : 4 * m * (1 + ν) ^ ((c + 1) * m) * η ≤ 1 := by
      have : 4 * m * (1 + ν) ^ ((c + 1) * m) ≤ 32000000 := by
        have := mul_le_mul hm1 hP (by positivity) (by norm_num)
        linarith
      calc _ ≤ 32000000 * (1 / 10 ^ 36 : ℝ) := mul_le_mul this hηl hη.le (by norm_num)
        _ ≤ 1 := by norm_num
    have big : ∀ e : ℝ, e ≤ (1 + ν) ^ m * 2 ^ 120 → (1 + ν) ^ (c * m) * e + 4 * m * (1 + ν) ^ ((c + 1) * m) * η ≤ 2 ^ 125 := by
      intro e he
      have h1 : (1 + ν) ^ (c * m) * e ≤ (1 + ν) ^ (c * m) * ((1 + ν) ^ m * 2 ^ 120) := mul_le_mul_of_nonneg_left he (by positivity)
      rw [← mul_assoc, hPs] at h1
      have h2 : (1 + ν) ^ ((c + 1) * m) * 2 ^ 120 ≤ 2 * 2 ^ 120 := mul_le_mul_of_nonneg_right hP (by positivity)
      have : (2 : ℝ) * 2 ^ 120 + 1 ≤ 2 ^ 125 := by norm_num
      linarith
    obtain ⟨fL, L0, l1, l2⟩ := hf A B fa fb a0 b0 (ua.trans (big _ ea1)) (ub.trans (big _ eb1))
    rw [← hL] at fL L0 l1 l2
    have E0 : 0 ≤ E := by rw [hE]; positivity
    have hqD : (q + p) / D ≤ 1 + ν := (div_le_self (by linarith) D1).trans hpq
    refine ⟨fL, L0, E0, ?_, ?_, ?_⟩
    · rw [hE]
      calc (q * Ea + p * Eb) / D ≤ (q * ((1 + ν) ^ m * 2 ^ 120) + p * ((1 + ν) ^ m * 2 ^ 120)) / D := by gcongr
        _ = (q + p) / D * ((1 + ν) ^ m * 2 ^ 120) := by ring
        _ ≤ (1 + ν) * ((1 + ν) ^ m * 2 ^ 120) := mul_le_mul_of_nonneg_right hqD (by positivity)
        _ = _ := by rw [pow_succ]; ring
    · have s1 : (1 - ν) ^ (c * m) * E - (1 + ν) * (4 * m * η) ≤ (q * rv A + p * rv B) / D := by
        have h1 : (q * ((1 - ν) ^ (c * m) * Ea - 4 * m * η) + p * ((1 - ν) ^ (c * m) * Eb - 4 * m * η)) / D ≤ (q * rv A + p * rv B) / D := by gcongr
        have h2 : (q * ((1 - ν) ^ (c * m) * Ea - 4 * m * η) + p * ((1 - ν) ^ (c * m) * Eb - 4 * m * η)) / D = (1 - ν) ^ (c * m) * E - (q + p) / D * (4 * m * η) := by
          rw [hE]; ring
        have h3 : (q + p) / D * (4 * m * η) ≤ (1 + ν) * (4 * m * η) := mul_le_mul_of_nonneg_right hqD (by positivity)
        linarith
      have s2 := mul_le_mul_of_nonneg_left s1 (pow_nonneg n1 c)
      have s3 : (1 - ν) ^ c * ((1 - ν) ^ (c * m) * E) = (1 - ν) ^ (c * (m + 1)) * E := by rw [← mul_assoc, ← pow_add]; congr 2; ring
      have s4 : (1 - ν) ^ c * ((1 + ν) * (4 * m * η)) ≤ (1 + ν) * (4 * m * η) := mul_le_of_le_one_left (by positivity) (pow_le_one₀ n1 (by linarith))
      have s5 : ν * (4 * m * η) ≤ η := by
        have : ν * (4 * m) ≤ 1 := by nlinarith
        calc ν * (4 * m * η) = ν * (4 * m) * η := by ring
          _ ≤ 1 * η := mul_le_mul_of_nonneg_right this hη.le
          _ = η := one_mul _
      push_cast
      rw [mul_sub, s3] at s2
      linarith
    · have s1 : (q * rv A + p * rv B) / D ≤ (1 + ν) ^ (c * m) * E + (1 + ν) * (4 * m * (1 + ν) ^ ((c + 1) * m) * η) := by
        have h1 : (q * rv A + p * rv B) / D ≤ (q * ((1 + ν) ^ (c * m) * Ea + 4 * m * (1 + ν) ^ ((c + 1) * m) * η) +
          p * ((1 + ν) ^ (c * m) * Eb + 4 * m * (1 + ν) ^ ((c + 1) * m) * η)) / D := by gcongr
        have h2 : (q * ((1 + ν) ^ (c * m) * Ea + 4 * m * (1 + ν) ^ ((c + 1) * m) * η) + p * ((1 + ν) ^ (c * m) * Eb + 4 * m * (1 + ν) ^ ((c + 1) * m) * η)) / D =
          (1 + ν) ^ (c * m) * E + (q + p) / D * (4 * m * (1 + ν) ^ ((c + 1) * m) * η) := by
          rw [hE]; ring
        have h3 : (q + p) / D * (4 * m * (1 + ν) ^ ((c + 1) * m) * η) ≤ (1 + ν) * (4 * m * (1 + ν) ^ ((c + 1) * m) * η) := mul_le_mul_of_nonneg_right hqD (by positivity)
        linarith
      have s2 := mul_le_mul_of_nonneg_left s1 (pow_nonneg n2.le c)
      have s3 : (1 + ν) ^ c * ((1 + ν) ^ (c * m) * E) = (1 + ν) ^ (c * (m + 1)) * E := by rw [← mul_assoc, ← pow_add]; congr 2; ring
      have s4 : (1 + ν) ^ c * ((1 + ν) * (4 * m * (1 + ν) ^ ((c + 1) * m) * η)) = 4 * m * (1 + ν) ^ ((c + 1) * (m + 1)) * η := by
        rw [show (c + 1) * (m + 1) = c + 1 + (c + 1) * m by ring, pow_add, pow_succ]; ring
      have s5 : 3 * (1 + ν) ^ c * η ≤ 4 * (1 + ν) ^ ((c + 1) * (m + 1)) * η := by
        have : (1 + ν) ^ c ≤ (1 + ν) ^ ((c + 1) * (m + 1)) := pow_le_pow_right₀ (by linarith) (by nlinarith)
        have : (0 : ℝ) < (1 + ν) ^ c := by positivity
        exact mul_le_mul_of_nonneg_right (by linarith) hη.le
      push_cast
      rw [mul_add, s3, s4] at s2
      linarith

end PackedSimd.Ex.Options
