import Verif.Lemmas.Stencil
import Verif.Lemmas.F32Real
import Verif.Lemmas.LatticeFloat
import Verif.Spec.StencilFloat
/-
The stencil programs in `f32`: how far a cell, and a grid, can be from exact arithmetic.
-/
namespace PackedSimd.Ex.Stencil
open Spec F32R Spec.Ao

/-! ### Counting roundings -/

/-- Slightly more than the relative error of one rounding. -/
noncomputable def μ : ℝ := ν * (1 + 1 / 100000)

theorem μ_pos : 0 < μ := mul_pos ν_pos (by norm_num)
theorem μ_le : μ ≤ 1 / 10000000 := by unfold μ; linarith [ν_le]

/-- `x` is `y` up to `k` roundings of terms whose absolute values sum up to `b`, and an absolute error `a`. -/
structure Apx (k : ℝ) (a : ℝ) (x : F32) (y b : ℝ) : Prop where
  fin : Fin' x
  bound : |y| ≤ b
  err : |rv x - y| ≤ k * μ * b + a

/-- One more rounding. -/
theorem rnd {k a b s v y e : ℝ} (hk0 : 0 ≤ k) (hk : k ≤ 20) (ha : 0 ≤ a) (hy : |y| ≤ b) (hv : |v - y| ≤ k * μ * b + a) (hs : |s - v| ≤ ν * |v| + e) :
    |s - y| ≤ (k + 1) * μ * b + 2 * a + e := by
  have hb : 0 ≤ b := (abs_nonneg _).trans hy
  have hν := ν_pos
  have hνl := ν_le
  have hμ := μ_pos
  have hμl := μ_le
  have h1 : |v| ≤ b + (k * μ * b + a) := by
    have : v = (v - y) + y := by ring
    rw [this]
    exact (abs_add_le _ _).trans (by linarith)
  have h2 : |s - y| ≤ |s - v| + |v - y| := by
    have : s - y = (s - v) + (v - y) := by ring
    rw [this]
    exact abs_add_le _ _
  have h3 : ν * |v| ≤ ν * (b + (k * μ * b + a)) := mul_le_mul_of_nonneg_left h1 hν.le
  have h4 : ν * a ≤ 1 * a := mul_le_mul_of_nonneg_right (by linarith) ha
  have h5 : ν * (1 + k * μ) * b ≤ μ * b := by
    refine mul_le_mul_of_nonneg_right ?_ hb
    unfold μ at hμl ⊢
    refine mul_le_mul_of_nonneg_left ?_ hν.le
    nlinarith
  nlinarith

theorem mag {k a b x y : ℝ} (hk : k ≤ 20) (hy : |y| ≤ b) (hx : |x - y| ≤ k * μ * b + a) : |x| ≤ 2 * b + a := by
  have hb : 0 ≤ b := (abs_nonneg _).trans hy
  have h1 : |x| ≤ |x - y| + |y| := by
    have : x = (x - y) + y := by ring
    conv_lhs => rw [this]
    exact abs_add_le _ _
  have h2 : k * μ * b ≤ 1 * b := mul_le_mul_of_nonneg_right (by nlinarith [μ_le, μ_pos]) hb
  linarith

theorem Apx.exact {x : F32} (hx : Fin' x) {b : ℝ} (hb : |rv x| ≤ b) : Apx 0 0 x (rv x) b := ⟨hx, hb, by simp⟩

theorem Apx.mono {k k' a a' b b' y : ℝ} {x : F32} (h : Apx k a x y b) (hk : k ≤ k') (ha : a ≤ a') (hb : b ≤ b') (hk0 : 0 ≤ k) : Apx k' a' x y b' := by
  refine ⟨h.fin, h.bound.trans hb, h.err.trans ?_⟩
  have h0 : 0 ≤ b := (abs_nonneg _).trans h.bound
  have h1 : k * μ * b ≤ k' * μ * b' := mul_le_mul (mul_le_mul_of_nonneg_right hk μ_pos.le) hb h0 (mul_nonneg (hk0.trans hk) μ_pos.le)
  linarith

theorem Apx.add {k a a' b b' y y' : ℝ} {x x' : F32} (h : Apx k a x y b) (h' : Apx k a' x' y' b') (hk0 : 0 ≤ k) (hk : k ≤ 20) (ha : 0 ≤ a) (ha' : 0 ≤ a')
    (hb : b + b' ≤ 2 ^ 123) (hab : a + a' ≤ 2 ^ 123) : Apx (k + 1) (2 * (a + a')) (x + x') (y + y') (b + b') := by
  have e : |rv x + rv x' - (y + y')| ≤ k * μ * (b + b') + (a + a') := by
    have : rv x + rv x' - (y + y') = (rv x - y) + (rv x' - y') := by ring
    rw [this]
    refine (abs_add_le _ _).trans ?_
    have := h.err
    have := h'.err
    linarith
  have hy : |y + y'| ≤ b + b' := (abs_add_le _ _).trans (add_le_add h.bound h'.bound)
  obtain ⟨f, r⟩ := add_ok h.fin h'.fin (lt_of_le_of_lt (mag hk hy e) (by norm_num at hb hab ⊢; linarith))
  exact ⟨f, hy, (rnd (e := 0) hk0 hk (add_nonneg ha ha') hy e (by linarith)).trans (by linarith)⟩

/-- Multiplying by a float. -/
theorem scale_err {k a b g y c x : ℝ} (hc : |c| ≤ g) (hy : |y| ≤ b) (hx : |x - y| ≤ k * μ * b + a) :
    |c * y| ≤ g * b ∧ |c * x - c * y| ≤ k * μ * (g * b) + g * a := by
  have hg : 0 ≤ g := (abs_nonneg _).trans hc
  refine ⟨?_, ?_⟩
  · rw [abs_mul]
    exact mul_le_mul hc hy (abs_nonneg _) hg
  · rw [← mul_sub, abs_mul]
    refine (mul_le_mul hc hx (abs_nonneg _) hg).trans (le_of_eq ?_)
    ring

theorem Apx.mul {k a b g y : ℝ} {c x : F32} (hc : Fin' c) (hg : |rv c| ≤ g) (h : Apx k a x y b) (hk0 : 0 ≤ k) (hk : k ≤ 20) (ha : 0 ≤ a)
    (hb : g * b ≤ 2 ^ 123) (hab : g * a ≤ 2 ^ 123) : Apx (k + 1) (2 * (g * a) + η) (c * x) (rv c * y) (g * b) := by
  have g0 : 0 ≤ g := (abs_nonneg _).trans hg
  obtain ⟨hy, e⟩ := scale_err hg h.bound h.err
  obtain ⟨f, r⟩ := mul_ok hc h.fin (lt_of_le_of_lt (mag hk hy e) (by norm_num at hb hab ⊢; linarith))
  exact ⟨f, hy, (rnd hk0 hk (mul_nonneg g0 ha) hy e r).trans (le_of_eq (by ring))⟩

theorem Apx.fma {fma : F32 → F32 → F32 → F32} (hma : MulAddOk fma) {k a a' b b' g y w : ℝ} {c x z : F32} (hc : Fin' c) (hg : |rv c| ≤ g)
    (h : Apx k a x y b) (h' : Apx k a' z w b') (hk0 : 0 ≤ k) (hk : k ≤ 19) (ha : 0 ≤ a) (ha' : 0 ≤ a')
    (hb : g * b ≤ 2 ^ 123) (hab : g * a ≤ 2 ^ 123) (hb' : b' ≤ 2 ^ 123) (hab' : a' ≤ 2 ^ 123) :
    Apx (k + 2) (4 * (g * a) + 2 * a' + 3 * η) (fma c x z) (rv c * y + w) (g * b + b') := by
  have g0 : 0 ≤ g := (abs_nonneg _).trans hg
  have hη := η_pos
  obtain ⟨hy, e⟩ := scale_err hg h.bound h.err
  obtain ⟨f, p, h1, h2⟩ := ma_ok hma hc h.fin h'.fin ((mag (hk.trans (by norm_num)) hy e).trans (by norm_num at hb hab ⊢; linarith))
    ((mag (hk.trans (by norm_num)) h'.bound h'.err).trans (by norm_num at hb' hab' ⊢; linarith))
  have e1 := rnd hk0 (hk.trans (by norm_num)) (mul_nonneg g0 ha) hy e h1
  have hs : |rv c * y + w| ≤ g * b + b' := (abs_add_le _ _).trans (add_le_add hy h'.bound)
  have b0 : 0 ≤ b' := (abs_nonneg _).trans h'.bound
  have e2 : |p + rv z - (rv c * y + w)| ≤ (k + 1) * μ * (g * b + b') + (2 * (g * a) + η + a') := by
    have : p + rv z - (rv c * y + w) = (p - rv c * y) + (rv z - w) := by ring
    rw [this]
    refine (abs_add_le _ _).trans ?_
    have := h'.err
    have : 0 ≤ μ * b' := mul_nonneg μ_pos.le b0
    linarith
  have e3 := rnd (by linarith) (by linarith) (by positivity) hs e2 h2
  refine ⟨f, hs, e3.trans (le_of_eq ?_)⟩
  ring

/-! ### One cell -/

/-- The sum of six elements. -/
theorem ring_ok {x1 x2 x3 x4 x5 x6 : F32} {X : ℝ} (h1 : Fin' x1 ∧ |rv x1| ≤ X) (h2 : Fin' x2 ∧ |rv x2| ≤ X) (h3 : Fin' x3 ∧ |rv x3| ≤ X)
    (h4 : Fin' x4 ∧ |rv x4| ≤ X) (h5 : Fin' x5 ∧ |rv x5| ≤ X) (h6 : Fin' x6 ∧ |rv x6| ≤ X) (hX : 6 * X ≤ 2 ^ 123) :
    Apx 5 0 (x1 + x2 + x3 + x4 + x5 + x6) (rv x1 + rv x2 + rv x3 + rv x4 + rv x5 + rv x6) (6 * X) := by
  have hX0 : 0 ≤ X := (abs_nonneg _).trans h1.2
  have E : ∀ {x : F32} (k : ℝ), 0 ≤ k → Fin' x ∧ |rv x| ≤ X → Apx k 0 x (rv x) X := fun k hk h => (Apx.exact h.1 h.2).mono hk le_rfl le_rfl le_rfl
  have a1 := (E 0 le_rfl h1).add (E 0 le_rfl h2) le_rfl (by norm_num) le_rfl le_rfl (by linarith) (by norm_num)
  have a2 := (a1.mono (a' := 0) (k' := 1) (by norm_num) (by norm_num) le_rfl (by norm_num)).add (E 1 (by norm_num) h3) (by norm_num) (by norm_num) le_rfl le_rfl (by linarith) (by norm_num)
  have a3 := (a2.mono (a' := 0) (k' := 2) (by norm_num) (by norm_num) le_rfl (by norm_num)).add (E 2 (by norm_num) h4) (by norm_num) (by norm_num) le_rfl le_rfl (by linarith) (by norm_num)
  have a4 := (a3.mono (a' := 0) (k' := 3) (by norm_num) (by norm_num) le_rfl (by norm_num)).add (E 3 (by norm_num) h5) (by norm_num) (by norm_num) le_rfl le_rfl (by linarith) (by norm_num)
  have a5 := (a4.mono (a' := 0) (k' := 4) (by norm_num) (by norm_num) le_rfl (by norm_num)).add (E 4 (by norm_num) h6) (by norm_num) (by norm_num) le_rfl le_rfl (by linarith) (by norm_num)
  exact a5.mono (by norm_num) (by norm_num) (by linarith) (by norm_num)

/-- The whole update, as the vector programs compute it: 13 roundings, of terms that sum up to `(2 + V C) X + o`. -/
theorem cell_ok {fma : F32 → F32 → F32 → F32} (hma : MulAddOk fma) {c0 c1 c2 c3 v x r1 r2 r3 two m1 old : F32} {y1 y2 y3 X V o g0 g1 g2 g3 : ℝ}
    (hc0 : Fin' c0 ∧ |rv c0| = g0) (hc1 : Fin' c1 ∧ |rv c1| = g1) (hc2 : Fin' c2 ∧ |rv c2| = g2) (hc3 : Fin' c3 ∧ |rv c3| = g3)
    (hv : Fin' v ∧ |rv v| ≤ V) (hx : Fin' x ∧ |rv x| ≤ X) (htwo : Fin' two ∧ rv two = 2) (hm1 : Fin' m1 ∧ rv m1 = -1) (ho : Fin' old ∧ |rv old| ≤ o)
    (h1 : Apx 5 0 r1 y1 (6 * X)) (h2 : Apx 5 0 r2 y2 (6 * X)) (h3 : Apx 5 0 r3 y3 (6 * X)) (hV : V ≤ 2 ^ 64)
    (hC : (g0 + 6 * (g1 + g2 + g3)) * X ≤ 2 ^ 122)
    (hA : (2 + V * (g0 + 6 * (g1 + g2 + g3))) * X + o ≤ 2 ^ 122) :
    Apx 13 ((116 * V + 13) * η) (fma v (fma c3 r3 (fma c2 r2 (fma c1 r1 (c0 * x)))) (fma x two (m1 * old)))
      (2 * rv x - rv old + rv v * (rv c0 * rv x + rv c1 * y1 + rv c2 * y2 + rv c3 * y3)) ((2 + V * (g0 + 6 * (g1 + g2 + g3))) * X + o) := by
  have hη := η_pos
  have hη1 : η ≤ 1 / 2 ^ 100 := by unfold η; norm_num
  have p0 : 0 ≤ g0 := hc0.2 ▸ abs_nonneg _
  have p1 : 0 ≤ g1 := hc1.2 ▸ abs_nonneg _
  have p2 : 0 ≤ g2 := hc2.2 ▸ abs_nonneg _
  have p3 : 0 ≤ g3 := hc3.2 ▸ abs_nonneg _
  have pX : 0 ≤ X := (abs_nonneg _).trans hx.2
  have pV : 0 ≤ V := (abs_nonneg _).trans hv.2
  have po : 0 ≤ o := (abs_nonneg _).trans ho.2
  have q0 : 0 ≤ g0 * X := mul_nonneg p0 pX
  have q1 : 0 ≤ g1 * X := mul_nonneg p1 pX
  have q2 : 0 ≤ g2 * X := mul_nonneg p2 pX
  have q3 : 0 ≤ g3 * X := mul_nonneg p3 pX
  have hC' : g0 * X + 6 * (g1 * X) + 6 * (g2 * X) + 6 * (g3 * X) ≤ 2 ^ 122 := le_trans (le_of_eq (by ring)) hC
  have hCV : 0 ≤ V * ((g0 + 6 * (g1 + g2 + g3)) * X) := mul_nonneg pV (mul_nonneg (by linarith) pX)
  have hA' : 2 * X + V * ((g0 + 6 * (g1 + g2 + g3)) * X) + o ≤ 2 ^ 122 := le_trans (le_of_eq (by ring)) hA
  have ηV : V * (29 * η) ≤ 1 := by
    refine (mul_le_mul hV (mul_le_mul_of_nonneg_left hη1 (by norm_num)) (by positivity) (by norm_num)).trans (by norm_num)
  have hηs : 29 * η ≤ 1 := by
    have : (1 : ℝ) / 2 ^ 100 ≤ 1 / 100 := by norm_num
    linarith
  have d0 := Apx.mul hc0.1 hc0.2.le (Apx.exact hx.1 hx.2) le_rfl (by norm_num) le_rfl (by norm_num at hC' ⊢; linarith) (by norm_num)
  have d1 := Apx.fma hma hc1.1 hc1.2.le h1 (d0.mono (k' := 5) (a' := η) (by norm_num) (by norm_num) le_rfl (by norm_num)) (by norm_num) (by norm_num) le_rfl hη.le
    (by norm_num at hC' ⊢; linarith) (by norm_num) (by norm_num at hC' ⊢; linarith) (by norm_num; linarith)
  have d2 := Apx.fma hma hc2.1 hc2.2.le (h2.mono (k' := 7) (by norm_num) le_rfl le_rfl (by norm_num))
    (d1.mono (k' := 7) (a' := 5 * η) (by norm_num) (by linarith) le_rfl (by norm_num)) (by norm_num) (by norm_num) le_rfl (by linarith)
    (by norm_num at hC' ⊢; linarith) (by norm_num) (by norm_num at hC' ⊢; linarith) (by norm_num; linarith)
  have d3 := Apx.fma hma hc3.1 hc3.2.le (h3.mono (k' := 9) (by norm_num) le_rfl le_rfl (by norm_num))
    (d2.mono (k' := 9) (a' := 13 * η) (by norm_num) (by linarith) le_rfl (by norm_num)) (by norm_num) (by norm_num) le_rfl (by linarith)
    (by norm_num at hC' ⊢; linarith) (by norm_num) (by norm_num at hC' ⊢; linarith) (by norm_num; linarith)
  have s0 := Apx.mul (g := 1) hm1.1 (by rw [hm1.2]; norm_num) (Apx.exact ho.1 ho.2) le_rfl (by norm_num) le_rfl (by norm_num at hA' ⊢; linarith) (by norm_num)
  have s1 := Apx.fma hma hx.1 hx.2 ((Apx.exact htwo.1 (b := 2) (by rw [htwo.2]; norm_num)).mono (k' := 1) (by norm_num) le_rfl le_rfl le_rfl)
    (s0.mono (k' := 1) (a' := η) (by norm_num) (by norm_num) le_rfl (by norm_num)) (by norm_num) (by norm_num) le_rfl hη.le
    (by norm_num at hA' ⊢; linarith) (by norm_num) (by norm_num at hA' ⊢; linarith) (by norm_num; linarith)
  have f := Apx.fma hma hv.1 hv.2 (d3.mono (k' := 11) (a' := 29 * η) (by norm_num) (by linarith) le_rfl (by norm_num))
    (s1.mono (k' := 11) (a' := 5 * η) (by norm_num) (by linarith) le_rfl (by norm_num)) (by norm_num) (by norm_num) (by linarith) (by linarith)
    (by rw [show V * (g3 * (6 * X) + (g2 * (6 * X) + (g1 * (6 * X) + g0 * X))) = V * ((g0 + 6 * (g1 + g2 + g3)) * X) by ring]; norm_num at hA' ⊢; linarith)
    (ηV.trans (by norm_num)) (by norm_num at hA' ⊢; linarith) (by norm_num; linarith)
  have f' := f.mono (k' := 13) (a' := (116 * V + 13) * η) (b' := (2 + V * (g0 + 6 * (g1 + g2 + g3))) * X + o) (by norm_num) (by linarith) (by linarith)
    (by norm_num)
  refine ⟨f'.fin, ?_, ?_⟩
  · have := f'.bound
    rw [htwo.2, hm1.2] at this
    convert this using 2
    ring
  · have := f'.err
    rw [htwo.2, hm1.2] at this
    convert this using 2
    ring

theorem elem_map {l : List F32} {d : F32} (hd : rv d = 2) (k : Int) : elem 2 (l.map toReal) k = rv (elem d l k) := by
  unfold elem
  rw [← hd]
  exact List.getD_map ..

theorem elem_within {l : List F32} {b : ℝ} (h : Within b l) {d : F32} {k : Int} (h0 : 0 ≤ k) (h1 : k < l.length) : Fin' (elem d l k) ∧ |rv (elem d l k)| ≤ b := by
  unfold elem
  rw [List.getD_eq_getElem _ _ (by omega)]
  exact h _ (List.getElem_mem _)

theorem two_ok : Fin' (F32.ofInt 2) ∧ rv (F32.ofInt 2) = 2 := by
  have h : valueOf 23 (F32.ofInt 2).bits = .num (2 ^ 150) := by decide +kernel
  refine ⟨⟨_, h⟩, ?_⟩
  unfold rv
  rw [realVal_num h, show low 32 23 = 149 by decide]
  norm_num
theorem negOne_ok : Fin' (F32.ofInt (-1)) ∧ rv (F32.ofInt (-1)) = -1 := by
  have h : valueOf 23 (F32.ofInt (-1)).bits = .num (-2 ^ 149) := by decide +kernel
  refine ⟨⟨_, h⟩, ?_⟩
  unfold rv
  rw [realVal_num h, show low 32 23 = 149 by decide]
  norm_num

/-- One cell of the vector programs. -/
theorem newValueSimd_ok {E : Env F32} {V : ℝ} (T : Tame E V) {nxy j : Int} {N : Nat} (hI : Inner E nxy j 1 N) {aIn : List F32} (ha : aIn.length = N)
    (hvl : E.vsq.length = N) {X o : ℝ} (hX : Within X aIn) {old : F32} (ho : Fin' old ∧ |rv old| ≤ o) (hX6 : 6 * X ≤ 2 ^ 122)
    (hC : weight E.coef * X ≤ 2 ^ 122) (hA : (2 + V * weight E.coef) * X + o ≤ 2 ^ 122) :
    Apx 13 ((116 * V + 13) * η) (newValueSimd E nxy aIn j old)
      (newValue 2 (exactEnv E).coef E.nx nxy (elem 2 (exactEnv E).vsq) (elem 2 (aIn.map toReal)) j (rv old)) ((2 + V * weight E.coef) * X + o) := by
  obtain ⟨h1, h2, h3, h4, h5, h6⟩ := hI
  obtain ⟨ht, hm, hma, hcf, hvsq, -, hV⟩ := T
  have e2 : rv E.two = 2 := by rw [ht]; exact two_ok.2
  have hX6' : 6 * X ≤ 2 ^ 123 := hX6.trans (by norm_num)
  have el : ∀ k : Int, j - 3 * nxy ≤ k → k ≤ j + 3 * nxy → Fin' (elem E.two aIn k) ∧ |rv (elem E.two aIn k)| ≤ X :=
    fun k a b => elem_within hX (by omega) (by omega)
  have R : ∀ i : Int, i = 1 ∨ i = 2 ∨ i = 3 → Apx 5 0 (elem E.two aIn (j + i) + elem E.two aIn (j - i) + elem E.two aIn (j + i * E.nx) +
      elem E.two aIn (j - i * E.nx) + elem E.two aIn (j + i * nxy) + elem E.two aIn (j - i * nxy)) (rv (elem E.two aIn (j + i)) + rv (elem E.two aIn (j - i)) +
      rv (elem E.two aIn (j + i * E.nx)) + rv (elem E.two aIn (j - i * E.nx)) + rv (elem E.two aIn (j + i * nxy)) + rv (elem E.two aIn (j - i * nxy))) (6 * X) := by
    intro i hi
    rcases hi with rfl | rfl | rfl <;>
    exact ring_ok (el _ (by omega) (by omega)) (el _ (by omega) (by omega)) (el _ (by omega) (by omega)) (el _ (by omega) (by omega))
      (el _ (by omega) (by omega)) (el _ (by omega) (by omega)) hX6'
  have hc := cell_ok hma ⟨hcf 0 (by omega), rfl⟩ ⟨hcf 1 (by omega), rfl⟩ ⟨hcf 2 (by omega), rfl⟩ ⟨hcf 3 (by omega), rfl⟩
    (elem_within hvsq (d := E.two) (k := j) (by omega) (by omega)) (el j (by omega) (by omega)) (ht ▸ two_ok) (hm ▸ negOne_ok) ho (R 1 (.inl rfl))
    (R 2 (.inr (.inl rfl))) (R 3 (.inr (.inr rfl))) hV hC hA
  unfold newValueSimd newValue laplacian exactEnv
  simp only [elem_map e2, Vector.getElem_map]
  exact hc

/-! ### Exact time steps -/

theorem six_diff {x1 x2 x3 x4 x5 x6 y1 y2 y3 y4 y5 y6 e : ℝ} (h1 : |x1 - y1| ≤ e) (h2 : |x2 - y2| ≤ e) (h3 : |x3 - y3| ≤ e) (h4 : |x4 - y4| ≤ e)
    (h5 : |x5 - y5| ≤ e) (h6 : |x6 - y6| ≤ e) : |(x1 + x2 + x3 + x4 + x5 + x6) - (y1 + y2 + y3 + y4 + y5 + y6)| ≤ 6 * e := by
  rw [abs_le] at *
  constructor <;> linarith

/-- The new value of a cell depends linearly on the grids. -/
theorem newValue_diff {coef : Vector ℝ 4} {nx nxy j : Int} {vsq a a' : Int → ℝ} {old old' V e o : ℝ} (hnx : 1 ≤ nx) (hnxy : nx ≤ nxy) (hv : |vsq j| ≤ V)
    (ha : ∀ k, j - 3 * nxy ≤ k → k ≤ j + 3 * nxy → |a k - a' k| ≤ e) (ho : |old - old'| ≤ o) :
    |newValue 2 coef nx nxy vsq a j old - newValue 2 coef nx nxy vsq a' j old'| ≤
      ((2 : ℝ) + V * (|coef[0]| + (6 : ℝ) * (|coef[1]| + |coef[2]| + |coef[3]|))) * e + o := by
  have R : ∀ i : Int, i = 1 ∨ i = 2 ∨ i = 3 → |(a (j + i) + a (j - i) + a (j + i * nx) + a (j - i * nx) + a (j + i * nxy) + a (j - i * nxy)) -
      (a' (j + i) + a' (j - i) + a' (j + i * nx) + a' (j - i * nx) + a' (j + i * nxy) + a' (j - i * nxy))| ≤ 6 * e := by
    intro i hi
    rcases hi with rfl | rfl | rfl <;>
    exact six_diff (ha _ (by omega) (by omega)) (ha _ (by omega) (by omega)) (ha _ (by omega) (by omega)) (ha _ (by omega) (by omega))
      (ha _ (by omega) (by omega)) (ha _ (by omega) (by omega))
  have e0 := ha j (by omega) (by omega)
  have he : 0 ≤ e := (abs_nonneg _).trans e0
  have hV : 0 ≤ V := (abs_nonneg _).trans hv
  unfold newValue laplacian
  dsimp only
  have R1 := R 1 (.inl rfl)
  have R2 := R 2 (.inr (.inl rfl))
  have R3 := R 3 (.inr (.inr rfl))
  generalize a (j + 1) + a (j - 1) + a (j + 1 * nx) + a (j - 1 * nx) + a (j + 1 * nxy) + a (j - 1 * nxy) = r1 at *
  generalize a' (j + 1) + a' (j - 1) + a' (j + 1 * nx) + a' (j - 1 * nx) + a' (j + 1 * nxy) + a' (j - 1 * nxy) = s1 at *
  generalize a (j + 2) + a (j - 2) + a (j + 2 * nx) + a (j - 2 * nx) + a (j + 2 * nxy) + a (j - 2 * nxy) = r2 at *
  generalize a' (j + 2) + a' (j - 2) + a' (j + 2 * nx) + a' (j - 2 * nx) + a' (j + 2 * nxy) + a' (j - 2 * nxy) = s2 at *
  generalize a (j + 3) + a (j - 3) + a (j + 3 * nx) + a (j - 3 * nx) + a (j + 3 * nxy) + a (j - 3 * nxy) = r3 at *
  generalize a' (j + 3) + a' (j - 3) + a' (j + 3 * nx) + a' (j - 3 * nx) + a' (j + 3 * nxy) + a' (j - 3 * nxy) = s3 at *
  have m : ∀ {c d f : ℝ}, |d| ≤ f → |c * d| ≤ |c| * f := fun h => by rw [abs_mul]; exact mul_le_mul_of_nonneg_left h (abs_nonneg _)
  have hL : |coef[0] * (a j - a' j) + coef[1] * (r1 - s1) + coef[2] * (r2 - s2) + coef[3] * (r3 - s3)| ≤
      (|coef[0]| + (6 : ℝ) * (|coef[1]| + |coef[2]| + |coef[3]|)) * e := by
    refine (abs_add_le _ _).trans ?_
    have h1 := abs_add_le (coef[0] * (a j - a' j) + coef[1] * (r1 - s1)) (coef[2] * (r2 - s2))
    have h2 := abs_add_le (coef[0] * (a j - a' j)) (coef[1] * (r1 - s1))
    have h3 := m (c := coef[0]) e0
    have h4 := m (c := coef[1]) R1
    have h5 := m (c := coef[2]) R2
    have h6 := m (c := coef[3]) R3
    linarith
  have e1 : (2 : ℝ) * a j - old + vsq j * (coef[0] * a j + coef[1] * r1 + coef[2] * r2 + coef[3] * r3) -
      ((2 : ℝ) * a' j - old' + vsq j * (coef[0] * a' j + coef[1] * s1 + coef[2] * s2 + coef[3] * s3)) =
      (2 : ℝ) * (a j - a' j) + (old' - old) + vsq j * (coef[0] * (a j - a' j) + coef[1] * (r1 - s1) + coef[2] * (r2 - s2) + coef[3] * (r3 - s3)) := by ring
  rw [e1]
  refine (abs_add_le _ _).trans ?_
  have h1 := abs_add_le (2 * (a j - a' j)) (old' - old)
  have h2 : |2 * (a j - a' j)| ≤ 2 * e := by
    have := m (c := 2) e0
    rwa [abs_of_pos (by norm_num : (0 : ℝ) < 2)] at this
  have h3 : |old' - old| ≤ o := by rwa [abs_sub_comm]
  have h4 : |vsq j * (coef[0] * (a j - a' j) + coef[1] * (r1 - s1) + coef[2] * (r2 - s2) + coef[3] * (r3 - s3))| ≤
      V * ((|coef[0]| + (6 : ℝ) * (|coef[1]| + |coef[2]| + |coef[3]|)) * e) := by
    rw [abs_mul]
    exact mul_le_mul hv hL (abs_nonneg _) hV
  linarith

theorem newValue_bound {coef : Vector ℝ 4} {nx nxy j : Int} {vsq a : Int → ℝ} {old V e o : ℝ} (hnx : 1 ≤ nx) (hnxy : nx ≤ nxy) (hv : |vsq j| ≤ V)
    (ha : ∀ k, j - 3 * nxy ≤ k → k ≤ j + 3 * nxy → |a k| ≤ e) (ho : |old| ≤ o) :
    |newValue 2 coef nx nxy vsq a j old| ≤ ((2 : ℝ) + V * (|coef[0]| + (6 : ℝ) * (|coef[1]| + |coef[2]| + |coef[3]|))) * e + o := by
  have := newValue_diff (coef := coef) (vsq := vsq) (a := a) (a' := fun _ => 0) (old' := 0) hnx hnxy hv (fun k p q => by simpa using ha k p q) (by simpa using ho)
  have z : newValue 2 coef nx nxy vsq (fun _ => 0) j 0 = 0 := by simp [newValue, laplacian]
  rwa [z, sub_zero] at this

/-! ### One step -/

/-- `l` follows `l'`, whose elements are at most `b`, up to `e`. -/
structure Tracks (N : Nat) (b e : ℝ) (l : List F32) (l' : List ℝ) : Prop where
  len : l.length = N
  len' : l'.length = N
  at' : ∀ (k : Nat) (h : k < l.length) (h' : k < l'.length), Fin' l[k] ∧ |l'[k]| ≤ b ∧ |rv l[k] - l'[k]| ≤ e

theorem Tracks.mono {N : Nat} {b e b' e' : ℝ} {l : List F32} {l' : List ℝ} (h : Tracks N b e l l') (hb : b ≤ b') (he : e ≤ e') : Tracks N b' e' l l' :=
  ⟨h.len, h.len', fun k p q => ⟨(h.at' k p q).1, (h.at' k p q).2.1.trans hb, (h.at' k p q).2.2.trans he⟩⟩

theorem Tracks.within {N : Nat} {b e : ℝ} {l : List F32} {l' : List ℝ} (h : Tracks N b e l l') : Within (b + e) l := by
  intro x hx
  obtain ⟨k, hk, rfl⟩ := List.getElem_of_mem hx
  obtain ⟨h1, h2, h3⟩ := h.at' k hk (by rw [h.len', ← h.len]; exact hk)
  refine ⟨h1, ?_⟩
  have e1 : toReal l[k] = (rv l[k] - l'[k]'(by rw [h.len', ← h.len]; exact hk)) + l'[k]'(by rw [h.len', ← h.len]; exact hk) := by
    show rv l[k] = _
    ring
  rw [e1]
  exact (abs_add_le _ _).trans (by linarith)

theorem exact_geometry {E : Env F32} {z0 z1 nz : Int} (G : Geometry E z0 z1 nz) : Geometry (exactEnv E) z0 z1 nz := by
  obtain ⟨g1, g2, g3, g4, g5, g6, g7, g8, g9, g10, g11, g12⟩ := G
  exact ⟨g1, g2, g3, g4, g5, g6, g7, g8, g9, g10, g11, by simpa [exactEnv] using g12⟩

theorem weight_nonneg (c : Vector F32 4) : 0 ≤ weight c := by unfold weight; positivity

/-- The error of one step: what the errors so far grow to, and 15 roundings of the largest value. -/
theorem step_ok {E : Env F32} {V : ℝ} (T : Tame E V) {z0 z1 nz : Int} (G : Geometry E z0 z1 nz) {N : Nat} (hN : N = (E.nx * E.ny * nz).toNat)
    {X o e f B : ℝ} {cur old out : List F32} {cur' old' : List ℝ} (hc : Tracks N X e cur cur') (ho : Tracks N o f old old')
    (hu : Updates (fun j old => newValueSimd E (E.nx * E.ny) cur j old) (InBox E z0 z1) old out)
    (hXo : o ≤ X) (he : 0 ≤ e) (hf : 0 ≤ f) (he1 : e ≤ X / 100) (hf1 : f ≤ o / 100) (hB : (2 + V * weight E.coef) * X + o ≤ B) (hV0 : 0 ≤ V)
    (hbig : (weight E.coef + 8) * B ≤ 2 ^ 120) (hsm : 1 / 2 ^ 50 ≤ B) :
    ∃ out', TimeStep (exactEnv E) z0 z1 cur' old' out' ∧ Tracks N B ((2 + V * weight E.coef) * e + f + 15 * ν * B) out out' := by
  have hw := weight_nonneg E.coef
  have hoB : 0 ≤ o := by linarith
  have hX0 : 0 ≤ X := by linarith
  have hVw : 0 ≤ V * weight E.coef := mul_nonneg hV0 hw
  have hVwX : 0 ≤ V * weight E.coef * X := mul_nonneg hVw hX0
  have hVwe : 0 ≤ V * weight E.coef * e := mul_nonneg hVw he
  have hXB : X ≤ B := by linarith
  have hB0 : 0 ≤ B := by linarith
  have hwX : weight E.coef * X ≤ weight E.coef * B := mul_le_mul_of_nonneg_left hXB hw
  have hwB : 0 ≤ weight E.coef * B := mul_nonneg hw hB0
  have hwe : weight E.coef * e ≤ weight E.coef * (X / 100) := mul_le_mul_of_nonneg_left he1 hw
  have hν := ν_pos
  have hη := η_pos
  have hμ := μ_pos
  subst hN
  obtain ⟨out', -, hu'⟩ := stepScalar_ok (exact_geometry G) (aIn := cur') (aOut := old') hc.len' ho.len'
  refine ⟨out', hu', by rw [hu.length, ho.len], by rw [hu'.length, ho.len'], fun j hj hj' => ?_⟩
  have hjo : j < old.length := by rw [← hu.length]; exact hj
  have hjo' : j < old'.length := by rw [← hu'.length]; exact hj'
  obtain ⟨o1, o2, o3⟩ := ho.at' j hjo hjo'
  have hBν : 0 ≤ 15 * ν * B := by positivity
  by_cases hb : InBox E z0 z1 j
  swap
  · have e1 := hu.miss j hb
    have e2 := hu'.miss j hb
    rw [List.getElem?_eq_getElem hj, List.getElem?_eq_getElem hjo, Option.some_inj] at e1
    rw [List.getElem?_eq_getElem hj', List.getElem?_eq_getElem hjo', Option.some_inj] at e2
    rw [e1, e2]
    exact ⟨o1, o2.trans (by linarith), o3.trans (by linarith)⟩
  have e1 := hu.hit j hb
  have e2 := hu'.hit j hb
  rw [List.getElem?_eq_getElem hj, List.getElem?_eq_getElem hjo, Option.map_some, Option.some_inj] at e1
  rw [List.getElem?_eq_getElem hj', List.getElem?_eq_getElem hjo', Option.map_some, Option.some_inj] at e2
  rw [e1, e2]
  obtain ⟨x, y, z, b1, b2, b3, b4, b5, b6, b7⟩ := hb
  obtain ⟨hI, -, -, -⟩ := inner_of (x := x) (m := 1) G b5 b6 b3 b4 (by have := G.hx0; omega) (by have := G.hx1; omega) (le_refl 1)
  rw [← b7] at hI
  have ho' : Fin' old[j] ∧ |rv old[j]| ≤ o + f := ho.within _ (List.getElem_mem _)
  have hA1 : (2 + V * weight E.coef) * (X + e) + (o + f) ≤ 101 / 100 * B := by
    have : V * weight E.coef * e ≤ V * weight E.coef * (X / 100) := mul_le_mul_of_nonneg_left he1 hVw
    linarith
  have hB1 : B ≤ 2 ^ 117 := by
    have : 8 * B ≤ 2 ^ 120 := by linarith
    norm_num at this ⊢
    linarith
  have L := newValueSimd_ok T hI hc.len G.hvsq hc.within ho' (by norm_num at hB1 ⊢; linarith) (by norm_num at hbig ⊢; linarith) (hA1.trans (by norm_num at hB1 ⊢; linarith))
  have nb : ∀ k : Int, (j : Int) - 3 * (E.nx * E.ny) ≤ k → k ≤ j + 3 * (E.nx * E.ny) → 0 ≤ k ∧ k.toNat < cur.length ∧ k.toNat < cur'.length := by
    intro k p q
    have := hI.hlo
    have := hI.hhi
    have := hc.len
    have := hc.len'
    omega
  have hv : |elem 2 (exactEnv E).vsq j| ≤ V := by
    show |elem 2 (E.vsq.map toReal) j| ≤ V
    rw [elem_map (d := E.two) (by rw [T.two]; exact two_ok.2)]
    exact (elem_within T.vsq (by omega) (by have := hI.hhi; have := hI.hnx; have := hI.hnxy; have := G.hvsq; omega)).2
  have D := newValue_diff (coef := (exactEnv E).coef) (vsq := elem 2 (exactEnv E).vsq) (a := elem 2 (cur.map toReal)) (a' := elem 2 cur') (old := rv old[j])
    (old' := old'[j]) (e := e) (o := f) hI.hnx hI.hnxy hv (fun k p q => by
      obtain ⟨q0, q1, q2⟩ := nb k p q
      unfold elem
      rw [List.getD_eq_getElem _ _ (by rw [List.length_map]; exact q1), List.getD_eq_getElem _ _ q2, List.getElem_map]
      exact (hc.at' _ q1 q2).2.2) o3
  have Bd := newValue_bound (coef := (exactEnv E).coef) (vsq := elem 2 (exactEnv E).vsq) (a := elem 2 cur') (old := old'[j]) (e := X) (o := o)
    hI.hnx hI.hnxy hv (fun k p q => by
      obtain ⟨q0, q1, q2⟩ := nb k p q
      unfold elem
      rw [List.getD_eq_getElem _ _ q2]
      exact (hc.at' _ q1 q2).2.1) o2
  have hwt : |(exactEnv E).coef[0]| + (6 : ℝ) * (|(exactEnv E).coef[1]| + |(exactEnv E).coef[2]| + |(exactEnv E).coef[3]|) = weight E.coef := by
    unfold exactEnv weight
    simp only [Vector.getElem_map]
  rw [hwt] at D Bd
  refine ⟨L.fin, Bd.trans hB, ?_⟩
  have tri : rv (newValueSimd E (E.nx * E.ny) cur j old[j]) - newValue 2 (exactEnv E).coef E.nx (E.nx * E.ny) (elem 2 (exactEnv E).vsq) (elem 2 cur') j old'[j] =
      (rv (newValueSimd E (E.nx * E.ny) cur j old[j]) - newValue 2 (exactEnv E).coef E.nx (E.nx * E.ny) (elem 2 (exactEnv E).vsq) (elem 2 (cur.map toReal)) j (rv old[j])) +
      (newValue 2 (exactEnv E).coef E.nx (E.nx * E.ny) (elem 2 (exactEnv E).vsq) (elem 2 (cur.map toReal)) j (rv old[j]) -
        newValue 2 (exactEnv E).coef E.nx (E.nx * E.ny) (elem 2 (exactEnv E).vsq) (elem 2 cur') j old'[j]) := by ring
  show |rv (newValueSimd E (E.nx * E.ny) cur j old[j]) - newValue 2 (exactEnv E).coef E.nx (E.nx * E.ny) (elem 2 (exactEnv E).vsq) (elem 2 cur') j old'[j]| ≤ _
  rw [tri]
  refine (abs_add_le _ _).trans ?_
  have hL := L.err
  have h1 : 13 * μ * ((2 + V * weight E.coef) * (X + e) + (o + f)) ≤ 13 * μ * (101 / 100 * B) := mul_le_mul_of_nonneg_left hA1 (by positivity)
  have h2 : 13 * μ * (101 / 100 * B) ≤ 14 * ν * B := by
    unfold μ
    have : 0 ≤ ν * B := by positivity
    linarith
  have h3 : (116 * V + 13) * η ≤ ν * B := by
    have h4 : (116 * V + 13) * η ≤ (116 * 2 ^ 64 + 13) * η := mul_le_mul_of_nonneg_right (by have := T.small; linarith) hη.le
    have h5 : ν * (1 / 2 ^ 50) ≤ ν * B := mul_le_mul_of_nonneg_left hsm hν.le
    refine h4.trans (le_trans ?_ h5)
    unfold η ν
    norm_num
  linarith

/-! ### Whole runs -/

theorem reads_even {α : Type} {t : Int} (h : t % 2 = 0) (s : List α × List α) : reads t s = s.1 ∧ writes t s = s.2 ∧ reads (t + 1) s = s.2 ∧ writes (t + 1) s = s.1 := by
  unfold reads writes
  simp only [if_pos h, if_neg (show ¬ (t + 1) % 2 = 0 by omega), and_self]
theorem reads_odd {α : Type} {t : Int} (h : ¬ t % 2 = 0) (s : List α × List α) : reads t s = s.2 ∧ writes t s = s.1 ∧ reads (t + 1) s = s.1 ∧ writes (t + 1) s = s.2 := by
  unfold reads writes
  simp only [if_neg h, if_pos (show (t + 1) % 2 = 0 by omega), and_self]

/-- The grids after `k` steps. -/
def After (N : Nat) (M ρ : ℝ) (k : Nat) (t : Int) (s : List F32 × List F32) (s' : List ℝ × List ℝ) : Prop :=
  Tracks N (M * ρ ^ (k + 1)) (15 * k * ν * (M * ρ ^ (k + 1))) (reads t s) (reads t s') ∧
  Tracks N (M * ρ ^ k) (15 * k * ν * (M * ρ ^ k)) (writes t s) (writes t s')

theorem after_step {E : Env F32} {V : ℝ} (T : Tame E V) {z0 z1 nz : Int} (G : Geometry E z0 z1 nz) {N : Nat} (hN : N = (E.nx * E.ny * nz).toNat) (hV0 : 0 ≤ V)
    {M ρ : ℝ} (hM : 1 / 2 ^ 50 ≤ M) (hρ : 1 ≤ ρ) (hA : (2 + V * weight E.coef) * ρ + 1 ≤ ρ ^ 2) {k : Nat}
    (hbig : (weight E.coef + 8) * (M * ρ ^ (k + 2)) ≤ 2 ^ 120) {cur old out : List F32} {cur' old' : List ℝ}
    (hc : Tracks N (M * ρ ^ (k + 1)) (15 * k * ν * (M * ρ ^ (k + 1))) cur cur') (ho : Tracks N (M * ρ ^ k) (15 * k * ν * (M * ρ ^ k)) old old')
    (hu : Updates (fun j old => newValueSimd E (E.nx * E.ny) cur j old) (InBox E z0 z1) old out) :
    ∃ out', TimeStep (exactEnv E) z0 z1 cur' old' out' ∧
      Tracks N (M * ρ ^ (k + 1 + 1)) (15 * (k + 1 : Nat) * ν * (M * ρ ^ (k + 1 + 1))) out out' ∧
      Tracks N (M * ρ ^ (k + 1)) (15 * (k + 1 : Nat) * ν * (M * ρ ^ (k + 1))) cur cur' := by
  have hw := weight_nonneg E.coef
  have hVw : 0 ≤ V * weight E.coef := mul_nonneg hV0 hw
  have hν := ν_pos
  have hM0 : 0 < M := lt_of_lt_of_le (by norm_num) hM
  have hρ2 : 2 ≤ ρ := by
    by_contra h
    push Not at h
    nlinarith
  have hP : 0 < M * ρ ^ k := by positivity
  have e1 : M * ρ ^ (k + 1) = M * ρ ^ k * ρ := by rw [pow_succ]; ring
  have e2 : M * ρ ^ (k + 2) = M * ρ ^ k * ρ ^ 2 := by rw [pow_add]; ring
  have hk : (k : ℝ) ≤ 1000 := by
    by_contra h
    push Not at h
    have hk' : 200 ≤ k := by
      have : (200 : ℝ) < k := by linarith
      exact_mod_cast this.le
    have h1 : (2 : ℝ) ^ 200 ≤ ρ ^ (k + 2) := (pow_le_pow_right₀ (by norm_num) (by omega : 200 ≤ k + 2)).trans (pow_le_pow_left₀ (by norm_num) hρ2 _)
    have h2 : 1 / 2 ^ 50 * (2 : ℝ) ^ 200 ≤ M * ρ ^ (k + 2) := mul_le_mul hM h1 (by positivity) hM0.le
    have h3 : 8 * (M * ρ ^ (k + 2)) ≤ 2 ^ 120 := by
      have : 0 ≤ weight E.coef * (M * ρ ^ (k + 2)) := by positivity
      linarith
    norm_num at h2 h3
    linarith
  have hkν : 15 * k * ν ≤ 1 / 100 := by
    have : 15 * (k : ℝ) * ν ≤ 15 * 1000 * (1 / 16000000) := mul_le_mul (by linarith) ν_le hν.le (by norm_num)
    linarith
  have hkν0 : 0 ≤ 15 * (k : ℝ) * ν := by positivity
  have hB1 : M * ρ ^ k ≤ M * ρ ^ (k + 1) := by rw [e1]; exact le_mul_of_one_le_right hP.le hρ
  have hstep := step_ok T G hN (B := M * ρ ^ (k + 2)) hc ho hu hB1 (by positivity) (by positivity)
    (by have := mul_le_mul_of_nonneg_right hkν (show 0 ≤ M * ρ ^ (k + 1) by positivity); linarith)
    (by have := mul_le_mul_of_nonneg_right hkν hP.le; linarith)
    (by
      rw [e1, e2]
      have := mul_le_mul_of_nonneg_left hA hP.le
      linarith) hV0 hbig (by
        rw [e2]
        refine hM.trans ?_
        have : 1 ≤ ρ ^ k := one_le_pow₀ hρ
        have h2 : 1 ≤ ρ ^ 2 := one_le_pow₀ hρ
        rw [mul_assoc]
        exact le_mul_of_one_le_right hM0.le (one_le_mul_of_one_le_of_one_le this h2))
  obtain ⟨out', h1, h2⟩ := hstep
  refine ⟨out', h1, h2.mono le_rfl ?_, hc.mono le_rfl ?_⟩
  · show _ ≤ 15 * ((k + 1 : Nat) : ℝ) * ν * (M * ρ ^ (k + 2))
    have := mul_le_mul_of_nonneg_left hA (mul_nonneg hkν0 hP.le)
    rw [e1, e2]
    push_cast
    linarith
  · refine mul_le_mul_of_nonneg_right (mul_le_mul_of_nonneg_right ?_ hν.le) (by positivity)
    push_cast
    linarith

theorem run_float {E : Env F32} {V : ℝ} (T : Tame E V) {z0 z1 nz : Int} (G : Geometry E z0 z1 nz) {N : Nat} (hN : N = (E.nx * E.ny * nz).toNat) (hV0 : 0 ≤ V)
    {M ρ : ℝ} (hM : 1 / 2 ^ 50 ≤ M) (hρ : 1 ≤ ρ) (hA : (2 + V * weight E.coef) * ρ + 1 ≤ ρ ^ 2) {K : Nat}
    (hbig : (weight E.coef + 8) * (M * ρ ^ (K + 1)) ≤ 2 ^ 120) (step : Int → List F32 → List F32 → R (List F32))
    (hstep : ∀ t aIn aOut, aIn.length = N → aOut.length = N → ∃ out, step t aIn aOut = .ok out ∧
      Updates (fun j old => newValueSimd E (E.nx * E.ny) aIn j old) (InBox E z0 z1) aOut out) :
    ∀ (m k : Nat) (t : Int) (s : List F32 × List F32) (s' : List ℝ × List ℝ), k + m ≤ K → After N M ρ k t s s' →
      ∃ r r', ((List.range m).map fun (k : Nat) => t + (k : Int)).foldlM (fun (s : List F32 × List F32) t =>
        if t % 2 = 0 then do return (s.1, ← step t s.1 s.2) else do return (← step t s.2 s.1, s.2)) s = .ok r ∧
        Evolves (exactEnv E) z0 z1 t m s' r' ∧ After N M ρ (k + m) (t + m) r r'
  | 0, k, t, s, s', _, h => ⟨s, s', rfl, .zero t s', by simpa using h⟩
  | m + 1, k, t, s, s', hK, h => by
    rw [List.range_succ_eq_map, List.map_cons, List.map_map, List.foldlM_cons, Int.natCast_zero, Int.add_zero,
      show ((fun (k : Nat) => t + (k : Int)) ∘ Nat.succ) = fun (k : Nat) => (t + 1) + (k : Int) by funext k; simp; omega]
    have hM0 : 0 < M := lt_of_lt_of_le (by norm_num) hM
    have hb : (weight E.coef + 8) * (M * ρ ^ (k + 2)) ≤ 2 ^ 120 := by
      refine le_trans ?_ hbig
      have := weight_nonneg E.coef
      exact mul_le_mul_of_nonneg_left (mul_le_mul_of_nonneg_left (pow_le_pow_right₀ hρ (by omega)) hM0.le) (by linarith)
    obtain ⟨h1, h2⟩ := h
    by_cases ht : t % 2 = 0
    · rw [(reads_even ht s).1, (reads_even ht s').1] at h1
      rw [(reads_even ht s).2.1, (reads_even ht s').2.1] at h2
      obtain ⟨o, e, u⟩ := hstep t s.1 s.2 h1.len h2.len
      obtain ⟨o', u', a1, a2⟩ := after_step T G hN hV0 hM hρ hA hb h1 h2 u
      obtain ⟨r, r', e', ev, af⟩ := run_float T G hN hV0 hM hρ hA hbig step hstep m (k + 1) (t + 1) (s.1, o) (s'.1, o') (by omega)
        ⟨by rw [(reads_even ht _).2.2.1, (reads_even ht _).2.2.1]; exact a1, by rw [(reads_even ht _).2.2.2, (reads_even ht _).2.2.2]; exact a2⟩
      refine ⟨r, r', ?_, .even ht u' ev, ?_⟩
      · rw [if_pos ht, e]
        exact e'
      · convert af using 1
        · omega
        · push_cast; omega
    · rw [(reads_odd ht s).1, (reads_odd ht s').1] at h1
      rw [(reads_odd ht s).2.1, (reads_odd ht s').2.1] at h2
      obtain ⟨o, e, u⟩ := hstep t s.2 s.1 h1.len h2.len
      obtain ⟨o', u', a1, a2⟩ := after_step T G hN hV0 hM hρ hA hb h1 h2 u
      obtain ⟨r, r', e', ev, af⟩ := run_float T G hN hV0 hM hρ hA hbig step hstep m (k + 1) (t + 1) (o, s.2) (o', s'.2) (by omega)
        ⟨by rw [(reads_odd ht _).2.2.1, (reads_odd ht _).2.2.1]; exact a1, by rw [(reads_odd ht _).2.2.2, (reads_odd ht _).2.2.2]; exact a2⟩
      refine ⟨r, r', ?_, .odd ht u' ev, ?_⟩
      · rw [if_neg ht, e]
        exact e'
      · convert af using 1
        · omega
        · push_cast; omega

theorem After.start {N : Nat} {M ρ : ℝ} {t : Int} {s : List F32 × List F32} (h1 : s.1.length = N) (h2 : s.2.length = N) (hr : Within (M * ρ) (reads t s))
    (hw : Within M (writes t s)) : After N M ρ 0 t s (s.1.map toReal, s.2.map toReal) := by
  have tr : ∀ {b : ℝ} {l : List F32}, l.length = N → Within b l → Tracks N b 0 l (l.map toReal) := by
    intro b l hl h
    refine ⟨hl, by rw [List.length_map, hl], fun k p q => ?_⟩
    obtain ⟨a1, a2⟩ := h l[k] (List.getElem_mem _)
    rw [List.getElem_map]
    exact ⟨a1, a2, by rw [show rv l[k] = toReal l[k] from rfl, sub_self, abs_zero]⟩
  unfold After
  by_cases ht : t % 2 = 0
  · rw [(reads_even ht s).1] at hr
    rw [(reads_even ht s).2.1] at hw
    rw [(reads_even ht _).1, (reads_even ht _).1, (reads_even ht _).2.1, (reads_even ht _).2.1]
    simpa using And.intro (tr h1 hr) (tr h2 hw)
  · rw [(reads_odd ht s).1] at hr
    rw [(reads_odd ht s).2.1] at hw
    rw [(reads_odd ht _).1, (reads_odd ht _).1, (reads_odd ht _).2.1, (reads_odd ht _).2.1]
    simpa using And.intro (tr h2 hr) (tr h1 hw)

theorem Tracks.close {N : Nat} {b e : ℝ} {l : List F32} {l' : List ℝ} (h : Tracks N b e l l') : Close e l l' :=
  ⟨by rw [h.len, h.len'], fun k p q => ⟨(h.at' k p q).1, (h.at' k p q).2.2⟩⟩

theorem After.close {N : Nat} {M ρ : ℝ} (hM : 0 ≤ M) (hρ : 1 ≤ ρ) {m : Nat} {t : Int} {r : List F32 × List F32} {r' : List ℝ × List ℝ} (h : After N M ρ m t r r') :
    Close (15 * m * ν * (M * ρ ^ (m + 1))) r.1 r'.1 ∧ Close (15 * m * ν * (M * ρ ^ (m + 1))) r.2 r'.2 := by
  have hle : 15 * m * ν * (M * ρ ^ m) ≤ 15 * m * ν * (M * ρ ^ (m + 1)) :=
    mul_le_mul_of_nonneg_left (mul_le_mul_of_nonneg_left (pow_le_pow_right₀ hρ (by omega)) hM) (by have := ν_pos; positivity)
  obtain ⟨h1, h2⟩ := h
  by_cases ht : t % 2 = 0
  · rw [(reads_even ht _).1, (reads_even ht _).1] at h1
    rw [(reads_even ht _).2.1, (reads_even ht _).2.1] at h2
    exact ⟨h1.close, (h2.mono le_rfl hle).close⟩
  · rw [(reads_odd ht _).1, (reads_odd ht _).1] at h1
    rw [(reads_odd ht _).2.1, (reads_odd ht _).2.1] at h2
    exact ⟨(h2.mono le_rfl hle).close, h1.close⟩

/-! ### Initial data -/

theorem ofInt_fin {z : Int} (h : |(z : ℝ)| < 2 ^ 127) : Fin' (F32.ofInt z) := by
  have := (realRound_of fmt (fromInt_rounds fmt z) (v := (z : ℝ)) (by push_cast; field_simp)).1
  exact this.1.2 (lt_of_lt_of_le h overflow_ge)

theorem ofInt_near {z : Int} (h : |(z : ℝ)| < 2 ^ 127) (c : F32) (hc : Fin' c) : |rv (F32.ofInt z) - z| ≤ |rv c - z| :=
  near_of_rounds fmt (fromInt_rounds fmt z) (by push_cast; field_simp) (ofInt_fin h) c.bits hc

theorem ofInt_mono {z z' : Int} (h : |(z : ℝ)| < 2 ^ 127) (h' : |(z' : ℝ)| < 2 ^ 127) (hz : z ≤ z') : rv (F32.ofInt z) ≤ rv (F32.ofInt z') := by
  by_contra hlt
  push Not at hlt
  have h1 := ofInt_near h _ (ofInt_fin h')
  have h2 := ofInt_near h' _ (ofInt_fin h)
  have hne : z < z' := lt_of_le_of_ne hz (by rintro rfl; exact lt_irrefl _ hlt)
  have hne' : (z : ℝ) < z' := by exact_mod_cast hne
  have h3 := sq_le_sq.2 h1
  have h4 := sq_le_sq.2 h2
  nlinarith

theorem ofInt_nonneg {z : Int} (h0 : 0 ≤ z) (h : |(z : ℝ)| < 2 ^ 127) : 0 ≤ rv (F32.ofInt z) :=
  near_ge (c := 0) (by simpa [zero_ok.2] using ofInt_near h 0 zero_ok.1) (by exact_mod_cast h0)

theorem ofInt_pos {z : Int} (h0 : 1 ≤ z) (h : |(z : ℝ)| < 2 ^ 127) : 1 ≤ rv (F32.ofInt z) :=
  near_ge (c := 1) (by simpa [one_ok.2] using ofInt_near h 1 one_ok.1) (by exact_mod_cast h0)

/-- A quotient of two integers is at most one, also when rounded. -/
theorem quot_ok {x n : Int} (h0 : 0 ≤ x) (h1 : x ≤ n) (hn : 1 ≤ n) (h2 : n < 2 ^ 31) : Fin' (F32.ofInt x / F32.ofInt n) ∧ |rv (F32.ofInt x / F32.ofInt n)| ≤ 1 := by
  have bd : ∀ z : Int, 0 ≤ z → z ≤ n → |(z : ℝ)| < 2 ^ 127 := by
    intro z p q
    rw [abs_of_nonneg (by exact_mod_cast p)]
    have : (z : ℝ) < 2 ^ 31 := by exact_mod_cast (by omega : z < 2 ^ 31)
    exact this.trans (by norm_num)
  have bx := bd x h0 h1
  have bn := bd n (by omega) le_rfl
  have p := ofInt_pos hn bn
  have q := ofInt_nonneg h0 bx
  have r := ofInt_mono bx bn h1
  have hq : 0 ≤ rv (F32.ofInt x) / rv (F32.ofInt n) := div_nonneg q (by linarith)
  have hq1 : rv (F32.ofInt x) / rv (F32.ofInt n) ≤ 1 := div_le_one_of_le₀ r (by linarith)
  obtain ⟨f, -⟩ := Options.div_ok (ofInt_fin bx) (ofInt_fin bn) (by linarith) (by rw [abs_of_nonneg hq]; exact lt_of_le_of_lt hq1 (by norm_num))
  refine ⟨f, abs_le.2 ⟨?_, ?_⟩⟩
  · have : (0 : ℝ) ≤ _ := near_ge (c := 0) (by simpa [zero_ok.2] using Options.div_near (ofInt_fin bx) (ofInt_fin bn) (by linarith) f 0 zero_ok.1) hq
    linarith
  · exact near_le (c := 1) (by simpa [one_ok.2] using Options.div_near (ofInt_fin bx) (ofInt_fin bn) (by linarith) f 1 one_ok.1) hq1

/-- Every index belongs to a cell. -/
theorem cell_of {nx ny nz : Int} (hx : 1 ≤ nx) (hy : 1 ≤ ny) {k : Nat} (hk : (k : Int) < nx * ny * nz) :
    ∃ x y z : Nat, (x : Int) < nx ∧ (y : Int) < ny ∧ (z : Int) < nz ∧ (k : Int) = z * (nx * ny) + y * nx + x := by
  have hp : 0 < nx * ny := Int.mul_pos (by omega) (by omega)
  have a1 := Int.emod_add_mul_ediv (k : Int) (nx * ny)
  have a2 := Int.emod_nonneg (k : Int) hp.ne'
  have a3 := Int.emod_lt_of_pos (k : Int) hp
  have a4 : 0 ≤ (k : Int) / (nx * ny) := Int.ediv_nonneg (by omega) hp.le
  have a5 : (k : Int) / (nx * ny) < nz := Int.ediv_lt_of_lt_mul hp (by rw [Int.mul_comm]; exact hk)
  generalize (k : Int) % (nx * ny) = r at *
  generalize (k : Int) / (nx * ny) = z at *
  have b1 := Int.emod_add_mul_ediv r nx
  have b2 := Int.emod_nonneg r (show nx ≠ 0 by omega)
  have b3 := Int.emod_lt_of_pos r (show 0 < nx by omega)
  have b4 : 0 ≤ r / nx := Int.ediv_nonneg a2 (by omega)
  have b5 : r / nx < ny := Int.ediv_lt_of_lt_mul (by omega) (by rw [Int.mul_comm]; exact a3)
  generalize r % nx = x at *
  generalize r / nx = y at *
  obtain ⟨x, rfl⟩ := Int.eq_ofNat_of_zero_le b2
  obtain ⟨y, rfl⟩ := Int.eq_ofNat_of_zero_le b4
  obtain ⟨z, rfl⟩ := Int.eq_ofNat_of_zero_le a4
  refine ⟨x, y, z, b3, b5, a5, ?_⟩
  rw [← a1, ← b1, Int.mul_comm nx (y : Int), Int.mul_comm (nx * ny)]
  omega

theorem initialised_within {nx ny nz : Int} {g : Grid F32} (h : Initialised F32.ofInt nx ny nz g) (hx : 1 ≤ nx) (hy : 1 ≤ ny) (hz : 1 ≤ nz)
    (hN : nx * ny * nz < 2 ^ 31) : Within 1 g.even ∧ Within 0 g.odd ∧ Within 1 g.vsq := by
  have hxy : nx * 1 ≤ nx * ny := Int.mul_le_mul_of_nonneg_left hy (by omega)
  have hyx : ny * 1 ≤ ny * nx := Int.mul_le_mul_of_nonneg_left hx (by omega)
  rw [Int.mul_comm ny nx] at hyx
  have hxyz : nx * ny * 1 ≤ nx * ny * nz := Int.mul_le_mul_of_nonneg_left hz (by omega)
  refine ⟨?_, ?_, ?_⟩
  · intro a ha
    obtain ⟨k, hk, rfl⟩ := List.getElem_of_mem ha
    obtain ⟨x, y, z, h1, h2, h3, h4⟩ := cell_of (nz := nz) hx hy (k := k) (by have := h.even_len; omega)
    have e := h.even x y z h1 h2 h3 k h4
    rw [List.getElem?_eq_getElem hk, Option.some_inj] at e
    rw [e]
    split
    · exact quot_ok (by omega) (by omega) hx (by omega)
    · exact quot_ok (by omega) (by omega) hy (by omega)
  · intro a ha
    obtain ⟨k, hk, rfl⟩ := List.getElem_of_mem ha
    obtain ⟨x, y, z, h1, h2, h3, h4⟩ := cell_of (nz := nz) hx hy (k := k) (by have := h.odd_len; omega)
    have e := h.odd x y z h1 h2 h3 k h4
    rw [List.getElem?_eq_getElem hk, Option.some_inj] at e
    rw [e]
    exact ⟨zero_ok.1, by rw [show toReal 0 = 0 from zero_ok.2, abs_zero]⟩
  · intro a ha
    obtain ⟨k, hk, rfl⟩ := List.getElem_of_mem ha
    obtain ⟨x, y, z, h1, h2, h3, h4⟩ := cell_of (nz := nz) hx hy (k := k) (by have := h.vsq_len; omega)
    have e := h.vsq x y z h1 h2 h3 k h4
    rw [List.getElem?_eq_getElem hk, Option.some_inj] at e
    rw [e]
    refine quot_ok (by positivity) ?_ (by omega) hN
    exact Int.mul_le_mul (Int.mul_le_mul h1.le h2.le (by omega) (by omega)) h3.le (by omega) (by omega)

end PackedSimd.Ex.Stencil
