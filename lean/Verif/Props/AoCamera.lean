import Verif.Lemmas.AoCamera
import Verif.Props.AoCast
/-
examples/aobench/src/{scalar,vector,tiled}.rs in `f32` arithmetic, C138: the rays from the camera.
-/
namespace PackedSimd.Props
open Ex Ex.Ao Spec Spec.Ao F32R Mandel

variable {n : Nat} (ma : F32 → F32 → F32 → F32) (sqrt sqrte sin cos : F32 → F32) (pi : F32) (scp : F32 → F32 × F32)

local notation "F" => f32 ma sqrt sqrte sin cos pi scp

theorem lit2 : Fin' ((F).lit 2) ∧ rv ((F).lit 2) = 2 := by
  have h : valueOf 23 ((F).lit 2).bits = .num (2 ^ 150) := by
    show valueOf 23 (Flt.roundInt 32 23 false (((2 : Rat).num) * 2 ^ 149) ((2 : Rat).den)) = _
    decide +kernel
  refine ⟨⟨_, h⟩, ?_⟩
  unfold rv
  rw [realVal_num h, show low 32 23 = 149 by decide]
  norm_num

theorem lit05 : Fin' ((F).lit 0.5) ∧ rv ((F).lit 0.5) = 1 / 2 := by
  have h : valueOf 23 ((F).lit 0.5).bits = .num (2 ^ 148) := by
    show valueOf 23 (Flt.roundInt 32 23 false (((0.5 : Rat).num) * 2 ^ 149) ((0.5 : Rat).den)) = _
    decide +kernel
  refine ⟨⟨_, h⟩, ?_⟩
  unfold rv
  rw [realVal_num h, show low 32 23 = 149 by decide]
  norm_num

theorem lit_nat (k : Nat) : (F).lit k = ⟨Flt.fromInt 32 23 k⟩ := by
  refine congrArg F32.mk ?_
  show Flt.roundInt 32 23 false ((k : Rat).num * 2 ^ 149) (k : Rat).den = _
  rw [Rat.num_natCast, Rat.den_natCast]
  unfold Flt.roundInt Flt.fromInt
  rw [show low 32 23 = 149 by decide]
  rcases Nat.eq_zero_or_pos k with rfl | hk
  · decide +kernel
  · have h1 : ((k : Int) * 2 ^ 149) ≠ 0 := by positivity
    have h2 : ¬((k : Int) * 2 ^ 149 < 0) := by have : (0 : Int) ≤ (k : Int) * 2 ^ 149 := by positivity
                                               omega
    have h3 : ¬((k : Int) < 0) := by omega
    rw [if_neg h1, decide_eq_false h2, decide_eq_false h3, Int.natAbs_mul]
    rfl

/-- Half the width or height. -/
theorem half_ok {w : F32} {W : ℝ} (fw : Fin' w) (ew : rv w = W) (w1 : 1 ≤ W) (w2 : W ≤ 2 ^ 24) :
    (Fin' (w / (F).lit 2) ∧ |rv (w / (F).lit 2) - W / 2| ≤ 0.51 * (ν * W)) ∧ (Fin' (w * (F).lit 0.5) ∧ |rv (w * (F).lit 0.5) - W / 2| ≤ 0.51 * (ν * W)) := by
  obtain ⟨f2, e2⟩ := lit2 ma sqrt sqrte sin cos pi scp
  obtain ⟨f5, e5⟩ := lit05 ma sqrt sqrte sin cos pi scp
  have hW : |W / 2| = W / 2 := abs_of_pos (by linarith)
  have vw : ν ≤ ν * W := le_mul_of_one_le_right ν_pos.le w1
  have v0 := ν_pos
  have nv : η ≤ ν / 10 ^ 36 := η_le
  have hl : |W / 2| < 2 ^ 127 := by
    rw [hW]
    exact lt_of_le_of_lt (show W / 2 ≤ 2 ^ 24 by linarith) (by norm_num)
  constructor
  · have := Options.div_ok fw f2 (by rw [e2]; norm_num) (by rw [e2, ew]; exact hl)
    rw [e2, ew, hW] at this
    exact ⟨this.1, this.2.trans (by linarith)⟩
  · have := mul_ok fw f5 (by rw [e5, ew, show W * (1 / 2) = W / 2 by ring]; exact hl)
    rw [e5, ew, show W * (1 / 2) = W / 2 by ring, hW] at this
    exact ⟨this.1, this.2.trans (by linarith)⟩

/-- The position of the sample in its pixel. -/
theorem sub_pixel {u ns : F32} {U N : ℝ} (fu : Fin' u) (fn : Fin' ns) (eu : rv u = U) (en : rv ns = N) (u0 : 0 ≤ U) (u1 : U ≤ N) (n1 : 1 ≤ N) (n2 : N ≤ 2 ^ 24) :
    (Fin' (u / ns) ∧ |rv (u / ns) - U / N| ≤ 2.01 * ν) ∧ (Fin' (u * ((F).lit 1 / ns)) ∧ |rv (u * ((F).lit 1 / ns)) - U / N| ≤ 2.01 * ν) := by
  obtain ⟨f1, e1⟩ := lit1_ok ma sqrt sqrte sin cos pi scp
  have N0 : 0 < N := by linarith
  have q0 : 0 ≤ U / N := by positivity
  have q1 : U / N ≤ 1 := (div_le_one N0).2 u1
  have v0 := ν_pos
  have v1 := ν_le
  have nv : η ≤ ν / 10 ^ 36 := η_le
  constructor
  · have := Options.div_ok fu fn (by rw [en]; exact N0.ne') (by rw [eu, en, abs_of_nonneg q0]; exact lt_of_le_of_lt q1 (by norm_num))
    rw [eu, en, abs_of_nonneg q0] at this
    exact ⟨this.1, this.2.trans (by nlinarith)⟩
  · have i0 : 0 < 1 / N := by positivity
    have i1 : 1 / N ≤ 1 := (div_le_one N0).2 n1
    obtain ⟨fi, ei⟩ := Options.div_ok f1 fn (by rw [en]; exact N0.ne') (by rw [e1, en, abs_of_pos i0]; exact lt_of_le_of_lt i1 (by norm_num))
    rw [e1, en, abs_of_pos i0] at ei
    have e : |rv u * rv ((F).lit 1 / ns) - U / N| ≤ 1.0001 * ν := by
      rw [eu, show U * rv ((F).lit 1 / ns) - U / N = U * (rv ((F).lit 1 / ns) - 1 / N) by ring, abs_mul, abs_of_nonneg u0]
      have h1 := mul_le_mul_of_nonneg_left ei u0
      have h2 : U * (ν * (1 / N) + η) = ν * (U / N) + U * η := by ring
      have h3 : U * η ≤ 2 ^ 24 * η := mul_le_mul_of_nonneg_right (u1.trans n2) η_pos.le
      have h4 : 2 ^ 24 * η ≤ 0.0001 * ν := by unfold η ν; norm_num
      have h5 : ν * (U / N) ≤ ν := mul_le_of_le_one_right v0.le q1
      linarith
    have t : |U / N| ≤ 1 := by rw [abs_of_nonneg q0]; exact q1
    obtain ⟨fm, em⟩ := mul_ok fu fi (lt_of_le_of_lt ((abs_near e t).trans (show _ ≤ (2 : ℝ) by linarith)) (by norm_num))
    refine ⟨fm, (round_step em e t).trans ?_⟩
    have : ν * (1 + 1.0001 * ν) ≤ 1.0001 * ν := by nlinarith
    linarith

/-- From the point to the direction. -/
theorem through_of {z : Size} {x y u v : Nat} (h : InImage z x y u v) {p : V3 F32} {d : V3 F32} (fp : FiniteV p)
    (ex : |rv p.x - (camera z x y u v).x| ≤ 15 * (ν * (z.w / z.h))) (ey : |rv p.y - (camera z x y u v).y| ≤ 15 * ν) (ez : rv p.z = -1)
    (hc : |(camera z x y u v).x| ≤ z.w / z.h) (hc' : |(camera z x y u v).y| ≤ 1)
    (hN : FiniteV p → 1 / 2 ^ 100 ≤ inner (toReal p) (toReal p) → inner (toReal p) (toReal p) ≤ 2 ^ 100 →
      Close 4.7 d (direction (toReal p)) ∧ AlmostUnit (9.5 * ulp) d) : Through z x y u v d := by
  have v0 := ν_pos
  have v1 := ν_le
  have H1 : (1 : ℝ) ≤ z.h := by exact_mod_cast Nat.one_le_of_lt h.y
  have W1 : (1 : ℝ) ≤ z.w := by exact_mod_cast Nat.one_le_of_lt h.x
  have W2 : (z.w : ℝ) ≤ 2 ^ 24 := by exact_mod_cast h.w
  have r2 : (z.w : ℝ) / z.h ≤ 2 ^ 24 := by
    rw [div_le_iff₀ (by linarith)]
    nlinarith
  have r0 : (0 : ℝ) < z.w / z.h := by positivity
  have bx : |rv p.x| ≤ 2 ^ 25 := by
    refine (abs_near ex hc).trans ?_
    have : ν * ((z.w : ℝ) / z.h) ≤ 1 / 16000000 * 2 ^ 24 := mul_le_mul v1 r2 r0.le (by norm_num)
    linarith
  have by' : |rv p.y| ≤ 2 := (abs_near ey hc').trans (by linarith)
  have e : inner (toReal p) (toReal p) = rv p.x * rv p.x + rv p.y * rv p.y + rv p.z * rv p.z := rfl
  have sx : rv p.x * rv p.x ≤ 2 ^ 50 := by
    rw [← abs_mul_abs_self]
    exact (mul_le_mul bx bx (abs_nonneg _) (by norm_num)).trans (by norm_num)
  have sy : rv p.y * rv p.y ≤ 4 := by
    rw [← abs_mul_abs_self]
    exact (mul_le_mul by' by' (abs_nonneg _) (by norm_num)).trans (by norm_num)
  have x0 := mul_self_nonneg (rv p.x)
  have y0 := mul_self_nonneg (rv p.y)
  rw [ez] at e
  obtain ⟨c, a⟩ := hN fp (by rw [e]; exact le_trans (show _ ≤ (1 : ℝ) by norm_num) (by linarith)) (by rw [e]; exact le_trans (show _ ≤ (2 : ℝ) ^ 50 + 4 + 1 by linarith) (by norm_num))
  have eu : ulp = ν := by unfold ulp ν; rfl
  refine ⟨a, toReal p, ?_, ?_, ez, c⟩
  · rw [eu, mul_assoc]; exact ex
  · rw [eu]; exact ey

/-- The numbers of the sample. -/
structure Nums (z : Size) (x y u v : Nat) : Prop where
  hx : (x : ℝ) + u / z.ns ≤ z.w
  hy : (y : ℝ) + v / z.ns ≤ z.h
  u0 : (0 : ℝ) ≤ u / z.ns
  u1 : (u : ℝ) / z.ns ≤ 1
  v0 : (0 : ℝ) ≤ v / z.ns
  v1 : (v : ℝ) / z.ns ≤ 1
  w1 : (1 : ℝ) ≤ z.w
  h1 : (1 : ℝ) ≤ z.h
  n1 : (1 : ℝ) ≤ z.ns
  w2 : (z.w : ℝ) ≤ 2 ^ 24
  h2 : (z.h : ℝ) ≤ 2 ^ 24
  n2 : (z.ns : ℝ) ≤ 2 ^ 24

theorem nums {z : Size} {x y u v : Nat} (h : InImage z x y u v) : Nums z x y u v := by
  have n1 : (1 : ℝ) ≤ z.ns := by exact_mod_cast Nat.one_le_of_lt h.u
  have hx : (x : ℝ) + 1 ≤ z.w := by exact_mod_cast h.x
  have hy : (y : ℝ) + 1 ≤ z.h := by exact_mod_cast h.y
  have hu : (u : ℝ) / z.ns ≤ 1 := (div_le_one (by linarith)).2 (by exact_mod_cast h.u.le)
  have hv : (v : ℝ) / z.ns ≤ 1 := (div_le_one (by linarith)).2 (by exact_mod_cast h.v.le)
  exact ⟨by linarith, by linarith, by positivity, hu, by positivity, hv, by exact_mod_cast Nat.one_le_of_lt h.x, by exact_mod_cast Nat.one_le_of_lt h.y, n1,
    by exact_mod_cast h.w, by exact_mod_cast h.h, by exact_mod_cast h.ns⟩

theorem centred {s q W : ℝ} (s0 : 0 ≤ s) (q0 : 0 ≤ q) (h : s + q ≤ W) (w1 : 1 ≤ W) : |s + q - W / 2| ≤ W / 2 ∧ |(s + q - W / 2) / (W / 2)| ≤ 1 := by
  have h1 : |s + q - W / 2| ≤ W / 2 := abs_le.2 ⟨by linarith, by linarith⟩
  refine ⟨h1, ?_⟩
  rw [abs_div, abs_of_pos (show 0 < W / 2 by linarith)]
  exact (div_le_one (by linarith)).2 h1

theorem camera_bounds {z : Size} {x y u v : Nat} (h : InImage z x y u v) : |(camera z x y u v).x| ≤ z.w / z.h ∧ |(camera z x y u v).y| ≤ 1 := by
  have N := nums h
  constructor
  · have := (centred (Nat.cast_nonneg x) N.u0 N.hx N.w1).2
    have r0 : (0 : ℝ) ≤ z.w / z.h := by positivity
    show |_ * _| ≤ _
    rw [abs_mul, abs_of_nonneg r0]
    exact mul_le_of_le_one_left r0 this
  · show |-_| ≤ _
    rw [abs_neg]
    exact (centred (Nat.cast_nonneg y) N.v0 N.hy N.h1).2

/-- One coordinate, before the aspect ratio is put on, and its negative. -/
theorem camera_coord {B D : F32} {t W : ℝ} (fB : Fin' B) (fD : Fin' D) (w1 : 1 ≤ W) (w2 : W ≤ 2 ^ 24) (hB : |rv B - t| ≤ 5.05 * (ν * W)) (ht : |t| ≤ W / 2)
    (hD : |rv D - W / 2| ≤ 0.51 * (ν * W)) : Fin' (B / D) ∧ |rv (B / D) - t / (W / 2)| ≤ 12.2 * ν := by
  obtain ⟨f, e⟩ := quotient_ok fB fD w1 w2 w1 w2 (by norm_num) (by norm_num) (by norm_num) (by norm_num) hB ht hD
  rw [div_self (show W ≠ 0 by linarith), mul_one] at e
  exact ⟨f, e.trans (by have := ν_pos; linarith)⟩

theorem neg_err {B B' : F32} {t e : ℝ} (hB : Fin' B' ∧ rv B' = -rv B) (h : |rv B - t| ≤ e) : |rv B' - -t| ≤ e := by
  rw [hB.2, show -rv B - -t = -(rv B - t) by ring, abs_neg]
  exact h

/-- All the programs but the tiled ones. -/
theorem ray_ok (hs : RootOk sqrt) {z : Size} {x y u v : Nat} (h : InImage z x y u v) {a b Hw Hh : F32} (fa : Fin' a) (fb : Fin' b)
    (ea : |rv a - u / z.ns| ≤ 2.01 * ν) (eb : |rv b - v / z.ns| ≤ 2.01 * ν) (fw : Fin' Hw) (fh : Fin' Hh) (ew : |rv Hw - z.w / 2| ≤ 0.51 * (ν * z.w))
    (eh : |rv Hh - z.h / 2| ≤ 0.51 * (ν * z.h)) :
    Through z x y u v (V3.normalized F ⟨((F).ofUsize x + a - Hw) / Hw * (F).ofUsize z.w / (F).ofUsize z.h, -((F).ofUsize y + b - Hh) / Hh, (F).lit (-1)⟩) := by
  have N := nums h
  obtain ⟨fx, ex⟩ := whole_ok (h.x.le.trans h.w)
  obtain ⟨fy, ey⟩ := whole_ok (h.y.le.trans h.h)
  obtain ⟨fW, eW⟩ := whole_ok h.w
  obtain ⟨fH, eH⟩ := whole_ok h.h
  have vw : 0 ≤ ν * (z.w : ℝ) := mul_nonneg ν_pos.le (Nat.cast_nonneg _)
  have vh : 0 ≤ ν * (z.h : ℝ) := mul_nonneg ν_pos.le (Nat.cast_nonneg _)
  obtain ⟨f1, e1⟩ := (offset_ok fx fa fw (by rw [ex, sub_self, abs_zero]; exact vw) ea ew (Nat.cast_nonneg x) N.u0 N.u1 N.hx N.w1 N.w2).1
  obtain ⟨f2, e2⟩ := (offset_ok fy fb fh (by rw [ey, sub_self, abs_zero]; exact vh) eb eh (Nat.cast_nonneg y) N.v0 N.v1 N.hy N.h1 N.h2).1
  obtain ⟨t1, s1⟩ := centred (Nat.cast_nonneg x) N.u0 N.hx N.w1
  obtain ⟨t2, s2⟩ := centred (Nat.cast_nonneg y) N.v0 N.hy N.h1
  obtain ⟨f3, e3⟩ := camera_coord f1 fw N.w1 N.w2 e1 t1 ew
  have ng := neg_ok f2
  obtain ⟨f4, e4⟩ := camera_coord ng.1 fh N.h1 N.h2 (neg_err ng e2) (by rw [abs_neg]; exact t2) eh
  obtain ⟨f5, e5⟩ := aspect_ok f3 fW fH eW eH N.w1 N.w2 N.h1 N.h2 s1 e3
  obtain ⟨f6, e6⟩ := lit_neg ma sqrt sqrte sin cos pi scp
  obtain ⟨c1, c2⟩ := camera_bounds h
  have r0 : (0 : ℝ) ≤ ν * (z.w / z.h) := mul_nonneg ν_pos.le (by positivity)
  refine through_of h (p := ⟨_, _, _⟩) ⟨f5, f4, f6⟩ (e5.trans (by linarith)) ?_ e6 c1 c2 (C118_normalized ma sqrt sqrte sin cos pi scp hs _)
  rw [neg_div] at e4
  exact e4.trans (by have := ν_pos; linarith)

/-- C138: the scalar programs. -/
theorem C138_scalar (hs : RootOk sqrt) {z : Size} {x y u v : Nat} (h : InImage z x y u v) : Through z x y u v (dirScalar F z x y u v) := by
  have N := nums h
  obtain ⟨fu, eu⟩ := whole_ok (h.u.le.trans h.ns)
  obtain ⟨fv, ev⟩ := whole_ok (h.v.le.trans h.ns)
  obtain ⟨fn, en⟩ := whole_ok h.ns
  obtain ⟨fW, eW⟩ := whole_ok h.w
  obtain ⟨fH, eH⟩ := whole_ok h.h
  obtain ⟨a1, a2⟩ := (sub_pixel ma sqrt sqrte sin cos pi scp fu fn eu en (Nat.cast_nonneg u) (by exact_mod_cast h.u.le) N.n1 N.n2).1
  obtain ⟨b1, b2⟩ := (sub_pixel ma sqrt sqrte sin cos pi scp fv fn ev en (Nat.cast_nonneg v) (by exact_mod_cast h.v.le) N.n1 N.n2).1
  obtain ⟨w1, w2⟩ := (half_ok ma sqrt sqrte sin cos pi scp fW eW N.w1 N.w2).1
  obtain ⟨h1, h2⟩ := (half_ok ma sqrt sqrte sin cos pi scp fH eH N.h1 N.h2).1
  exact ray_ok ma sqrt sqrte sin cos pi scp hs h a1 b1 a2 b2 w1 h1 w2 h2

/-- C138: the vectorized programs, serial and parallel. -/
theorem C138_vector (hs : RootOk sqrt) {z : Size} {x y u v : Nat} (h : InImage z x y u v) :
    Through z x y u v (dirVector F z x y u v) ∧ Through z x y u v (dirVectorPar F z x y u v) := by
  have N := nums h
  obtain ⟨fu, eu⟩ := whole_ok (h.u.le.trans h.ns)
  obtain ⟨fv, ev⟩ := whole_ok (h.v.le.trans h.ns)
  obtain ⟨fn, en⟩ := whole_ok h.ns
  obtain ⟨fW, eW⟩ := whole_ok h.w
  obtain ⟨fH, eH⟩ := whole_ok h.h
  obtain ⟨a1, a2⟩ := (sub_pixel ma sqrt sqrte sin cos pi scp fu fn eu en (Nat.cast_nonneg u) (by exact_mod_cast h.u.le) N.n1 N.n2).2
  obtain ⟨b1, b2⟩ := (sub_pixel ma sqrt sqrte sin cos pi scp fv fn ev en (Nat.cast_nonneg v) (by exact_mod_cast h.v.le) N.n1 N.n2).2
  obtain ⟨⟨w1, w2⟩, w3, w4⟩ := half_ok ma sqrt sqrte sin cos pi scp fW eW N.w1 N.w2
  obtain ⟨⟨h1, h2⟩, h3, h4⟩ := half_ok ma sqrt sqrte sin cos pi scp fH eH N.h1 N.h2
  exact ⟨ray_ok ma sqrt sqrte sin cos pi scp hs h a1 b1 a2 b2 w3 h3 w4 h4, ray_ok ma sqrt sqrte sin cos pi scp hs h a1 b1 a2 b2 w1 h1 w2 h2⟩

/-- The divisor of the tiled programs, half the height computed by way of the width. -/
theorem divisor_ok {D w h : F32} {W H : ℝ} (fD : Fin' D) (fw : Fin' w) (fh : Fin' h) (ew : rv w = W) (eh : rv h = H) (w1 : 1 ≤ W) (w2 : W ≤ 2 ^ 24) (h1 : 1 ≤ H)
    (h2 : H ≤ 2 ^ 24) (hD : |rv D - W / 2| ≤ 0.51 * (ν * W)) : Fin' (D * h / w) ∧ |rv (D * h / w) - H / 2| ≤ 1.53 * (ν * H) := by
  have v0 := ν_pos
  have v1 := ν_le
  have W0 : 0 < W := by linarith
  have H0 : 0 < H := by linarith
  have WH : 1 ≤ W * H := by nlinarith
  have WH2 : W * H ≤ 2 ^ 48 := (mul_le_mul w2 h2 H0.le (by norm_num)).trans (by norm_num)
  have nv : η ≤ ν / 10 ^ 36 := η_le
  have e1 : |rv D * rv h - W * H / 2| ≤ 0.51 * (ν * (W * H)) := by
    rw [eh, show rv D * H - W * H / 2 = (rv D - W / 2) * H by ring, abs_mul, abs_of_pos H0]
    have := mul_le_mul_of_nonneg_right hD H0.le
    linarith
  have t1 : |W * H / 2| ≤ W * H / 2 := by rw [abs_of_pos (by linarith)]
  have s1 : ν * (W * H) ≤ W * H / 16000000 := by nlinarith
  have s2 : ν ≤ ν * (W * H) := le_mul_of_one_le_right v0.le WH
  obtain ⟨f1, r1⟩ := mul_ok fD fh (lt_of_le_of_lt ((abs_near e1 t1).trans (show _ ≤ (2 : ℝ) ^ 50 by linarith)) (by norm_num))
  have e2 : |rv (D * h) - W * H / 2| ≤ 1.02 * (ν * (W * H)) := by
    refine (round_step r1 e1 t1).trans ?_
    have : ν * (W * H / 2 + 0.51 * (ν * (W * H))) ≤ ν * (0.5001 * (W * H)) := mul_le_mul_of_nonneg_left (by linarith) v0.le
    linarith
  have e3 : |rv (D * h) / rv w - H / 2| ≤ 1.02 * (ν * H) := by
    rw [ew, show rv (D * h) / W - H / 2 = (rv (D * h) - W * H / 2) / W by field_simp, abs_div, abs_of_pos W0, div_le_iff₀ W0]
    linarith
  have t2 : |H / 2| ≤ H / 2 := by rw [abs_of_pos (by linarith)]
  have s3 : ν * H ≤ H / 16000000 := by nlinarith
  have s4 : ν ≤ ν * H := le_mul_of_one_le_right v0.le h1
  obtain ⟨f2, r2⟩ := Options.div_ok f1 fw (by rw [ew]; exact W0.ne') (lt_of_le_of_lt ((abs_near e3 t2).trans (show _ ≤ (2 : ℝ) ^ 50 by linarith)) (by norm_num))
  refine ⟨f2, (round_step r2 e3 t2).trans ?_⟩
  have : ν * (H / 2 + 1.02 * (ν * H)) ≤ ν * (0.5001 * H) := mul_le_mul_of_nonneg_left (by linarith) v0.le
  linarith

theorem camera_x {z : Size} {x y u v : Nat} (h : InImage z x y u v) : (camera z x y u v).x = ((x : ℝ) + u / z.ns - z.w / 2) / (z.h / 2) := by
  have W0 : (z.w : ℝ) ≠ 0 := by have := (nums h).w1; linarith
  have H0 : (z.h : ℝ) ≠ 0 := by have := (nums h).h1; linarith
  have n0 : (z.ns : ℝ) ≠ 0 := by have := (nums h).n1; linarith
  show _ / _ * _ = _
  field_simp

/-- The column of a lane. -/
theorem column_ok {x i w : Nat} (hxw : x + i ≤ w) (hw : w ≤ 2 ^ 24) : Fin' (⟨Flt.fromInt 32 23 x⟩ + (F).lit (i : Rat) * (F).lit 1) ∧
    |rv (⟨Flt.fromInt 32 23 x⟩ + (F).lit (i : Rat) * (F).lit 1) - ((x + i : Nat) : ℝ)| ≤ ν * w := by
  have w2 : (w : ℝ) ≤ 2 ^ 24 := by exact_mod_cast hw
  obtain ⟨fx, ex⟩ := whole_ok (k := x) (by omega)
  obtain ⟨fi, ei⟩ := whole_ok (k := i) (by omega)
  obtain ⟨o1, o2⟩ := lit1_ok ma sqrt sqrte sin cos pi scp
  have hi2 : (i : ℝ) ≤ 2 ^ 24 := by exact_mod_cast (show i ≤ 2 ^ 24 by omega)
  have li := lit_nat ma sqrt sqrte sin cos pi scp i
  have step : Fin' ((F).lit (i : Rat) * (F).lit 1) ∧ rv ((F).lit (i : Rat) * (F).lit 1) = i := by
    rw [li]
    obtain ⟨f, -⟩ := mul_ok fi o1 (by rw [ei, o2, mul_one, abs_of_nonneg (Nat.cast_nonneg i)]; exact lt_of_le_of_lt hi2 (by norm_num))
    refine ⟨f, ?_⟩
    have := mul_near fi o1 f _ fi
    rw [ei, o2, mul_one, sub_self, abs_zero] at this
    exact sub_eq_zero.1 (abs_nonpos_iff.1 this)
  have hxi : ((x + i : Nat) : ℝ) ≤ w := by exact_mod_cast hxw
  have sum0 : |(x : ℝ) + i| ≤ w := by
    rw [abs_of_nonneg (add_nonneg (Nat.cast_nonneg x) (Nat.cast_nonneg i)), ← Nat.cast_add]
    exact hxi
  obtain ⟨fX, eX⟩ := add_ok fx step.1 (by rw [ex, step.2]; exact lt_of_le_of_lt (sum0.trans w2) (by norm_num))
  rw [ex, step.2] at eX
  have eX' : |rv (⟨Flt.fromInt 32 23 x⟩ + (F).lit (i : Rat) * (F).lit 1) - ((x + i : Nat) : ℝ)| ≤ ν * w := by
    rw [Nat.cast_add]
    exact eX.trans (mul_le_mul_of_nonneg_left sum0 ν_pos.le)
  exact ⟨fX, eX'⟩

/-- C138: every lane of a packet of the tiled programs. -/
theorem C138_tiled (hs : RootOk sqrt) (hm : MulAddOk ma) {z : Size} {x y u v : Nat} (i : Nat) (hi : i < n) (h : InImage z (x + i) y u v) :
    Through z (x + i) y u v ((dirTiled F n z x y u v).lane i hi) := by
  have N := nums h
  obtain ⟨fy, ey⟩ := whole_ok (h.y.le.trans h.h)
  obtain ⟨fu, eu⟩ := whole_ok (h.u.le.trans h.ns)
  obtain ⟨fv, ev⟩ := whole_ok (h.v.le.trans h.ns)
  obtain ⟨fn, en⟩ := whole_ok h.ns
  obtain ⟨fW, eW⟩ := whole_ok h.w
  obtain ⟨fH, eH⟩ := whole_ok h.h
  obtain ⟨a1, a2⟩ := (sub_pixel ma sqrt sqrte sin cos pi scp fu fn eu en (Nat.cast_nonneg u) (by exact_mod_cast h.u.le) N.n1 N.n2).2
  obtain ⟨b1, b2⟩ := (sub_pixel ma sqrt sqrte sin cos pi scp fv fn ev en (Nat.cast_nonneg v) (by exact_mod_cast h.v.le) N.n1 N.n2).2
  obtain ⟨w1, w2⟩ := (half_ok ma sqrt sqrte sin cos pi scp fW eW N.w1 N.w2).1
  obtain ⟨h1, h2⟩ := (half_ok ma sqrt sqrte sin cos pi scp fH eH N.h1 N.h2).1
  obtain ⟨d1, d2⟩ := divisor_ok w1 fW fH eW eH N.w1 N.w2 N.h1 N.h2 w2
  have vh : 0 ≤ ν * (z.h : ℝ) := mul_nonneg ν_pos.le (Nat.cast_nonneg _)
  obtain ⟨fX, eX'⟩ := column_ok ma sqrt sqrte sin cos pi scp h.x.le h.w
  obtain ⟨f1, e1⟩ := (offset_ok fX a1 w1 eX' a2 w2 (Nat.cast_nonneg _) N.u0 N.u1 N.hx N.w1 N.w2).2
  obtain ⟨f2, e2⟩ := (offset_ok fy b1 h1 (by rw [ey, sub_self, abs_zero]; exact vh) b2 h2 (Nat.cast_nonneg y) N.v0 N.v1 N.hy N.h1 N.h2).2
  obtain ⟨t1, s1⟩ := centred (Nat.cast_nonneg (x + i)) N.u0 N.hx N.w1
  obtain ⟨t2, s2⟩ := centred (Nat.cast_nonneg y) N.v0 N.hy N.h1
  obtain ⟨f3, e3⟩ := quotient_ok f1 d1 N.w1 N.w2 N.h1 N.h2 (by norm_num) (by norm_num) (by norm_num) (by norm_num) e1 t1 d2
  have l2 : |rv (⟨Flt.fromInt 32 23 y⟩ + (⟨Flt.fromInt 32 23 v⟩ * ((F).lit 1 / ⟨Flt.fromInt 32 23 z.ns⟩) - ⟨Flt.fromInt 32 23 z.h⟩ / (F).lit 2))| < 2 ^ 127 := by
    refine lt_of_le_of_lt ((abs_near e2 t2).trans (show _ ≤ (2 : ℝ) ^ 25 from ?_)) (by norm_num)
    have v1 := ν_le
    have := N.h2
    have h3 : ν * (z.h : ℝ) ≤ 1 / 16000000 * 2 ^ 24 := mul_le_mul v1 this (Nat.cast_nonneg _) (by norm_num)
    linarith only [this, h3]
  have ng := neg_lane ma sqrt sqrte sin cos pi scp f2 l2
  obtain ⟨f4, e4⟩ := camera_coord ng.1 h1 N.h1 N.h2 (neg_err ng e2) (by rw [abs_neg]; exact t2) h2
  obtain ⟨f6, e6⟩ := lit_neg ma sqrt sqrte sin cos pi scp
  obtain ⟨c1, c2⟩ := camera_bounds h
  have r0 : (0 : ℝ) ≤ ν * (z.w / z.h) := mul_nonneg ν_pos.le (div_nonneg (Nat.cast_nonneg _) (Nat.cast_nonneg _))
  set V : V3N.V3N F32 n := ⟨(incrF F n ((F).ofUsize x) ((F).lit 1) + splat n ((F).ofUsize u * invNs F z - (F).ofUsize z.w / (F).lit 2)) /
      splat n ((F).ofUsize z.w / (F).lit 2 * (F).ofUsize z.h / (F).ofUsize z.w),
    V3N.vneg F (splat n ((F).ofUsize y) + splat n ((F).ofUsize v * invNs F z - (F).ofUsize z.h / (F).lit 2)) / splat n ((F).ofUsize z.h / (F).lit 2),
    splat n ((F).lit (-1))⟩ with hV
  have hL : V.lane i hi = ⟨(⟨Flt.fromInt 32 23 x⟩ + (F).lit (i : Rat) * (F).lit 1 + (⟨Flt.fromInt 32 23 u⟩ * ((F).lit 1 / ⟨Flt.fromInt 32 23 z.ns⟩) -
        ⟨Flt.fromInt 32 23 z.w⟩ / (F).lit 2)) / (⟨Flt.fromInt 32 23 z.w⟩ / (F).lit 2 * ⟨Flt.fromInt 32 23 z.h⟩ / ⟨Flt.fromInt 32 23 z.w⟩),
      (F).lit (-1) * (⟨Flt.fromInt 32 23 y⟩ + (⟨Flt.fromInt 32 23 v⟩ * ((F).lit 1 / ⟨Flt.fromInt 32 23 z.ns⟩) - ⟨Flt.fromInt 32 23 z.h⟩ / (F).lit 2)) /
        (⟨Flt.fromInt 32 23 z.h⟩ / (F).lit 2), (F).lit (-1)⟩ := by
    rw [hV]
    simp only [V3.lane, incrF, vadd_get, vdiv_get, splat_get, vneg_get, Vector.getElem_ofFn]
    rfl
  refine through_of h (p := V.lane i hi) (by rw [hL]; exact ⟨f3, f4, f6⟩) ?_ ?_ (by rw [hL]; exact e6) c1 c2 (fun a b c => C118_normalized_packet ma sqrt sqrte sin cos pi scp hs hm V i hi a b c)
  · rw [hL]
    rw [camera_x h]
    exact e3.trans (by linarith only [r0])
  · rw [hL]
    rw [neg_div] at e4
    exact e4.trans (by have := ν_pos; linarith only [this])

theorem ulp_small : 9.5 * ulp ≤ 1 / 1000 := by unfold ulp; norm_num

theorem zero_moderate : Moderate (V3.zero F) := by
  obtain ⟨f, e⟩ := lit0 ma sqrt sqrte sin cos pi scp
  have : IsFinite 23 ((F).lit 0).bits ∧ |realVal 23 ((F).lit 0).bits| ≤ 2 ^ 30 := ⟨f, by rw [show realVal 23 ((F).lit 0).bits = 0 from e]; norm_num⟩
  exact moderate_of this this this

/-- C138: so the rays of the scalar and the vectorized programs find the nearest surface of the scene. -/
theorem C138_seen (hs : RootOk sqrt) {z : Size} {x y u v : Nat} (h : InImage z x y u v) (d : V3 F32)
    (hd : d = dirScalar F z x y u v ∨ d = dirVector F z x y u v ∨ d = dirVectorPar F z x y u v) :
    Nearest (9.5 * ulp) ⟨V3.zero F, d⟩ (scenePlane F) (sceneSpheres F) (castRay F (scenePlane F) (sceneSpheres F) ⟨V3.zero F, d⟩) := by
  refine C137_scene ma sqrt sqrte sin cos pi scp hs ulp_small (zero_moderate ma sqrt sqrte sin cos pi scp) ?_
  rcases hd with rfl | rfl | rfl
  · exact (C138_scalar ma sqrt sqrte sin cos pi scp hs h).1
  · exact (C138_vector ma sqrt sqrte sin cos pi scp hs h).1.1
  · exact (C138_vector ma sqrt sqrte sin cos pi scp hs h).2.1

/-- C138: and those of the lanes of the tiled programs. -/
theorem C138_seen_tiled (hs : RootOk sqrt) (hm : MulAddOk ma) {z : Size} {x y u v : Nat} {dbg : Bool} {r : IsectN F32 n}
    (hr : castN F dbg (scenePlane F) (sceneSpheres F) ⟨V3N.zero F n, dirTiled F n z x y u v⟩ = .ok r) (i : Nat) (hi : i < n) (h : InImage z (x + i) y u v) :
    Nearest (9.5 * ulp) ⟨V3.zero F, (dirTiled F n z x y u v).lane i hi⟩ (scenePlane F) (sceneSpheres F) (r.lane i hi) := by
  have e : (V3N.zero F n).lane i hi = V3.zero F := by simp only [V3.lane, V3N.zero, V3.zero, splat_get]
  have := (C137_scene_packet ma sqrt sqrte sin cos pi scp hs hm _).2 hr i hi ulp_small
    (by show Moderate ((V3N.zero F n).lane i hi); rw [e]; exact zero_moderate ma sqrt sqrte sin cos pi scp) (C138_tiled ma sqrt sqrte sin cos pi scp hs hm i hi h).1
  show Nearest _ ⟨V3.zero F, _⟩ _ _ _
  rw [← e]
  exact this

/-- Sample (1, 0) of pixel (200, 300) in an image of 800 by 600 pixels with 2 by 2 samples, seen at (-133/200, 0, -1). -/
example : InImage ⟨800, 600, 2⟩ 200 300 1 0 ∧ (camera ⟨800, 600, 2⟩ 200 300 1 0).x = -133 / 200 ∧ (camera ⟨800, 600, 2⟩ 200 300 1 0).y = 0 ∧
    let d := dirScalar aoF ⟨800, 600, 2⟩ 200 300 1 0
    (d.x.bits, d.y.bits, d.z.bits) = (0xbf0dc1d8, 0x80000000, 0xbf552b31) := by
  refine ⟨⟨by decide, by decide, by decide, by decide, by decide, by decide, by decide⟩, ?_, ?_, by decide +kernel⟩ <;> norm_num [camera]

end PackedSimd.Props
