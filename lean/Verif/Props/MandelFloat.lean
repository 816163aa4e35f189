import Verif.Lemmas.MandelFine
import Verif.Lemmas.MandelImage
import Verif.Props.Mandelbrot
/-
C53 in `f64` arithmetic, and C113: the files written by the Mandelbrot program.
-/
namespace PackedSimd.Props
open PackedSimd Spec Intr Ex Ex.Mandel F64R

/-! ## C53 -/

/-- Neither coordinate is NaN. -/
def MandelPoint (x y : F64) : Prop := valueOf 52 x.bits ≠ .nan ∧ valueOf 52 y.bits ≠ .nan

theorem mandel_hyps {x y : F64} (h : MandelPoint x y) :
    (∀ j, (∀ i, i < j → F64.gt (orbitNorm (x, y) i) (F64.ofInt 4) = false) →
      F64.gt (orbitNorm (x, y) j) (F64.ofInt 4) = !F64.le (orbitNorm (x, y) j) (F64.ofInt 4)) ∧
    (∀ j, F64.le (orbitNorm (x, y) j) (F64.ofInt 4) = false → F64.le (orbitNorm (x, y) (j + 1)) (F64.ofInt 4) = false) := by
  obtain ⟨hx, hy⟩ := h
  by_cases hin : Fin' x ∧ Fin' y ∧ rv x * rv x + rv y * rv y ≤ 4.01
  · obtain ⟨fx, fy, hc⟩ := hin
    refine ⟨fun j hj => ?_, fun j hj => ?_⟩
    · obtain ⟨⟨f1, f2⟩, b1, b2⟩ := orbit_moderate fx fy hc j hj
      exact (gt_eq_not_le f1 f2 b1 b2).1
    · rw [← Bool.not_eq_true] at hj ⊢
      exact fun hb => hj (escaped_stays hc j hb)
  · have hout : Fin' x → Fin' y → 4.01 ≤ rv x * rv x + rv y * rv y := by
      intro fx fy
      by_contra hlt
      exact hin ⟨fx, fy, (not_le.1 hlt).le⟩
    refine ⟨fun j hj => ?_, fun j _ => never_bounded hout (j + 1)⟩
    rcases j with _ | j
    · exact gt_eq_not_le' (sumsq_not_nan hx hy)
    · have h0 := hj 0 (by omega)
      have h1 := never_bounded hout 0
      have h2 : F64.gt (orbitNorm (x, y) 0) (F64.ofInt 4) = !F64.le (orbitNorm (x, y) 0) (F64.ofInt 4) := gt_eq_not_le' (sumsq_not_nan hx hy)
      rw [h0, h1] at h2
      exact Bool.noConfusion h2

/-- **C53** In `f64`, for every target, vector width, limit below 2³² and points which are not NaN: each lane of the vector loop is what the
scalar loop returns for the lane's point, the first step at which the computed squared modulus exceeds 4.

Missing: NaN points, for which the claim is false (`C53_nan`). -/
theorem C53_f64_partial (t : Target) (ht : t.Supported) (ty : MaskTy) (limit : Nat) (hl : limit < 2 ^ 32) (xs ys : Vec F64 ty.lanes)
    (h : ∀ l : Fin ty.lanes, MandelPoint xs[l] ys[l]) :
    ∃ r, countSimd t ty F64.le (F64.ofInt 4) limit ⟨xs, ys⟩ = .ok r ∧ ∀ l : Fin ty.lanes,
      r[l].toNat = countScalar F64.gt (F64.ofInt 4) limit ⟨xs[l], ys[l]⟩ ∧
      EscapeCount (fun j => F64.gt (orbitNorm (xs[l], ys[l]) j) (F64.ofInt 4) = true) limit r[l].toNat := by
  obtain ⟨r, hr, h'⟩ := C53_count_partial t ht ty F64.le F64.gt (F64.ofInt 4) limit hl xs ys
    (fun l j _ => (mandel_hyps (h l)).1 j) (fun l j _ => (mandel_hyps (h l)).2 j)
  refine ⟨r, hr, fun l => ⟨h' l, ?_⟩⟩
  rw [h' l]
  exact C53_scalar F64.gt (F64.ofInt 4) limit xs[l] ys[l]

/-- **C53** NaN points, for every target, width and limit: the scalar loop counts to the limit, a lane of the vector loop counts nothing. -/
theorem C53_nan (t : Target) (ht : t.Supported) (ty : MaskTy) (limit : Nat) (hl : limit < 2 ^ 32) (xs ys : Vec F64 ty.lanes) :
    ∃ r, countSimd t ty F64.le (F64.ofInt 4) limit ⟨xs, ys⟩ = .ok r ∧ ∀ l : Fin ty.lanes, ¬ MandelPoint xs[l] ys[l] →
      r[l].toNat = 0 ∧ countScalar F64.gt (F64.ofInt 4) limit ⟨xs[l], ys[l]⟩ = limit := by
  obtain ⟨J, r, -, hr, h⟩ := C53_lanes t ht ty F64.le (F64.ofInt 4) limit hl xs ys
  refine ⟨r, hr, fun l hn => ?_⟩
  have hn' : valueOf 52 xs[l].bits = .nan ∨ valueOf 52 ys[l].bits = .nan := by
    by_contra hcon
    rw [not_or] at hcon
    exact hn hcon
  have hall := fun j => nan_incomparable (orbit_nan hn' j)
  constructor
  · rw [h l, List.countP_eq_zero]
    intro j _
    rw [(hall j).2]
    exact Bool.false_ne_true
  · obtain ⟨k1, -, k3⟩ := C53_scalar F64.gt (F64.ofInt 4) limit xs[l] ys[l]
    by_contra hne
    exact Bool.false_ne_true ((hall _).1.symm.trans (k3 (by omega)))

/-- The point of pixel `(i, j)` of a picture of the default region, in `f64`. -/
def gridPoint (w h i j : Nat) : F64 × F64 :=
  (⟨0xbff8000000000000⟩ + F64.ofInt 2 / F64.ofInt w * F64.ofInt j, ⟨0xbff0000000000000⟩ + F64.ofInt 2 / F64.ofInt h * F64.ofInt i)

/-- These are the bit patterns of -1.5 and -1. -/
theorem corner : (Fin' ⟨0xbff8000000000000⟩ ∧ rv ⟨0xbff8000000000000⟩ = -1.5) ∧ (Fin' ⟨0xbff0000000000000⟩ ∧ rv ⟨0xbff0000000000000⟩ = -1) := by
  have h1 : valueOf 52 (⟨0xbff8000000000000⟩ : F64).bits = .num (-(3 * 2 ^ 1073)) := by decide +kernel
  have h2 : valueOf 52 (⟨0xbff0000000000000⟩ : F64).bits = .num (-(1 * 2 ^ 1074)) := by decide +kernel
  refine ⟨⟨⟨_, h1⟩, ?_⟩, ⟨_, h2⟩, ?_⟩
  · unfold rv
    rw [realVal_num h1, show low 64 52 = 1073 + 1 by decide, pow_succ]
    push_cast
    have : (2 : ℝ) ^ 1073 ≠ 0 := by positivity
    field_simp
    norm_num
  · unfold rv
    rw [realVal_num h2, show low 64 52 = 1074 by decide]
    push_cast
    field_simp

theorem gridPoint_ok {w h i j : Nat} (hw : w < 2 ^ 64) (hh : h < 2 ^ 64) (hi : i < h) (hj : j < w) : MandelPoint (gridPoint w h i j).1 (gridPoint w h i j).2 := by
  obtain ⟨⟨c1, c2⟩, c3, c4⟩ := corner
  obtain ⟨fx, x1, x2⟩ := grid_point c1 (by rw [c2]; norm_num) hw hj
  obtain ⟨fy, y1, y2⟩ := grid_point c3 (by rw [c4]; norm_num) hh hi
  rw [c2] at x1 x2
  rw [c4] at y1 y2
  refine ⟨fun hn => ?_, fun hn => ?_⟩
  · obtain ⟨z, hz⟩ := fx
    exact absurd (hn.symm.trans hz) (by simp)
  · obtain ⟨z, hz⟩ := fy
    exact absurd (hn.symm.trans hz) (by simp)

/-- The grid of the program is this one. -/
theorem grid_eq (w h : Nat) : grid (w, h) DEFAULT_REGION.1 DEFAULT_REGION.2 =
    ⟨⟨0xbff8000000000000⟩, ⟨0xbff0000000000000⟩, F64.ofInt 2 / F64.ofInt w, F64.ofInt 2 / F64.ofInt h, fun n => F64.ofInt n⟩ := by
  have h1 : (⟨0x3fe0000000000000⟩ : F64) - ⟨0xbff8000000000000⟩ = F64.ofInt 2 := by decide +kernel
  have h2 : (⟨0x3ff0000000000000⟩ : F64) - ⟨0xbff0000000000000⟩ = F64.ofInt 2 := by decide +kernel
  unfold grid DEFAULT_REGION
  dsimp only
  rw [h1, h2]

/-- The point of pixel `(i, j)` of a picture of any region. -/
def regionPoint (dims : Nat × Nat) (rx ry : Mandel.Range) (i j : Nat) : F64 × F64 :=
  (rx.start + (rx.end_ - rx.start) / F64.ofInt dims.1 * F64.ofInt j, ry.start + (ry.end_ - ry.start) / F64.ofInt dims.2 * F64.ofInt i)

/-- **C53** Any region in which no pixel's point is NaN: the vector algorithm panics exactly when the width is not a multiple of 8, and
otherwise produces the image of the scalar algorithm (which panics if the width is zero). -/
theorem C53_region (t : Target) (ht : t.Supported) (w h : Nat) (rx ry : Mandel.Range)
    (hp : ∀ i j, i < h → j < w → MandelPoint (regionPoint (w, h) rx ry i j).1 (regionPoint (w, h) rx ry i j).2) :
    generateRegion t (w, h) (rx, ry) .simd = if w % 8 = 0 then generateRegion t (w, h) (rx, ry) .scalar else .error .panic := by
  unfold generateRegion
  dsimp only
  rw [show THRESHOLD = F64.ofInt 4 from rfl, C53_image_partial t .m64x8 F64.le F64.gt (F64.ofInt 4) ITER_LIMIT _ w h]
  · show Except.bind _ _ = _
    rw [show MaskTy.lanes .m64x8 = 8 from rfl]
    split <;> rfl
  · intro i hi b hb
    have hb : b < w / 8 := hb
    obtain ⟨r, hr, h'⟩ := C53_f64_partial t ht .m64x8 ITER_LIMIT (by decide)
      (Vector.ofFn fun l => rx.start + (rx.end_ - rx.start) / F64.ofInt w * F64.ofInt ((b * MaskTy.lanes .m64x8 + l.val : Nat) : Int))
      (splat _ (ry.start + (ry.end_ - ry.start) / F64.ofInt h * F64.ofInt i)) (fun l => by
        simp only [Fin.getElem_fin, Vector.getElem_ofFn, splat_get]
        refine hp i (b * 8 + l.val) hi ?_
        have hl : l.val < 8 := l.isLt
        omega)
    exact ⟨r, hr, fun l => by
      have := (h' l).1
      simp only [Fin.getElem_fin, splat_get] at this
      exact this⟩

/-- **C53** In particular any region with finite bounds between -10⁹ and 10⁹. -/
theorem C53_region_finite (t : Target) (ht : t.Supported) (w h : Nat) (hw : w < 2 ^ 64) (hh : h < 2 ^ 64) (rx ry : Mandel.Range)
    (hr : ∀ v ∈ [rx.start, rx.end_, ry.start, ry.end_], IsFinite 52 v.bits ∧ |realVal 52 v.bits| ≤ 10 ^ 9) :
    generateRegion t (w, h) (rx, ry) .simd = if w % 8 = 0 then generateRegion t (w, h) (rx, ry) .scalar else .error .panic := by
  refine C53_region t ht w h rx ry fun i j hi hj => ?_
  obtain ⟨a1, a2⟩ := hr rx.start (by simp)
  obtain ⟨b1, b2⟩ := hr rx.end_ (by simp)
  obtain ⟨c1, c2⟩ := hr ry.start (by simp)
  obtain ⟨d1, d2⟩ := hr ry.end_ (by simp)
  obtain ⟨z1, h1⟩ := region_point a1 b1 a2 b2 hw hj
  obtain ⟨z2, h2⟩ := region_point c1 d1 c2 d2 hh hi
  exact ⟨fun hn => absurd (hn.symm.trans h1) (by simp), fun hn => absurd (hn.symm.trans h2) (by simp)⟩

/-- **C53** The program (default region, `f64`): for every width and height the vector algorithm panics exactly when the width is zero or not a
multiple of 8, and otherwise produces the image of the scalar algorithm. -/
theorem C53_generate (t : Target) (ht : t.Supported) (w h : Nat) (hw : w < 2 ^ 64) (hh : h < 2 ^ 64) :
    generate t (w, h) .simd = if w % 8 = 0 then generate t (w, h) .scalar else .error .panic := by
  refine C53_region t ht w h _ _ fun i j hi hj => ?_
  have := gridPoint_ok hw hh hi hj
  have h1 : (⟨0x3fe0000000000000⟩ : F64) - ⟨0xbff8000000000000⟩ = F64.ofInt 2 := by decide +kernel
  have h2 : (⟨0x3ff0000000000000⟩ : F64) - ⟨0xbff0000000000000⟩ = F64.ofInt 2 := by decide +kernel
  unfold regionPoint
  dsimp only
  rw [h1, h2]
  exact this

/-- **C53** What the image is: `w * h` counts, row by row, each the first step at which the computed squared modulus of the orbit of the pixel's
point exceeds 4, or 50. -/
theorem C53_pixels (t : Target) (w h : Nat) (hw : 0 < w) :
    ∃ mb, generate t (w, h) .scalar = .ok mb ∧ mb.dims = (w, h) ∧ mb.data.length = w * h ∧ ∀ i j, i < h → j < w →
      EscapeCount (fun k => F64.gt (orbitNorm (gridPoint w h i j) k) (F64.ofInt 4) = true) 50 (mb.data.getD (w * i + j) 0).toNat := by
  unfold generate generateRegion
  rw [grid_eq]
  dsimp only
  unfold generateScalar
  rw [if_neg (by omega)]
  refine ⟨_, rfl, rfl, ?_, ?_⟩
  · dsimp only
    rw [List.length_flatMap]
    simp [Nat.mul_comm]
  · intro i j hi hj
    dsimp only
    have hget : ∀ (f : Nat → Nat → BitVec 32) (m : Nat), i < m →
        ((List.range m).flatMap fun i => (List.range w).map (f i)).getD (w * i + j) 0 = f i j := by
      intro f m hm
      clear hi
      induction m with
      | zero => omega
      | succ m ih =>
        have hlen : ((List.range m).flatMap fun i => (List.range w).map (f i)).length = w * m := by
          rw [List.length_flatMap]; simp [Nat.mul_comm]
        rw [List.range_succ, List.flatMap_append]
        rcases Nat.lt_succ_iff_lt_or_eq.1 hm with h1 | h1
        · have hb : w * i + j < w * m := by
            have := Nat.mul_le_mul_left w (show i + 1 ≤ m from h1)
            rw [Nat.mul_succ] at this
            omega
          rw [List.getD_eq_getElem?_getD, List.getElem?_append_left (by rw [hlen]; exact hb), ← List.getD_eq_getElem?_getD, ih h1]
        · subst h1
          rw [List.getD_eq_getElem?_getD, List.getElem?_append_right (by rw [hlen]; omega), hlen]
          simp [hj]
    simp only [List.map_map, Function.comp_def]
    rw [hget (fun i j => BitVec.ofNat 32 (countScalar F64.gt THRESHOLD ITER_LIMIT ⟨_ + _ * F64.ofInt ((j : Nat) : Int), _ + _ * F64.ofInt ((i : Nat) : Int)⟩)) h hi]
    have hc := C53_scalar F64.gt (F64.ofInt 4) ITER_LIMIT (gridPoint w h i j).1 (gridPoint w h i j).2
    have hlt : countScalar F64.gt (F64.ofInt 4) ITER_LIMIT ⟨(gridPoint w h i j).1, (gridPoint w h i j).2⟩ < 2 ^ 32 := by
      have := hc.1
      unfold ITER_LIMIT at this ⊢
      omega
    rw [BitVec.toNat_ofNat]
    show EscapeCount _ 50 (countScalar F64.gt (F64.ofInt 4) ITER_LIMIT ⟨(gridPoint w h i j).1, (gridPoint w h i j).2⟩ % 2 ^ 32)
    rw [Nat.mod_eq_of_lt hlt]
    exact hc

/-- Pixel (0, 0) of a 400 × 800 picture; a point far outside; a point on the positive axis. -/
example : MandelPoint (gridPoint 400 800 0 0).1 (gridPoint 400 800 0 0).2 := gridPoint_ok (by decide) (by decide) (by decide) (by decide)
example : MandelPoint (F64.ofInt 2) (F64.ofInt 2) := ⟨by decide +kernel, by decide +kernel⟩

/-- Two regions: from -2 to 2, which the theorem covers, and one with an infinite bound, in which the first pixel is NaN. -/
example : ∀ v ∈ [F64.ofInt (-2), F64.ofInt 2], IsFinite 52 v.bits ∧ |realVal 52 v.bits| ≤ 10 ^ 9 := by
  have h : valueOf 52 (F64.ofInt (-2)).bits = .num (-2 * 2 ^ 1074) := by decide +kernel
  intro v hv
  rcases List.mem_pair.1 hv with rfl | rfl
  · refine ⟨⟨_, h⟩, ?_⟩
    rw [realVal_num h, show low 64 52 = 1074 by decide]
    push_cast
    rw [mul_div_assoc, div_self (by positivity), mul_one, abs_neg, abs_two]
    norm_num
  · refine ⟨two.1, ?_⟩
    rw [show realVal 52 (F64.ofInt 2).bits = 2 from two.2, abs_two]
    norm_num
example : valueOf 52 (regionPoint (8, 8) ⟨F64.ofInt 0, ⟨0x7ff0000000000000⟩⟩ ⟨F64.ofInt 0, F64.ofInt 1⟩ 0 0).1.bits = .nan := by decide +kernel

/-- The points -1.5 - i and -1.25 - i (two lanes and one by one). -/
example : countSimd x64Avx .m64x2 F64.le (F64.ofInt 4) 50 ⟨#v[⟨0xbff8000000000000⟩, ⟨0xbff4000000000000⟩], splat 2 ⟨0xbff0000000000000⟩⟩ = .ok #v[1, 2] ∧
    countScalar F64.gt (F64.ofInt 4) 50 ⟨⟨0xbff8000000000000⟩, ⟨0xbff0000000000000⟩⟩ = 1 ∧
    countScalar F64.gt (F64.ofInt 4) 50 ⟨⟨0xbff4000000000000⟩, ⟨0xbff0000000000000⟩⟩ = 2 := by decide +kernel

end PackedSimd.Props
