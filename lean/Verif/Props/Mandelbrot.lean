import Verif.Lemmas.Mandelbrot
/-
C53: the lane-parallel Mandelbrot count.

The claim over *any* arithmetic is false: the vector loop counts the steps at which a lane is bounded (`≤`), the scalar loop counts the steps
before the first at which it is not (`>`).  The two differ for a NaN (`C53_nan_fails`) and would differ for an arithmetic in which an escaped
point can come back.  `C53_lanes` says exactly what the vector loop computes in any arithmetic, `C53_count_partial` proves the claim in any
arithmetic under the two missing facts, and `C53_exact` discharges both in exact arithmetic.
-/
namespace PackedSimd.Props
open PackedSimd Spec Intr Ex Ex.Mandel

section
variable {α : Type} [Add α] [Sub α] [Mul α]

/-- The scalar loop returns the escape count of its starting point, in any arithmetic. -/
theorem C53_scalar (gt : α → α → Bool) (th : α) (limit : Nat) (x y : α) :
    EscapeCount (fun j => gt (orbitNorm (x, y) j) th = true) limit (countScalar gt th limit ⟨x, y⟩) :=
  countScalar_spec gt th limit (x, y)

/-- The vector loop never panics; it runs until the first step `J` at which no lane is bounded (or to the limit), and in each lane returns
the number of steps before `J` at which that lane was bounded. -/
theorem C53_lanes (t : Target) (ht : t.Supported) (ty : MaskTy) (le : α → α → Bool) (th : α) (limit : Nat) (hl : limit < 2 ^ 32)
    (xs ys : Vec α ty.lanes) :
    ∃ J r, EscapeCount (fun j => ∀ l : Fin ty.lanes, le (orbitNorm (xs[l], ys[l]) j) th = false) limit J ∧
      countSimd t ty le th limit ⟨xs, ys⟩ = .ok r ∧
      ∀ l : Fin ty.lanes, r[l].toNat = (List.range J).countP fun j => le (orbitNorm (xs[l], ys[l]) j) th := by
  obtain ⟨J, hJ, hr, hb, hs⟩ := simdLoop_spec t ty ht le th ⟨xs, ys⟩ limit 0 (splat ty.lanes 0#64)
  rw [vecOrbit_zero] at hr
  refine ⟨J, _, ⟨hJ, ?_, ?_⟩, by unfold countSimd; rw [hr]; rfl, ?_⟩
  · intro j hj h
    obtain ⟨l, hl'⟩ := hb j hj
    rw [Nat.zero_add] at hl'
    have := h l
    rw [show le (orbitNorm (xs[l], ys[l]) j) th = true from hl'] at this
    exact Bool.noConfusion this
  · intro h l
    have := hs h l
    rw [Nat.zero_add] at this
    exact this
  · intro l
    have hc : (List.range J).countP (fun j => le (orbitNorm (xs[l], ys[l]) j) th) ≤ J := by
      have := List.countP_le_length (p := fun j => le (orbitNorm (xs[l], ys[l]) j) th) (l := List.range J)
      simpa using this
    simp only [Fin.getElem_fin, Vector.getElem_map, Vector.getElem_ofFn, splat_get, Nat.zero_add, BitVec.zero_add, lanePt, Fin.eta]
    rw [BitVec.toNat_setWidth, BitVec.toNat_ofNat]
    simp only [Fin.getElem_fin] at hc
    rw [Nat.mod_eq_of_lt (a := List.countP _ _) (b := 2 ^ 64) (by omega), Nat.mod_eq_of_lt (by omega)]

/-- In any arithmetic: if in every lane `>` is the negation of `≤` on the values compared up to the first escape (no NaN so far) and a lane
that is not bounded does not come back, each lane of the vector result is what the scalar loop returns for that lane's starting point.

Missing from the full claim: the two hypotheses, which some arithmetics violate (`C53_nan_fails`). -/
theorem C53_count_partial (t : Target) (ht : t.Supported) (ty : MaskTy) (le gt : α → α → Bool) (th : α) (limit : Nat) (hl : limit < 2 ^ 32)
    (xs ys : Vec α ty.lanes)
    (hgt : ∀ (l : Fin ty.lanes) j, j < limit → (∀ i, i < j → gt (orbitNorm (xs[l], ys[l]) i) th = false) →
      gt (orbitNorm (xs[l], ys[l]) j) th = !le (orbitNorm (xs[l], ys[l]) j) th)
    (hst : ∀ (l : Fin ty.lanes) j, j + 1 < limit → le (orbitNorm (xs[l], ys[l]) j) th = false → le (orbitNorm (xs[l], ys[l]) (j + 1)) th = false) :
    ∃ r, countSimd t ty le th limit ⟨xs, ys⟩ = .ok r ∧ ∀ l : Fin ty.lanes, r[l].toNat = countScalar gt th limit ⟨xs[l], ys[l]⟩ := by
  obtain ⟨J, r, ⟨hJ, _, hJs⟩, hr, hc⟩ := C53_lanes t ht ty le th limit hl xs ys
  refine ⟨r, hr, fun l => ?_⟩
  obtain ⟨k1, k2, k3⟩ := C53_scalar gt th limit xs[l] ys[l]
  rw [hc l]
  generalize countScalar gt th limit ⟨xs[l], ys[l]⟩ = k at *
  have hgt' : ∀ j, j < limit → j ≤ k → gt (orbitNorm (xs[l], ys[l]) j) th = !le (orbitNorm (xs[l], ys[l]) j) th :=
    fun j h1 h2 => hgt l j h1 fun i hi => by
      have := k2 i (by omega)
      rwa [Bool.not_eq_true] at this
  have hstay : ∀ m, k + m < limit → le (orbitNorm (xs[l], ys[l]) (k + m)) th = false := by
    intro m
    induction m with
    | zero =>
      intro h
      have h1 := k3 (by omega)
      simp only [hgt' k (by omega) (by omega), Bool.not_eq_true'] at h1
      exact h1
    | succ m ih => intro h; exact hst l (k + m) (by omega) (ih (by omega))
  rw [countP_lt _ k J]
  · have : k ≤ J := by
      by_contra hlt
      have h1 := hJs (by omega) l
      have h2 := k2 J (by omega)
      simp only [hgt' J (by omega) (by omega), h1] at h2
      exact h2 rfl
    omega
  · intro j hj
    constructor
    · intro h
      by_contra hk
      have := hstay (j - k) (by omega)
      rw [show k + (j - k) = j by omega, h] at this
      exact Bool.noConfusion this
    · intro hk
      have h2 := k2 j hk
      simp only [hgt' j (by omega) (by omega), Bool.not_eq_true', Bool.not_eq_false] at h2
      exact h2
end

/-- In exact arithmetic, for all starting points, all limits below 2³², all vector widths and targets: each lane of the vector result is the
number of steps before the squared modulus of the orbit of that lane's point exceeds 4, and that is what the scalar loop returns. -/
theorem C53_exact {K : Type} [CommRing K] [LinearOrder K] [IsStrictOrderedRing K]
    (t : Target) (ht : t.Supported) (ty : MaskTy) (limit : Nat) (hl : limit < 2 ^ 32) (xs ys : Vec K ty.lanes) :
    ∃ r, countSimd t ty (fun a b => decide (a ≤ b)) 4 limit ⟨xs, ys⟩ = .ok r ∧ ∀ l : Fin ty.lanes,
      r[l].toNat = countScalar (fun a b => decide (a > b)) 4 limit ⟨xs[l], ys[l]⟩ ∧
      EscapeCount (fun j => 4 < orbitNorm (xs[l], ys[l]) j) limit r[l].toNat := by
  have hst : ∀ (l : Fin ty.lanes) j, 4 < orbitNorm (xs[l], ys[l]) j → 4 < orbitNorm (xs[l], ys[l]) (j + 1) := by
    intro l j h
    classical
    have hex : ∃ n, 4 < orbitNorm (xs[l], ys[l]) n := ⟨j, h⟩
    have := (norm_mono _ (Nat.find_spec hex) (fun i hi => not_lt.1 (Nat.find_min hex hi)) (j + 1 - Nat.find hex)).2
    have hle : Nat.find hex ≤ j := Nat.find_min' hex h
    rwa [show Nat.find hex + (j + 1 - Nat.find hex) = j + 1 by omega] at this
  obtain ⟨r, hr, h⟩ := C53_count_partial t ht ty (fun a b => decide (a ≤ b)) (fun a b => decide (a > b)) 4 limit hl xs ys
    (fun l j _ _ => by simp only [gt_iff_lt, ← decide_not, not_le])
    (fun l j _ hj => by
      simp only [decide_eq_false_iff_not, not_le] at hj ⊢
      exact hst l j hj)
  refine ⟨r, hr, fun l => ⟨h l, ?_⟩⟩
  rw [h l]
  have := C53_scalar (fun a b : K => decide (a > b)) 4 limit xs[l] ys[l]
  simpa only [decide_eq_true_eq, gt_iff_lt] using this

/-- The whole image: the vector program panics exactly when the width is not a positive multiple of the number of lanes; otherwise it
computes the image the scalar program computes, pixel by pixel — in any arithmetic in which the counts agree for the points of the grid. -/
theorem C53_image_partial {α : Type} [Add α] [Sub α] [Mul α] (t : Target) (ty : MaskTy) (le gt : α → α → Bool) (th : α)
    (limit : Nat) (g : Grid α) (width height : Nat)
    (hcount : ∀ i, i < height → ∀ b, b < width / ty.lanes →
      let xs : Vec α ty.lanes := Vector.ofFn fun l => g.xStart + g.dx * g.ofIndex (b * ty.lanes + l.val)
      let y := g.yStart + g.dy * g.ofIndex i
      ∃ r, countSimd t ty le th limit ⟨xs, splat ty.lanes y⟩ = .ok r ∧ ∀ l : Fin ty.lanes, r[l].toNat = countScalar gt th limit ⟨xs[l], y⟩) :
    generateSimd t ty le th limit g width height =
      if width % ty.lanes = 0 then generateScalar gt th limit g width height else .error .panic := by
  have hn : 0 < ty.lanes := by cases ty <;> decide
  unfold generateSimd generateScalar
  by_cases hw : width % ty.lanes = 0
  · rw [if_pos hw, if_pos hw]
    obtain ⟨q, rfl⟩ := Nat.dvd_of_mod_eq_zero hw
    rw [Nat.mul_div_cancel_left _ hn]
    by_cases hq : q = 0
    · subst hq; simp
    · rw [if_neg hq, if_neg (by simp [hq, Nat.ne_of_gt hn])]
      have hrow : ∀ i, i < height → ((List.range q).map fun b =>
          (Vector.ofFn fun l : Fin ty.lanes => g.xStart + g.dx * g.ofIndex (b * ty.lanes + l.val) : Vec α ty.lanes)).mapM
            (fun x => countSimd t ty le th limit ⟨x, splat ty.lanes (g.yStart + g.dy * g.ofIndex i)⟩) =
          .ok ((List.range q).map fun b => Vector.ofFn fun l : Fin ty.lanes => BitVec.ofNat 32 (countScalar gt th limit
            ⟨g.xStart + g.dx * g.ofIndex (b * ty.lanes + l.val), g.yStart + g.dy * g.ofIndex i⟩)) := by
        intro i hi
        rw [List.mapM_map]
        refine Math.mapM_ok _ _ _ fun b hb => ?_
        rw [Nat.mul_div_cancel_left _ hn] at hcount
        obtain ⟨r, hr, h⟩ := hcount i hi b (List.mem_range.1 hb)
        refine hr.trans ?_
        congr 1
        ext l hl : 1
        rw [Vector.getElem_ofFn]
        have := h ⟨l, hl⟩
        simp only [Fin.getElem_fin, Vector.getElem_ofFn] at this
        rw [← this, BitVec.ofNat_toNat, BitVec.setWidth_eq]
      dsimp only
      rw [Math.mapM_ok _ (fun i => (List.range (ty.lanes * q)).map fun j => BitVec.ofNat 32 (countScalar gt th limit
            ⟨g.xStart + g.dx * g.ofIndex j, g.yStart + g.dy * g.ofIndex i⟩))]
      · simp only [R_ok_bind, List.map_map, List.flatMap, Function.comp_def]; rfl
      · intro i hi
        simp only [hrow i (List.mem_range.1 hi), R_ok_bind]
        show Except.ok _ = _
        congr 1
        rw [range_blocks, List.map_map]
        rfl
  · rw [if_neg hw, if_neg hw]

/-- In exact arithmetic the two programs compute the same image. -/
theorem C53_image_exact {K : Type} [CommRing K] [LinearOrder K] [IsStrictOrderedRing K]
    (t : Target) (ht : t.Supported) (ty : MaskTy) (limit : Nat) (hl : limit < 2 ^ 32) (g : Grid K) (width height : Nat) :
    generateSimd t ty (fun a b => decide (a ≤ b)) 4 limit g width height =
      if width % ty.lanes = 0 then generateScalar (fun a b => decide (a > b)) 4 limit g width height else .error .panic :=
  C53_image_partial t ty _ _ 4 limit g width height fun i _ b _ => by
    obtain ⟨r, hr, h⟩ := C53_exact t ht ty limit hl (Vector.ofFn fun l => g.xStart + g.dx * g.ofIndex (b * ty.lanes + l.val))
      (splat ty.lanes (g.yStart + g.dy * g.ofIndex i))
    exact ⟨r, hr, fun l => by simpa only [Fin.getElem_fin, splat_get] using (h l).1⟩

/-- A 4×2 image of the square from -1 to 1 over the rationals; a width of 3 panics. -/
example :
    let g : Grid Rat := ⟨-1, -1, 1/2, 1, fun n => n⟩
    generateSimd armNeon .m64x2 (fun a b => decide (a ≤ b)) 4 10 g 4 2 = .ok [2, 3, 10, 1, 10, 10, 10, 4] ∧
    generateScalar (fun a b => decide (a > b)) 4 10 g 4 2 = .ok [2, 3, 10, 1, 10, 10, 10, 4] ∧
    generateSimd armNeon .m64x2 (fun a b => decide (a ≤ b)) 4 10 g 3 2 = .error .panic := by decide +kernel

/-- Two lanes over the rationals: 0 never escapes, 1 escapes at the third point (1, 2, 5). -/
example : countSimd armNeon .m64x2 (fun a b : Rat => decide (a ≤ b)) 4 10 ⟨#v[0, 1], #v[0, 0]⟩ = .ok #v[10, 2] ∧
    countScalar (fun a b : Rat => decide (a > b)) 4 10 ⟨1, 0⟩ = 2 ∧ (orbitNorm ((1 : Rat), 0) 2 = 25) := by decide +kernel

/-- In `f64` the claim fails for NaN: a scalar NaN point "never diverges" and counts to the limit, a NaN lane is never "undiverged" and
counts nothing. -/
theorem C53_nan_fails :
    let nan : F64 := ⟨0x7ff8000000000000⟩
    countScalar F64.gt (F64.ofInt 4) 50 ⟨nan, 0⟩ = 50 ∧
    countSimd x64Avx .m64x8 F64.le (F64.ofInt 4) 50 ⟨splat 8 nan, splat 8 0⟩ = .ok (splat 8 0) := by decide +kernel

end PackedSimd.Props
