import Verif.Props.MulAdd
import Verif.Lemmas.FloatSqrt
/-
C117: `sqrt`, `sqrte`, `rsqrte` and `recpre`.
-/
namespace PackedSimd.Props
open Math Spec

/-- The library's square roots (those without an accuracy suffix) are IEEE square roots. -/
def SqrtCorrect (W : World) : Prop :=
  ∀ (e : FTy) (lib : Lib) (x : FLane e), lib.op = .sqrt → lib.acc = 0 → IsSqrt e.man x (W.fn e lib [x])

theorem roomy : ∀ e : FTy, Roomy (8 * e.bytes) e.man (match e with | .f32 => 75 | .f64 => 537)
  | .f32 => ⟨by decide +kernel, by decide +kernel, by decide +kernel, by decide +kernel, by decide +kernel, by decide +kernel⟩
  | .f64 => ⟨by decide +kernel, by decide +kernel, by decide +kernel, by decide +kernel, by decide +kernel, by decide +kernel⟩

/-- **C117** `sqrt` on every target and every float vector type: each lane is the IEEE square root. -/
theorem C117_sqrt (t : Target) (hf : FeaturesClosed t) (W : World) (hW : SqrtCorrect W) (ty : FVTy) (hty : ty ∈ floatTypes)
    (junk : Nat → Nat → Byte) (x : FV ty) :
    ∃ r, eval t W junk .sqrt ty [x] = .ok r ∧ ∀ i (hi : i < ty.lanes), IsSqrt ty.elem.man x[i] r[i] := by
  obtain ⟨S, hS, h⟩ := C46_lanewise t hf W .sqrt ty hty
  obtain ⟨r, hr, hl⟩ := h junk [x] rfl
  refine ⟨r, hr, fun i hi => ?_⟩
  rw [hl i hi]
  cases hS with
  | library lib hn hop hacc hfn =>
    cases hn
    rw [hfn]
    exact hW _ _ _ hop (Nat.le_zero.1 hacc)

/-- **C117** The root computed by the model, digit by digit, is the IEEE square root. -/
theorem C117_computed (e : FTy) (x : FLane e) : IsSqrt e.man x (Flt.sqrt e.man x) := sqrt_isSqrt (format_fty e) x

/-- **C117** The IEEE square root is unique (but for the payload of NaN), so `sqrt` gives the same result on every target and in every lane. -/
theorem C117_unique {w man : Nat} (hf : Format w man) (x y y' : BitVec w) (h : IsSqrt man x y) (h' : IsSqrt man x y') :
    valueOf man y = valueOf man y' ∧ (valueOf man y ≠ .nan → y = y') := isSqrt_unique hf h h'

/-- **C117** The relative error of the root of a positive lane is at most the unit roundoff, whatever its size; it is the exact root if that is a float;
and roots are in the order of their arguments. -/
theorem C117_sqrt_accurate (e : FTy) (x y : FLane e) (hx : 0 < realVal e.man x) (h : IsSqrt e.man x y) :
    IsFinite e.man y ∧ 0 < realVal e.man y ∧ |realVal e.man y - √(realVal e.man x)| ≤ unitRoundoff e.man * √(realVal e.man x) ∧
    (∀ c : FLane e, IsFinite e.man c → realVal e.man c * realVal e.man c = realVal e.man x → realVal e.man y = |realVal e.man c|) ∧
    (∀ x' y' : FLane e, IsSqrt e.man x' y' → realVal e.man x < realVal e.man x' → realVal e.man y ≤ realVal e.man y') := by
  have hf := format_fty e
  have hr := roomy e
  exact ⟨((isSqrt_pos_iff hx).1 h).2.1, isSqrt_pos hf hr.two_man hx h, isSqrt_error hf hr.two_man hx h,
    fun c hc he => isSqrt_exact hf hx h hc he, fun x' y' h' hlt => isSqrt_mono hx hlt h h'⟩

/-- **C117** `(x * x).sqrt()` is `x.abs()`, bit for bit, in every lane whose square neither overflows nor falls below the least normal number. -/
theorem C117_sqrt_of_square (t : Target) (hf : FeaturesClosed t) (W : World) (hW : SqrtCorrect W) (ty : FVTy) (hty : ty ∈ floatTypes)
    (junk : Nat → Nat → Byte) (x : FV ty) :
    ∃ r, eval t W junk .sqrt ty [FVec.mul ty.elem.man x x] = .ok r ∧ ∀ i (hi : i < ty.lanes),
      IsFinite ty.elem.man x[i] → IsFinite ty.elem.man (FVec.mul ty.elem.man x x)[i] →
      2 ^ ty.elem.man / 2 ^ low (8 * ty.elem.bytes) ty.elem.man ≤ realVal ty.elem.man x[i] * realVal ty.elem.man x[i] → r[i] = Flt.abs x[i] := by
  obtain ⟨r, hr, h⟩ := C117_sqrt t hf W hW ty hty junk (FVec.mul ty.elem.man x x)
  refine ⟨r, hr, fun i hi hx hm hn => ?_⟩
  have := h i hi
  simp only [FVec.mul, Vector.getElem_zipWith] at this hm
  exact sqrt_square (format_fty _) (roomy _).two_man hx hm hn this

/-- Whether `sqrte` uses SLEEF's less accurate square roots. -/
def SleefEstimates (t : Target) : Prop := t.arch = .x86_64 ∧ t.sleef = true ∧ (t.avx2 = true ∨ t.avx = true ∨ t.sse42 = true)

/-- What is checked of each `sqrte` entry. -/
def sqrteOk (c : Cfg) (ty : FVTy) : Bool :=
  match resolve (MathTables.sqrte c) ty with
  | .ok st => fits c .sqrt ty st && (Strat.acc st = 0 || (Strat.acc st = 35 && (c.x64Sleef && (c.avx2 || c.avx || c.sse42))))
  | .error _ => false

theorem sqrte_table : ∀ s x a2 a s4 s2 : Bool, (a = true → s4 = true) → ∀ ty ∈ floatTypes, sqrteOk ⟨s, x, a2, a, s4, s2⟩ ty = true := by
  decide +kernel

theorem sqrte_lib (t : Target) (hf : FeaturesClosed t) (W : World) (ty : FVTy) (hty : ty ∈ floatTypes) :
    ∃ lib : Lib, lib.op = .sqrt ∧ (lib.acc = 0 ∨ lib.acc = 35 ∧ SleefEstimates t) ∧
      ∀ junk x, eval t W junk .sqrte ty [x] = .ok (x.map fun y => W.fn ty.elem lib [y]) := by
  have h : sqrteOk (cfgOf t) ty = true := sqrte_table _ _ _ _ _ _ hf ty hty
  unfold sqrteOk at h
  cases hres : resolve (MathTables.sqrte (cfgOf t)) ty with
  | error e => rw [hres] at h; simp at h
  | ok st =>
    rw [hres] at h
    simp only [Bool.and_eq_true, Bool.or_eq_true, decide_eq_true_eq] at h
    obtain ⟨hfit, hacc⟩ := h
    obtain ⟨lib, hop, ha, hrun⟩ := run_of_fits t W .sqrt ty st hfit
    refine ⟨lib, hop, ?_, fun junk x => ?_⟩
    · rw [ha]
      rcases hacc with h | ⟨h1, h2, h3⟩
      · exact .inl h
      · simp only [cfgOf, Bool.and_eq_true, decide_eq_true_eq] at h2 h3
        exact .inr ⟨h1, h2.1, h2.2, or_assoc.1 h3⟩
    · have : eval t W junk .sqrte ty [x] = run t W junk ty [x] st := by
        unfold eval
        rw [show Method.sqrte.table = MathTables.sqrte from rfl, hres, R_ok_bind]
      rw [this, hrun]
      congr 1
      ext i hi
      simp [lanewise]

/-- **C117** `sqrte` is the IEEE square root unless it uses SLEEF's less accurate functions. -/
theorem C117_sqrte (t : Target) (hf : FeaturesClosed t) (ht : ¬SleefEstimates t) (W : World) (hW : SqrtCorrect W) (ty : FVTy) (hty : ty ∈ floatTypes)
    (junk : Nat → Nat → Byte) (x : FV ty) :
    ∃ r, eval t W junk .sqrte ty [x] = .ok r ∧ ∀ i (hi : i < ty.lanes), IsSqrt ty.elem.man x[i] r[i] := by
  obtain ⟨lib, hop, hacc, h⟩ := sqrte_lib t hf W ty hty
  refine ⟨_, h junk x, fun i hi => ?_⟩
  rw [Vector.getElem_map]
  exact hW _ _ _ hop (hacc.resolve_right fun h => ht h.2)

/-- **C117** In any case, the relative error of `sqrte` on positive lanes is the unit roundoff or the error `c` of SLEEF's less accurate functions. -/
theorem C117_sqrte_accurate (t : Target) (hf : FeaturesClosed t) (W : World) (hW : SqrtCorrect W) (c : ℝ)
    (hc : ∀ (e : FTy) (lib : Lib) (x : FLane e), lib.op = .sqrt → lib.acc = 35 → 0 < realVal e.man x →
      |realVal e.man (W.fn e lib [x]) - √(realVal e.man x)| ≤ c * √(realVal e.man x))
    (ty : FVTy) (hty : ty ∈ floatTypes) (junk : Nat → Nat → Byte) (x : FV ty) :
    ∃ r, eval t W junk .sqrte ty [x] = .ok r ∧ ∀ i (hi : i < ty.lanes), 0 < realVal ty.elem.man x[i] →
      |realVal ty.elem.man r[i] - √(realVal ty.elem.man x[i])| ≤ max (unitRoundoff ty.elem.man) c * √(realVal ty.elem.man x[i]) := by
  obtain ⟨lib, hop, hacc, h⟩ := sqrte_lib t hf W ty hty
  refine ⟨_, h junk x, fun i hi hx => ?_⟩
  rw [Vector.getElem_map]
  rcases hacc with h | ⟨h, -⟩
  · exact (C117_sqrt_accurate _ _ _ hx (hW _ _ _ hop h)).2.2.1.trans (mul_le_mul_of_nonneg_right (le_max_left _ _) (Real.sqrt_nonneg _))
  · exact (hc _ _ _ hop h hx).trans (mul_le_mul_of_nonneg_right (le_max_right _ _) (Real.sqrt_nonneg _))

/-- **C117** `rsqrte` of positive lanes, on every target: never overflows or underflows, and its relative error is at most `2u / (1 - u)`, `u` the unit
roundoff.  (That is below 1.2e-7 for `f32`; the documentation leaves the precision of the estimate open, the unit tests allow 2.4e-4.) -/
theorem C117_rsqrte (W : World) (hW : SqrtCorrect W) (ty : FVTy) (x : FV ty) (i : Nat) (hi : i < ty.lanes) (hx : 0 < realVal ty.elem.man x[i]) :
    IsFinite ty.elem.man (rsqrte W ty x)[i] ∧ |realVal ty.elem.man (rsqrte W ty x)[i] - 1 / √(realVal ty.elem.man x[i])| ≤
      2 * unitRoundoff ty.elem.man / (1 - unitRoundoff ty.elem.man) * (1 / √(realVal ty.elem.man x[i])) := by
  have := rsqrt_error (format_fty _) (roomy _) hx (hW ty.elem ⟨.sqrt, .llvm, 0, ty.lanes⟩ x[i] rfl rfl)
  simpa [rsqrte, FVec.div, splat] using this

/-- **C117** `rsqrte` of the other lanes: NaN for NaN and negative numbers, infinities (with the sign) for zeros, zero for infinity. -/
theorem C117_rsqrte_special (W : World) (hW : SqrtCorrect W) (ty : FVTy) (x : FV ty) (i : Nat) (hi : i < ty.lanes) :
    (valueOf ty.elem.man x[i] = .nan → valueOf ty.elem.man (rsqrte W ty x)[i] = .nan) ∧
    (realVal ty.elem.man x[i] < 0 ∨ valueOf ty.elem.man x[i] = .inf true → valueOf ty.elem.man (rsqrte W ty x)[i] = .nan) ∧
    (valueOf ty.elem.man x[i] = .num 0 → valueOf ty.elem.man (rsqrte W ty x)[i] = .inf (isNeg x[i])) ∧
    (valueOf ty.elem.man x[i] = .inf false → valueOf ty.elem.man (rsqrte W ty x)[i] = .num 0) := by
  have hf := format_fty ty.elem
  have hs := hW ty.elem ⟨.sqrt, .llvm, 0, ty.lanes⟩ x[i] rfl rfl
  have he : (rsqrte W ty x)[i] = Flt.div ty.elem.man (Flt.fromInt _ ty.elem.man 1) (W.fn ty.elem ⟨.sqrt, .llvm, 0, ty.lanes⟩ [x[i]]) := by
    simp [rsqrte, FVec.div, splat]
  rw [he]
  exact rsqrt_special hf hs

/-- **C117** `recpre` of non-zero finite lanes: the exact reciprocal rounded; for all lanes from `2^-126` to `2^126` (`f32`), `2^-1022` to `2^1022` (`f64`)
it is finite and its relative error at most the unit roundoff. -/
theorem C117_recpre (ty : FVTy) (x : FV ty) (i : Nat) (hi : i < ty.lanes) (hx : IsFinite ty.elem.man x[i]) (h0 : realVal ty.elem.man x[i] ≠ 0) :
    RealRound ty.elem.man (FVec.recpre ty.elem.man x)[i] (1 / realVal ty.elem.man x[i]) (relOrTiny (8 * ty.elem.bytes) ty.elem.man (1 / realVal ty.elem.man x[i])) ∧
    (∀ E : Nat, E = (match ty.elem with | .f32 => 126 | .f64 => 1022) → 1 / 2 ^ E ≤ |realVal ty.elem.man x[i]| → |realVal ty.elem.man x[i]| ≤ 2 ^ E →
      RealRound ty.elem.man (FVec.recpre ty.elem.man x)[i] (1 / realVal ty.elem.man x[i]) (relErr ty.elem.man (1 / realVal ty.elem.man x[i])) ∧
      IsFinite ty.elem.man (FVec.recpre ty.elem.man x)[i]) := by
  have he : (FVec.recpre ty.elem.man x)[i] = Flt.div ty.elem.man (Flt.fromInt _ ty.elem.man 1) x[i] := by simp [FVec.recpre, FVec.div, splat]
  rw [he]
  have := recip_error (format_fty _) (roomy _) hx h0
  refine ⟨this.1, ?_⟩
  rintro E rfl h1 h2
  have hE : low (8 * ty.elem.bytes) ty.elem.man - ty.elem.man = (match ty.elem with | .f32 => 126 | .f64 => 1022) := by cases ty.elem <;> rfl
  rw [← hE] at h1 h2
  exact this.2 h1 h2

/-! ### A correct library exists -/

/-- A library whose unary functions are square roots. -/
def sqrtWorld : World := ⟨fun e _ l => match l with | [x] => Flt.sqrt e.man x | _ => 0, fun _ _ x => (x, x)⟩

theorem sqrtWorld_correct : SqrtCorrect sqrtWorld := fun e _ x _ _ => sqrt_isSqrt (format_fty e) x

/-- `f32x4`, on a target without and a target with SLEEF: the roots of 2, 1/4, -1 and -0. -/
example : eval armNeon sqrtWorld (fun _ _ => 0) .sqrt ⟨.f32, 4⟩ [#v[0x40000000, 0x3e800000, 0xbf800000, 0x80000000]] =
      .ok #v[0x3fb504f3, 0x3f000000, 0x7fc00000, 0x80000000] ∧
    eval x64Sleef sqrtWorld (fun _ _ => 0) .sqrte ⟨.f32, 4⟩ [#v[0x40000000, 0x3e800000, 0xbf800000, 0x80000000]] =
      .ok #v[0x3fb504f3, 0x3f000000, 0x7fc00000, 0x80000000] ∧
    rsqrte sqrtWorld ⟨.f32, 4⟩ #v[0x40000000, 0x3e800000, 0xbf800000, 0x80000000] = #v[0x3f3504f3, 0x40000000, 0x7fc00000, 0xff800000] := by
  decide +kernel

/-- The square root of the square of 3.0000002 (`f64`: 1.1) is that number, although the squares are rounded. -/
example : Flt.sqrt 23 (Flt.mul 23 (0x40400001 : BitVec 32) 0x40400001) = 0x40400001 ∧ Flt.mul 23 (0x40400001 : BitVec 32) 0x40400001 = 0x41100002 ∧
    Flt.sqrt 52 (Flt.mul 52 (0x3ff199999999999a : BitVec 64) 0x3ff199999999999a) = 0x3ff199999999999a := by decide +kernel

/-- Below the normal numbers the square loses too many bits. -/
example : Flt.sqrt 23 (Flt.mul 23 (0x1b490fdb : BitVec 32) 0x1b490fdb) ≠ 0x1b490fdb := by decide +kernel

end PackedSimd.Props
