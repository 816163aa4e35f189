import Verif.Lemmas.AoFloatDir
import Verif.Lemmas.AoOcclusion
/-
examples/aobench/src in `f32` arithmetic, C118: normals, the basis built on them and the directions of samples.  C94-C97 (AoGeometry.lean) are
about exact arithmetic.
-/
namespace PackedSimd.Props
open Ex Ex.Ao Spec Spec.Ao F32R Mandel

variable {n : Nat} (ma : F32 → F32 → F32 → F32) (sqrt sqrte sin cos : F32 → F32) (pi : F32) (scp : F32 → F32 × F32)

local notation "F" => f32 ma sqrt sqrte sin cos pi scp

theorem normOk_scalar (hs : RootOk sqrt) : NormOk (V3.normalized F) :=
  (smul_normOk dot_dotOk hs (lit1 ma sqrt sqrte sin cos pi scp)).1

theorem normOk_packet (hs : RootOk sqrt) (hm : MulAddOk ma) : NormOk (mnormalized F) :=
  (smul_normOk (mdot_dotOk F hm) hs (lit1 ma sqrt sqrte sin cos pi scp)).2

theorem normal_of {nrm : V3 F32 → V3 F32} (hN : NormOk nrm) {v : V3 F32} (hv : FiniteV v) (h1 : 1 / 2 ^ 100 ≤ inner (toReal v) (toReal v))
    (h2 : inner (toReal v) (toReal v) ≤ 2 ^ 100) : Close 4.7 (nrm v) (direction (toReal v)) ∧ AlmostUnit (9.5 * ulp) (nrm v) := by
  obtain ⟨f, c⟩ := hN v hv h1 h2
  have hu := close_unit (scale_unit (lt_of_lt_of_le (by positivity) h1)) c
  obtain ⟨c1, c2, c3⟩ := c
  refine ⟨⟨f, ?_, ?_, ?_⟩, f, hu⟩
  · rw [mul_assoc]; exact c1
  · rw [mul_assoc]; exact c2
  · rw [mul_assoc]; exact c3

/-- C118: a normalized vector has, in every component, the value of the unit vector up to 4.7 roundings, and its squared length is 1 up to 9.5. -/
theorem C118_normalized (hs : RootOk sqrt) (v : V3 F32) (hv : FiniteV v) (h1 : 1 / 2 ^ 100 ≤ inner (toReal v) (toReal v))
    (h2 : inner (toReal v) (toReal v) ≤ 2 ^ 100) :
    Close 4.7 (V3.normalized F v) (direction (toReal v)) ∧ AlmostUnit (9.5 * ulp) (V3.normalized F v) :=
  normal_of (normOk_scalar ma sqrt sqrte sin cos pi scp hs) hv h1 h2

/-- C118: so has every vector of a packet, whether `mul_adde` rounds once or twice. -/
theorem C118_normalized_packet (hs : RootOk sqrt) (hm : MulAddOk ma) (v : V3N.V3N F32 n) (i : Nat) (h : i < n) (hv : FiniteV (v.lane i h))
    (h1 : 1 / 2 ^ 100 ≤ inner (toReal (v.lane i h)) (toReal (v.lane i h))) (h2 : inner (toReal (v.lane i h)) (toReal (v.lane i h)) ≤ 2 ^ 100) :
    Close 4.7 ((V3N.normalized F v).lane i h) (direction (toReal (v.lane i h))) ∧ AlmostUnit (9.5 * ulp) ((V3N.normalized F v).lane i h) := by
  rw [normalized_lane]
  exact normal_of (normOk_packet ma sqrt sqrte sin cos pi scp hs hm) hv h1 h2

/-- C118: the normal recorded where a ray hits a sphere is a unit vector up to 9.5 roundings. -/
theorem C118_sphere_normal (hs : RootOk sqrt) (ray : Ray F32) (s : Sphere F32) (isect : Isect F32) :
    raySphere F ray s isect = isect ∨ ∃ t p, raySphere F ray s isect = ⟨t, p, V3.normalized F (V3.sub p s.center), true⟩ ∧
      (FiniteV (V3.sub p s.center) → 1 / 2 ^ 100 ≤ inner (toReal (V3.sub p s.center)) (toReal (V3.sub p s.center)) →
        inner (toReal (V3.sub p s.center)) (toReal (V3.sub p s.center)) ≤ 2 ^ 100 → AlmostUnit (9.5 * ulp) (raySphere F ray s isect).n) := by
  have key : ∀ t p, raySphere F ray s isect = ⟨t, p, V3.normalized F (V3.sub p s.center), true⟩ →
      ∃ t p, raySphere F ray s isect = ⟨t, p, V3.normalized F (V3.sub p s.center), true⟩ ∧
      (FiniteV (V3.sub p s.center) → 1 / 2 ^ 100 ≤ inner (toReal (V3.sub p s.center)) (toReal (V3.sub p s.center)) →
        inner (toReal (V3.sub p s.center)) (toReal (V3.sub p s.center)) ≤ 2 ^ 100 → AlmostUnit (9.5 * ulp) (raySphere F ray s isect).n) :=
    fun t p e => ⟨t, p, e, fun a b c => by rw [e]; exact (C118_normalized ma sqrt sqrte sin cos pi scp hs _ a b c).2⟩
  by_cases h1 : (F).gt (V3.dot (V3.sub ray.origin s.center) ray.dir * V3.dot (V3.sub ray.origin s.center) ray.dir -
      (V3.dot (V3.sub ray.origin s.center) (V3.sub ray.origin s.center) - s.radius * s.radius)) ((F).lit 0) = true
  · unfold raySphere at *
    dsimp only at *
    rw [if_pos h1] at *
    split
    · rename_i h2
      rw [if_pos h2] at key
      exact .inr (key _ _ rfl)
    · exact .inl rfl
  · unfold raySphere
    dsimp only
    rw [if_neg h1]
    exact .inl rfl

/-- C118: the basis built on a normal of length 1 up to 1/1000. -/
theorem C118_basis (hs : RootOk sqrt) (v : V3 F32) (hv : AlmostUnit (1 / 1000) v) :
    AlmostBasis v (V3.orthoBasis F v).b0 (V3.orthoBasis F v).b1 ∧ (V3.orthoBasis F v).b2 = v :=
  ⟨basis_ok ma sqrt sqrte sin cos pi scp (normOk_scalar ma sqrt sqrte sin cos pi scp hs) v _ _ hv rfl rfl, rfl⟩

/-- C118: and on every normal of a packet. -/
theorem C118_basis_packet (hs : RootOk sqrt) (hm : MulAddOk ma) (v : V3N.V3N F32 n) (i : Nat) (h : i < n) (hv : AlmostUnit (1 / 1000) (v.lane i h)) :
    AlmostBasis (v.lane i h) ((V3N.orthoBasis F v).b0.lane i h) ((V3N.orthoBasis F v).b1.lane i h) ∧ (V3N.orthoBasis F v).b2 = v := by
  refine ⟨basis_ok ma sqrt sqrte sin cos pi scp (normOk_packet ma sqrt sqrte sin cos pi scp hs hm) _ _ _ hv ?_ ?_, rfl⟩
  · unfold V3N.orthoBasis
    dsimp only
    rw [normalized_lane, cross_lane, axis_lane]
  · unfold V3N.orthoBasis
    dsimp only
    rw [normalized_lane, cross_lane]

theorem sample_of {dot : V3 F32 → V3 F32 → F32} (hd : DotOk dot) (hs : RootOk sqrt) {sqrt' : F32 → F32} (hs' : RootOk sqrt') {δ ε : ℝ} (hδ : δ ≤ 1 / 1000)
    (hε : ε ≤ 1 / 100) {v b0 b1 : V3 F32} (hv : AlmostUnit δ v) (hb : AlmostBasis v b0 b1) {r s c : F32} (hr : IsFinite 23 r.bits)
    (r0 : 0 ≤ realVal 23 r.bits) (r1 : realVal 23 r.bits < 1) (ht : TrigOk ε s c) {d : V3 F32}
    (hx : d.x = dot ⟨c * sqrt' r, s * sqrt' r, sqrt ((F).lit 1 - sqrt' r * sqrt' r)⟩ ⟨b0.x, b1.x, v.x⟩)
    (hy : d.y = dot ⟨c * sqrt' r, s * sqrt' r, sqrt ((F).lit 1 - sqrt' r * sqrt' r)⟩ ⟨b0.y, b1.y, v.y⟩)
    (hz : d.z = dot ⟨c * sqrt' r, s * sqrt' r, sqrt ((F).lit 1 - sqrt' r * sqrt' r)⟩ ⟨b0.z, b1.z, v.z⟩) :
    AlmostSample δ ε v (realVal 23 r.bits) d := by
  obtain ⟨f1, e1⟩ := lit1_ok ma sqrt sqrte sin cos pi scp
  obtain ⟨hu, z0, z1, hzz⟩ := hemi_ok hs hs' f1 e1 hr r0 r1 ht hε
  have hν := ν_pos
  have hνl := ν_le
  obtain ⟨B0, B1, p0, p1, p2, -⟩ := hb
  obtain ⟨k1, k2⟩ := turn_ok hd hδ (by linarith) B0 B1 hv p0 p1 p2 hu (by rw [abs_of_nonneg z0]; exact z1)
  rw [show d = ⟨_, _, _⟩ from V3.ext' hx hy hz]
  refine ⟨⟨k1.1, k1.2.trans ?_⟩, _, z0, z1, by rw [sq]; exact hzz, k2⟩
  show ε + 4 * ν + δ + 53 * ν ≤ δ + ε + 60 * ν
  linarith

/-- C118: for a normal of length 1 up to `δ` and a random number `r₁` in `[0, 1)`, the direction of a sample is a unit vector, and its cosine with the
normal the root of `1 - r₁`, up to the stated errors; `ε` is the error of the sine and cosine of the angle made from `r₂`. -/
theorem C118_direction (hs : RootOk sqrt) {δ ε : ℝ} (hδ : δ ≤ 1 / 1000) (hε : ε ≤ 1 / 100) (v : V3 F32) (hv : AlmostUnit δ v) (r₁ r₂ : F32)
    (hr : IsFinite 23 r₁.bits) (r0 : 0 ≤ realVal 23 r₁.bits) (r1 : realVal 23 r₁.bits < 1)
    (ht : TrigOk ε (sin ((F).lit 2 * pi * r₂)) (cos ((F).lit 2 * pi * r₂))) :
    AlmostSample δ ε v (realVal 23 r₁.bits) (sampleDir F (V3.orthoBasis F v) r₁ r₂) :=
  sample_of ma sqrt sqrte sin cos pi scp dot_dotOk hs hs hδ hε hv (C118_basis ma sqrt sqrte sin cos pi scp hs v ⟨hv.1, hv.2.trans hδ⟩).1 hr r0 r1 ht rfl rfl rfl

/-- C118: so is every direction of a packet of samples of one normal, if `sqrte` is the square root (as it is without SLEEF: C117). -/
theorem C118_direction_packet (hs : RootOk sqrt) (he : RootOk sqrte) (hm : MulAddOk ma) {δ ε : ℝ} (hδ : δ ≤ 1 / 1000) (hε : ε ≤ 1 / 100) (v : V3 F32)
    (hv : AlmostUnit δ v) (θ φ : Vec F32 n) (i : Nat) (h : i < n) (hr : IsFinite 23 θ[i].bits) (r0 : 0 ≤ realVal 23 θ[i].bits)
    (r1 : realVal 23 θ[i].bits < 1) (ht : TrigOk ε (scp ((F).lit 2 * φ[i])).1 (scp ((F).lit 2 * φ[i])).2) :
    AlmostSample δ ε v (realVal 23 θ[i].bits) ((V3N.mulM F (V3.orthoBasis F v) (hemi F θ φ)).lane i h) := by
  refine sample_of ma sqrt sqrte sin cos pi scp (mdot_dotOk F hm) hs he hδ hε hv (C118_basis ma sqrt sqrte sin cos pi scp hs v ⟨hv.1, hv.2.trans hδ⟩).1 hr r0 r1 ht ?_ ?_ ?_ <;>
  · unfold V3N.mulM V3.lane hemi mdot
    simp only [vmulAdde_get, vmul_get, vsub_get, splat_get, map_get]
    rfl

/-- C118: and every direction of a packet of samples of as many normals. -/
theorem C118_direction_tiled (hs : RootOk sqrt) (he : RootOk sqrte) (hm : MulAddOk ma) {δ ε : ℝ} (hδ : δ ≤ 1 / 1000) (hε : ε ≤ 1 / 100)
    (v : V3N.V3N F32 n) (θ φ : Vec F32 n) (i : Nat) (h : i < n) (hv : AlmostUnit δ (v.lane i h)) (hr : IsFinite 23 θ[i].bits)
    (r0 : 0 ≤ realVal 23 θ[i].bits) (r1 : realVal 23 θ[i].bits < 1)
    (ht : TrigOk ε (scp ((F).lit 2 * φ[i])).1 (scp ((F).lit 2 * φ[i])).2) :
    AlmostSample δ ε (v.lane i h) (realVal 23 θ[i].bits) ((V3N.mulMN F (V3N.orthoBasis F v) (hemi F θ φ)).lane i h) := by
  refine sample_of ma sqrt sqrte sin cos pi scp (mdot_dotOk F hm) hs he hδ hε hv (C118_basis_packet ma sqrt sqrte sin cos pi scp hs hm v i h ⟨hv.1, hv.2.trans hδ⟩).1
    hr r0 r1 ht ?_ ?_ ?_ <;>
  · unfold V3N.mulMN V3.lane
    simp only [dot_get F _ _ i h]
    unfold V3.lane hemi
    simp only [vmul_get, vsub_get, splat_get, map_get]
    rfl

/-- C118: with a `sqrte` that is only accurate to 3.5 ulp, as documented for SLEEF's, a sample can have no direction: if the root of `1 - 2^-24` is
estimated as `1 + 2^-23`, the third component is the root of a negative number. -/
theorem C118_estimate_fails (hs : RootOk sqrt) : ∃ sqrte : F32 → F32,
    (∀ x : F32, 0 < realVal 23 x.bits → IsFinite 23 (sqrte x).bits ∧ |realVal 23 (sqrte x).bits - √(realVal 23 x.bits)| ≤ 3.5 * ulp * √(realVal 23 x.bits)) ∧
    ∃ r : F32, IsFinite 23 r.bits ∧ 0 ≤ realVal 23 r.bits ∧ realVal 23 r.bits < 1 ∧ ∀ (φ : Vec F32 n) (i : Nat) (h : i < n),
      valueOf 23 (hemi (f32 ma sqrt sqrte sin cos pi scp) (splat n r) φ).z[i].bits = .nan := by
  have hr : valueOf 23 (0x3f7fffff : BitVec 32) = .num ((2 ^ 24 - 1) * 2 ^ 125) := by decide +kernel
  have ht : valueOf 23 (0x3f800001 : BitVec 32) = .num ((2 ^ 23 + 1) * 2 ^ 126) := by decide +kernel
  have er : realVal 23 (0x3f7fffff : BitVec 32) = 1 - 1 / 2 ^ 24 := by
    rw [realVal_num hr, show low 32 23 = 149 by decide]; norm_num
  have et : realVal 23 (0x3f800001 : BitVec 32) = 1 + 1 / 2 ^ 23 := by
    rw [realVal_num ht, show low 32 23 = 149 by decide]; norm_num
  refine ⟨fun x => if x.bits = 0x3f7fffff then ⟨0x3f800001⟩ else sqrt x, fun x hx => ?_, ⟨0x3f7fffff⟩, ⟨_, hr⟩, by rw [er]; norm_num, by rw [er]; norm_num, fun φ i h => ?_⟩
  · dsimp only
    by_cases hb : x.bits = 0x3f7fffff
    · rw [if_pos hb, hb]
      refine ⟨⟨_, ht⟩, ?_⟩
      rw [er, et]
      have l1 : √(1 - 1 / 2 ^ 24 : ℝ) ≤ 1 := Real.sqrt_le_one.2 (by norm_num)
      have l2 : (1 - 1 / 2 ^ 24 : ℝ) ≤ √(1 - 1 / 2 ^ 24 : ℝ) := Real.le_sqrt_of_sq_le (by norm_num)
      rw [abs_of_nonneg (by norm_num at l1 ⊢; linarith)]
      unfold ulp
      norm_num at l1 l2 ⊢
      linarith
    · rw [if_neg hb]
      obtain ⟨-, hf, -⟩ := (isSqrt_pos_iff hx).1 (hs x)
      refine ⟨hf, (isSqrt_error fmt roomy32.two_man hx (hs x)).trans ?_⟩
      rw [u_eq]
      have h0 : 0 ≤ √(realVal 23 x.bits) := Real.sqrt_nonneg _
      have : ν * √(realVal 23 x.bits) ≤ 3.5 * (ν * √(realVal 23 x.bits)) := by linarith [mul_nonneg ν_pos.le h0]
      rw [mul_assoc]
      exact this
  · unfold hemi
    simp only [vmul_get, vsub_get, splat_get, map_get]
    have hv : valueOf 23 (Flt.sub 23 (Flt.fromInt 32 23 1) (Flt.mul 23 (0x3f800001 : BitVec 32) 0x3f800001)) = .num (-(2 ^ 127)) := by decide +kernel
    have := hs ⟨Flt.sub 23 (Flt.fromInt 32 23 1) (Flt.mul 23 (0x3f800001 : BitVec 32) 0x3f800001)⟩
    unfold IsSqrt at this
    rw [hv] at this
    rw [← lit1 ma sqrt (fun x => if x.bits = 0x3f7fffff then ⟨0x3f800001⟩ else sqrt x) sin cos pi scp] at this
    exact this

/-! ### Examples -/

/-- The functions the theorems suppose exist. -/
example : RootOk (fun x => ⟨Flt.sqrt 23 x.bits⟩) := fun x => sqrt_isSqrt fmt x.bits
example : MulAddOk (fun a b c => a * b + c) := fun a b c => .inr ⟨_, mul_rounds fmt a.bits b.bits, add_rounds fmt _ c.bits⟩

/-- `f32` with these functions; the angle is always 0. -/
def aoF : Fns F32 := f32 (fun a b c => a * b + c) (fun x => ⟨Flt.sqrt 23 x.bits⟩) (fun x => ⟨Flt.sqrt 23 x.bits⟩) (fun _ => 0) (fun _ => 1) ⟨0x40490fdb⟩ (fun _ => (0, 1))

/-- The vector (1, 2, 3) normalized, the basis built on it and the sample for `r₁ = 1/4`. -/
example :
    let v : V3 F32 := V3.normalized aoF ⟨⟨0x3f800000⟩, ⟨0x40000000⟩, ⟨0x40400000⟩⟩
    let d := sampleDir aoF (V3.orthoBasis aoF v) ⟨0x3e800000⟩ 0
    (v.x.bits, v.y.bits, v.z.bits) = (0x3e88d677, 0x3f08d677, 0x3f4d41b2) ∧ (d.x.bits, d.y.bits, d.z.bits) = (0x3e6d028b, 0x3d400a60, 0x3f78c252) := by decide +kernel

/-- The hypotheses of `C118_direction` for the normal (0, 0, 1). -/
example : AlmostUnit 0 ⟨0, 0, 1⟩ ∧ TrigOk 0 0 1 := by
  obtain ⟨z, z'⟩ := zero_ok
  obtain ⟨o, o'⟩ := one_ok
  have ez : realVal 23 (0 : F32).bits = 0 := z'
  have eo : realVal 23 (1 : F32).bits = 1 := o'
  refine ⟨⟨⟨z, z, o⟩, ?_⟩, z, o, ?_, ?_, ?_⟩
  · show |realVal 23 (0 : F32).bits * realVal 23 (0 : F32).bits + realVal 23 (0 : F32).bits * realVal 23 (0 : F32).bits +
      realVal 23 (1 : F32).bits * realVal 23 (1 : F32).bits - 1| ≤ 0
    rw [ez, eo]; norm_num
  all_goals simp only [ez, eo]; norm_num

end PackedSimd.Props
