import Verif.Lemmas.AoHit
import Verif.Props.AoFloat
/-
examples/aobench/src/intersection in `f32` arithmetic, C136: where rays hit planes and spheres.  C94 and C95 (AoGeometry.lean) are about exact arithmetic.
-/
namespace PackedSimd.Props
open Ex Ex.Ao Spec Spec.Ao F32R Mandel

variable {n : Nat} (ma : F32 → F32 → F32 → F32) (sqrt sqrte sin cos : F32 → F32) (pi : F32) (scp : F32 → F32 × F32)

local notation "F" => f32 ma sqrt sqrte sin cos pi scp

theorem lit17 : Fin' ((F).lit (1 / 100000000000000000)) ∧ 1 / 2 ^ 57 ≤ rv ((F).lit (1 / 100000000000000000)) ∧
    rv ((F).lit (1 / 100000000000000000)) ≤ 1.0009 / 10 ^ 17 := by
  have h : valueOf 23 ((F).lit (1 / 100000000000000000)).bits = .num (0xb877aa * 2 ^ 69) := by
    show valueOf 23 (Flt.roundInt 32 23 false (((1 / 100000000000000000 : Rat).num) * 2 ^ 149) ((1 / 100000000000000000 : Rat).den)) = _
    decide +kernel
  refine ⟨⟨_, h⟩, ?_⟩
  unfold rv
  rw [realVal_num h, show low 32 23 = 149 by decide]
  norm_num

theorem lit_neg : Fin' ((F).lit (-1)) ∧ rv ((F).lit (-1)) = -1 := by
  have h : valueOf 23 ((F).lit (-1)).bits = .num (-(2 ^ 149)) := by
    show valueOf 23 (Flt.roundInt 32 23 false (((-1 : Rat).num) * 2 ^ 149) ((-1 : Rat).den)) = _
    decide +kernel
  refine ⟨⟨_, h⟩, ?_⟩
  unfold rv
  rw [realVal_num h, show low 32 23 = 149 by decide]
  norm_num

/-- `splat(-1.) * v`. -/
theorem neg_lane {x : F32} (hx : Fin' x) (hb : |rv x| < 2 ^ 127) : Fin' ((F).lit (-1) * x) ∧ rv ((F).lit (-1) * x) = -rv x := by
  obtain ⟨f1, e1⟩ := lit_neg ma sqrt sqrte sin cos pi scp
  obtain ⟨f2, e2⟩ := neg_ok hx
  have e3 : rv ((F).lit (-1)) * rv x = -rv x := by rw [e1]; ring
  obtain ⟨f, -⟩ := mul_ok f1 hx (by rw [e3, abs_neg]; exact hb)
  have := mul_near f1 hx f (-x) f2
  rw [e3, e2, sub_self, abs_zero] at this
  exact ⟨f, sub_eq_zero.1 (abs_nonpos_iff.1 this)⟩

theorem point_of {ray : Ray F32} {t : F32} (ho : Moderate ray.origin) (hd : Moderate ray.dir) (ft : Fin' t) (bt : |rv t| ≤ 2 ^ 60) :
    PointAt (realRay ray) (rv t) (V3.add ray.origin (V3.smul t ray.dir)) ∧ PointAt (realRay ray) (rv t) (V3.add ray.origin (msmul t ray.dir)) := by
  obtain ⟨⟨ox, oy, oz⟩, bx, by', bz⟩ := ho
  obtain ⟨⟨dx, dy, dz⟩, gx, gy, gz⟩ := hd
  constructor
  · obtain ⟨f1, e1⟩ := point_comp ox dx ft bx gx bt (.inl rfl)
    obtain ⟨f2, e2⟩ := point_comp oy dy ft by' gy bt (.inl rfl)
    obtain ⟨f3, e3⟩ := point_comp oz dz ft bz gz bt (.inl rfl)
    exact ⟨⟨f1, f2, f3⟩, e1, e2, e3⟩
  · obtain ⟨f1, e1⟩ := point_comp ox dx ft bx gx bt (.inr rfl)
    obtain ⟨f2, e2⟩ := point_comp oy dy ft by' gy bt (.inr rfl)
    obtain ⟨f3, e3⟩ := point_comp oz dz ft bz gz bt (.inr rfl)
    exact ⟨⟨f1, f2, f3⟩, e1, e2, e3⟩

/-- Nearly parallel to the plane. -/
theorem parallel_of {v : F32} {V D : ℝ} (h : |rv v - V| ≤ 3.001 * (ν * D) + 7 * η) (hD : 0 ≤ D) (hv : |rv v| ≤ 1.0009 / 10 ^ 17) :
    |V| ≤ 1.001 / 10 ^ 17 + 3.01 * ulp * D := by
  rw [show V = -(rv v - V) + rv v by ring]
  have h1 := abs_add_le (-(rv v - V)) (rv v)
  rw [abs_neg] at h1
  have h2 : 7 * η ≤ 0.0001 / 10 ^ 17 := by unfold η; norm_num
  have h3 : 3.01 * ulp * D = 3.01 * (ν * D) := by unfold ulp ν; ring
  have h4 := mul_nonneg ν_pos.le hD
  rw [h3]
  linarith

/-- C136: the intersection of a ray and a plane with components up to `2^30`. -/
theorem C136_plane {ray : Ray F32} {pl : Plane F32} {old : Isect F32} (ho : Moderate ray.origin) (hd : Moderate ray.dir) (hp : Moderate pl.p) (hn : Moderate pl.n)
    (hT : IsFinite 23 old.t.bits) (bT : realVal 23 old.t.bits ≤ 2 ^ 60) :
    HitsPlane ray pl old (rayPlane F ray pl old) ∨ rayPlane F ray pl old = old ∧ MissesPlane ray pl old := by
  obtain ⟨fl, l1, l2⟩ := lit17 ma sqrt sqrte sin cos pi scp
  obtain ⟨fz, z0⟩ := lit0 ma sqrt sqrte sin cos pi scp
  obtain ⟨fv, ev, key⟩ := plane_t dot_dotOk ho hd hp hn (s' := -(V3.dot ray.origin pl.n + -V3.dot pl.p pl.n)) (fun x hx f _ => hx ▸ neg_ok (hx ▸ f))
  obtain ⟨fa, ea⟩ := realVal_abs fmt fv
  have ea' : rv ((F).abs (V3.dot ray.dir pl.n)) = |rv (V3.dot ray.dir pl.n)| := ea
  have hlt : (F).lt ((F).abs (V3.dot ray.dir pl.n)) ((F).lit (1 / 100000000000000000)) = true ↔ _ := lt_iff fa fl
  rw [ea'] at hlt
  unfold rayPlane
  dsimp only
  by_cases h : (F).lt ((F).abs (V3.dot ray.dir pl.n)) ((F).lit (1 / 100000000000000000)) = true
  · rw [if_pos h]
    exact .inr ⟨rfl, .inl (parallel_of ev (weight_nonneg _ _) ((hlt.1 h).le.trans l2))⟩
  · rw [if_neg h]
    rw [hlt, not_lt] at h
    obtain ⟨ft, et⟩ := key (l1.trans h)
    set t := -(V3.dot ray.origin pl.n + -V3.dot pl.p pl.n) / V3.dot ray.dir pl.n
    have g1 : (F).gt t ((F).lit 0) = true ↔ _ := gt_iff ft fz
    have g2 : (F).lt t old.t = true ↔ _ := lt_iff ft hT
    rw [z0] at g1
    by_cases h2 : ((F).gt t ((F).lit 0) && (F).lt t old.t) = true
    · rw [if_pos h2]
      rw [Bool.and_eq_true, g1, g2] at h2
      have bt : |rv t| ≤ 2 ^ 60 := by rw [abs_of_pos h2.1]; exact h2.2.le.trans bT
      have pt := (point_of ho hd ft bt).1
      exact .inl ⟨rfl, rfl, ft, h2.1, h2.2, meetsAt_of et, pt, onPlane_of hn h2.1 et pt⟩
    · rw [if_neg h2]
      rw [Bool.and_eq_true, g1, g2, not_and_or, not_lt, not_lt] at h2
      exact .inr ⟨rfl, .inr ⟨_, h2, meetsAt_of et⟩⟩

/-- C136: every lane of a packet. -/
theorem C136_plane_packet (hm : MulAddOk ma) {ray : Ray (Vec F32 n)} {pl : Plane F32} {old : IsectN F32 n} (i : Nat) (h : i < n)
    (ho : Moderate (ray.lane i h).origin) (hd : Moderate (ray.lane i h).dir) (hp : Moderate pl.p) (hn : Moderate pl.n)
    (hT : IsFinite 23 (old.lane i h).t.bits) (bT : realVal 23 (old.lane i h).t.bits ≤ 2 ^ 60) :
    HitsPlane (ray.lane i h) pl (old.lane i h) ((rayPlaneN F ray pl old).lane i h) ∨
    (rayPlaneN F ray pl old).lane i h = old.lane i h ∧ MissesPlane (ray.lane i h) pl (old.lane i h) := by
  rw [rayPlaneN_lane]
  generalize ray.lane i h = ray at *
  generalize old.lane i h = old at *
  obtain ⟨fl, l1, l2⟩ := lit17 ma sqrt sqrte sin cos pi scp
  obtain ⟨fz, z0⟩ := lit0 ma sqrt sqrte sin cos pi scp
  obtain ⟨fv, ev, key⟩ := plane_t (mdot_dotOk F hm) ho hd hp hn (s' := (F).lit (-1) * (mdot F ray.origin pl.n + -V3.dot pl.p pl.n))
    (fun x hx f b => by subst hx; exact neg_lane ma sqrt sqrte sin cos pi scp f (lt_of_le_of_lt b (by norm_num)))
  obtain ⟨fa, ea⟩ := realVal_abs fmt fv
  have ea' : rv ((F).abs (mdot F ray.dir pl.n)) = |rv (mdot F ray.dir pl.n)| := ea
  have hge : (F).ge ((F).abs (mdot F ray.dir pl.n)) ((F).lit (1 / 100000000000000000)) = true ↔ _ := ge_iff fa fl
  rw [ea'] at hge
  unfold lanePlane
  dsimp only
  cases h : (F).ge ((F).abs (mdot F ray.dir pl.n)) ((F).lit (1 / 100000000000000000))
  · have h' : |rv (mdot F ray.dir pl.n)| < rv ((F).lit (1 / 100000000000000000)) := by
      rw [← not_le, ← hge, h]
      simp
    simp only [Bool.false_and, Bool.false_eq_true, if_false]
    exact .inr ⟨trivial, .inl (parallel_of ev (weight_nonneg _ _) (h'.le.trans l2))⟩
  · simp only [Bool.true_and, if_true]
    rw [h] at hge
    obtain ⟨ft, et⟩ := key (l1.trans (hge.1 rfl))
    set t := (F).lit (-1) * (mdot F ray.origin pl.n + -V3.dot pl.p pl.n) / mdot F ray.dir pl.n
    have g1 : (F).gt t ((F).lit 0) = true ↔ _ := gt_iff ft fz
    have g2 : (F).lt t old.t = true ↔ _ := lt_iff ft hT
    rw [z0] at g1
    by_cases h2 : ((F).gt t ((F).lit 0) && (F).lt t old.t) = true
    · rw [if_pos h2]
      rw [Bool.and_eq_true, g1, g2] at h2
      have bt : |rv t| ≤ 2 ^ 60 := by rw [abs_of_pos h2.1]; exact h2.2.le.trans bT
      have pt := (point_of ho hd ft bt).2
      exact .inl ⟨rfl, rfl, ft, h2.1, h2.2, meetsAt_of et, pt, onPlane_of hn h2.1 et pt⟩
    · rw [if_neg h2]
      rw [Bool.and_eq_true, g1, g2, not_and_or, not_lt, not_lt] at h2
      exact .inr ⟨rfl, .inr ⟨_, h2, meetsAt_of et⟩⟩

/-- C136: the intersection of a ray, of direction of length 1 up to `δ`, and a sphere. -/
theorem C136_sphere (hs : RootOk sqrt) {ray : Ray F32} {sp : Sphere F32} {old : Isect F32} {δ : ℝ} (hδ : δ ≤ 1 / 1000) (ho : Moderate ray.origin)
    (hd : Moderate ray.dir) (hD : |len2 (toReal ray.dir) - 1| ≤ δ) (hc : Moderate sp.center) (hr : IsFinite 23 sp.radius.bits)
    (br : |realVal 23 sp.radius.bits| ≤ 2 ^ 30) (hT : IsFinite 23 old.t.bits) (bT : realVal 23 old.t.bits ≤ 2 ^ 60) :
    HitsSphere δ ray sp old (raySphere F ray sp old) ∨ raySphere F ray sp old = old ∧ MissesSphere δ ray sp old := by
  obtain ⟨fz, z0⟩ := lit0 ma sqrt sqrte sin cos pi scp
  have r0 : |rv sp.radius * rv sp.radius| ≤ 2 ^ 60 := by
    rw [abs_mul]
    exact (mul_le_mul br br (abs_nonneg _) (by norm_num)).trans (by norm_num)
  have lt : ∀ {x y : ℝ}, x ≤ y → y < 2 ^ 127 → x < 2 ^ 127 := fun h1 h2 => lt_of_le_of_lt h1 h2
  obtain ⟨fd, miss, key⟩ := sphere_t dot_dotOk hs ho hd hc br hδ hD
    (cc := V3.dot (V3.sub ray.origin sp.center) (V3.sub ray.origin sp.center) - sp.radius * sp.radius)
    (df := V3.dot (V3.sub ray.origin sp.center) ray.dir * V3.dot (V3.sub ray.origin sp.center) ray.dir -
      (V3.dot (V3.sub ray.origin sp.center) (V3.sub ray.origin sp.center) - sp.radius * sp.radius))
    (nb := -V3.dot (V3.sub ray.origin sp.center) ray.dir)
    (fun x hx f b => by
      rw [← hx]
      obtain ⟨f1, e1⟩ := mul_ok hr hr (lt r0 (by norm_num))
      have b1 := bound_of_err e1 r0
      obtain ⟨f2, e2⟩ := sub_ok f f1 (lt ((abs_sub _ _).trans (add_le_add b b1)) (by norm_num))
      exact ⟨f2, _, by rwa [abs_of_nonneg (mul_self_nonneg (rv sp.radius))] at e1, e2.trans (le_add_of_nonneg_right η_pos.le)⟩)
    (fun x hx f b fc bc => by
      rw [← hx]
      have b0 : |rv x * rv x| ≤ 2 ^ 72 := by
        rw [abs_mul]
        exact (mul_le_mul b b (abs_nonneg _) (by norm_num)).trans (by norm_num)
      obtain ⟨f1, e1⟩ := mul_ok f f (lt b0 (by norm_num))
      have b1 := bound_of_err e1 b0
      obtain ⟨f2, e2⟩ := sub_ok f1 fc (lt ((abs_sub _ _).trans (add_le_add b1 bc)) (by norm_num))
      exact ⟨f2, _, by rwa [abs_of_nonneg (mul_self_nonneg (rv x))] at e1, e2.trans (le_add_of_nonneg_right η_pos.le)⟩)
    (fun x hx f _ => hx ▸ neg_ok (hx ▸ f))
  unfold raySphere
  dsimp only
  set df := V3.dot (V3.sub ray.origin sp.center) ray.dir * V3.dot (V3.sub ray.origin sp.center) ray.dir -
      (V3.dot (V3.sub ray.origin sp.center) (V3.sub ray.origin sp.center) - sp.radius * sp.radius)
  have hgt : (F).gt df ((F).lit 0) = true ↔ _ := gt_iff fd fz
  rw [z0] at hgt
  by_cases h : (F).gt df ((F).lit 0) = true
  · rw [if_pos h]
    obtain ⟨ft, et⟩ := key (hgt.1 h)
    change HitsSphere δ ray sp old (if ((F).gt (-V3.dot (V3.sub ray.origin sp.center) ray.dir - sqrt df) ((F).lit 0) &&
      (F).lt (-V3.dot (V3.sub ray.origin sp.center) ray.dir - sqrt df) old.t) = true then _ else _) ∨ _
    set t := -V3.dot (V3.sub ray.origin sp.center) ray.dir - sqrt df
    have g1 : (F).gt t ((F).lit 0) = true ↔ _ := gt_iff ft fz
    have g2 : (F).lt t old.t = true ↔ _ := lt_iff ft hT
    rw [z0] at g1
    by_cases h2 : ((F).gt t ((F).lit 0) && (F).lt t old.t) = true
    · rw [if_pos h2]
      rw [Bool.and_eq_true, g1, g2] at h2
      have bt : |rv t| ≤ 2 ^ 60 := by rw [abs_of_pos h2.1]; exact h2.2.le.trans bT
      exact .inl ⟨rfl, ft, h2.1, h2.2, et, (point_of ho hd ft bt).1⟩
    · have e : (F).sqrt df = sqrt df := rfl
      rw [e]
      change _ ∨ (if ((F).gt t ((F).lit 0) && (F).lt t old.t) = true then _ else _) = old ∧ _
      rw [if_neg h2]
      rw [Bool.and_eq_true, g1, g2, not_and_or, not_lt, not_lt] at h2
      exact .inr ⟨rfl, .inr ⟨_, h2, et⟩⟩
  · rw [if_neg h]
    rw [hgt, not_lt] at h
    exact .inr ⟨rfl, .inl (miss h)⟩

/-- C136: every lane of a packet, whether `mul_adde` rounds once or twice. -/
theorem C136_sphere_packet (hs : RootOk sqrt) (hm : MulAddOk ma) {ray : Ray (Vec F32 n)} {sp : Sphere F32} {old : IsectN F32 n} (i : Nat) (h : i < n) {δ : ℝ}
    (hδ : δ ≤ 1 / 1000) (ho : Moderate (ray.lane i h).origin) (hd : Moderate (ray.lane i h).dir) (hD : |len2 (toReal (ray.lane i h).dir) - 1| ≤ δ)
    (hc : Moderate sp.center) (hr : IsFinite 23 sp.radius.bits) (br : |realVal 23 sp.radius.bits| ≤ 2 ^ 30) (hT : IsFinite 23 (old.lane i h).t.bits)
    (bT : realVal 23 (old.lane i h).t.bits ≤ 2 ^ 60) :
    HitsSphere δ (ray.lane i h) sp (old.lane i h) ((raySphereN F ray sp old).lane i h) ∨
    (raySphereN F ray sp old).lane i h = old.lane i h ∧ MissesSphere δ (ray.lane i h) sp (old.lane i h) := by
  rw [raySphereN_lane]
  generalize ray.lane i h = ray at *
  generalize old.lane i h = old at *
  obtain ⟨fz, z0⟩ := lit0 ma sqrt sqrte sin cos pi scp
  have r0 : |rv sp.radius * rv sp.radius| ≤ 2 ^ 60 := by
    rw [abs_mul]
    exact (mul_le_mul br br (abs_nonneg _) (by norm_num)).trans (by norm_num)
  obtain ⟨fnr, enr⟩ := neg_lane ma sqrt sqrte sin cos pi scp hr (lt_of_le_of_lt br (by norm_num))
  have e0 : rv sp.radius * rv ((F).lit (-1) * sp.radius) = -(rv sp.radius * rv sp.radius) := by rw [enr]; ring
  obtain ⟨fd, miss, key⟩ := sphere_t (mdot_dotOk F hm) hs ho hd hc br hδ hD
    (cc := (F).mulAdde sp.radius ((F).lit (-1) * sp.radius) (mdot F (V3.sub ray.origin sp.center) (V3.sub ray.origin sp.center)))
    (df := (F).mulAdde (mdot F (V3.sub ray.origin sp.center) ray.dir) (mdot F (V3.sub ray.origin sp.center) ray.dir)
      ((F).lit (-1) * (F).mulAdde sp.radius ((F).lit (-1) * sp.radius) (mdot F (V3.sub ray.origin sp.center) (V3.sub ray.origin sp.center))))
    (nb := (F).lit (-1) * mdot F (V3.sub ray.origin sp.center) ray.dir)
    (fun x hx f b => by
      rw [← hx]
      obtain ⟨f1, p, e1, e2⟩ := ma_ok hm hr fnr f (by rw [e0, abs_neg]; exact r0.trans (by norm_num)) (b.trans (by norm_num))
      rw [e0, abs_neg, abs_of_nonneg (mul_self_nonneg (rv sp.radius))] at e1
      refine ⟨f1, -p, ?_, ?_⟩
      · rw [← abs_neg]
        refine le_trans (le_of_eq ?_) e1
        congr 1
        ring
      · rw [show rv x - -p = p + rv x by ring]
        exact e2)
    (fun x hx f b fc bc => by
      rw [← hx]
      have b0 : |rv x * rv x| ≤ 2 ^ 72 := by
        rw [abs_mul]
        exact (mul_le_mul b b (abs_nonneg _) (by norm_num)).trans (by norm_num)
      obtain ⟨fn, en⟩ := neg_lane ma sqrt sqrte sin cos pi scp fc (lt_of_le_of_lt bc (by norm_num))
      obtain ⟨f1, p, e1, e2⟩ := ma_ok hm f f fn (b0.trans (by norm_num)) (by rw [en, abs_neg]; exact bc.trans (by norm_num))
      rw [en, ← sub_eq_add_neg] at e2
      exact ⟨f1, p, by rwa [abs_of_nonneg (mul_self_nonneg (rv x))] at e1, e2⟩)
    (fun x hx f b => by subst hx; exact neg_lane ma sqrt sqrte sin cos pi scp f (lt_of_le_of_lt b (by norm_num)))
  unfold laneSphere
  dsimp only
  generalize (F).mulAdde (mdot F (V3.sub ray.origin sp.center) ray.dir) (mdot F (V3.sub ray.origin sp.center) ray.dir)
      ((F).lit (-1) * (F).mulAdde sp.radius ((F).lit (-1) * sp.radius) (mdot F (V3.sub ray.origin sp.center) (V3.sub ray.origin sp.center))) = df at *
  generalize (F).lit (-1) * mdot F (V3.sub ray.origin sp.center) ray.dir = nb at *
  have hgt : (F).gt df ((F).lit 0) = true ↔ _ := gt_iff fd fz
  rw [z0] at hgt
  rw [show (F).sqrt df = sqrt df from rfl]
  cases h : (F).gt df ((F).lit 0)
  · simp only [Bool.false_and, Bool.false_eq_true, if_false]
    refine .inr ⟨trivial, .inl (miss (not_lt.1 fun h' => ?_))⟩
    rw [hgt.2 h'] at h
    cases h
  · simp only [Bool.true_and, if_true]
    obtain ⟨ft, et⟩ := key (hgt.1 h)
    generalize nb - sqrt df = t at *
    have g1 : (F).gt t ((F).lit 0) = true ↔ _ := gt_iff ft fz
    have g2 : (F).lt t old.t = true ↔ _ := lt_iff ft hT
    rw [z0] at g1
    by_cases h2 : ((F).gt t ((F).lit 0) && (F).lt t old.t) = true
    · rw [if_pos h2]
      rw [Bool.and_eq_true, g1, g2] at h2
      have bt : |rv t| ≤ 2 ^ 60 := by rw [abs_of_pos h2.1]; exact h2.2.le.trans bT
      exact .inl ⟨rfl, ft, h2.1, h2.2, et, (point_of ho hd ft bt).2⟩
    · rw [if_neg h2]
      rw [Bool.and_eq_true, g1, g2, not_and_or, not_lt, not_lt] at h2
      exact .inr ⟨rfl, .inr ⟨_, h2, et⟩⟩

/-- The ray from the origin in direction (0.6, -0.8, 0), rounded to `f32`, meets the floor of the scene at 0.625; a plane at 0.625 that is found
first is not replaced. -/
example :
    let ray : Ray F32 := ⟨⟨0, 0, 0⟩, ⟨⟨0x3f19999a⟩, ⟨0xbf4ccccd⟩, 0⟩⟩
    let pl : Plane F32 := ⟨⟨0, ⟨0xbf000000⟩, 0⟩, ⟨0, 1, 0⟩⟩
    let s := rayPlane aoF ray pl ⟨⟨0x5d5e0b6b⟩, ⟨0, 0, 0⟩, ⟨0, 0, 0⟩, false⟩
    (s.hit, s.t.bits, s.p.x.bits, s.p.y.bits) = (true, 0x3f200000, 0x3ec00000, 0xbf000000) ∧
    (rayPlane aoF ray pl ⟨⟨0x3f200000⟩, ⟨0, 0, 0⟩, ⟨0, 0, 0⟩, false⟩).hit = false := by decide +kernel

/-- The ray from the origin in direction (0, 0, 1) enters the sphere around (1, 0, 2) of radius 1.5 at 0.8819660. -/
example :
    let s := raySphere aoF ⟨⟨0, 0, 0⟩, ⟨0, 0, 1⟩⟩ ⟨⟨1, 0, ⟨0x40000000⟩⟩, ⟨0x3fc00000⟩⟩ ⟨⟨0x5d5e0b6b⟩, ⟨0, 0, 0⟩, ⟨0, 0, 0⟩, false⟩
    (s.hit, s.t.bits, s.p.z.bits) = (true, 0x3f61c886, 0x3f61c886) := by decide +kernel

/-- Vectors of zeros and ones. -/
theorem moderate01 {v : V3 F32} (hx : v.x = 0 ∨ v.x = 1) (hy : v.y = 0 ∨ v.y = 1) (hz : v.z = 0 ∨ v.z = 1) : Moderate v := by
  have h : ∀ a : F32, a = 0 ∨ a = 1 → IsFinite 23 a.bits ∧ |realVal 23 a.bits| ≤ 2 ^ 30 := by
    rintro a (rfl | rfl)
    · obtain ⟨f, e⟩ := zero_ok
      exact ⟨f, by rw [show realVal 23 (0 : F32).bits = 0 from e]; norm_num⟩
    · obtain ⟨f, e⟩ := one_ok
      exact ⟨f, by rw [show realVal 23 (1 : F32).bits = 1 from e]; norm_num⟩
  exact ⟨⟨(h _ hx).1, (h _ hy).1, (h _ hz).1⟩, (h _ hx).2, (h _ hy).2, (h _ hz).2⟩

/-- The hypotheses of the theorems: the ray from the origin in direction (0, 0, 1), the plane through (0, 0, 1) with normal (1, 0, 1) and the unit
sphere around (1, 0, 1). -/
example : Moderate ⟨0, 0, 0⟩ ∧ Moderate ⟨0, 0, 1⟩ ∧ Moderate ⟨1, 0, 1⟩ ∧ |len2 (toReal ⟨0, 0, 1⟩) - 1| ≤ 0 ∧ IsFinite 23 (1 : F32).bits ∧
    |realVal 23 (1 : F32).bits| ≤ 2 ^ 30 := by
  obtain ⟨z, z'⟩ := zero_ok
  obtain ⟨o, o'⟩ := one_ok
  have ez : realVal 23 (0 : F32).bits = 0 := z'
  have eo : realVal 23 (1 : F32).bits = 1 := o'
  refine ⟨moderate01 (.inl rfl) (.inl rfl) (.inl rfl), moderate01 (.inl rfl) (.inl rfl) (.inr rfl), moderate01 (.inr rfl) (.inl rfl) (.inr rfl), ?_, o, ?_⟩
  · show |realVal 23 (0 : F32).bits * realVal 23 (0 : F32).bits + realVal 23 (0 : F32).bits * realVal 23 (0 : F32).bits +
      realVal 23 (1 : F32).bits * realVal 23 (1 : F32).bits - 1| ≤ 0
    rw [ez, eo]
    norm_num
  · rw [eo]
    norm_num

end PackedSimd.Props
