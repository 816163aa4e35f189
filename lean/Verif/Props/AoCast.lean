import Verif.Spec.AoCast
import Verif.Props.AoHit
import Verif.Model.Examples.AoOcclusion
/-
examples/aobench/src in `f32` arithmetic, C137: the nearest surface of a scene.  C95 (AoGeometry.lean) is about exact arithmetic.
-/
namespace PackedSimd.Props
open Ex Ex.Ao Spec Spec.Ao F32R Mandel

variable {n : Nat} (ma : F32 → F32 → F32 → F32) (sqrt sqrte sin cos : F32 → F32) (pi : F32) (scp : F32 → F32 × F32)

local notation "F" => f32 ma sqrt sqrte sin cos pi scp

theorem default_noHit : Isect.default F = noHit := by
  have h1 : (F).lit 100000000000000000 = ⟨0x5bb1a2bc⟩ := by
    refine congrArg F32.mk ?_
    show Flt.roundInt 32 23 false (((100000000000000000 : Rat).num) * 2 ^ 149) ((100000000000000000 : Rat).den) = _
    decide +kernel
  have h0 : (F).lit 0 = 0 := by
    refine congrArg F32.mk ?_
    show Flt.roundInt 32 23 false (((0 : Rat).num) * 2 ^ 149) ((0 : Rat).den) = _
    decide +kernel
  unfold Isect.default V3.zero noHit
  rw [h1, h0]

theorem noHit_t : IsFinite 23 noHit.t.bits ∧ realVal 23 noHit.t.bits ≤ 2 ^ 60 := by
  have h : valueOf 23 noHit.t.bits = .num (0xb1a2bc * 2 ^ 182) := by decide +kernel
  refine ⟨⟨_, h⟩, ?_⟩
  rw [realVal_num h, show low 32 23 = 149 by decide]
  norm_num

/-- `s` is the nearest hit of the spheres tested so far. -/
structure CastOk (δ : ℝ) (ray : Ray F32) (done : List (Sphere F32)) (s : Isect F32) : Prop where
  fin : IsFinite 23 s.t.bits
  le : realVal 23 s.t.bits ≤ realVal 23 noHit.t.bits
  spheres : ∀ sp ∈ done, MissesSphere δ ray sp s
  which : s = noHit ∨ ∃ sp ∈ done, HitsSphere δ ray sp noHit s

theorem missesSphere_mono {δ : ℝ} {ray : Ray F32} {sp : Sphere F32} {a b : Isect F32} (h : MissesSphere δ ray sp a)
    (hab : realVal 23 b.t.bits ≤ realVal 23 a.t.bits) : MissesSphere δ ray sp b :=
  h.imp_right fun ⟨t, h1, h2⟩ => ⟨t, h1.imp_right hab.trans, h2⟩

theorem castOk_step {δ : ℝ} {ray : Ray F32} {done : List (Sphere F32)} {a b : Isect F32} (h : CastOk δ ray done a) {sp : Sphere F32}
    (hs : HitsSphere δ ray sp a b ∨ b = a ∧ MissesSphere δ ray sp a) : CastOk δ ray (done ++ [sp]) b := by
  rcases hs with hs | ⟨rfl, hs⟩
  · refine ⟨hs.fin, hs.nearer.le.trans h.le, fun x hx => ?_, .inr ⟨sp, by simp, hs.hit, hs.fin, hs.pos, hs.nearer.trans_le h.le, hs.enters, hs.point⟩⟩
    rcases List.mem_append.1 hx with hx | hx
    · exact missesSphere_mono (h.spheres x hx) hs.nearer.le
    · rw [List.mem_singleton.1 hx]
      exact .inr ⟨_, .inr le_rfl, hs.enters⟩
  · refine ⟨h.fin, h.le, fun x hx => ?_, h.which.imp_right fun ⟨x, hx, e⟩ => ⟨x, List.mem_append_left _ hx, e⟩⟩
    rcases List.mem_append.1 hx with hx | hx
    · exact h.spheres x hx
    · rw [List.mem_singleton.1 hx]
      exact hs

theorem castOk_plane {δ : ℝ} {ray : Ray F32} {ss : List (Sphere F32)} {pl : Plane F32} {a b : Isect F32} (h : CastOk δ ray ss a)
    (hs : HitsPlane ray pl a b ∨ b = a ∧ MissesPlane ray pl a) : Nearest δ ray pl ss b := by
  rcases hs with hs | ⟨rfl, hs⟩
  · exact ⟨fun x hx => missesSphere_mono (h.spheres x hx) hs.nearer.le, .inr ⟨_, .inr le_rfl, hs.meets⟩,
      .inr (.inr ⟨hs.hit, hs.n, hs.fin, hs.pos, hs.nearer.trans_le h.le, hs.meets, hs.point, hs.onPlane⟩)⟩
  · exact ⟨h.spheres, hs, h.which.imp_right .inl⟩

theorem castOk_start (δ : ℝ) (ray : Ray F32) : CastOk δ ray [] noHit := ⟨noHit_t.1, le_rfl, fun _ hx => absurd hx List.not_mem_nil, .inl rfl⟩

/-- C137: the nearest surface of a scene of any number of spheres and a plane. -/
theorem C137_nearest (hs : RootOk sqrt) {ray : Ray F32} {pl : Plane F32} {ss : List (Sphere F32)} {δ : ℝ} (hδ : δ ≤ 1 / 1000) (ho : Moderate ray.origin)
    (hd : Moderate ray.dir) (hD : |len2 (toReal ray.dir) - 1| ≤ δ) (hp : Moderate pl.p) (hn : Moderate pl.n) (hss : ∀ s ∈ ss, ModerateSphere s) :
    Nearest δ ray pl ss (castRay F pl ss ray) := by
  have fold : ∀ (l done : List (Sphere F32)) (a : Isect F32), (∀ s ∈ l, ModerateSphere s) → CastOk δ ray done a →
      CastOk δ ray (done ++ l) (l.foldl (fun isect s => raySphere F ray s isect) a) := by
    intro l
    induction l with
    | nil => intro done a _ h; simpa using h
    | cons s l ih =>
      intro done a hl h
      obtain ⟨c1, c2, c3⟩ := hl s (List.mem_cons_self ..)
      have := ih (done ++ [s]) _ (fun x hx => hl x (List.mem_cons_of_mem _ hx))
        (castOk_step h (C136_sphere ma sqrt sqrte sin cos pi scp hs hδ ho hd hD c1 c2 c3 h.fin (h.le.trans noHit_t.2)))
      rwa [List.append_assoc] at this
  have h := fold ss [] _ hss (castOk_start δ ray)
  rw [List.nil_append, ← default_noHit ma sqrt sqrte sin cos pi scp] at h
  exact castOk_plane h (C136_plane ma sqrt sqrte sin cos pi scp ho hd hp hn h.fin (h.le.trans noHit_t.2))

theorem debugCheck_result {dbg : Bool} {scalar : Ray F32 → Isect F32 → Isect F32} {ray : Ray (Vec F32 n)} {old new r : IsectN F32 n}
    (h : debugCheck F dbg scalar ray old new = .ok r) : r = new := by
  unfold debugCheck at h
  cases dbg
  · exact (Except.ok.inj h).symm
  · cases e : forRange 0 n (checkLane F scalar ray old new) () with
    | error x => simp [e, bind, Except.bind] at h
    | ok u => simp [e, bind, Except.bind, pure, Except.pure] at h; exact h.symm

/-- C137: the lanes of a packet; a lane's result does not depend on what the other lanes are, and without debug assertions there is one. -/
theorem C137_packet (hs : RootOk sqrt) (hm : MulAddOk ma) {pl : Plane F32} {ss : List (Sphere F32)} (ray : Ray (Vec F32 n)) (hp : Moderate pl.p) (hn : Moderate pl.n)
    (hss : ∀ s ∈ ss, ModerateSphere s) :
    (∃ r, castN F false pl ss ray = .ok r) ∧
    ∀ {dbg : Bool} {r : IsectN F32 n}, castN F dbg pl ss ray = .ok r → ∀ i (h : i < n) {δ : ℝ}, δ ≤ 1 / 1000 → Moderate (ray.lane i h).origin →
      Moderate (ray.lane i h).dir → |len2 (toReal (ray.lane i h).dir) - 1| ≤ δ → Nearest δ (ray.lane i h) pl ss (r.lane i h) := by
  constructor
  · have : ∀ (l : List (Sphere F32)) (a : IsectN F32 n), ∃ r, l.foldlM (fun isect s => intersectSphereN F false ray s isect) a = .ok r := by
      intro l
      induction l with
      | nil => exact fun a => ⟨a, rfl⟩
      | cons s l ih => exact fun a => ih (raySphereN F ray s a)
    obtain ⟨r, e⟩ := this ss (IsectN.default F n)
    unfold castN
    rw [e]
    exact ⟨_, rfl⟩
  · intro dbg r hr i h δ hδ ho hd hD
    have fold : ∀ (l done : List (Sphere F32)) (a b : IsectN F32 n), (∀ s ∈ l, ModerateSphere s) → CastOk δ (ray.lane i h) done (a.lane i h) →
        l.foldlM (fun isect s => intersectSphereN F dbg ray s isect) a = .ok b → CastOk δ (ray.lane i h) (done ++ l) (b.lane i h) := by
      intro l
      induction l with
      | nil =>
        intro done a b _ h e
        obtain rfl := Except.ok.inj e
        simpa using h
      | cons s l ih =>
        intro done a b hl hc e
        obtain ⟨c1, c2, c3⟩ := hl s (List.mem_cons_self ..)
        rw [List.foldlM_cons] at e
        cases e1 : intersectSphereN F dbg ray s a with
        | error x => rw [e1] at e; cases e
        | ok a' =>
          rw [e1] at e
          obtain rfl := debugCheck_result ma sqrt sqrte sin cos pi scp e1
          have := ih (done ++ [s]) _ b (fun x hx => hl x (List.mem_cons_of_mem _ hx))
            (castOk_step hc (C136_sphere_packet ma sqrt sqrte sin cos pi scp hs hm i h hδ ho hd hD c1 c2 c3 hc.fin (hc.le.trans noHit_t.2))) e
          rwa [List.append_assoc] at this
    have h0 : (IsectN.default F n).lane i h = noHit := by
      rw [← default_noHit ma sqrt sqrte sin cos pi scp]
      simp only [IsectN.lane, V3.lane, IsectN.default, Isect.default, V3N.zero, V3.zero, splat_get]
    unfold castN at hr
    cases e1 : ss.foldlM (fun isect s => intersectSphereN F dbg ray s isect) (IsectN.default F n) with
    | error x => rw [e1] at hr; cases hr
    | ok a =>
      rw [e1] at hr
      obtain rfl := debugCheck_result ma sqrt sqrte sin cos pi scp hr
      have hc := fold ss [] _ a hss (by rw [h0]; exact castOk_start δ _) e1
      rw [List.nil_append] at hc
      exact castOk_plane hc (C136_plane_packet ma sqrt sqrte sin cos pi scp hm i h ho hd hp hn hc.fin (hc.le.trans noHit_t.2))

/-! ### The scene of the program -/

theorem lit_small {q : Rat} {k : Int} (h : valueOf 23 (Flt.roundInt 32 23 false (q.num * 2 ^ 149) q.den) = .num k) (hk : |(k : ℝ)| ≤ 2 ^ 179) :
    IsFinite 23 ((F).lit q).bits ∧ |realVal 23 ((F).lit q).bits| ≤ 2 ^ 30 := by
  have h' : valueOf 23 ((F).lit q).bits = .num k := h
  refine ⟨⟨_, h'⟩, ?_⟩
  rw [realVal_num h', show low 32 23 = 149 by decide, abs_div, abs_of_pos (show (0 : ℝ) < 2 ^ 149 by norm_num), div_le_iff₀ (by norm_num)]
  exact hk.trans (by norm_num)

theorem moderate_of {x y z : F32} (hx : IsFinite 23 x.bits ∧ |realVal 23 x.bits| ≤ 2 ^ 30) (hy : IsFinite 23 y.bits ∧ |realVal 23 y.bits| ≤ 2 ^ 30)
    (hz : IsFinite 23 z.bits ∧ |realVal 23 z.bits| ≤ 2 ^ 30) : Moderate ⟨x, y, z⟩ := ⟨⟨hx.1, hy.1, hz.1⟩, hx.2, hy.2, hz.2⟩

theorem scene_moderate : Moderate (scenePlane F).p ∧ Moderate (scenePlane F).n ∧ ∀ s ∈ sceneSpheres F, ModerateSphere s := by
  have l0 := lit_small ma sqrt sqrte sin cos pi scp (q := 0) (k := 0) (by decide +kernel) (by norm_num)
  have l1 := lit_small ma sqrt sqrte sin cos pi scp (q := 1) (k := 2 ^ 149) (by decide +kernel) (by norm_num)
  have m05 := lit_small ma sqrt sqrte sin cos pi scp (q := (-0.5)) (k := (-1 * 2 ^ 148)) (by decide +kernel) (by norm_num)
  have m2 := lit_small ma sqrt sqrte sin cos pi scp (q := (-2)) (k := (-1 * 2 ^ 150)) (by decide +kernel) (by norm_num)
  have m35 := lit_small ma sqrt sqrte sin cos pi scp (q := (-3.5)) (k := (-7 * 2 ^ 148)) (by decide +kernel) (by norm_num)
  have p05 := lit_small ma sqrt sqrte sin cos pi scp (q := 0.5) (k := (1 * 2 ^ 148)) (by decide +kernel) (by norm_num)
  have m3 := lit_small ma sqrt sqrte sin cos pi scp (q := (-3)) (k := (-3 * 2 ^ 149)) (by decide +kernel) (by norm_num)
  have m22 := lit_small ma sqrt sqrte sin cos pi scp (q := (-2.2)) (k := (-9227469 * 2 ^ 127)) (by decide +kernel) (by norm_num)
  refine ⟨moderate_of l0 m05 l0, moderate_of l0 l1 l0, ?_⟩
  intro s hs
  simp only [sceneSpheres, List.mem_cons, List.not_mem_nil, or_false] at hs
  rcases hs with rfl | rfl | rfl
  · exact ⟨moderate_of m2 l0 m35, p05⟩
  · exact ⟨moderate_of m05 l0 m3, p05⟩
  · exact ⟨moderate_of l1 l0 m22, p05⟩

theorem moderate_of_unit {δ : ℝ} {a : V3 F32} (hδ : δ ≤ 1 / 1000) (h : AlmostUnit δ a) : Moderate a := by
  obtain ⟨hf, h⟩ := h
  have h1 : inner (toReal a) (toReal a) ≤ 2 := by have := (abs_le.1 h).2; linarith
  have h2 : (toReal a).x * (toReal a).x + (toReal a).y * (toReal a).y + (toReal a).z * (toReal a).z ≤ 2 := h1
  have key : ∀ x : ℝ, x * x ≤ 2 → |x| ≤ 2 ^ 30 := by
    intro x hx
    have : |x| ≤ 2 := abs_le_of_sq_le_sq (by nlinarith) (by norm_num)
    exact this.trans (by norm_num)
  have a1 := mul_self_nonneg (toReal a).x
  have a2 := mul_self_nonneg (toReal a).y
  have a3 := mul_self_nonneg (toReal a).z
  exact ⟨hf, key _ (by linarith), key _ (by linarith), key _ (by linarith)⟩

/-- C137: rays with directions of length almost 1, which those of the program have (C118), in the scene of the program. -/
theorem C137_scene (hs : RootOk sqrt) {ray : Ray F32} {δ : ℝ} (hδ : δ ≤ 1 / 1000) (ho : Moderate ray.origin) (hd : AlmostUnit δ ray.dir) :
    Nearest δ ray (scenePlane F) (sceneSpheres F) (castRay F (scenePlane F) (sceneSpheres F) ray) := by
  obtain ⟨h1, h2, h3⟩ := scene_moderate ma sqrt sqrte sin cos pi scp
  exact C137_nearest ma sqrt sqrte sin cos pi scp hs hδ ho (moderate_of_unit hδ hd) hd.2 h1 h2 h3

/-- C137: and lanes of packets. -/
theorem C137_scene_packet (hs : RootOk sqrt) (hm : MulAddOk ma) (ray : Ray (Vec F32 n)) : (∃ r, castN F false (scenePlane F) (sceneSpheres F) ray = .ok r) ∧
    ∀ {dbg : Bool} {r : IsectN F32 n}, castN F dbg (scenePlane F) (sceneSpheres F) ray = .ok r → ∀ i (h : i < n) {δ : ℝ}, δ ≤ 1 / 1000 →
      Moderate (ray.lane i h).origin → AlmostUnit δ (ray.lane i h).dir → Nearest δ (ray.lane i h) (scenePlane F) (sceneSpheres F) (r.lane i h) := by
  obtain ⟨h1, h2, h3⟩ := scene_moderate ma sqrt sqrte sin cos pi scp
  obtain ⟨a, b⟩ := C137_packet ma sqrt sqrte sin cos pi scp hs hm ray h1 h2 h3
  exact ⟨a, fun e i h _ hδ ho hd => b e i h hδ ho (moderate_of_unit hδ hd) hd.2⟩

/-- The ray towards the centre of the third sphere hits that sphere, the ray straight down the plane, and the ray straight up nothing. -/
example :
    let cast := fun d => castRay aoF (scenePlane aoF) (sceneSpheres aoF) ⟨⟨0, 0, 0⟩, d⟩
    let s := cast (V3.normalized aoF ⟨1, 0, ⟨0xc00ccccd⟩⟩)
    (s.hit, s.t.bits) = (true, 0x3ff5537a) ∧ ((cast ⟨0, -1, 0⟩).hit, (cast ⟨0, -1, 0⟩).t.bits) = (true, 0x3f000000) ∧ (cast ⟨0, 1, 0⟩).hit = false := by
  decide +kernel

/-- The hypotheses of `C137_scene` for a ray from the origin. -/
example : Moderate ⟨0, 0, 0⟩ ∧ AlmostUnit 0 ⟨0, 0, 1⟩ := by
  refine ⟨moderate01 (.inl rfl) (.inl rfl) (.inl rfl), (moderate01 (.inl rfl) (.inl rfl) (.inr rfl)).1, ?_⟩
  have ez : realVal 23 (0 : F32).bits = 0 := zero_ok.2
  have eo : realVal 23 (1 : F32).bits = 1 := one_ok.2
  show |realVal 23 (0 : F32).bits * realVal 23 (0 : F32).bits + realVal 23 (0 : F32).bits * realVal 23 (0 : F32).bits +
    realVal 23 (1 : F32).bits * realVal 23 (1 : F32).bits - 1| ≤ 0
  rw [ez, eo]
  norm_num

end PackedSimd.Props
