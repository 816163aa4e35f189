import Verif.Spec.AoShade
import Verif.Props.AoCast
import Verif.Props.AoScenes
/-
examples/aobench/src/ambient_occlusion.rs in `f32` arithmetic, C139: the rays that are counted.
-/
namespace PackedSimd.Props
open Ex Ex.Ao Spec Spec.Ao F32R Mandel

variable {n : Nat} (ma : F32 → F32 → F32 → F32) (sqrt sqrte sin cos : F32 → F32) (pi : F32) (scp : F32 → F32 × F32)

local notation "F" => f32 ma sqrt sqrte sin cos pi scp

theorem lit4 : Fin' ((F).lit 0.0001) ∧ |rv ((F).lit 0.0001) - 1 / 10000| ≤ 1 / 10 ^ 11 := by
  have h : valueOf 23 ((F).lit 0.0001).bits = .num (0xd1b717 * 2 ^ 112) := by
    show valueOf 23 (Flt.roundInt 32 23 false (((0.0001 : Rat).num) * 2 ^ 149) ((0.0001 : Rat).den)) = _
    decide +kernel
  refine ⟨⟨_, h⟩, ?_⟩
  unfold rv
  rw [realVal_num h, show low 32 23 = 149 by decide, abs_le]
  norm_num

theorem comp_moderate {a o d t : ℝ} (h : |a - (o + t * d)| ≤ 2.01 * ν * (|o| + |t * d|) + 2 / 2 ^ 150) (ho : |o| ≤ 2 ^ 29) (hd : |d| ≤ 2) (ht : |t| ≤ 1) : |a| ≤ 2 ^ 30 := by
  have v1 := ν_le
  have v0 := ν_pos
  have h1 : |t * d| ≤ 2 := by
    rw [abs_mul]
    exact (mul_le_mul ht hd (abs_nonneg _) (by norm_num)).trans (by norm_num)
  have h2 : |o + t * d| ≤ 2 ^ 29 + 2 := (abs_add_le _ _).trans (add_le_add ho h1)
  have h3 : ν * (|o| + |t * d|) ≤ 1 / 16000000 * (2 ^ 29 + 2) := mul_le_mul v1 (add_le_add ho h1) (by positivity) (by norm_num)
  have h4 : |a| ≤ |a - (o + t * d)| + |o + t * d| := by
    have := abs_add_le (a - (o + t * d)) (o + t * d)
    rwa [sub_add_cancel] at this
  have h5 : (2 : ℝ) / 2 ^ 150 ≤ 1 := by norm_num
  generalize (2 : ℝ) / 2 ^ 150 = c at *
  nlinarith

theorem comp_le_two {δ : ℝ} {a : V3 F32} (hδ : δ ≤ 1 / 1000) (h : AlmostUnit δ a) : |rv a.x| ≤ 2 ∧ |rv a.y| ≤ 2 ∧ |rv a.z| ≤ 2 := by
  obtain ⟨-, h⟩ := h
  have h1 : inner (toReal a) (toReal a) ≤ 2 := by have := (abs_le.1 h).2; linarith
  have h2 : rv a.x * rv a.x + rv a.y * rv a.y + rv a.z * rv a.z ≤ 2 := h1
  have key : ∀ x : ℝ, x * x ≤ 2 → |x| ≤ 2 := fun x hx => abs_le_of_sq_le_sq (by nlinarith) (by norm_num)
  have a1 := mul_self_nonneg (rv a.x)
  have a2 := mul_self_nonneg (rv a.y)
  have a3 := mul_self_nonneg (rv a.z)
  exact ⟨key _ (by linarith), key _ (by linarith), key _ (by linarith)⟩

/-- Where the rays start. -/
theorem origin_ok {δ : ℝ} {s : Isect F32} (hδ : δ ≤ 1 / 1000) (hn : AlmostUnit δ s.n) (hp : FiniteV s.p) (bx : |(toReal s.p).x| ≤ 2 ^ 29) (by' : |(toReal s.p).y| ≤ 2 ^ 29)
    (bz : |(toReal s.p).z| ≤ 2 ^ 29) : ∀ o, o = aoOrigin F s ∨ o = V3.add s.p (msmul ((F).lit 0.0001) s.n) →
    Moderate o ∧ ∃ t : ℝ, |t - 1 / 10000| ≤ 1 / 10 ^ 11 ∧ PointAt (realRay ⟨s.p, s.n⟩) t o := by
  intro o ho
  obtain ⟨fl, el⟩ := lit4 ma sqrt sqrte sin cos pi scp
  obtain ⟨nx, ny, nz⟩ := comp_le_two hδ hn
  have tl : |rv ((F).lit 0.0001)| ≤ 1 := by
    have := abs_le.1 el
    norm_num at this
    exact abs_le.2 ⟨by linarith, by linarith⟩
  have up : ∀ {x : ℝ}, |x| ≤ 2 ^ 29 → |x| ≤ 2 ^ 30 := fun h => h.trans (by norm_num)
  obtain ⟨p1, p2⟩ := point_of (ray := ⟨s.p, s.n⟩) ⟨hp, up bx, up by', up bz⟩ (moderate_of_unit hδ hn) fl (tl.trans (by norm_num))
  have pt : PointAt (realRay ⟨s.p, s.n⟩) (rv ((F).lit 0.0001)) o := by
    rcases ho with rfl | rfl
    · exact p1
    · exact p2
  refine ⟨⟨pt.1, comp_moderate (o := (toReal s.p).x) pt.2.1 bx nx tl, comp_moderate pt.2.2.1 by' ny tl, comp_moderate pt.2.2.2 bz nz tl⟩, _, el, pt⟩

theorem pairUp_mem {α : Type} : ∀ (l : List α) (p : α × α), p ∈ pairUp l → p.1 ∈ l ∧ p.2 ∈ l
  | [], _, h => absurd h List.not_mem_nil
  | [_], _, h => absurd h List.not_mem_nil
  | a :: b :: l, p, h => by
    rcases List.mem_cons.1 h with rfl | h
    · simp
    · have := pairUp_mem l p h
      exact ⟨List.mem_cons_of_mem _ (List.mem_cons_of_mem _ this.1), List.mem_cons_of_mem _ (List.mem_cons_of_mem _ this.2)⟩

theorem draws_all {σ α : Type} {rand : σ → R (α × σ)} {P : σ → Prop} {Q : α → Prop} (h : ∀ s x s', P s → rand s = .ok (x, s') → Q x ∧ P s') :
    ∀ (k : Nat) (s : σ) (l : List α) (s' : σ), P s → draws rand k s = .ok (l, s') → ∀ x ∈ l, Q x := by
  intro k
  induction k with
  | zero => intro s l s' _ e x hx; cases e; cases hx
  | succ k ih =>
    intro s l s' hs e x hx
    unfold draws at e
    cases e1 : rand s with
    | error z => rw [e1] at e; cases e
    | ok p =>
      obtain ⟨y, s1⟩ := p
      rw [e1] at e
      cases e2 : draws rand k s1 with
      | error z => simp only [e2, bind, Except.bind] at e; cases e
      | ok q =>
        obtain ⟨l1, s2⟩ := q
        simp only [e2, bind, Except.bind, pure, Except.pure] at e
        cases e
        obtain ⟨h1, h2⟩ := h s y s1 hs e1
        rcases List.mem_cons.1 hx with rfl | hx
        · exact h1
        · exact ih s1 l1 _ h2 e2 x hx

/-- C139: any scene of moderate numbers whose random numbers are in range. -/
theorem C139_scalar (hs : RootOk sqrt) {σ : Type} {S : Scene F32 σ n} (h8 : S.nao = 8) {P : σ → Prop}
    (hP : ∀ s x s', P s → S.rand s = .ok (x, s') → InUnit x ∧ P s') (h1 : Moderate S.plane.p) (h2 : Moderate S.plane.n) (h3 : ∀ s ∈ S.spheres, ModerateSphere s)
    {δ ε : ℝ} (hδ : δ + ε + 60 * ulp ≤ 1 / 1000) (hδ' : δ ≤ 1 / 1000) (hε : ε ≤ 1 / 100)
    (ht : ∀ r, InUnit r → TrigOk ε (sin ((F).lit 2 * pi * r)) (cos ((F).lit 2 * pi * r))) {s s' : σ} (h0 : P s) {isect : Isect F32} (hn : AlmostUnit δ isect.n)
    (hp : FiniteV isect.p) (bx : |(toReal isect.p).x| ≤ 2 ^ 29) (by' : |(toReal isect.p).y| ≤ 2 ^ 29) (bz : |(toReal isect.p).z| ≤ 2 ^ 29) {a : F32}
    (h : aoScalar F S s isect = .ok (a, s')) : ∃ l, draws S.rand 128 s = .ok (l, s') ∧ Occlusion δ ε (pairUp l) S.plane S.spheres isect a := by
  obtain ⟨l, hl, k, hk, hv, hc⟩ := C100_scalar_f32 ma sqrt sqrte sin cos pi scp S h8 s s' isect a h
  have hu := draws_all hP _ _ _ _ h0 hl
  obtain ⟨mo, origin⟩ := origin_ok ma sqrt sqrte sin cos pi scp hδ' hn hp bx by' bz _ (.inl rfl)
  set ray : F32 × F32 → Ray F32 := fun p => ⟨aoOrigin F isect, sampleDir F (V3.orthoBasis F isect.n) p.1 p.2⟩
  set cast : Ray F32 → Isect F32 := castRay F S.plane S.spheres
  have len : (pairUp l).length = 64 := by rw [pairUp_length, draws_length _ _ _ _ _ hl]
  refine ⟨l, hl, (pairUp l).map fun p => (ray p, cast (ray p)), by rw [List.length_map, len], ⟨_, hv⟩, ?_, ?_⟩
  · rw [realVal_num hv, show low 32 23 = 149 by decide, List.countP_map]
    have hc' : k = (pairUp l).countP fun p => (cast (ray p)).hit := hc
    have hs := List.length_eq_countP_add_countP (l := pairUp l) (fun p => (cast (ray p)).hit)
    have e : (pairUp l).countP ((fun r : Ray F32 × Isect F32 => !r.2.hit) ∘ fun p => (ray p, cast (ray p))) = 64 - k := by
      have : (pairUp l).countP ((fun r : Ray F32 × Isect F32 => !r.2.hit) ∘ fun p => (ray p, cast (ray p))) =
          (pairUp l).countP fun p => decide ¬(cast (ray p)).hit = true := by
        refine List.countP_congr fun p _ => ?_
        simp
      omega
    rw [e, Nat.cast_sub hk]
    push_cast
    rw [div_eq_div_iff (by norm_num) (by norm_num)]
    ring
  · rw [List.forall₂_map_right_iff, List.forall₂_same]
    intro p hp'
    obtain ⟨m1, m2⟩ := pairUp_mem l p hp'
    have u1 := hu _ m1
    have u2 := hu _ m2
    have sd := C118_direction ma sqrt sqrte sin cos pi scp hs hδ' hε isect.n hn p.1 p.2 u1.1 u1.2.1 u1.2.2 (ht _ u2)
    exact ⟨⟨origin, u1, sd⟩, C137_nearest ma sqrt sqrte sin cos pi scp hs hδ mo (moderate_of_unit hδ sd.1) sd.1.2 h1 h2 h3⟩

theorem inUnit_of {x : F32} (h : ∃ z : Int, valueOf 23 x.bits = .num z ∧ 0 ≤ z ∧ z < 2 ^ 149) : InUnit x := by
  obtain ⟨z, hz, z0, z1⟩ := h
  refine ⟨⟨_, hz⟩, ?_, ?_⟩
  · rw [realVal_num hz]
    have : (0 : ℝ) ≤ z := by exact_mod_cast z0
    positivity
  · rw [realVal_num hz, show low 32 23 = 149 by decide, div_lt_one (by norm_num)]
    exact_mod_cast z1

/-- C139: the random scene of the program. -/
theorem C139_random (hs : RootOk sqrt) {δ ε : ℝ} (hδ : δ + ε + 60 * ulp ≤ 1 / 1000) (hδ' : δ ≤ 1 / 1000) (hε : ε ≤ 1 / 100)
    (ht : ∀ r, InUnit r → TrigOk ε (sin ((F).lit 2 * pi * r)) (cos ((F).lit 2 * pi * r))) (s : RandomState n) {isect : Isect F32} (hn : AlmostUnit δ isect.n)
    (hp : FiniteV isect.p) (bx : |(toReal isect.p).x| ≤ 2 ^ 29) (by' : |(toReal isect.p).y| ≤ 2 ^ 29) (bz : |(toReal isect.p).z| ≤ 2 ^ 29) :
    ∃ a s', aoScalar F (randomScene F n) s isect = .ok (a, s') ∧ ∃ l, draws (randomScene F n).rand 128 s = .ok (l, s') ∧ Occlusion δ ε (pairUp l) (scenePlane F) (sceneSpheres F) isect a := by
  obtain ⟨a, s', e, -⟩ : ∃ a s', aoScalar F (randomScene F n) s isect = .ok (a, s') ∧ True := aoScalar_total F (random_delivers (n := n) F) s trivial isect
  obtain ⟨h1, h2, h3⟩ := scene_moderate ma sqrt sqrte sin cos pi scp
  refine ⟨a, s', e, C139_scalar ma sqrt sqrte sin cos pi scp hs (S := randomScene F n) rfl (P := fun _ => True) (fun s x s' _ hr => ⟨?_, trivial⟩) h1 h2 h3 hδ hδ' hε ht
    trivial hn hp bx by' bz e⟩
  obtain ⟨y, s1, e1, -, -, -, hy⟩ := C109_random_rand F s
  rw [hr] at e1
  cases e1
  exact inUnit_of hy

/-- The hypotheses hold for `aoF` (whose angles are all 0) at the point (1, 0, 1) of a surface with normal (0, 0, 1). -/
example (s : RandomState n) (h : Bool) : ∃ a s', aoScalar aoF (randomScene aoF n) s ⟨1, ⟨1, 0, 1⟩, ⟨0, 0, 1⟩, h⟩ = .ok (a, s') ∧
    ∃ l, draws (randomScene aoF n).rand 128 s = .ok (l, s') ∧ Occlusion 0 0 (pairUp l) (scenePlane aoF) (sceneSpheres aoF) ⟨1, ⟨1, 0, 1⟩, ⟨0, 0, 1⟩, h⟩ a := by
  obtain ⟨z, z'⟩ := zero_ok
  obtain ⟨o, o'⟩ := one_ok
  have ez : realVal 23 (0 : F32).bits = 0 := z'
  have eo : realVal 23 (1 : F32).bits = 1 := o'
  have b0 : |realVal 23 (0 : F32).bits| ≤ 2 ^ 29 := by rw [ez]; norm_num
  have b1 : |realVal 23 (1 : F32).bits| ≤ 2 ^ 29 := by rw [eo]; norm_num
  refine C139_random (fun a b c => a * b + c) (fun x => ⟨Flt.sqrt 23 x.bits⟩) (fun x => ⟨Flt.sqrt 23 x.bits⟩) (fun _ => 0) (fun _ => 1) ⟨0x40490fdb⟩ (fun _ => (0, 1))
    (fun x => sqrt_isSqrt fmt x.bits) (δ := 0) (ε := 0) (by unfold ulp; norm_num) (by norm_num) (by norm_num) (fun r _ => ⟨z, o, ?_, ?_, ?_⟩) s
    ⟨⟨z, z, o⟩, ?_⟩ ⟨o, z, o⟩ b1 b0 b1
  · rw [ez]; norm_num
  · rw [eo]; norm_num
  · rw [ez, eo]; norm_num
  · show |realVal 23 (0 : F32).bits * realVal 23 (0 : F32).bits + realVal 23 (0 : F32).bits * realVal 23 (0 : F32).bits +
      realVal 23 (1 : F32).bits * realVal 23 (1 : F32).bits - 1| ≤ 0
    rw [ez, eo]
    norm_num

end PackedSimd.Props
