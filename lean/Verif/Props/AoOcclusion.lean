import Verif.Lemmas.AoOcclusion
import Verif.Props.Aobench
/-
examples/aobench/src/ambient_occlusion.rs and scene: C98 (vector = scalar), C99 (tiled = scalar lane by lane), C100 (the result on `f32`),
C101 (the test scene).
-/
namespace PackedSimd.Props
open Spec Ex Ex.Ao Spec.Ao V3N Mandel

/-! ### C98 -/

section
variable {K : Type} [Field K] [LinearOrder K] [IsStrictOrderedRing K] {F : Fns K} {n : Nat} {σ : Type}

theorem sum_ofFn_add (v : Vec K n) (f : Fin n → K) : (Vector.ofFn fun i : Fin n => v[i] + f i).toList.sum = v.toList.sum + (List.ofFn f).sum := by
  have : v.toList = List.ofFn fun i : Fin n => v[i] := by apply List.ext_getElem <;> simp
  rw [this, Vector.toList_ofFn, List.sum_ofFn, List.sum_ofFn, List.sum_ofFn, Finset.sum_add_distrib]

theorem aoSampleN_eq (E : Exact F) (dbg : Bool) (S : Scene K σ n) (hS : S.randN = defaultRandN n S.rand) (basis : V3.Basis K) (origin : V3 K)
    (st : Vec K n × σ) : (aoSampleN F dbg S basis (splat3 n origin) st).map (fun p => (p.1.toList.sum, p.2)) =
      iter (aoSample F S basis origin) n (st.1.toList.sum, st.2) := by
  rw [aoSample_eq E]
  unfold aoSampleN
  obtain ⟨v, s⟩ := st
  dsimp only
  rw [hS]
  rw [defaultRandN_eq n S.rand s _ (fun p => .ok (Vector.ofFn fun i : Fin n => v[i] +
    (((pairUp p.1).map (sampleHit F S.plane S.spheres basis origin))[i.val]?).getD 0, p.2))]
  · cases hd : draws S.rand (2 * n) s with
    | error e => rfl
    | ok p =>
      have hl := draws_length _ _ _ _ _ hd
      show Except.ok _ = Except.ok _
      refine congrArg Except.ok (Prod.ext ?_ rfl)
      dsimp only
      rw [sum_ofFn_add]
      refine congrArg (fun z => v.toList.sum + List.sum z) ?_
      apply List.ext_getElem
      · simp [pairUp_length, hl]
      · intro i h1 h2
        rw [List.getElem_ofFn]
        simp only [List.getElem?_eq_getElem h2, Option.getD_some]
  · intro l s' a b hl hp
    obtain ⟨r, e, hr⟩ := castN_exact E dbg S.plane S.spheres ⟨splat3 n origin, V3N.mulM F basis (hemi F a b)⟩
    dsimp only
    rw [e]
    show Except.ok _ = Except.ok _
    congr 2
    ext i hi
    have h1 := congrArg Isect.hit (hr i hi)
    rw [show (r.lane i hi).hit = r.hit[i] from rfl] at h1
    rw [vadd_get, sel_get, splat_get, splat_get, Vector.getElem_ofFn, h1]
    simp only [List.getElem?_map, hp i hi, Option.map_some, Option.getD_some, sampleHit, Fin.getElem_fin]
    rw [show (⟨splat3 n origin, V3N.mulM F basis (hemi F a b)⟩ : Ray (Vec K n)).lane i hi = ⟨origin, sampleDir F basis a[i] b[i]⟩ by
      unfold Ray.lane; rw [splat3_lane, mulM_lane E, hemi_lane E]; rfl, E.lit, E.lit]
    split <;> simp

/-- C98: in exact arithmetic the vectorized ambient occlusion returns what the scalar one returns and leaves the scene in the same state
(or both fail alike if drawing a random number fails), for every scene that uses the default `rand_f32xN` and whose number of samples is a multiple
of the number of lanes; on every target, in debug and release builds. -/
theorem C98_vector_is_scalar [LaneCount n] (E : Exact F) (t : Target) (dbg : Bool) (S : Scene K σ n) (hS : S.randN = defaultRandN n S.rand)
    (hn : n ∣ S.nao) (s : σ) (isect : Isect K) : aoVector F t dbg S s isect = aoScalar F S s isect := by
  unfold aoVector aoScalar
  dsimp only
  rw [nested_iter, nested_iter]
  have hm : n * (((S.nao + n - 1) / n) * S.nao) = S.nao * S.nao := by
    obtain ⟨q, hq⟩ := hn
    have h0 := LaneCount.pos (n := n)
    rw [hq, show n * q + n - 1 = n - 1 + n * q by omega, Nat.add_mul_div_left _ _ h0, Nat.div_eq_of_lt (by omega)]
    ring
  have key := iter_map (aoSampleN F dbg S (V3.orthoBasis F isect.n) (splat3 n (aoOrigin F isect))) (iter (aoSample F S (V3.orthoBasis F isect.n) (aoOrigin F isect)) n)
    (fun p => (p.1.toList.sum, p.2)) (aoSampleN_eq E dbg S hS _ _) (((S.nao + n - 1) / n) * S.nao) (splat n (F.lit 0), s)
  rw [iter_iter, hm] at key
  dsimp only at key
  rw [show (splat n (F.lit 0)).toList.sum = F.lit 0 by rw [E.lit]; unfold splat; rw [Vector.toList_ofFn, List.sum_ofFn]; simp] at key
  rw [← key]
  cases iter (aoSampleN F dbg S (V3.orthoBasis F isect.n) (splat3 n (aoOrigin F isect))) (((S.nao + n - 1) / n) * S.nao) (splat n (F.lit 0), s) with
  | error e => rfl
  | ok p =>
    obtain ⟨r, e1, e2⟩ := vsum_vec t ⟨F.lit 0, (· + ·), (· * ·)⟩ p.1
    show (vsum t ⟨F.lit 0, (· + ·), (· * ·)⟩ p.1 >>= fun sum => _) = Except.ok _
    rw [e1, show F.lit 0 = 0 by rw [E.lit]; simp] at *
    rw [SumOf.eq_sum e2]
    rfl

/-- The rational "arithmetic" and the two scenes meet the hypotheses: 8 samples, 4 or 8 lanes. -/
example : Exact ratFns ∧ (testScene ratFns 4).randN = defaultRandN 4 (testScene ratFns 4).rand ∧ 4 ∣ (testScene ratFns 4).nao ∧
    8 ∣ (testScene ratFns 8).nao := ⟨ratFns_exact, rfl, ⟨2, rfl⟩, ⟨1, rfl⟩⟩

/-! ### C99 -/

/-- C99: in exact arithmetic, if `rand_f32xN` delivers the pairs of vectors `l` (one pair for each of the `nao × nao` samples) and leaves the scene in
state `s'`, then the tiled ambient occlusion succeeds and leaves the scene in state `s'`, and its lane `i` is what the scalar ambient occlusion
returns for lane `i` of the intersections with the random numbers of lane `i`; if a call of `rand_f32xN` fails, so does the tiled ambient
occlusion. -/
theorem C99_tiled_is_scalar (E : Exact F) (dbg : Bool) (S : Scene K σ n) (s : σ) (isect : IsectN K n) :
    (∀ e, drawsN S.randN (S.nao * S.nao) s = .error e → aoTiled F dbg S s isect = .error e) ∧
    (∀ l s', drawsN S.randN (S.nao * S.nao) s = .ok (l, s') → ∃ r, aoTiled F dbg S s isect = .ok (r, s') ∧
      ∀ i (h : i < n), ∃ o, isect.get i = .ok o ∧ aoScalar F (fromList S n) (laneDraws l i h) o = .ok (r[i], [])) := by
  unfold aoTiled
  dsimp only
  rw [nested_iter, aoSampleT_eq E]
  refine ⟨fun e h => by rw [h]; rfl, fun l s' h => ?_⟩
  rw [h]
  refine ⟨_, rfl, fun i hi => ⟨_, IsectN.get_lane _ i hi, ?_⟩⟩
  unfold aoScalar
  dsimp only
  rw [nested_iter, aoSample_eq E]
  have hlen : (laneDraws l i hi).length = 2 * (S.nao * S.nao) := by
    have hl : ∀ k s l s', drawsN S.randN k s = .ok (l, s') → l.length = k := by
      intro k
      induction k with
      | zero => intro s l s' h; cases h; rfl
      | succ k ih =>
        intro s l s' h
        unfold drawsN at h
        cases h1 : S.randN s with
        | error e => rw [h1] at h; cases h
        | ok p =>
          rw [h1, R_ok_bind] at h
          dsimp only at h
          cases h2 : drawsN S.randN k p.2.2 with
          | error e => rw [h2] at h; cases h
          | ok q => rw [h2] at h; cases h; rw [List.length_cons, ih _ _ _ h2]
    have := hl _ _ _ _ h
    unfold laneDraws
    rw [List.length_flatMap]
    simp only [List.length_cons, List.length_nil]
    rw [← this]
    simp [Nat.mul_comm]
  have hd : draws (fromList S n).rand (2 * ((fromList S n).nao * (fromList S n).nao)) (laneDraws l i hi) = .ok (laneDraws l i hi, []) := by
    show draws pop (2 * (S.nao * S.nao)) _ = _
    rw [← hlen]
    exact draws_pop _
  rw [hd]
  show Except.ok _ = Except.ok _
  refine congrArg Except.ok (Prod.ext ?_ rfl)
  dsimp only
  rw [vsub_get, vdiv_get, splat_get, splat_get, Vector.getElem_ofFn, pairUp_laneDraws, List.map_map]
  rw [show (splat n (F.lit 0))[(⟨i, hi⟩ : Fin n)] = F.lit 0 from splat_get ..]
  rw [orthoBasis_lane E, add_lane, smul_lane, splat_get, msmul_eq]
  rfl

-- one sample for two lanes
example : ∃ l s', drawsN (n := 2) (fun s : Nat => .ok (#v[(s : ℚ), 0], #v[1, 2], s + 1)) (1 * 1) 5 = .ok (l, s') ∧ s' = 6 ∧
    laneDraws l 0 (by omega) = [5, 1] ∧ laneDraws l 1 (by omega) = [0, 2] := ⟨_, _, rfl, rfl, rfl, rfl⟩

end

/-! ### C100 -/

section
variable {n : Nat} {σ : Type} (ma : F32 → F32 → F32 → F32) (sqrt sqrte sin cos : F32 → F32) (pi : F32) (scp : F32 → F32 × F32)

/-- The whole number `k` as `f32`. -/
def whole (k : Nat) : F32 := ⟨Flt.fromInt 32 23 k⟩

theorem whole_add : ∀ a, a < 65 → ∀ b, b < 65 - a → whole a + whole b = whole (a + b) := by decide +kernel

theorem whole_result : ∀ k, k < 65 → valueOf 23 (whole 1 - whole k / whole 64).bits = .num ((64 - (k : Int)) * 2 ^ 143) := by decide +kernel

theorem lit_zero_one : (f32 ma sqrt sqrte sin cos pi scp).lit 0 = whole 0 ∧ (f32 ma sqrt sqrte sin cos pi scp).lit 1 = whole 1 := by
  constructor
  · show F32.mk (Flt.roundInt 32 23 false ((0 : Rat).num * 2 ^ 149) ((0 : Rat).den)) = whole 0
    decide +kernel
  · show F32.mk (Flt.roundInt 32 23 false ((1 : Rat).num * 2 ^ 149) ((1 : Rat).den)) = whole 1
    decide +kernel

/-- C100: on `f32` the scalar ambient occlusion with 8 × 8 samples returns exactly `1 - k / 64` (as `(64 - k) 2^143` units of `2^-149`), where `k` is
the number of pairs of random numbers whose sample ray hits something; no rounding occurs. -/
theorem C100_scalar_f32 (S : Scene F32 σ n) (h8 : S.nao = 8) (s s' : σ) (isect : Isect F32) (r : F32)
    (h : aoScalar (f32 ma sqrt sqrte sin cos pi scp) S s isect = .ok (r, s')) :
    let F := f32 ma sqrt sqrte sin cos pi scp
    ∃ l, draws S.rand 128 s = .ok (l, s') ∧ ∃ k : Nat, k ≤ 64 ∧ valueOf 23 r.bits = .num ((64 - (k : Int)) * 2 ^ 143) ∧
      k = (pairUp l).countP fun p => (castRay F S.plane S.spheres ⟨aoOrigin F isect, sampleDir F (V3.orthoBasis F isect.n) p.1 p.2⟩).hit := by
  intro F
  have key : ∀ k c s p s', k + c ≤ 64 → iter (aoSample F S (V3.orthoBasis F isect.n) (aoOrigin F isect)) k (whole c, s) = .ok (p, s') →
      ∃ l, draws S.rand (2 * k) s = .ok (l, s') ∧ p = whole (c + (pairUp l).countP fun p =>
        (castRay F S.plane S.spheres ⟨aoOrigin F isect, sampleDir F (V3.orthoBasis F isect.n) p.1 p.2⟩).hit) := by
    intro k
    induction k with
    | zero => intro c s p s' _ h; cases h; exact ⟨[], rfl, by simp [pairUp]⟩
    | succ k ih =>
      intro c s p s' hk h
      unfold iter at h
      unfold aoSample at h
      dsimp only at h
      cases h1 : S.rand s with
      | error e => rw [h1] at h; cases h
      | ok p1 =>
        rw [h1] at h
        simp only [R_ok_bind] at h
        cases h2 : S.rand p1.2 with
        | error e => rw [h2] at h; cases h
        | ok p2 =>
          rw [h2] at h
          simp only [R_ok_bind] at h
          rw [show F.lit 1 = whole 1 from (lit_zero_one ma sqrt sqrte sin cos pi scp).2, whole_add c (by omega) 1 (by omega)] at h
          have h' : iter (aoSample F S (V3.orthoBasis F isect.n) (aoOrigin F isect)) k
            (whole (if (castRay F S.plane S.spheres ⟨aoOrigin F isect, sampleDir F (V3.orthoBasis F isect.n) p1.1 p2.1⟩).hit then c + 1 else c), p2.2) =
              .ok (p, s') := by
            rw [apply_ite whole]; exact h
          obtain ⟨l, e1, e2⟩ := ih _ _ _ _ (by split <;> omega) h'
          refine ⟨p1.1 :: p2.1 :: l, ?_, ?_⟩
          · have := draws_succ_succ S.rand k s id
            rw [h1, R_ok_bind] at this
            dsimp only at this
            rw [h2, R_ok_bind] at this
            rw [e1] at this
            cases hd : draws S.rand (2 * (k + 1)) s with
            | error e => rw [hd] at this; cases this
            | ok q => rw [hd] at this; exact this
          · rw [e2]
            congr 1
            simp only [pairUp, List.countP_cons]
            split <;> omega
  unfold aoScalar at h
  dsimp only at h
  rw [nested_iter, h8] at h
  cases hi : iter (aoSample F S (V3.orthoBasis F isect.n) (aoOrigin F isect)) (8 * 8) (F.lit 0, s) with
  | error e => rw [hi] at h; cases h
  | ok p =>
    rw [hi] at h
    cases h
    rw [show F.lit 0 = whole 0 from (lit_zero_one ma sqrt sqrte sin cos pi scp).1] at hi
    obtain ⟨l, e1, e2⟩ := key _ _ _ _ _ (by omega) hi
    have hc : ((pairUp l).countP fun p => (castRay F S.plane S.spheres ⟨aoOrigin F isect, sampleDir F (V3.orthoBasis F isect.n) p.1 p.2⟩).hit) ≤ 64 := by
      have := List.countP_le_length (p := fun p : F32 × F32 => (castRay F S.plane S.spheres ⟨aoOrigin F isect, sampleDir F (V3.orthoBasis F isect.n) p.1 p.2⟩).hit) (l := pairUp l)
      rw [pairUp_length, draws_length _ _ _ _ _ e1] at this
      omega
    refine ⟨l, e1, _, hc, ?_, rfl⟩
    rw [e2, Nat.zero_add, show F.lit 1 = whole 1 from (lit_zero_one ma sqrt sqrte sin cos pi scp).2, show F.ofUsize (8 * 8) = whole 64 from rfl]
    exact whole_result _ (by omega)

/-- The whole number a float stands for. -/
def unwhole (x : F32) : Nat := match valueOf 23 x.bits with
  | .num z => (z / 2 ^ 149).toNat
  | _ => 0

theorem unwhole_whole : ∀ k, k < 65 → unwhole (whole k) = k := by decide +kernel

/-- However whole numbers with a total of at most 64 are added up, the result is exact. -/
theorem sum_whole {l : List F32} {r : F32} (h : SumOf (· + ·) (whole 0) l r) : (∀ x ∈ l, x = whole (unwhole x)) → (l.map unwhole).sum ≤ 64 →
    r = whole (l.map unwhole).sum := by
  induction h with
  | empty => intro _ _; rfl
  | single x => intro h _; simpa using h x (by simp)
  | add h1 h2 ih1 ih2 =>
    intro h hs
    rw [List.map_append, List.sum_append] at hs ⊢
    rw [ih1 (fun x hx => h x (by simp [hx])) (by omega), ih2 (fun x hx => h x (by simp [hx])) (by omega)]
    exact whole_add _ (by omega) _ (by omega)
  | perm hp _ ih =>
    intro h hs
    have hm := (hp.map unwhole).sum_eq
    rw [← hm] at hs ⊢
    exact ih (fun x hx => h x (hp.mem_iff.1 hx)) hs

/-- After `j` packets every lane has counted at most `j` hits. -/
def Counted (j : Nat) (st : Vec F32 n × σ) : Prop := j ≤ 64 → ∀ i (h : i < n), ∃ c, c ≤ j ∧ st.1[i] = whole c

theorem counted_step (F : Fns F32) (h0 : F.lit 0 = whole 0) (h1 : F.lit 1 = whole 1) (j : Nat) (v : Vec F32 n) (s s' : σ) (m : Vec Bool n)
    (h : Counted j (v, s)) : Counted (j + 1) (v + sel m (splat n (F.lit 1)) (splat n (F.lit 0)), s') := by
  intro hj i hi
  obtain ⟨c, hc, e⟩ := h (by omega) i hi
  dsimp only at e ⊢
  rw [vadd_get, sel_get, splat_get, splat_get, e, h0, h1]
  cases m[i]
  · exact ⟨c, by omega, whole_add c (by omega) 0 (by omega)⟩
  · exact ⟨c + 1, by omega, whole_add c (by omega) 1 (by omega)⟩

/-- C100: on `f32` every lane of the tiled ambient occlusion with 8 × 8 samples is exactly `1 - k / 64` for some whole `k` from 0 to 64. -/
theorem C100_tiled_f32 (dbg : Bool) (S : Scene F32 σ n) (h8 : S.nao = 8) (s s' : σ) (isect : IsectN F32 n) (r : Vec F32 n)
    (h : aoTiled (f32 ma sqrt sqrte sin cos pi scp) dbg S s isect = .ok (r, s')) :
    ∀ i (hi : i < n), ∃ k : Nat, k ≤ 64 ∧ valueOf 23 r[i].bits = .num ((64 - (k : Int)) * 2 ^ 143) := by
  obtain ⟨l0, l1⟩ := lit_zero_one ma sqrt sqrte sin cos pi scp
  have lu : (f32 ma sqrt sqrte sin cos pi scp).ofUsize (8 * 8) = whole 64 := rfl
  generalize f32 ma sqrt sqrte sin cos pi scp = F at *
  unfold aoTiled at h
  dsimp only at h
  rw [nested_iter, h8] at h
  generalize V3N.orthoBasis F isect.n = B at h
  generalize isect.p.add _ = o at h
  cases hi : iter (aoSampleT F dbg S B o) (8 * 8) (splat n (F.lit 0), s) with
  | error e => rw [hi] at h; cases h
  | ok p =>
    rw [hi] at h
    cases h
    have := iter_inv (aoSampleT F dbg S B o) Counted (by
      rintro j ⟨v, s⟩ st' hP hf
      rw [show aoSampleT F dbg S B o (v, s) = (S.randN s >>= fun p => castN F dbg S.plane S.spheres
        ⟨o, V3N.mulMN F B (hemi F p.1 p.2.1)⟩ >>= fun isect => .ok (v + sel isect.hit (splat n (F.lit 1)) (splat n (F.lit 0)), p.2.2)) from rfl] at hf
      cases h1 : S.randN s with
      | error e => rw [h1] at hf; cases hf
      | ok q =>
        rw [h1, R_ok_bind] at hf
        cases h2 : castN F dbg S.plane S.spheres ⟨o, V3N.mulMN F B (hemi F q.1 q.2.1)⟩ with
        | error e => rw [h2] at hf; cases hf
        | ok i => rw [h2] at hf; cases hf; exact counted_step F l0 l1 j v s _ _ hP) _ 0 _ _ (by
          intro _ i hi; exact ⟨0, by omega, by rw [splat_get, l0]⟩) hi
    intro i hi
    obtain ⟨c, hc, e⟩ := this (by omega) i hi
    refine ⟨c, by omega, ?_⟩
    rw [vsub_get, vdiv_get, splat_get, splat_get, e, l1, lu]
    exact whole_result c (by omega)

/-- C100: on `f32` the vectorized ambient occlusion with 8 × 8 samples is exactly `1 - k / 64` for some whole `k` from 0 to 64, on every target. -/
theorem C100_vector_f32 [LaneCount n] (hn : n ∣ 8) (t : Target) (dbg : Bool) (S : Scene F32 σ n) (h8 : S.nao = 8) (s s' : σ) (isect : Isect F32) (r : F32)
    (h : aoVector (f32 ma sqrt sqrte sin cos pi scp) t dbg S s isect = .ok (r, s')) :
    ∃ k : Nat, k ≤ 64 ∧ valueOf 23 r.bits = .num ((64 - (k : Int)) * 2 ^ 143) := by
  obtain ⟨l0, l1⟩ := lit_zero_one ma sqrt sqrte sin cos pi scp
  have lu : (f32 ma sqrt sqrte sin cos pi scp).ofUsize (8 * 8) = whole 64 := rfl
  generalize f32 ma sqrt sqrte sin cos pi scp = F at *
  unfold aoVector at h
  dsimp only at h
  rw [nested_iter, h8] at h
  generalize V3.orthoBasis F isect.n = B at h
  generalize splat3 n (aoOrigin F isect) = o at h
  have hm : n * ((8 + n - 1) / n * 8) = 64 := by
    obtain ⟨q, hq⟩ := hn
    have h0 := LaneCount.pos (n := n)
    rw [show 8 + n - 1 = n - 1 + n * q by omega, Nat.add_mul_div_left _ _ h0, Nat.div_eq_of_lt (by omega), Nat.zero_add, ← Nat.mul_assoc, ← hq]
  have hle : (8 + n - 1) / n * 8 ≤ 64 := by
    rw [← hm]; exact Nat.le_mul_of_pos_left _ (LaneCount.pos (n := n))
  generalize (8 + n - 1) / n * 8 = N at *
  cases hi : iter (aoSampleN F dbg S B o) N (splat n (F.lit 0), s) with
  | error e => rw [hi] at h; cases h
  | ok p =>
    rw [hi, R_ok_bind] at h
    have := iter_inv (aoSampleN F dbg S B o) Counted (by
      rintro j ⟨v, s⟩ st' hP hf
      rw [show aoSampleN F dbg S B o (v, s) = (S.randN s >>= fun p => castN F dbg S.plane S.spheres
        ⟨o, V3N.mulM F B (hemi F p.1 p.2.1)⟩ >>= fun isect => .ok (v + sel isect.hit (splat n (F.lit 1)) (splat n (F.lit 0)), p.2.2)) from rfl] at hf
      cases h1 : S.randN s with
      | error e => rw [h1] at hf; cases hf
      | ok q =>
        rw [h1, R_ok_bind] at hf
        cases h2 : castN F dbg S.plane S.spheres ⟨o, V3N.mulM F B (hemi F q.1 q.2.1)⟩ with
        | error e => rw [h2] at hf; cases hf
        | ok i => rw [h2] at hf; cases hf; exact counted_step F l0 l1 j v s _ _ hP) _ 0 _ _ (by
          intro _ i hi; exact ⟨0, by omega, by rw [splat_get, l0]⟩) hi
    have hc := this (by omega)
    rw [Nat.zero_add] at hc
    obtain ⟨w, e1, e2⟩ := vsum_vec t ⟨F.lit 0, (· + ·), (· * ·)⟩ p.1
    rw [e1] at h
    cases h
    dsimp only at e2
    rw [l0] at e2
    have hall : ∀ x ∈ p.1.toList, x = whole (unwhole x) ∧ unwhole x ≤ N := by
      intro x hx
      obtain ⟨i, hi, rfl⟩ := List.getElem_of_mem hx
      obtain ⟨c, hcN, e⟩ := hc i (by simpa using hi)
      rw [Vector.getElem_toList, e, unwhole_whole c (by omega)]
      exact ⟨rfl, hcN⟩
    have hs : (p.1.toList.map unwhole).sum ≤ 64 := by
      have : (p.1.toList.map unwhole).sum ≤ (p.1.toList.map unwhole).length • N := List.sum_le_card_nsmul _ _ (by
        intro x hx
        obtain ⟨y, hy, rfl⟩ := List.mem_map.1 hx
        exact (hall y hy).2)
      rw [List.length_map, Vector.length_toList, smul_eq_mul, hm] at this
      exact this
    rw [sum_whole e2 (fun x hx => (hall x hx).1) hs, l1, lu]
    exact ⟨_, hs, whole_result _ (by omega)⟩

end

/-! ### C101 -/

section
variable {α : Type}

/-- A test scene as it can occur: 128 random numbers and a position among them. -/
def GoodTest (s : TestState α) : Prop := s.rands.length = 128 ∧ s.step.toNat < 128

/-- C101: a new test scene is as it should be. -/
theorem C101_default (r : AoRandom.Rng) : GoodTest (TestState.default r).1 := by
  have : ∀ k r, (testRands k r).1.length = k := by
    intro k
    induction k with
    | zero => intro r; rfl
    | succ k ih => intro r; exact congrArg (· + 1) (ih _)
  refine ⟨?_, by simp [TestState.default]⟩
  simp [TestState.default, this, naoSamples]

/-- C101: the test scene delivers its 128 numbers over and over and never panics. -/
theorem C101_rand (s : TestState α) (h : GoodTest s) : ∃ x s', s.rand = .ok (x, s') ∧ s.rands[s.step.toNat]? = some x ∧ s'.rands = s.rands ∧
    s'.step.toNat = (s.step.toNat + 1) % 128 := by
  obtain ⟨h1, h2⟩ := h
  unfold TestState.rand
  rw [lget_lt _ (by omega), R_ok_bind]
  refine ⟨_, _, rfl, List.getElem?_eq_getElem _, rfl, ?_⟩
  dsimp only
  have hs : (s.step + 1).toNat = s.step.toNat + 1 := by
    rw [BitVec.toNat_add]
    show (s.step.toNat + 1) % 2 ^ 64 = _
    omega
  have hc : BitVec.ofNat 64 (2 * naoSamples * naoSamples) ≤ s.step + 1 ↔ 128 ≤ s.step.toNat + 1 := by
    rw [BitVec.le_def, hs]; rfl
  by_cases hh : 128 ≤ s.step.toNat + 1
  · rw [if_pos (hc.2 hh)]
    show 0 = _
    omega
  · rw [if_neg (fun h => hh (hc.1 h)), hs]
    omega

theorem testState_ext {s s' : TestState α} (h1 : s.rands = s'.rands) (h2 : s.step.toNat = s'.step.toNat) : s = s' := by
  cases s; cases s'
  simp only at h1 h2
  rw [h1, BitVec.eq_of_toNat_eq h2]

theorem test_iter (k : Nat) : ∀ s : TestState α, GoodTest s → ∃ s', iter (step TestState.rand) k s = .ok s' ∧ s'.rands = s.rands ∧
    s'.step.toNat = (s.step.toNat + k) % 128 := by
  induction k with
  | zero => intro s h; exact ⟨s, rfl, rfl, by have := h.2; omega⟩
  | succ k ih =>
    intro s h
    obtain ⟨x, s1, e, _, e1, e2⟩ := C101_rand s h
    obtain ⟨s2, f, f1, f2⟩ := ih s1 ⟨by rw [e1]; exact h.1, by omega⟩
    refine ⟨s2, ?_, by rw [f1, e1], by omega⟩
    unfold iter step
    rw [e]
    exact f

theorem test_cycle (k : Nat) (s : TestState α) (h : GoodTest s) : iter (step TestState.rand) (128 * k) s = .ok s := by
  obtain ⟨s', e, e1, e2⟩ := test_iter (128 * k) s h
  rw [e, testState_ext e1 (by have := h.2; omega)]

variable [Add α] [Sub α] [Mul α] [Div α] [Neg α] {n : Nat}

/-- C101: every scalar ambient occlusion on the test scene succeeds and leaves the scene as it was (whatever the arithmetic), so that rendering does not
depend on what was rendered before. -/
theorem C101_scalar (F : Fns α) (s : TestState α) (h : GoodTest s) (isect : Isect α) : ∃ r, aoScalar F (testScene F n) s isect = .ok (r, s) := by
  unfold aoScalar
  dsimp only
  rw [nested_iter]
  have key := iter_map (aoSample F (testScene F n) (V3.orthoBasis F isect.n) (aoOrigin F isect)) (iter (step TestState.rand) 2) Prod.snd
    (aoSample_step F (testScene F n) _ _) (8 * 8) (F.lit 0, s)
  rw [iter_iter, test_cycle 1 s h] at key
  show ∃ r, (iter (aoSample F (testScene F n) (V3.orthoBasis F isect.n) (aoOrigin F isect)) (8 * 8) (F.lit 0, s) >>= _) = _
  cases hi : iter (aoSample F (testScene F n) (V3.orthoBasis F isect.n) (aoOrigin F isect)) (8 * 8) (F.lit 0, s) with
  | error e => rw [hi] at key; cases key
  | ok p =>
    rw [hi] at key
    obtain ⟨c, s'⟩ := p
    have : s' = s := Except.ok.inj key
    exact ⟨_, by rw [this]; rfl⟩

/-- C101: so does every vectorized ambient occlusion in a release build, if the number of lanes divides 8. -/
theorem C101_vector [LaneCount n] (hn : n ∣ 8) (F : Fns α) (t : Target) (s : TestState α) (h : GoodTest s) (isect : Isect α) :
    ∃ r, aoVector F t false (testScene F n) s isect = .ok (r, s) := by
  unfold aoVector
  dsimp only
  rw [nested_iter]
  have hm : 2 * n * ((8 + n - 1) / n * 8) = 128 * 1 := by
    obtain ⟨q, hq⟩ := hn
    have h0 := LaneCount.pos (n := n)
    rw [show 8 + n - 1 = n - 1 + n * q by omega, Nat.add_mul_div_left _ _ h0, Nat.div_eq_of_lt (by omega), Nat.zero_add, Nat.mul_assoc, ← Nat.mul_assoc n, ← hq]
  have key := iter_map (aoSampleN F false (testScene F n) (V3.orthoBasis F isect.n) (splat3 n (aoOrigin F isect))) (iter (step TestState.rand) (2 * n)) Prod.snd
    (fun st => (packet_step (testScene F n) rfl (fun a b => castN F false (scenePlane F) (sceneSpheres F)
      ⟨splat3 n (aoOrigin F isect), V3N.mulM F (V3.orthoBasis F isect.n) (hemi F a b)⟩)
      (fun i => st.1 + sel i.hit (splat n (F.lit 1)) (splat n (F.lit 0))) st.2).2 fun _ _ => castN_release F _ _ _) ((8 + n - 1) / n * 8) (splat n (F.lit 0), s)
  rw [iter_iter, hm, test_cycle 1 s h] at key
  show ∃ r, (iter (aoSampleN F false (testScene F n) (V3.orthoBasis F isect.n) (splat3 n (aoOrigin F isect))) ((8 + n - 1) / n * 8) (splat n (F.lit 0), s) >>= _) = _
  cases hi : iter (aoSampleN F false (testScene F n) (V3.orthoBasis F isect.n) (splat3 n (aoOrigin F isect))) ((8 + n - 1) / n * 8) (splat n (F.lit 0), s) with
  | error e => rw [hi] at key; cases key
  | ok p =>
    rw [hi] at key
    obtain ⟨c, s'⟩ := p
    have : s' = s := Except.ok.inj key
    obtain ⟨w, e1, _⟩ := vsum_vec t ⟨F.lit 0, (· + ·), (· * ·)⟩ c
    exact ⟨_, by rw [this, R_ok_bind]; dsimp only; rw [e1]; rfl⟩

/-- C101: so does every tiled ambient occlusion in a release build, for any number of lanes. -/
theorem C101_tiled (F : Fns α) (s : TestState α) (h : GoodTest s) (isect : IsectN α n) :
    ∃ r, aoTiled F false (testScene F n) s isect = .ok (r, s) := by
  unfold aoTiled
  dsimp only
  rw [nested_iter]
  generalize V3N.orthoBasis F isect.n = B
  generalize isect.p.add _ = o
  have key := iter_map (aoSampleT F false (testScene F n) B o) (iter (step TestState.rand) (2 * n)) Prod.snd
    (fun st => (packet_step (testScene F n) rfl (fun a b => castN F false (scenePlane F) (sceneSpheres F)
      ⟨o, V3N.mulMN F B (hemi F a b)⟩)
      (fun i => st.1 + sel i.hit (splat n (F.lit 1)) (splat n (F.lit 0))) st.2).2 fun _ _ => castN_release F _ _ _) (8 * 8) (splat n (F.lit 0), s)
  rw [iter_iter, show 2 * n * (8 * 8) = 128 * n by ring, test_cycle n s h] at key
  show ∃ r, (iter (aoSampleT F false (testScene F n) B o) (8 * 8) (splat n (F.lit 0), s) >>= _) = _
  cases hi : iter (aoSampleT F false (testScene F n) B o) (8 * 8) (splat n (F.lit 0), s) with
  | error e => rw [hi] at key; cases key
  | ok p =>
    rw [hi] at key
    obtain ⟨c, s'⟩ := p
    have : s' = s := Except.ok.inj key
    exact ⟨_, by rw [this]; rfl⟩

example : GoodTest (⟨List.replicate 128 (0 : ℚ), 127#64⟩ : TestState ℚ) := ⟨by simp, by decide⟩

-- the hypotheses of C100 are met by every new test scene, whatever the generator and the point hit
example (F : Fns F32) (t : Target) (g : AoRandom.Rng) (i : Isect F32) (j : IsectN F32 4) : (testScene F 4).nao = 8 ∧
    (∃ r s', aoScalar F (testScene F 4) (TestState.default g).1 i = .ok (r, s')) ∧
    (∃ r s', aoVector F t false (testScene F 4) (TestState.default g).1 i = .ok (r, s')) ∧
    (∃ r s', aoTiled F false (testScene F 4) (TestState.default g).1 j = .ok (r, s')) :=
  ⟨rfl, (C101_scalar F _ (C101_default g) i).imp fun _ h => ⟨_, h⟩, (C101_vector ⟨2, rfl⟩ F t _ (C101_default g) i).imp fun _ h => ⟨_, h⟩,
    (C101_tiled F _ (C101_default g) j).imp fun _ h => ⟨_, h⟩⟩

end

end PackedSimd.Props
