import Verif.Props.AoShadePacket
/-
examples/aobench/src/{ambient_occlusion,scene/test}.rs in `f32` arithmetic: C139 and C140 for the test scene.
-/
namespace PackedSimd.Props
open Ex Ex.Ao Spec Spec.Ao F32R Mandel V3N

section
variable {n : Nat} {σ α : Type}

theorem draws_inv {rand : σ → R (α × σ)} {P : σ → Prop} (h : ∀ s x s', P s → rand s = .ok (x, s') → P s') :
    ∀ (k : Nat) (s : σ) (l : List α) (s' : σ), P s → draws rand k s = .ok (l, s') → P s' := by
  intro k
  induction k with
  | zero => intro s l s' hs e; cases e; exact hs
  | succ k ih =>
    intro s l s' hs e
    unfold draws at e
    cases e1 : rand s with
    | error z => rw [e1] at e; cases e
    | ok p =>
      rw [e1, R_ok_bind] at e
      dsimp only at e
      cases e2 : draws rand k p.2 with
      | error z => rw [e2] at e; cases e
      | ok q =>
        rw [e2] at e
        cases e
        exact ih _ _ _ (h _ _ _ hs e1) e2

theorem default_inv {rand : σ → R (α × σ)} {P : σ → Prop} {Q : α → Prop} (h : ∀ s x s', P s → rand s = .ok (x, s') → Q x ∧ P s') (s : σ) (a b : Vec α n) (s' : σ)
    (hs : P s) (e : defaultRandN n rand s = .ok (a, b, s')) : (∀ i (_ : i < n), Q a[i] ∧ Q b[i]) ∧ P s' := by
  unfold defaultRandN at e
  cases hd : draws rand (2 * n) s with
  | error z => rw [hd] at e; cases e
  | ok p =>
    obtain ⟨l, s1⟩ := p
    have hl := draws_length _ _ _ _ _ hd
    rw [hd, R_ok_bind] at e
    dsimp only at e
    rw [newLanes_ok n _ (fun i => l[2 * i.val]'(by omega)) (fun i => lget_lt l (by omega)), R_ok_bind,
      newLanes_ok n _ (fun i => l[2 * i.val + 1]'(by omega)) (fun i => lget_lt l (by omega)), R_ok_bind] at e
    cases e
    have hq := draws_all h _ _ _ _ hs hd
    refine ⟨fun i hi => ?_, draws_inv (fun s x s' hs e => (h s x s' hs e).2) _ _ _ _ hs hd⟩
    rw [Vector.getElem_ofFn, Vector.getElem_ofFn]
    exact ⟨hq _ (List.getElem_mem _), hq _ (List.getElem_mem _)⟩

/-- A test scene as it can occur, with its numbers in range. -/
def UnitTest (s : TestState F32) : Prop := GoodTest s ∧ ∀ x ∈ s.rands, InUnit x

/-- Every new test scene is of this kind, whatever the state of the generator. -/
theorem unitTest_default (r : AoRandom.Rng) : UnitTest (TestState.default r).1 := by
  refine ⟨C101_default r, ?_⟩
  have : ∀ k r, ∀ x ∈ (testRands k r).1, InUnit ⟨x⟩ := by
    intro k
    induction k with
    | zero => intro r x hx; cases hx
    | succ k ih =>
      intro r x hx
      rcases List.mem_cons.1 hx with rfl | hx
      · exact inUnit_of (C90_unit_interval r)
      · exact ih _ x hx
  intro x hx
  unfold TestState.default at hx
  generalize 2 * naoSamples * naoSamples = k at hx
  obtain ⟨y, hy, rfl⟩ := List.mem_map.1 hx
  exact this k r y hy

theorem unitTest_rand (s : TestState F32) (x : F32) (s' : TestState F32) (h : UnitTest s) (e : s.rand = .ok (x, s')) : InUnit x ∧ UnitTest s' := by
  obtain ⟨x1, s1, e1, hx, h1, h2⟩ := C101_rand s h.1
  rw [e] at e1
  cases e1
  exact ⟨h.2 _ (List.mem_of_getElem? hx), ⟨by rw [h1]; exact h.1.1, by omega⟩, by rw [h1]; exact h.2⟩

end

variable {n : Nat} (ma : F32 → F32 → F32 → F32) (sqrt sqrte sin cos : F32 → F32) (pi : F32) (scp : F32 → F32 × F32)

local notation "F" => f32 ma sqrt sqrte sin cos pi scp

/-- C139: the test scene of the program, new or used. -/
theorem C139_test (hs : RootOk sqrt) {δ ε : ℝ} (hδ : δ + ε + 60 * ulp ≤ 1 / 1000) (hδ' : δ ≤ 1 / 1000) (hε : ε ≤ 1 / 100)
    (ht : ∀ r, InUnit r → TrigOk ε (sin ((F).lit 2 * pi * r)) (cos ((F).lit 2 * pi * r))) (s : TestState F32) (h0 : UnitTest s) {isect : Isect F32} (hn : AlmostUnit δ isect.n)
    (hp : FiniteV isect.p) (bx : |(toReal isect.p).x| ≤ 2 ^ 29) (by' : |(toReal isect.p).y| ≤ 2 ^ 29) (bz : |(toReal isect.p).z| ≤ 2 ^ 29) :
    ∃ a s', aoScalar F (testScene F n) s isect = .ok (a, s') ∧ ∃ l, draws TestState.rand 128 s = .ok (l, s') ∧
      Occlusion δ ε (pairUp l) (scenePlane F) (sceneSpheres F) isect a := by
  obtain ⟨a, s', e, -⟩ := aoScalar_total F (test_delivers (n := n) F) s h0.1 isect
  obtain ⟨h1, h2, h3⟩ := scene_moderate ma sqrt sqrte sin cos pi scp
  exact ⟨a, s', e, C139_scalar ma sqrt sqrte sin cos pi scp hs (S := testScene F n) rfl (P := UnitTest) unitTest_rand h1 h2 h3 hδ hδ' hε ht h0 hn hp bx by' bz e⟩

/-- C140: the test scene of the program, new or used, without debug assertions. -/
theorem C140_test [LaneCount n] (hn8 : n ∣ 8) (t : Target) (hs : RootOk sqrt) (he : RootOk sqrte) (hm : MulAddOk ma) {ε : ℝ} (hε : ε ≤ 1 / 100)
    (ht : ∀ r, InUnit r → TrigOk ε (scp ((F).lit 2 * r)).1 (scp ((F).lit 2 * r)).2) (s : TestState F32) (h0 : UnitTest s) :
    (∀ {δ : ℝ} {isect : Isect F32}, δ + ε + 60 * ulp ≤ 1 / 1000 → δ ≤ 1 / 1000 → AlmostUnit δ isect.n → FiniteV isect.p → |(toReal isect.p).x| ≤ 2 ^ 29 →
      |(toReal isect.p).y| ≤ 2 ^ 29 → |(toReal isect.p).z| ≤ 2 ^ 29 → ∃ a s', aoVector F t false (testScene F n) s isect = .ok (a, s') ∧
      ∃ l, drawsN (testScene F n).randN (64 / n) s = .ok (l, s') ∧
        Occlusion δ ε (l.flatMap fun p => (List.finRange n).map fun i => (p.1[i], p.2[i])) (scenePlane F) (sceneSpheres F) isect a) ∧
    ∀ isect : IsectN F32 n, ∃ a s', aoTiled F false (testScene F n) s isect = .ok (a, s') ∧ ∃ l, drawsN (testScene F n).randN 64 s = .ok (l, s') ∧
      ∀ i (hi : i < n) {δ : ℝ}, δ + ε + 60 * ulp ≤ 1 / 1000 → δ ≤ 1 / 1000 → AlmostUnit δ (isect.lane i hi).n → FiniteV (isect.lane i hi).p →
        |(toReal (isect.lane i hi).p).x| ≤ 2 ^ 29 → |(toReal (isect.lane i hi).p).y| ≤ 2 ^ 29 → |(toReal (isect.lane i hi).p).z| ≤ 2 ^ 29 →
        Occlusion δ ε (l.map fun p => (p.1[i], p.2[i])) (scenePlane F) (sceneSpheres F) (isect.lane i hi) a[i] := by
  obtain ⟨h1, h2, h3⟩ := scene_moderate ma sqrt sqrte sin cos pi scp
  have hP : ∀ s a b s', UnitTest s → (testScene F n).randN s = .ok (a, b, s') → (∀ i (_ : i < n), InUnit a[i] ∧ InUnit b[i]) ∧ UnitTest s' :=
    fun s a b s' hs e => default_inv unitTest_rand s a b s' hs e
  constructor
  · intro δ isect hδ hδ' hn hp bx by' bz
    obtain ⟨a, s', e, -⟩ := aoVector_total F (test_delivers (n := n) F) t s h0.1 isect
    exact ⟨a, s', e, C140_vector ma sqrt sqrte sin cos pi scp hn8 t hs he hm (S := testScene F n) rfl hP h1 h2 h3 hδ hδ' hε ht h0 hn hp bx by' bz e⟩
  · intro isect
    obtain ⟨a, s', e, -⟩ := aoTiled_total F (test_delivers (n := n) F) s h0.1 isect
    exact ⟨a, s', e, C140_tiled ma sqrt sqrte sin cos pi scp hs he hm (S := testScene F n) rfl hP h1 h2 h3 hε ht h0 e⟩

/-- The scene that the program makes; the other hypotheses are those of `C139_random` and `C140_random`. -/
example : UnitTest (TestState.default AoRandom.Rng.thread).1 := unitTest_default _

end PackedSimd.Props
