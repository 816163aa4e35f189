import Verif.Model.Examples.AoOcclusion
import Verif.Spec.AoOcclusion
import Verif.Lemmas.AoExact
import Verif.Lemmas.Sums
/-
Helper lemmas for the ambient occlusion functions of aobench.
-/
namespace PackedSimd.Ex.Ao
open V3N Spec.Ao Mandel

/-! ### Loops whose body does not look at the index -/

/-- `k` runs of `f`. -/
def iter {τ : Type} (f : τ → R τ) : Nat → τ → R τ
  | 0, s => .ok s
  | k + 1, s => f s >>= iter f k

theorem forRange_iter {τ : Type} (f : τ → R τ) : ∀ (k lo : Nat) (s : τ), forRange lo (lo + k) (fun st _ => f st) s = iter f k s := by
  intro k
  induction k with
  | zero => intro lo s; simp [forRange, iter, pure, Except.pure]
  | succ k ih =>
    intro lo s
    unfold iter
    rw [← funext (ih (lo + 1))]
    unfold forRange
    rw [show lo + (k + 1) - lo = k + 1 by omega, List.range'_succ, List.foldlM_cons, show lo + 1 + k - (lo + 1) = k by omega]

theorem forRange0_iter {τ : Type} (f : τ → R τ) (k : Nat) (s : τ) : forRange 0 k (fun st _ => f st) s = iter f k s := by
  have := forRange_iter f k 0 s
  rwa [Nat.zero_add] at this

theorem iter_add {τ : Type} (f : τ → R τ) : ∀ (a b : Nat) (s : τ), iter f (a + b) s = iter f a s >>= iter f b := by
  intro a
  induction a with
  | zero => intro b s; rw [Nat.zero_add]; rfl
  | succ a ih =>
    intro b s
    rw [Nat.add_right_comm]
    show f s >>= iter f (a + b) = (f s >>= iter f a) >>= iter f b
    cases f s with
    | error e => rfl
    | ok s' => exact ih b s'

theorem iter_iter {τ : Type} (f : τ → R τ) (m : Nat) : ∀ (k : Nat) (s : τ), iter (iter f m) k s = iter f (m * k) s := by
  intro k
  induction k with
  | zero => intro s; rfl
  | succ k ih =>
    intro s
    rw [Nat.mul_succ, Nat.add_comm (m * k), iter_add f]
    show iter f m s >>= iter (iter f m) k = _
    rw [funext ih]

theorem iter_map {τ ρ : Type} (f : τ → R τ) (f' : ρ → R ρ) (g : τ → ρ) (h : ∀ s, (f s).map g = f' (g s)) :
    ∀ (k : Nat) (s : τ), (iter f k s).map g = iter f' k (g s) := by
  intro k
  induction k with
  | zero => intro s; rfl
  | succ k ih =>
    intro s
    show (f s >>= iter f k).map g = f' (g s) >>= iter f' k
    rw [← h s]
    cases f s with
    | error e => rfl
    | ok s' => exact ih s'

theorem nested_iter {τ : Type} (f : τ → R τ) (a b : Nat) (s : τ) :
    forRange 0 a (fun st _ => forRange 0 b (fun st _ => f st) st) s = iter f (b * a) s := by
  rw [← iter_iter, ← forRange0_iter]
  congr 1
  funext st _
  exact forRange0_iter f b st

theorem iter_inv {τ : Type} (f : τ → R τ) (P : Nat → τ → Prop) (hs : ∀ i s s', P i s → f s = .ok s' → P (i + 1) s') :
    ∀ (k i : Nat) (s s' : τ), P i s → iter f k s = .ok s' → P (i + k) s' := by
  intro k
  induction k with
  | zero => intro i s s' h e; cases e; exact h
  | succ k ih =>
    intro i s s' h e
    unfold iter at e
    cases hf : f s with
    | error e' => rw [hf] at e; cases e
    | ok s1 =>
      rw [hf] at e
      have := ih (i + 1) s1 s' (hs i s s1 h hf) e
      rwa [Nat.add_right_comm] at this

/-! ### Draws -/

section
variable {α σ : Type}

theorem draws_length (rand : σ → R (α × σ)) : ∀ (k : Nat) (s : σ) (l : List α) (s' : σ), draws rand k s = .ok (l, s') → l.length = k := by
  intro k
  induction k with
  | zero => intro s l s' h; cases h; rfl
  | succ k ih =>
    intro s l s' h
    unfold draws at h
    cases h1 : rand s with
    | error e => rw [h1] at h; cases h
    | ok p =>
      rw [h1, R_ok_bind] at h
      dsimp only at h
      cases h2 : draws rand k p.2 with
      | error e => rw [h2] at h; cases h
      | ok q =>
        rw [h2] at h; cases h
        rw [List.length_cons, ih _ _ _ h2]

theorem draws_succ_succ (rand : σ → R (α × σ)) (k : Nat) (s : σ) {β : Type} (f : List α × σ → β) :
    (draws rand (2 * (k + 1)) s).map f = (do
      let (a, s) ← rand s
      let (b, s) ← rand s
      (draws rand (2 * k) s).map fun p => f (a :: b :: p.1, p.2)) := by
  have step : ∀ k s, draws rand (k + 1) s = (rand s >>= fun p => draws rand k p.2 >>= fun q => .ok (p.1 :: q.1, q.2)) := fun _ _ => rfl
  rw [show 2 * (k + 1) = 2 * k + 1 + 1 by omega, step]
  cases rand s with
  | error e => rfl
  | ok p =>
    simp only [R_ok_bind, step]
    cases rand p.2 with
    | error e => rfl
    | ok q =>
      simp only [R_ok_bind]
      cases draws rand (2 * k) q.2 <;> rfl

theorem newLanes_ok {β : Type} : ∀ (n : Nat) (f : Nat → R β) (g : Fin n → β), (∀ i : Fin n, f i.val = .ok (g i)) → newLanes n f = .ok (Vector.ofFn g)
  | 0, _, _, _ => by unfold newLanes; congr 1
  | n + 1, f, g, h => by
    unfold newLanes
    rw [newLanes_ok n f (fun i => g i.castSucc) fun i => h i.castSucc, R_ok_bind,
      show f n = .ok (g (Fin.last n)) from h (Fin.last n), R_ok_bind]
    show Except.ok _ = _
    congr 1
    ext i hi
    rw [Vector.getElem_push]
    split
    · simp
    · simp; congr 1; ext; simp; omega

theorem draws_pop : ∀ l : List α, draws pop l.length l = .ok (l, []) := by
  intro l
  induction l with
  | nil => rfl
  | cons x l ih =>
    show (draws pop l.length l >>= fun q => Except.ok (x :: q.1, q.2)) = _
    rw [ih]
    rfl

theorem pairUp_get : ∀ (l : List α) (i : Nat) (h : 2 * i + 1 < l.length),
    (pairUp l)[i]? = some (l[2 * i], l[2 * i + 1]) := by
  intro l
  induction l using pairUp.induct with
  | case1 a b l ih =>
    intro i h
    unfold pairUp
    cases i with
    | zero => rfl
    | succ i => exact ih i (by simp at h; omega)
  | case2 l hl =>
    intro i h
    match l, hl with
    | [], _ => simp at h
    | [a], _ => simp at h
    | a :: b :: l, hl => exact absurd rfl (hl a b l)

theorem pairUp_length : ∀ (l : List α), (pairUp l).length = l.length / 2 := by
  intro l
  induction l using pairUp.induct with
  | case1 a b l ih => unfold pairUp; simp only [List.length_cons, ih]; omega
  | case2 l hl =>
    match l, hl with
    | [], _ => simp [pairUp]
    | [a], _ => simp [pairUp]
    | a :: b :: l, hl => exact absurd rfl (hl a b l)

/-- The default `rand_f32xN` in terms of the pairs drawn. -/
theorem defaultRandN_eq (n : Nat) (rand : σ → R (α × σ)) (s : σ) {β : Type} (f : Vec α n × Vec α n × σ → R β) (f' : List α × σ → R β)
    (hf : ∀ l s' (a b : Vec α n), l.length = 2 * n → (∀ i (h : i < n), (pairUp l)[i]? = some (a[i], b[i])) → f (a, b, s') = f' (l, s')) :
    (defaultRandN n rand s >>= f) = (draws rand (2 * n) s >>= f') := by
  unfold defaultRandN
  cases hd : draws rand (2 * n) s with
  | error e => rfl
  | ok p =>
    obtain ⟨l, s'⟩ := p
    have hl := draws_length rand _ _ _ _ hd
    simp only [R_ok_bind]
    rw [newLanes_ok n _ (fun i => l[2 * i.val]'(by omega)) fun i => lget_lt _ _, R_ok_bind,
      newLanes_ok n _ (fun i => l[2 * i.val + 1]'(by omega)) fun i => lget_lt _ _, R_ok_bind]
    refine hf l s' _ _ hl fun i h => ?_
    rw [pairUp_get l i (by omega)]
    simp

end

/-! ### Exact arithmetic -/

section
variable {K : Type} [Field K] [LinearOrder K] [IsStrictOrderedRing K] {F : Fns K} (E : Exact F) {n : Nat} {σ : Type}
include E

theorem intersectSphereN_exact (dbg : Bool) (ray : Ray (Vec K n)) (s : Sphere K) (a : IsectN K n) : ∃ r, intersectSphereN F dbg ray s a = .ok r ∧
    ∀ i (h : i < n), r.lane i h = raySphere F (ray.lane i h) s (a.lane i h) :=
  ⟨raySphereN F ray s a, debugCheck_ok F dbg _ ray a _ fun i h => by rw [raySphereN_lane, laneSphere_eq E]; exact almostEq_self E _,
    fun i h => by rw [raySphereN_lane, laneSphere_eq E]⟩
theorem intersectPlaneN_exact (dbg : Bool) (ray : Ray (Vec K n)) (s : Plane K) (a : IsectN K n) : ∃ r, intersectPlaneN F dbg ray s a = .ok r ∧
    ∀ i (h : i < n), r.lane i h = rayPlane F (ray.lane i h) s (a.lane i h) :=
  ⟨rayPlaneN F ray s a, debugCheck_ok F dbg _ ray a _ fun i h => by rw [rayPlaneN_lane, lanePlane_eq E]; exact almostEq_self E _,
    fun i h => by rw [rayPlaneN_lane, lanePlane_eq E]⟩

theorem castN_exact (dbg : Bool) (plane : Plane K) (spheres : List (Sphere K)) (ray : Ray (Vec K n)) : ∃ r, castN F dbg plane spheres ray = .ok r ∧
    ∀ i (h : i < n), r.lane i h = castRay F plane spheres (ray.lane i h) := by
  have fold : ∀ (ss : List (Sphere K)) (a : IsectN K n), ∃ r, ss.foldlM (fun isect s => intersectSphereN F dbg ray s isect) a = .ok r ∧
      ∀ i (h : i < n), r.lane i h = ss.foldl (fun isect s => raySphere F (ray.lane i h) s isect) (a.lane i h) := by
    intro ss
    induction ss with
    | nil => intro a; exact ⟨a, rfl, fun _ _ => rfl⟩
    | cons s ss ih =>
      intro a
      obtain ⟨r, e, h⟩ := intersectSphereN_exact E dbg ray s a
      obtain ⟨r', e', h'⟩ := ih r
      refine ⟨r', ?_, fun i hi => ?_⟩
      · rw [List.foldlM_cons, e]; exact e'
      · rw [h' i hi, h i hi, List.foldl_cons]
  obtain ⟨r, e, h⟩ := fold spheres (IsectN.default F n)
  obtain ⟨r', e', h'⟩ := intersectPlaneN_exact E dbg ray plane r
  refine ⟨r', ?_, fun i hi => ?_⟩
  · unfold castN; rw [e]; exact e'
  · rw [h' i hi, h i hi]
    unfold castRay
    congr 1
    congr 1
    simp only [IsectN.lane, V3.lane, IsectN.default, Isect.default, V3N.zero, V3.zero, splat_get]

omit [IsStrictOrderedRing K] in
theorem hemi_lane (theta phi : Vec K n) (i : Nat) (h : i < n) : (hemi F theta phi).lane i h =
    ⟨F.cos (F.lit 2 * F.pi * phi[i]) * F.sqrt theta[i], F.sin (F.lit 2 * F.pi * phi[i]) * F.sqrt theta[i],
      F.sqrt (F.lit 1 - F.sqrt theta[i] * F.sqrt theta[i])⟩ := by
  unfold hemi V3.lane
  simp only [vmul_get, vsub_get, map_get, splat_get, E.sinCosPi, E.sqrte]
  rw [show F.lit 2 * phi[i] * F.pi = F.lit 2 * F.pi * phi[i] by ring]

omit [IsStrictOrderedRing K] in
theorem mulM_lane (b : V3.Basis K) (o : V3N K n) (i : Nat) (h : i < n) : (V3N.mulM F b o).lane i h = V3.mulM b (o.lane i h) := by
  unfold V3N.mulM V3.mulM V3.lane V3.dot
  simp only [vmulAdde_get, vmul_get, splat_get, E.mulAdde]
  congr 1 <;> ring

/-- Lane `i` of a basis. -/
def basisLane {α : Type} (b : V3.Basis (Vec α n)) (i : Nat) (h : i < n) : V3.Basis α := ⟨b.b0.lane i h, b.b1.lane i h, b.b2.lane i h⟩

omit [IsStrictOrderedRing K] in
theorem mulMN_lane (b : V3.Basis (Vec K n)) (o : V3N K n) (i : Nat) (h : i < n) :
    (V3N.mulMN F b o).lane i h = V3.mulM (basisLane b i h) (o.lane i h) := by
  unfold V3N.mulMN V3.mulM basisLane V3.lane V3.dot
  simp only [dot_get F _ _ i h, mdot_eq E, V3.lane, V3.dot]

omit E [Field K] [LinearOrder K] [IsStrictOrderedRing K] in
theorem axis_lane (v : V3N K n) (i : Nat) (h : i < n) : (V3N.axis F v).lane i h = V3.axis F (v.lane i h) := by
  unfold V3N.axis V3.axis V3.lane V3.zero
  simp only [sel_get, mor_get, mand_get, mnot_get, vcmp_get, splat_get]
  cases F.lt v.x[i] (F.lit 0.6) && F.gt v.x[i] (F.lit (-0.6)) <;> cases F.lt v.y[i] (F.lit 0.6) && F.gt v.y[i] (F.lit (-0.6)) <;>
    cases F.lt v.z[i] (F.lit 0.6) && F.gt v.z[i] (F.lit (-0.6)) <;> simp

omit [IsStrictOrderedRing K] in
theorem orthoBasis_lane (v : V3N K n) (i : Nat) (h : i < n) : basisLane (V3N.orthoBasis F v) i h = V3.orthoBasis F (v.lane i h) := by
  unfold V3N.orthoBasis V3.orthoBasis basisLane
  simp only [normalized_lane, cross_lane, mnormalized_eq E, axis_lane]

/-- What a sample contributes. -/
def sampleHit (F : Fns K) (plane : Plane K) (spheres : List (Sphere K)) (basis : V3.Basis K) (origin : V3 K) (p : K × K) : K :=
  if (castRay F plane spheres ⟨origin, sampleDir F basis p.1 p.2⟩).hit then 1 else 0

omit [IsStrictOrderedRing K] in
theorem aoSample_eq {m : Nat} (S : Scene K σ m) (basis : V3.Basis K) (origin : V3 K) (k : Nat) : ∀ (c : K) (s : σ),
    iter (aoSample F S basis origin) k (c, s) =
    (draws S.rand (2 * k) s).map fun p => (c + ((pairUp p.1).map (sampleHit F S.plane S.spheres basis origin)).sum, p.2) := by
  induction k with
  | zero => intro c s; simp [iter, draws, pairUp, Except.map]
  | succ k ih =>
    intro c s
    rw [draws_succ_succ]
    unfold iter aoSample
    dsimp only
    cases S.rand s with
    | error e => rfl
    | ok p =>
      simp only [R_ok_bind]
      cases S.rand p.2 with
      | error e => rfl
      | ok q =>
        simp only [R_ok_bind]
        show iter (aoSample F S basis origin) k (_, q.2) = _
        rw [ih]
        congr 1
        funext r
        simp only [pairUp, List.map_cons, List.sum_cons, sampleHit]
        rw [E.lit]
        split <;> simp [add_assoc]

omit [IsStrictOrderedRing K] E in
theorem pairUp_laneDraws (l : List (Vec K n × Vec K n)) (i : Nat) (h : i < n) : pairUp (laneDraws l i h) = l.map fun p => (p.1[i], p.2[i]) := by
  unfold laneDraws
  induction l with
  | nil => simp [pairUp]
  | cons p l ih => rw [List.flatMap_cons, List.map_cons, ← ih]; rfl

theorem aoSampleT_eq (dbg : Bool) (S : Scene K σ n) (basis : V3.Basis (Vec K n)) (origin : V3N K n) (k : Nat) : ∀ (v : Vec K n) (s : σ),
    iter (aoSampleT F dbg S basis origin) k (v, s) =
    (drawsN S.randN k s).map fun p => (Vector.ofFn fun i : Fin n => v[i] +
      (p.1.map fun q => sampleHit F S.plane S.spheres (basisLane basis i i.isLt) (origin.lane i i.isLt) (q.1[i], q.2[i])).sum, p.2) := by
  induction k with
  | zero => intro v s; simp [iter, drawsN, Except.map]
  | succ k ih =>
    intro v s
    unfold iter drawsN
    rw [show aoSampleT F dbg S basis origin (v, s) = (S.randN s >>= fun p => castN F dbg S.plane S.spheres
      ⟨origin, V3N.mulMN F basis (hemi F p.1 p.2.1)⟩ >>= fun isect => .ok (v + sel isect.hit (splat n (F.lit 1)) (splat n (F.lit 0)), p.2.2)) from rfl]
    cases hr : S.randN s with
    | error e => rfl
    | ok p =>
      obtain ⟨a, b, s1⟩ := p
      obtain ⟨r, e, hr⟩ := castN_exact E dbg S.plane S.spheres ⟨origin, V3N.mulMN F basis (hemi F a b)⟩
      simp only [R_ok_bind]
      rw [e, R_ok_bind, R_ok_bind, ih]
      cases drawsN S.randN k s1 with
      | error e => rfl
      | ok q =>
        show Except.ok _ = Except.ok _
        refine congrArg Except.ok (Prod.ext ?_ rfl)
        dsimp only
        ext i hi
        have h1 := congrArg Isect.hit (hr i hi)
        rw [show (r.lane i hi).hit = r.hit[i] from rfl] at h1
        simp only [Vector.getElem_ofFn, Fin.getElem_fin, vadd_get, sel_get, splat_get, h1, List.map_cons, List.sum_cons]
        rw [show (⟨origin, V3N.mulMN F basis (hemi F a b)⟩ : Ray (Vec K n)).lane i hi = ⟨origin.lane i hi, sampleDir F (basisLane basis i hi) a[i] b[i]⟩ by
          unfold Ray.lane; rw [mulMN_lane E, hemi_lane E]; rfl, E.lit, E.lit, ← add_assoc]
        congr 2
        unfold sampleHit
        split <;> simp

end

/-! ### The state of the scene -/

section
variable {α σ : Type} {n : Nat} [Add α] [Sub α] [Mul α] [Div α] [Neg α] (F : Fns α)

/-- The scene after one draw. -/
def step (rand : σ → R (α × σ)) (s : σ) : R σ := (rand s).map Prod.snd

theorem draws_step (rand : σ → R (α × σ)) : ∀ (k : Nat) (s : σ), (draws rand k s).map Prod.snd = iter (step rand) k s := by
  intro k
  induction k with
  | zero => intro s; rfl
  | succ k ih =>
    intro s
    show (rand s >>= fun p => draws rand k p.2 >>= fun q => .ok (p.1 :: q.1, q.2)).map Prod.snd = (rand s).map Prod.snd >>= iter (step rand) k
    cases rand s with
    | error e => rfl
    | ok p =>
      show (draws rand k p.2 >>= fun q => Except.ok (p.1 :: q.1, q.2)).map Prod.snd = iter (step rand) k p.2
      rw [← ih]
      cases draws rand k p.2 <;> rfl

theorem defaultRandN_step (n : Nat) (rand : σ → R (α × σ)) (s : σ) : (defaultRandN n rand s).map (fun p => p.2.2) = iter (step rand) (2 * n) s := by
  rw [← draws_step]
  have := defaultRandN_eq n rand s (fun p => .ok p.2.2) (fun p => .ok p.2) (fun _ _ _ _ _ _ => rfl)
  cases h1 : defaultRandN n rand s <;> cases h2 : draws rand (2 * n) s <;> rw [h1, h2] at this <;> exact this

theorem aoSample_step (S : Scene α σ n) (basis : V3.Basis α) (origin : V3 α) (st : α × σ) :
    (aoSample F S basis origin st).map Prod.snd = iter (step S.rand) 2 st.2 := by
  obtain ⟨c, s⟩ := st
  show _ = ((S.rand s).map Prod.snd >>= fun s => (S.rand s).map Prod.snd >>= fun s => .ok s)
  unfold aoSample
  dsimp only
  cases S.rand s with
  | error e => rfl
  | ok p =>
    simp only [R_ok_bind, Except.map]
    cases S.rand p.2 <;> rfl

/-- Without debug assertions casting a packet never fails. -/
theorem castN_release (plane : Plane α) (spheres : List (Sphere α)) (ray : Ray (Vec α n)) : ∃ r, castN F false plane spheres ray = .ok r := by
  have fold : ∀ (ss : List (Sphere α)) (a : IsectN α n), ∃ r, ss.foldlM (fun isect s => intersectSphereN F false ray s isect) a = .ok r := by
    intro ss
    induction ss with
    | nil => intro a; exact ⟨a, rfl⟩
    | cons s ss ih =>
      intro a
      obtain ⟨r, e⟩ := ih (raySphereN F ray s a)
      exact ⟨r, by rw [List.foldlM_cons]; exact e⟩
  obtain ⟨r, e⟩ := fold spheres (IsectN.default F n)
  exact ⟨rayPlaneN F ray plane r, by unfold castN; rw [e]; rfl⟩

theorem packet_step (S : Scene α σ n) (hS : S.randN = defaultRandN n S.rand) (f : Vec α n → Vec α n → R (IsectN α n)) (g : IsectN α n → Vec α n)
    (s : σ) : (∀ s' c, (S.randN s >>= fun p => f p.1 p.2.1 >>= fun isect => Except.ok (g isect, p.2.2)) = .ok (c, s') →
        iter (step S.rand) (2 * n) s = .ok s') ∧
      ((∀ a b, ∃ r, f a b = .ok r) →
        (S.randN s >>= fun p => f p.1 p.2.1 >>= fun isect => Except.ok (g isect, p.2.2)).map Prod.snd = iter (step S.rand) (2 * n) s) := by
  rw [hS, ← defaultRandN_step]
  cases defaultRandN n S.rand s with
  | error e => exact ⟨fun _ _ h => (by cases h), fun _ => rfl⟩
  | ok p =>
    simp only [R_ok_bind]
    refine ⟨fun s' c h => ?_, fun h => ?_⟩
    · cases hf : f p.1 p.2.1 with
      | error e => rw [hf] at h; cases h
      | ok r => rw [hf] at h; cases h; rfl
    · obtain ⟨r, e⟩ := h p.1 p.2.1
      rw [e]; rfl

end

end PackedSimd.Ex.Ao
