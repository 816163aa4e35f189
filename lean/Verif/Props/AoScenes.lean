import Verif.Props.AoBytes
import Verif.Props.AoRandom
/-
examples/aobench/src/scene/{random,test}.rs: C109 (the random scene; rendering with either scene never fails in release builds).
-/
namespace PackedSimd.Props
open Spec Ex Ex.Ao Spec.Ao V3N Mandel Prog

/-! ### The random scene -/

/-- C109: `rand` of the random scene is the next number of the scalar generator of the thread, at least 0 and below 1; the vector generator is not touched. -/
theorem C109_random_rand {n : Nat} (F : Fns F32) (s : RandomState n) : ∃ x s', (randomScene F n).rand s = .ok (x, s') ∧ x.bits = s.scalar.gen.1 ∧
    s'.scalar = s.scalar.gen.2 ∧ s'.vector = s.vector ∧ ∃ z : Int, valueOf 23 x.bits = .num z ∧ 0 ≤ z ∧ z < 2 ^ 149 := by
  refine ⟨_, _, rfl, rfl, rfl, rfl, ?_⟩
  obtain ⟨z, h1, h2, h3⟩ := C90_unit_interval s.scalar
  exact ⟨z, h1, h2, h3⟩

/-- C109: `rand_f32xN` of the random scene never fails; lane `i` of the two vectors are the next two numbers of the scalar generator with the registers of lane
`i`, each at least 0 and below 1; the scalar generator is not touched. -/
theorem C109_random_randN {n : Nat} (F : Fns F32) (s : RandomState n) : ∃ a b s', (randomScene F n).randN s = .ok (a, b, s') ∧ s'.scalar = s.scalar ∧
    ∀ i (h : i < n), a[i].bits = (s.vector.lane i h).gen.1 ∧ b[i].bits = ((s.vector.lane i h).after 1).gen.1 ∧ s'.vector.lane i h = (s.vector.lane i h).after 2 ∧
      ∃ y z : Int, valueOf 23 a[i].bits = .num y ∧ valueOf 23 b[i].bits = .num z ∧ 0 ≤ y ∧ y < 2 ^ 149 ∧ 0 ≤ z ∧ z < 2 ^ 149 := by
  obtain ⟨v, r, e, h⟩ := AoRandom.gen_lane s.vector
  obtain ⟨v', r', e', h'⟩ := AoRandom.gen_lane r
  refine ⟨v.map F32.mk, v'.map F32.mk, { s with vector := r' }, ?_, rfl, fun i hi => ?_⟩
  · show (s.vector.gen >>= _) = _
    rw [e, R_ok_bind]
    dsimp only
    rw [e']
    rfl
  · have h1 := h i hi
    have h2 := h' i hi
    have hv : v[i] = (s.vector.lane i hi).gen.1 := congrArg Prod.fst h1
    have hr : r.lane i hi = (s.vector.lane i hi).after 1 := congrArg Prod.snd h1
    have hv' : v'[i] = ((s.vector.lane i hi).after 1).gen.1 := by rw [← hr]; exact congrArg Prod.fst h2
    have hr' : r'.lane i hi = (s.vector.lane i hi).after 2 := by
      rw [show r'.lane i hi = (r.lane i hi).gen.2 from congrArg Prod.snd h2, hr]; rfl
    simp only [Vector.getElem_map]
    refine ⟨hv, hv', hr', ?_⟩
    obtain ⟨y, y1, y2, y3⟩ := C90_unit_interval (s.vector.lane i hi)
    obtain ⟨z, z1, z2, z3⟩ := C90_unit_interval ((s.vector.lane i hi).after 1)
    exact ⟨y, z, by rw [hv]; exact y1, by rw [hv']; exact z1, y2, y3, z2, z3⟩

/-! ### Scenes that always deliver -/

section
variable {α σ : Type} {n : Nat}

/-- Drawing a random number, or a packet, never fails in a state satisfying `P` and leaves such a state. -/
structure Delivers (P : σ → Prop) (S : Scene α σ n) : Prop where
  one : ∀ s, P s → ∃ x s', S.rand s = .ok (x, s') ∧ P s'
  packet : ∀ s, P s → ∃ a b s', S.randN s = .ok (a, b, s') ∧ P s'

theorem iter_total {τ : Type} (P : τ → Prop) (f : τ → R τ) (h : ∀ s, P s → ∃ s', f s = .ok s' ∧ P s') : ∀ k s, P s → ∃ s', iter f k s = .ok s' ∧ P s' := by
  intro k
  induction k with
  | zero => intro s hs; exact ⟨s, rfl, hs⟩
  | succ k ih =>
    intro s hs
    obtain ⟨s1, e, h1⟩ := h s hs
    obtain ⟨s2, e2, h2⟩ := ih s1 h1
    exact ⟨s2, by unfold iter; rw [e]; exact e2, h2⟩

theorem draws_total (P : σ → Prop) (rand : σ → R (α × σ)) (h : ∀ s, P s → ∃ x s', rand s = .ok (x, s') ∧ P s') : ∀ k s, P s → ∃ l s', draws rand k s = .ok (l, s') ∧ P s' := by
  intro k
  induction k with
  | zero => intro s hs; exact ⟨[], s, rfl, hs⟩
  | succ k ih =>
    intro s hs
    obtain ⟨x, s1, e, h1⟩ := h s hs
    obtain ⟨l, s2, e2, h2⟩ := ih s1 h1
    refine ⟨x :: l, s2, ?_, h2⟩
    unfold draws
    rw [e, R_ok_bind]
    dsimp only
    rw [e2]
    rfl

theorem default_delivers (P : σ → Prop) (rand : σ → R (α × σ)) (h : ∀ s, P s → ∃ x s', rand s = .ok (x, s') ∧ P s') (s : σ) (hs : P s) :
    ∃ a b s', defaultRandN n rand s = .ok (a, b, s') ∧ P s' := by
  obtain ⟨l, s', e, h'⟩ := draws_total P rand h (2 * n) s hs
  have hl := draws_length _ _ _ _ _ e
  refine ⟨Vector.ofFn fun i : Fin n => l[2 * i.val]'(by omega), Vector.ofFn fun i : Fin n => l[2 * i.val + 1]'(by omega), s', ?_, h'⟩
  unfold defaultRandN
  rw [e, R_ok_bind]
  dsimp only
  rw [newLanes_ok n (fun i => lget l (2 * i)) (fun i => l[2 * i.val]'(by omega)) (fun i => lget_lt _ (by omega)), R_ok_bind,
    newLanes_ok n (fun i => lget l (2 * i + 1)) (fun i => l[2 * i.val + 1]'(by omega)) (fun i => lget_lt _ (by omega))]
  rfl

theorem test_delivers (F : Fns α) : Delivers (n := n) GoodTest (testScene F n) := by
  have h : ∀ s : TestState α, GoodTest s → ∃ x s', s.rand = .ok (x, s') ∧ GoodTest s' := by
    intro s hs
    obtain ⟨x, s', e, -, h1, h2⟩ := C101_rand s hs
    exact ⟨x, s', e, by rw [h1]; exact hs.1, by omega⟩
  exact ⟨h, fun s hs => default_delivers GoodTest TestState.rand h s hs⟩

theorem random_delivers (F : Fns F32) : Delivers (n := n) (fun _ => True) (randomScene F n) := by
  refine ⟨fun s _ => ?_, fun s _ => ?_⟩
  · obtain ⟨x, s', e, -⟩ := C109_random_rand F s
    exact ⟨x, s', e, trivial⟩
  · obtain ⟨a, b, s', e, -⟩ := C109_random_randN F s
    exact ⟨a, b, s', e, trivial⟩

variable [Add α] [Sub α] [Mul α] [Div α] [Neg α] (F : Fns α) {P : σ → Prop} {S : Scene α σ n}

theorem aoScalar_total (D : Delivers P S) (s : σ) (hs : P s) (isect : Isect α) : ∃ r s', aoScalar F S s isect = .ok (r, s') ∧ P s' := by
  unfold aoScalar
  dsimp only
  rw [nested_iter]
  obtain ⟨⟨c, s'⟩, e, h⟩ := iter_total (fun st => P st.2) (aoSample F S (V3.orthoBasis F isect.n) (aoOrigin F isect)) (fun st hst => by
    obtain ⟨x, s1, e1, h1⟩ := D.one st.2 hst
    obtain ⟨y, s2, e2, h2⟩ := D.one s1 h1
    refine ⟨((if (castRay F S.plane S.spheres ⟨aoOrigin F isect, sampleDir F (V3.orthoBasis F isect.n) x y⟩).hit then st.1 + F.lit 1 else st.1), s2), ?_, h2⟩
    unfold aoSample
    dsimp only
    rw [e1, R_ok_bind]
    dsimp only
    rw [e2]
    rfl) (S.nao * S.nao) (F.lit 0, s) hs
  rw [e]
  exact ⟨_, _, rfl, h⟩

theorem aoVector_total [LaneCount n] (D : Delivers P S) (t : Target) (s : σ) (hs : P s) (isect : Isect α) : ∃ r s', aoVector F t false S s isect = .ok (r, s') ∧ P s' := by
  unfold aoVector
  dsimp only
  rw [nested_iter]
  obtain ⟨⟨c, s'⟩, e, h⟩ := iter_total (fun st => P st.2) (aoSampleN F false S (V3.orthoBasis F isect.n) (splat3 n (aoOrigin F isect))) (fun st hst => by
    obtain ⟨a, b, s1, e1, h1⟩ := D.packet st.2 hst
    obtain ⟨i, hi⟩ := castN_release F S.plane S.spheres (⟨splat3 n (aoOrigin F isect), V3N.mulM F (V3.orthoBasis F isect.n) (hemi F a b)⟩ : Ray (Vec α n))
    refine ⟨(st.1 + sel i.hit (splat n (F.lit 1)) (splat n (F.lit 0)), s1), ?_, h1⟩
    unfold aoSampleN
    dsimp only
    rw [e1, R_ok_bind]
    dsimp only
    rw [hi]
    rfl) ((S.nao + n - 1) / n * S.nao) (splat n (F.lit 0), s) hs
  rw [e, R_ok_bind]
  obtain ⟨w, e1, _⟩ := vsum_vec t ⟨F.lit 0, (· + ·), (· * ·)⟩ c
  dsimp only
  rw [e1]
  exact ⟨_, _, rfl, h⟩

theorem aoTiled_total (D : Delivers P S) (s : σ) (hs : P s) (isect : IsectN α n) : ∃ r s', aoTiled F false S s isect = .ok (r, s') ∧ P s' := by
  unfold aoTiled
  dsimp only
  rw [nested_iter]
  generalize V3N.orthoBasis F isect.n = B
  generalize isect.p.add _ = o
  obtain ⟨⟨c, s'⟩, e, h⟩ := iter_total (fun st => P st.2) (aoSampleT F false S B o) (fun st hst => by
    obtain ⟨a, b, s1, e1, h1⟩ := D.packet st.2 hst
    obtain ⟨i, hi⟩ := castN_release F S.plane S.spheres (⟨o, V3N.mulMN F B (hemi F a b)⟩ : Ray (Vec α n))
    refine ⟨(st.1 + sel i.hit (splat n (F.lit 1)) (splat n (F.lit 0)), s1), ?_, h1⟩
    unfold aoSampleT
    dsimp only
    rw [e1, R_ok_bind]
    dsimp only
    rw [hi]
    rfl) (S.nao * S.nao) (splat n (F.lit 0), s) hs
  rw [e]
  exact ⟨_, _, rfl, h⟩

theorem shadeScalar_total (D : Delivers P S) (dir : V3 α) (s : σ) (hs : P s) : ∃ a s', shadeScalar F S dir s = .ok (a, s') ∧ P s' := by
  unfold shadeScalar
  dsimp only
  split
  · exact aoScalar_total F D s hs _
  · exact ⟨_, _, rfl, hs⟩

theorem shadeVector_total [LaneCount n] (D : Delivers P S) (t : Target) (dir : V3 α) (s : σ) (hs : P s) : ∃ a s', shadeVector F t false S dir s = .ok (a, s') ∧ P s' := by
  unfold shadeVector
  dsimp only
  split
  · exact aoVector_total F D t s hs _
  · exact ⟨_, _, rfl, hs⟩

theorem tiledSample_total (D : Delivers P S) (z : Size) (dir : V3N α n) (c : Vec α n) (s : σ) (hs : P s) : ∃ a s', tiledSample F false S z dir c s = .ok (a, s') ∧ P s' := by
  unfold tiledSample
  obtain ⟨i, hi⟩ := castN_release F S.plane S.spheres (⟨V3N.zero F n, dir⟩ : Ray (Vec α n))
  rw [hi, R_ok_bind]
  split
  · obtain ⟨r, s', hr, h⟩ := aoTiled_total F D s hs i
    rw [hr]
    exact ⟨_, _, rfl, h⟩
  · exact ⟨_, _, rfl, hs⟩

end

section
variable {α σ : Type} (P : σ → Prop)

theorem addUp_total [Add α] (value : Nat → σ → R (α × σ)) (h : ∀ j s, P s → ∃ a s', value j s = .ok (a, s') ∧ P s') :
    ∀ k c s, P s → ∃ a s', addUp value k c s = .ok (a, s') ∧ P s' := by
  intro k c s hs
  induction k with
  | zero => exact ⟨c, s, rfl, hs⟩
  | succ k ih =>
    obtain ⟨a, s1, e, h1⟩ := ih
    obtain ⟨b, s2, e2, h2⟩ := h k s1 h1
    refine ⟨a + b, s2, ?_, h2⟩
    unfold addUp
    rw [e, R_ok_bind]
    dsimp only
    rw [e2]
    rfl

theorem changes_total (value : Nat → α → σ → R (α × σ)) (h : ∀ j c s, P s → ∃ a s', value j c s = .ok (a, s') ∧ P s') :
    ∀ k c s, P s → ∃ a s', changes value k c s = .ok (a, s') ∧ P s' := by
  intro k c s hs
  induction k with
  | zero => exact ⟨c, s, rfl, hs⟩
  | succ k ih =>
    obtain ⟨a, s1, e, h1⟩ := ih
    obtain ⟨b, s2, e2, h2⟩ := h k a s1 h1
    refine ⟨b, s2, ?_, h2⟩
    unfold changes
    rw [e, R_ok_bind]
    exact e2

theorem render_total (pixel : Nat → α → σ → R (α × σ)) (h : ∀ k c s, P s → ∃ a s', pixel k c s = .ok (a, s') ∧ P s') :
    ∀ (l : List α) k s, P s → ∃ a s', render pixel k l s = .ok (a, s') ∧ P s' := by
  intro l
  induction l with
  | nil => intro k s hs; exact ⟨[], s, rfl, hs⟩
  | cons c l ih =>
    intro k s hs
    obtain ⟨a, s1, e, h1⟩ := h k c s hs
    obtain ⟨b, s2, e2, h2⟩ := ih (k + 1) s1 h1
    refine ⟨a :: b, s2, ?_, h2⟩
    unfold render
    rw [e, R_ok_bind]
    dsimp only
    rw [e2]
    rfl

theorem rowsOf_total {τ ρ : Type} (M : Maker τ σ ρ) (hM : ∀ g, P (M.new g).1) (row : Nat → List α → σ → R (List α × σ))
    (h : ∀ y r s, P s → ∃ a s', row y r s = .ok (a, s') ∧ P s') (old : List (List α)) : ∀ ys g, ∃ rs, rowsOf M row old ys g = .ok rs := by
  intro ys
  induction ys with
  | nil => intro g; exact ⟨[], rfl⟩
  | cons y ys ih =>
    intro g
    obtain ⟨a, s1, e, h1⟩ := h y (old[y]?.getD []) _ (hM g)
    obtain ⟨rs, hrs⟩ := ih (M.finish s1 (M.new g).2)
    refine ⟨(y, a) :: rs, ?_⟩
    unfold rowsOf
    dsimp only
    rw [e, R_ok_bind]
    dsimp only
    rw [hrs]
    rfl

end

/-! ### Rendering on `f32` -/

section
variable {n : Nat} {σ τ ρ : Type} (ma : F32 → F32 → F32 → F32) (sqrt sqrte sin cos : F32 → F32) (pi : F32) (scp : F32 → F32 × F32)

/-- What C109 says about the six renderers in release builds, for a scene `S` made by `M` on each thread: a new image of `w × h` pixels with `ns = 2^e` becomes
a picture with grey values `K / (64 * ns²)`; no renderer fails or races. -/
def Renders [LaneCount n] (t : Target) (M : Maker τ σ ρ) (S : Scene F32 σ n) (P : σ → Prop) (w h e : Nat) : Prop :=
  let F := f32 ma sqrt sqrte sin cos pi scp
  let z : Size := ⟨w, h, 2 ^ e⟩
  let new := (Image.new w h).fdata
  (∀ s, P s → ∃ s' Ks C, (aoImageScalar F S z new.length s).run new = .ok (s', gray C) ∧ Ks.length = w * h ∧ Greys e Ks C) ∧
  (∀ s, P s → ∃ s' Ks C, (aoImageVector F t false S z new.length s).run new = .ok (s', gray C) ∧ Ks.length = w * h ∧ Greys e Ks C) ∧
  (n ∣ w → ∀ s, P s → ∃ s' Ks C, (aoImageTiled F false S z s).run new = .ok (s', gray C) ∧ Ks.length = w * h ∧ Greys e Ks C) ∧
  (0 < w → ∀ work, EachRowOnce h work →
    (∃ ts Ks C, parScalar F M S z new.length work = .ok ts ∧ Greys e Ks C ∧ AlwaysEndsWith ts new (gray C)) ∧
    (∃ ts Ks C, parVector F t false M S z new.length work = .ok ts ∧ Greys e Ks C ∧ AlwaysEndsWith ts new (gray C)) ∧
    (n ∣ w → ∃ ts Ks C, parTiled F false M S z new.length work = .ok ts ∧ Greys e Ks C ∧ AlwaysEndsWith ts new (gray C)))

theorem renders [LaneCount n] (hn : n ∣ 8) (t : Target) (M : Maker τ σ ρ) (S : Scene F32 σ n) (h8 : S.nao = 8) (P : σ → Prop) (D : Delivers P S) (hM : ∀ g, P (M.new g).1)
    (w h e : Nat) (he : e ≤ 9) : Renders ma sqrt sqrte sin cos pi scp t M S P w h e := by
  unfold Renders
  intro F z new
  have hpos := LaneCount.pos (n := n)
  have scalarPixel : ∀ k c s, P s → ∃ a s', (do
      let (sum, s) ← addUp (fun j s => shadeScalar F S (sampleOf z (dirScalar F z) k j) s) (z.ns * z.ns) c s
      return (sum / F.ofUsize (z.ns * z.ns), s) : R (F32 × σ)) = .ok (a, s') ∧ P s' := by
    intro k c s hs
    obtain ⟨a, s', e, h⟩ := addUp_total P (fun j s => shadeScalar F S (sampleOf z (dirScalar F z) k j) s) (fun j s hs => shadeScalar_total F D _ s hs) (z.ns * z.ns) c s hs
    rw [e]
    exact ⟨_, _, rfl, h⟩
  have vectorPixel : ∀ (dir : Nat → Nat → Nat → Nat → V3 F32) k c s, P s → ∃ a s',
      addUp (fun j s => (shadeVector F t false S (sampleOf z dir k j) s).map fun q => (q.1 * invNs F z * invNs F z, q.2)) (z.ns * z.ns) c s = .ok (a, s') ∧ P s' := by
    intro dir k c s hs
    refine addUp_total P _ (fun j s hs => ?_) (z.ns * z.ns) c s hs
    obtain ⟨a, s', e, h⟩ := shadeVector_total F D t (sampleOf z dir k j) s hs
    rw [e]
    exact ⟨_, _, rfl, h⟩
  have tiledPixel : ∀ k c s, P s → ∃ a s', changes (fun j => tiledSample F false S z (packetOf n z (dirTiled F n z) k j)) (z.ns * z.ns) c s = .ok (a, s') ∧ P s' := by
    intro k c s hs
    exact changes_total P _ (fun j c s hs => tiledSample_total F D z _ c s hs) (z.ns * z.ns) c s hs
  refine ⟨fun s hs => ?_, fun s hs => ?_, fun hd s hs => ?_, fun hw0 work hwork => ⟨?_, ?_, fun hd => ?_⟩⟩
  · obtain ⟨a, s', e1, -⟩ := render_total P _ scalarPixel (List.replicate (w * h) ⟨0⟩) 0 s hs
    have hr : (aoImageScalar F S z new.length s).run new = .ok (s', gray a) := by
      show (aoImageScalar F S z (Image.new w h).fdata.length s).run (Image.new w h).fdata = _
      rw [new_gray, C102_scalar _ S z s _ (by simp [z]), e1]
      rfl
    obtain ⟨Ks, C, h1, h2, h3⟩ := C107_scalar ma sqrt sqrte sin cos pi scp S h8 w h e he s s' (gray a) hr
    exact ⟨s', Ks, C, by rw [hr, h3], h1, h2⟩
  · obtain ⟨a, s', e1, -⟩ := render_total P _ (vectorPixel (dirVector F z)) (List.replicate (w * h) ⟨0⟩) 0 s hs
    have hr : (aoImageVector F t false S z new.length s).run new = .ok (s', gray a) := by
      show (aoImageVector F t false S z (Image.new w h).fdata.length s).run (Image.new w h).fdata = _
      rw [new_gray, C103_vector _ t false S z s _ (by simp [z]), e1]
      rfl
    obtain ⟨Ks, C, h1, h2, h3⟩ := C107_vector ma sqrt sqrte sin cos pi scp hn t false S h8 w h e he s s' (gray a) hr
    exact ⟨s', Ks, C, by rw [hr, h3], h1, h2⟩
  · obtain ⟨q, hq⟩ := hd
    obtain ⟨a, s', e1, -⟩ := render_total P _ tiledPixel (List.replicate (q * h) (splat n ⟨0⟩)) 0 s hs
    have hr : (aoImageTiled F false S z s).run new = .ok (s', gray (lanesOf a)) := by
      have := (C104_tiled F hpos false S z s).2 ⟨q, hq⟩ (List.replicate (q * h) (splat n ⟨0⟩)) (by
        rw [List.length_replicate]; show n * (q * h) = w * h; rw [hq, Nat.mul_assoc])
      rw [lanesOf_replicate, show n * (q * h) = w * h by rw [hq, Nat.mul_assoc], ← new_gray, e1] at this
      exact this
    obtain ⟨Ks, C, h1, h2, h3⟩ := C107_tiled ma sqrt sqrte sin cos pi scp hpos false S h8 w h e he s s' _ hr
    exact ⟨s', Ks, C, by rw [hr, h3], h1, h2⟩
  · exact C107_parallel_scalar ma sqrt sqrte sin cos pi scp M S h8 w h e hw0 he work hwork (fun p _ => rowsOf_total P M hM _ (fun y r s hs => render_total P _ scalarPixel r _ s hs) _ p.1 p.2)
  · exact C107_parallel_vector ma sqrt sqrte sin cos pi scp hn t false M S h8 w h e hw0 he work hwork
      (fun p _ => rowsOf_total P M hM _ (fun y r s hs => render_total P _ (vectorPixel _) r _ s hs) _ p.1 p.2)
  · obtain ⟨q, hq⟩ := hd
    have hq0 : 0 < q := by
      rcases Nat.eq_zero_or_pos q with h0 | h0
      · rw [h0] at hq; omega
      · exact h0
    subst hq
    exact C107_parallel_tiled ma sqrt sqrte sin cos pi scp hpos false M S h8 q h e hq0 he work hwork
      (fun p _ => rowsOf_total P M hM _ (fun y r s hs => render_total P _ tiledPixel r _ s hs) _ p.1 p.2)

/-- C109: in release builds, with the random scene, whatever the states of the generators of the threads, on `f32` with any `mul_add`, square root, sine and
cosine, on every target: none of the six renderers ever fails or races, and each gives every pixel a grey value `K / (64 * ns²)` with a whole `K` from 0 to
`64 * ns²`. -/
theorem C109_random [LaneCount n] (hn : n ∣ 8) (t : Target) (w h e : Nat) (he : e ≤ 9) :
    Renders ma sqrt sqrte sin cos pi scp t (randomMaker n) (randomScene (f32 ma sqrt sqrte sin cos pi scp) n) (fun _ => True) w h e :=
  renders ma sqrt sqrte sin cos pi scp hn t _ _ rfl _ (random_delivers _) (fun _ => trivial) w h e he

/-- C109: the same with the test scene. -/
theorem C109_test [LaneCount n] (hn : n ∣ 8) (t : Target) (w h e : Nat) (he : e ≤ 9) :
    Renders ma sqrt sqrte sin cos pi scp t testMaker (testScene (f32 ma sqrt sqrte sin cos pi scp) n) GoodTest w h e :=
  renders ma sqrt sqrte sin cos pi scp hn t _ _ rfl _ (test_delivers _) C101_default w h e he

-- the sizes of `main.rs` with 8 lanes, and a distribution of the rows of a small image to two threads
example (t : Target) : Renders ma sqrt sqrte sin cos pi scp t (randomMaker 8) (randomScene (f32 ma sqrt sqrte sin cos pi scp) 8) (fun _ => True) 800 600 1 ∧
    (8 ∣ 800) ∧ EachRowOnce 3 [([2, 0], AoRandom.Rng.thread), ([1], AoRandom.Rng.thread)] :=
  ⟨C109_random ma sqrt sqrte sin cos pi scp (by decide) t 800 600 1 (by decide), by decide, by unfold EachRowOnce; exact (by decide : [2, 0, 1].Perm (List.range 3))⟩

end

end PackedSimd.Props
