import Verif.Lemmas.AoImage
import Verif.Props.AoOcclusion
/-
examples/aobench/src/{scalar,vector,tiled}.rs: C102 (the scalar image), C103 (the vectorized image), C104 (the tiled image).
-/
namespace PackedSimd.Props
open Spec Ex Ex.Ao Spec.Ao V3N Mandel Prog

/-! ### C102 -/

section
variable {α σ : Type} {n : Nat} [Add α] [Sub α] [Mul α] [Div α] [Neg α] (F : Fns α)

theorem lt_mul_of_div_mod {w h k : Nat} (hk : k < w * h) : k / w * w + k % w = k ∧ 0 < w := by
  refine ⟨by rw [Nat.mul_comm]; exact Nat.div_add_mod k w, ?_⟩
  rcases Nat.eq_zero_or_pos w with h0 | h0
  · rw [h0] at hk; simp at hk
  · exact h0

theorem pixelScalar_changes (S : Scene α σ n) (z : Size) (win : Window) (offset x y k N : Nat) (hb : win.base + offset = 3 * k) (ho : offset + 2 < win.len) :
    ChangesPixel (pixelScalar F S z win offset x y) (fun c s => do
      let (sum, s) ← addUp (fun j s => shadeScalar F S (dirScalar F z x y (j / z.ns) (j % z.ns)) s) (z.ns * z.ns) c s
      return (sum / F.ofUsize (z.ns * z.ns), s)) k N := by
  intro D c l s hD hN
  unfold pixelScalar loop
  have hs := samples_run (fun j s => sampleScalar F S z win offset x y (j / z.ns) s (j % z.ns))
    (fun j s => shadeScalar F S (dirScalar F z x y (j / z.ns) (j % z.ns)) s) k N (by
      intro j D c l s hD hN
      show (Prog.lift _ >>= fun p => _).run _ = _
      rw [run_bind, run_lift]
      dsimp only
      cases shadeScalar F S (dirScalar F z x y (j / z.ns) (j % z.ns)) s with
      | error e => rfl
      | ok q =>
        show (pixelUpdate win offset (· + q.1) >>= fun _ => pure q.2).run _ = _
        rw [run_bind, pixelUpdate_run win offset _ D l c (by rw [hD]; exact hb) ho]
        rfl) (z.ns * z.ns) D c l s hD hN
  dsimp only at hs ⊢
  rw [run_bind, nested_range z.ns (fun s u v => sampleScalar F S z win offset x y u s v), hs]
  cases addUp (fun j s => shadeScalar F S (dirScalar F z x y (j / z.ns) (j % z.ns)) s) (z.ns * z.ns) c s with
  | error e => rfl
  | ok q =>
    show (pixelUpdate win offset (· / F.ofUsize (z.ns * z.ns)) >>= fun _ => pure q.2).run _ = _
    rw [run_bind, pixelUpdate_run win offset _ D l _ (by rw [hD]; exact hb) ho]
    rfl

/-- C102: rendering an image with the scalar program changes the grey value of each pixel, in the order of the pixels, to the sum of the old value and
the values of its `ns × ns` samples, added in order, divided by `ns²`, in all three colours; no access is out of bounds, and the program
fails only if the scene fails to deliver a random number.  (Any arithmetic, any number of rows and columns, any old grey image.) -/
theorem C102_scalar (S : Scene α σ n) (z : Size) (s : σ) (old : List α) (hl : old.length = z.w * z.h) :
    (aoImageScalar F S z (gray old).length s).run (gray old) = (render (fun k c s => do
      let (sum, s) ← addUp (fun j s => shadeScalar F S (sampleOf z (dirScalar F z) k j) s) (z.ns * z.ns) c s
      return (sum / F.ofUsize (z.ns * z.ns), s)) 0 old s).map fun q => (q.2, gray q.1) := by
  unfold aoImageScalar
  refine image_run z.w z.h (fun x y s => pixelScalar F S z ⟨0, (gray old).length⟩ (3 * (y * z.w + x)) x y s) _ ?_ old hl s
  intro k hk
  obtain ⟨h1, h2⟩ := lt_mul_of_div_mod hk
  exact pixelScalar_changes F S z _ _ _ _ k _ (by rw [h1]; exact Nat.zero_add _) (by rw [h1, gray_length, hl]; show 3 * k + 2 < 3 * (z.w * z.h); omega)

/-! ### C103 -/

theorem pixelVector_changes (t : Target) (dbg : Bool) (S : Scene α σ n) (z : Size) (dir : Nat → Nat → Nat → Nat → V3 α) (win : Window) (offset x y k N : Nat)
    (hb : win.base + offset = 3 * k) (ho : offset + 2 < win.len) :
    ChangesPixel (pixelVector F t dbg S z dir win offset x y) (fun c s =>
      addUp (fun j s => (shadeVector F t dbg S (dir x y (j / z.ns) (j % z.ns)) s).map fun q => (q.1 * invNs F z * invNs F z, q.2)) (z.ns * z.ns) c s) k N := by
  intro D c l s hD hN
  unfold pixelVector loop
  have hs := samples_run (fun j s => sampleVector F t dbg S z dir win offset x y (j / z.ns) s (j % z.ns))
    (fun j s => (shadeVector F t dbg S (dir x y (j / z.ns) (j % z.ns)) s).map fun q => (q.1 * invNs F z * invNs F z, q.2)) k N (by
      intro j D c l s hD hN
      show (Prog.lift _ >>= fun p => _).run _ = _
      rw [run_bind, run_lift]
      dsimp only
      cases shadeVector F t dbg S (dir x y (j / z.ns) (j % z.ns)) s with
      | error e => rfl
      | ok q =>
        show (pixelUpdate win offset (· + q.1 * invNs F z * invNs F z) >>= fun _ => pure q.2).run _ = _
        rw [run_bind, pixelUpdate_run win offset _ D l c (by rw [hD]; exact hb) ho]
        rfl) (z.ns * z.ns) D c l s hD hN
  rw [nested_range z.ns (fun s u v => sampleVector F t dbg S z dir win offset x y u s v)]
  exact hs

/-- C103: rendering an image with the vectorized program adds to the grey value of each pixel the values of its samples, each multiplied twice with
`1 / ns`; no access is out of bounds.  (Any arithmetic.) -/
theorem C103_vector (t : Target) (dbg : Bool) (S : Scene α σ n) (z : Size) (s : σ) (old : List α) (hl : old.length = z.w * z.h) :
    (aoImageVector F t dbg S z (gray old).length s).run (gray old) = (render (fun k c s =>
      addUp (fun j s => (shadeVector F t dbg S (sampleOf z (dirVector F z) k j) s).map fun q => (q.1 * invNs F z * invNs F z, q.2)) (z.ns * z.ns) c s)
        0 old s).map fun q => (q.2, gray q.1) := by
  unfold aoImageVector
  refine image_run z.w z.h (fun x y s => pixelVector F t dbg S z (dirVector F z) ⟨0, (gray old).length⟩ (3 * (y * z.w + x)) x y s) _ ?_ old hl s
  intro k hk
  obtain ⟨h1, h2⟩ := lt_mul_of_div_mod hk
  exact pixelVector_changes F t dbg S z _ _ _ _ _ k _ (by rw [h1]; exact Nat.zero_add _) (by rw [h1, gray_length, hl]; show 3 * k + 2 < 3 * (z.w * z.h); omega)

end

section
variable {K : Type} [Field K] [LinearOrder K] [IsStrictOrderedRing K] {F : Fns K} {n : Nat} {σ : Type}

/-- Both programs use the same directions. -/
theorem dirVector_eq (E : Exact F) (z : Size) : dirVector F z = dirScalar F z := by
  funext x y u v
  unfold dirVector dirScalar invNs
  simp only [E.lit, E.ofUsize]
  congr 2
  · push_cast; ring
  · push_cast; ring

theorem dirVectorPar_eq (E : Exact F) (z : Size) : dirVectorPar F z = dirScalar F z := by
  funext x y u v
  unfold dirVectorPar dirScalar invNs
  simp only [E.lit, E.ofUsize]
  congr 2
  · push_cast; ring
  · push_cast; ring

theorem shadeVector_eq [LaneCount n] (E : Exact F) (t : Target) (dbg : Bool) (S : Scene K σ n) (hS : S.randN = defaultRandN n S.rand) (hn : n ∣ S.nao)
    (dir : V3 K) (s : σ) : shadeVector F t dbg S dir s = shadeScalar F S dir s := by
  unfold shadeVector shadeScalar
  dsimp only
  rw [C98_vector_is_scalar E t dbg S hS hn]

theorem addUp_scaled (κ : K) (value : Nat → σ → R (K × σ)) (m : Nat) (c : K) (s : σ) :
    addUp (fun j s => (value j s).map fun q => (q.1 * κ, q.2)) m (c * κ) s = (addUp value m c s).map fun q => (q.1 * κ, q.2) := by
  induction m with
  | zero => rfl
  | succ m ih =>
    show (addUp (fun j s => (value j s).map fun q => (q.1 * κ, q.2)) m (c * κ) s >>= fun p => (value m p.2).map (fun q => (q.1 * κ, q.2)) >>= fun q =>
      Except.ok (p.1 + q.1, q.2)) = (addUp value m c s >>= fun p => value m p.2 >>= fun q => Except.ok (p.1 + q.1, q.2)).map _
    rw [ih]
    cases addUp value m c s with
    | error e => rfl
    | ok p =>
      simp only [Except.map, R_ok_bind]
      cases value m p.2 with
      | error e => rfl
      | ok q => simp only [R_ok_bind, add_mul]

theorem render_congr {α : Type} (p p' : Nat → α → σ → R (α × σ)) : ∀ (l : List α), (∀ c ∈ l, ∀ k s, p k c s = p' k c s) → ∀ k s, render p k l s = render p' k l s := by
  intro l
  induction l with
  | nil => intro _ k s; rfl
  | cons c l ih =>
    intro h k s
    unfold render
    rw [h c (by simp)]
    congr 1
    funext q
    dsimp only
    rw [ih (fun c hc => h c (by simp [hc])) (k + 1)]

/-- C103: in exact arithmetic the vectorized program renders the same image as the scalar program and leaves the scene in the same state (or both fail
alike), on a new image (all values 0), for every scene that uses the default `rand_f32xN` and whose number of samples is a multiple of
the number of lanes. -/
theorem C103_vector_is_scalar [LaneCount n] (E : Exact F) (t : Target) (dbg : Bool) (S : Scene K σ n) (hS : S.randN = defaultRandN n S.rand)
    (hn : n ∣ S.nao) (z : Size) (s : σ) :
    let new : List K := List.replicate (3 * (z.w * z.h)) 0
    (aoImageVector F t dbg S z new.length s).run new = (aoImageScalar F S z new.length s).run new := by
  intro new
  have hnew : new = gray (List.replicate (z.w * z.h) 0) := by
    apply List.ext_getElem?
    intro j
    rw [gray_get?]
    simp only [new, List.getElem?_replicate]
    by_cases h : j < 3 * (z.w * z.h)
    · rw [if_pos h, if_pos (by omega)]
    · rw [if_neg h, if_neg (by omega)]
  rw [hnew, C103_vector F t dbg S z s _ (by simp), C102_scalar F S z s _ (by simp)]
  congr 1
  apply render_congr
  intro c hc k s
  have hc0 : c = 0 := List.eq_of_mem_replicate hc
  simp only [shadeVector_eq E t dbg S hS hn, dirVector_eq E]
  have := addUp_scaled (1 / ((z.ns * z.ns : Nat) : K)) (fun j s => shadeScalar F S (sampleOf z (dirScalar F z) k j) s) (z.ns * z.ns) 0 s
  rw [zero_mul] at this
  rw [hc0]
  have hk : ∀ q : K, q * invNs F z * invNs F z = q * (1 / ((z.ns * z.ns : Nat) : K)) := by
    intro q
    unfold invNs
    rw [E.lit, E.ofUsize]
    push_cast
    rw [mul_assoc, div_mul_div_comm]
    simp
  simp only [hk]
  rw [this]
  cases addUp (fun j s => shadeScalar F S (sampleOf z (dirScalar F z) k j) s) (z.ns * z.ns) 0 s with
  | error e => rfl
  | ok q =>
    show Except.ok (_, _) = Except.ok (_, _)
    rw [E.ofUsize, mul_one_div]

/-- C102: in exact arithmetic the ray of a sample goes through the point of the image plane at distance 1 in front of the eye whose coordinates are
proportional to the position of the sample in the image: the height of the image is 2, its centre is straight ahead, and rows go down. -/
theorem C102_direction (E : Exact F) (z : Size) (x y u v : Nat) (hw : 0 < z.w) (hh : 0 < z.h) :
    dirScalar F z x y u v = V3.normalized F ⟨(2 * (x + u / z.ns) - z.w) / z.h, (z.h - 2 * (y + v / z.ns)) / z.h, -1⟩ := by
  have h1 : (z.w : K) ≠ 0 := by exact_mod_cast hw.ne'
  have h2 : (z.h : K) ≠ 0 := by exact_mod_cast hh.ne'
  unfold dirScalar
  simp only [E.lit, E.ofUsize]
  congr 2
  · push_cast; field_simp
  · push_cast; field_simp; ring
  · push_cast; rfl

end

/-! ### C104 -/

section
variable {α σ : Type} {n : Nat} [Add α] [Sub α] [Mul α] [Div α] [Neg α] (F : Fns α)

theorem sampleTiled_changes (dbg : Bool) (S : Scene α σ n) (z : Size) (offset x y u v k : Nat) (hb : offset = 3 * (n * k)) :
    ChangesPacket (fun s => sampleTiled F dbg S z offset x y u s v) (tiledSample F dbg S z (dirTiled F n z x y u v)) k := by
  intro D c l s hD
  unfold sampleTiled tiledSample
  dsimp only
  rw [run_bind, run_lift]
  cases castN F dbg S.plane S.spheres ⟨V3N.zero F n, dirTiled F n z x y u v⟩ with
  | error e => rfl
  | ok isect =>
    simp only [Except.map, R_ok_bind]
    by_cases hm : many isect.hit = true
    · rw [if_pos hm, if_pos hm, run_bind, run_lift]
      cases aoTiled F dbg S s isect with
      | error e => rfl
      | ok q =>
        simp only [Except.map, R_ok_bind]
        rw [hb, ← hD]
        refine (packet_run isect.hit (q.1 * splat n (invNs F z * invNs F z)) (F.lit 0) D l c q.2).trans ?_
        show Except.ok _ = Except.ok _
        unfold increased
        dsimp only
        congr 7
        funext i
        congr 2
        show (q.1 * splat n (invNs F z * invNs F z))[i.val] = _
        rw [vmul_get, splat_get]
        rfl
    · rw [if_neg hm, if_neg hm]
      rfl

/-- C104: the tiled program panics if the width is not a multiple of the number of lanes.  Otherwise it changes the grey values of the packets of
pixels, in the order of the packets, as the samples of the packet say, in all three colours; all accesses through pointers are inside the image,
if the image has the right size.  (Any arithmetic.) -/
theorem C104_tiled (hn : 0 < n) (dbg : Bool) (S : Scene α σ n) (z : Size) (s : σ) :
    (¬ n ∣ z.w → ∀ m, (aoImageTiled F dbg S z s).run m = .error .panic) ∧
    (n ∣ z.w → ∀ old : List (Vec α n), n * old.length = z.w * z.h → (aoImageTiled F dbg S z s).run (gray (lanesOf old)) =
      (render (fun k c s => changes (fun j => tiledSample F dbg S z (packetOf n z (dirTiled F n z) k j)) (z.ns * z.ns) c s) 0 old s).map
        fun q => (q.2, gray (lanesOf q.1))) := by
  constructor
  · intro h m
    unfold aoImageTiled
    rw [if_neg (fun h' => h (Nat.dvd_of_mod_eq_zero h'))]
    rfl
  · intro h old hl
    unfold aoImageTiled
    rw [if_pos (Nat.mod_eq_zero_of_dvd h)]
    obtain ⟨q, hq⟩ := h
    have hw : (z.w + n - 1) / n = z.w / n := by
      rw [hq, show n * q + n - 1 = n - 1 + n * q by omega, Nat.add_mul_div_left _ _ hn, Nat.div_eq_of_lt (by omega), Nat.zero_add, Nat.mul_div_cancel_left _ hn]
    have hwq : z.w / n = q := by rw [hq, Nat.mul_div_cancel_left _ hn]
    have hlen : old.length = q * z.h := by
      rw [hq, Nat.mul_assoc] at hl
      exact Nat.eq_of_mul_eq_mul_left hn hl
    unfold rowTiled loop
    rw [hw, hwq, nested_range q (fun s y j => pixelTiled F dbg S z (3 * (y * z.w + j * n)) (j * n) y s)]
    have := packets_run (fun k s => pixelTiled F dbg S z (3 * (k / q * z.w + k % q * n)) (k % q * n) (k / q) s)
      (fun k => changes (fun j => tiledSample F dbg S z (packetOf n z (dirTiled F n z) k j)) (z.ns * z.ns)) old [] [] s (by
        intro k _ _
        unfold pixelTiled loop
        have := packetSamples_run (fun j s => sampleTiled F dbg S z (3 * (k / q * z.w + k % q * n)) (k % q * n) (k / q) (j / z.ns) s (j % z.ns))
          (fun j => tiledSample F dbg S z (packetOf n z (dirTiled F n z) k j)) k (by
            intro j
            unfold packetOf
            rw [hwq]
            refine sampleTiled_changes F dbg S z _ _ _ _ _ k ?_
            congr 1
            have := Nat.div_add_mod k q
            rw [hq, show k / q * (n * q) + k % q * n = n * (q * (k / q) + k % q) by ring, this]) (z.ns * z.ns)
        intro D c l s hD
        dsimp only
        rw [nested_range z.ns (fun s u v => sampleTiled F dbg S z (3 * (k / q * z.w + k % q * n)) (k % q * n) (k / q) u s v)]
        exact this D c l s hD)
    rw [List.length_nil, hlen, ← List.range_eq_range'] at this
    simpa [lanesOf] using this

end

section
variable {K : Type} [Field K] [LinearOrder K] [IsStrictOrderedRing K] {F : Fns K} {n : Nat} {σ : Type}

theorem dirTiled_lane (E : Exact F) (z : Size) (x y u v i : Nat) (h : i < n) : (dirTiled F n z x y u v).lane i h = dirScalar F z (x + i) y u v := by
  unfold dirTiled dirScalar invNs incrF
  dsimp only
  rw [normalized_lane, mnormalized_eq E]
  unfold V3.lane
  simp only [vadd_get, vdiv_get, splat_get, vneg_get, Vector.getElem_ofFn, E.lit, E.ofUsize]
  congr 2
  · push_cast
    rcases eq_or_ne (z.w : K) 0 with h0 | h0
    · simp [h0]
    · field_simp
      ring
  · push_cast; ring

/-- C104: in exact arithmetic a packet of samples of the tiled program does for lane `i` what the scalar program does for pixel `x + i`: the same
direction; a lane whose ray misses the scene does not change; otherwise it increases by the value of the sample computed with the random numbers of
the lane, divided by `ns²`.  Random numbers are drawn exactly if some lane hits. -/
theorem C104_lanes (E : Exact F) (dbg : Bool) (S : Scene K σ n) (z : Size) (x y u v : Nat) (c : Vec K n) (s : σ) :
    let hit := fun i => (castRay F S.plane S.spheres ⟨V3.zero F, dirScalar F z (x + i) y u v⟩).hit = true
    let new := tiledSample F dbg S z (dirTiled F n z x y u v) c s
    ((∀ i < n, ¬ hit i) → new = .ok (c, s)) ∧
    ((∃ i < n, hit i) → (∀ e, drawsN S.randN (S.nao * S.nao) s = .error e → new = .error e) ∧
      ∀ l s', drawsN S.randN (S.nao * S.nao) s = .ok (l, s') → ∃ r, new = .ok (r, s') ∧ ∀ i (h : i < n),
        ∃ a, shadeScalar F (fromList S n) (dirScalar F z (x + i) y u v) (if hit i then laneDraws l i h else []) = .ok (a, []) ∧
          r[i] = c[i] + a / (z.ns * z.ns)) := by
  intro hit new
  obtain ⟨is, e, hl⟩ := castN_exact E dbg S.plane S.spheres ⟨V3N.zero F n, dirTiled F n z x y u v⟩
  have hl' : ∀ i (h : i < n), is.lane i h = castRay F S.plane S.spheres ⟨V3.zero F, dirScalar F z (x + i) y u v⟩ := by
    intro i h
    rw [hl i h]
    congr 1
    unfold Ray.lane
    rw [dirTiled_lane E]
    congr 1
    unfold V3.lane V3N.zero V3.zero
    simp only [splat_get]
  have hh : ∀ i (h : i < n), (is.hit[i] = true ↔ hit i) := by
    intro i h
    show (is.lane i h).hit = true ↔ _
    rw [hl' i h]
  have hnew : new = if many is.hit then aoTiled F dbg S s is >>= fun q =>
      .ok (Vector.ofFn fun i => if is.hit[i] then c[i] + q.1[i] * (invNs F z * invNs F z) else c[i], q.2) else .ok (c, s) := by
    show tiledSample F dbg S z (dirTiled F n z x y u v) c s = _
    unfold tiledSample
    rw [e]
    rfl
  constructor
  · intro h
    rw [hnew, if_neg]
    rw [many_true]
    rintro ⟨i, hi, h'⟩
    exact h i hi ((hh i hi).1 h')
  · rintro ⟨i, hi, h⟩
    have hm : many is.hit = true := many_true.2 ⟨i, hi, (hh i hi).2 h⟩
    rw [hnew, if_pos hm]
    obtain ⟨h1, h2⟩ := C99_tiled_is_scalar E dbg S s is
    refine ⟨fun e he => by rw [h1 e he]; rfl, fun l s' hd => ?_⟩
    obtain ⟨r, hr, hr'⟩ := h2 l s' hd
    rw [hr]
    refine ⟨_, rfl, fun i hi => ?_⟩
    rw [Vector.getElem_ofFn]
    obtain ⟨o, ho, ha⟩ := hr' i hi
    rw [IsectN.get_lane _ i hi] at ho
    have ho := Except.ok.inj ho
    unfold shadeScalar
    dsimp only
    by_cases hhit : hit i
    · refine ⟨r[i], ?_, ?_⟩
      · rw [if_pos hhit]
        refine (if_pos hhit).trans ?_
        rw [← ho, hl' i hi] at ha
        exact ha
      · refine (if_pos ((hh i hi).2 hhit)).trans ?_
        unfold invNs
        rw [E.lit, E.ofUsize]
        push_cast
        show c[i] + r[i] * _ = _
        rw [div_mul_div_comm, one_mul, mul_one_div]
    · refine ⟨0, ?_, ?_⟩
      · rw [if_neg hhit]
        refine (if_neg hhit).trans ?_
        rw [E.lit]
        push_cast
        rfl
      · refine (if_neg (fun h => hhit ((hh i hi).1 h))).trans ?_
        rw [zero_div, add_zero]
        rfl

end

-- the hypotheses of C102 to C104 are met, for example, by exact arithmetic on rational numbers (with a square root correct on the squares needed), an 8 × 6
-- image with 2 × 2 samples and the test scene with packets of 4 rays
example (s : TestState ℚ) : ∃ F : Fns ℚ, Nonempty (Exact F) ∧ (testScene F 4).randN = defaultRandN 4 (testScene F 4).rand ∧ 4 ∣ (testScene F 4).nao ∧
    (List.replicate 48 (1 : ℚ)).length = 8 * 6 ∧ (List.replicate 12 (splat 4 (1 : ℚ))).length * 4 = 8 * 6 ∧ 4 ∣ 8 :=
  ⟨ratFns, ⟨ratFns_exact⟩, rfl, ⟨2, rfl⟩, by simp, by simp, ⟨2, rfl⟩⟩

-- the first sample of a 2 × 2 image goes to the upper left corner
example : (⟨(2 * (0 + 0 / 1) - 2) / 2, (2 - 2 * (0 + 0 / 1)) / 2, -1⟩ : V3 ℚ) = ⟨-1, 1, -1⟩ := by norm_num

end PackedSimd.Props
