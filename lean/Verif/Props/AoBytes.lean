import Verif.Lemmas.AoBytes
import Verif.Props.AoParallel
/-
examples/aobench/src: C107 (the values of the pixels on `f32`), C108 (image.rs: the bytes of the picture).
-/
namespace PackedSimd.Props
open Spec Ex Ex.Ao Spec.Ao V3N Mandel Prog

theorem format32 : Format 32 23 := ⟨by decide, by decide⟩

theorem rep32 (K u : Nat) (hK : K ≤ 2 ^ 24) (hu : u ≤ 150) : Representable 32 23 ((K : Int) * 2 ^ u) := by
  apply representable_of
  · exact hK
  · calc (K : Int).natAbs * 2 ^ u ≤ 2 ^ 24 * 2 ^ 150 := Nat.mul_le_mul hK (Nat.pow_le_pow_right (by decide) hu)
      _ < magUnits 23 (infMag 32 23) := by decide +kernel

/-- `x` is `K` units of `2^(u - 149)`. -/
def Is (u K : Nat) (x : F32) : Prop := valueOf 23 x.bits = .num ((K : Int) * 2 ^ u)

theorem is_add {u K L : Nat} {x y : F32} (hx : Is u K x) (hy : Is u L y) (h : K + L ≤ 2 ^ 24) (hu : u ≤ 150) : Is u (K + L) (x + y) := by
  have := add_exact format32 hx hy (by rw [← add_mul]; exact_mod_cast rep32 (K + L) u h hu)
  rw [← add_mul] at this
  exact_mod_cast this

/-- Multiplication with `2^-a`. -/
theorem is_mul {u K a : Nat} {x y : F32} (hx : Is (u + a) K x) (hy : Is (149 - a) 1 y) (ha : a ≤ 149) (hK : K ≤ 2 ^ 24) (hu : u ≤ 150) : Is u K (x * y) := by
  refine mul_exact format32 hx hy ?_ (rep32 K u hK hu)
  have h1 : (2 : Int) ^ (u + a) * 2 ^ (149 - a) = 2 ^ u * 2 ^ 149 := by rw [← pow_add, ← pow_add]; congr 1; omega
  show (K : Int) * 2 ^ (u + a) * (((1 : Nat) : Int) * 2 ^ (149 - a)) = (K : Int) * 2 ^ u * 2 ^ 149
  rw [Nat.cast_one, one_mul, mul_assoc, h1, mul_assoc]

/-- Division by `2^a`. -/
theorem is_div {u K a : Nat} {x y : F32} (hx : Is (u + a) K x) (hy : Is (149 + a) 1 y) (hK : K ≤ 2 ^ 24) (hu : u ≤ 150) : Is u K (x / y) := by
  refine div_exact format32 hx hy (by positivity) ?_ (rep32 K u hK hu)
  have h1 : (2 : Int) ^ (u + a) * 2 ^ 149 = 2 ^ u * 2 ^ (149 + a) := by rw [← pow_add, ← pow_add]; congr 1; omega
  show (K : Int) * 2 ^ (u + a) * 2 ^ 149 = (K : Int) * 2 ^ u * (((1 : Nat) : Int) * 2 ^ (149 + a))
  rw [Nat.cast_one, one_mul, mul_assoc, h1, mul_assoc]

theorem is_zero (u : Nat) : Is u 0 ⟨0⟩ := by
  unfold Is
  rw [Nat.cast_zero, zero_mul]
  decide +kernel

section
variable {n : Nat} {σ τ ρ : Type} (ma : F32 → F32 → F32 → F32) (sqrt sqrte sin cos : F32 → F32) (pi : F32) (scp : F32 → F32 × F32)

theorem is_ofUsize : ∀ e, e ≤ 18 → Is (149 + e) 1 (whole (2 ^ e)) := by
  unfold Is
  decide +kernel

theorem is_inv : ∀ e, e ≤ 9 → Is (149 - e) 1 (whole 1 / whole (2 ^ e)) := by
  unfold Is
  decide +kernel

theorem is_invNs (w h e : Nat) (he : e ≤ 9) : Is (149 - e) 1 (invNs (f32 ma sqrt sqrte sin cos pi scp) ⟨w, h, 2 ^ e⟩) := by
  unfold invNs
  rw [(lit_zero_one ma sqrt sqrte sin cos pi scp).2]
  exact is_inv e he

theorem addUp_is (u B : Nat) (hu : u ≤ 150) (value : Nat → σ → R (F32 × σ)) (hv : ∀ j s q, value j s = .ok q → ∃ k, k ≤ B ∧ Is u k q.1) (m : Nat) (hm : B * m ≤ 2 ^ 24)
    (c : F32) (hc : Is u 0 c) (s : σ) (q : F32 × σ) (h : addUp value m c s = .ok q) : ∃ K, K ≤ B * m ∧ Is u K q.1 := by
  induction m generalizing q with
  | zero => cases h; exact ⟨0, by omega, hc⟩
  | succ m ih =>
    rw [Nat.mul_succ] at hm
    rw [show addUp value (m + 1) c s = (addUp value m c s >>= fun p => value m p.2 >>= fun q => Except.ok (p.1 + q.1, q.2)) from rfl] at h
    cases h1 : addUp value m c s with
    | error e => rw [h1] at h; cases h
    | ok p =>
      rw [h1, R_ok_bind] at h
      cases h2 : value m p.2 with
      | error e => rw [h2] at h; cases h
      | ok r =>
        rw [h2] at h
        cases h
        obtain ⟨K, hK, h3⟩ := ih (by omega) p h1
        obtain ⟨k, hk, h4⟩ := hv _ _ _ h2
        exact ⟨K + k, by rw [Nat.mul_succ]; omega, is_add h3 h4 (by omega) hu⟩

theorem four_pow (e : Nat) : 2 ^ e * 2 ^ e = 4 ^ e := by rw [← Nat.mul_pow]

theorem bound (e : Nat) (he : e ≤ 9) : 64 * (2 ^ e * 2 ^ e) ≤ 2 ^ 24 := by
  rw [← Nat.pow_add]
  calc 64 * 2 ^ (e + e) ≤ 64 * 2 ^ 18 := Nat.mul_le_mul_left _ (Nat.pow_le_pow_right (by decide) (by omega))
    _ = 2 ^ 24 := by decide

theorem sub_is {k : Nat} {x : F32} (hk : k ≤ 64) (h : valueOf 23 x.bits = .num ((64 - (k : Int)) * 2 ^ 143)) : Is 143 (64 - k) x := by
  unfold Is
  rw [h]
  congr 2
  omega

theorem shade_is (S : Scene F32 σ n) (h8 : S.nao = 8) (dir : V3 F32) (s : σ) (q : F32 × σ) (h : shadeScalar (f32 ma sqrt sqrte sin cos pi scp) S dir s = .ok q) :
    ∃ k, k ≤ 64 ∧ Is 143 k q.1 := by
  unfold shadeScalar at h
  dsimp only at h
  split at h
  · obtain ⟨l, -, k, hk, hv, -⟩ := C100_scalar_f32 ma sqrt sqrte sin cos pi scp S h8 s q.2 _ q.1 h
    exact ⟨64 - k, by omega, sub_is hk hv⟩
  · cases h
    rw [(lit_zero_one ma sqrt sqrte sin cos pi scp).1]
    exact ⟨0, by omega, is_zero _⟩

theorem shadeVector_is [LaneCount n] (hn : n ∣ 8) (t : Target) (dbg : Bool) (S : Scene F32 σ n) (h8 : S.nao = 8) (dir : V3 F32) (s : σ) (q : F32 × σ)
    (h : shadeVector (f32 ma sqrt sqrte sin cos pi scp) t dbg S dir s = .ok q) : ∃ k, k ≤ 64 ∧ Is 143 k q.1 := by
  unfold shadeVector at h
  dsimp only at h
  split at h
  · obtain ⟨k, hk, hv⟩ := C100_vector_f32 ma sqrt sqrte sin cos pi scp hn t dbg S h8 s q.2 _ q.1 h
    exact ⟨64 - k, by omega, sub_is hk hv⟩
  · cases h
    rw [(lit_zero_one ma sqrt sqrte sin cos pi scp).1]
    exact ⟨0, by omega, is_zero _⟩

/-- New value of a pixel of the scalar program. -/
theorem pixelScalar_is (S : Scene F32 σ n) (h8 : S.nao = 8) (w h e : Nat) (he : e ≤ 9) (k : Nat) (c : F32) (hc : ∀ u, Is u 0 c) (s : σ) (q : F32 × σ)
    (hq : (do
      let (sum, s) ← addUp (fun j s => shadeScalar (f32 ma sqrt sqrte sin cos pi scp) S (sampleOf ⟨w, h, 2 ^ e⟩ (dirScalar (f32 ma sqrt sqrte sin cos pi scp) ⟨w, h, 2 ^ e⟩) k j) s)
        (2 ^ e * 2 ^ e) c s
      return (sum / (f32 ma sqrt sqrte sin cos pi scp).ofUsize (2 ^ e * 2 ^ e), s)) = Except.ok q) :
    ∃ K, K ≤ 64 * 4 ^ e ∧ Is (143 - 2 * e) K q.1 := by
  cases h1 : addUp (fun j s => shadeScalar (f32 ma sqrt sqrte sin cos pi scp) S (sampleOf ⟨w, h, 2 ^ e⟩ (dirScalar (f32 ma sqrt sqrte sin cos pi scp) ⟨w, h, 2 ^ e⟩) k j) s)
        (2 ^ e * 2 ^ e) c s with
  | error e' => rw [h1] at hq; cases hq
  | ok p =>
    rw [h1] at hq
    cases hq
    have hb := bound e he
    obtain ⟨K, hK, hv⟩ := addUp_is 143 64 (by decide) _ (fun j s q hq => shade_is ma sqrt sqrte sin cos pi scp S h8 _ s q hq) _ hb c (hc _) s p h1
    refine ⟨K, by rw [← four_pow]; exact hK, ?_⟩
    refine is_div (a := 2 * e) (by rw [Nat.sub_add_cancel (by omega)]; exact hv) ?_ (by omega) (by omega)
    rw [← Nat.pow_add, ← Nat.two_mul]
    exact is_ofUsize (2 * e) (by omega)

theorem pixelVector_is [LaneCount n] (hn : n ∣ 8) (t : Target) (dbg : Bool) (S : Scene F32 σ n) (h8 : S.nao = 8) (w h e : Nat) (he : e ≤ 9)
    (dir : Nat → V3 F32) (c : F32) (hc : ∀ u, Is u 0 c) (s : σ) (q : F32 × σ)
    (hq : addUp (fun j s => (shadeVector (f32 ma sqrt sqrte sin cos pi scp) t dbg S (dir j) s).map fun q =>
      (q.1 * invNs (f32 ma sqrt sqrte sin cos pi scp) ⟨w, h, 2 ^ e⟩ * invNs (f32 ma sqrt sqrte sin cos pi scp) ⟨w, h, 2 ^ e⟩, q.2)) (2 ^ e * 2 ^ e) c s = Except.ok q) :
    ∃ K, K ≤ 64 * 4 ^ e ∧ Is (143 - 2 * e) K q.1 := by
  have hb := bound e he
  obtain ⟨K, hK, hv⟩ := addUp_is (143 - 2 * e) 64 (by omega) _ (fun j s q hq => by
    cases h1 : shadeVector (f32 ma sqrt sqrte sin cos pi scp) t dbg S (dir j) s with
    | error e' => rw [h1] at hq; cases hq
    | ok p =>
      rw [h1] at hq
      cases hq
      obtain ⟨k, hk, hv⟩ := shadeVector_is ma sqrt sqrte sin cos pi scp hn t dbg S h8 _ s p h1
      have hi := is_invNs ma sqrt sqrte sin cos pi scp w h e he
      refine ⟨k, hk, ?_⟩
      refine is_mul (a := e) (is_mul (a := e) ?_ hi (by omega) (by omega) (by omega)) hi (by omega) (by omega) (by omega)
      rw [show 143 - 2 * e + e + e = 143 by omega]
      exact hv) _ hb c (hc _) s q hq
  exact ⟨K, by rw [← four_pow]; exact hK, hv⟩

/-- Change of a packet of pixels by the tiled program. -/
theorem packetTiled_is (dbg : Bool) (S : Scene F32 σ n) (h8 : S.nao = 8) (w h e : Nat) (he : e ≤ 9) (dir : Nat → V3N F32 n) (c : Vec F32 n)
    (hc : ∀ i (hi : i < n), ∀ u, Is u 0 c[i]) (s : σ) (q : Vec F32 n × σ) (m : Nat) (hm : 64 * m ≤ 2 ^ 24)
    (hq : changes (fun j => tiledSample (f32 ma sqrt sqrte sin cos pi scp) dbg S ⟨w, h, 2 ^ e⟩ (dir j)) m c s = Except.ok q) :
    ∀ i (hi : i < n), ∃ K, K ≤ 64 * m ∧ Is (143 - 2 * e) K q.1[i] := by
  induction m generalizing q with
  | zero => intro i hi; cases hq; exact ⟨0, by omega, hc i hi _⟩
  | succ m ih =>
    rw [show ∀ v : Nat → Vec F32 n → σ → R (Vec F32 n × σ), changes v (m + 1) c s = (changes v m c s >>= fun p => v m p.1 p.2) from fun _ => rfl] at hq
    cases h1 : changes (fun j => tiledSample (f32 ma sqrt sqrte sin cos pi scp) dbg S ⟨w, h, 2 ^ e⟩ (dir j)) m c s with
    | error e' => rw [h1] at hq; cases hq
    | ok p =>
      rw [h1, R_ok_bind] at hq
      have ih := ih p (by omega) h1
      unfold tiledSample at hq
      cases h2 : castN (f32 ma sqrt sqrte sin cos pi scp) dbg S.plane S.spheres ⟨V3N.zero (f32 ma sqrt sqrte sin cos pi scp) n, dir m⟩ with
      | error e' => rw [h2] at hq; cases hq
      | ok isect =>
        rw [h2, R_ok_bind] at hq
        by_cases hh : many isect.hit = true
        · rw [if_pos hh] at hq
          cases h3 : aoTiled (f32 ma sqrt sqrte sin cos pi scp) dbg S p.2 isect with
          | error e' => rw [h3] at hq; cases hq
          | ok r =>
            rw [h3] at hq
            cases hq
            intro i hi
            obtain ⟨K, hK, hv⟩ := ih i hi
            rw [Vector.getElem_ofFn]
            split
            · obtain ⟨k, hk, hvk⟩ := C100_tiled_f32 ma sqrt sqrte sin cos pi scp dbg S h8 p.2 r.2 isect r.1 h3 i hi
              refine ⟨K + (64 - k), by omega, is_add hv ?_ (by omega) (by omega)⟩
              have hinv := is_invNs ma sqrt sqrte sin cos pi scp w h e he
              have h2 : Is (149 - 2 * e) 1 (invNs (f32 ma sqrt sqrte sin cos pi scp) ⟨w, h, 2 ^ e⟩ * invNs (f32 ma sqrt sqrte sin cos pi scp) ⟨w, h, 2 ^ e⟩) := by
                refine is_mul (a := e) ?_ hinv (by omega) (by decide) (by omega)
                rw [show 149 - 2 * e + e = 149 - e by omega]
                exact hinv
              refine is_mul (a := 2 * e) ?_ h2 (by omega) (by omega) (by omega)
              rw [show 143 - 2 * e + 2 * e = 143 by omega]
              exact sub_is hk hvk
            · exact ⟨K, by omega, hv⟩
        · rw [if_neg hh] at hq
          cases hq
          intro i hi
          obtain ⟨K, hK, hv⟩ := ih i hi
          exact ⟨K, by omega, hv⟩

theorem render_all {γ : Type} (p : Nat → γ → σ → R (γ × σ)) (P Q : γ → Prop) (hp : ∀ k c s q, P c → p k c s = .ok q → Q q.1) : ∀ (l : List γ), (∀ c ∈ l, P c) →
    ∀ k s q, render p k l s = .ok q → ∀ c ∈ q.1, Q c := by
  intro l
  induction l with
  | nil => intro _ k s q h; cases h; simp
  | cons c l ih =>
    intro hl k s q h
    rw [show render p k (c :: l) s = (p k c s >>= fun a => render p (k + 1) l a.2 >>= fun b => .ok (a.1 :: b.1, b.2)) from rfl] at h
    cases h1 : p k c s with
    | error e => rw [h1] at h; cases h
    | ok a =>
      rw [h1, R_ok_bind] at h
      cases h2 : render p (k + 1) l a.2 with
      | error e => rw [h2] at h; cases h
      | ok b =>
        rw [h2] at h
        cases h
        intro d hd
        rcases List.mem_cons.1 hd with rfl | hd
        · exact hp _ _ _ _ (hl c (by simp)) h1
        · exact ih (fun c hc => hl c (by simp [hc])) _ _ _ h2 d hd

/-- `C` are grey values on `f32`, exactly `K / (64 * 4^e)` with `0 ≤ K ≤ 64 * 4^e` for the `K` listed. -/
def Greys (e : Nat) (Ks : List Nat) (C : List F32) : Prop :=
  (∀ K ∈ Ks, K ≤ 64 * 4 ^ e) ∧ C.map (fun x => valueOf 23 x.bits) = Ks.map fun K : Nat => FVal.num ((K : Int) * 2 ^ (143 - 2 * e))

theorem greys_of (e : Nat) : ∀ C : List F32, (∀ c ∈ C, ∃ K, K ≤ 64 * 4 ^ e ∧ Is (143 - 2 * e) K c) → ∃ Ks, Greys e Ks C := by
  intro C
  induction C with
  | nil => intro _; exact ⟨[], by simp, rfl⟩
  | cons c C ih =>
    intro h
    obtain ⟨K, hK, hv⟩ := h c (by simp)
    obtain ⟨Ks, h1, h2⟩ := ih fun c hc => h c (by simp [hc])
    refine ⟨K :: Ks, ?_, ?_⟩
    · intro L hL
      rcases List.mem_cons.1 hL with rfl | hL
      · exact hK
      · exact h1 L hL
    · rw [List.map_cons, List.map_cons, h2, hv]

theorem new_gray (w h : Nat) : (Image.new w h).fdata = gray (List.replicate (w * h) ⟨0⟩) := by
  apply List.ext_getElem?
  intro j
  rw [gray_get?]
  simp only [Image.new, List.getElem?_replicate]
  by_cases h : j < w * h * 3
  · rw [if_pos h, if_pos (by omega)]
  · rw [if_neg h, if_neg (by omega)]

theorem Greys.length {e : Nat} {Ks : List Nat} {C : List F32} (h : Greys e Ks C) : Ks.length = C.length := by
  have := congrArg List.length h.2
  simpa using this.symm

/-- C107: rendering a new image with the scalar program on `f32`, with 8 × 8 occlusion samples and `ns` a power of two up to `2^9` (`main.rs`: 2), gives
each pixel a grey value which is exactly `K / (64 * ns²)` for a whole `K` from 0 to `64 * ns²`: all roundings are exact. -/
theorem C107_scalar (S : Scene F32 σ n) (h8 : S.nao = 8) (w h e : Nat) (he : e ≤ 9) (s s' : σ) (out : List F32)
    (hr : (aoImageScalar (f32 ma sqrt sqrte sin cos pi scp) S ⟨w, h, 2 ^ e⟩ (Image.new w h).fdata.length s).run (Image.new w h).fdata = .ok (s', out)) :
    ∃ Ks C, Ks.length = w * h ∧ Greys e Ks C ∧ out = gray C := by
  rw [new_gray, C102_scalar _ S ⟨w, h, 2 ^ e⟩ s _ (by simp)] at hr
  cases hq : render (fun k c s => do
      let (sum, s) ← addUp (fun j s => shadeScalar (f32 ma sqrt sqrte sin cos pi scp) S (sampleOf ⟨w, h, 2 ^ e⟩ (dirScalar (f32 ma sqrt sqrte sin cos pi scp) ⟨w, h, 2 ^ e⟩) k j) s)
        (2 ^ e * 2 ^ e) c s
      return (sum / (f32 ma sqrt sqrte sin cos pi scp).ofUsize (2 ^ e * 2 ^ e), s)) 0 (List.replicate (w * h) (⟨0⟩ : F32)) s with
  | error e' => rw [hq] at hr; cases hr
  | ok q =>
    rw [hq] at hr
    cases hr
    obtain ⟨Ks, hK⟩ := greys_of e q.1 (render_all _ (fun c => ∀ u, Is u 0 c) _
      (fun k c s q hc hq => pixelScalar_is ma sqrt sqrte sin cos pi scp S h8 w h e he k c hc s q hq) _ (fun c hc => by
        rw [List.eq_of_mem_replicate hc]; exact is_zero) _ _ _ hq)
    refine ⟨Ks, q.1, ?_, hK, rfl⟩
    rw [hK.length, render_length _ _ _ _ _ hq, List.length_replicate]

/-- C107: so does the vectorized program. -/
theorem C107_vector [LaneCount n] (hn : n ∣ 8) (t : Target) (dbg : Bool) (S : Scene F32 σ n) (h8 : S.nao = 8) (w h e : Nat) (he : e ≤ 9) (s s' : σ) (out : List F32)
    (hr : (aoImageVector (f32 ma sqrt sqrte sin cos pi scp) t dbg S ⟨w, h, 2 ^ e⟩ (Image.new w h).fdata.length s).run (Image.new w h).fdata = .ok (s', out)) :
    ∃ Ks C, Ks.length = w * h ∧ Greys e Ks C ∧ out = gray C := by
  rw [new_gray, C103_vector _ t dbg S ⟨w, h, 2 ^ e⟩ s _ (by simp)] at hr
  cases hq : render (fun k c s =>
      addUp (fun j s => (shadeVector (f32 ma sqrt sqrte sin cos pi scp) t dbg S (sampleOf ⟨w, h, 2 ^ e⟩ (dirVector (f32 ma sqrt sqrte sin cos pi scp) ⟨w, h, 2 ^ e⟩) k j) s).map
        fun q => (q.1 * invNs (f32 ma sqrt sqrte sin cos pi scp) ⟨w, h, 2 ^ e⟩ * invNs (f32 ma sqrt sqrte sin cos pi scp) ⟨w, h, 2 ^ e⟩, q.2)) (2 ^ e * 2 ^ e) c s)
      0 (List.replicate (w * h) (⟨0⟩ : F32)) s with
  | error e' => rw [hq] at hr; cases hr
  | ok q =>
    rw [hq] at hr
    cases hr
    obtain ⟨Ks, hK⟩ := greys_of e q.1 (render_all _ (fun c => ∀ u, Is u 0 c) _
      (fun k c s q hc hq => pixelVector_is ma sqrt sqrte sin cos pi scp hn t dbg S h8 w h e he _ c hc s q hq) _ (fun c hc => by
        rw [List.eq_of_mem_replicate hc]; exact is_zero) _ _ _ hq)
    refine ⟨Ks, q.1, ?_, hK, rfl⟩
    rw [hK.length, render_length _ _ _ _ _ hq, List.length_replicate]

theorem lanesOf_replicate {α : Type} (c : α) : ∀ m, lanesOf (List.replicate m (splat n c)) = List.replicate (n * m) c := by
  intro m
  induction m with
  | zero => simp [lanesOf]
  | succ m ih =>
    rw [List.replicate_succ]
    show (splat n c).toList ++ lanesOf _ = _
    rw [ih, Nat.mul_succ, Nat.add_comm, List.replicate_add]
    congr 1
    apply List.ext_getElem
    · simp
    · intro i h1 h2
      simp [splat]

/-- C107: so does the tiled program. -/
theorem C107_tiled (hn : 0 < n) (dbg : Bool) (S : Scene F32 σ n) (h8 : S.nao = 8) (w h e : Nat) (he : e ≤ 9) (s s' : σ) (out : List F32)
    (hr : (aoImageTiled (f32 ma sqrt sqrte sin cos pi scp) dbg S ⟨w, h, 2 ^ e⟩ s).run (Image.new w h).fdata = .ok (s', out)) :
    ∃ Ks C, Ks.length = w * h ∧ Greys e Ks C ∧ out = gray C := by
  obtain ⟨h1, h2⟩ := C104_tiled (f32 ma sqrt sqrte sin cos pi scp) hn dbg S ⟨w, h, 2 ^ e⟩ s
  by_cases hd : n ∣ w
  · obtain ⟨p, rfl⟩ := hd
    have h2 := h2 ⟨p, rfl⟩ (List.replicate (p * h) (splat n ⟨0⟩)) (by rw [List.length_replicate]; show n * (p * h) = n * p * h; ring)
    rw [lanesOf_replicate, show n * (p * h) = n * p * h by ring, ← new_gray] at h2
    rw [h2] at hr
    cases hq : render (fun k c s => changes (fun j => tiledSample (f32 ma sqrt sqrte sin cos pi scp) dbg S ⟨n * p, h, 2 ^ e⟩
        (packetOf n ⟨n * p, h, 2 ^ e⟩ (dirTiled (f32 ma sqrt sqrte sin cos pi scp) n ⟨n * p, h, 2 ^ e⟩) k j)) (2 ^ e * 2 ^ e) c s) 0 (List.replicate (p * h) (splat n (⟨0⟩ : F32))) s with
    | error e' => rw [hq] at hr; cases hr
    | ok q =>
      rw [hq] at hr
      cases hr
      have := render_all _ (fun c => ∀ i (hi : i < n), ∀ u, Is u 0 c[i]) (fun c => ∀ i (hi : i < n), ∃ K, K ≤ 64 * (2 ^ e * 2 ^ e) ∧ Is (143 - 2 * e) K c[i])
        (fun k c s q hc hq => packetTiled_is ma sqrt sqrte sin cos pi scp dbg S h8 (n * p) h e he _ c hc s q _ (bound e he) hq) _ (fun c hc => by
          rw [List.eq_of_mem_replicate hc]; intro i hi; rw [splat_get]; exact is_zero) _ _ _ hq
      obtain ⟨Ks, hK⟩ := greys_of e (lanesOf q.1) (by
        intro c hc
        obtain ⟨v, hv, hcv⟩ := List.mem_flatMap.1 hc
        obtain ⟨i, hi, rfl⟩ := List.getElem_of_mem hcv
        obtain ⟨K, hK, h⟩ := this v hv i (by simpa using hi)
        exact ⟨K, by rw [← four_pow]; exact hK, by rw [Vector.getElem_toList]; exact h⟩)
      refine ⟨Ks, lanesOf q.1, ?_, hK, rfl⟩
      rw [hK.length, lanesOf_length, render_length _ _ _ _ _ hq, List.length_replicate]
      ring
  · rw [h1 hd] at hr
    cases hr

/-- C107: with `ns = 0` the scalar program divides 0 by 0: every pixel becomes NaN; the other two leave the image as it is. -/
theorem C107_no_samples [LaneCount n] (t : Target) (dbg : Bool) (S : Scene F32 σ n) (w h : Nat) (s : σ) :
    let F := f32 ma sqrt sqrte sin cos pi scp
    let new := (Image.new w h).fdata
    (∃ out, (aoImageScalar F S ⟨w, h, 0⟩ new.length s).run new = .ok (s, out) ∧ out.length = new.length ∧ ∀ x ∈ out, valueOf 23 x.bits = .nan) ∧
    (aoImageVector F t dbg S ⟨w, h, 0⟩ new.length s).run new = .ok (s, new) ∧
    (n ∣ w → (aoImageTiled F dbg S ⟨w, h, 0⟩ s).run new = .ok (s, new)) := by
  intro F new
  have hconst : ∀ {γ : Type} (p : Nat → γ → σ → R (γ × σ)) (f : γ → γ), (∀ k c s, p k c s = .ok (f c, s)) → ∀ l k s, render p k l s = .ok (l.map f, s) := by
    intro γ p f hp l
    induction l with
    | nil => intro k s; rfl
    | cons c l ih =>
      intro k s
      unfold render
      rw [hp, R_ok_bind]
      dsimp only
      rw [ih]
      rfl
  have hnew : new = gray (List.replicate (w * h) ⟨0⟩) := new_gray w h
  refine ⟨?_, ?_, ?_⟩
  · rw [hnew, C102_scalar F S ⟨w, h, 0⟩ s _ (by simp)]
    refine ⟨_, (congrArg (Except.map _) (hconst _ (fun c => c / F.ofUsize 0) (fun k c s => rfl) _ _ _)).trans rfl, by simp [gray_length], ?_⟩
    intro x hx
    obtain ⟨c, hc, hx⟩ := List.mem_flatMap.1 hx
    obtain ⟨d, hd, rfl⟩ := List.mem_map.1 hc
    rw [List.eq_of_mem_replicate hd] at hx
    have : x = (⟨0⟩ : F32) / F.ofUsize 0 := by simpa using hx
    rw [this]
    show valueOf 23 (Flt.div 23 0 (Flt.fromInt 32 23 0)) = .nan
    decide +kernel
  · rw [hnew, C103_vector F t dbg S ⟨w, h, 0⟩ s _ (by simp)]
    refine (congrArg (Except.map _) (hconst _ id (fun k c s => rfl) _ _ _)).trans ?_
    rw [List.map_id]
    rfl
  · rintro ⟨p, rfl⟩
    have h2 := (C104_tiled F LaneCount.pos dbg S ⟨n * p, h, 0⟩ s).2 ⟨p, rfl⟩ (List.replicate (p * h) (splat n ⟨0⟩))
      (by rw [List.length_replicate]; show n * (p * h) = n * p * h; ring)
    rw [lanesOf_replicate, show n * (p * h) = n * p * h by ring, ← hnew] at h2
    rw [h2]
    refine (congrArg (Except.map _) (hconst _ id (fun k c s => rfl) _ _ _)).trans ?_
    rw [List.map_id]
    show Except.ok (s, gray (lanesOf _)) = _
    rw [lanesOf_replicate, show n * (p * h) = n * p * h by ring, ← hnew]

/-- The rows made by the threads together. -/
theorem rows_all {γ : Type} (M : Maker τ σ ρ) (row : Nat → List γ → σ → R (List γ × σ)) (old new : List (List γ)) (h : Nat) (hh : new.length = h) (P : List γ → Prop)
    (hP : ∀ y s q, row y (old[y]?.getD []) s = .ok q → P q.1) (work : List (List Nat × τ)) (hw : EachRowOnce h work)
    (hok : ∀ p ∈ work, ∃ rs, rowsOf M row old p.1 p.2 = .ok rs) (hnew : ∀ p ∈ work, ∀ rs, rowsOf M row old p.1 p.2 = .ok rs → ∀ q ∈ rs, new[q.1]? = some q.2) :
    ∀ r ∈ new, P r := by
  have key : ∀ ys g rs, rowsOf M row old ys g = .ok rs → ∀ y ∈ ys, ∃ r, (y, r) ∈ rs ∧ P r := by
    intro ys
    induction ys with
    | nil => intro g rs _ y hy; simp at hy
    | cons y ys ih =>
      intro g rs hrs y' hy'
      rw [show rowsOf M row old (y :: ys) g = (row y (old[y]?.getD []) (M.new g).1 >>= fun a => rowsOf M row old ys (M.finish a.2 (M.new g).2) >>= fun b => .ok ((y, a.1) :: b)) from rfl] at hrs
      cases h1 : row y (old[y]?.getD []) (M.new g).1 with
      | error e => rw [h1] at hrs; cases hrs
      | ok a =>
        rw [h1, R_ok_bind] at hrs
        cases h2 : rowsOf M row old ys (M.finish a.2 (M.new g).2) with
        | error e => rw [h2] at hrs; cases hrs
        | ok b =>
          rw [h2] at hrs
          cases hrs
          rcases List.mem_cons.1 hy' with rfl | hy'
          · exact ⟨a.1, by simp, hP _ _ _ h1⟩
          · obtain ⟨r, hr, hp⟩ := ih _ _ h2 y' hy'
            exact ⟨r, by simp [hr], hp⟩
  intro r hr
  obtain ⟨y, hy, rfl⟩ := List.getElem_of_mem hr
  obtain ⟨p, hp, hyp⟩ := List.mem_flatMap.1 (hw.mem_iff.2 (List.mem_range.2 (hh ▸ hy)))
  obtain ⟨rs, hrs⟩ := hok p hp
  obtain ⟨r, hr, hPr⟩ := key _ _ _ hrs y hyp
  have := hnew p hp rs hrs _ hr
  dsimp only at this
  rw [List.getElem?_eq_getElem hy] at this
  rw [Option.some.inj this]
  exact hPr

theorem new_rows (w h : Nat) : (List.replicate h (List.replicate w (⟨0⟩ : F32))).flatten = List.replicate (w * h) ⟨0⟩ := by
  rw [List.flatten_replicate_replicate, Nat.mul_comm]

theorem new_row_zero (w h y : Nat) : ∀ c ∈ ((List.replicate h (List.replicate w (⟨0⟩ : F32)))[y]?.getD []), ∀ u, Is u 0 c := by
  intro c hc
  rw [List.getElem?_replicate] at hc
  split at hc
  · rw [Option.getD_some] at hc
    rw [List.eq_of_mem_replicate hc]
    exact is_zero
  · simp at hc

/-- The end of an execution on all of a new image. -/
theorem par_greys (w h e : Nat) (new : List (List F32)) (init : List F32) (hi : init = (Image.new w h).fdata) {ts : List (Prog F32 τ)}
    (hend : AlwaysEndsWith ts init (gray new.flatten)) (hall : ∀ r ∈ new, ∀ c ∈ r, ∃ K, K ≤ 64 * 4 ^ e ∧ Is (143 - 2 * e) K c) :
    ∃ Ks C, Greys e Ks C ∧ AlwaysEndsWith ts (Image.new w h).fdata (gray C) := by
  obtain ⟨Ks, hK⟩ := greys_of e new.flatten (by
    intro c hc
    obtain ⟨r, hr, hcr⟩ := List.mem_flatten.1 hc
    exact hall r hr c hcr)
  exact ⟨Ks, new.flatten, hK, hi ▸ hend⟩

/-- C107: so does the parallel scalar program, in every execution (if no random number fails to be delivered). -/
theorem C107_parallel_scalar (M : Maker τ σ ρ) (S : Scene F32 σ n) (h8 : S.nao = 8) (w h e : Nat) (hw0 : 0 < w) (he : e ≤ 9) (work : List (List Nat × τ)) (hw : EachRowOnce h work) :
    let F := f32 ma sqrt sqrte sin cos pi scp
    let z : Size := ⟨w, h, 2 ^ e⟩
    let row := fun y (r : List F32) s => render (fun k c s => do
      let (sum, s) ← addUp (fun j s => shadeScalar F S (sampleOf z (dirScalar F z) k j) s) (z.ns * z.ns) c s
      return (sum / F.ofUsize (z.ns * z.ns), s)) (z.w * y) r s
    (∀ p ∈ work, ∃ rs, rowsOf M row (List.replicate h (List.replicate w ⟨0⟩)) p.1 p.2 = .ok rs) →
    ∃ ts Ks C, parScalar F M S z (Image.new w h).fdata.length work = .ok ts ∧ Greys e Ks C ∧ AlwaysEndsWith ts (Image.new w h).fdata (gray C) := by
  intro F z row hok
  have hn : gray (List.replicate h (List.replicate w (⟨0⟩ : F32))).flatten = (Image.new w h).fdata := by rw [new_rows, new_gray]
  obtain ⟨ts, new, h1, h2, h3, h4⟩ := C106_scalar F M S z hw0 (List.replicate h (List.replicate w ⟨0⟩)) (by simp [z])
    (fun r hr => by rw [List.eq_of_mem_replicate hr]; simp [z]) work hw hok
  obtain ⟨Ks, C, g1, g2⟩ := par_greys w h e new _ hn h2 (rows_all M row _ new h h3 (fun r => ∀ c ∈ r, ∃ K, K ≤ 64 * 4 ^ e ∧ Is (143 - 2 * e) K c) (fun y s q hq =>
    render_all _ (fun c => ∀ u, Is u 0 c) _ (fun k c s q hc hq => pixelScalar_is ma sqrt sqrte sin cos pi scp S h8 w h e he k c hc s q hq) _ (new_row_zero w h y) _ _ _ hq)
    work hw hok h4)
  rw [hn] at h1
  exact ⟨ts, Ks, C, h1, g1, g2⟩

/-- C107: so does the parallel vectorized program. -/
theorem C107_parallel_vector [LaneCount n] (hn8 : n ∣ 8) (t : Target) (dbg : Bool) (M : Maker τ σ ρ) (S : Scene F32 σ n) (h8 : S.nao = 8) (w h e : Nat) (hw0 : 0 < w) (he : e ≤ 9)
    (work : List (List Nat × τ)) (hw : EachRowOnce h work) :
    let F := f32 ma sqrt sqrte sin cos pi scp
    let z : Size := ⟨w, h, 2 ^ e⟩
    let row := fun y (r : List F32) s => render (fun k c s =>
      addUp (fun j s => (shadeVector F t dbg S (sampleOf z (dirVectorPar F z) k j) s).map fun q => (q.1 * invNs F z * invNs F z, q.2)) (z.ns * z.ns) c s) (z.w * y) r s
    (∀ p ∈ work, ∃ rs, rowsOf M row (List.replicate h (List.replicate w ⟨0⟩)) p.1 p.2 = .ok rs) →
    ∃ ts Ks C, parVector F t dbg M S z (Image.new w h).fdata.length work = .ok ts ∧ Greys e Ks C ∧ AlwaysEndsWith ts (Image.new w h).fdata (gray C) := by
  intro F z row hok
  have hn : gray (List.replicate h (List.replicate w (⟨0⟩ : F32))).flatten = (Image.new w h).fdata := by rw [new_rows, new_gray]
  obtain ⟨ts, new, h1, h2, h3, h4⟩ := C106_vector F t dbg M S z hw0 (List.replicate h (List.replicate w ⟨0⟩)) (by simp [z])
    (fun r hr => by rw [List.eq_of_mem_replicate hr]; simp [z]) work hw hok
  obtain ⟨Ks, C, g1, g2⟩ := par_greys w h e new _ hn h2 (rows_all M row _ new h h3 (fun r => ∀ c ∈ r, ∃ K, K ≤ 64 * 4 ^ e ∧ Is (143 - 2 * e) K c) (fun y s q hq =>
    render_all _ (fun c => ∀ u, Is u 0 c) _ (fun k c s q hc hq => pixelVector_is ma sqrt sqrte sin cos pi scp hn8 t dbg S h8 w h e he _ c hc s q hq) _ (new_row_zero w h y) _ _ _ hq)
    work hw hok h4)
  rw [hn] at h1
  exact ⟨ts, Ks, C, h1, g1, g2⟩

/-- C107: so does the parallel tiled program. -/
theorem C107_parallel_tiled (hn0 : 0 < n) (dbg : Bool) (M : Maker τ σ ρ) (S : Scene F32 σ n) (h8 : S.nao = 8) (p h e : Nat) (hp : 0 < p) (he : e ≤ 9)
    (work : List (List Nat × τ)) (hw : EachRowOnce h work) :
    let F := f32 ma sqrt sqrte sin cos pi scp
    let z : Size := ⟨n * p, h, 2 ^ e⟩
    let row := fun y (r : List (Vec F32 n)) s => render (fun k c s =>
      changes (fun j => tiledSample F dbg S z (packetOf n z (dirTiled F n z) k j)) (z.ns * z.ns) c s) (p * y) r s
    (∀ q ∈ work, ∃ rs, rowsOf M row (List.replicate h (List.replicate p (splat n ⟨0⟩))) q.1 q.2 = .ok rs) →
    ∃ ts Ks C, parTiled F dbg M S z (Image.new (n * p) h).fdata.length work = .ok ts ∧ Greys e Ks C ∧ AlwaysEndsWith ts (Image.new (n * p) h).fdata (gray C) := by
  intro F z row hok
  have hn : gray (lanesOf (List.replicate h (List.replicate p (splat n (⟨0⟩ : F32)))).flatten) = (Image.new (n * p) h).fdata := by
    rw [List.flatten_replicate_replicate, lanesOf_replicate, new_gray]
    congr 2
    ring
  obtain ⟨ts, new, h1, h2, h3, h4⟩ := C106_tiled F hn0 dbg M S z p rfl hp (List.replicate h (List.replicate p (splat n ⟨0⟩))) (by simp [z])
    (fun r hr => by rw [List.eq_of_mem_replicate hr]; simp) work hw hok
  have hall := rows_all M row _ new h h3 (fun r => ∀ c ∈ r, ∀ i (hi : i < n), ∃ K, K ≤ 64 * (2 ^ e * 2 ^ e) ∧ Is (143 - 2 * e) K c[i]) (fun y s q hq =>
    render_all _ (fun c => ∀ i (hi : i < n), ∀ u, Is u 0 c[i]) _ (fun k c s q hc hq => packetTiled_is ma sqrt sqrte sin cos pi scp dbg S h8 (n * p) h e he _ c hc s q _ (bound e he) hq)
      _ (by
        intro c hc
        rw [List.getElem?_replicate] at hc
        split at hc
        · rw [Option.getD_some] at hc
          rw [List.eq_of_mem_replicate hc]
          intro i hi
          rw [splat_get]
          exact is_zero
        · simp at hc) _ _ _ hq) work hw hok h4
  obtain ⟨Ks, hK⟩ := greys_of e (lanesOf new.flatten) (by
    intro c hc
    obtain ⟨v, hv, hcv⟩ := List.mem_flatMap.1 hc
    obtain ⟨r, hr, hvr⟩ := List.mem_flatten.1 hv
    obtain ⟨i, hi, rfl⟩ := List.getElem_of_mem hcv
    obtain ⟨K, hK, h⟩ := hall r hr v hvr i (by simpa using hi)
    exact ⟨K, by rw [← four_pow]; exact hK, by rw [Vector.getElem_toList]; exact h⟩)
  rw [hn] at h1 h2
  exact ⟨ts, Ks, lanesOf new.flatten, h1, hK, h2⟩

end

/-! ### C108 -/

section

theorem scale_value : valueOf 23 (Flt.roundInt 32 23 false (511 * 2 ^ 149) 2) = .num (511 * 2 ^ 148) := by decide +kernel

theorem clamp_product (x : F32) (y : Int) (h : valueOf 23 x.bits = .num y) :
    let p := (x * ⟨Flt.roundInt 32 23 false (511 * 2 ^ 149) 2⟩ : F32).bits
    IsNearestEven 32 23 (y * (511 * 2 ^ 148)).natAbs (2 ^ 149) (magBits p) ∧ (y ≠ 0 → isNeg p = decide (y < 0)) := by
  intro p
  have hr := mul_rounds format32 x.bits (Flt.roundInt 32 23 false (511 * 2 ^ 149) 2)
  unfold exactMul at hr
  rw [h, scale_value] at hr
  obtain ⟨-, h1, h2⟩ := hr
  refine ⟨h1, fun h0 => ?_⟩
  rw [show p = Flt.mul 23 x.bits (Flt.roundInt 32 23 false (511 * 2 ^ 149) 2) from rfl, h2 (by omega)]
  congr 1
  apply propext
  constructor <;> intro h <;> omega

/-- C108: the byte made of a component is 0 for NaN and for values up to 0, 255 for values from 1 on, never decreases when the component increases, and is
`K - 1` for `K / 256` (0 for `K = 0`). -/
theorem C108_clamp :
    (∀ x : F32, valueOf 23 x.bits = .nan → (clamp x).toNat = 0) ∧
    (∀ x : F32, (valueOf 23 x.bits = .inf true ∨ ∃ y : Int, valueOf 23 x.bits = .num y ∧ y ≤ 0) → (clamp x).toNat = 0) ∧
    (∀ x : F32, (valueOf 23 x.bits = .inf false ∨ ∃ y : Int, valueOf 23 x.bits = .num y ∧ 2 ^ 149 ≤ y) → (clamp x).toNat = 255) ∧
    (∀ (x x' : F32) (y y' : Int), valueOf 23 x.bits = .num y → valueOf 23 x'.bits = .num y' → y ≤ y' → (clamp x).toNat ≤ (clamp x').toNat) ∧
    (∀ (x : F32) (K : Nat), K ≤ 256 → valueOf 23 x.bits = .num (K * 2 ^ 141) → (clamp x).toNat = K - 1) := by
  have hmono : ∀ (x x' : F32) (y y' : Int), valueOf 23 x.bits = .num y → valueOf 23 x'.bits = .num y' → y ≤ y' → (clamp x).toNat ≤ (clamp x').toNat := by
    intro x x' y y' h h' hy
    have hc := clamp_eq x
    have hc' := clamp_eq x'
    obtain ⟨n1, s1⟩ := clamp_product x y h
    obtain ⟨n2, s2⟩ := clamp_product x' y' h'
    dsimp only at hc hc' n1 n2 s1 s2
    rw [hc]
    rcases lt_trichotomy y 0 with hneg | h0 | hpos
    · rw [if_pos (Or.inr (by rw [s1 (by omega)]; simpa using hneg))]
      exact Nat.zero_le _
    · rw [h0, zero_mul] at n1
      have := nearest_unique (by decide) n1 (nearest_zero format32 _)
      rw [this, show min 255 (magUnits 23 0 / 2 ^ 149) = 0 by decide, ite_self]
      exact Nat.zero_le _
    · rw [hc', if_neg (by
        rintro (h | h)
        · have := n1.1; omega
        · rw [s1 (by omega)] at h; simp at h; omega), if_neg (by
        rintro (h | h)
        · have := n2.1; omega
        · rw [s2 (by omega)] at h; simp at h; omega)]
      have hm := nearest_mono (by decide) n1 n2 (by
        have : y * (511 * 2 ^ 148) ≤ y' * (511 * 2 ^ 148) := by omega
        omega)
      have := magUnits_le (man := 23) hm
      have := Nat.div_le_div_right (c := 2 ^ 149) this
      omega
  have hK : ∀ (x : F32) (K : Nat), K ≤ 256 → valueOf 23 x.bits = .num (K * 2 ^ 141) → (clamp x).toNat = K - 1 := by
    intro x K hK h
    have hv : valueOf 23 (x * ⟨Flt.roundInt 32 23 false (511 * 2 ^ 149) 2⟩ : F32).bits = .num (((511 * K : Nat) : Int) * 2 ^ 140) := by
      refine mul_exact format32 h scale_value ?_ (rep32 (511 * K) 140 (by omega) (by omega))
      show (K : Int) * 2 ^ 141 * (511 * 2 ^ 148) = ((511 * K : Nat) : Int) * 2 ^ 140 * 2 ^ 149
      push_cast
      ring
    have hc := clamp_eq x
    dsimp only at hc
    obtain ⟨n1, s1⟩ := clamp_product x _ h
    rcases Nat.eq_zero_or_pos K with h0 | hpos
    · subst h0
      rw [Nat.cast_zero, zero_mul, zero_mul] at n1
      rw [hc, nearest_unique (by decide) n1 (nearest_zero format32 _), show min 255 (magUnits 23 0 / 2 ^ 149) = 0 by decide, ite_self]
    · have hs := s1 (by omega)
      generalize (x * ⟨Flt.roundInt 32 23 false (511 * 2 ^ 149) 2⟩ : F32).bits = p at *
      have hs : isNeg p = false := by rw [hs, decide_eq_false (by omega)]
      rw [hc, if_neg (by
        rintro (h | h)
        · have := n1.1; omega
        · rw [hs] at h; cases h)]
      rcases lane_cases (man := 23) p with ⟨-, -, -, a2⟩ | ⟨-, -, -, a2⟩ | ⟨-, -, -, a2⟩
      · rw [hv] at a2; cases a2
      · rw [hv] at a2; cases a2
      · rw [hv] at a2
        have a2 := FVal.num.inj a2
        unfold Flt.units at a2
        rw [if_neg (by rw [hs]; decide)] at a2
        have : magUnits 23 (magBits p) = 511 * K * 2 ^ 140 := by exact_mod_cast a2.symm
        rw [this]
        omega
  have inf_p : ∀ (b : Bool) (x : F32), valueOf 23 x.bits = .inf b → valueOf 23 (x * ⟨Flt.roundInt 32 23 false (511 * 2 ^ 149) 2⟩ : F32).bits = .inf b := by
    intro b x h
    have hr := mul_rounds format32 x.bits (Flt.roundInt 32 23 false (511 * 2 ^ 149) 2)
    unfold exactMul at hr
    rw [h, scale_value] at hr
    dsimp only at hr
    rw [if_neg (by decide)] at hr
    have hr : valueOf 23 _ = .inf (b != decide ((511 * 2 ^ 148 : Int) < 0)) := hr
    rw [show (b != decide ((511 * 2 ^ 148 : Int) < 0)) = b by cases b <;> decide] at hr
    exact hr
  have one : valueOf 23 (whole 1).bits = .num (((256 : Nat) : Int) * 2 ^ 141) := by decide +kernel
  have zero : valueOf 23 (whole 0).bits = .num (((0 : Nat) : Int) * 2 ^ 141) := by decide +kernel
  refine ⟨?_, ?_, ?_, hmono, hK⟩
  · intro x h
    have hr := mul_rounds format32 x.bits (Flt.roundInt 32 23 false (511 * 2 ^ 149) 2)
    unfold exactMul at hr
    rw [h] at hr
    have hr : valueOf 23 (x * ⟨Flt.roundInt 32 23 false (511 * 2 ^ 149) 2⟩ : F32).bits = .nan := hr
    have hc := clamp_eq x
    dsimp only at hc
    rw [hc]
    rcases lane_cases (man := 23) (x * ⟨Flt.roundInt 32 23 false (511 * 2 ^ 149) 2⟩ : F32).bits with ⟨-, -, a4, -⟩ | ⟨-, -, -, a2⟩ | ⟨-, -, -, a2⟩
    · rw [if_pos (Or.inl a4)]
    · rw [hr] at a2; cases a2
    · rw [hr] at a2; cases a2
  · rintro x (h | ⟨y, h, hy⟩)
    · have hr := inf_p true x h
      have hc := clamp_eq x
      dsimp only at hc
      rw [hc]
      rcases lane_cases (man := 23) (x * ⟨Flt.roundInt 32 23 false (511 * 2 ^ 149) 2⟩ : F32).bits with ⟨-, -, -, a2⟩ | ⟨-, -, -, a2⟩ | ⟨-, -, -, a2⟩
      · rw [hr] at a2; cases a2
      · rw [hr] at a2
        rw [if_pos (Or.inr (FVal.inf.inj a2).symm)]
      · rw [hr] at a2; cases a2
    · have h1 := hmono x (whole 0) y _ h zero (by omega)
      rw [hK (whole 0) 0 (by omega) zero] at h1
      omega
  · have le255 : ∀ x : F32, (clamp x).toNat ≤ 255 := fun x => by have := (clamp x).isLt; omega
    rintro x (h | ⟨y, h, hy⟩)
    · have hr := inf_p false x h
      have hc := clamp_eq x
      dsimp only at hc
      rw [hc]
      rcases lane_cases (man := 23) (x * ⟨Flt.roundInt 32 23 false (511 * 2 ^ 149) 2⟩ : F32).bits with ⟨-, -, -, a2⟩ | ⟨-, -, a4, a2⟩ | ⟨-, -, -, a2⟩
      · rw [hr] at a2; cases a2
      · rw [hr] at a2
        have a2 := FVal.inf.inj a2
        rw [if_neg (by
          rintro (h | h)
          · omega
          · rw [← a2] at h; cases h), a4]
        decide
      · rw [hr] at a2; cases a2
    · have h1 := hmono (whole 1) x _ y one h (by push_cast; omega)
      rw [hK (whole 1) 256 (by omega) one] at h1
      have := le255 x
      omega

/-- C108: `write_png(…, false)` on an image with as many bytes as components makes of each component the byte at the same place. -/
theorem C108_aos (I : Image) (h : I.data.length = I.fdata.length) : I.toBytes false = .ok (I.fdata.map clamp) := by
  unfold Image.toBytes
  rw [if_neg (by decide), ← h, List.drop_length, List.append_nil]
  congr 1
  apply List.ext_getElem
  · simp [h]
  · intro i h1 h2
    simp

theorem lset_ok (l : List (BitVec 8)) (j : Nat) (x : BitVec 8) (h : j < l.length) : Image.toBytes.lset l j x = .ok (l.set j x) := if_pos h

/-- C108: `write_png(…, true)`: component `c` of pixel `i` is read from place `c * len + i` and its byte put at place `3 * i + c`, if there are exactly three
components for each pixel; otherwise it panics. -/
theorem C108_soa (I : Image) (h : I.data.length = 3 * (I.width * I.height)) :
    (I.fdata.length ≠ 3 * (I.width * I.height) → I.toBytes true = .error .panic) ∧
    (I.fdata.length = 3 * (I.width * I.height) → ∃ out, I.toBytes true = .ok out ∧ out.length = 3 * (I.width * I.height) ∧
      ∀ i c, i < I.width * I.height → c < 3 → ∃ x, I.fdata[c * (I.width * I.height) + i]? = some x ∧ out[3 * i + c]? = some (clamp x)) := by
  unfold Image.toBytes
  rw [if_pos rfl]
  generalize hlen : I.width * I.height = len at *
  dsimp only
  constructor
  · intro hne
    split
    · rfl
    · next h1 =>
      rw [List.length_drop]
      split
      · rfl
      · next h2 =>
        rw [if_neg]
        rintro ⟨-, -, h3⟩
        rw [List.length_drop, List.length_drop] at h3
        omega
  · intro he
    rw [if_neg (by omega), if_neg (by rw [List.length_drop]; omega), if_pos (by
      refine ⟨?_, ?_, ?_⟩ <;> simp only [List.length_take, List.length_drop] <;> omega)]
    obtain ⟨out, ho, hl, hP⟩ := forRange_inv (fun k (d : List (BitVec 8)) => d.length = 3 * len ∧ ∀ i c, i < k → c < 3 →
        ∃ x, I.fdata[c * len + i]? = some x ∧ d[3 * i + c]? = some (clamp x)) (fun data i => do
        let x ← lget (I.fdata.take len) i
        let data ← Image.toBytes.lset data (3 * i + 0) (clamp x)
        let x ← lget ((I.fdata.drop len).take len) i
        let data ← Image.toBytes.lset data (3 * i + 1) (clamp x)
        let x ← lget ((I.fdata.drop len).drop len) i
        Image.toBytes.lset data (3 * i + 2) (clamp x)) (lo := 0) (hi := len) (init := I.data) (Nat.zero_le _) ⟨h, by omega⟩ (by
      rintro i d - hi ⟨hl, hd⟩
      rw [lget_lt _ (by rw [List.length_take]; omega), R_ok_bind, lset_ok _ _ _ (by omega), R_ok_bind,
        lget_lt _ (by rw [List.length_take, List.length_drop]; omega), R_ok_bind, lset_ok _ _ _ (by rw [List.length_set]; omega), R_ok_bind,
        lget_lt _ (by rw [List.length_drop, List.length_drop]; omega), R_ok_bind, lset_ok _ _ _ (by rw [List.length_set, List.length_set]; omega)]
      refine ⟨_, rfl, by simp [hl], ?_⟩
      intro j c hj hc
      rcases Nat.lt_or_eq_of_le (Nat.lt_succ_iff.1 hj) with hj | rfl
      · obtain ⟨x, h1, h2⟩ := hd j c hj hc
        refine ⟨x, h1, ?_⟩
        rw [List.getElem?_set_ne (by omega), List.getElem?_set_ne (by omega), List.getElem?_set_ne (by omega)]
        exact h2
      · have hc3 : c = 0 ∨ c = 1 ∨ c = 2 := by omega
        rcases hc3 with rfl | rfl | rfl
        · refine ⟨I.fdata[j], by rw [Nat.zero_mul, Nat.zero_add]; exact List.getElem?_eq_getElem _, ?_⟩
          rw [List.getElem?_set_ne (by omega), List.getElem?_set_ne (by omega), List.getElem?_set_self (by omega), List.getElem_take]
        · refine ⟨I.fdata[len + j], by rw [Nat.one_mul]; exact List.getElem?_eq_getElem _, ?_⟩
          rw [List.getElem?_set_ne (by omega), List.getElem?_set_self (by rw [List.length_set]; omega), List.getElem_take, List.getElem_drop]
        · refine ⟨I.fdata[2 * len + j], List.getElem?_eq_getElem _, ?_⟩
          rw [List.getElem?_set_self (by rw [List.length_set, List.length_set]; omega)]
          simp only [List.getElem_drop]
          congr 3
          omega)
    exact ⟨out, ho, hl, hP⟩

/-- C108: the whole of `main.rs` (2 × 2 samples per pixel, 8 × 8 occlusion samples): a pixel with grey value `K / 256` gets three bytes `K - 1` (0 for `K = 0`); the
brightest byte is 255. -/
theorem C108_picture (w h : Nat) (Ks : List Nat) (C : List F32) (hl : Ks.length = w * h) (hK : Greys 1 Ks C) :
    ∃ bytes, Image.toBytes { Image.new w h with fdata := gray C } false = .ok bytes ∧ bytes.map BitVec.toNat = gray (Ks.map fun K => K - 1) := by
  have hlen := hK.length
  refine ⟨_, C108_aos _ (by rw [gray_length, ← hlen, hl]; simp [Image.new]; ring), ?_⟩
  obtain ⟨h1, h2⟩ := hK
  dsimp only
  apply List.ext_getElem?
  intro j
  rw [List.getElem?_map, List.getElem?_map, gray_get?, gray_get?, List.getElem?_map]
  have h2 := congrArg (fun l => l[j / 3]?) h2
  rw [List.getElem?_map, List.getElem?_map] at h2
  by_cases hj : j / 3 < C.length
  · rw [List.getElem?_eq_getElem hj, List.getElem?_eq_getElem (by omega)] at h2 ⊢
    simp only [Option.map_some, Option.some.injEq] at h2 ⊢
    exact C108_clamp.2.2.2.2 _ _ (h1 _ (List.getElem_mem _)) h2
  · rw [List.getElem?_eq_none (by omega), List.getElem?_eq_none (by omega)]
    rfl

-- the hypotheses of C107 are met by the test scene (C101), those of C108, for example, by a picture with values 1, 1/2, 1/256 and 0
example : Greys 1 [256, 128, 1, 0] [⟨0x3f800000⟩, ⟨0x3f000000⟩, ⟨0x3b800000⟩, ⟨0⟩] := by
  refine ⟨by decide, ?_⟩
  decide +kernel

example : (clamp ⟨0x3f800000⟩).toNat = 255 ∧ (clamp ⟨0x3f000000⟩).toNat = 127 ∧ (clamp ⟨0xbf800000⟩).toNat = 0 ∧ (clamp ⟨0x7fc00000⟩).toNat = 0 := by decide +kernel

end

end PackedSimd.Props
