import Verif.Props.AoShade
/-
examples/aobench/src/ambient_occlusion.rs in `f32` arithmetic, C140: the rays that the vectorized and the tiled algorithms count.
-/
namespace PackedSimd.Props
open Ex Ex.Ao Spec Spec.Ao F32R Mandel V3N

section
variable {n : Nat} {σ : Type}

/-- A packet of samples, whatever its directions are. -/
def samplePacket (F : Fns F32) (dbg : Bool) (S : Scene F32 σ n) (o : V3N F32 n) (dirs : Vec F32 n → Vec F32 n → V3N F32 n) (st : Vec F32 n × σ) : R (Vec F32 n × σ) :=
  S.randN st.2 >>= fun p => castN F dbg S.plane S.spheres ⟨o, dirs p.1 p.2.1⟩ >>= fun isect =>
    .ok (st.1 + sel isect.hit (splat n (F.lit 1)) (splat n (F.lit 0)), p.2.2)

/-- What is counted in every lane. -/
theorem packet_count {F : Fns F32} (l0 : F.lit 0 = whole 0) (l1 : F.lit 1 = whole 1) (dbg : Bool) (S : Scene F32 σ n) (o : V3N F32 n)
    (dirs : Vec F32 n → Vec F32 n → V3N F32 n) : ∀ (k : Nat) (c : Fin n → Nat) (v v' : Vec F32 n) (s s' : σ), (∀ i, k + c i ≤ 64) → (∀ i : Fin n, v[i] = whole (c i)) →
    iter (samplePacket F dbg S o dirs) k (v, s) = .ok (v', s') →
    ∃ rs : List ((Vec F32 n × Vec F32 n) × IsectN F32 n), drawsN S.randN k s = .ok (rs.map Prod.fst, s') ∧ rs.length = k ∧
      (∀ q ∈ rs, castN F dbg S.plane S.spheres ⟨o, dirs q.1.1 q.1.2⟩ = .ok q.2) ∧
      ∀ i : Fin n, v'[i] = whole (c i + rs.countP fun q => q.2.hit[i]) := by
  intro k
  induction k with
  | zero =>
    intro c v v' s s' _ hv h
    cases h
    exact ⟨[], rfl, rfl, fun q hq => absurd hq List.not_mem_nil, fun i => by simpa using hv i⟩
  | succ k ih =>
    intro c v v' s s' hk hv h
    unfold iter at h
    rw [show samplePacket F dbg S o dirs (v, s) = (S.randN s >>= fun p => castN F dbg S.plane S.spheres ⟨o, dirs p.1 p.2.1⟩ >>= fun isect =>
      .ok (v + sel isect.hit (splat n (F.lit 1)) (splat n (F.lit 0)), p.2.2)) from rfl] at h
    cases h1 : S.randN s with
    | error e => rw [h1] at h; cases h
    | ok p =>
      obtain ⟨a, b, s1⟩ := p
      rw [h1, R_ok_bind] at h
      dsimp only at h
      cases h2 : castN F dbg S.plane S.spheres ⟨o, dirs a b⟩ with
      | error e => rw [h2] at h; cases h
      | ok r =>
        rw [h2, R_ok_bind, R_ok_bind] at h
        have hc : ∀ i : Fin n, (v + sel r.hit (splat n (F.lit 1)) (splat n (F.lit 0)))[i] = whole (c i + if r.hit[i] then 1 else 0) := by
          intro i
          have e := hv i
          have := hk i
          show (v + sel r.hit (splat n (F.lit 1)) (splat n (F.lit 0)))[i.val] = whole (c i + if r.hit[i.val] then 1 else 0)
          rw [vadd_get, sel_get, splat_get, splat_get, show v[i.val] = whole (c i) from e, l0, l1]
          cases r.hit[i.val]
          · exact whole_add _ (by omega) 0 (by omega)
          · exact whole_add _ (by omega) 1 (by omega)
        obtain ⟨rs, e1, e2, e3, e4⟩ := ih _ _ _ _ _ (fun i => by have := hk i; split <;> omega) hc h
        refine ⟨((a, b), r) :: rs, ?_, by rw [List.length_cons, e2], ?_, fun i => ?_⟩
        · unfold drawsN
          rw [h1, R_ok_bind]
          dsimp only
          rw [e1]
          rfl
        · intro q hq
          rcases List.mem_cons.1 hq with rfl | hq
          · exact h2
          · exact e3 q hq
        · rw [e4 i, List.countP_cons, Nat.add_assoc]
          congr 2
          exact Nat.add_comm _ _

theorem drawsN_all {rand : σ → R (Vec F32 n × Vec F32 n × σ)} {P : σ → Prop} {Q : Vec F32 n × Vec F32 n → Prop}
    (h : ∀ s a b s', P s → rand s = .ok (a, b, s') → Q (a, b) ∧ P s') :
    ∀ (k : Nat) (s : σ) (l : List (Vec F32 n × Vec F32 n)) (s' : σ), P s → drawsN rand k s = .ok (l, s') → ∀ x ∈ l, Q x := by
  intro k
  induction k with
  | zero => intro s l s' _ e x hx; cases e; cases hx
  | succ k ih =>
    intro s l s' hs e x hx
    unfold drawsN at e
    cases e1 : rand s with
    | error z => rw [e1] at e; cases e
    | ok p =>
      obtain ⟨y, y', s1⟩ := p
      rw [e1, R_ok_bind] at e
      dsimp only at e
      cases e2 : drawsN rand k s1 with
      | error z => rw [e2] at e; cases e
      | ok q =>
        obtain ⟨l1, s2⟩ := q
        rw [e2] at e
        cases e
        obtain ⟨h1, h2⟩ := h s y y' s1 hs e1
        rcases List.mem_cons.1 hx with rfl | hx
        · exact h1
        · exact ih s1 l1 _ h2 e2 x hx

/-- Counting by lane or by packet. -/
theorem count_swap {ι κ : Type} (g : ι → κ → Bool) (L : List ι) (rs : List κ) :
    (L.map fun i => rs.countP (g i)).sum = (rs.map fun q => L.countP fun i => g i q).sum := by
  induction L with
  | nil => simp
  | cons a L ih =>
    rw [List.map_cons, List.sum_cons, ih]
    clear ih
    induction rs with
    | nil => simp
    | cons q rs ih =>
      simp only [List.map_cons, List.sum_cons, List.countP_cons] at ih ⊢
      rw [← ih]
      omega

/-- Sums over the lanes of a vector. -/
theorem lanes_sum {α : Type} {m : Nat} {v : Vec α m} (f : Nat → α) (g : α → Nat) {c : Fin m → Nat} (hc : ∀ i : Fin m, v[i.val] = f (c i)) (hg : ∀ i, g (f (c i)) = c i) :
    (∀ x ∈ v.toList, x = f (g x)) ∧ (v.toList.map g).sum = ((List.finRange m).map c).sum := by
  have hv : v.toList = (List.finRange m).map fun i => f (c i) := by
    apply List.ext_getElem
    · simp
    · intro i g1 g2
      rw [Vector.getElem_toList, List.getElem_map, List.getElem_finRange]
      exact hc ⟨i, by simpa using g1⟩
  constructor
  · intro x hx
    rw [hv] at hx
    obtain ⟨i, -, rfl⟩ := List.mem_map.1 hx
    rw [hg i]
  · rw [hv, List.map_map]
    exact congrArg List.sum (List.map_congr_left fun i _ => hg i)

/-- Counting hits by lane or by ray. -/
theorem lanes_count {κ ρ : Type} {m : Nat} (rs : List κ) (g : Fin m → κ → Bool) (ray : κ → Fin m → ρ) (hit : ρ → Bool) (h : ∀ q i, hit (ray q i) = g i q) :
    ((List.finRange m).map fun i => rs.countP (g i)).sum = (rs.flatMap fun q => (List.finRange m).map (ray q)).countP hit := by
  rw [count_swap, List.countP_flatMap]
  refine congrArg List.sum (List.map_congr_left fun q _ => ?_)
  show _ = List.countP hit ((List.finRange m).map (ray q))
  rw [List.countP_map]
  exact List.countP_congr fun i _ => by rw [← h q i]; rfl

theorem lanes_whole {m : Nat} {v : Vec F32 m} {c : Fin m → Nat} (hc : ∀ i : Fin m, v[i.val] = whole (c i)) (hb : ∀ i, c i < 65) :
    (∀ x ∈ v.toList, x = whole (unwhole x)) ∧ (v.toList.map unwhole).sum = ((List.finRange m).map c).sum := by
  have hg : ∀ i, unwhole (whole (c i)) = c i := by
    intro i
    have h := hb i
    generalize c i = k at h ⊢
    exact unwhole_whole k h
  exact lanes_sum whole unwhole hc hg

end

/-- From the number of hits to the share of misses. -/
theorem share_of {rays : List (Ray F32 × Isect F32)} {a : F32} (hl : rays.length = 64) {k : Nat} (hk : k = rays.countP fun r => r.2.hit)
    (hv : valueOf 23 a.bits = .num ((64 - (k : Int)) * 2 ^ 143)) : IsFinite 23 a.bits ∧ realVal 23 a.bits = (rays.countP fun r => !r.2.hit : ℕ) / 64 := by
  refine ⟨⟨_, hv⟩, ?_⟩
  have hs := List.length_eq_countP_add_countP (l := rays) (fun r => r.2.hit)
  have e : (rays.countP fun r => !r.2.hit) = 64 - k := by
    have : (rays.countP fun r => !r.2.hit) = rays.countP fun r => decide ¬r.2.hit = true := List.countP_congr fun p _ => by simp
    omega
  rw [realVal_num hv, show low 32 23 = 149 by decide, e, Nat.cast_sub (by omega)]
  push_cast
  rw [div_eq_div_iff (by norm_num) (by norm_num)]
  ring

variable {n : Nat} {σ : Type} (ma : F32 → F32 → F32 → F32) (sqrt sqrte sin cos : F32 → F32) (pi : F32) (scp : F32 → F32 × F32)

local notation "F" => f32 ma sqrt sqrte sin cos pi scp

/-- C140: every lane of the tiled ambient occlusion, for a scene of moderate numbers whose random numbers are in range. -/
theorem C140_tiled (hs : RootOk sqrt) (he : RootOk sqrte) (hm : MulAddOk ma) {S : Scene F32 σ n} (h8 : S.nao = 8) {P : σ → Prop}
    (hP : ∀ s a b s', P s → S.randN s = .ok (a, b, s') → (∀ i (_ : i < n), InUnit a[i] ∧ InUnit b[i]) ∧ P s')
    (h1 : Moderate S.plane.p) (h2 : Moderate S.plane.n) (h3 : ∀ s ∈ S.spheres, ModerateSphere s)
    {ε : ℝ} (hε : ε ≤ 1 / 100) (ht : ∀ r, InUnit r → TrigOk ε (scp ((F).lit 2 * r)).1 (scp ((F).lit 2 * r)).2) {dbg : Bool} {s s' : σ} (h0 : P s)
    {isect : IsectN F32 n} {a : Vec F32 n} (h : aoTiled F dbg S s isect = .ok (a, s')) :
    ∃ l, drawsN S.randN 64 s = .ok (l, s') ∧ ∀ i (hi : i < n) {δ : ℝ}, δ + ε + 60 * ulp ≤ 1 / 1000 → δ ≤ 1 / 1000 → AlmostUnit δ (isect.lane i hi).n →
      FiniteV (isect.lane i hi).p → |(toReal (isect.lane i hi).p).x| ≤ 2 ^ 29 → |(toReal (isect.lane i hi).p).y| ≤ 2 ^ 29 → |(toReal (isect.lane i hi).p).z| ≤ 2 ^ 29 →
      Occlusion δ ε (l.map fun p => (p.1[i], p.2[i])) S.plane S.spheres (isect.lane i hi) a[i] := by
  obtain ⟨l0, l1⟩ := lit_zero_one ma sqrt sqrte sin cos pi scp
  unfold aoTiled at h
  dsimp only at h
  rw [nested_iter, h8] at h
  set o := V3.add isect.p (V3N.smul (splat n ((F).lit 0.0001)) isect.n) with ho
  have hf : aoSampleT F dbg S (V3N.orthoBasis F isect.n) o = samplePacket F dbg S o fun x y => V3N.mulMN F (V3N.orthoBasis F isect.n) (hemi F x y) := rfl
  rw [hf] at h
  cases hi : iter (samplePacket F dbg S o fun x y => V3N.mulMN F (V3N.orthoBasis F isect.n) (hemi F x y)) (8 * 8) (splat n ((F).lit 0), s) with
  | error e => rw [hi] at h; cases h
  | ok p =>
    obtain ⟨v, s1⟩ := p
    rw [hi] at h
    cases h
    obtain ⟨rs, e1, e2, e3, e4⟩ := packet_count l0 l1 dbg S o _ _ (fun _ => 0) _ _ _ _ (fun _ => by omega)
      (fun i => by show (splat n ((F).lit 0))[i.val] = _; rw [splat_get, l0]) hi
    have hu := drawsN_all (Q := fun p => ∀ i (_ : i < n), InUnit p.1[i] ∧ InUnit p.2[i]) hP _ _ _ _ h0 e1
    refine ⟨_, e1, fun i hi δ hδ hδ' hn hp bx by' bz => ?_⟩
    obtain ⟨mo, origin⟩ := origin_ok ma sqrt sqrte sin cos pi scp (s := isect.lane i hi) hδ' hn hp bx by' bz (o.lane i hi) (.inr (by
      rw [ho, add_lane, smul_lane, splat_get]; rfl))
    set ray : (Vec F32 n × Vec F32 n) × IsectN F32 n → Ray F32 × Isect F32 :=
      fun q => ((⟨o, V3N.mulMN F (V3N.orthoBasis F isect.n) (hemi F q.1.1 q.1.2)⟩ : Ray (Vec F32 n)).lane i hi, q.2.lane i hi) with hray
    have hl : (rs.map ray).length = 64 := by rw [List.length_map, e2]
    have hk : (rs.countP fun q => q.2.hit[i]) = (rs.map ray).countP fun r => r.2.hit := by rw [List.countP_map]; rfl
    have hb : (rs.countP fun q => q.2.hit[i]) < 65 := by have := List.countP_le_length (l := rs) (p := fun q => q.2.hit[i]); omega
    obtain ⟨f1, f2⟩ := share_of (a := (splat n ((F).lit 1) - v / splat n ((F).ofUsize (8 * 8)))[i]) hl hk (by
      have e := e4 ⟨i, hi⟩
      rw [Nat.zero_add] at e
      rw [vsub_get, vdiv_get, splat_get, splat_get, show v[i] = _ from e, l1, show (F).ofUsize (8 * 8) = whole 64 from rfl]
      exact whole_result _ hb)
    refine ⟨rs.map ray, hl, f1, f2, ?_⟩
    rw [List.forall₂_map_left_iff, List.forall₂_map_left_iff, List.forall₂_map_right_iff, List.forall₂_same]
    intro q hq
    obtain ⟨u1, u2⟩ := hu q.1 (List.mem_map_of_mem hq) i hi
    have sd := C118_direction_tiled ma sqrt sqrte sin cos pi scp hs he hm hδ' hε isect.n q.1.1 q.1.2 i hi hn u1.1 u1.2.1 u1.2.2 (ht _ u2)
    exact ⟨⟨origin, u1, sd⟩, (C137_packet ma sqrt sqrte sin cos pi scp hs hm _ h1 h2 h3).2 (e3 q hq) i hi hδ mo (moderate_of_unit hδ sd.1) sd.1.2⟩

/-- C140: the vectorized ambient occlusion, on every target; the 64 rays are the lanes of `64 / n` packets. -/
theorem C140_vector [LaneCount n] (hn8 : n ∣ 8) (t : Target) (hs : RootOk sqrt) (he : RootOk sqrte) (hm : MulAddOk ma) {S : Scene F32 σ n} (h8 : S.nao = 8) {P : σ → Prop}
    (hP : ∀ s a b s', P s → S.randN s = .ok (a, b, s') → (∀ i (_ : i < n), InUnit a[i] ∧ InUnit b[i]) ∧ P s')
    (h1 : Moderate S.plane.p) (h2 : Moderate S.plane.n) (h3 : ∀ s ∈ S.spheres, ModerateSphere s)
    {δ ε : ℝ} (hδ : δ + ε + 60 * ulp ≤ 1 / 1000) (hδ' : δ ≤ 1 / 1000) (hε : ε ≤ 1 / 100)
    (ht : ∀ r, InUnit r → TrigOk ε (scp ((F).lit 2 * r)).1 (scp ((F).lit 2 * r)).2) {dbg : Bool} {s s' : σ} (h0 : P s) {isect : Isect F32} (hn : AlmostUnit δ isect.n)
    (hp : FiniteV isect.p) (bx : |(toReal isect.p).x| ≤ 2 ^ 29) (by' : |(toReal isect.p).y| ≤ 2 ^ 29) (bz : |(toReal isect.p).z| ≤ 2 ^ 29) {a : F32}
    (h : aoVector F t dbg S s isect = .ok (a, s')) :
    ∃ l, drawsN S.randN (64 / n) s = .ok (l, s') ∧
      Occlusion δ ε (l.flatMap fun p => (List.finRange n).map fun i => (p.1[i], p.2[i])) S.plane S.spheres isect a := by
  obtain ⟨l0, l1⟩ := lit_zero_one ma sqrt sqrte sin cos pi scp
  unfold aoVector at h
  dsimp only at h
  rw [nested_iter, h8] at h
  have hm' : n * ((8 + n - 1) / n * 8) = 64 := by
    obtain ⟨q, hq⟩ := hn8
    have h0 := LaneCount.pos (n := n)
    rw [show 8 + n - 1 = n - 1 + n * q by omega, Nat.add_mul_div_left _ _ h0, Nat.div_eq_of_lt (by omega), Nat.zero_add, ← Nat.mul_assoc, ← hq]
  have hN : (8 + n - 1) / n * 8 = 64 / n := by rw [← hm', Nat.mul_div_cancel_left _ (LaneCount.pos (n := n))]
  rw [hN] at h hm'
  have hle : 64 / n ≤ 64 := Nat.div_le_self _ _
  set o := splat3 n (aoOrigin F isect) with ho
  have hf : aoSampleN F dbg S (V3.orthoBasis F isect.n) o = samplePacket F dbg S o fun x y => V3N.mulM F (V3.orthoBasis F isect.n) (hemi F x y) := rfl
  rw [hf] at h
  cases hi : iter (samplePacket F dbg S o fun x y => V3N.mulM F (V3.orthoBasis F isect.n) (hemi F x y)) (64 / n) (splat n ((F).lit 0), s) with
  | error e => rw [hi] at h; cases h
  | ok p =>
    obtain ⟨v, s1⟩ := p
    rw [hi, R_ok_bind] at h
    obtain ⟨w, e5, e6⟩ := vsum_vec t ⟨(F).lit 0, (· + ·), (· * ·)⟩ v
    dsimp only at h
    rw [e5] at h
    cases h
    dsimp only at e6
    rw [l0] at e6
    obtain ⟨rs, e1, e2, e3, e4⟩ := packet_count l0 l1 dbg S o _ _ (fun _ => 0) _ _ _ _ (fun _ => by omega)
      (fun i => by show (splat n ((F).lit 0))[i.val] = _; rw [splat_get, l0]) hi
    have hu := drawsN_all (Q := fun p => ∀ i (_ : i < n), InUnit p.1[i] ∧ InUnit p.2[i]) hP _ _ _ _ h0 e1
    refine ⟨_, e1, ?_⟩
    obtain ⟨mo, origin⟩ := origin_ok ma sqrt sqrte sin cos pi scp hδ' hn hp bx by' bz _ (.inl rfl)
    set ray : (Vec F32 n × Vec F32 n) × IsectN F32 n → Fin n → Ray F32 × Isect F32 :=
      fun q i => ((⟨o, V3N.mulM F (V3.orthoBasis F isect.n) (hemi F q.1.1 q.1.2)⟩ : Ray (Vec F32 n)).lane i.val i.isLt, q.2.lane i.val i.isLt) with hray
    have hc : ∀ i : Fin n, v[i.val] = whole (rs.countP fun q => q.2.hit[i.val]) := fun i => by
      have e := e4 i
      rw [Nat.zero_add] at e
      exact e
    have hb : ∀ i : Fin n, (rs.countP fun q => q.2.hit[i.val]) < 65 := fun i => by
      have := List.countP_le_length (l := rs) (p := fun q => q.2.hit[i.val]); omega
    obtain ⟨hv, hs0⟩ := lanes_whole hc hb
    have hsum := hs0.trans (lanes_count rs (fun i q => q.2.hit[i.val]) ray (fun r => r.2.hit) fun _ _ => rfl)
    have hl : (rs.flatMap fun q => (List.finRange n).map (ray q)).length = 64 := by
      rw [List.length_flatMap]
      simp only [List.length_map, List.length_finRange, List.map_const', List.sum_replicate, e2, smul_eq_mul]
      rw [Nat.mul_comm]; exact hm'
    have hk := List.countP_le_length (l := rs.flatMap fun q => (List.finRange n).map (ray q)) (p := fun r => r.2.hit)
    have hw := sum_whole e6 hv (by omega)
    obtain ⟨f1, f2⟩ := share_of (a := (F).lit 1 - w / (F).ofUsize (8 * 8)) hl rfl (by
      rw [hw, l1, show (F).ofUsize (8 * 8) = whole 64 from rfl, hsum]
      exact whole_result _ (by omega))
    refine ⟨_, hl, f1, f2, ?_⟩
    have step : ∀ q ∈ rs, List.Forall₂ (fun p r => LeavesSurface δ ε isect p.1 r.1 ∧ Nearest (δ + ε + 60 * ulp) r.1 S.plane S.spheres r.2)
        ((List.finRange n).map fun i => (q.1.1[i], q.1.2[i])) ((List.finRange n).map (ray q)) := by
      intro q hq
      rw [List.forall₂_map_left_iff, List.forall₂_map_right_iff, List.forall₂_same]
      intro i _
      obtain ⟨u1, u2⟩ := hu q.1 (List.mem_map_of_mem hq) i.val i.isLt
      have sd := C118_direction_packet ma sqrt sqrte sin cos pi scp hs he hm hδ' hε isect.n hn q.1.1 q.1.2 i.val i.isLt u1.1 u1.2.1 u1.2.2 (ht _ u2)
      have eo : o.lane i.val i.isLt = aoOrigin F isect := splat3_lane _ _ _
      refine ⟨⟨?_, u1, sd⟩, (C137_packet ma sqrt sqrte sin cos pi scp hs hm _ h1 h2 h3).2 (e3 q hq) i.val i.isLt hδ ?_ (moderate_of_unit hδ sd.1) sd.1.2⟩
      · show ∃ t : ℝ, _ ∧ PointAt _ t (o.lane i.val i.isLt)
        rw [eo]; exact origin
      · show Moderate (o.lane i.val i.isLt)
        rw [eo]; exact mo
    clear hl hk hw hsum hs0 f1 f2 hv hc hb e1 e2 e3 e4 hu hi e5 e6
    induction rs with
    | nil => exact .nil
    | cons q rs ih =>
      rw [List.map_cons, List.flatMap_cons, List.flatMap_cons]
      exact List.rel_append (step q (by simp)) (ih fun x hx => step x (by simp [hx]))

theorem random_inUnit (s : RandomState n) (a b : Vec F32 n) (s' : RandomState n) (hr : (randomScene F n).randN s = .ok (a, b, s')) :
    ∀ i (_ : i < n), InUnit a[i] ∧ InUnit b[i] := by
  obtain ⟨a1, b1, s1, e1, -, hy⟩ := C109_random_randN F s
  rw [hr] at e1
  cases e1
  intro i hi
  obtain ⟨-, -, -, y, z, hy, hz, y0, y1, z0, z1⟩ := hy i hi
  exact ⟨inUnit_of ⟨y, hy, y0, y1⟩, inUnit_of ⟨z, hz, z0, z1⟩⟩

/-- C140: the random scene of the program, without debug assertions. -/
theorem C140_random [LaneCount n] (hn8 : n ∣ 8) (t : Target) (hs : RootOk sqrt) (he : RootOk sqrte) (hm : MulAddOk ma) {ε : ℝ} (hε : ε ≤ 1 / 100)
    (ht : ∀ r, InUnit r → TrigOk ε (scp ((F).lit 2 * r)).1 (scp ((F).lit 2 * r)).2) (s : RandomState n) :
    (∀ {δ : ℝ} {isect : Isect F32}, δ + ε + 60 * ulp ≤ 1 / 1000 → δ ≤ 1 / 1000 → AlmostUnit δ isect.n → FiniteV isect.p → |(toReal isect.p).x| ≤ 2 ^ 29 →
      |(toReal isect.p).y| ≤ 2 ^ 29 → |(toReal isect.p).z| ≤ 2 ^ 29 → ∃ a s', aoVector F t false (randomScene F n) s isect = .ok (a, s') ∧
      ∃ l, drawsN (randomScene F n).randN (64 / n) s = .ok (l, s') ∧
        Occlusion δ ε (l.flatMap fun p => (List.finRange n).map fun i => (p.1[i], p.2[i])) (scenePlane F) (sceneSpheres F) isect a) ∧
    ∀ isect : IsectN F32 n, ∃ a s', aoTiled F false (randomScene F n) s isect = .ok (a, s') ∧ ∃ l, drawsN (randomScene F n).randN 64 s = .ok (l, s') ∧
      ∀ i (hi : i < n) {δ : ℝ}, δ + ε + 60 * ulp ≤ 1 / 1000 → δ ≤ 1 / 1000 → AlmostUnit δ (isect.lane i hi).n → FiniteV (isect.lane i hi).p →
        |(toReal (isect.lane i hi).p).x| ≤ 2 ^ 29 → |(toReal (isect.lane i hi).p).y| ≤ 2 ^ 29 → |(toReal (isect.lane i hi).p).z| ≤ 2 ^ 29 →
        Occlusion δ ε (l.map fun p => (p.1[i], p.2[i])) (scenePlane F) (sceneSpheres F) (isect.lane i hi) a[i] := by
  obtain ⟨h1, h2, h3⟩ := scene_moderate ma sqrt sqrte sin cos pi scp
  constructor
  · intro δ isect hδ hδ' hn hp bx by' bz
    obtain ⟨a, s', e, -⟩ : ∃ a s', aoVector F t false (randomScene F n) s isect = .ok (a, s') ∧ True := aoVector_total F (random_delivers (n := n) F) t s trivial isect
    exact ⟨a, s', e, C140_vector ma sqrt sqrte sin cos pi scp hn8 t hs he hm (S := randomScene F n) rfl (P := fun _ => True)
      (fun s a b s' _ hr => ⟨random_inUnit ma sqrt sqrte sin cos pi scp s a b s' hr, trivial⟩) h1 h2 h3 hδ hδ' hε ht trivial hn hp bx by' bz e⟩
  · intro isect
    obtain ⟨a, s', e, -⟩ : ∃ a s', aoTiled F false (randomScene F n) s isect = .ok (a, s') ∧ True := aoTiled_total F (random_delivers (n := n) F) s trivial isect
    exact ⟨a, s', e, C140_tiled ma sqrt sqrte sin cos pi scp hs he hm (S := randomScene F n) rfl (P := fun _ => True)
      (fun s a b s' _ hr => ⟨random_inUnit ma sqrt sqrte sin cos pi scp s a b s' hr, trivial⟩) h1 h2 h3 hε ht trivial e⟩

/-- The hypotheses hold for `aoF` with 4 lanes at the point (1, 0, 1) of a surface with normal (0, 0, 1). -/
example (t : Target) (s : RandomState 4) (h : Bool) : ∃ a s', aoVector aoF t false (randomScene aoF 4) s ⟨1, ⟨1, 0, 1⟩, ⟨0, 0, 1⟩, h⟩ = .ok (a, s') ∧
    ∃ l, drawsN (randomScene aoF 4).randN 16 s = .ok (l, s') ∧ Occlusion 0 0 (l.flatMap fun p => (List.finRange 4).map fun i => (p.1[i], p.2[i])) (scenePlane aoF)
      (sceneSpheres aoF) ⟨1, ⟨1, 0, 1⟩, ⟨0, 0, 1⟩, h⟩ a := by
  obtain ⟨z, z'⟩ := zero_ok
  obtain ⟨o, o'⟩ := one_ok
  have ez : realVal 23 (0 : F32).bits = 0 := z'
  have eo : realVal 23 (1 : F32).bits = 1 := o'
  have b0 : |realVal 23 (0 : F32).bits| ≤ 2 ^ 29 := by rw [ez]; norm_num
  have b1 : |realVal 23 (1 : F32).bits| ≤ 2 ^ 29 := by rw [eo]; norm_num
  refine (C140_random (fun a b c => a * b + c) (fun x => ⟨Flt.sqrt 23 x.bits⟩) (fun x => ⟨Flt.sqrt 23 x.bits⟩) (fun _ => 0) (fun _ => 1) ⟨0x40490fdb⟩ (fun _ => (0, 1))
    (by decide) t (fun x => sqrt_isSqrt fmt x.bits) (fun x => sqrt_isSqrt fmt x.bits) (fun a b c => .inr ⟨_, mul_rounds fmt a.bits b.bits, add_rounds fmt _ c.bits⟩)
    (ε := 0) (by norm_num) (fun r _ => ⟨z, o, ?_, ?_, ?_⟩) s).1 (δ := 0) (by unfold ulp; norm_num) (by norm_num) ⟨⟨z, z, o⟩, ?_⟩ ⟨o, z, o⟩ b1 b0 b1
  · rw [ez]; norm_num
  · rw [eo]; norm_num
  · rw [ez, eo]; norm_num
  · show |realVal 23 (0 : F32).bits * realVal 23 (0 : F32).bits + realVal 23 (0 : F32).bits * realVal 23 (0 : F32).bits +
      realVal 23 (1 : F32).bits * realVal 23 (1 : F32).bits - 1| ≤ 0
    rw [ez, eo]
    norm_num

end PackedSimd.Props
