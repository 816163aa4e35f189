import Verif.Lemmas.MandelSet
/-
A point of the Mandelbrot set: discs that the iteration maps into one another.
-/
namespace PackedSimd.Ex.Mandel
open Spec

/-- A disc: the coordinates of its centre and its radius, in units of `2^-100`. -/
abbrev Disc := Int × Int × Int

def scale : Int := 2 ^ 100

def InDisc (b : Disc) (z : ℂ) : Prop := ‖(scale : ℂ) * z - ⟨b.1, b.2.1⟩‖ ≤ b.2.2

/-- The square of any point of `b`, plus `c`, is in `b'` (`C` is `c` in units of `2^-100`). -/
def discStep (C : Int × Int) (b b' : Disc) : Bool :=
  let ex := b.1 * b.1 - b.2.1 * b.2.1 + C.1 * scale - b'.1 * scale
  let ey := 2 * (b.1 * b.2.1) + C.2 * scale - b'.2.1 * scale
  let s := b'.2.2 * scale - b.2.2 * b.2.2 - ((ex.natAbs : Int) + ey.natAbs)
  decide (0 ≤ b.2.2 ∧ 0 ≤ s ∧ 4 * (b.1 * b.1 + b.2.1 * b.2.1) * (b.2.2 * b.2.2) ≤ s * s)

theorem discStep_spec {C : Int × Int} {b b' : Disc} (h : discStep C b b' = true) {c z : ℂ} (hc : (scale : ℂ) * c = ⟨C.1, C.2⟩) (hz : InDisc b z) :
    InDisc b' (z ^ 2 + c) := by
  obtain ⟨X, Y, R⟩ := b
  obtain ⟨X', Y', R'⟩ := b'
  obtain ⟨CX, CY⟩ := C
  unfold discStep at h
  rw [decide_eq_true_iff] at h
  dsimp only at h
  obtain ⟨hR, hs, hq⟩ := h
  unfold InDisc at hz ⊢
  dsimp only at hz ⊢ hc
  obtain ⟨ex, hex⟩ : ∃ ex, ex = X * X - Y * Y + CX * scale - X' * scale := ⟨_, rfl⟩
  obtain ⟨ey, hey⟩ : ∃ ey, ey = 2 * (X * Y) + CY * scale - Y' * scale := ⟨_, rfl⟩
  rw [← hex, ← hey] at hs hq
  obtain ⟨s, hsd⟩ : ∃ s, s = R' * scale - R * R - ((ex.natAbs : Int) + ey.natAbs) := ⟨_, rfl⟩
  rw [← hsd] at hs hq
  have hN : (0 : ℝ) < (scale : ℝ) := by unfold scale; norm_num
  have hNn : ‖(scale : ℂ)‖ = (scale : ℝ) := by
    rw [Complex.norm_intCast, abs_of_pos hN]
  have hRr : (0 : ℝ) ≤ R := by exact_mod_cast hR
  have hsr : (0 : ℝ) ≤ s := by exact_mod_cast hs
  have hqr : (4 : ℝ) * (X * X + Y * Y) * (R * R) ≤ s * s := by exact_mod_cast hq
  have hsd' : (s : ℝ) = R' * scale - R * R - (|(ex : ℝ)| + |(ey : ℝ)|) := by
    rw [hsd]; push_cast; rfl
  refine le_of_mul_le_mul_right (a := (scale : ℝ)) ?_ hN
  have hZ : ‖(⟨X, Y⟩ : ℂ)‖ ^ 2 = (X : ℝ) * X + Y * Y := by rw [Complex.sq_norm, Complex.normSq_apply]
  have hZR : 2 * ‖(⟨X, Y⟩ : ℂ)‖ * R ≤ s := by
    have hn := norm_nonneg (⟨X, Y⟩ : ℂ)
    have : (2 * ‖(⟨X, Y⟩ : ℂ)‖ * R) ^ 2 ≤ (s : ℝ) ^ 2 := by
      rw [show (2 * ‖(⟨X, Y⟩ : ℂ)‖ * R) ^ 2 = 4 * ‖(⟨X, Y⟩ : ℂ)‖ ^ 2 * (R * R) by ring, hZ, sq]; exact hqr
    exact abs_le_of_sq_le_sq' this hsr
  have e : ((scale : ℂ) * (z ^ 2 + c) - ⟨X', Y'⟩) * scale =
      ((scale : ℂ) * z - ⟨X, Y⟩) * (((scale : ℂ) * z - ⟨X, Y⟩) + 2 * ⟨X, Y⟩) + (⟨ex, ey⟩ : ℂ) := by
    have he : (⟨ex, ey⟩ : ℂ) = (⟨X, Y⟩ : ℂ) ^ 2 + (scale : ℂ) * ⟨CX, CY⟩ - ⟨X', Y'⟩ * scale := by
      rw [hex, hey, sq]
      apply Complex.ext
      · simp only [Complex.sub_re, Complex.add_re, Complex.mul_re, Complex.intCast_re, Complex.intCast_im]; push_cast; ring
      · simp only [Complex.sub_im, Complex.add_im, Complex.mul_im, Complex.intCast_re, Complex.intCast_im]; push_cast; ring
    rw [he, ← hc]
    ring
  rw [← hNn, ← norm_mul, e, hNn]
  have h1 : ‖((scale : ℂ) * z - ⟨X, Y⟩) * (((scale : ℂ) * z - ⟨X, Y⟩) + 2 * ⟨X, Y⟩)‖ ≤ R * (R + 2 * ‖(⟨X, Y⟩ : ℂ)‖) := by
    rw [norm_mul]
    refine mul_le_mul hz ?_ (norm_nonneg _) hRr
    refine (norm_add_le _ _).trans ?_
    rw [norm_mul, Complex.norm_two]
    linarith
  have h2 : ‖(⟨ex, ey⟩ : ℂ)‖ ≤ |(ex : ℝ)| + |(ey : ℝ)| := Complex.norm_le_abs_re_add_abs_im _
  refine (norm_add_le _ _).trans ((add_le_add h1 h2).trans ?_)
  nlinarith
where
  abs_le_of_sq_le_sq' {a b : ℝ} (h : a ^ 2 ≤ b ^ 2) (hb : 0 ≤ b) : a ≤ b := by
    nlinarith

/-- Each disc is mapped into the next. -/
def discChain (C : Int × Int) : List Disc → Bool
  | b :: b' :: l => discStep C b b' && discChain C (b' :: l)
  | _ => true

theorem discChain_spec {C : Int × Int} {c : ℂ} (hc : (scale : ℂ) * c = ⟨C.1, C.2⟩) : ∀ (l : List Disc), discChain C l = true → ∀ (z : ℂ),
    (∀ h : 0 < l.length, InDisc l[0] z) → ∀ k (hk : k < l.length), InDisc l[k] ((fun z => z ^ 2 + c)^[k] z)
  | [], _, _, _, k, hk => absurd hk (Nat.not_lt_zero k)
  | [b], _, z, hz, k, hk => by
    obtain rfl : k = 0 := by simpa using hk
    exact hz (by simp)
  | b :: b' :: l, h, z, hz, k, hk => by
    rw [discChain, Bool.and_eq_true] at h
    rcases k with _ | k
    · exact hz (by simp)
    · rw [Function.iterate_succ_apply]
      exact discChain_spec hc (b' :: l) h.2 _ (fun _ => discStep_spec h.1 hc (hz (by simp))) k (by simpa using hk)

theorem disc_bound (b : Disc) : ∃ B : ℝ, ∀ z, InDisc b z → ‖z‖ ≤ B := by
  refine ⟨(b.2.2 + ‖(⟨b.1, b.2.1⟩ : ℂ)‖) / scale, fun z hz => ?_⟩
  have hN : (0 : ℝ) < (scale : ℝ) := by unfold scale; norm_num
  have hNn : ‖(scale : ℂ)‖ = (scale : ℝ) := by rw [Complex.norm_intCast, abs_of_pos hN]
  rw [le_div_iff₀ hN, ← hNn, mul_comm, ← norm_mul]
  have := norm_add_le ((scale : ℂ) * z - ⟨b.1, b.2.1⟩) ⟨b.1, b.2.1⟩
  rw [sub_add_cancel] at this
  unfold InDisc at hz
  linarith

theorem discs_bound (l : List Disc) : ∃ B : ℝ, ∀ b ∈ l, ∀ z, InDisc b z → ‖z‖ ≤ B := by
  induction l with
  | nil => exact ⟨0, fun b hb => absurd hb List.not_mem_nil⟩
  | cons b l ih =>
    obtain ⟨B, hB⟩ := ih
    obtain ⟨A, hA⟩ := disc_bound b
    refine ⟨max A B, fun b' hb' z hz => ?_⟩
    rcases List.mem_cons.1 hb' with rfl | h
    · exact (hA z hz).trans (le_max_left _ _)
    · exact (hB b' h z hz).trans (le_max_right _ _)

/-- If the last disc lies inside the first, whose centre is 0, the point is in the set. -/
theorem mem_of_discs {C : Int × Int} {c : ℂ} (hc : (scale : ℂ) * c = ⟨C.1, C.2⟩) (l : List Disc) (p : Nat) (R0 : Int) (X Y R : Int) (hl : l.length = p + 1)
    (hp : 0 < p) (h0 : l[0]? = some (0, 0, R0)) (hlast : l[p]? = some (X, Y, R)) (hR : 0 ≤ R0) (hin : R ≤ R0 ∧ X * X + Y * Y ≤ (R0 - R) * (R0 - R))
    (h : discChain C l = true) : c ∈ MandelbrotSet := by
  obtain ⟨hl0, e0⟩ := List.getElem?_eq_some_iff.1 h0
  obtain ⟨hlp, ep⟩ := List.getElem?_eq_some_iff.1 hlast
  have back : ∀ z, InDisc (X, Y, R) z → InDisc (0, 0, R0) z := by
    intro z hz
    unfold InDisc at hz ⊢
    dsimp only at hz ⊢
    have hd : (0 : ℝ) ≤ (R0 : ℝ) - R := by exact_mod_cast sub_nonneg.2 hin.1
    have hn : ‖(⟨X, Y⟩ : ℂ)‖ ≤ (R0 : ℝ) - R := by
      have h1 : ‖(⟨X, Y⟩ : ℂ)‖ ^ 2 = (X : ℝ) * X + Y * Y := by rw [Complex.sq_norm, Complex.normSq_apply]
      have h2 : (X : ℝ) * X + Y * Y ≤ (R0 - R) * (R0 - R) := by exact_mod_cast hin.2
      nlinarith [norm_nonneg (⟨X, Y⟩ : ℂ)]
    have hz0 : (⟨((0 : Int) : ℝ), ((0 : Int) : ℝ)⟩ : ℂ) = 0 := by apply Complex.ext <;> simp
    rw [hz0, sub_zero]
    have := norm_add_le ((scale : ℂ) * z - ⟨X, Y⟩) ⟨X, Y⟩
    rw [sub_add_cancel] at this
    linarith
  have hchain := discChain_spec hc l h
  have rounds : ∀ m, InDisc (0, 0, R0) ((fun z => z ^ 2 + c)^[m * p] 0) := by
    intro m
    induction m with
    | zero =>
      rw [Nat.zero_mul, Function.iterate_zero, id]
      unfold InDisc
      dsimp only
      have hz0 : (⟨((0 : Int) : ℝ), ((0 : Int) : ℝ)⟩ : ℂ) = 0 := by apply Complex.ext <;> simp
      rw [hz0, mul_zero, sub_zero, norm_zero]
      exact_mod_cast hR
    | succ m ih =>
      rw [Nat.succ_mul, Nat.add_comm, Function.iterate_add_apply]
      have := hchain _ (fun _ => by rw [e0]; exact ih) p hlp
      rw [ep] at this
      exact back _ this
  obtain ⟨B, hB⟩ := discs_bound l
  refine ⟨B, fun n => ?_⟩
  have hk : n % p < l.length := by rw [hl]; exact Nat.lt_succ_of_lt (Nat.mod_lt _ hp)
  have := hchain _ (fun _ => by rw [e0]; exact rounds (n / p)) (n % p) hk
  rw [← Function.iterate_add_apply, show n % p + n / p * p = n by rw [Nat.mul_comm]; exact Nat.mod_add_div n p] at this
  exact hB _ (List.getElem_mem hk) _ this

/-- A disc around 0 and its images: a cycle of 24 steps. -/
def discs : List Disc := [
  (0, 0, 2785372340113435525120),
  (-1427552211480169204940800, 1267649913079550472708329308160, 6120218829757),
  (-1267650653481847879318774532262, 1267647057976675163774878898535, 12240431024414),
  (5763448237919533155665266, -1267644309380739192651780214293, 34621119483565),
  (-1267639446090475589242239257700, 1267638386240278052117009326027, 69241895346060),
  (692128646102725017721370, -1267604551340441310965382494065, 195843849836587),
  (-1267559931677266405044305946006, 1267648528872543029248023806171, 391673471160325),
  (-178615461092556551707209108, -1267465807859916506757333265189, 1107779347115632),
  (-1267282444814599916473777897061, 1268007091926228239149107235368, 2215235742106945),
  (-1450715107954347605811876094, -1267627752878575858975132569196, 6265604291419957),
  (-1267604673276513594504783084529, 1270551291001877145961853427996, 12530990934174848),
  (-5901298820156605743262450051, -1273360604836853892375118437520, 35482927586364765),
  (-1279070284799462789717593047584, 1279505674333644796655152535950, 71286279256976634),
  (-880200610667559061649738882, -1314414398612980955799340366801, 203479049445168265),
  (-1362904136087950668372500331796, 1269475255734886382781488412034, 421970931622378146),
  (194011227984107897768542314357, -1462081885873383467363848697182, 1239994661404273369),
  (-1656643316127086639112790298205, 820112867713035648810806354222, 2885441010776837407),
  (1634425251776482866469880442603, -875897371198953154138949561655, 8415277380555536721),
  (1502107827496898410860994153280, -990998931001718363475467900197, 24619886041929929285),
  (1005203826917345009812958078875, -1080926660040413002053021121506, 69900803748844234798),
  (-124615978839771454589187719939, -446626268533873649649772546127, 162788974503747011494),
  (-145109142193122470901005858270, 1355460812421818393637142769505, 119090975894090939828),
  (-1432744291032257217153083125400, 957328195515561341082688419281, 256136093496443225973),
  (896364597401247655681356297428, -896363587994305846210471360530, 696343273953347202060),
  (-35611251394377923716, -126811431675764568916, 1392686170896130478135)]

theorem discs_chain : discChain (-1427552211480169204940800, 1267649913079550472708329308160) discs = true := by decide +kernel

end PackedSimd.Ex.Mandel
