import Verif.Model.Examples.StencilData
import Verif.Props.Stencil
/-
C120: setting up and running the stencil example, and the comparison its tests rely on.
-/
namespace PackedSimd.Props
open PackedSimd Ex Ex.Stencil Spec

variable {α : Type} [Add α] [Sub α] [Mul α]

/-! ## Running a program on fresh data -/

/-- The environment in which the programs run on `d`. -/
def envOf (S : Setting α) (d : Data α) : Env α :=
  ⟨S.t, S.dbg, S.two, S.negOne, S.fma, d.x.1, d.x.2, d.y.1, d.y.2, d.n.1, d.n.2.1, d.coeff, d.vsq⟩

/-- `from_bounds` with a margin of at least three cells, in a grid of fewer than 2^31 cells that fits the memory: the data has the documented
initial values, and the box is the grid without the margin on every side. -/
theorem C120_from_bounds [Div α] [Zero α] (S : Setting α) (maxT width nx ny nz : Int) (hw : 3 ≤ width) (hx : 2 * width ≤ nx) (hy : 2 * width ≤ ny)
    (hz : 2 * width ≤ nz) (hN : nx * ny * nz < 2 ^ 31) (hmem : nx * ny * nz * 4 < 2 ^ (8 * S.t.ptrBytes - 1)) :
    ∃ d, Data.fromBounds S maxT width nx ny nz = .ok d ∧ Initialised S.ofInt nx ny nz ⟨d.a.1, d.a.2, d.vsq, 0⟩ ∧ d.coeff = S.coeff ∧ d.n = (nx, ny, nz) ∧
      d.t = (0, maxT) ∧ d.x = (width, nx - width) ∧ d.y = (width, ny - width) ∧ d.z = (width, nz - width) := by
  have h1 : ny * nx ≤ nx * ny * nz := by
    have := Int.mul_le_mul_of_nonneg_left (show 1 ≤ nz by omega) (show 0 ≤ nx * ny from Int.mul_nonneg (by omega) (by omega))
    rw [Int.mul_comm ny]
    omega
  have h2 : nz ≤ nx * ny * nz := by
    have hp : 1 ≤ nx * ny := Int.mul_pos (by omega : 0 < nx) (by omega : 0 < ny)
    have := Int.mul_le_mul_of_nonneg_right hp (show 0 ≤ nz by omega)
    omega
  have h3 : nx ≤ ny * nx := by
    have := Int.mul_le_mul_of_nonneg_right (show 1 ≤ ny by omega) (show 0 ≤ nx by omega)
    omega
  have h4 : ny ≤ ny * nx := by
    have := Int.mul_le_mul_of_nonneg_left (show 1 ≤ nx by omega) (show 0 ≤ ny by omega)
    omega
  obtain ⟨g, e, hg⟩ := C77_new_partial S.t S.dbg S.ofInt (nx := nx) (ny := ny) (nz := nz) (by omega) (by omega) (by omega)
    (by rw [Int.mul_comm]; omega) hN hmem
  refine ⟨⟨(g.even, g.odd), g.vsq, S.coeff, (nx, ny, nz), (0, maxT), (width, nx - width), (width, ny - width), (width, nz - width)⟩, ?_, ?_, rfl, rfl, rfl, rfl, rfl, rfl⟩
  · unfold Data.fromBounds
    rw [i32_ok (by omega), R_ok_bind, i32_ok (by omega), R_ok_bind, i32_ok (by omega), R_ok_bind]
    unfold Data.new
    rw [e]
    rfl
  · exact ⟨hg.even_len, hg.odd_len, hg.vsq_len, hg.even, hg.odd, hg.vsq⟩

/-- Running the scalar program on such data succeeds and leaves what `maxT` time steps prescribe, in the two grids only.  If the lanes divide the
inner width and `mul_adde` rounds twice, the vector and the parallel program leave exactly the same data, whatever the order of the tasks. -/
theorem C120_exec [Div α] [Zero α] (S : Setting α) (maxT width nx ny nz : Int) (hw : 3 ≤ width) (hx : 2 * width ≤ nx) (hy : 2 * width ≤ ny)
    (hz : 2 * width ≤ nz) (hN : nx * ny * nz < 2 ^ 31) (hmem : nx * ny * nz * 4 < 2 ^ (8 * S.t.ptrBytes - 1)) :
    ∃ d r, Data.fromBounds S maxT width nx ny nz = .ok d ∧ d.exec (scalarProgram S) = .ok { d with a := r } ∧
      Evolves (envOf S d) width (nz - width) 0 maxT.toNat d.a r ∧
      ∀ (lanes : Nat) (order : Int → List Nat → List Nat), 1 ≤ lanes → (lanes : Int) ∣ nx - 2 * width → Laws (envOf S d) → (∀ t l, (order t l).Perm l) →
        d.exec (simdProgram S lanes) = .ok { d with a := r } ∧ d.exec (parProgram S lanes order) = .ok { d with a := r } := by
  obtain ⟨d, e, hi, -, hn, ht, hdx, hdy, hdz⟩ := C120_from_bounds S maxT width nx ny nz hw hx hy hz hN hmem
  obtain ⟨a, vsq, coeff, n, t, x, y, z⟩ := d
  dsimp only at hi hn ht hdx hdy hdz
  subst hn ht hdx hdy hdz
  have G : Geometry (envOf S ⟨a, vsq, coeff, (nx, ny, nz), (0, maxT), (width, nx - width), (width, ny - width), (width, nz - width)⟩) width (nz - width) nz :=
    ⟨by simp only [envOf]; omega, by simp only [envOf]; omega, by simp only [envOf]; omega, by simp only [envOf]; omega, by simp only [envOf]; omega, hw,
      by omega, by omega, by simp only [envOf]; omega, by simp only [envOf]; omega, hN, by have := hi.vsq_len; simp only [envOf] at this ⊢; omega⟩
  have he : a.1.length = (nx * ny * nz).toNat := by have := hi.even_len; dsimp only at this; omega
  have ho : a.2.length = (nx * ny * nz).toNat := by have := hi.odd_len; dsimp only at this; omega
  obtain ⟨r, h1, h2⟩ := C74_scalar G 0 maxT he ho
  refine ⟨_, r, e, ?_, ?_, ?_⟩
  · unfold Data.exec scalarProgram
    dsimp only
    simp only [envOf] at h1
    rw [h1]
    rfl
  · rw [Int.sub_zero] at h2
    exact h2
  · intro lanes order hl hd L hord
    have hd' : (lanes : Int) ∣ (nx - width) - width := by
      rwa [show nx - width - width = nx - 2 * width by omega]
    obtain ⟨a1, a2⟩ := C74_agree G hl hd' L 0 maxT order hord he ho
    rw [h1] at a1 a2
    constructor
    · unfold Data.exec simdProgram
      dsimp only
      simp only [envOf] at a1
      rw [a1]
      rfl
    · unfold Data.exec parProgram
      dsimp only
      simp only [envOf] at a2
      rw [a2]
      rfl

/-- The setting of the example on `f32`, with a `mul_adde` that rounds twice. -/
def f32Setting (t : Target) (dbg : Bool) : Setting F32 :=
  ⟨t, dbg, F32.ofInt 2, F32.ofInt (-1), fun a b c => a * b + c, F32.ofInt, #v[⟨0x3f000000⟩, ⟨0xbe800000⟩, ⟨0x3e000000⟩, ⟨0xbd800000⟩]⟩

/-- `Data::default()` and `Data::benchmark()` on a 64-bit target: all three programs succeed with the same result, bit for bit, as the tests expect. -/
theorem C120_default (t : Target) (ht : t.ptrBytes = 8) (dbg : Bool) (order : Int → List Nat → List Nat) (hord : ∀ t l, (order t l).Perm l) :
    (∃ d r, Data.default (f32Setting t dbg) = .ok d ∧ d.exec (scalarProgram (f32Setting t dbg)) = .ok r ∧ d.exec (simdProgram (f32Setting t dbg) 8) = .ok r ∧
      d.exec (parProgram (f32Setting t dbg) 8 order) = .ok r) ∧
    (∃ d r, Data.benchmark (f32Setting t dbg) = .ok d ∧ d.exec (scalarProgram (f32Setting t dbg)) = .ok r ∧ d.exec (simdProgram (f32Setting t dbg) 8) = .ok r ∧
      d.exec (parProgram (f32Setting t dbg) 8 order) = .ok r) := by
  have hp : (f32Setting t dbg).t.ptrBytes = 8 := ht
  constructor
  · obtain ⟨d, r, h1, h2, -, h3⟩ := C120_exec (f32Setting t dbg) 6 4 128 128 128 (by decide) (by decide) (by decide) (by decide) (by decide) (by rw [hp]; decide)
    obtain ⟨h4, h5⟩ := h3 8 order (by decide) (by decide) (C74_f32 _ (fun _ _ _ => rfl) rfl) hord
    exact ⟨d, _, h1, h2, h4, h5⟩
  · obtain ⟨d, r, h1, h2, -, h3⟩ := C120_exec (f32Setting t dbg) 6 4 256 256 256 (by decide) (by decide) (by decide) (by decide) (by decide) (by rw [hp]; decide)
    obtain ⟨h4, h5⟩ := h3 8 order (by decide) (by decide) (C74_f32 _ (fun _ _ _ => rfl) rfl) hord
    exact ⟨d, _, h1, h2, h4, h5⟩

/-! ## The comparison -/

theorem forInt_unit (f : Unit → Int → R Unit) {lo hi : Int} : forInt lo hi f () = .ok () ↔ ∀ i, lo ≤ i → i < hi → f () i = .ok () := by
  unfold forInt
  have key : ∀ l : List Int, l.foldlM f () = .ok () ↔ ∀ i ∈ l, f () i = .ok () := by
    intro l
    induction l with
    | nil => simp [List.foldlM, pure, Except.pure]
    | cons x l ih =>
      rw [List.foldlM_cons]
      cases hx : f () x with
      | error e => 
        constructor
        · intro h; cases h
        · intro h; rw [h x (by simp)] at hx; cases hx
      | ok u =>
        show List.foldlM f u l = _ ↔ _
        rw [show u = () from rfl, ih]
        simp [hx]
  rw [key]
  constructor
  · intro h i h1 h2
    exact h i (by simp only [List.mem_map, List.mem_range]; exact ⟨(i - lo).toNat, by omega, by omega⟩)
  · intro h i hi
    simp only [List.mem_map, List.mem_range] at hi
    obtain ⟨k, hk, rfl⟩ := hi
    exact h _ (by omega) (by omega)

theorem check_bind {β : Type} (b : Bool) (f : R β) (r : β) : (check b >>= fun _ => f) = .ok r ↔ b = true ∧ f = .ok r := by
  cases b
  · constructor
    · intro h; cases h
    · intro h; cases h.1
  · constructor
    · intro h; exact ⟨rfl, h⟩
    · intro h; exact h.2

theorem check_ok (b : Bool) : check b = .ok () ↔ b = true := by
  cases b
  · constructor <;> intro h <;> cases h
  · constructor <;> intro _ <;> rfl

/-- Data of the shape `Data::new` makes. -/
structure Shaped (d : Data α) : Prop where
  nx : 0 ≤ d.n.1
  ny : 0 ≤ d.n.2.1
  nz : 0 ≤ d.n.2.2
  even : (d.a.1.length : Int) = d.n.1 * d.n.2.1 * d.n.2.2
  odd : (d.a.2.length : Int) = d.n.1 * d.n.2.1 * d.n.2.2
  vsq : (d.vsq.length : Int) = d.n.1 * d.n.2.1 * d.n.2.2
  small : d.n.1 * d.n.2.1 * d.n.2.2 < 2 ^ 31

/-- Element by element, two lists are related. -/
def Related (close : α → α → Bool) (l l' : List α) : Prop := ∀ (k : Nat) (h : k < l.length) (h' : k < l'.length), close l[k] l'[k] = true

/-- Same length and, element by element, equal floats. -/
def SameList (beq : α → α → Bool) (l l' : List α) : Prop := l.length = l'.length ∧ Related beq l l'

/-- Equal parameters. -/
def SameParams (beq : α → α → Bool) (a b : Data α) : Prop :=
  SameList beq a.coeff.toList b.coeff.toList ∧ a.n = b.n ∧ a.t = b.t ∧ a.x = b.x ∧ a.y = b.y ∧ a.z = b.z

theorem listEq_iff (beq : α → α → Bool) : ∀ l l' : List α, listEq beq l l' = true ↔ SameList beq l l'
  | [], [] => by simp [listEq, SameList, Related]
  | [], _ :: _ => by simp [listEq, SameList]
  | _ :: _, [] => by simp [listEq, SameList]
  | x :: l, y :: l' => by
    have ih := listEq_iff beq l l'
    simp only [listEq, SameList, Bool.and_eq_true, beq_iff_eq, List.length_cons, List.zip_cons_cons, List.all_cons, Nat.succ_inj] at ih ⊢
    constructor
    · rintro ⟨h, hx, hl⟩
      refine ⟨h, fun k h1 h2 => ?_⟩
      cases k with
      | zero => exact hx
      | succ k => exact (ih.1 ⟨h, hl⟩).2 k (by simpa using h1) (by simpa using h2)
    · rintro ⟨h, hr⟩
      refine ⟨h, hr 0 (by simp) (by simp), (ih.2 ⟨h, fun k h1 h2 => ?_⟩).2⟩
      exact hr (k + 1) (by simpa using h1) (by simpa using h2)

/-- The derived `==`: equal parameters and equal floats in the three grids. -/
theorem C120_eq (beq : α → α → Bool) (a b : Data α) :
    a.eq beq b = true ↔ SameParams beq a b ∧ SameList beq a.vsq b.vsq ∧ SameList beq a.a.1 b.a.1 ∧ SameList beq a.a.2 b.a.2 := by
  unfold Data.eq SameParams
  simp only [Bool.and_eq_true, beq_iff_eq, listEq_iff]
  tauto

/-- `assert_data_eq` on grids that are square (as many rows as columns): it passes exactly if the parameters are equal and the data are equal, or
close in every cell. -/
theorem C120_assert_partial (t : Target) (dbg : Bool) (beq close : α → α → Bool) (a b : Data α) (ha : Shaped a) (hb : Shaped b) (hsq : a.n.1 = a.n.2.1)
    (hn : a.n = b.n) :
    assertDataEq t dbg beq close a b = .ok () ↔ SameParams beq a b ∧
      ((SameList beq a.vsq b.vsq ∧ SameList beq a.a.1 b.a.1 ∧ SameList beq a.a.2 b.a.2) ∨
        (Related close a.vsq b.vsq ∧ Related close a.a.1 b.a.1 ∧ Related close a.a.2 b.a.2)) := by
  suffices h : assertDataEq t dbg beq close a b = .ok () ↔ a.eq beq b = true ∨ (listEq beq a.coeff.toList b.coeff.toList = true ∧ a.t = b.t ∧ a.x = b.x ∧
      a.y = b.y ∧ a.z = b.z ∧ Related close a.vsq b.vsq ∧ Related close a.a.1 b.a.1 ∧ Related close a.a.2 b.a.2) by
    rw [h, C120_eq, listEq_iff]
    unfold SameParams
    tauto
  unfold assertDataEq
  cases he : a.eq beq b
  swap
  · simp
  rw [if_neg (by simp), check_bind, check_bind, check_bind, check_bind, check_bind, check_bind, forInt_unit]
  simp only [forInt_unit, beq_iff_eq, hn, true_and, false_or, Bool.false_eq_true]
  refine and_congr_right fun _ => and_congr_right fun _ => and_congr_right fun _ => and_congr_right fun _ => and_congr_right fun _ => ?_
  obtain ⟨a1, a2, a3, a4, a5, a6, a7⟩ := ha
  obtain ⟨b1, b2, b3, b4, b5, b6, b7⟩ := hb
  rw [← hn] at b4 b5 b6 ⊢
  generalize a.n.2.2 = nz at *
  generalize hm : a.n.1 = m at *
  have hm2 : a.n.2.1 = m := hsq.symm
  rw [hm2] at a2 a4 a5 a6 a7 b4 b5 b6 ⊢
  -- one cell
  have cell : ∀ x y z : Int, 0 ≤ x → x < m → 0 ≤ y → y < m → 0 ≤ z → z < nz → ∃ k : Nat, (k : Int) = z * (m * m) + y * m + x ∧ ∃ (h1 : k < a.vsq.length)
      (h2 : k < b.vsq.length) (h3 : k < a.a.1.length) (h4 : k < b.a.1.length) (h5 : k < a.a.2.length) (h6 : k < b.a.2.length),
      (checkCell t dbg close a b z y x = .ok () ↔ close a.vsq[k] b.vsq[k] = true ∧ close a.a.1[k] b.a.1[k] = true ∧ close a.a.2[k] b.a.2[k] = true) := by
    intro x y z hx hx' hy hy' hz hz'
    have p1 : (y + 1) * m ≤ m * m := Int.mul_le_mul_of_nonneg_right (by omega) (by omega)
    have p2 : (z + 1) * (m * m) ≤ nz * (m * m) := Int.mul_le_mul_of_nonneg_right (by omega) (Int.mul_nonneg (by omega) (by omega))
    have p3 : 0 ≤ y * m := Int.mul_nonneg hy (by omega)
    have p4 : 0 ≤ z * (m * m) := Int.mul_nonneg hz (Int.mul_nonneg (by omega) (by omega))
    rw [Int.add_mul] at p1 p2
    rw [Int.mul_comm nz] at p2
    have p5 : 0 ≤ z * m := Int.mul_nonneg hz (by omega)
    have p6 : z * m ≤ z * (m * m) := by
      rw [← Int.mul_assoc]
      have := Int.mul_le_mul_of_nonneg_left (show 1 ≤ m by omega) p5
      omega
    have e1 : z * m * m = z * (m * m) := Int.mul_assoc ..
    refine ⟨(z * (m * m) + y * m + x).toNat, by omega, by omega, by omega, by omega, by omega, by omega, by omega, ?_⟩
    unfold checkCell
    rw [hm2, hm, i32_ok (by omega), R_ok_bind, i32_ok (by omega), R_ok_bind, i32_ok (by omega), R_ok_bind, e1, i32_ok (by omega), R_ok_bind,
      i32_ok (by omega), R_ok_bind, asUsize_nonneg (by omega)]
    dsimp only
    have e2 : (x + y * m + z * (m * m)).toNat = (z * (m * m) + y * m + x).toNat := by congr 1; omega
    rw [e2, lget_lt _ (by omega), lget_lt _ (by omega), lget_lt _ (by omega), lget_lt _ (by omega), lget_lt _ (by omega), lget_lt _ (by omega)]
    simp only [R_ok_bind]
    rw [check_bind, check_bind, check_ok]
  constructor
  · intro h
    have every : ∀ k : Nat, (k : Int) < m * m * nz → ∃ (h1 : k < a.vsq.length) (h2 : k < b.vsq.length) (h3 : k < a.a.1.length) (h4 : k < b.a.1.length)
        (h5 : k < a.a.2.length) (h6 : k < b.a.2.length),
        close a.vsq[k] b.vsq[k] = true ∧ close a.a.1[k] b.a.1[k] = true ∧ close a.a.2[k] b.a.2[k] = true := by
      intro k hk
      have hm0 : 0 < m := by
        rcases Int.lt_or_le 0 m with h | h
        · exact h
        · rw [show m = 0 by omega] at hk
          simp at hk
          omega
      have hmm : 0 < m * m := Int.mul_pos hm0 hm0
      have d1 := Int.mul_ediv_add_emod (k : Int) (m * m)
      have d2 := Int.mul_ediv_add_emod ((k : Int) % (m * m)) m
      have r1 := Int.emod_nonneg (k : Int) (show m * m ≠ 0 by omega)
      have r2 := Int.emod_lt_of_pos (k : Int) hmm
      have r3 := Int.emod_nonneg ((k : Int) % (m * m)) (show m ≠ 0 by omega)
      have r4 := Int.emod_lt_of_pos ((k : Int) % (m * m)) hm0
      have q1 : 0 ≤ (k : Int) / (m * m) := Int.ediv_nonneg (by omega) (by omega)
      have q2 : (k : Int) / (m * m) < nz := by
        apply Int.ediv_lt_of_lt_mul hmm
        rw [Int.mul_comm nz]
        exact hk
      have q3 : 0 ≤ ((k : Int) % (m * m)) / m := Int.ediv_nonneg (by omega) (by omega)
      have q4 : ((k : Int) % (m * m)) / m < m := Int.ediv_lt_of_lt_mul hm0 r2
      obtain ⟨k', hk', g1, g2, g3, g4, g5, g6, hc⟩ := cell _ _ _ r3 r4 q3 q4 q1 q2
      have : k' = k := by
        have e1 : (k : Int) / (m * m) * (m * m) = (m * m) * ((k : Int) / (m * m)) := Int.mul_comm ..
        have e2 : ((k : Int) % (m * m)) / m * m = m * (((k : Int) % (m * m)) / m) := Int.mul_comm ..
        omega
      subst this
      exact ⟨g1, g2, g3, g4, g5, g6, hc.1 (h _ q1 q2 _ q3 q4 _ r3 r4)⟩
    refine ⟨fun k h1 h2 => ?_, fun k h1 h2 => ?_, fun k h1 h2 => ?_⟩
    · obtain ⟨_, _, _, _, _, _, c, _, _⟩ := every k (by omega); exact c
    · obtain ⟨_, _, _, _, _, _, _, c, _⟩ := every k (by omega); exact c
    · obtain ⟨_, _, _, _, _, _, _, _, c⟩ := every k (by omega); exact c
  · rintro ⟨c1, c2, c3⟩ z hz hz' y hy hy' x hx hx'
    obtain ⟨k, hk, g1, g2, g3, g4, g5, g6, hc⟩ := cell x y z hx hx' hy hy' hz hz'
    exact hc.2 ⟨c1 k g1 g2, c2 k g3 g4, c3 k g5 g6⟩

/-- `==` of `f32`. -/
def f32Eq (a b : F32) : Bool := Flt.oeq 23 a.bits b.bits
/-- `(a - b).abs() < 1e-4`. -/
def f32Close (a b : F32) : Bool := Flt.olt 23 (Flt.abs (a - b).bits) 0x38d1b717#32

/-- A grid of the given shape, all zero but for one cell. -/
def oneCell (nx ny : Int) (k : Nat) (v : F32) : Data F32 :=
  ⟨((List.replicate 8 (0 : F32)).set k v, List.replicate 8 0), List.replicate 8 0, (f32Setting x64Avx true).coeff, (nx, ny, 1), (0, 6), (0, 0), (0, 0), (0, 0)⟩

/-- On a grid with more columns than rows, the index computed by the comparison never reaches the last cells: data that differ there pass. -/
theorem C120_assert_misses_fails :
    Shaped (oneCell 4 2 7 1) ∧ Shaped (oneCell 4 2 7 0) ∧ f32Close (1 : F32) 0 = false ∧
      assertDataEq x64Avx true f32Eq f32Close (oneCell 4 2 7 1) (oneCell 4 2 7 0) = .ok () := by
  refine ⟨?_, ?_, by decide +kernel, by decide +kernel⟩ <;>
    exact ⟨by decide, by decide, by decide, by decide +kernel, by decide +kernel, by decide +kernel, by decide⟩

/-- On a grid with fewer columns than rows it reads past the end: data that are close in every cell panic. -/
theorem C120_assert_panics_fails :
    Shaped (oneCell 2 4 0 ⟨1⟩) ∧ Shaped (oneCell 2 4 0 0) ∧ Related f32Close (oneCell 2 4 0 ⟨1⟩).a.1 (oneCell 2 4 0 0).a.1 ∧
      assertDataEq x64Avx true f32Eq f32Close (oneCell 2 4 0 ⟨1⟩) (oneCell 2 4 0 0) = .error .panic := by
  refine ⟨?_, ?_, ?_, by decide +kernel⟩
  · exact ⟨by decide, by decide, by decide, by decide +kernel, by decide +kernel, by decide +kernel, by decide⟩
  · exact ⟨by decide, by decide, by decide, by decide +kernel, by decide +kernel, by decide +kernel, by decide⟩
  · have h : ∀ k : Fin 8, f32Close ((oneCell 2 4 0 ⟨1⟩).a.1[k.val]'(by show k.val < ((List.replicate 8 (0 : F32)).set 0 ⟨1⟩).length; simp))
        ((oneCell 2 4 0 0).a.1[k.val]'(by show k.val < ((List.replicate 8 (0 : F32)).set 0 0).length; simp)) = true := by decide +kernel
    intro k h1 _
    exact h ⟨k, by have : (oneCell 2 4 0 ⟨1⟩).a.1.length = 8 := by decide +kernel
                   omega⟩

-- a case meeting the hypotheses, where the cells differ by more than the tolerance
example : assertDataEq x64Avx true f32Eq f32Close { oneCell 2 2 3 1 with n := (2, 2, 2) } { oneCell 2 2 3 0 with n := (2, 2, 2) } = .error .panic := by decide +kernel
example : Shaped { oneCell 2 2 3 1 with n := (2, 2, 2) } :=
  ⟨by decide, by decide, by decide, by decide +kernel, by decide +kernel, by decide +kernel, by decide⟩

end PackedSimd.Props
