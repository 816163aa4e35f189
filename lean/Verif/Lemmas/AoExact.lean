import Verif.Lemmas.Aobench
import Verif.Spec.Aobench
import Mathlib.Tactic.Ring
import Mathlib.Tactic.FieldSimp
import Mathlib.Tactic.Linarith
import Mathlib.Tactic.Positivity
import Mathlib.Data.Rat.Cast.CharZero
import Mathlib.Data.Rat.Cast.Order
/-
aobench in exact arithmetic.
-/
namespace PackedSimd.Ex.Ao
open V3N Spec.Ao

section
variable {K : Type} [Field K] [LinearOrder K] [IsStrictOrderedRing K] {F : Fns K} (E : Exact F)
include E

omit [IsStrictOrderedRing K] in
theorem mdot_eq (a o : V3 K) : mdot F a o = V3.dot a o := by
  unfold mdot V3.dot; rw [E.mulAdde, E.mulAdde]; ring
omit E [LinearOrder K] [IsStrictOrderedRing K] in
theorem msmul_eq (k : K) (a : V3 K) : msmul k a = V3.smul k a := by
  unfold msmul V3.smul V3.mulS; congr 1 <;> ring
omit [IsStrictOrderedRing K] in
theorem mnormalized_eq (a : V3 K) : mnormalized F a = V3.normalized F a := by
  unfold mnormalized V3.normalized; rw [mdot_eq E, msmul_eq]

omit [IsStrictOrderedRing K] in
theorem lt_ge (a b : K) : F.lt a b = !F.ge a b := by
  by_cases h : a < b
  · have h2 : ¬ F.ge a b = true := by rw [E.ge]; exact not_le.2 h
    rw [(E.lt a b).2 h]; simpa using h2
  · rw [(E.ge a b).2 (not_lt.1 h)]
    have h2 : ¬ F.lt a b = true := by rw [E.lt]; exact h
    simpa using h2

omit [IsStrictOrderedRing K] in
theorem lit_neg_one (x : K) : F.lit (-1) * x = -x := by rw [E.lit]; push_cast; ring

omit [IsStrictOrderedRing K] in
theorem lanePlane_eq (ray : Ray K) (plane : Plane K) (isect : Isect K) : lanePlane F ray plane isect = rayPlane F ray plane isect := by
  unfold lanePlane rayPlane
  simp only [mdot_eq E, lit_neg_one E, msmul_eq, lt_ge E (F.abs _)]
  cases F.ge (F.abs (V3.dot ray.dir plane.n)) (F.lit (1 / 100000000000000000)) <;> simp

omit [IsStrictOrderedRing K] in
theorem laneSphere_eq (ray : Ray K) (sphere : Sphere K) (isect : Isect K) : laneSphere F ray sphere isect = raySphere F ray sphere isect := by
  unfold laneSphere raySphere
  simp only [mdot_eq E, lit_neg_one E, msmul_eq, mnormalized_eq E, E.mulAdde]
  have ec : sphere.radius * -sphere.radius + V3.dot (ray.origin.sub sphere.center) (ray.origin.sub sphere.center) =
      V3.dot (ray.origin.sub sphere.center) (ray.origin.sub sphere.center) - sphere.radius * sphere.radius := by ring
  rw [ec, ← sub_eq_add_neg]
  split <;> simp_all

theorem almostEq_self (a : Isect K) : a.almostEq F a = true := by
  have h : ∀ x : K, F.lt (F.abs (x - x)) (F.lit 0.001) = true := by
    intro x
    rw [E.lt, E.abs, E.lit, sub_self, neg_zero, max_self]
    have : (0 : K) < ((0.001 : ℚ) : K) := by
      rw [← Rat.cast_zero, Rat.cast_lt]; norm_num
    exact this
  unfold Isect.almostEq V3.almostEq
  simp only [h, Bool.and_self, beq_self_eq_true]

end

/-- The debug assertions pass if every lane agrees with the scalar algorithm and nothing differs from itself. -/
theorem debugCheck_ok {α : Type} [Sub α] {n : Nat} (F : Fns α) (dbg : Bool) (scalar : Ray α → Isect α → Isect α) (ray : Ray (Vec α n)) (old new : IsectN α n)
    (hs : ∀ i (h : i < n), (scalar (ray.lane i h) (old.lane i h)).almostEq F (new.lane i h) = true) : debugCheck F dbg scalar ray old new = .ok new := by
  unfold debugCheck
  cases dbg
  · rfl
  · rw [if_pos rfl]
    have := forRange_inv (lo := 0) (hi := n) (fun _ _ => True) (checkLane F scalar ray old new) (Nat.zero_le n) (init := ()) trivial (by
      intro i s _ hi _
      refine ⟨(), ?_, trivial⟩
      unfold checkLane
      rw [IsectN.get_lane _ i hi, Ray.get_lane _ i hi, IsectN.get_lane _ i hi]
      simp only [R_ok_bind, hs i hi, if_true]; rfl)
    obtain ⟨r, e, -⟩ := this
    rw [e]; rfl

theorem foldlM_panic {body : Unit → Nat → R Unit} :
    ∀ (l : List Nat) (i : Nat), (∀ i ∈ l, body () i = .ok () ∨ body () i = .error .panic) → i ∈ l → body () i ≠ .ok () →
    l.foldlM body () = .error .panic := by
  intro l
  induction l with
  | nil => intro i _ hi; cases hi
  | cons a l ih =>
    intro i hb hi hne
    rw [List.foldlM_cons]
    rcases hb a (by simp) with e | e
    · rw [e]
      rcases List.mem_cons.1 hi with rfl | hi
      · exact absurd e hne
      · exact ih i (fun j hj => hb j (by simp [hj])) hi hne
    · rw [e]; rfl

/-- They panic otherwise. -/
theorem debugCheck_panic {α : Type} [Sub α] {n : Nat} (F : Fns α) (scalar : Ray α → Isect α → Isect α) (ray : Ray (Vec α n)) (old new : IsectN α n)
    (hs : ¬ ∀ i (h : i < n), (scalar (ray.lane i h) (old.lane i h)).almostEq F (new.lane i h) = true) :
    debugCheck F true scalar ray old new = .error .panic := by
  have hb : ∀ i (h : i < n), checkLane F scalar ray old new () i =
      if (scalar (ray.lane i h) (old.lane i h)).almostEq F (new.lane i h) then .ok () else .error .panic := by
    intro i hi
    unfold checkLane
    rw [IsectN.get_lane _ i hi, Ray.get_lane _ i hi, IsectN.get_lane _ i hi]
    rfl
  push Not at hs
  obtain ⟨i, h, hi⟩ := hs
  unfold debugCheck
  rw [if_pos rfl]
  have : forRange 0 n (checkLane F scalar ray old new) () = .error .panic := by
    unfold forRange
    apply foldlM_panic (i := i)
    · intro j hj
      rw [hb j (by simp at hj; omega)]; split <;> simp
    · simp; omega
    · rw [hb i h, if_neg hi]; simp
  rw [this]; rfl

end PackedSimd.Ex.Ao
