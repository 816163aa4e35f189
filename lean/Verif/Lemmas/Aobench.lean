import Verif.Model.Examples.Aobench
import Verif.Lemmas.Mandelbrot
import Verif.Lemmas.Triangle
/-
Lanes of the packet operations of aobench, for any arithmetic.
-/
namespace PackedSimd.Ex.Ao
open V3N Mandel

variable {α : Type} {n : Nat}

/-! ### Lanes -/

/-- Lane `i`. -/
def V3.lane (a : V3 (Vec α n)) (i : Nat) (h : i < n) : V3 α := ⟨a.x[i], a.y[i], a.z[i]⟩
def Ray.lane (r : Ray (Vec α n)) (i : Nat) (h : i < n) : Ray α := ⟨r.origin.lane i h, r.dir.lane i h⟩
def IsectN.lane (s : IsectN α n) (i : Nat) (h : i < n) : Isect α := ⟨s.t[i], s.p.lane i h, s.n.lane i h, s.hit[i]⟩

theorem V3N.get_lane (a : V3 (Vec α n)) (i : Nat) (h : i < n) : V3N.get a i = .ok (a.lane i h) := by
  unfold V3N.get
  rw [aget_lt _ h, aget_lt _ h, aget_lt _ h]; rfl
theorem Ray.get_lane (r : Ray (Vec α n)) (i : Nat) (h : i < n) : r.get i = .ok (r.lane i h) := by
  unfold Ray.get
  rw [V3N.get_lane _ i h, V3N.get_lane _ i h]; rfl
theorem IsectN.get_lane (s : IsectN α n) (i : Nat) (h : i < n) : s.get i = .ok (s.lane i h) := by
  unfold IsectN.get
  rw [aget_lt _ h, aget_lt _ h, V3N.get_lane _ i h, V3N.get_lane _ i h]; rfl

theorem mand_get (a b : Vec Bool n) (i : Nat) (h : i < n) : (mand a b)[i] = (a[i] && b[i]) := Vector.getElem_zipWith ..
theorem mor_get (a b : Vec Bool n) (i : Nat) (h : i < n) : (mor a b)[i] = (a[i] || b[i]) := Vector.getElem_zipWith ..
theorem mnot_get (a : Vec Bool n) (i : Nat) (h : i < n) : (mnot a)[i] = !a[i] := Vector.getElem_map ..
theorem vcmp_get (p : α → α → Bool) (a b : Vec α n) (i : Nat) (h : i < n) : (vcmp p a b)[i] = p a[i] b[i] := Vector.getElem_zipWith ..
theorem sel_get (m : Vec Bool n) (a b : Vec α n) (i : Nat) (h : i < n) : (sel m a b)[i] = if m[i] then a[i] else b[i] := by
  simp [sel]
theorem map_get {β : Type} (f : α → β) (v : Vec α n) (i : Nat) (h : i < n) : (v.map f)[i] = f v[i] := Vector.getElem_map ..

theorem many_false {m : Vec Bool n} (hm : ¬ many m = true) (i : Nat) (h : i < n) : m[i] = false := by
  unfold many at hm
  rw [List.any_eq_true] at hm
  by_contra hc
  exact hm ⟨m[i], by simp [Vector.getElem_mem], by simpa using hc⟩
theorem many_true {m : Vec Bool n} : many m = true ↔ ∃ i, ∃ h : i < n, m[i] = true := by
  unfold many
  rw [List.any_eq_true]
  constructor
  · rintro ⟨b, hb, e⟩
    obtain ⟨i, hi, rfl⟩ := List.getElem_of_mem hb
    exact ⟨i, by simpa using hi, by simpa using e⟩
  · rintro ⟨i, h, e⟩
    exact ⟨m[i], by simp [Vector.getElem_mem], by simpa using e⟩

theorem V3.ext' {β : Type} {a b : V3 β} (hx : a.x = b.x) (hy : a.y = b.y) (hz : a.z = b.z) : a = b := by
  cases a; cases b; simp only at hx hy hz; subst hx hy hz; rfl

theorem sel3_lane (m : Vec Bool n) (a b : V3 (Vec α n)) (i : Nat) (h : i < n) :
    (sel3 m a b).lane i h = if m[i] then a.lane i h else b.lane i h := by
  unfold sel3 V3.lane
  simp only [sel_get]
  cases m[i] <;> rfl

variable [Add α] [Sub α] [Mul α] [Div α] [Neg α] (F : Fns α)

theorem vmulAdde_get (a b c : Vec α n) (i : Nat) (h : i < n) : (vmulAdde F a b c)[i] = F.mulAdde a[i] b[i] c[i] := by
  simp [vmulAdde]
theorem vneg_get (v : Vec α n) (i : Nat) (h : i < n) : (vneg F v)[i] = F.lit (-1) * v[i] := by
  unfold vneg; rw [vmul_get, splat_get]

/-! ### The packet operations on one lane -/

/-- The dot product as the packets compute it. -/
def mdot (a o : V3 α) : α := F.mulAdde a.x o.x (F.mulAdde a.y o.y (a.z * o.z))
def msmul (k : α) (a : V3 α) : V3 α := ⟨k * a.x, k * a.y, k * a.z⟩
def mnormalized (a : V3 α) : V3 α := msmul (F.lit 1 / F.sqrt (mdot F a a)) a

theorem dot_get (a o : V3 (Vec α n)) (i : Nat) (h : i < n) : (V3N.dot F a o)[i] = mdot F (a.lane i h) (o.lane i h) := by
  unfold V3N.dot mdot V3.lane
  rw [vmulAdde_get, vmulAdde_get, vmul_get]
theorem dotV_get (a : V3 (Vec α n)) (o : V3 α) (i : Nat) (h : i < n) : (V3N.dotV F a o)[i] = mdot F (a.lane i h) o := by
  unfold V3N.dotV mdot V3.lane
  rw [vmulAdde_get, vmulAdde_get, vmul_get, splat_get, splat_get, splat_get]
theorem smul_lane (k : Vec α n) (a : V3 (Vec α n)) (i : Nat) (h : i < n) : (V3N.smul k a).lane i h = msmul k[i] (a.lane i h) := by
  unfold V3N.smul msmul V3.lane; simp only [vmul_get]
theorem add_lane (a o : V3 (Vec α n)) (i : Nat) (h : i < n) : (V3.add a o).lane i h = V3.add (a.lane i h) (o.lane i h) := by
  unfold V3.add V3.lane; simp only [vadd_get]
theorem subV_lane (a : V3 (Vec α n)) (o : V3 α) (i : Nat) (h : i < n) : (V3N.subV a o).lane i h = V3.sub (a.lane i h) o := by
  unfold V3N.subV V3.sub V3.lane; simp only [vsub_get, splat_get]
theorem splat3_lane (a : V3 α) (i : Nat) (h : i < n) : (splat3 n a).lane i h = a := by
  unfold splat3 V3.lane; simp only [splat_get]
theorem cross_lane (a o : V3 (Vec α n)) (i : Nat) (h : i < n) : (V3.cross a o).lane i h = V3.cross (a.lane i h) (o.lane i h) := by
  unfold V3.cross V3.lane; simp only [vsub_get, vmul_get]
theorem normalized_lane (a : V3 (Vec α n)) (i : Nat) (h : i < n) : (V3N.normalized F a).lane i h = mnormalized F (a.lane i h) := by
  unfold V3N.normalized mnormalized
  simp only [smul_lane, vdiv_get, splat_get, map_get, dot_get F a a i h]

/-- `RayxN::intersect(&Plane)` on one lane. -/
def lanePlane (ray : Ray α) (plane : Plane α) (isect : Isect α) : Isect α :=
  let v := mdot F ray.dir plane.n
  let m := F.ge (F.abs v) (F.lit (1 / 100000000000000000))
  let t := if m then F.lit (-1) * (mdot F ray.origin plane.n + -V3.dot plane.p plane.n) / v else isect.t
  if m && F.gt t (F.lit 0) && F.lt t isect.t then ⟨t, V3.add ray.origin (msmul t ray.dir), plane.n, true⟩ else isect

/-- `RayxN::intersect(&Sphere)` on one lane. -/
def laneSphere (ray : Ray α) (sphere : Sphere α) (isect : Isect α) : Isect α :=
  let rs := V3.sub ray.origin sphere.center
  let b := mdot F rs ray.dir
  let c := F.mulAdde sphere.radius (F.lit (-1) * sphere.radius) (mdot F rs rs)
  let d := F.mulAdde b b (F.lit (-1) * c)
  let m := F.gt d (F.lit 0)
  let t := if m then F.lit (-1) * b - F.sqrt d else isect.t
  if m && F.gt t (F.lit 0) && F.lt t isect.t then
    let p := V3.add ray.origin (msmul t ray.dir)
    ⟨t, p, mnormalized F (V3.sub p sphere.center), true⟩
  else isect

theorem ite_lane (b : Bool) (x y : IsectN α n) (i : Nat) (h : i < n) :
    (if b = true then x else y).lane i h = if b = true then x.lane i h else y.lane i h := by cases b <;> rfl

theorem rayPlaneN_lane (ray : Ray (Vec α n)) (plane : Plane α) (isect : IsectN α n) (i : Nat) (h : i < n) :
    (rayPlaneN F ray plane isect).lane i h = lanePlane F (ray.lane i h) plane (isect.lane i h) := by
  unfold rayPlaneN lanePlane
  simp only
  have ev : (dotV F ray.dir plane.n)[i] = mdot F (ray.lane i h).dir plane.n := dotV_get F _ _ i h
  have em : (vcmp F.ge ((dotV F ray.dir plane.n).map F.abs) (splat n (F.lit (1 / 100000000000000000))))[i] =
      F.ge (F.abs (mdot F (ray.lane i h).dir plane.n)) (F.lit (1 / 100000000000000000)) := by
    rw [vcmp_get, map_get, splat_get, ev]
  generalize hmv : vcmp F.ge ((dotV F ray.dir plane.n).map F.abs) (splat n (F.lit (1 / 100000000000000000))) = M at em
  have et : (sel M (vneg F (dotV F ray.origin plane.n + splat n (-V3.dot plane.p plane.n)) / dotV F ray.dir plane.n) isect.t)[i] =
      if M[i] then F.lit (-1) * (mdot F (ray.lane i h).origin plane.n + -V3.dot plane.p plane.n) / mdot F (ray.lane i h).dir plane.n
      else (isect.lane i h).t := by
    rw [sel_get, vdiv_get, vneg_get, vadd_get, splat_get, ev, dotV_get F _ _ i h]; rfl
  generalize sel M (vneg F (dotV F ray.origin plane.n + splat n (-V3.dot plane.p plane.n)) / dotV F ray.dir plane.n) isect.t = T at et
  by_cases h1 : many M = true
  · rw [if_pos h1]
    have em2 : (mand (mand M (vcmp F.gt T (splat n (F.lit 0)))) (vcmp F.lt T isect.t))[i] = (M[i] && F.gt T[i] (F.lit 0) && F.lt T[i] (isect.lane i h).t) := by
      rw [mand_get, mand_get, vcmp_get, vcmp_get, splat_get]; rfl
    generalize mand (mand M (vcmp F.gt T (splat n (F.lit 0)))) (vcmp F.lt T isect.t) = M2 at em2
    rw [← em, ← et, ← em2]
    by_cases h2 : many M2 = true
    · rw [if_pos h2]
      simp only [IsectN.lane, sel_get, sel3_lane, mor_get, add_lane, smul_lane, splat3_lane]
      cases M2[i]
      · simp
      · simp; rfl
    · rw [if_neg h2, many_false h2 i h]; rfl
  · have e0 := many_false h1 i h
    rw [if_neg h1, ← em, e0]; rfl

theorem raySphereN_lane (ray : Ray (Vec α n)) (sphere : Sphere α) (isect : IsectN α n) (i : Nat) (h : i < n) :
    (raySphereN F ray sphere isect).lane i h = laneSphere F (ray.lane i h) sphere (isect.lane i h) := by
  unfold raySphereN laneSphere
  simp only
  have ers : (subV ray.origin sphere.center).lane i h = V3.sub (ray.lane i h).origin sphere.center := subV_lane _ _ i h
  generalize subV ray.origin sphere.center = RS at ers
  have eb : (V3N.dot F RS ray.dir)[i] = mdot F (V3.sub (ray.lane i h).origin sphere.center) (ray.lane i h).dir := by
    rw [dot_get F _ _ i h, ers]; rfl
  generalize V3N.dot F RS ray.dir = B at eb
  have ec : (vmulAdde F (splat n sphere.radius) (vneg F (splat n sphere.radius)) (V3N.dot F RS RS))[i] =
      F.mulAdde sphere.radius (F.lit (-1) * sphere.radius)
        (mdot F (V3.sub (ray.lane i h).origin sphere.center) (V3.sub (ray.lane i h).origin sphere.center)) := by
    rw [vmulAdde_get, splat_get, vneg_get, splat_get, dot_get F _ _ i h, ers]
  generalize vmulAdde F (splat n sphere.radius) (vneg F (splat n sphere.radius)) (V3N.dot F RS RS) = C at ec
  have ed : (vmulAdde F B B (vneg F C))[i] = F.mulAdde B[i] B[i] (F.lit (-1) * C[i]) := by rw [vmulAdde_get, vneg_get]
  generalize vmulAdde F B B (vneg F C) = D at ed
  rw [← ec, ← eb, ← ed]
  have em : (vcmp F.gt D (splat n (F.lit 0)))[i] = F.gt D[i] (F.lit 0) := by rw [vcmp_get, splat_get]
  generalize vcmp F.gt D (splat n (F.lit 0)) = M at em
  have et : (sel M (vneg F B - D.map F.sqrt) isect.t)[i] = if M[i] then F.lit (-1) * B[i] - F.sqrt D[i] else (isect.lane i h).t := by
    rw [sel_get, vsub_get, vneg_get, map_get]; rfl
  generalize sel M (vneg F B - D.map F.sqrt) isect.t = T at et
  by_cases h1 : many M = true
  · rw [if_pos h1]
    have em2 : (mand (mand M (vcmp F.gt T (splat n (F.lit 0)))) (vcmp F.lt T isect.t))[i] = (M[i] && F.gt T[i] (F.lit 0) && F.lt T[i] (isect.lane i h).t) := by
      rw [mand_get, mand_get, vcmp_get, vcmp_get, splat_get]; rfl
    generalize mand (mand M (vcmp F.gt T (splat n (F.lit 0)))) (vcmp F.lt T isect.t) = M2 at em2
    rw [← em, ← et, ← em2]
    by_cases h2 : many M2 = true
    · rw [if_pos h2]
      simp only [IsectN.lane, sel_get, sel3_lane, mor_get, add_lane, smul_lane, normalized_lane, subV_lane]
      cases M2[i]
      · simp
      · simp; constructor <;> rfl
    · rw [if_neg h2, many_false h2 i h]; rfl
  · have e0 := many_false h1 i h
    rw [if_neg h1, ← em, e0]; rfl

end PackedSimd.Ex.Ao
