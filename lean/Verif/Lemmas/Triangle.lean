import Verif.Model.Examples.Triangle
import Verif.Lemmas.Lanes
import Verif.Lemmas.Mandelbrot
/-
Helper lemmas for C54, and a loop rule.
-/
namespace PackedSimd

/-- Invariant rule for `for i in lo..hi`. -/
theorem forRange_inv {σ : Type} (P : Nat → σ → Prop) (body : σ → Nat → R σ) {lo hi : Nat} {init : σ} (hle : lo ≤ hi) (h0 : P lo init)
    (hstep : ∀ i s, lo ≤ i → i < hi → P i s → ∃ s', body s i = .ok s' ∧ P (i + 1) s') :
    ∃ s, forRange lo hi body init = .ok s ∧ P hi s := by
  unfold forRange
  obtain ⟨m, rfl⟩ := Nat.exists_eq_add_of_le hle
  rw [Nat.add_sub_cancel_left]
  induction m generalizing lo init with
  | zero => exact ⟨init, rfl, h0⟩
  | succ m ih =>
    obtain ⟨s', hb, hp⟩ := hstep lo init (Nat.le_refl _) (by omega) h0
    obtain ⟨s, hs, hP⟩ := ih (lo := lo + 1) (init := s') hp (by omega) (fun i s h1 h2 hp => hstep i s (by omega) (by omega) hp)
    refine ⟨s, ?_, by rwa [show lo + (m + 1) = lo + 1 + m by omega]⟩
    rw [List.range'_succ, List.foldlM_cons, hb]
    exact hs

namespace Ex

theorem aget_lt {β : Type} {m : Nat} (v : Vector β m) {k : Nat} (h : k < m) : aget v k = .ok v[k] := dif_pos h
theorem aset_lt {β : Type} {m : Nat} (v : Vector β m) {k : Nat} (x : β) (h : k < m) : aset v k x = .ok (v.set k x) := dif_pos h
theorem lget_lt {β : Type} (l : List β) {k : Nat} (h : k < l.length) : lget l k = .ok l[k] := dif_pos h

/-- `for k in 0..3`, unrolled. -/
theorem forRange_three {σ : Type} (body : σ → Nat → R σ) (s : σ) :
    forRange 0 3 body s = (do let s ← body s 0; let s ← body s 1; body s 2) := by
  show List.foldlM body s [0, 1, 2] = _
  simp only [List.foldlM_cons, List.foldlM_nil, bind_pure]

namespace Tri
variable {α : Type} {n : Nat}

/-- What packing means, coordinate by coordinate. -/
def packOf (ts : Vector (Triangle α) n) : Packed α n :=
  ⟨Vector.ofFn fun k => Vector.ofFn fun i => ts[i][k][0], Vector.ofFn fun k => Vector.ofFn fun i => ts[i][k][1],
   Vector.ofFn fun k => Vector.ofFn fun i => ts[i][k][2]⟩

theorem set_ofFn {β : Type} (f : Fin 3 → β) (g : Fin 3 → β) :
    ((((Vector.ofFn f).set 0 (g 0)).set 1 (g 1)).set 2 (g 2)) = Vector.ofFn g := by
  ext i hi
  match i, hi with
  | 0, _ => simp
  | 1, _ => simp
  | 2, _ => simp

theorem pack_inner [LaneCount n] (ts : Vector (Triangle α) n) (k : Nat) (hk : k < 3) (s : Vec α n × Vec α n × Vec α n) :
    forRange 0 n (packStep ts.toList k) s =
      .ok (Vector.ofFn fun i => ts[i][k][0], Vector.ofFn fun i => ts[i][k][1], Vector.ofFn fun i => ts[i][k][2]) := by
  obtain ⟨s', h1, h2⟩ := forRange_inv (fun m (s : Vec α n × Vec α n × Vec α n) => ∀ i (hi : i < n), i < m →
      s.1[i] = ts[i][k][0] ∧ s.2.1[i] = ts[i][k][1] ∧ s.2.2[i] = ts[i][k][2])
    (packStep ts.toList k) (Nat.zero_le n) (init := s)
    (fun i _ h => absurd h (by omega)) (by
      intro m s _ hm ih
      unfold packStep
      rw [lget_lt _ (by simpa using hm)]
      simp only [R_ok_bind, aget_lt _ hk, aget_lt _ (by omega : 0 < 3), aget_lt _ (by omega : 1 < 3), aget_lt _ (by omega : 2 < 3),
        replace_of_lt _ hm, Vector.getElem_toList]
      refine ⟨_, rfl, fun i hi him => ?_⟩
      simp only [Vector.getElem_set]
      by_cases h : m = i
      · subst h; simp
      · simp only [if_neg h]; exact ih i hi (by omega))
  rw [h1]
  congr 1
  obtain ⟨a, b, c⟩ := s'
  simp only [Prod.mk.injEq]
  refine ⟨?_, ?_, ?_⟩ <;>
  · ext i hi
    simp [h2 i hi hi]

theorem pack_eq [LaneCount n] [Zero α] (ts : Vector (Triangle α) n) : pack n ts.toList = .ok (packOf ts) := by
  unfold pack
  rw [if_pos (by simp), forRange_three]
  simp only [aget_lt _ (by omega : 0 < 3), aget_lt _ (by omega : 1 < 3), aget_lt _ (by omega : 2 < 3), R_ok_bind,
    aset_lt _ _ (by omega : 0 < 3), aset_lt _ _ (by omega : 1 < 3), aset_lt _ _ (by omega : 2 < 3),
    pack_inner ts 0 (by omega), pack_inner ts 1 (by omega), pack_inner ts 2 (by omega), pure, Except.pure]
  congr 1

theorem unpack_inner [LaneCount n] (p : Packed α n) (k : Nat) (hk : k < 3) (ts : Vector (Triangle α) n) :
    forRange 0 n (unpackStep p k) ts =
      .ok (Vector.ofFn fun i => ts[i].set k #v[p.x[k][i], p.y[k][i], p.z[k][i]]) := by
  obtain ⟨s', h1, h2⟩ := forRange_inv (fun m (s : Vector (Triangle α) n) => ∀ i (hi : i < n),
      s[i] = if i < m then ts[i].set k #v[p.x[k][i], p.y[k][i], p.z[k][i]] else ts[i])
    (unpackStep p k) (Nat.zero_le n) (init := ts)
    (fun i hi => by simp) (by
      intro m s _ hm ih
      unfold unpackStep
      simp only [R_ok_bind, aget_lt _ hk, aget_lt _ hm, aset_lt _ _ hk, aset_lt _ _ hm, extract_of_lt _ hm,
        aset_lt _ _ (by omega : 0 < 3), aset_lt _ _ (by omega : 1 < 3), aset_lt _ _ (by omega : 2 < 3)]
      refine ⟨_, rfl, fun i hi => ?_⟩
      rw [Vector.getElem_set]
      by_cases h : m = i
      · subst h
        rw [if_pos rfl, if_pos (by omega), ih m hi, if_neg (by omega)]
        congr 1
        ext j hj
        match j, hj with
        | 0, _ => simp
        | 1, _ => simp
        | 2, _ => simp
      · rw [if_neg h, ih i hi]
        by_cases h' : i < m
        · rw [if_pos h', if_pos (by omega)]
        · rw [if_neg h', if_neg (by omega)])
  rw [h1]
  congr 1
  ext i hi : 1
  rw [h2 i hi, if_pos hi, Vector.getElem_ofFn]
  rfl

theorem unpack_eq [LaneCount n] [Zero α] (p : Packed α n) :
    unpack p = .ok (Vector.ofFn fun i : Fin n => (Vector.ofFn fun k : Fin 3 => #v[p.x[k][i], p.y[k][i], p.z[k][i]] : Triangle α)).toList := by
  unfold unpack
  rw [forRange_three]
  simp only [unpack_inner p 0 (by omega), unpack_inner p 1 (by omega), unpack_inner p 2 (by omega), R_ok_bind, pure, Except.pure]
  congr 2
  ext i hi : 1
  ext k hk : 1
  match k, hk with
  | 0, _ => simp
  | 1, _ => simp
  | 2, _ => simp

theorem unpack_packOf [LaneCount n] [Zero α] (ts : Vector (Triangle α) n) : unpack (packOf ts) = .ok ts.toList := by
  rw [unpack_eq]
  congr 2
  ext i hi k hk j hj
  simp only [packOf, Vector.getElem_ofFn, Fin.getElem_fin]
  match j, hj with
  | 0, _ => rfl
  | 1, _ => rfl
  | 2, _ => rfl

variable [Zero α] [Add α] [Mul α]

/-- The transformation, coordinate by coordinate. -/
def xform (t : Triangle α) (mat : Mat43 α) : Triangle α :=
  Vector.ofFn fun k => Vector.ofFn fun j =>
    mat[0][j] * t[k][0] + mat[1][j] * t[k][1] + mat[2][j] * t[k][2] + mat[3][j]

theorem transformScalar_eq (t : Triangle α) (mat : Mat43 α) : transformScalar t mat = .ok (xform t mat) := by
  unfold transformScalar
  simp only [aget_lt _ (by omega : 0 < 4), aget_lt _ (by omega : 1 < 4), aget_lt _ (by omega : 2 < 4), aget_lt _ (by omega : 3 < 4), R_ok_bind,
    aget_lt _ (by omega : 0 < 3), aget_lt _ (by omega : 1 < 3), aget_lt _ (by omega : 2 < 3), forRange_three,
    aset_lt _ _ (by omega : 0 < 3), aset_lt _ _ (by omega : 1 < 3), aset_lt _ _ (by omega : 2 < 3)]
  congr 1

theorem transformSimd_eq (ts : Vector (Triangle α) n) (mat : Mat43 α) :
    transformSimd (packOf ts) mat = .ok (packOf (ts.map (xform · mat))) := by
  unfold transformSimd
  simp only [aget_lt _ (by omega : 0 < 4), aget_lt _ (by omega : 1 < 4), aget_lt _ (by omega : 2 < 4), aget_lt _ (by omega : 3 < 4), R_ok_bind,
    aget_lt _ (by omega : 0 < 3), aget_lt _ (by omega : 1 < 3), aget_lt _ (by omega : 2 < 3), forRange_three,
    aset_lt _ _ (by omega : 0 < 3), aset_lt _ _ (by omega : 1 < 3), aset_lt _ _ (by omega : 2 < 3), pure, Except.pure]
  congr 1
  unfold packOf
  rw [Packed.mk.injEq]
  refine ⟨?_, ?_, ?_⟩ <;>
  · ext k hk i hi
    match k, hk with
    | 0, _ => simp [xform, Mandel.vadd_get, Mandel.vmul_get, splat]
    | 1, _ => simp [xform, Mandel.vadd_get, Mandel.vmul_get, splat]
    | 2, _ => simp [xform, Mandel.vadd_get, Mandel.vmul_get, splat]

end Tri
end Ex
end PackedSimd
