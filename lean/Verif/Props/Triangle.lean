import Verif.Lemmas.Triangle
/-
C54: struct-of-arrays packing of triangles.
-/
namespace PackedSimd.Props
open PackedSimd Ex Ex.Tri

variable {α : Type} {n : Nat} [Zero α]

/-- The image of a point under the affine map whose columns are the first three rows of `mat` and whose translation is the fourth, with the
operations grouped as a programmer writes `a*x + b*y + c*z + d`. -/
def affine [Add α] [Mul α] (mat : Mat43 α) (v : Vector α 3) : Vector α 3 :=
  #v[mat[0][0] * v[0] + mat[1][0] * v[1] + mat[2][0] * v[2] + mat[3][0],
     mat[0][1] * v[0] + mat[1][1] * v[1] + mat[2][1] * v[2] + mat[3][1],
     mat[0][2] * v[0] + mat[1][2] * v[1] + mat[2][2] * v[2] + mat[3][2]]

theorem xform_eq [Add α] [Mul α] (t : Triangle α) (mat : Mat43 α) : xform t mat = t.map (affine mat) := by
  ext k hk j hj
  match j, hj with
  | 0, _ => simp [xform, affine]
  | 1, _ => simp [xform, affine]
  | 2, _ => simp [xform, affine]

theorem toList_of_length {β : Type} (l : List β) (h : l.length = n) : ∃ v : Vector β n, v.toList = l :=
  ⟨⟨l.toArray, by simpa using h⟩, by simp⟩

/-- `pack` panics exactly when the number of triangles is not the number of lanes. -/
theorem C54_pack_panics_iff [LaneCount n] (ts : List (Triangle α)) : pack n ts = .error .panic ↔ ts.length ≠ n := by
  constructor
  · intro h hl
    obtain ⟨v, rfl⟩ := toList_of_length ts hl
    rw [pack_eq] at h
    cases h
  · intro h
    unfold pack
    rw [if_neg h]

/-- Packing puts coordinate `c` of vertex `k` of triangle `i` in lane `i` of the `k`-th vector of that coordinate. -/
theorem C54_pack_lanes [LaneCount n] (ts : List (Triangle α)) (hl : ts.length = n) :
    ∃ p, pack n ts = .ok p ∧ ∀ i (hi : i < n) k (hk : k < 3),
      p.x[k][i] = ts[i][k][0] ∧ p.y[k][i] = ts[i][k][1] ∧ p.z[k][i] = ts[i][k][2] := by
  obtain ⟨v, rfl⟩ := toList_of_length ts hl
  refine ⟨_, pack_eq v, fun i hi k hk => ?_⟩
  simp [packOf]

/-- Unpacking what was packed gives the same triangles in the same order. -/
theorem C54_roundtrip [LaneCount n] (ts : List (Triangle α)) (hl : ts.length = n) :
    ∃ p, pack n ts = .ok p ∧ unpack p = .ok ts := by
  obtain ⟨v, rfl⟩ := toList_of_length ts hl
  exact ⟨_, pack_eq v, unpack_packOf v⟩

/-- Packing what was unpacked gives the same vectors. -/
theorem C54_roundtrip' [LaneCount n] (p : Packed α n) : ∃ ts, unpack p = .ok ts ∧ pack n ts = .ok p := by
  refine ⟨_, unpack_eq p, (pack_eq _).trans ?_⟩
  obtain ⟨x, y, z⟩ := p
  simp only [packOf, Except.ok.injEq, Packed.mk.injEq]
  refine ⟨?_, ?_, ?_⟩ <;>
  · ext k hk i hi
    simp

/-- The scalar transformation applies the affine map to every vertex. -/
theorem C54_scalar [Add α] [Mul α] (t : Triangle α) (mat : Mat43 α) : transformScalar t mat = .ok (t.map (affine mat)) := by
  rw [transformScalar_eq, xform_eq]

/-- Transforming packed triangles and unpacking gives, bit for bit in any arithmetic, the triangles transformed one by one. -/
theorem C54_transform [LaneCount n] [Add α] [Mul α] (ts : List (Triangle α)) (hl : ts.length = n) (mat : Mat43 α) :
    ∃ p q rs, pack n ts = .ok p ∧ transformSimd p mat = .ok q ∧ unpack q = .ok rs ∧
      ts.mapM (transformScalar · mat) = .ok rs ∧ rs = ts.map fun t => t.map (affine mat) := by
  obtain ⟨v, rfl⟩ := toList_of_length ts hl
  refine ⟨_, _, _, pack_eq v, transformSimd_eq v mat, unpack_packOf _, ?_, ?_⟩
  · rw [Math.mapM_ok _ (xform · mat) _ (fun x _ => transformScalar_eq x mat), Vector.toList_map]
  · rw [Vector.toList_map]
    exact List.map_congr_left fun t _ => xform_eq t mat

theorem chunks_nil {β : Type} (hn : 0 < n) : chunks n ([] : List β) = [] := by
  unfold chunks
  rw [List.length_nil, Nat.zero_add, Nat.div_eq_of_lt (by omega)]
  rfl

theorem chunks_short {β : Type} (xs : List β) (h0 : 0 < xs.length) (h : xs.length < n) : chunks n xs = [xs] := by
  unfold chunks
  rw [show (xs.length + n - 1) / n = 1 from (Nat.div_eq_iff (by omega)).2 ⟨by omega, by omega⟩]
  simp [List.take_of_length_le (Nat.le_of_lt h)]

theorem chunks_append {β : Type} (a xs : List β) (hn : 0 < n) (ha : a.length = n) : chunks n (a ++ xs) = a :: chunks n xs := by
  unfold chunks
  have : ((a ++ xs).length + n - 1) / n = (xs.length + n - 1) / n + 1 := by
    rw [List.length_append, ha, show n + xs.length + n - 1 = (xs.length + n - 1) + n by omega, Nat.add_div_right _ hn]
  rw [this, List.range_succ_eq_map, List.map_cons, List.map_map]
  congr 1
  · simp [← ha]
  · apply List.map_congr_left
    intro j _
    simp only [Function.comp, Nat.succ_mul, Nat.add_comm _ n, ← List.drop_drop]
    rw [← ha, List.drop_left]

theorem chunks_exact {β : Type} (hn : 0 < n) (q : Nat) (xs : List β) (h : xs.length = q * n) :
    ∃ vs : List (Vector β n), chunks n xs = vs.map Vector.toList ∧ xs = (vs.map Vector.toList).flatten := by
  induction q generalizing xs with
  | zero =>
    rw [Nat.zero_mul, List.length_eq_zero_iff] at h
    subst h
    exact ⟨[], by rw [chunks_nil hn]; rfl, rfl⟩
  | succ q ih =>
    rw [Nat.succ_mul] at h
    obtain ⟨v, hv⟩ := toList_of_length (n := n) (xs.take n) (by simp; omega)
    obtain ⟨vs, h1, h2⟩ := ih (xs.drop n) (by simp; omega)
    refine ⟨v :: vs, ?_, ?_⟩
    · conv_lhs => rw [← List.take_append_drop n xs]
      rw [chunks_append _ _ hn (by simp; omega), h1, List.map_cons, hv]
    · rw [List.map_cons, List.flatten_cons, ← h2, hv, List.take_append_drop]

theorem pack_chunks_panics [LaneCount n] (q : Nat) (xs : List (Triangle α)) (r : Nat) (hr : 0 < r) (hrn : r < n) (h : xs.length = q * n + r) :
    (chunks n xs).mapM (pack n) = .error .panic := by
  induction q generalizing xs with
  | zero =>
    rw [Nat.zero_mul, Nat.zero_add] at h
    rw [chunks_short xs (by omega) (by omega), List.mapM_cons, (C54_pack_panics_iff xs).2 (by omega)]
    rfl
  | succ q ih =>
    rw [Nat.succ_mul] at h
    have ih' := ih (xs.drop n) (by simp; omega)
    obtain ⟨v, hv⟩ := toList_of_length (n := n) (xs.take n) (by simp; omega)
    conv_lhs => rw [← List.take_append_drop n xs]
    rw [chunks_append _ _ (by omega) (by simp; omega), List.mapM_cons, ih', ← hv, pack_eq]
    rfl

theorem mapM_pack [LaneCount n] (vs : List (Vector (Triangle α) n)) :
    (vs.map Vector.toList).mapM (pack n) = .ok (vs.map packOf) := by
  induction vs with
  | nil => rfl
  | cons v vs ih => rw [List.map_cons, List.mapM_cons, pack_eq, R_ok_bind, ih, R_ok_bind]; rfl

theorem mapM_transform [Add α] [Mul α] (vs : List (Vector (Triangle α) n)) (mat : Mat43 α) :
    (vs.map packOf).mapM (transformSimd · mat) = .ok ((vs.map fun v => v.map (xform · mat)).map packOf) := by
  induction vs with
  | nil => rfl
  | cons v vs ih => rw [List.map_cons, List.mapM_cons, transformSimd_eq, R_ok_bind, ih, R_ok_bind]; rfl

theorem mapM_unpack [LaneCount n] (vs : List (Vector (Triangle α) n)) :
    (vs.map packOf).mapM unpack = .ok (vs.map Vector.toList) := by
  induction vs with
  | nil => rfl
  | cons v vs ih => rw [List.map_cons, List.mapM_cons, unpack_packOf, R_ok_bind, ih, R_ok_bind]; rfl

/-- The whole pipeline over a slice of triangles, for every length: it panics exactly when the length is not a multiple of the number of
lanes; otherwise it gives the triangles transformed one by one. -/
theorem C54_pipeline [LaneCount n] [Add α] [Mul α] (ts : List (Triangle α)) (mat : Mat43 α) :
    pipeline n ts mat = if ts.length % n = 0 then .ok (ts.map fun t => t.map (affine mat)) else .error .panic := by
  have hn : 0 < n := LaneCount.pos
  by_cases h : ts.length % n = 0
  · rw [if_pos h]
    obtain ⟨vs, h1, h2⟩ := chunks_exact hn (ts.length / n) ts (by rw [Nat.mul_comm]; have := Nat.div_add_mod ts.length n; omega)
    unfold pipeline
    rw [h1, mapM_pack vs, R_ok_bind, mapM_transform vs mat, R_ok_bind, mapM_unpack, R_ok_bind]
    refine congrArg Except.ok ?_
    conv_rhs => rw [h2]
    rw [List.map_flatten, List.map_map, List.map_map]
    congr 1
    apply List.map_congr_left
    intro v _
    rw [Function.comp_apply, Function.comp_apply, Vector.toList_map]
    exact List.map_congr_left fun t _ => xform_eq t mat
  · rw [if_neg h]
    unfold pipeline
    rw [pack_chunks_panics (ts.length / n) ts (ts.length % n) (by omega) (Nat.mod_lt _ hn)
      (by rw [Nat.mul_comm]; have := Nat.div_add_mod ts.length n; omega)]
    rfl

/-- Two lanes, four triangles of which one is shown: the repository's translation test (scalar.rs:55-69) in `f32`, and a length that is
not a multiple. -/
example :
    let f (z : Int) : F32 := F32.ofInt z / F32.ofInt 4
    let t : Triangle F32 := #v[#v[f (-2), f (-2), f 0], #v[f 2, f (-2), f 0], #v[f 0, f 2, f 0]]
    let mat : Mat43 F32 := #v[#v[f 4, f 0, f 0], #v[f 0, f 4, f 0], #v[f 0, f 0, f 4], #v[f (-1), f 2, f 4]]
    let r : Triangle F32 := #v[#v[f (-3), f 0, f 4], #v[f 1, f 0, f 4], #v[f (-1), f 4, f 4]]
    transformScalar t mat = .ok r ∧ pipeline 2 [t, r, t, t] mat = [t, r, t, t].mapM (transformScalar · mat) ∧
    (pipeline 2 [t, r, t, t] mat).toOption.bind (·[3]?) = some r ∧ pipeline 2 [t, r, t] mat = .error .panic := by decide +kernel

end PackedSimd.Props
