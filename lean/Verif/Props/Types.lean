import Verif.Model.Tables
/-
C65, C66: the declarations of the vector types agree with each other.  The tables are generated from the source (tools/gen_tables.py), and each
theorem is checked on every row.
-/
namespace PackedSimd.Props
open PackedSimd

/-- Storage rows: for the portable type named by the row, the element type and count of the array it is declared for, and the lane type and
number of lanes of the machine vector. -/
theorem C65_storage (p : Nat) : ∀ s ∈ Tables.storageTable,
    s.2.2.1 = ⟨s.1, s.2.1⟩ ∧ s.2.2.2.2 = s.2.1 ∧ s.2.2.2.1.bytes p = s.1.bytes p ∧
      (s.1.kind ≠ .mask → s.2.2.2.1 = s.1) ∧ (s.1.kind = .mask → s.2.2.2.1.kind = .sint) := by
  have key : ∀ s ∈ Tables.storageTable, s.2.2.1 = ⟨s.1, s.2.1⟩ ∧ s.2.2.2.2 = s.2.1 ∧
      ((s.1.kind ≠ .mask ∧ s.2.2.2.1 = s.1) ∨ (s.1.kind = .mask ∧
        (s.1, s.2.2.2.1) ∈ [(Elem.m8, Elem.i8), (.m16, .i16), (.m32, .i32), (.m64, .i64), (.m128, .i128), (.msize, .isize)])) := by
    decide +kernel
  intro s hs
  obtain ⟨h1, h2, h3⟩ := key s hs
  refine ⟨h1, h2, ?_⟩
  rcases h3 with ⟨hk, he⟩ | ⟨hk, hm⟩
  · exact ⟨by rw [he], fun _ => he, fun h => absurd h hk⟩
  · simp only [List.mem_cons, Prod.mk.injEq, List.not_mem_nil, or_false] at hm
    rcases hm with ⟨ha, hb⟩ | ⟨ha, hb⟩ | ⟨ha, hb⟩ | ⟨ha, hb⟩ | ⟨ha, hb⟩ | ⟨ha, hb⟩ <;>
    · rw [ha, hb]
      exact ⟨rfl, fun h => absurd rfl h, fun _ => rfl⟩

/-- Every portable vector type has the lane type and lane count of its name, a constructor with that many arguments, a mask type with the same
number of lanes of the same size, a machine vector to be stored in, and (integers and masks) a bitmask integer with a bit for every lane. -/
theorem C65_declared (p : Nat) : ∀ r ∈ Tables.vectorTypes,
    r.ty = ⟨r.elem, r.lanes⟩ ∧ r.args = r.lanes ∧ 0 < r.lanes ∧ r.lanes ≤ 64 ∧
    r.mask.lanes = r.lanes ∧ r.mask.elem.kind = .mask ∧ r.mask.elem.bytes p = r.elem.bytes p ∧
    (r.elem.kind = .mask → r.mask = r.ty) ∧ (r.elem.kind ≠ .float → r.lanes ≤ r.bitmask) ∧
    (∃ s ∈ Tables.storageTable, s.2.2.1 = r.ty) ∧ (∃ m ∈ Tables.vectorTypes, m.ty = r.mask) := by
  have key : ∀ r ∈ Tables.vectorTypes,
      r.ty = ⟨r.elem, r.lanes⟩ ∧ r.args = r.lanes ∧ 0 < r.lanes ∧ r.lanes ≤ 64 ∧
      r.mask.lanes = r.lanes ∧ r.mask.elem.kind = .mask ∧
      (r.elem, r.mask.elem) ∈ [(Elem.i8, Elem.m8), (.u8, .m8), (.m8, .m8), (.i16, .m16), (.u16, .m16), (.m16, .m16),
        (.i32, .m32), (.u32, .m32), (.f32, .m32), (.m32, .m32), (.i64, .m64), (.u64, .m64), (.f64, .m64), (.m64, .m64),
        (.i128, .m128), (.u128, .m128), (.m128, .m128), (.isize, .msize), (.usize, .msize), (.msize, .msize)] ∧
      (r.elem.kind = .mask → r.mask = r.ty) ∧ (r.elem.kind ≠ .float → r.lanes ≤ r.bitmask) ∧
      (∃ s ∈ Tables.storageTable, s.2.2.1 = r.ty) ∧ (∃ m ∈ Tables.vectorTypes, m.ty = r.mask) := by
    decide +kernel
  intro r hr
  obtain ⟨h1, h2, h3, h4, h5, h6, h7, h8⟩ := key r hr
  refine ⟨h1, h2, h3, h4, h5, h6, ?_, h8⟩
  simp only [List.mem_cons, Prod.mk.injEq, List.not_mem_nil, or_false] at h7
  rcases h7 with ⟨ha, hb⟩ | ⟨ha, hb⟩ | ⟨ha, hb⟩ | ⟨ha, hb⟩ | ⟨ha, hb⟩ | ⟨ha, hb⟩ | ⟨ha, hb⟩ | ⟨ha, hb⟩ | ⟨ha, hb⟩ | ⟨ha, hb⟩ |
    ⟨ha, hb⟩ | ⟨ha, hb⟩ | ⟨ha, hb⟩ | ⟨ha, hb⟩ | ⟨ha, hb⟩ | ⟨ha, hb⟩ | ⟨ha, hb⟩ | ⟨ha, hb⟩ | ⟨ha, hb⟩ | ⟨ha, hb⟩ <;>
  · simp only [ha, hb, Elem.bytes]

/-- No type is declared twice. -/
theorem C65_distinct : (Tables.vectorTypes.map VectorRow.ty).Nodup ∧ (Tables.storageTable.map fun s => s.2.2.1).Nodup := by
  decide +kernel

example : ∃ r ∈ Tables.vectorTypes, r.ty = ⟨.i8, 64⟩ ∧ r.args = 64 ∧ r.mask = ⟨.m8, 64⟩ ∧ r.bitmask = 64 := by decide +kernel

/-- A `shuffle!` of lanes of type `e` with `n` indices is given at most one result type, which has `n` lanes of type `e`. -/
theorem C66_shuffle_type : (∀ s ∈ Tables.shuffleTable, s.2.2 = ⟨s.2.1, s.1⟩) ∧ (Tables.shuffleTable.map fun s => (s.1, s.2.1)).Nodup ∧
    ∀ s ∈ Tables.shuffleTable, ∃ r ∈ Tables.vectorTypes, r.ty = s.2.2 := by
  decide +kernel

/-- Every portable vector type except `m16x32` is the result of a `shuffle!`.  Missing from the full claim: `m16x32`. -/
theorem C66_shuffle_exists_partial : ∀ r ∈ Tables.vectorTypes, r.ty ≠ ⟨.m16, 32⟩ → (r.lanes, r.elem, r.ty) ∈ Tables.shuffleTable := by
  decide +kernel

/-- `m16x32` is a vector type, yet no `shuffle!` of 16-bit masks with 32 indices is provided. -/
theorem C66_m16x32_fails : (∃ r ∈ Tables.vectorTypes, r.ty = ⟨.m16, 32⟩) ∧ ∀ v, (32, Elem.m16, v) ∉ Tables.shuffleTable := by
  refine ⟨by decide +kernel, fun v h => ?_⟩
  have : ∀ s ∈ Tables.shuffleTable, ¬ (s.1 = 32 ∧ s.2.1 = .m16) := by decide +kernel
  exact this _ h ⟨rfl, rfl⟩

end PackedSimd.Props
