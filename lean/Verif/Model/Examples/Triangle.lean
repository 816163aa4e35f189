import Verif.Model.Examples.Matrix
/-
examples/triangle_xform/src/{scalar,simd}.rs, over an arbitrary lane arithmetic and any number of lanes (`VecF = f32x8`, simd.rs:4).
-/
namespace PackedSimd.Ex

/-- Indexing and assigning an element of an array or slice: panics out of bounds. -/
def aget {β : Type} {m : Nat} (v : Vector β m) (k : Nat) : R β := if h : k < m then .ok v[k] else .error .panic
@[inherit_doc aget] def aset {β : Type} {m : Nat} (v : Vector β m) (k : Nat) (x : β) : R (Vector β m) :=
  if h : k < m then .ok (v.set k x) else .error .panic
@[inherit_doc aget] def lget {β : Type} (l : List β) (k : Nat) : R β := if h : k < l.length then .ok l[k] else .error .panic

namespace Tri

variable {α : Type} {n : Nat}

/-- `type Matrix = [[f32; 3]; 4]` (lib.rs:6). -/
abbrev Mat43 (α : Type) := Vector (Vector α 3) 4
/-- `scalar::Triangle` (scalar.rs:4-8): three vertices of three coordinates. -/
abbrev Triangle (α : Type) := Vector (Vector α 3) 3

/-- `simd::Triangle` (simd.rs:8-12). -/
structure Packed (α : Type) (n : Nat) where
  x : Vector (Vec α n) 3
  y : Vector (Vec α n) 3
  z : Vector (Vec α n) 3

section
variable [Add α] [Mul α]

/-- `scalar::Triangle::transform` (scalar.rs:13-37). -/
def transformScalar [Zero α] (self : Triangle α) (mat : Mat43 α) : R (Triangle α) := do
  let xformed : Triangle α := Vector.replicate 3 (Vector.replicate 3 0)
  let col_a ← aget mat 0
  let col_b ← aget mat 1
  let col_c ← aget mat 2
  let col_d ← aget mat 3
  forRange 0 3 (fun xformed k => do
    let v ← aget self k
    let x := (← aget col_a 0) * (← aget v 0) + (← aget col_b 0) * (← aget v 1) + (← aget col_c 0) * (← aget v 2) + (← aget col_d 0)
    let y := (← aget col_a 1) * (← aget v 0) + (← aget col_b 1) * (← aget v 1) + (← aget col_c 1) * (← aget v 2) + (← aget col_d 1)
    let z := (← aget col_a 2) * (← aget v 0) + (← aget col_b 2) * (← aget v 1) + (← aget col_c 2) * (← aget v 2) + (← aget col_d 2)
    aset xformed k #v[x, y, z]) xformed

/-- `simd::Triangle::transform` (simd.rs:61-84); `scalar * vector` and `vector + scalar` broadcast the scalar
(src/api/ops/scalar_arithmetic.rs:5-63). -/
def transformSimd [Zero α] (self : Packed α n) (mat : Mat43 α) : R (Packed α n) := do
  let tri : Packed α n := ⟨Vector.replicate 3 (splat n 0), Vector.replicate 3 (splat n 0), Vector.replicate 3 (splat n 0)⟩
  let col_a ← aget mat 0
  let col_b ← aget mat 1
  let col_c ← aget mat 2
  let col_d ← aget mat 3
  forRange 0 3 (fun tri k => do
    let x ← aget self.x k
    let y ← aget self.y k
    let z ← aget self.z k
    let row (j : Nat) : R (Vec α n) := do
      return splat n (← aget col_a j) * x + splat n (← aget col_b j) * y + splat n (← aget col_c j) * z + splat n (← aget col_d j)
    return ⟨← aset tri.x k (← row 0), ← aset tri.y k (← row 1), ← aset tri.z k (← row 2)⟩) tri
end

/-- Body of the inner loop of `pack` (simd.rs:28-36). -/
def packStep (tris : List (Triangle α)) (k : Nat) (s : Vec α n × Vec α n × Vec α n) (i : Nat) : R (Vec α n × Vec α n × Vec α n) := do
  let t ← lget tris i
  let vertex ← aget t k
  let tx ← aget vertex 0
  let ty ← aget vertex 1
  let tz ← aget vertex 2
  return (← replace s.1 i tx, ← replace s.2.1 i ty, ← replace s.2.2 i tz)

/-- `pack` (simd.rs:16-41). -/
def pack [Zero α] (n : Nat) (tris : List (Triangle α)) : R (Packed α n) :=
  if tris.length = n then
    forRange 0 3 (fun p k => do
      let s ← forRange 0 n (packStep tris k) (← aget p.x k, ← aget p.y k, ← aget p.z k)
      return ⟨← aset p.x k s.1, ← aset p.y k s.2.1, ← aset p.z k s.2.2⟩)
      (⟨Vector.replicate 3 (splat n 0), Vector.replicate 3 (splat n 0), Vector.replicate 3 (splat n 0)⟩ : Packed α n)
  else .error .panic

/-- Body of the inner loop of `unpack` (simd.rs:48-53). -/
def unpackStep (self : Packed α n) (k : Nat) (tris : Vector (Triangle α) n) (i : Nat) : R (Vector (Triangle α) n) := do
  let vtx ← aget tris i
  let v ← aget vtx k
  let v ← aset v 0 (← extract (← aget self.x k) i)
  let v ← aset v 1 (← extract (← aget self.y k) i)
  let v ← aset v 2 (← extract (← aget self.z k) i)
  aset tris i (← aset vtx k v)

/-- `unpack` (simd.rs:44-57). -/
def unpack [Zero α] (self : Packed α n) : R (List (Triangle α)) := do
  let tris ← forRange 0 3 (fun tris k => forRange 0 n (unpackStep self k) tris)
    (Vector.replicate n (Vector.replicate 3 (Vector.replicate 3 0)) : Vector (Triangle α) n)
  return tris.toList

/-- `chunks(n)`: like `chunks_exact`, with a shorter last chunk for the rest. -/
def chunks {β : Type} (n : Nat) (xs : List β) : List (List β) :=
  (List.range ((xs.length + n - 1) / n)).map fun j => (xs.drop (j * n)).take n

/-- The vector pipeline of lib.rs:44-65: pack chunks of triangles, transform them, unpack. -/
def pipeline [Zero α] [Add α] [Mul α] (n : Nat) (tris : List (Triangle α)) (mat : Mat43 α) : R (List (Triangle α)) := do
  let packed ← (chunks n tris).mapM (pack n)
  let xformed ← packed.mapM (transformSimd · mat)
  let out ← xformed.mapM unpack
  return out.flatten

end Tri
end PackedSimd.Ex
