import Verif.Model.Examples.Stencil
/-
examples/stencil/src/lib.rs: the `Data` of a run, and the comparison the tests use.
-/
namespace PackedSimd.Ex.Stencil

variable {α : Type} [Add α] [Sub α] [Mul α]

/-- `Data` (lib.rs:22-32). -/
structure Data (α : Type) where
  a : List α × List α
  vsq : List α
  coeff : Vector α 4
  n : Int × Int × Int
  t : Int × Int
  x : Int × Int
  y : Int × Int
  z : Int × Int

/-- What depends on the target, the build and the arithmetic: `ofInt` is `as f32`, `coeff` the literal `[0.5, -0.25, 0.125, -0.0625]`. -/
structure Setting (α : Type) where
  t : Target
  dbg : Bool
  two : α
  negOne : α
  fma : α → α → α → α
  ofInt : Int → α
  coeff : Vector α 4

variable (S : Setting α)

/-- `Data::new` (lib.rs:55-73). -/
def Data.new [Div α] [Zero α] (t0 t1 x0 x1 y0 y1 z0 z1 nx ny nz : Int) : R (Data α) := do
  let g ← dataNew S.t S.dbg S.ofInt nx ny nz
  return ⟨(g.even, g.odd), g.vsq, S.coeff, (nx, ny, nz), (t0, t1), (x0, x1), (y0, y1), (z0, z1)⟩

/-- `Data::from_bounds` (lib.rs:43-52). -/
def Data.fromBounds [Div α] [Zero α] (maxT width nx ny nz : Int) : R (Data α) := do
  let x1 ← i32 S.dbg (nx - width)
  let y1 ← i32 S.dbg (ny - width)
  let z1 ← i32 S.dbg (nz - width)
  Data.new S 0 maxT width x1 width y1 width z1 nx ny nz

/-- `Data::default` (lib.rs:35-37). -/
def Data.default [Div α] [Zero α] : R (Data α) := Data.fromBounds S 6 4 128 128 128
/-- `Data::benchmark` (lib.rs:39-41). -/
def Data.benchmark [Div α] [Zero α] : R (Data α) := Data.fromBounds S 6 4 256 256 256

/-- The parameters of the functions `exec` takes: times, box, grid, coefficients, `vsq` and the two grids; they change the two grids. -/
abbrev Program (α : Type) := (t0 t1 x0 x1 y0 y1 z0 z1 nx ny nz : Int) → Vector α 4 → (vsq even odd : List α) → R (List α × List α)

/-- `Data::exec` (lib.rs:99-112). -/
def Data.exec (f : Program α) (d : Data α) : R (Data α) := do
  let a ← f d.t.1 d.t.2 d.x.1 d.x.2 d.y.1 d.y.2 d.z.1 d.z.2 d.n.1 d.n.2.1 d.n.2.2 d.coeff d.vsq d.a.1 d.a.2
  return { d with a }

/-- `scalar::scalar` (scalar.rs:43-61). -/
def scalarProgram : Program α := fun t0 t1 x0 x1 y0 y1 z0 z1 nx ny _ coef vsq even odd =>
  runScalar ⟨S.t, S.dbg, S.two, S.negOne, S.fma, x0, x1, y0, y1, nx, ny, coef, vsq⟩ t0 t1 z0 z1 even odd

/-- `simd::x8` (simd.rs:166-203), with any number of lanes. -/
def simdProgram (n : Nat) : Program α := fun t0 t1 x0 x1 y0 y1 z0 z1 nx ny _ coef vsq even odd =>
  runSimd ⟨S.t, S.dbg, S.two, S.negOne, S.fma, x0, x1, y0, y1, nx, ny, coef, vsq⟩ n t0 t1 z0 z1 even odd

/-- `simd_par::x8_par` (simd_par.rs:108-144), with any number of lanes and any order of the tasks. -/
def parProgram (n : Nat) (order : Int → List Nat → List Nat) : Program α := fun t0 t1 x0 x1 y0 y1 z0 z1 nx ny nz coef vsq even odd =>
  runPar ⟨S.t, S.dbg, S.two, S.negOne, S.fma, x0, x1, y0, y1, nx, ny, coef, vsq⟩ n nz order t0 t1 z0 z1 even odd

/-! ### The comparison of the tests -/

/-- `assert!`, `assert_eq!`. -/
def check (b : Bool) : R Unit := if b then .ok () else .error .panic

/-- `==` of slices and vectors of floats. -/
def listEq (beq : α → α → Bool) (l l' : List α) : Bool := l.length == l'.length && (l.zip l').all fun p => beq p.1 p.2

/-- The derived `==` of `Data`. -/
def Data.eq (beq : α → α → Bool) (a b : Data α) : Bool :=
  (listEq beq a.a.1 b.a.1 && listEq beq a.a.2 b.a.2) && listEq beq a.vsq b.vsq && listEq beq a.coeff.toList b.coeff.toList &&
    a.n == b.n && a.t == b.t && a.x == b.x && a.y == b.y && a.z == b.z

/-- The body of the loops of `assert_data_eq` (lib.rs:130-159); `close p q` is `(p - q).abs() < EPSILON`. -/
def checkCell (t : Target) (dbg : Bool) (close : α → α → Bool) (a b : Data α) (z y x : Int) : R Unit := do
  let yn ← i32 dbg (y * a.n.2.1)
  let xy ← i32 dbg (x + yn)
  let zn ← i32 dbg (z * a.n.2.1)
  let znn ← i32 dbg (zn * a.n.1)
  let idx := asUsize t (← i32 dbg (xy + znn))
  check (close (← lget a.vsq idx) (← lget b.vsq idx))
  check (close (← lget a.a.1 idx) (← lget b.a.1 idx))
  check (close (← lget a.a.2 idx) (← lget b.a.2 idx))

/-- `assert_data_eq` (lib.rs:115-163). -/
def assertDataEq (t : Target) (dbg : Bool) (beq close : α → α → Bool) (a b : Data α) : R Unit :=
  if a.eq beq b then .ok () else do
    check (listEq beq a.coeff.toList b.coeff.toList)
    check (a.n == b.n)
    check (a.t == b.t)
    check (a.x == b.x)
    check (a.y == b.y)
    check (a.z == b.z)
    forInt 0 a.n.2.2 (fun _ z => forInt 0 a.n.2.1 (fun _ y => forInt 0 a.n.1 (fun _ x => checkCell t dbg close a b z y x) ()) ()) ()

end PackedSimd.Ex.Stencil
