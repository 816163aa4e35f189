import Verif.Model.Minimal
/-
src/api/fmt/{debug,lower_hex,upper_hex,octal,binary}.rs, the `Debug` impls of pointer vectors (src/api/minimal/ptr.rs:210-228) and of
the scalar masks (src/masks.rs:106-111).
The formatter is an arbitrary sink: `write_str` may fail, and what was written before a failure stays written.
The formatting of one scalar lane is std's, here an arbitrary action on the sink.
-/
namespace PackedSimd
namespace Fmt

/-- State of the sink after an action, and whether the action returned `Ok(())`. -/
abbrev Outcome (σ : Type) := σ × Bool

/-- `core::fmt::Formatter`: its `write_str`. -/
structure Sink (σ : Type) where
  writeStr : List Char → σ → Outcome σ

variable {σ α : Type} {n : Nat}

/-- `e?; k` : go on only after `Ok`. -/
def andThen (r : Outcome σ) (k : σ → R (Outcome σ)) : R (Outcome σ) := if r.2 then k r.1 else .ok r

/-- The common body (debug.rs:47-56, lower_hex.rs:7-16, upper_hex.rs:7-16, octal.rs:7-16, binary.rs:7-16): `extract` is the vector's `extract`,
`lane` the scalar's `fmt` of the same trait.  `write!(f, "{}(", name)` makes two `write_str` calls. -/
def fmtLanes (S : Sink σ) (openPieces : List (List Char)) (n : Nat) (extract : Nat → R α) (lane : α → σ → Outcome σ) (f : σ) : R (Outcome σ) := do
  let r ← openPieces.foldlM (fun r p => andThen r fun f => .ok (S.writeStr p f)) (f, true)
  let r ← forRange 0 n (fun r i => andThen r fun f => do
    let r ← if i > 0 then .ok (S.writeStr [',', ' '] f) else .ok (f, true)
    andThen r fun f => do
      let x ← extract i
      return lane x f) r
  andThen r fun f => .ok (S.writeStr [')'] f)

/-- `fmt` of integer and float vectors. -/
def fmtVec (S : Sink σ) (name : List Char) (lane : α → σ → Outcome σ) (v : Vec α n) (f : σ) : R (Outcome σ) :=
  fmtLanes S [name, ['(']] n (extract v) lane f

/-- `fmt` of mask vectors: lanes are extracted as `bool` (src/api.rs:250). -/
def fmtMask {w : Nat} (S : Sink σ) (name : List Char) (lane : Bool → σ → Outcome σ) (v : Vec (BitVec w) n) (f : σ) : R (Outcome σ) :=
  fmtLanes S [name, ['(']] n (Mask.extract v) lane f

/-- `Debug` of pointer vectors (ptr.rs:210-228): `write!(f, "{}<{}>(", name, type_name::<T>())`. -/
def fmtPtr (S : Sink σ) (name tyName : List Char) (lane : α → σ → Outcome σ) (v : Vec α n) (f : σ) : R (Outcome σ) :=
  fmtLanes S [name, ['<'], tyName, ['>', '(']] n (extract v) lane f

/-- `Display` of `bool` in std, through `write_str` (no width given). -/
def boolText (b : Bool) : List Char := if b then ['t', 'r', 'u', 'e'] else ['f', 'a', 'l', 's', 'e']

/-- `Debug` of a scalar mask (masks.rs:106-111): `write!(f, "{}({})", name, self.0 != 0)`. -/
def fmtScalarMask {w : Nat} (S : Sink σ) (name : List Char) (x : BitVec w) (f : σ) : R (Outcome σ) :=
  [name, ['('], boolText (x != 0#w), [')']].foldlM (fun r p => andThen r fun f => .ok (S.writeStr p f)) (f, true)

end Fmt
end PackedSimd
