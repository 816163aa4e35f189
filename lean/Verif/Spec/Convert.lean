import Verif.Model.Types
import Verif.Spec.Int
import Verif.Spec.Float
/-
What number a lane of a given type stands for.
-/
namespace PackedSimd.Spec

/-- A number, or one of the special float values.  `rat num den` is the fraction `num / den`. -/
inductive Num where
  | nan
  | inf (neg : Bool)
  | rat (num : Int) (den : Nat)

/-- The same number (all NaNs count as the same). -/
def Num.Same : Num → Num → Prop
  | .nan, .nan => True
  | .inf a, .inf b => a = b
  | .rat a b, .rat c d => a * d = c * b
  | _, _ => False

/-- The number held by a lane of an integer or float type.  (For masks: of the stored integer.) -/
def numberOf (p : Nat) (e : Elem) (x : BitVec (e.bits p)) : Num :=
  match e.kind with
  | .float =>
    match valueOf e.man x with
    | .nan => .nan
    | .inf neg => .inf neg
    | .num z => .rat z (2 ^ low (e.bits p) e.man)
  | .uint => .rat (val false x) 1
  | _ => .rat (val true x) 1

/-- The lane differs from zero (NaN does, `-0.0` does not). -/
def Nonzero (p : Nat) (e : Elem) (x : BitVec (e.bits p)) : Prop := ¬ (numberOf p e x).Same (.rat 0 1)

/-- Conversions that cannot lose information, from the widths and formats only. -/
def losslessB (p : Nat) (dst src : Elem) : Bool :=
  match src.kind, dst.kind with
  | .uint, .uint => decide (src.bits p ≤ dst.bits p)
  | .sint, .sint => decide (src.bits p ≤ dst.bits p)
  | .uint, .sint => decide (src.bits p < dst.bits p)
  | .uint, .float | .sint, .float =>
    decide (src.bits p ≤ dst.man + 1) && decide (2 ^ (dst.man + 1) * 2 ^ low (dst.bits p) dst.man < magUnits dst.man (infMag (dst.bits p) dst.man))
  | .float, .float =>
    decide (src.man ≤ dst.man) && decide (low (src.bits p) src.man ≤ low (dst.bits p) dst.man) &&
    decide (magUnits src.man (infMag (src.bits p) src.man) * 2 ^ (low (dst.bits p) dst.man - low (src.bits p) src.man) ≤
      magUnits dst.man (infMag (dst.bits p) dst.man))
  | _, _ => false

end PackedSimd.Spec
