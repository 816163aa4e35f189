import Verif.Model.Examples.Options
/-
What the option-pricing programs should do to the result slice.
-/
namespace PackedSimd.Ex.Options

variable {α : Type}

/-- The inputs have at least `m` elements. -/
def Long (I : Input α) (m : Nat) : Prop := m ≤ I.sa.length ∧ m ≤ I.xa.length ∧ m ≤ I.ta.length ∧ m ≤ I.ra.length ∧ m ≤ I.va.length

instance (I : Input α) (m : Nat) : Decidable (Long I m) := inferInstanceAs (Decidable (_ ∧ _ ∧ _ ∧ _ ∧ _))

/-- `y` is the price `g` of option `i`. -/
def PriceAt (g : α → α → α → α → α → α) (I : Input α) (i : Nat) (y : Option α) : Prop :=
  ∃ s x t r v, I.sa[i]? = some s ∧ I.xa[i]? = some x ∧ I.ta[i]? = some t ∧ I.ra[i]? = some r ∧ I.va[i]? = some v ∧ y = some (g s x t r v)

/-- `out` is `result` with the first `count` elements replaced by the prices `g` of the options. -/
structure Priced (g : α → α → α → α → α → α) (I : Input α) (result : List α) (count : Nat) (out : List α) : Prop where
  length : out.length = result.length
  price : ∀ j, j < count → PriceAt g I j out[j]?
  rest : ∀ j, count ≤ j → out[j]? = result[j]?

end PackedSimd.Ex.Options
