import Verif.Spec.Float
/-
Sums of many elements without saying in which order they are added.
-/
namespace PackedSimd.Spec

/-- `r` is a result of adding up exactly the elements of the list — each once — in some order and some bracketing, possibly with zeros added
in between. -/
inductive SumOf (add : α → α → α) (zero : α) : List α → α → Prop
  | empty : SumOf add zero [] zero
  | single (x : α) : SumOf add zero [x] x
  | add {l r : List α} {a b : α} : SumOf add zero l a → SumOf add zero r b → SumOf add zero (l ++ r) (add a b)
  | perm {l l' : List α} {a : α} : l.Perm l' → SumOf add zero l a → SumOf add zero l' a

end PackedSimd.Spec
