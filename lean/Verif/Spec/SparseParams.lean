import Verif.Spec.Double
import Verif.Model.SparseParams

/-! # What the parameters of a sparse machine should be -/

namespace GT.Spec

/-- `k` is the least number whose square is at least `n`. -/
def LeastCover (n k : Int) : Prop := 0 ≤ k ∧ n ≤ k * k ∧ ∀ j, 0 ≤ j → n ≤ j * j → k ≤ j

/-- What the machine accepts: positive sizes and a threshold that is not positive. -/
def AcceptableParams (clauseSize alSize lowerTA : Int) : Prop := 1 ≤ clauseSize ∧ 1 ≤ alSize ∧ lowerTA ≤ 0

/-- The value fits a C++ `int`. -/
def FitsInt (v : Int) : Prop := -(2 ^ 31) ≤ v ∧ v < 2 ^ 31

/-- `d` is a square root of `n` rounded to a double, in whatever direction: no double lies strictly between `d` and
the root. -/
def SqrtRounded (n : Int) (d : Rat) : Prop :=
  IsDouble d ∧ 0 ≤ d ∧ ∀ e, IsDouble e → 0 ≤ e → (e * e ≤ n → e ≤ d) ∧ ((n : Rat) ≤ e * e → d ≤ e)

end GT.Spec
