import Mathlib.Algebra.Order.Field.Rat
import Mathlib.Algebra.Order.Group.Unbundled.Abs

/-! # What a double is and what rounding means -/

namespace GT.Spec

/-- A binary floating-point number with 53 significant bits. The exponent is not limited; `InDoubleRange` says when that makes no
difference to IEEE 754 binary64. -/
def IsDouble (d : Rat) : Prop := ∃ m e : Int, |m| < 2 ^ 53 ∧ d = m * (2 : Rat) ^ e

/-- Zero or a normal number of binary64. -/
def InDoubleRange (d : Rat) : Prop := d = 0 ∨ ((2 : Rat) ^ (-1022 : Int) ≤ |d| ∧ |d| < (2 : Rat) ^ (1024 : Int))

/-- No double is closer to `x` than `d`. -/
def NearestDouble (x d : Rat) : Prop := IsDouble d ∧ ∀ d', IsDouble d' → |x - d| ≤ |x - d'|

end GT.Spec
