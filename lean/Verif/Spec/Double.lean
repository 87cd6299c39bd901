import Mathlib.Algebra.Order.Field.Rat
import Mathlib.Algebra.Order.Field.Power

/-!
# Vocabulary for binary64 numbers
-/

namespace Verif.Spec

/-- `x` is a binary64 number: an integer of at most 53 binary digits times a power of two (the range of the
exponent is left out). -/
def IsDouble (x : ℚ) : Prop := ∃ m e : ℤ, |m| < 2 ^ 53 ∧ x = m * 2 ^ e

/-- `y` is a binary64 number nearest to `x`. -/
def NearestDouble (x y : ℚ) : Prop := IsDouble y ∧ ∀ z, IsDouble z → |y - x| ≤ |z - x|

end Verif.Spec
