import Mathlib.Algebra.Order.Field.Rat

/-! # The SEG-Y coordinate scalar rule -/

namespace Verif.Spec

/-- SEG-Y rev 2, trace header bytes 71-72: a positive scalar multiplies, a negative scalar divides, zero
is treated as one. -/
def segyCoordinate (scalar n : ℤ) : ℚ :=
  if 0 < scalar then (n : ℚ) * (scalar : ℚ)
  else if scalar < 0 then (n : ℚ) / (-(scalar : ℚ))
  else (n : ℚ)

end Verif.Spec
