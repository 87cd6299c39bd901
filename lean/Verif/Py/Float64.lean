import Verif.Py.Basic
import Mathlib.Data.Int.Log

/-!
# Rounding of binary64 (`float`)

`rnd x` is `x` rounded to 53 significant binary digits, to nearest, ties to the even digit: the result of one
arithmetic operation of Python's `float` and numpy's `float64` whose exact result is `x`.  Simplification: the
exponent is not bounded, so that overflow and subnormal numbers are left out.  Nothing in this file models a
function of swprocess.  `Spec/Double.lean` says which numbers are binary64 numbers and `Props/Float64.lean` proves
that `rnd x` is the nearest of them.
-/

namespace Verif.B64

/-- Exponent of the last of the 53 binary digits of `x`. -/
def ulpExp (x : ℚ) : ℤ := Int.log 2 |x| - 52

/-- `x` rounded to binary64. -/
def rnd (x : ℚ) : ℚ := pyRound (x / 2 ^ ulpExp x) * 2 ^ ulpExp x

/-- `a + b`. -/
def add (a b : ℚ) : ℚ := rnd (a + b)

/-- `a - b`. -/
def sub (a b : ℚ) : ℚ := rnd (a - b)

/-- `a * b`. -/
def mul (a b : ℚ) : ℚ := rnd (a * b)

/-- `a / b`, `b` not zero. -/
def div (a b : ℚ) : ℚ := rnd (a / b)

end Verif.B64
