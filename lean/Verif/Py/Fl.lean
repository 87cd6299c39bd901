import Verif.Py.Basic

/-!
# Floating point values with NaN and infinities

Finite values are exact rationals; the sign of zero is not modelled (a quotient by zero takes the
sign of its numerator).
-/

namespace Verif

/-- A float64 without rounding. -/
inductive Fl
  | nan
  | ninf
  | fin (q : ℚ)
  | pinf
  deriving DecidableEq, Repr

namespace Fl

/-- IEEE `<`: false whenever NaN is involved. -/
def lt : Fl → Fl → Bool
  | .nan, _ => false
  | _, .nan => false
  | .ninf, .ninf => false
  | .ninf, _ => true
  | _, .ninf => false
  | .fin a, .fin b => decide (a < b)
  | .fin _, .pinf => true
  | .pinf, _ => false

/-- IEEE `==`: false whenever NaN is involved. -/
def beq : Fl → Fl → Bool
  | .nan, _ => false
  | .ninf, .ninf => true
  | .pinf, .pinf => true
  | .fin a, .fin b => decide (a = b)
  | _, _ => false

/-- IEEE `<=`. -/
def le (a b : Fl) : Bool := lt a b || beq a b

def isNan : Fl → Bool
  | .nan => true
  | _ => false

def isFin : Fl → Bool
  | .fin _ => true
  | _ => false

/-- The rational value, 0 if not finite. -/
def toRat : Fl → ℚ
  | .fin q => q
  | _ => 0

/-- Sign of a rational times infinity; `0 * inf` is NaN. -/
def infMul (q : ℚ) : Fl := if 0 < q then .pinf else if q < 0 then .ninf else .nan

def neg : Fl → Fl
  | .nan => .nan
  | .ninf => .pinf
  | .pinf => .ninf
  | .fin q => .fin (-q)

def abs : Fl → Fl
  | .nan => .nan
  | .ninf => .pinf
  | .pinf => .pinf
  | .fin q => .fin |q|

def add : Fl → Fl → Fl
  | .nan, _ => .nan
  | _, .nan => .nan
  | .fin a, .fin b => .fin (a + b)
  | .pinf, .ninf => .nan
  | .ninf, .pinf => .nan
  | .pinf, _ => .pinf
  | _, .pinf => .pinf
  | .ninf, _ => .ninf
  | _, .ninf => .ninf

def sub (a b : Fl) : Fl := add a (neg b)

def mul : Fl → Fl → Fl
  | .nan, _ => .nan
  | _, .nan => .nan
  | .fin a, .fin b => .fin (a * b)
  | .fin a, .pinf => infMul a
  | .fin a, .ninf => infMul (-a)
  | .pinf, .fin b => infMul b
  | .ninf, .fin b => infMul (-b)
  | .pinf, .pinf => .pinf
  | .ninf, .ninf => .pinf
  | .pinf, .ninf => .ninf
  | .ninf, .pinf => .ninf

/-- Division; by zero it gives an infinity of the sign of the numerator, `0/0` gives NaN. -/
def div : Fl → Fl → Fl
  | .nan, _ => .nan
  | _, .nan => .nan
  | .fin a, .fin b => if b = 0 then infMul a else .fin (a / b)
  | .fin _, _ => .fin 0
  | .pinf, .fin b => if b < 0 then .ninf else .pinf
  | .ninf, .fin b => if b < 0 then .pinf else .ninf
  | _, _ => .nan

end Fl
end Verif
