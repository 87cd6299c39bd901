import Mathlib.Data.EReal.Basic
import Verif.Py.Fl

/-!
# Vocabulary for numbers

Order, truncation and rounding, stated without the functions of the model: the only names of it used here are the
constructors of `Fl`.
-/

namespace Verif.Spec

/-- The extended real number a float stands for; NaN stands for none. -/
inductive Stands : Fl → EReal → Prop
  | ninf : Stands .ninf ⊥
  | fin (q : ℚ) : Stands (.fin q) ((q : ℝ) : EReal)
  | pinf : Stands .pinf ⊤

/-- `a` is less than `b`; never the case if one of them is NaN. -/
def Below (a b : Fl) : Prop := ∃ x y : EReal, Stands a x ∧ Stands b y ∧ x < y

/-- A rational without its fractional part: the quotient of numerator and denominator, rounded toward zero. -/
def cut (q : ℚ) : ℤ := q.num.tdiv q.den

/-- `n` is the integer nearest to `q`, the even one of two. -/
def RoundsTo (q : ℚ) (n : ℤ) : Prop := |q - n| ≤ 1 / 2 ∧ (|q - n| = 1 / 2 → Even n)

/-- One divided by a number that is not zero. -/
def reciprocal : Fl → Fl
  | .fin q => .fin q⁻¹
  | .ninf => .fin 0
  | .pinf => .fin 0
  | .nan => .nan

end Verif.Spec
