import Verif.Model.Array
import Mathlib.Order.Bounds.Defs

/-!
# Vocabulary for the plotting properties

Stated on the data of arrays, without any function of the plotting model.
-/

namespace Verif.Spec

/-- The number by which the samples of sensor `s` are divided: one, the largest magnitude of its own trace, or the
largest magnitude of all traces. -/
def Divisor (a : Arr) (samples : Sensor → List ℚ) : Arr.Normalize → Sensor → ℚ → Prop
  | .none, _, m => m = 1
  | .each, s, m => IsGreatest {v | ∃ x ∈ samples s, v = |x|} m
  | .all, _, m => IsGreatest {v | ∃ t ∈ a.sensors, ∃ x ∈ samples t, v = |x|} m

/-- The factor by which normalized samples are drawn: the given one, or half the mean distance between neighbours,
which is the length of the array over twice the number of gaps. -/
def DrawnFactor (a : Arr) (given : Option ℚ) (k : ℚ) : Prop :=
  match given with
  | some q => k = q
  | none => ∃ first last, a.sensors.head? = some first ∧ a.sensors.getLast? = some last ∧
      k = (last.x - first.x) / (2 * ((a.sensors.length : ℚ) - 1))

/-- Where a sensor is drawn: at its position, or at its distance from the first sensor. -/
def DrawnAt (a : Arr) (fromFirst : Bool) (s : Sensor) (x : ℚ) : Prop :=
  if fromFirst then ∃ first, a.sensors.head? = some first ∧ x = s.x - first.x else x = s.x

/-- Neighbouring sensors are `d` apart. -/
def EvenlySpaced (a : Arr) (d : ℚ) : Prop :=
  ∀ (k : ℕ) (s t : Sensor), a.sensors[k]? = some s → a.sensors[k + 1]? = some t → t.x - s.x = d

end Verif.Spec
