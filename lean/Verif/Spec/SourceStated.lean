import Verif.Model.Sensor
import Verif.Spec.Headers

/-!
# Headers that state the position of the source
-/

namespace Verif.Spec

/-- The header has a field of this name, and `int` reads it as `n`. -/
def HasInt (h : Header) (name : String) (n : ℤ) : Prop := ∃ v, h.lookup name = some v ∧ v.toInt = some n

/-- An SU or SEGY header that states a source: units that are lengths, a coordinate scalar and both
coordinates. -/
def StatesSource (h : Header) (scalar x y : ℤ) : Prop :=
  (h.lookup "coordinate_units" = some (.int 0) ∨ h.lookup "coordinate_units" = some (.int 1)) ∧
  HasInt h "scalar_to_be_applied_to_all_coordinates" scalar ∧
  HasInt h "source_coordinate_x" x ∧ HasInt h "source_coordinate_y" y

/-- A scalar that the format allows. -/
def AllowedScalar (c : ℤ) : Prop := c = 0 ∨ ∃ k : ℕ, c = 10 ^ k ∨ c = -(10 ^ k)

/-- The trace, read in the format, states that the source is at `s`, positions being mapped. -/
def SourceAt (format : String) (mapX mapY : ℚ → ℚ) (t : Trace) (s : Source) : Prop :=
  (format = "SEG2" ∧ ∃ h v x, t.seg2 = some h ∧ h.lookup "SOURCE_LOCATION" = some v ∧ v.toFloat = some x ∧
    s = ⟨mapX x, 0, 0⟩) ∨
  (∃ h scalar x y, (format = "SU" ∧ t.su = some h ∨ format = "SEGY" ∧ t.segy = some h ∧ scalar ≠ 0) ∧
    StatesSource h scalar x y ∧
    (AllowedScalar scalar → s = ⟨mapX (segyCoordinate scalar x), mapY (segyCoordinate scalar y), 0⟩))

end Verif.Spec
