import Verif.Model.Workflow
import Verif.Model.Draw

/-!
# The schematic of an array, the plot of the signal-to-noise ratio, and automatic picking

As in `Verif.Model.Draw` modelled are the numbers drawn, the options passed on and the limits set.
-/

namespace Verif.Draw

/-- `{**defaults, **given}`: the given entries win, new ones are added at the end. -/
def merge {α : Type} (defaults given : List (String × α)) : List (String × α) :=
  given.foldl
    (fun d e => if d.any (fun p => p.1 == e.1) then d.map fun p => if p.1 == e.1 then e else p else d ++ [e])
    defaults

/-- array1d.py:377-378: how sensors are drawn by default. -/
def sensorDefaults : List (String × String) :=
  [("marker", "^"), ("color", "k"), ("linestyle", ""), ("label", "Sensor")]

/-- array1d.py:396-397: how the source is drawn by default. -/
def sourceDefaults : List (String × String) :=
  [("marker", "D"), ("color", "b"), ("linestyle", ""), ("label", "Source")]

/-- What `Array1D.plot` draws: two sets of points with their options, the numbers in the text box (`spacing = none`:
"Sensor spacing is not constant."), and the limits of the vertical axis. -/
structure Schematic where
  sensors : List (ℚ × ℚ)
  sensorOptions : List (String × String)
  source : ℚ × ℚ
  sourceOptions : List (String × String)
  number : ℕ
  spacing : Option ℚ
  sourceText : ℚ
  ylim : ℚ × ℚ
  deriving DecidableEq, Repr

/-- array1d.py:343-411 `plot`.  `ylim` are the limits matplotlib has chosen when both sets of points are drawn
(`ax.get_ylim()`, line 404).  Options are texts. -/
def schematic (a : Arr) (sensorKwargs sourceKwargs : Option (List (String × String))) (ylim : ℚ × ℚ) :
    Except PyErr Schematic :=
  match (match a.spacing with
    | .ok q => .ok (some q)
    | .error .valueError => .ok none
    | .error e => .error e : Except PyErr (Option ℚ)) with
  | .error e => .error e
  | .ok sp => .ok
    { sensors := a.sensors.map fun s => (s.x, s.y)
      sensorOptions := merge sensorDefaults (sensorKwargs.getD [])
      source := (a.source.x, a.source.y)
      sourceOptions := merge sourceDefaults (sourceKwargs.getD [])
      number := a.nchannels
      spacing := sp
      sourceText := pyRoundDigits a.source.x 2
      ylim := (min ylim.1 (-2), max ylim.2 5) }

/-- wavefieldtransforms.py:142-167 `plot_snr`: the curves added to the axes (each its frequencies and ratios). -/
def plotSnr (snr : Option (List ℚ × List ℝ)) (curves : List (List ℚ × List ℝ)) : List (List ℚ × List ℝ) :=
  match snr with
  | none => curves
  | some q => curves ++ [q]

end Verif.Draw

/-- array1d.py:413-419 `auto_pick_first_arrivals`: `threshold` is the keyword argument, 0.05 by default (line 421).
Other keyword arguments (`TypeError`) are not modelled. -/
def Verif.Arr.autoPick (a : Verif.Arr) (detrend : List ℚ → List ℚ) (algorithm : String) (threshold : Option ℚ) :
    Except Verif.PyErr (List ℚ × List ℚ) :=
  if algorithm = "threshold" then a.pickOnThreshold detrend (threshold.getD (5 / 100))
  else .error .notImplementedError
