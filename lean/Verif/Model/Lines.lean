import Verif.Model.Correlation
import Verif.Model.Schematic

/-!
# The near-field line of a dispersion image and the error bars of statistics

As in `Verif.Model.Draw` modelled are the numbers drawn, the options passed on and the limits set.
-/

namespace Verif.Draw

/-- `np.linspace(lo, hi, n)` for at least two points. -/
def linspace (lo hi : ℚ) (n : ℕ) : List ℚ := (List.range n).map fun (k : ℕ) => lo + k * ((hi - lo) / ((n : ℚ) - 1))

/-- Axes with a dispersion image: the curves drawn over it and the limits shown. -/
structure View where
  curves : List (List ℚ × List ℚ)
  xlim : ℚ × ℚ
  ylim : ℚ × ℚ
  deriving DecidableEq, Repr

/-- wavefieldtransforms.py:254-263, the part of `plot` which draws the near-field line.  `array` is the attribute of the
transform (`None` until a workflow sets it: `AttributeError`), `autoscale` are the limits matplotlib chooses when a curve
is added.  A criterion of zero (an infinite line) and an array without sensors are not modelled. -/
def nearfieldLine (array : Option Arr) (nearfield : Option ℚ)
    (autoscale : List (List ℚ × List ℚ) → (ℚ × ℚ) × (ℚ × ℚ)) (v : View) : Except PyErr View :=
  match nearfield with
  | none => .ok v
  | some n =>
    match array with
    | none => .error .attributeError
    | some a =>
      let ylims := v.ylim
      let fs := linspace v.xlim.1 v.xlim.2 30
      let wv := a.arrayCenterDistance / n
      let curves := v.curves ++ [(fs, fs.map fun f => f * wv)]
      .ok ⟨curves, (autoscale curves).1, ylims⟩

/-- One call of `ax.errorbar`: places, values, half-lengths of the bars, and options. -/
structure ErrorBars where
  xs : List ℚ
  ys : List (Option ℚ)
  half : List (Option ℝ)
  options : List (String × String)

/-- peakssuite.py:636-638: the options by default, as texts. -/
def errorbarDefaults : List (String × String) :=
  [("linestyle", ""), ("color", "k"), ("label", "None"), ("marker", "o"), ("markerfacecolor", "k"),
   ("markersize", "0.5"), ("capsize", "2"), ("zorder", "20")]

/-- peakssuite.py:633-640 `plot_statistics`; matplotlib refuses lists of different lengths (`ValueError`). -/
def plotStatistics (ax : List ErrorBars) (xx : List ℚ) (mean : List (Option ℚ)) (stddev : List (Option ℝ))
    (kwargs : Option (List (String × String))) : Except PyErr (List ErrorBars) :=
  if xx.length = mean.length ∧ xx.length = stddev.length then
    .ok (ax ++ [⟨xx, mean, stddev, merge errorbarDefaults (kwargs.getD [])⟩])
  else .error .valueError

end Verif.Draw
