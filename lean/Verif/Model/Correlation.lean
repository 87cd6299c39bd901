import Verif.Model.Regions

/-!
# Correlation coefficients of `PeaksSuite.statistics` and `Statistics`

`np.corrcoef` and `scipy.optimize.curve_fit` are external.  Numbers are exact.
-/

namespace Verif

namespace Mat

/-- The numbers of a column; `none` if one is missing. -/
def complete : List (Option ℚ) → Option (List ℚ)
  | [] => some []
  | none :: _ => none
  | some q :: l => (complete l).map (q :: ·)

/-- Covariance of two equally long lists as in `np.cov` (`n - 1` degrees of freedom). -/
def cov (xs ys : List ℚ) : ℚ :=
  (List.zipWith (fun (x y : ℚ) => (x - xs.sum / xs.length) * (y - ys.sum / ys.length)) xs ys).sum / ((xs.length : ℚ) - 1)

/-- One entry of `np.corrcoef`: the covariance over the two standard deviations, clipped to [-1, 1].  It is NaN when a
number is missing, when there are fewer than two, or when one of the two does not vary. -/
noncomputable def corrEntry (a b : List (Option ℚ)) : Option ℝ :=
  match complete a, complete b with
  | some xs, some ys =>
    if xs.length < 2 then none
    else if cov xs xs = 0 ∨ cov ys ys = 0 then none
    else some (max (-1) (min 1 ((cov xs ys : ℝ) / Real.sqrt (cov xs xs) / Real.sqrt (cov ys ys))))
  | _, _ => none

end Mat

/-- peakssuite.py:536-588 `statistics`: sample locations, means, standard deviations, and correlation coefficients
(`none` with `ignore_corr=True`).  The substitution of means comes after means and standard deviations are taken.  For a
single sample `np.corrcoef` returns a number instead of a matrix; this is not distinguished. -/
noncomputable def Suite.statisticsCorr (s : Suite) (xtype ytype : String) (xx : List ℚ) (ignoreCorr : Bool) (count : ℕ)
    (meanSubstitution : Bool) :
    Except PyErr (List ℚ × List (Option ℚ) × List (Option ℝ) × Option (List (List (Option ℝ)))) :=
  if s.peaks.length < 3 then .error .valueError
  else
    match s.toArray xtype ytype xx with
    | .error e => .error e
    | .ok (xx, m) =>
      let r := Mat.drop ⟨1 / 100, 1 / 100, count⟩ xx m
      let data := if meanSubstitution then r.2.cols.map Mat.substitute else r.2.cols
      .ok (r.1, r.2.cols.map Mat.nanmean, r.2.cols.map Mat.nanstd,
        if ignoreCorr then none else some (data.map fun a => data.map fun b => Mat.corrEntry a b))

namespace Statistics

/-- `scipy.optimize.curve_fit(f, xdata, ydata)`: data which are empty or contain NaN or infinite values are refused
(`ValueError`); otherwise the fitted function, by an external procedure `fit` which may raise. -/
def curveFit (fit : List Fl → List Fl → Except PyErr (Fl → Fl)) (xs ys : List Fl) : Except PyErr (Fl → Fl) :=
  if ys = [] ∨ xs.any (fun x => !x.isFin) ∨ ys.any (fun y => !y.isFin) then .error .valueError else fit xs ys

/-- stats.py:370-382 `filler`: which entries are to be filled is decided by `xs` (lines 371-372), not by `ys`. -/
def filler (fit : List Fl → List Fl → Except PyErr (Fl → Fl)) (xs ys : List Fl) : Except PyErr (List Fl) :=
  match curveFit fit (xs.filter fun x => !x.isNan)
      (((xs.zip ys).filter fun p => !p.1.isNan).map fun p => p.2) with
  | .error e => .error e
  | .ok f => .ok (List.zipWith (fun x y => if x.isNan then f x else y) xs ys)

/-- stats.py:388-391 (393-397): one side of a row, if something is missing there. -/
def fillSide (fit : List Fl → List Fl → Except PyErr (Fl → Fl)) (xs ys : List Fl) : Except PyErr (List Fl) :=
  if ys.any Fl.isNan then filler fit (xs.map fun x => Fl.sub x (xs.headD .nan)) ys else .ok ys

/-- stats.py:385-398: one row.  `logxx` are the logarithms of the sample locations. -/
def fillCorrRow (fit : List Fl → List Fl → Except PyErr (Fl → Fl)) (logxx : List Fl) (row : ℕ) (ys : List Fl) :
    Except PyErr (List Fl) :=
  match fillSide fit (logxx.drop row) (ys.drop row) with
  | .error e => .error e
  | .ok right =>
    match fillSide fit (logxx.take row).reverse (ys.take row).reverse with
    | .error e => .error e
    | .ok left => .ok (left.reverse ++ right)

/-- The loop over the rows. -/
def fillCorrRows (fit : List Fl → List Fl → Except PyErr (Fl → Fl)) (logxx : List Fl) :
    ℕ → List (List Fl) → Except PyErr (List (List Fl))
  | _, [] => .ok []
  | k, ys :: rest =>
    match fillCorrRow fit logxx k ys with
    | .error e => .error e
    | .ok r =>
      match fillCorrRows fit logxx (k + 1) rest with
      | .error e => .error e
      | .ok rs => .ok (r :: rs)

/-- stats.py:348-400 `_fill_corr`.  `log` is `np.log`. -/
def fillCorr (log : ℚ → Fl) (fit : List Fl → List Fl → Except PyErr (Fl → Fl)) (xx : List ℚ) (corr : List (List Fl)) :
    Except PyErr (List (List Fl)) :=
  fillCorrRows fit (xx.map log) 0 corr

end Statistics
end Verif
