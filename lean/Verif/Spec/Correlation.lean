import Verif.Spec.Stats

/-!
# Specification: correlation coefficient
-/

namespace Verif.Spec

/-- `r` is Pearson's correlation coefficient of the pairs: the sum of the products of the deviations from the means,
divided by the roots of the two sums of squared deviations.  It is missing when one of the two quantities does not vary,
in particular with fewer than two pairs. -/
def IsCorrelation (ps : List (ℚ × ℚ)) (r : Option ℝ) : Prop :=
  (((∀ p ∈ ps, ∀ q ∈ ps, p.1 = q.1) ∨ ∀ p ∈ ps, ∀ q ∈ ps, p.2 = q.2) ∧ r = none) ∨
    ∃ (mx my : ℚ) (sx sy rho : ℝ), IsMean (ps.map Prod.fst) (some mx) ∧ IsMean (ps.map Prod.snd) (some my) ∧
      0 < sx ∧ 0 < sy ∧ sx ^ 2 = (ps.map fun p => ((p.1 - mx : ℚ) : ℝ) ^ 2).sum ∧
      sy ^ 2 = (ps.map fun p => ((p.2 - my : ℚ) : ℝ) ^ 2).sum ∧
      rho * sx * sy = (ps.map fun p => ((p.1 - mx : ℚ) : ℝ) * ((p.2 - my : ℚ) : ℝ)).sum ∧ r = some rho

end Verif.Spec
