import Mathlib.LinearAlgebra.Matrix.NonsingularInverse
import Mathlib.LinearAlgebra.Matrix.PosDef
import Mathlib.Data.Real.Basic
import Mathlib.Algebra.Order.Star.Real

/-!
# What a least-squares update is

Tarantola and Valette (1982): of all parameter vectors, the one with the smallest sum of the weighted
squared distances from the data and from the prior.
-/

namespace Verif.Spec
open Matrix

variable {j k : ℕ}

/-- Squared length of `v` weighted by the inverse of the covariance `cov`. -/
noncomputable def weighted {n : ℕ} (cov : Matrix (Fin n) (Fin n) ℝ) (v : Fin n → ℝ) : ℝ :=
  v ⬝ᵥ (cov⁻¹ *ᵥ v)

/-- Misfit of `p`: of the data predicted to first order around `pm`, and of the parameters. -/
noncomputable def misfit (p0 pm : Fin j → ℝ) (covp : Matrix (Fin j) (Fin j) ℝ) (d0 dm : Fin k → ℝ)
    (covd : Matrix (Fin k) (Fin k) ℝ) (dgdp : Matrix (Fin k) (Fin j) ℝ) (p : Fin j → ℝ) : ℝ :=
  weighted covd (d0 - (dm + dgdp *ᵥ (p - pm))) + weighted covp (p - p0)

end Verif.Spec
