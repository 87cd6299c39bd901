import Mathlib.LinearAlgebra.Matrix.NonsingularInverse
import Mathlib.LinearAlgebra.Matrix.Notation
import Mathlib.Data.Real.Basic

/-!
# Model of `swprocess/inversion.py`

Matrices and column vectors of any size over ℝ.  Shapes are in the types: a mismatch (numpy's
`ValueError`) cannot be written down.
-/

namespace Verif
namespace Inversion
open Matrix

variable {j k : ℕ}

/-- `np.linalg.inv`: a singular matrix raises `LinAlgError` (`none`). -/
noncomputable def inv (m : Matrix (Fin k) (Fin k) ℝ) : Option (Matrix (Fin k) (Fin k) ℝ) :=
  if m.det = 0 then none else some m⁻¹

/-- inversion.py:22-59 `leastsquare_iterativealgorithm`. -/
noncomputable def update (p0 pm : Fin j → ℝ) (covp : Matrix (Fin j) (Fin j) ℝ) (d0 dm : Fin k → ℝ)
    (covd : Matrix (Fin k) (Fin k) ℝ) (dgdp : Matrix (Fin k) (Fin j) ℝ) : Option (Fin j → ℝ) :=
  let a := covp * dgdpᵀ
  match inv (covd + dgdp * covp * dgdpᵀ) with
  | none => none
  | some b =>
    let c := d0 - dm + dgdp *ᵥ (pm - p0)
    some (p0 + (a * b) *ᵥ c)

/-- inversion.py:61-65 `leastsquare_posterioricovmatrix`. -/
noncomputable def posterior (covp : Matrix (Fin j) (Fin j) ℝ) (covd : Matrix (Fin k) (Fin k) ℝ)
    (dgdp : Matrix (Fin k) (Fin j) ℝ) : Option (Matrix (Fin j) (Fin j) ℝ) :=
  let a := covp * dgdpᵀ
  match inv (covd + dgdp * covp * dgdpᵀ) with
  | none => none
  | some b =>
    let c := dgdp * covp
    some (covp - a * b * c)

end Inversion
end Verif
