import Verif.Model.Builtin

/-!
# Normalization of complex powers

`swprocess/wavefieldtransforms.py` `normalize` on the powers the registered transforms return, which are complex.
`WT.normalize` is the same function on real powers with NaN and infinities.
-/

namespace Verif
namespace Builtin

/-- wavefieldtransforms.py:44, 100, 111: the factor `_to_abs`, a number or one number per frequency. -/
inductive Factor where
  | scalar (x : ℝ)
  | perColumn (v : List ℝ)

/-- What `normalize` reads and writes: the power (rows are trial velocities, columns frequencies) and the factor. -/
structure PowerImage where
  power : List (List ℂ)
  toAbs : Factor

/-- wavefieldtransforms.py:36-44: a new transform has the factor 1. -/
def PowerImage.new (power : List (List ℂ)) : PowerImage := ⟨power, .scalar 1⟩

/-- wavefieldtransforms.py:100 `self.power *= self._to_abs` with numpy broadcasting. -/
noncomputable def times : Factor → List (List ℂ) → List (List ℂ)
  | .scalar x, p => p.map fun row => row.map fun z => z * (x : ℂ)
  | .perColumn v, p => p.map fun row => List.zipWith (fun z (x : ℝ) => z * (x : ℂ)) row v

/-- wavefieldtransforms.py:103-108 `np.abs(power)`. -/
noncomputable def modulus (p : List (List ℂ)) : List (List ℝ) := p.map fun row => row.map fun z => ‖z‖

/-- `np.max` of a non-empty list (numpy raises on an empty one; here 0). -/
noncomputable def largest : List ℝ → ℝ
  | [] => 0
  | x :: xs => xs.foldl max x

/-- wavefieldtransforms.py:107-108 `np.max(np.abs(x), axis=0)`. -/
noncomputable def columnLargest (a : List (List ℝ)) : List ℝ :=
  (List.range (a.headD []).length).map fun c => largest (a.map fun row => row.getD c 0)

/-- Real powers among the complex ones. -/
def embed (a : List (List ℝ)) : List (List ℂ) := a.map fun row => row.map fun (x : ℝ) => (x : ℂ)

/-- wavefieldtransforms.py:84-111 `normalize`.  Simplification: division by zero gives 0 instead of NaN. -/
noncomputable def normalizeComplex (s : PowerImage) (how : String) : Outcome PowerImage :=
  let p := times s.toAbs s.power
  let a := modulus p
  if how = "none" then (⟨embed a, .scalar 1⟩, .ok ())
  else if how = "absolute-maximum" then
    (⟨embed (a.map fun row => row.map fun x => x / largest a.flatten), .scalar (largest a.flatten)⟩, .ok ())
  else if how = "frequency-maximum" then
    (⟨embed (a.map fun row => List.zipWith (fun x m => x / m) row (columnLargest a)), .perColumn (columnLargest a)⟩,
      .ok ())
  else (⟨p, s.toAbs⟩, .error .keyError)

end Builtin
end Verif
