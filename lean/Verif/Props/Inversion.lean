import Verif.Model.Inversion
import Verif.Spec.Inversion

/-!
# C82, C83: least-squares inversion
-/

namespace Verif.Props
open Matrix Verif Inversion

variable {j k : ℕ}

theorem innovation_posDef {covp : Matrix (Fin j) (Fin j) ℝ} {covd : Matrix (Fin k) (Fin k) ℝ}
    (hp : covp.PosSemidef) (hd : covd.PosDef) (g : Matrix (Fin k) (Fin j) ℝ) :
    (covd + g * covp * gᵀ).PosDef := by
  refine hd.add_posSemidef ?_
  have := hp.mul_mul_conjTranspose_same g
  rwa [conjTranspose_eq_transpose_of_trivial] at this

theorem inv_posDef {m : Matrix (Fin k) (Fin k) ℝ} (h : m.PosDef) : Inversion.inv m = some m⁻¹ := by
  unfold Inversion.inv
  rw [if_neg ((isUnit_iff_isUnit_det m).1 h.isUnit).ne_zero]

theorem det_posDef {m : Matrix (Fin k) (Fin k) ℝ} (h : m.PosDef) : IsUnit m.det :=
  (isUnit_iff_isUnit_det m).1 h.isUnit

theorem weighted_nonneg {m : Matrix (Fin k) (Fin k) ℝ} (h : m.PosDef) (v : Fin k → ℝ) :
    0 ≤ Spec.weighted m v := by
  have := h.inv.posSemidef.dotProduct_mulVec_nonneg v
  simpa [Spec.weighted] using this

theorem weighted_pos {m : Matrix (Fin k) (Fin k) ℝ} (h : m.PosDef) {v : Fin k → ℝ} (hv : v ≠ 0) :
    0 < Spec.weighted m v := by
  have := h.inv.dotProduct_mulVec_pos hv
  simpa [Spec.weighted] using this

theorem weighted_add {m : Matrix (Fin k) (Fin k) ℝ} (h : m.PosDef) (u v : Fin k → ℝ) :
    Spec.weighted m (u + v) = Spec.weighted m u + 2 * (v ⬝ᵥ (m⁻¹ *ᵥ u)) + Spec.weighted m v := by
  have hs : u ⬝ᵥ (m⁻¹ *ᵥ v) = v ⬝ᵥ (m⁻¹ *ᵥ u) := by
    have ht : (m⁻¹)ᵀ = m⁻¹ := by
      have := h.inv.isHermitian
      rwa [Matrix.IsHermitian, conjTranspose_eq_transpose_of_trivial] at this
    rw [dotProduct_mulVec, ← mulVec_transpose, ht, dotProduct_comm]
  simp only [Spec.weighted, mulVec_add, dotProduct_add, add_dotProduct]
  rw [hs]
  ring

/-- **C82** (least squares).  For symmetric positive definite covariances the update exists and is the
unique parameter vector with the smallest misfit to the linearized data and to the prior. -/
theorem C82_unique_minimiser (p0 pm : Fin j → ℝ) (covp : Matrix (Fin j) (Fin j) ℝ) (d0 dm : Fin k → ℝ)
    (covd : Matrix (Fin k) (Fin k) ℝ) (dgdp : Matrix (Fin k) (Fin j) ℝ) (hp : covp.PosDef)
    (hd : covd.PosDef) :
    ∃ p, update p0 pm covp d0 dm covd dgdp = some p ∧
      ∀ q, q ≠ p → Spec.misfit p0 pm covp d0 dm covd dgdp p < Spec.misfit p0 pm covp d0 dm covd dgdp q := by
  have hS := innovation_posDef hp.posSemidef hd dgdp
  have hSu := det_posDef hS
  refine ⟨_, by unfold update; rw [inv_posDef hS], ?_⟩
  intro q hq
  set S := covd + dgdp * covp * dgdpᵀ with hSdef
  set c := d0 - dm + dgdp *ᵥ (pm - p0) with hc
  set w := S⁻¹ *ᵥ c with hw
  have hx : (covp * dgdpᵀ * S⁻¹) *ᵥ c = covp *ᵥ (dgdpᵀ *ᵥ w) := by
    rw [hw]; simp only [mulVec_mulVec]
    simp only [Matrix.mul_assoc]
  rw [hx] at hq ⊢
  set x0 := covp *ᵥ (dgdpᵀ *ᵥ w) with hx0
  -- the residual at the update
  have he : c - dgdp *ᵥ x0 = covd *ᵥ w := by
    have h1 : S *ᵥ w = c := by rw [hw, mulVec_mulVec, Matrix.mul_nonsing_inv _ hSu, one_mulVec]
    have h2 : S *ᵥ w = covd *ᵥ w + dgdp *ᵥ x0 := by
      rw [hSdef, add_mulVec, hx0]; simp only [mulVec_mulVec, Matrix.mul_assoc]
    rw [← h1, h2]; abel
  have hres : ∀ p, d0 - (dm + dgdp *ᵥ (p - pm)) = c - dgdp *ᵥ (p - p0) := by
    intro p
    have e : p - pm = (p - p0) - (pm - p0) := by abel
    rw [hc, e, mulVec_sub]; abel
  set h := q - (p0 + x0) with hh
  have hne : h ≠ 0 := sub_ne_zero.2 hq
  have hq0 : q - p0 = x0 + h := by rw [hh]; abel
  have hp0 : p0 + x0 - p0 = x0 := by abel
  unfold Spec.misfit
  rw [hres, hres, hq0, hp0]
  have e1 : c - dgdp *ᵥ (x0 + h) = covd *ᵥ w + -(dgdp *ᵥ h) := by
    rw [mulVec_add, ← he]; abel
  rw [e1, he, weighted_add hd, weighted_add hp]
  have c1 : covd⁻¹ *ᵥ (covd *ᵥ w) = w := by
    rw [mulVec_mulVec, Matrix.nonsing_inv_mul _ (det_posDef hd), one_mulVec]
  have c2 : covp⁻¹ *ᵥ x0 = dgdpᵀ *ᵥ w := by
    rw [hx0, mulVec_mulVec, Matrix.nonsing_inv_mul _ (det_posDef hp), one_mulVec]
  have c3 : h ⬝ᵥ (dgdpᵀ *ᵥ w) = (dgdp *ᵥ h) ⬝ᵥ w := by
    rw [dotProduct_mulVec, vecMul_transpose]
  rw [c1, c2, c3, neg_dotProduct]
  have := weighted_pos hp hne
  have := weighted_nonneg hd (-(dgdp *ᵥ h))
  linarith

/-- **C82** (agreement at the prior).  If prediction and data agree at the prior, the prior is returned. -/
theorem C82_prior_is_fixed (p0 : Fin j → ℝ) (covp : Matrix (Fin j) (Fin j) ℝ) (d0 : Fin k → ℝ)
    (covd : Matrix (Fin k) (Fin k) ℝ) (dgdp : Matrix (Fin k) (Fin j) ℝ) (p : Fin j → ℝ)
    (h : update p0 p0 covp d0 d0 covd dgdp = some p) : p = p0 := by
  unfold update at h
  simp only at h
  split at h
  · cases h
  · simpa using h.symm

/-- **C82** (linear forward model).  When the predictions are linear in the parameters, the update does not
depend on the previous iterate. -/
theorem C82_linear_no_memory (p0 pm pm' : Fin j → ℝ) (covp : Matrix (Fin j) (Fin j) ℝ)
    (d0 offset : Fin k → ℝ) (covd : Matrix (Fin k) (Fin k) ℝ) (g : Matrix (Fin k) (Fin j) ℝ) :
    update p0 pm covp d0 (g *ᵥ pm + offset) covd g = update p0 pm' covp d0 (g *ᵥ pm' + offset) covd g := by
  have : ∀ q : Fin j → ℝ, d0 - (g *ᵥ q + offset) + g *ᵥ (q - p0) = d0 - offset - g *ᵥ p0 := by
    intro q; rw [mulVec_sub]; abel
  unfold update
  simp only [this]

/-- **C83**.  For symmetric positive definite covariances the posterior covariance exists, is symmetric and
positive definite, does not exceed the prior covariance, and is the inverse of the sum of the prior
information and the information in the data. -/
theorem C83_posterior (covp : Matrix (Fin j) (Fin j) ℝ) (covd : Matrix (Fin k) (Fin k) ℝ)
    (dgdp : Matrix (Fin k) (Fin j) ℝ) (hp : covp.PosDef) (hd : covd.PosDef) :
    ∃ post, posterior covp covd dgdp = some post ∧ postᵀ = post ∧ post.PosDef ∧
      (covp - post).PosSemidef ∧ (∀ i, post i i ≤ covp i i) ∧
      post⁻¹ = covp⁻¹ + dgdpᵀ * covd⁻¹ * dgdp := by
  have hS := innovation_posDef hp.posSemidef hd dgdp
  have hH : (covp⁻¹ + dgdpᵀ * covd⁻¹ * dgdp).PosDef := by
    refine hp.inv.add_posSemidef ?_
    have := hd.inv.posSemidef.conjTranspose_mul_mul_same dgdp
    rwa [conjTranspose_eq_transpose_of_trivial] at this
  have hw : (covp⁻¹ + dgdpᵀ * covd⁻¹ * dgdp)⁻¹ =
      covp - covp * dgdpᵀ * (covd + dgdp * covp * dgdpᵀ)⁻¹ * (dgdp * covp) := by
    have hpp : covp⁻¹⁻¹ = covp := Matrix.nonsing_inv_nonsing_inv _ (det_posDef hp)
    have hdd : covd⁻¹⁻¹ = covd := Matrix.nonsing_inv_nonsing_inv _ (det_posDef hd)
    have := add_mul_mul_inv_eq_sub (A := covp⁻¹) (U := dgdpᵀ) (C := covd⁻¹) (V := dgdp)
      hp.inv.isUnit hd.inv.isUnit (by rw [hpp, hdd]; exact hS.isUnit)
    rw [hpp, hdd] at this
    rw [this]
    simp only [Matrix.mul_assoc]
  have hpost : posterior covp covd dgdp = some (covp⁻¹ + dgdpᵀ * covd⁻¹ * dgdp)⁻¹ := by
    unfold posterior
    rw [inv_posDef hS, hw]
  have hdiff : (covp - (covp⁻¹ + dgdpᵀ * covd⁻¹ * dgdp)⁻¹).PosSemidef := by
    rw [hw]
    have hct : covpᵀ = covp := by
      have := hp.isHermitian
      rwa [Matrix.IsHermitian, conjTranspose_eq_transpose_of_trivial] at this
    have : covp - (covp - covp * dgdpᵀ * (covd + dgdp * covp * dgdpᵀ)⁻¹ * (dgdp * covp)) =
        (covp * dgdpᵀ) * (covd + dgdp * covp * dgdpᵀ)⁻¹ * (covp * dgdpᵀ)ᴴ := by
      rw [conjTranspose_eq_transpose_of_trivial, transpose_mul, transpose_transpose, hct]
      abel
    rw [this]
    exact hS.inv.posSemidef.mul_mul_conjTranspose_same _
  refine ⟨_, hpost, ?_, hH.inv, hdiff, ?_, ?_⟩
  · have := hH.inv.isHermitian
    rwa [Matrix.IsHermitian, conjTranspose_eq_transpose_of_trivial] at this
  · intro i
    have := hdiff.diag_nonneg (i := i)
    simpa using this
  · exact Matrix.nonsing_inv_nonsing_inv _ (det_posDef hH)

/-- The hypotheses are met by unit covariances; two data, one parameter. -/
example : (1 : Matrix (Fin 1) (Fin 1) ℝ).PosDef ∧ (1 : Matrix (Fin 2) (Fin 2) ℝ).PosDef :=
  ⟨.one, .one⟩

/-- The hypothesis of `C82_prior_is_fixed` is met. -/
example : ∃ p, update (fun _ : Fin 1 => (3 : ℝ)) (fun _ => 3) 1 (fun _ : Fin 2 => 5) (fun _ => 5) 1
    !![1; 2] = some p := by
  obtain ⟨p, hp, -⟩ := C82_unique_minimiser (fun _ : Fin 1 => (3 : ℝ)) (fun _ => 3) 1
    (fun _ : Fin 2 => 5) (fun _ => 5) 1 !![1; 2] .one .one
  exact ⟨p, hp⟩

end Verif.Props
