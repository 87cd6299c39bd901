import Verif.Props.SlantWave
import Verif.Props.Recovery
import Verif.Spec.SlantPulse

/-!
# C128: the velocity picked from the magnitudes of a slant stack
-/

open Complex

namespace Verif.Props
open Verif WT Spec Workflow

/-- One sample later, at frequency `f`. -/
noncomputable def stepOf (f dt : ℝ) : ℂ := exp (-(2 * Real.pi * f * dt : ℝ) * I)

theorem stepOf_pow (f dt : ℝ) (m : ℕ) : exp (-(2 * Real.pi * f * (m * dt) : ℝ) * I) = stepOf f dt ^ m := by
  unfold stepOf
  rw [← Complex.exp_nat_mul]
  congr 1
  push_cast
  ring

theorem stepOf_norm (f dt : ℝ) : ‖stepOf f dt‖ = 1 := by
  unfold stepOf
  rw [← Complex.ofReal_neg]
  exact Complex.norm_exp_ofReal_mul_I _

theorem stepOf_ne_one (f dt : ℝ) (h0 : 0 < f * dt) (h1 : f * dt < 1) : stepOf f dt ≠ 1 := by
  unfold stepOf
  rw [Ne, Complex.exp_eq_one_iff]
  rintro ⟨n, hn⟩
  have h := congrArg Complex.im hn
  simp at h
  have hpi := Real.pi_pos
  have h2 : f * dt = -(n : ℝ) := by
    have : 2 * Real.pi * (f * dt + n) = 0 := by linarith
    rcases mul_eq_zero.1 this with h3 | h3
    · exfalso; linarith
    · linarith
  have h3 : (0 : ℝ) < ((-n : ℤ) : ℝ) := by push_cast; linarith
  have h4 : ((-n : ℤ) : ℝ) < ((1 : ℤ) : ℝ) := by push_cast; linarith
  have h5 : (0 : ℤ) < -n := by exact_mod_cast h3
  have h6 : -n < 1 := by exact_mod_cast h4
  omega

theorem component_range (f dt : ℝ) (nt : ℕ) (F : ℕ → ℚ) :
    component f dt ((List.range nt).map F) = ∑ m ∈ Finset.range nt, ((F m : ℚ) : ℂ) * stepOf f dt ^ m := by
  unfold component
  rw [List.length_map, List.length_range]
  refine Finset.sum_congr rfl fun m hm => ?_
  rw [stepOf_pow]
  congr 3
  simp [List.getD_eq_getElem?_getD, Finset.mem_range.1 hm]

theorem pulseSpectrum_step (pulse : List ℚ) (f dt : ℝ) :
    pulseSpectrum pulse (f * dt) = ∑ m ∈ Finset.range pulse.length, ((pulse.getD m 0 : ℚ) : ℂ) * stepOf f dt ^ m := by
  unfold pulseSpectrum
  refine Finset.sum_congr rfl fun m _ => ?_
  rw [← stepOf_pow]
  congr 5
  ring

theorem trace_getD (pulse : List ℚ) (b af : ℕ) (gain : ℚ) (i : ℕ) :
    (List.replicate b 0 ++ pulse.map (fun x => gain * x) ++ List.replicate af 0).getD i 0 =
      if i < b then 0 else gain * pulse.getD (i - b) 0 := by
  rw [List.append_assoc, List.getD_eq_getElem?_getD]
  by_cases h : i < b
  · rw [if_pos h, List.getElem?_append_left (by simpa using h), List.getElem?_replicate, if_pos h]; rfl
  · rw [if_neg h, List.getElem?_append_right (by simpa using h), List.length_replicate]
    by_cases h2 : i - b < pulse.length
    · rw [List.getElem?_append_left (by simpa using h2), List.getElem?_map]
      simp [List.getD_eq_getElem?_getD, h2]
    · rw [List.getElem?_append_right (by simpa using h2), List.getElem?_replicate]
      simp only [List.length_map]
      rw [List.getD_eq_getElem?_getD, List.getElem?_eq_none (by omega)]
      split_ifs <;> simp

/-- A pulse inside the samples which are read, read from sample `F` on. -/
theorem shifted_sum (pulse : List ℚ) (b af F nt : ℕ) (gain : ℚ) (f dt : ℝ) (hF : F ≤ b) (hnt : b + pulse.length ≤ nt + F) :
    ∑ m ∈ Finset.range nt,
      (((List.replicate b 0 ++ pulse.map (fun x => gain * x) ++ List.replicate af 0).getD (m + F) 0 : ℚ) : ℂ) *
        stepOf f dt ^ m = gain * pulseSpectrum pulse (f * dt) * stepOf f dt ^ (b - F) := by
  have e : nt = (b - F) + (pulse.length + (nt + F - b - pulse.length)) := by omega
  rw [e, Finset.sum_range_add, Finset.sum_range_add]
  have z1 : ∑ m ∈ Finset.range (b - F),
      (((List.replicate b 0 ++ pulse.map (fun x => gain * x) ++ List.replicate af 0).getD (m + F) 0 : ℚ) : ℂ) *
        stepOf f dt ^ m = 0 := by
    refine Finset.sum_eq_zero fun m hm => ?_
    have := Finset.mem_range.1 hm
    rw [trace_getD, if_pos (by omega)]
    simp
  have z2 : ∑ m ∈ Finset.range (nt + F - b - pulse.length),
      (((List.replicate b 0 ++ pulse.map (fun x => gain * x) ++ List.replicate af 0).getD
        (b - F + (pulse.length + m) + F) 0 : ℚ) : ℂ) * stepOf f dt ^ (b - F + (pulse.length + m)) = 0 := by
    refine Finset.sum_eq_zero fun m hm => ?_
    have : pulse.getD (b - F + (pulse.length + m) + F - b) 0 = (0 : ℚ) := by
      rw [List.getD_eq_getElem?_getD, List.getElem?_eq_none (by omega)]; rfl
    rw [trace_getD, if_neg (by omega), this]
    simp
  rw [z1, z2, zero_add, add_zero, pulseSpectrum_step, Finset.mul_sum, Finset.sum_mul]
  refine Finset.sum_congr rfl fun m _ => ?_
  rw [trace_getD, if_neg (by omega), show b - F + m + F - b = m by omega, pow_add]
  push_cast
  ring

/-- A pulse inside the samples which are read, read `x` samples late with linear interpolation. -/
theorem delayed_component (pulse : List ℚ) (b af nt : ℕ) (gain : ℚ) (f : ℝ) (dt D w : ℚ) (hdt : 0 < dt)
    (hx0 : 0 ≤ D / w / dt) (hxb : D / w / dt ≤ b) (hnt : b + pulse.length ≤ nt + ⌊D / w / dt⌋) :
    component f dt ((List.range nt).map fun (m : ℕ) =>
      linearAt (List.replicate b 0 ++ pulse.map (fun x => gain * x) ++ List.replicate af 0) dt (m * dt + D / w)) =
      gain * pulseSpectrum pulse (f * dt) *
        ((1 - Int.fract (D / w / dt) : ℚ) * stepOf f dt ^ (b - ⌊D / w / dt⌋.toNat) +
          (Int.fract (D / w / dt) : ℚ) * stepOf f dt ^ (b - (⌊D / w / dt⌋.toNat + 1))) := by
  have hF0 : 0 ≤ ⌊D / w / dt⌋ := Int.floor_nonneg.2 hx0
  obtain ⟨F, hF⟩ := Int.eq_ofNat_of_zero_le hF0
  have hFx : (F : ℚ) ≤ D / w / dt := by
    have := Int.floor_le (D / w / dt)
    rw [hF] at this
    exact_mod_cast this
  have hFb : F ≤ b := by exact_mod_cast le_trans hFx hxb
  have hlin : ∀ m : ℕ, linearAt (List.replicate b 0 ++ pulse.map (fun x => gain * x) ++ List.replicate af 0) dt
      (m * dt + D / w) = (List.replicate b 0 ++ pulse.map (fun x => gain * x) ++ List.replicate af 0).getD (m + F) 0 *
        (1 - Int.fract (D / w / dt)) +
      (List.replicate b 0 ++ pulse.map (fun x => gain * x) ++ List.replicate af 0).getD (m + (F + 1)) 0 *
        Int.fract (D / w / dt) := by
    intro m
    have e1 : ((m : ℚ) * dt + D / w) / dt = m + D / w / dt := by
      field_simp
    have e2 : ⌊(m : ℚ) + D / w / dt⌋ = m + F := by
      rw [add_comm, Int.floor_add_natCast, hF, add_comm]
    unfold linearAt
    simp only
    rw [e1, e2]
    have e3 : ((m : ℤ) + (F : ℤ)).toNat = m + F := by omega
    rw [e3]
    have e4 : (m : ℚ) + D / w / dt - ((m + F : ℤ) : ℚ) = Int.fract (D / w / dt) := by
      rw [Int.fract, hF]; push_cast; ring
    rw [e4, add_assoc]
  rw [component_range]
  simp only [hlin]
  rw [hF] at hnt
  simp only [hF, Int.toNat_natCast]
  have hsum : ∑ m ∈ Finset.range nt,
      ((((List.replicate b 0 ++ pulse.map (fun x => gain * x) ++ List.replicate af 0).getD (m + F) 0 *
        (1 - Int.fract (D / w / dt)) +
      (List.replicate b 0 ++ pulse.map (fun x => gain * x) ++ List.replicate af 0).getD (m + (F + 1)) 0 *
        Int.fract (D / w / dt) : ℚ)) : ℂ) * stepOf f dt ^ m =
      (1 - Int.fract (D / w / dt) : ℚ) * ∑ m ∈ Finset.range nt,
        (((List.replicate b 0 ++ pulse.map (fun x => gain * x) ++ List.replicate af 0).getD (m + F) 0 : ℚ) : ℂ) *
          stepOf f dt ^ m +
      (Int.fract (D / w / dt) : ℚ) * ∑ m ∈ Finset.range nt,
        (((List.replicate b 0 ++ pulse.map (fun x => gain * x) ++ List.replicate af 0).getD (m + (F + 1)) 0 : ℚ) : ℂ) *
          stepOf f dt ^ m := by
    rw [Finset.mul_sum, Finset.mul_sum, ← Finset.sum_add_distrib]
    refine Finset.sum_congr rfl fun m _ => ?_
    push_cast
    ring
  rw [hsum, shifted_sum pulse b af F nt gain f dt hFb (by omega)]
  by_cases hδ : Int.fract (D / w / dt) = 0
  · rw [hδ]
    simp
  · have hlt : (F : ℚ) < D / w / dt := by
      rcases hFx.lt_or_eq with h | h
      · exact h
      · exfalso; apply hδ; rw [← h]; exact Int.fract_natCast F
    have hb1 : F + 1 ≤ b := by
      have : (F : ℚ) < b := lt_of_lt_of_le hlt hxb
      exact_mod_cast this
    rw [shifted_sum pulse b af (F + 1) nt gain f dt hb1 (by omega)]
    ring

/-! ## Sums of unit vectors -/

theorem eq_of_re_eq_one {u p : ℂ} (hu : ‖u‖ = 1) (hp : ‖p‖ ≤ 1) (h : ((starRingEnd ℂ) u * p).re = 1) : p = u := by
  have h1 : Complex.normSq u = 1 := by rw [Complex.normSq_eq_norm_sq, hu]; norm_num
  have h2 : Complex.normSq p ≤ 1 := by
    rw [Complex.normSq_eq_norm_sq]
    nlinarith [norm_nonneg p]
  rw [Complex.normSq_apply] at h1 h2
  simp at h
  have h3 : (p.re - u.re) * (p.re - u.re) + (p.im - u.im) * (p.im - u.im) ≤ 0 := by nlinarith
  have h4 : p.re - u.re = 0 := by nlinarith [mul_self_nonneg (p.re - u.re), mul_self_nonneg (p.im - u.im)]
  have h5 : p.im - u.im = 0 := by nlinarith [mul_self_nonneg (p.re - u.re), mul_self_nonneg (p.im - u.im)]
  exact Complex.ext (by linarith) (by linarith)

theorem re_conj_mul_le {u p : ℂ} (hu : ‖u‖ = 1) (hp : ‖p‖ ≤ 1) : ((starRingEnd ℂ) u * p).re ≤ 1 := by
  refine le_trans (Complex.re_le_norm _) ?_
  rw [norm_mul, Complex.norm_conj, hu, one_mul]
  exact hp

/-- The trapezoidal sum of vectors of length at most one with positive weights is shorter than the sum of the weights unless
they are all one unit vector. -/
theorem trapezoid_aligned (N : ℕ) (hN : 0 < N) (d g : ℕ → ℝ) (c : ℕ → ℂ) (hd : ∀ k < N, 0 < d k) (hg : ∀ k ≤ N, 0 < g k)
    (hc : ∀ k ≤ N, ‖c k‖ ≤ 1)
    (h : ∑ k ∈ Finset.range N, d k * (g k + g (k + 1)) ≤
      ‖∑ k ∈ Finset.range N, (d k : ℂ) * (g k * c k + g (k + 1) * c (k + 1))‖) :
    ∃ u : ℂ, ‖u‖ = 1 ∧ ∀ k ≤ N, c k = u := by
  set S := ∑ k ∈ Finset.range N, (d k : ℂ) * (g k * c k + g (k + 1) * c (k + 1)) with hS
  have hT : 0 < ∑ k ∈ Finset.range N, d k * (g k + g (k + 1)) := by
    refine Finset.sum_pos (fun k hk => ?_) ⟨0, Finset.mem_range.2 hN⟩
    have hk' := Finset.mem_range.1 hk
    exact mul_pos (hd k hk') (add_pos (hg k hk'.le) (hg (k + 1) hk'))
  have hS0 : 0 < ‖S‖ := lt_of_lt_of_le hT h
  have hSne : (‖S‖ : ℂ) ≠ 0 := by exact_mod_cast hS0.ne'
  set u : ℂ := S / ‖S‖ with hu
  have hu1 : ‖u‖ = 1 := by
    rw [hu, norm_div, Complex.norm_real, norm_norm, div_self hS0.ne']
  have hre : ((starRingEnd ℂ) u * S).re = ‖S‖ := by
    have : (starRingEnd ℂ) u * S = ‖S‖ := by
      rw [hu, map_div₀, Complex.conj_ofReal, div_mul_eq_mul_div, mul_comm, Complex.mul_conj, Complex.normSq_eq_norm_sq]
      push_cast
      field_simp
    rw [this, Complex.ofReal_re]
  have hexp : ((starRingEnd ℂ) u * S).re = ∑ k ∈ Finset.range N,
      d k * (g k * ((starRingEnd ℂ) u * c k).re + g (k + 1) * ((starRingEnd ℂ) u * c (k + 1)).re) := by
    rw [hS, Finset.mul_sum, Complex.re_sum]
    refine Finset.sum_congr rfl fun k _ => ?_
    have : (starRingEnd ℂ) u * ((d k : ℂ) * (g k * c k + g (k + 1) * c (k + 1))) =
        (d k : ℂ) * ((g k : ℂ) * ((starRingEnd ℂ) u * c k) + (g (k + 1) : ℂ) * ((starRingEnd ℂ) u * c (k + 1))) := by ring
    rw [this, Complex.re_ofReal_mul, Complex.add_re, Complex.re_ofReal_mul, Complex.re_ofReal_mul]
  have hterm : ∀ k ∈ Finset.range N, 0 ≤ d k * (g k * (1 - ((starRingEnd ℂ) u * c k).re) +
      g (k + 1) * (1 - ((starRingEnd ℂ) u * c (k + 1)).re)) := by
    intro k hk
    have hk' := Finset.mem_range.1 hk
    have r1 := re_conj_mul_le hu1 (hc k hk'.le)
    have r2 := re_conj_mul_le hu1 (hc (k + 1) hk')
    exact mul_nonneg (hd k hk').le (add_nonneg (mul_nonneg (hg k hk'.le).le (by linarith))
      (mul_nonneg (hg (k + 1) hk').le (by linarith)))
  have hzero : ∑ k ∈ Finset.range N, d k * (g k * (1 - ((starRingEnd ℂ) u * c k).re) +
      g (k + 1) * (1 - ((starRingEnd ℂ) u * c (k + 1)).re)) = 0 := by
    refine le_antisymm ?_ (Finset.sum_nonneg hterm)
    have : ∑ k ∈ Finset.range N, d k * (g k * (1 - ((starRingEnd ℂ) u * c k).re) +
        g (k + 1) * (1 - ((starRingEnd ℂ) u * c (k + 1)).re)) =
        ∑ k ∈ Finset.range N, d k * (g k + g (k + 1)) - ((starRingEnd ℂ) u * S).re := by
      rw [hexp, ← Finset.sum_sub_distrib]
      exact Finset.sum_congr rfl fun k _ => by ring
    rw [this, hre]
    linarith
  have hz := (Finset.sum_eq_zero_iff_of_nonneg hterm).1 hzero
  have hboth : ∀ k < N, ((starRingEnd ℂ) u * c k).re = 1 ∧ ((starRingEnd ℂ) u * c (k + 1)).re = 1 := by
    intro k hk
    have r1 := re_conj_mul_le hu1 (hc k hk.le)
    have r2 := re_conj_mul_le hu1 (hc (k + 1) hk)
    have h0 := hz k (Finset.mem_range.2 hk)
    rcases mul_eq_zero.1 h0 with h1 | h1
    · exact absurd h1 (hd k hk).ne'
    have p1 : 0 ≤ g k * (1 - ((starRingEnd ℂ) u * c k).re) := mul_nonneg (hg k hk.le).le (by linarith)
    have p2 : 0 ≤ g (k + 1) * (1 - ((starRingEnd ℂ) u * c (k + 1)).re) := mul_nonneg (hg (k + 1) hk).le (by linarith)
    have q1 : g k * (1 - ((starRingEnd ℂ) u * c k).re) = 0 := by linarith
    have q2 : g (k + 1) * (1 - ((starRingEnd ℂ) u * c (k + 1)).re) = 0 := by linarith
    constructor
    · rcases mul_eq_zero.1 q1 with h2 | h2
      · exact absurd h2 (hg k hk.le).ne'
      · linarith
    · rcases mul_eq_zero.1 q2 with h2 | h2
      · exact absurd h2 (hg (k + 1) hk).ne'
      · linarith
  refine ⟨u, hu1, fun k hk => eq_of_re_eq_one hu1 (hc k hk) ?_⟩
  rcases Nat.lt_or_ge k N with h1 | h1
  · exact (hboth k h1).1
  · obtain ⟨j, rfl⟩ : ∃ j, k = j + 1 := ⟨k - 1, by omega⟩
    exact (hboth j (by omega)).2

/-- A point between two unit vectors which is a unit vector is both, or one of them. -/
theorem between_units {u p q : ℂ} (hu : ‖u‖ = 1) (hp : ‖p‖ = 1) (hq : ‖q‖ = 1) (δ : ℝ) (h0 : 0 < δ) (h1 : δ < 1)
    (h : ((1 - δ : ℝ) : ℂ) * p + (δ : ℂ) * q = u) : p = q := by
  have r1 := re_conj_mul_le hu hp.le
  have r2 := re_conj_mul_le hu hq.le
  have hh : (1 - δ) * ((starRingEnd ℂ) u * p).re + δ * ((starRingEnd ℂ) u * q).re = 1 := by
    have e : ((starRingEnd ℂ) u * u).re = 1 := by
      rw [mul_comm, Complex.mul_conj, Complex.ofReal_re, Complex.normSq_eq_norm_sq, hu]; norm_num
    have e' : (starRingEnd ℂ) u * u =
        ((1 - δ : ℝ) : ℂ) * ((starRingEnd ℂ) u * p) + (δ : ℂ) * ((starRingEnd ℂ) u * q) := by
      conv_lhs => rw [← h, h]
      conv_lhs => arg 2; rw [← h]
      ring
    rw [e', Complex.add_re, Complex.re_ofReal_mul, Complex.re_ofReal_mul] at e
    exact e
  have e1 : ((starRingEnd ℂ) u * p).re = 1 := by nlinarith
  have e2 : ((starRingEnd ℂ) u * q).re = 1 := by nlinarith
  rw [eq_of_re_eq_one hu hp.le e1, eq_of_re_eq_one hu hq.le e2]

/-! ## The stack of a pulse -/

theorem trapezoidSum_eq (x : List ℚ) (G : ℕ → ℚ) :
    trapezoidSum x G = ∑ k ∈ Finset.range (x.length - 1), (x.getD (k + 1) 0 - x.getD k 0) / 2 * (G k + G (k + 1)) := by
  unfold trapezoidSum
  generalize x.length - 1 = n
  induction n with
  | zero => simp
  | succ n ih => rw [List.range_succ, List.map_append, List.sum_append, ih, Finset.sum_range_succ]; simp

theorem component_trapezoid (f dt : ℝ) (nt : ℕ) (x : List ℚ) (G : ℕ → ℕ → ℚ) :
    component f dt ((List.range nt).map fun m => trapezoidSum x fun k => G k m) =
      ∑ k ∈ Finset.range (x.length - 1), ((((x.getD (k + 1) 0 - x.getD k 0) / 2 : ℚ) : ℝ) : ℂ) *
        (component f dt ((List.range nt).map (G k)) + component f dt ((List.range nt).map (G (k + 1)))) := by
  rw [component_range]
  simp only [component_range, trapezoidSum_eq]
  have : ∀ k, ((((x.getD (k + 1) 0 - x.getD k 0) / 2 : ℚ) : ℝ) : ℂ) *
      (∑ m ∈ Finset.range nt, ((G k m : ℚ) : ℂ) * stepOf f dt ^ m +
        ∑ m ∈ Finset.range nt, ((G (k + 1) m : ℚ) : ℂ) * stepOf f dt ^ m) =
      ∑ m ∈ Finset.range nt, (((x.getD (k + 1) 0 - x.getD k 0) / 2 * (G k m + G (k + 1) m) : ℚ) : ℂ) * stepOf f dt ^ m := by
    intro k
    rw [← Finset.sum_add_distrib, Finset.mul_sum]
    refine Finset.sum_congr rfl fun m _ => ?_
    push_cast
    ring
  simp only [this]
  rw [Finset.sum_comm]
  refine Finset.sum_congr rfl fun m _ => ?_
  rw [← Finset.sum_mul]
  push_cast
  rfl

/-- Where two whole numbers of samples have the same phase. -/
theorem phase_eq {f dt : ℝ} {i j : ℕ} (h : stepOf f dt ^ i = stepOf f dt ^ j) : ∃ n : ℤ, f * dt * ((i : ℝ) - j) = n := by
  rw [← stepOf_pow, ← stepOf_pow, Complex.exp_eq_exp_iff_exists_int] at h
  obtain ⟨n, hn⟩ := h
  refine ⟨-n, ?_⟩
  have h2 := congrArg Complex.im hn
  simp at h2
  have hpi := Real.pi_pos
  push_cast
  have : 2 * Real.pi * (f * dt * ((i : ℝ) - j) + n) = 0 := by
    have e : 2 * Real.pi * (f * dt * ((i : ℝ) - j) + n) =
      2 * Real.pi * f * (i * dt) - 2 * Real.pi * f * (j * dt) + n * (2 * Real.pi) := by ring
    rw [e]; linarith
  rcases mul_eq_zero.1 this with h3 | h3
  · exfalso; linarith
  · linarith

/-- **C128**, partial.  A pulse crosses an array at velocity `v`, the receivers having any gains, and stays inside the slant
stack at all trial velocities, of which `v` is one.  Then at every frequency below the sampling frequency at which the pulse
has energy and two receivers are closer than the shortest trial wavelength, the *magnitude* of the slant-stack transform is
larger at `v` than at every other trial velocity; so `v` is what is picked after the transform was normalized (magnitudes,
divided at each frequency by some positive number).  Missing: picking before normalizing (`C128_pick_fails`). -/
theorem C128_normalized_partial (geom : ℚ → ℚ → ℕ → List ℚ) (a : Arr) (set : Settings) (t : Transform)
    (ht : Builtin.slantStack geom a set = .ok t) (hc : Consistent a)
    (hout : (∀ s ∈ a.sensors, a.source.x ≤ s.x) ∨ (∀ s ∈ a.sensors, s.x < a.source.x))
    (v dt : ℚ) (lead : ℤ) (pulse : List ℚ) (n : ℕ) (hdt : 0 < dt) (hp : CarriesPulse a v dt lead pulse n)
    (hmem : (v : ℝ) ∈ t.velocities) (hpos : ∀ w ∈ t.velocities, 0 < w)
    (hin : StaysInStack a v dt lead pulse n t.velocities) (scale : ℕ → ℝ) (hscale : ∀ j, 0 < scale j) :
    ∃ vs, Builtin.findPeakPower
        { t with power := t.power.map fun row => row.mapIdx fun j z => ((‖z‖ / scale j : ℝ) : ℂ) }
        "frequency-maximum" = .ok vs ∧ vs.length = t.frequencies.length ∧
      ∀ (j : ℕ) (f : ℚ), t.frequencies[j]? = some f → 0 < f → f * dt < 1 → pulseSpectrum pulse (f * dt) ≠ 0 →
        Resolves a f t.velocities → vs[j]? = some (v : ℝ) ∧
        ∀ (i i' : ℕ) (w : ℝ) (p q : ℂ), t.velocities[i]? = some (v : ℝ) → t.velocities[i']? = some w → w ≠ v →
          (t.power[i]?.bind fun row => row[j]?) = some p → (t.power[i']?.bind fun row => row[j]?) = some q →
          ‖q‖ < ‖p‖ := by
  have hdts : ∀ s ∈ a.sensors, 0 < s.ts.dt := fun s hs => by rw [(hp s hs).1]; exact hdt
  obtain ⟨vels, ss, s0, nt, ⟨hperm, hsorted⟩, hhead, hvels, -, ⟨sm, hsm, vm, hvm, hnt⟩, hrows, hcols, hval⟩ :=
    C117_slant_stack geom a set t ht hc hdts hout hpos
  have hss : ∀ s, s ∈ ss ↔ s ∈ a.sensors := fun s => hperm.mem_iff
  have hs0 : s0 ∈ a.sensors := (hss _).1 (List.mem_of_mem_head? hhead)
  have hv0 : 0 < v := by exact_mod_cast hpos _ hmem
  have hposq : ∀ w ∈ vels, (0 : ℚ) < w := fun w hw => by
    have := hpos w (by rw [hvels]; exact List.mem_map_of_mem (f := fun (v : ℚ) => (v : ℝ)) hw)
    exact_mod_cast this
  have hvmem : ∀ w ∈ vels, (w : ℝ) ∈ t.velocities := fun w hw => by
    rw [hvels]; exact List.mem_map_of_mem (f := fun (v : ℚ) => (v : ℝ)) hw
  have hnear : ∀ s ∈ a.sensors, offset a.source s0 ≤ offset a.source s := by
    intro s hs
    obtain ⟨l, rfl⟩ : ∃ l, ss = s0 :: l := by
      cases ss with
      | nil => simp at hhead
      | cons x l => simp at hhead; exact ⟨l, by rw [hhead]⟩
    rcases List.mem_cons.1 ((hss s).2 hs) with rfl | h
    · exact le_rfl
    · exact ((List.pairwise_cons.1 hsorted).1 s h).le
  have hp' : ∀ s ∈ a.sensors, ∃ (b af : ℕ) (gain : ℚ), 0 < gain ∧ offset a.source s = v * (((b : ℚ) - lead) * dt) ∧
      b + pulse.length + af = n ∧
      s.ts.amp = List.replicate b 0 ++ pulse.map (fun x => gain * x) ++ List.replicate af 0 := fun s hs => (hp s hs).2
  choose! b af gain hgain hoff hlen hamp using hp'
  have hlen0 : s0.ts.amp.length = n := by
    rw [hamp s0 hs0]
    simp only [List.length_append, List.length_replicate, List.length_map]
    exact hlen s0 hs0
  rw [(hp s0 hs0).1] at hval hnt
  rw [hlen0] at hnt
  -- the delays of one receiver at one velocity
  have hdelay : ∀ s ∈ a.sensors, ∀ w ∈ vels,
      0 ≤ (offset a.source s - offset a.source s0) / w / dt ∧ (offset a.source s - offset a.source s0) / w / dt ≤ b s ∧
      ((b s : ℤ)) + pulse.length ≤ nt + ⌊(offset a.source s - offset a.source s0) / w / dt⌋ := by
    intro s hs w hw
    have hw0 := hposq w hw
    obtain ⟨i1, i2⟩ := hin s0 hs0 hnear s hs sm ((hss _).1 hsm) w (hvmem w hw) vm (hvmem vm hvm)
    have i1' : (offset a.source s - offset a.source s0) / w ≤ lead * dt + offset a.source s / v := by exact_mod_cast i1
    have i2' : lead * dt + offset a.source s / v + pulse.length * dt - (offset a.source s - offset a.source s0) / w +
        (offset a.source sm - offset a.source s0) / vm + 2 * dt ≤ n * dt := by exact_mod_cast i2
    have hb : lead * dt + offset a.source s / v = b s * dt := by
      rw [hoff s hs]; field_simp; ring
    rw [hb] at i1' i2'
    have x1 : (offset a.source s - offset a.source s0) / w / dt ≤ b s := by
      rw [div_le_iff₀ hdt]; exact i1'
    have x2 : (b s : ℚ) + pulse.length - (offset a.source s - offset a.source s0) / w / dt +
        (offset a.source sm - offset a.source s0) / vm / dt + 2 ≤ n := by
      have e : (b s : ℚ) + pulse.length - (offset a.source s - offset a.source s0) / w / dt +
        (offset a.source sm - offset a.source s0) / vm / dt + 2 =
        (b s * dt + pulse.length * dt - (offset a.source s - offset a.source s0) / w +
        (offset a.source sm - offset a.source s0) / vm + 2 * dt) / dt := by field_simp
      rw [e, div_le_iff₀ hdt]
      exact i2'
    refine ⟨div_nonneg (div_nonneg (sub_nonneg.2 (hnear s hs)) hw0.le) hdt.le, x1, ?_⟩
    have f1 := Int.floor_le ((offset a.source sm - offset a.source s0) / vm / dt)
    have f2 := Int.lt_floor_add_one ((offset a.source s - offset a.source s0) / w / dt)
    set F' := ⌊(offset a.source sm - offset a.source s0) / vm / dt⌋
    set F := ⌊(offset a.source s - offset a.source s0) / w / dt⌋
    have x3 : (b s : ℚ) + pulse.length - F + F' + 1 < n := by linarith
    have x4 : (b s : ℤ) + pulse.length - F + F' + 1 < n := by exact_mod_cast x3
    omega
  -- the receivers from near to far
  set S : ℕ → Sensor := fun k => ss.getD k s0 with hSdef
  have hSmem : ∀ k, S k ∈ a.sensors := by
    intro k
    simp only [hSdef, List.getD_eq_getElem?_getD]
    rcases h : ss[k]? with _ | s
    · exact hs0
    · exact (hss s).1 (List.mem_of_getElem? h)
  have hx : ∀ k < ss.length, (ss.map (offset a.source)).getD k 0 = offset a.source (S k) ∧
      (ss.map fun s => s.ts.amp).getD k [] = (S k).ts.amp := by
    intro k hk
    simp [hSdef, List.getD_eq_getElem?_getD, hk]
  have hd0 : ∀ k < ss.length - 1, (0 : ℝ) < (((offset a.source (S (k + 1)) - offset a.source (S k)) / 2 : ℚ) : ℝ) := by
    intro k hk
    have := List.pairwise_iff_getElem.1 hsorted k (k + 1) (by omega) (by omega) (by omega)
    have e : offset a.source (S k) < offset a.source (S (k + 1)) := by
      simpa [hSdef, List.getD_eq_getElem?_getD, show k < ss.length by omega, show k + 1 < ss.length by omega] using this
    have : (0 : ℚ) < (offset a.source (S (k + 1)) - offset a.source (S k)) / 2 := by linarith
    exact_mod_cast this
  -- what one receiver contributes at one velocity
  let c : ℝ → ℚ → Sensor → ℂ := fun f w s =>
    ((1 - Int.fract ((offset a.source s - offset a.source s0) / w / dt) : ℚ) : ℂ) *
      stepOf f dt ^ (b s - ⌊(offset a.source s - offset a.source s0) / w / dt⌋.toNat) +
    ((Int.fract ((offset a.source s - offset a.source s0) / w / dt) : ℚ) : ℂ) *
      stepOf f dt ^ (b s - (⌊(offset a.source s - offset a.source s0) / w / dt⌋.toNat + 1))
  have hcnorm : ∀ f w s, ‖c f w s‖ ≤ 1 := by
    intro f w s
    have h0 := Int.fract_nonneg ((offset a.source s - offset a.source s0) / w / dt)
    have h1 := (Int.fract_lt_one ((offset a.source s - offset a.source s0) / w / dt)).le
    refine le_trans (norm_add_le _ _) ?_
    rw [norm_mul, norm_mul, norm_pow, norm_pow, stepOf_norm, one_pow, one_pow, mul_one, mul_one]
    set δ := Int.fract ((offset a.source s - offset a.source s0) / w / dt)
    have e1 : ‖((1 - δ : ℚ) : ℂ)‖ = ((1 - δ : ℚ) : ℝ) := by
      rw [← Complex.ofReal_ratCast, Complex.norm_real, Real.norm_of_nonneg]
      exact_mod_cast sub_nonneg.2 h1
    have e2 : ‖((δ : ℚ) : ℂ)‖ = ((δ : ℚ) : ℝ) := by
      rw [← Complex.ofReal_ratCast, Complex.norm_real, Real.norm_of_nonneg]
      exact_mod_cast h0
    rw [e1, e2]
    push_cast
    linarith
  have hcomp : ∀ (f : ℝ), ∀ w ∈ vels, component f dt ((List.range nt).map fun (m : ℕ) =>
      slantSpec (ss.map fun s => s.ts.amp) (ss.map (offset a.source)) (offset a.source s0) dt w (m * dt)) =
      pulseSpectrum pulse (f * dt) * ∑ k ∈ Finset.range (ss.length - 1),
        ((((offset a.source (S (k + 1)) - offset a.source (S k)) / 2 : ℚ) : ℝ) : ℂ) *
          (((gain (S k) : ℚ) : ℝ) * c f w (S k) + ((gain (S (k + 1)) : ℚ) : ℝ) * c f w (S (k + 1))) := by
    intro f w hw
    have hone : ∀ k < ss.length, component f dt ((List.range nt).map fun (m : ℕ) =>
        linearAt ((ss.map fun s => s.ts.amp).getD k []) dt
          (m * dt + ((ss.map (offset a.source)).getD k 0 - offset a.source s0) / w)) =
        ((gain (S k) : ℚ) : ℂ) * pulseSpectrum pulse (f * dt) * c f w (S k) := by
      intro k hk
      obtain ⟨d1, d2, d3⟩ := hdelay _ (hSmem k) w hw
      rw [(hx k hk).1, (hx k hk).2, hamp _ (hSmem k)]
      exact delayed_component pulse (b (S k)) (af (S k)) nt (gain (S k)) f dt _ w hdt d1 d2 d3
    unfold slantSpec
    have := component_trapezoid f dt nt (ss.map (offset a.source)) fun k (m : ℕ) =>
      linearAt ((ss.map fun s => s.ts.amp).getD k []) dt
        (m * dt + ((ss.map (offset a.source)).getD k 0 - offset a.source s0) / w)
    rw [this, Finset.mul_sum, List.length_map]
    refine Finset.sum_congr rfl fun k hk => ?_
    have hk' := Finset.mem_range.1 hk
    rw [hone k (by omega), hone (k + 1) (by omega), (hx k (by omega)).1, (hx (k + 1) (by omega)).1]
    push_cast
    ring
  have hbs : ∀ s ∈ a.sensors, (offset a.source s - offset a.source s0) / v / dt = ((b s : ℤ) - b s0 : ℤ) := by
    intro s hs
    rw [hoff s hs, hoff s0 hs0]
    push_cast
    field_simp
    ring
  have hcv : ∀ (f : ℝ), ∀ s ∈ a.sensors, c f v s = stepOf f dt ^ b s0 := by
    intro f s hs
    have hle : b s0 ≤ b s := by
      have h1 := hnear s hs
      have h2 : 0 ≤ (offset a.source s - offset a.source s0) / v / dt :=
        div_nonneg (div_nonneg (sub_nonneg.2 h1) hv0.le) hdt.le
      rw [hbs s hs] at h2
      have h3 : (0 : ℤ) ≤ (b s : ℤ) - b s0 := by exact_mod_cast h2
      omega
    simp only [c]
    rw [hbs s hs, Int.fract_intCast, Int.floor_intCast]
    have : b s - ((b s : ℤ) - (b s0 : ℤ)).toNat = b s0 := by omega
    rw [this]
    simp
  -- the largest magnitude
  have hmain : ∀ (f : ℚ) (w : ℚ), w ∈ vels → w ≠ v → 0 < f → f * dt < 1 → pulseSpectrum pulse ((f : ℝ) * dt) ≠ 0 →
      Resolves a f t.velocities →
      ‖component f dt ((List.range nt).map fun (m : ℕ) =>
        slantSpec (ss.map fun s => s.ts.amp) (ss.map (offset a.source)) (offset a.source s0) dt w (m * dt))‖ <
      ‖component f dt ((List.range nt).map fun (m : ℕ) =>
        slantSpec (ss.map fun s => s.ts.amp) (ss.map (offset a.source)) (offset a.source s0) dt v (m * dt))‖ := by
    intro f w hw hne hf hfd hP ⟨s, hs, s', hs', hlt, hres⟩
    have hvq : v ∈ vels := by
      rw [hvels] at hmem
      obtain ⟨q, hq, e⟩ := List.mem_map.1 hmem
      have : q = v := by exact_mod_cast e
      rwa [← this]
    rw [hcomp f w hw, hcomp f v hvq, norm_mul, norm_mul]
    refine mul_lt_mul_of_pos_left ?_ (norm_pos_iff.2 hP)
    -- the sum at the velocity of the pulse
    have hsumv : ‖∑ k ∈ Finset.range (ss.length - 1),
        ((((offset a.source (S (k + 1)) - offset a.source (S k)) / 2 : ℚ) : ℝ) : ℂ) *
          (((gain (S k) : ℚ) : ℝ) * c f v (S k) + ((gain (S (k + 1)) : ℚ) : ℝ) * c f v (S (k + 1)))‖ =
        ∑ k ∈ Finset.range (ss.length - 1), (((offset a.source (S (k + 1)) - offset a.source (S k)) / 2 : ℚ) : ℝ) *
          (((gain (S k) : ℚ) : ℝ) + ((gain (S (k + 1)) : ℚ) : ℝ)) := by
      have e : ∑ k ∈ Finset.range (ss.length - 1),
          ((((offset a.source (S (k + 1)) - offset a.source (S k)) / 2 : ℚ) : ℝ) : ℂ) *
            (((gain (S k) : ℚ) : ℝ) * c f v (S k) + ((gain (S (k + 1)) : ℚ) : ℝ) * c f v (S (k + 1))) =
          ((∑ k ∈ Finset.range (ss.length - 1), (((offset a.source (S (k + 1)) - offset a.source (S k)) / 2 : ℚ) : ℝ) *
            (((gain (S k) : ℚ) : ℝ) + ((gain (S (k + 1)) : ℚ) : ℝ)) : ℝ) : ℂ) * stepOf f dt ^ b s0 := by
        rw [Complex.ofReal_sum, Finset.sum_mul]
        refine Finset.sum_congr rfl fun k _ => ?_
        rw [hcv f _ (hSmem k), hcv f _ (hSmem (k + 1))]
        push_cast
        ring
      rw [e, norm_mul, norm_pow, stepOf_norm, one_pow, mul_one, Complex.norm_real, Real.norm_of_nonneg]
      refine Finset.sum_nonneg fun k hk => ?_
      have g1 : (0 : ℝ) < ((gain (S k) : ℚ) : ℝ) := by exact_mod_cast hgain _ (hSmem k)
      have g2 : (0 : ℝ) < ((gain (S (k + 1)) : ℚ) : ℝ) := by exact_mod_cast hgain _ (hSmem (k + 1))
      exact mul_nonneg (hd0 k (Finset.mem_range.1 hk)).le (by linarith)
    rw [hsumv]
    by_contra hge
    obtain ⟨near, hnear', far, hfar', hlt2, hdist⟩ := offsets_of_pair hout hs hs' hlt
    have hmem2 : ∀ y ∈ [s, s'], y ∈ a.sensors := by
      intro y hy
      simp only [List.mem_cons, List.not_mem_nil, or_false] at hy
      rcases hy with rfl | rfl <;> assumption
    obtain ⟨i1, hi1, e1⟩ := List.mem_iff_getElem.1 ((hss near).2 (hmem2 _ hnear'))
    obtain ⟨i2, hi2, e2⟩ := List.mem_iff_getElem.1 ((hss far).2 (hmem2 _ hfar'))
    have hlen2 : 0 < ss.length - 1 := by
      rcases Nat.lt_trichotomy i1 i2 with h | h | h
      · omega
      · subst h; rw [e1] at e2; rw [e2] at hlt2; exact absurd hlt2 (lt_irrefl _)
      · omega
    obtain ⟨u, hu, hall⟩ := trapezoid_aligned (ss.length - 1) hlen2
      (fun k => (((offset a.source (S (k + 1)) - offset a.source (S k)) / 2 : ℚ) : ℝ)) (fun k => ((gain (S k) : ℚ) : ℝ))
      (fun k => c f w (S k)) hd0 (fun k _ => by exact_mod_cast hgain _ (hSmem k)) (fun k _ => hcnorm _ _ _) (not_lt.1 hge)
    have hz1 : stepOf f dt ≠ 1 := stepOf_ne_one _ _ (by exact_mod_cast mul_pos hf hdt) (by exact_mod_cast hfd)
    -- no interpolation, one phase
    have hphase : ∀ y ∈ a.sensors, c f w y = u →
        (⌊(offset a.source y - offset a.source s0) / w / dt⌋ : ℚ) = (offset a.source y - offset a.source s0) / w / dt ∧
        ⌊(offset a.source y - offset a.source s0) / w / dt⌋.toNat ≤ b y ∧
        0 ≤ ⌊(offset a.source y - offset a.source s0) / w / dt⌋ ∧
        stepOf f dt ^ (b y - ⌊(offset a.source y - offset a.source s0) / w / dt⌋.toNat) = u := by
      intro y hy hcy
      obtain ⟨d1, d2, -⟩ := hdelay y hy w hw
      simp only [c] at hcy
      set x := (offset a.source y - offset a.source s0) / w / dt
      have hF0 : 0 ≤ ⌊x⌋ := Int.floor_nonneg.2 d1
      have hFx := Int.floor_le x
      have hFb : ⌊x⌋.toNat ≤ b y := by
        have h1 : (⌊x⌋ : ℚ) ≤ b y := le_trans hFx d2
        have h2 : ⌊x⌋ ≤ (b y : ℤ) := by exact_mod_cast h1
        omega
      have hfr : Int.fract x = 0 := by
        by_contra hne0
        have h0 : 0 < Int.fract x := lt_of_le_of_ne (Int.fract_nonneg x) (Ne.symm hne0)
        have h1 := Int.fract_lt_one x
        have hlt3 : (⌊x⌋ : ℚ) < b y := by
          have : (⌊x⌋ : ℚ) < x := by unfold Int.fract at h0; linarith
          linarith
        have hlt4 : ⌊x⌋ < (b y : ℤ) := by exact_mod_cast hlt3
        have := between_units (u := u) (p := stepOf f dt ^ (b y - ⌊x⌋.toNat)) (q := stepOf f dt ^ (b y - (⌊x⌋.toNat + 1)))
          hu (by rw [norm_pow, stepOf_norm, one_pow]) (by rw [norm_pow, stepOf_norm, one_pow]) ((Int.fract x : ℚ) : ℝ)
          (by exact_mod_cast h0) (by exact_mod_cast h1) (by
            rw [← hcy]
            generalize Int.fract x = δ
            push_cast
            rfl)
        rw [show b y - ⌊x⌋.toNat = (b y - (⌊x⌋.toNat + 1)) + 1 by omega, pow_succ] at this
        have hzne : stepOf f dt ^ (b y - (⌊x⌋.toNat + 1)) ≠ 0 := pow_ne_zero _ (by
          intro h; have := stepOf_norm f dt; rw [h] at this; simp at this)
        exact hz1 (mul_left_cancel₀ hzne (by rw [this, mul_one]))
      refine ⟨?_, hFb, hF0, ?_⟩
      · unfold Int.fract at hfr; linarith
      · rw [hfr] at hcy
        simpa using hcy
    have hS1 : S i1 = near := by simp [hSdef, List.getD_eq_getElem?_getD, hi1, e1]
    have hS2 : S i2 = far := by simp [hSdef, List.getD_eq_getElem?_getD, hi2, e2]
    have hc1 := hall i1 (by omega)
    have hc2 := hall i2 (by omega)
    simp only [hS1] at hc1
    simp only [hS2] at hc2
    have hn1 := hmem2 _ hnear'
    have hn2 := hmem2 _ hfar'
    obtain ⟨a1, a2, a3, a4⟩ := hphase near hn1 hc1
    obtain ⟨b1, b2, b3, b4⟩ := hphase far hn2 hc2
    obtain ⟨N, hN⟩ := phase_eq (b4.trans a4.symm)
    set F1 := ⌊(offset a.source near - offset a.source s0) / w / dt⌋
    set F2 := ⌊(offset a.source far - offset a.source s0) / w / dt⌋
    have hw0 := hposq w hw
    -- the phase difference in cycles
    have key : (f : ℚ) * (s'.x - s.x) / v - f * (s'.x - s.x) / w = N := by
      have c1 : ((b far - F2.toNat : ℕ) : ℝ) = (((b far : ℚ) - F2 : ℚ) : ℝ) := by
        rw [Nat.cast_sub b2]
        have : ((F2.toNat : ℕ) : ℝ) = ((F2 : ℤ) : ℝ) := by exact_mod_cast congrArg (Int.cast (R := ℝ)) (Int.toNat_of_nonneg b3)
        rw [this]; push_cast; rfl
      have c2 : ((b near - F1.toNat : ℕ) : ℝ) = (((b near : ℚ) - F1 : ℚ) : ℝ) := by
        rw [Nat.cast_sub a2]
        have : ((F1.toNat : ℕ) : ℝ) = ((F1 : ℤ) : ℝ) := by exact_mod_cast congrArg (Int.cast (R := ℝ)) (Int.toNat_of_nonneg a3)
        rw [this]; push_cast; rfl
      rw [c1, c2] at hN
      have hN' : f * dt * (((b far : ℚ) - F2) - ((b near : ℚ) - F1)) = N := by exact_mod_cast hN
      have o1 := hoff near hn1
      have o2 := hoff far hn2
      rw [a1, b1] at hN'
      rw [← hN', ← hdist, o1, o2]
      field_simp
      ring
    have hd1 : 0 < f * (s'.x - s.x) := mul_pos hf (by linarith)
    have r1 := hres _ hmem
    have r2 := hres _ (hvmem w hw)
    have r1' : f * (s'.x - s.x) < v := by exact_mod_cast r1
    have r2' : f * (s'.x - s.x) < w := by exact_mod_cast r2
    have q1 : f * (s'.x - s.x) / v < 1 := (div_lt_one hv0).2 r1'
    have q2 : f * (s'.x - s.x) / w < 1 := (div_lt_one hw0).2 r2'
    have q3 : 0 < f * (s'.x - s.x) / v := div_pos hd1 hv0
    have q4 : 0 < f * (s'.x - s.x) / w := div_pos hd1 hw0
    have n1 : (-1 : ℚ) < N := by linarith
    have n2 : (N : ℚ) < 1 := by linarith
    have n1' : (-1 : ℤ) < N := by exact_mod_cast n1
    have n2' : N < (1 : ℤ) := by exact_mod_cast n2
    have hN0 : N = 0 := by omega
    rw [hN0, Int.cast_zero, sub_eq_zero, div_eq_div_iff hv0.ne' hw0.ne'] at key
    exact hne (mul_left_cancel₀ hd1.ne' key)
  -- entries of the transform
  have hentry : ∀ (i i' j : ℕ) (f : ℚ) (w : ℝ) (p q : ℂ), t.frequencies[j]? = some f → 0 < f → f * dt < 1 →
      pulseSpectrum pulse ((f : ℝ) * dt) ≠ 0 → Resolves a f t.velocities → t.velocities[i]? = some (v : ℝ) →
      t.velocities[i']? = some w → w ≠ v → (t.power[i]?.bind fun row => row[j]?) = some p →
      (t.power[i']?.bind fun row => row[j]?) = some q → ‖q‖ < ‖p‖ := by
    intro i i' j f w p q hj hf hfd hP hres hi hi' hne hpi hqi
    rw [hvels, List.getElem?_map] at hi hi'
    obtain ⟨v1, hv1, ev1⟩ := Option.map_eq_some_iff.1 hi
    obtain ⟨w1, hw1, ew1⟩ := Option.map_eq_some_iff.1 hi'
    have ev : v1 = v := by exact_mod_cast ev1
    subst ev
    rw [hval i j v1 f hv1 hj] at hpi
    rw [hval i' j w1 f hw1 hj] at hqi
    rw [← Option.some.inj hpi, ← Option.some.inj hqi]
    exact hmain f w1 (List.mem_of_getElem? hw1) (fun e => hne (by rw [← ew1, e])) hf hfd hP hres
  have hl : t.velocities.length = vels.length := by rw [hvels, List.length_map]
  obtain ⟨vs, hvs, hvl, hpick⟩ := findPeak_of_strict
    { t with power := t.power.map fun row => row.mapIdx fun j z => ((‖z‖ / scale j : ℝ) : ℂ) } (List.ne_nil_of_mem hmem)
    (by simp only [List.length_map]; omega) (by
      intro row hrow
      obtain ⟨row', hrow', rfl⟩ := List.mem_map.1 hrow
      rw [List.length_mapIdx]
      exact hcols _ hrow')
  refine ⟨vs, hvs, hvl, ?_⟩
  intro j f hj hf hfd hP hres
  refine ⟨?_, fun i i' w p q hi hi' hne hpi hqi => hentry i i' j f w p q hj hf hfd hP hres hi hi' hne hpi hqi⟩
  have hjl := (List.getElem?_eq_some_iff.1 hj).1
  obtain ⟨i, hi⟩ := List.mem_iff_getElem?.1 hmem
  have hget : ∀ (m : ℕ) (z : ℂ), (t.power[m]?.bind fun row => row[j]?) = some z →
      ((t.power.map fun row => row.mapIdx fun j z => ((‖z‖ / scale j : ℝ) : ℂ))[m]?.bind fun row => row[j]?) =
        some ((‖z‖ / scale j : ℝ) : ℂ) := by
    intro m z hz
    obtain ⟨row, h1, h2⟩ := Option.bind_eq_some_iff.1 hz
    rw [List.getElem?_map, h1]
    simp [h2]
  have hex : ∀ (m : ℕ) (w : ℝ), t.velocities[m]? = some w → ∃ z : ℂ, (t.power[m]?.bind fun row => row[j]?) = some z := by
    intro m w hm
    have hml : m < t.power.length := by
      have := (List.getElem?_eq_some_iff.1 hm).1
      omega
    have hjl2 : j < (t.power[m]).length := by rw [hcols _ (List.getElem_mem hml)]; exact hjl
    exact ⟨t.power[m][j], by rw [List.getElem?_eq_getElem hml]; simp [List.getElem?_eq_getElem hjl2]⟩
  obtain ⟨p, hpi⟩ := hex i v hi
  refine hpick j v i _ hjl hi (hget i p hpi) ?_
  intro i' w q' hi' hne hq'
  obtain ⟨q, hqi⟩ := hex i' w hi'
  rw [hget i' q hqi] at hq'
  rw [← Option.some.inj hq', Complex.ofReal_re, Complex.ofReal_re]
  exact div_lt_div_of_pos_right (hentry i i' j f w p q hj hf hfd hP hres hi hi' hne hpi hqi) (hscale j)

/-- The hypotheses are met by the two receivers of `C128_pick_fails`, the pulse arriving at the fourth sample. -/
example (geom : ℚ → ℚ → ℕ → List ℚ) : ∃ t, Builtin.slantStack geom (twoArr 3) twoSet = .ok t ∧ Consistent (twoArr 3) ∧
    (∀ s ∈ (twoArr 3).sensors, (twoArr 3).source.x ≤ s.x) ∧ CarriesPulse (twoArr 3) 1000 (1 / 1000) 2 [1] 8 ∧
    ((1000 : ℚ) : ℝ) ∈ t.velocities ∧ (∀ w ∈ t.velocities, 0 < w) ∧
    StaysInStack (twoArr 3) 1000 (1 / 1000) 2 [1] 8 t.velocities ∧ t.frequencies[0]? = some 125 ∧
    pulseSpectrum [1] (((125 : ℚ) : ℝ) * ((1 / 1000 : ℚ) : ℝ)) ≠ 0 ∧ Resolves (twoArr 3) 125 t.velocities := by
  refine ⟨_, two_transform geom (twoArr 3) _ _ _ _ rfl rfl rfl rfl
    (show slantStackOfArray (twoArr 3) [500, 1000] = .ok [[0, 0, 1 / 2, 1 / 2, 0], [0, 0, 0, 1, 0]] by decide +kernel)
    (by simp) (by simp), ?_, ?_, ?_, by norm_num, by norm_num, ?_, rfl, by simp [pulseSpectrum], ?_⟩
  · refine ⟨by simp [twoArr], ?_, ?_⟩
    · simp [twoArr]
    · intro s hs s' hs'
      simp only [twoArr, List.mem_cons, List.not_mem_nil, or_false] at hs hs'
      rcases hs with rfl | rfl <;> rcases hs' with rfl | rfl <;> exact ⟨rfl, rfl, rfl, rfl⟩
  · intro s hs
    simp only [twoArr, List.mem_cons, List.not_mem_nil, or_false] at hs
    rcases hs with rfl | rfl <;> norm_num [twoArr]
  · intro s hs
    simp only [twoArr, List.mem_cons, List.not_mem_nil, or_false] at hs
    rcases hs with rfl | rfl
    · exact ⟨rfl, 3, 4, 1, by norm_num, by norm_num [twoArr], rfl, by decide +kernel⟩
    · exact ⟨rfl, 4, 3, 1, by norm_num, by norm_num [twoArr], rfl, by decide +kernel⟩
  · intro near hnear hmin s hs s' hs' w hw w' hw'
    have hn : offset (twoArr 3).source near = 1 := by
      have h1 := hmin ⟨⟨List.take 8 (List.replicate 3 (0 : ℚ) ++ 1 :: List.replicate 7 0), 1 / 1000, 1, 0, 1⟩, 1, 0, 0⟩
        (by simp [twoArr])
      simp only [twoArr, List.mem_cons, List.not_mem_nil, or_false] at hnear
      rcases hnear with rfl | rfl
      · norm_num [twoArr, offset]
      · exfalso; norm_num [twoArr, offset] at h1
    have ho : ∀ y ∈ (twoArr 3).sensors, offset (twoArr 3).source y = 1 ∨ offset (twoArr 3).source y = 2 := by
      intro y hy
      simp only [twoArr, List.mem_cons, List.not_mem_nil, or_false] at hy
      rcases hy with rfl | rfl <;> norm_num [twoArr, offset]
    simp only [List.mem_cons, List.not_mem_nil, or_false] at hw hw'
    rw [hn]
    rcases ho s hs with h1 | h1 <;> rcases ho s' hs' with h2 | h2 <;> rw [h1, h2] <;>
      rcases hw with rfl | rfl <;> rcases hw' with rfl | rfl <;> norm_num
  · refine ⟨_, List.mem_cons_self, _, List.mem_cons_of_mem _ List.mem_cons_self, by norm_num, ?_⟩
    intro w hw
    simp only [List.mem_cons, List.not_mem_nil, or_false] at hw
    rcases hw with rfl | rfl <;> norm_num

end Verif.Props
