import Verif.Model.Spectral
import Mathlib.Data.List.Rotate
import Mathlib.Tactic.Linarith
import Mathlib.Tactic.Ring
import Mathlib.Tactic.FieldSimp
import Mathlib.Tactic.NormNum

/-! # Lemmas about spectra -/

open Complex

namespace Verif
namespace WT

/-- The root of unity of bin `k`. -/
noncomputable def omega (N k : ℕ) : ℂ := exp (-(2 * Real.pi * k / N : ℝ) * I)

theorem omega_pow (N k n : ℕ) : exp (-(2 * Real.pi * k * n / N : ℝ) * I) = omega N k ^ n := by
  unfold omega
  rw [← Complex.exp_nat_mul]
  congr 1
  push_cast
  ring

theorem omega_pow_N (N k : ℕ) (hN : N ≠ 0) : omega N k ^ N = 1 := by
  rw [← omega_pow]
  have hN' : (N : ℝ) ≠ 0 := Nat.cast_ne_zero.2 hN
  have : (-(2 * Real.pi * k * N / N : ℝ) : ℂ) * I = ((-(k : ℤ) : ℤ) : ℂ) * (2 * Real.pi * I) := by
    rw [mul_div_assoc, div_self hN']
    push_cast; ring
  rw [this]
  exact Complex.exp_int_mul_two_pi_mul_I _

theorem fftBin_eq (u : List ℚ) (k : ℕ) :
    fftBin u k = ∑ n ∈ Finset.range u.length, ((u.getD n 0 : ℚ) : ℂ) * omega u.length k ^ n := by
  unfold fftBin
  exact Finset.sum_congr rfl fun n _ => by rw [omega_pow]

theorem fftBin_rotate_one (u : List ℚ) (k : ℕ) :
    omega u.length k * fftBin (u.rotate 1) k = fftBin u k := by
  cases u with
  | nil => simp [fftBin]
  | cons x xs =>
    rw [fftBin_eq, fftBin_eq]
    have hl : ((x :: xs).rotate 1).length = (x :: xs).length := List.length_rotate _ _
    rw [hl]
    have hrot : (x :: xs).rotate 1 = xs ++ [x] := by simp
    rw [hrot]
    simp only [List.length_cons]
    rw [Finset.sum_range_succ, Finset.sum_range_succ', mul_add, Finset.mul_sum]
    congr 1
    · refine Finset.sum_congr rfl fun n hn => ?_
      have hn' := Finset.mem_range.1 hn
      have e : (xs ++ [x]).getD n 0 = xs.getD n 0 := by
        simp [List.getD_eq_getElem?_getD, List.getElem?_append_left hn']
      rw [e]
      simp only [List.getD_cons_succ]
      ring
    · have e : (xs ++ [x]).getD xs.length 0 = x := by simp [List.getD_eq_getElem?_getD]
      rw [e]
      have := omega_pow_N (xs.length + 1) k (by omega)
      rw [pow_succ] at this
      simp only [List.getD_cons_zero, pow_zero, mul_one]
      linear_combination ((x : ℚ) : ℂ) * this

/-- Advancing a record by `d` samples multiplies bin `k` by a phase. -/
theorem fftBin_rotate (u : List ℚ) (k d : ℕ) :
    omega u.length k ^ d * fftBin (u.rotate d) k = fftBin u k := by
  induction d with
  | zero => simp
  | succ d ih =>
    have h1 : u.rotate (d + 1) = (u.rotate d).rotate 1 := (List.rotate_rotate u d 1).symm
    have h2 := fftBin_rotate_one (u.rotate d) k
    rw [List.length_rotate] at h2
    rw [h1, pow_succ, mul_assoc, h2, ih]

/-- A gain on a trace is a gain on its spectrum. -/
theorem fftBin_gain (g : ℚ) (u : List ℚ) (k : ℕ) :
    fftBin (u.map fun x => g * x) k = (g : ℂ) * fftBin u k := by
  rw [fftBin_eq, fftBin_eq, List.length_map, Finset.mul_sum]
  refine Finset.sum_congr rfl fun n hn => ?_
  have hn' := Finset.mem_range.1 hn
  have : (u.map fun x => g * x).getD n 0 = g * u.getD n 0 := by
    simp [List.getD_eq_getElem?_getD, hn']
  rw [this]
  push_cast
  ring

theorem norm_exp_real_I (t : ℝ) : ‖exp ((t : ℂ) * I)‖ = 1 := Complex.norm_exp_ofReal_mul_I t

theorem norm_exp_neg_real_I (t : ℝ) : ‖exp (-(t : ℂ) * I)‖ = 1 := by
  have := Complex.norm_exp_ofReal_mul_I (-t)
  simpa using this

end WT
end Verif
