import Verif.Model.Sensor
import Verif.Spec.Headers
import Verif.Lemmas.Py

/-! # Lemmas about sensors -/

namespace Verif.Sensor

theorem init_eq (amp : List ℚ) (dt x y z : ℚ) (n : ℤ) (d : ℚ) :
    init amp dt x y z n d = if 0 < n ∧ d ≤ 0 then .ok ⟨⟨amp, dt, n, d, 1⟩, x, y, z⟩
      else .error .valueError := by
  unfold init ATS.init ATS.checkInput
  split_ifs with h1 h2 h3 h4 h5
  · omega
  · rfl
  · exact absurd h4.2 (not_le.2 h3)
  · rfl
  · rfl
  · exact absurd ⟨not_le.1 h1, not_lt.1 h3⟩ h5

theorem init_ok {amp : List ℚ} {dt x y z : ℚ} {n : ℤ} {d : ℚ} {s : Sensor}
    (h : init amp dt x y z n d = .ok s) :
    s = ⟨⟨amp, dt, n, d, 1⟩, x, y, z⟩ ∧ 0 < n ∧ d ≤ 0 := by
  rw [init_eq] at h
  by_cases hc : 0 < n ∧ d ≤ 0
  · rw [if_pos hc] at h
    simp only [Except.ok.injEq] at h
    exact ⟨h.symm, hc⟩
  · rw [if_neg hc] at h; simp at h

theorem pyRoundDigits_div_pow (n : ℤ) (k : ℕ) :
    pyRoundDigits ((n : ℚ) / 10 ^ k) (k : ℤ) = (n : ℚ) / 10 ^ k := by
  unfold pyRoundDigits
  have h : ((n : ℚ) / 10 ^ k) * (10 : ℚ) ^ (k : ℤ) = n := by
    rw [zpow_natCast]; field_simp
  rw [h, pyRound_intCast, zpow_natCast]

theorem pyRoundDigits_mul_pow (n : ℤ) (k : ℕ) :
    pyRoundDigits ((n : ℚ) * 10 ^ k) (-(k : ℤ)) = (n : ℚ) * 10 ^ k := by
  unfold pyRoundDigits
  have h : ((n : ℚ) * 10 ^ k) * (10 : ℚ) ^ (-(k : ℤ)) = n := by
    rw [zpow_neg, zpow_natCast]; field_simp
  rw [h, pyRound_intCast, zpow_neg, zpow_natCast]
  field_simp

/-- A negative power-of-ten scalar. -/
theorem scaleCoordinate_neg (k : ℕ) (n m : ℤ) :
    scaleCoordinate (-(10 ^ k)) n m = Spec.segyCoordinate (-(10 ^ k)) n := by
  have hpos : (0 : ℤ) < 10 ^ k := by positivity
  have hneg : -(10 ^ k : ℤ) < 0 := by omega
  unfold scaleCoordinate Spec.segyCoordinate
  rw [if_pos hneg, if_neg (by omega), if_pos hneg]
  have habs : (-(10 ^ k : ℤ)).natAbs = 10 ^ k := by
    rw [Int.natAbs_neg]; simp [Int.natAbs_pow]
  have hsign : (-(10 ^ k : ℤ)).sign = -1 := Int.sign_eq_neg_one_of_neg hneg
  rw [habs, hsign, Nat.log_pow (by norm_num)]
  have e : (-(-1 : ℤ)) * (k : ℤ) = (k : ℤ) := by ring
  simp only [e]
  push_cast
  rw [pyRoundDigits_div_pow]
  simp

/-- A positive power-of-ten scalar. -/
theorem scaleCoordinate_pos (k : ℕ) (n m : ℤ) :
    scaleCoordinate (10 ^ k) n m = Spec.segyCoordinate (10 ^ k) m := by
  have hpos : (0 : ℤ) < 10 ^ k := by positivity
  unfold scaleCoordinate Spec.segyCoordinate
  rw [if_neg (by omega), if_pos hpos]
  have habs : (10 ^ k : ℤ).natAbs = 10 ^ k := by simp [Int.natAbs_pow]
  have hsign : (10 ^ k : ℤ).sign = 1 := Int.sign_eq_one_of_pos hpos
  rw [habs, hsign, Nat.log_pow (by norm_num)]
  have e : -(1 : ℤ) * (k : ℤ) = -(k : ℤ) := by ring
  simp only [e]
  push_cast
  rw [pyRoundDigits_mul_pow]

theorem scaleCoordinate_one (n m : ℤ) : scaleCoordinate 1 n m = m := by
  have := scaleCoordinate_pos 0 n m
  simpa [Spec.segyCoordinate] using this

end Verif.Sensor
