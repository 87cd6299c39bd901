import Verif.Py.Float64
import Verif.Spec.Double
import Mathlib.Tactic.Positivity
import Mathlib.Tactic.NormNum

/-!
# Rounding to binary64

`rnd` gives the nearest binary64 number, keeps binary64 numbers, is monotone and has a relative error of at most
`2^-53`.
-/

namespace Verif.Props
open Verif B64 Spec

namespace B64

theorem abs_pyRound_sub (q : ℚ) : |(pyRound q : ℚ) - q| ≤ 1 / 2 := by
  have h1 := Int.floor_le q
  have h2 := Int.lt_floor_add_one q
  unfold pyRound
  split_ifs <;> push_cast <;> rw [abs_le] <;> constructor <;> linarith

/-- No integer is nearer. -/
theorem abs_pyRound_sub_le (q : ℚ) (n : ℤ) : |(pyRound q : ℚ) - q| ≤ |(n : ℚ) - q| := by
  have h := abs_pyRound_sub q
  by_cases hn : n = pyRound q
  · rw [hn]
  · have h1 : (1 : ℚ) ≤ |(n : ℚ) - pyRound q| := by
      have h2 : (1 : ℤ) ≤ |n - pyRound q| := Int.one_le_abs (sub_ne_zero.2 hn)
      exact_mod_cast h2
    have h3 : |(n : ℚ) - pyRound q| ≤ |(n : ℚ) - q| + |(pyRound q : ℚ) - q| := by
      have := abs_sub_le (n : ℚ) q (pyRound q)
      rwa [abs_sub_comm q] at this
    linarith

theorem pyRound_intCast (n : ℤ) : pyRound (n : ℚ) = n := by
  unfold pyRound; simp

theorem two_zpow_pos (e : ℤ) : (0 : ℚ) < 2 ^ e := by positivity

theorem bounds {x : ℚ} (hx : x ≠ 0) : (2 : ℚ) ^ (52 : ℕ) * 2 ^ ulpExp x ≤ |x| ∧ |x| < (2 : ℚ) ^ (53 : ℕ) * 2 ^ ulpExp x := by
  have h0 : 0 < |x| := abs_pos.2 hx
  have h1 := Int.zpow_log_le_self (b := 2) (by norm_num) h0
  have h2 := Int.lt_zpow_succ_log_self (b := 2) (by norm_num) (|x|)
  have e1 : (2 : ℚ) ^ (52 : ℕ) * 2 ^ ulpExp x = ((2 : ℕ) : ℚ) ^ Int.log 2 |x| := by
    rw [← zpow_natCast, ← zpow_add₀ (by norm_num)]; unfold ulpExp; push_cast; congr 1; ring
  have e2 : (2 : ℚ) ^ (53 : ℕ) * 2 ^ ulpExp x = ((2 : ℕ) : ℚ) ^ (Int.log 2 |x| + 1) := by
    rw [← zpow_natCast, ← zpow_add₀ (by norm_num)]; unfold ulpExp; push_cast; congr 1; ring
  rw [e1, e2]; exact ⟨h1, h2⟩

theorem rnd_zero : rnd 0 = 0 := by
  unfold rnd; rw [zero_div]; have := pyRound_intCast 0; push_cast at this; rw [this]; simp

theorem rnd_sub (x : ℚ) : |rnd x - x| = |(pyRound (x / 2 ^ ulpExp x) : ℚ) - x / 2 ^ ulpExp x| * 2 ^ ulpExp x := by
  have hp := two_zpow_pos (ulpExp x)
  rw [← abs_of_pos hp, ← abs_mul, abs_of_pos hp]
  congr 1
  unfold rnd
  field_simp

/-- A multiple of the last digit's unit is not nearer than the rounded number. -/
theorem rnd_le_multiple (x : ℚ) (n : ℤ) : |rnd x - x| ≤ |(n : ℚ) * 2 ^ ulpExp x - x| := by
  have hp := two_zpow_pos (ulpExp x)
  rw [rnd_sub]
  have h := abs_pyRound_sub_le (x / 2 ^ ulpExp x) n
  have e : |(n : ℚ) * 2 ^ ulpExp x - x| = |(n : ℚ) - x / 2 ^ ulpExp x| * 2 ^ ulpExp x := by
    rw [← abs_of_pos hp, ← abs_mul, abs_of_pos hp]; congr 1; field_simp
  rw [e]
  exact mul_le_mul_of_nonneg_right h hp.le

/-- The relative error of one rounding. -/
theorem rnd_error (x : ℚ) : |rnd x - x| ≤ |x| / 2 ^ 53 := by
  by_cases hx : x = 0
  · subst hx; rw [rnd_zero]; norm_num
  · have hp := two_zpow_pos (ulpExp x)
    have h1 := abs_pyRound_sub (x / 2 ^ ulpExp x)
    have h2 := (bounds hx).1
    rw [rnd_sub]
    have h3 := mul_le_mul_of_nonneg_right h1 hp.le
    have h4 : (2 : ℚ) ^ ulpExp x ≤ |x| / 2 ^ 52 := by
      rw [le_div_iff₀ (by positivity)]; linarith
    have h5 : |x| / 2 ^ 53 = 1 / 2 * (|x| / 2 ^ 52) := by ring
    rw [h5]
    linarith

theorem rnd_isDouble (x : ℚ) : IsDouble (rnd x) := by
  by_cases hx : x = 0
  · subst hx; rw [rnd_zero]; exact ⟨0, 0, by norm_num, by simp⟩
  · have hp := two_zpow_pos (ulpExp x)
    obtain ⟨h1, h2⟩ := bounds hx
    set q := x / 2 ^ ulpExp x with hq
    have hqa : |q| < 2 ^ 53 := by
      rw [hq, abs_div, abs_of_pos hp, div_lt_iff₀ hp]; exact h2
    have hr := abs_pyRound_sub q
    have hle : |pyRound q| ≤ 2 ^ 53 := by
      have h4 : |(pyRound q : ℚ)| < 2 ^ 53 + 1 := by
        have := abs_sub_abs_le_abs_sub (pyRound q : ℚ) q
        linarith
      have h5 : |pyRound q| < 2 ^ 53 + 1 := by exact_mod_cast h4
      omega
    rcases lt_or_eq_of_le hle with h | h
    · exact ⟨pyRound q, ulpExp x, h, rfl⟩
    · rcases eq_or_eq_neg_of_abs_eq h with h' | h'
      · refine ⟨2 ^ 52, ulpExp x + 1, by norm_num, ?_⟩
        unfold rnd
        rw [← hq, h', zpow_add₀ (by norm_num)]; push_cast; ring
      · refine ⟨-2 ^ 52, ulpExp x + 1, by norm_num, ?_⟩
        unfold rnd
        rw [← hq, h', zpow_add₀ (by norm_num)]; push_cast; ring

/-- The rounded number is a nearest binary64 number. -/
theorem rnd_nearest (x : ℚ) : NearestDouble x (rnd x) := by
  refine ⟨rnd_isDouble x, ?_⟩
  rintro z ⟨m, e, hm, rfl⟩
  by_cases hx : x = 0
  · subst hx; rw [rnd_zero, sub_zero, abs_zero]; exact abs_nonneg _
  have hp := two_zpow_pos (ulpExp x)
  obtain ⟨h1, h2⟩ := bounds hx
  rcases le_or_gt (ulpExp x) e with he | he
  · -- a multiple of the unit
    obtain ⟨k, hk⟩ : ∃ k : ℕ, e = ulpExp x + k := ⟨(e - ulpExp x).toNat, by omega⟩
    have : (m : ℚ) * 2 ^ e = ((m * 2 ^ k : ℤ) : ℚ) * 2 ^ ulpExp x := by
      rw [hk, zpow_add₀ (by norm_num), zpow_natCast]; push_cast; ring
    rw [this]
    exact rnd_le_multiple x _
  · -- smaller in magnitude than the power of two below `x`
    have hz : |(m : ℚ) * 2 ^ e| ≤ 2 ^ (52 : ℕ) * 2 ^ ulpExp x := by
      rw [abs_mul, abs_of_pos (two_zpow_pos e)]
      have hm' : |(m : ℚ)| ≤ 2 ^ (53 : ℕ) := by exact_mod_cast hm.le
      have he' : (2 : ℚ) ^ e ≤ 2 ^ (ulpExp x - 1) := zpow_le_zpow_right₀ (by norm_num) (by omega)
      have e3 : (2 : ℚ) ^ (ulpExp x - 1) = 2 ^ ulpExp x / 2 := by
        rw [zpow_sub₀ (by norm_num)]; norm_num
      rw [e3] at he'
      calc |(m : ℚ)| * 2 ^ e ≤ 2 ^ (53 : ℕ) * (2 ^ ulpExp x / 2) :=
            mul_le_mul hm' he' (two_zpow_pos e).le (by positivity)
        _ = 2 ^ (52 : ℕ) * 2 ^ ulpExp x := by ring
    set z := (m : ℚ) * 2 ^ e
    rcases lt_or_gt_of_ne hx with hneg | hpos
    · have h3 := rnd_le_multiple x (-2 ^ 52)
      refine h3.trans ?_
      push_cast
      rw [abs_of_neg hneg] at h1
      have hz' := (abs_le.1 hz).1
      rw [abs_of_nonneg (by linarith), abs_of_nonneg (by linarith)]
      linarith
    · have h3 := rnd_le_multiple x (2 ^ 52)
      refine h3.trans ?_
      push_cast
      rw [abs_of_pos hpos] at h1
      have hz' := (abs_le.1 hz).2
      rw [abs_of_nonpos (by linarith), abs_of_nonpos (by linarith)]
      linarith

/-- Binary64 numbers are kept. -/
theorem rnd_double {x : ℚ} (h : IsDouble x) : rnd x = x := by
  have := (rnd_nearest x).2 x h
  rw [sub_self, abs_zero] at this
  exact sub_eq_zero.1 (abs_nonpos_iff.1 this)

theorem rnd_mono {x y : ℚ} (h : x ≤ y) : rnd x ≤ rnd y := by
  by_contra hlt
  push Not at hlt
  rcases eq_or_lt_of_le h with rfl | hxy
  · exact lt_irrefl _ hlt
  have h1 := (rnd_nearest x).2 _ (rnd_isDouble y)
  have h2 := (rnd_nearest y).2 _ (rnd_isDouble x)
  have h1' : rnd y + rnd x ≤ 2 * x := by
    by_contra hc; push Not at hc
    rcases abs_cases (rnd x - x) with ⟨e1, _⟩ | ⟨e1, _⟩ <;> rcases abs_cases (rnd y - x) with ⟨e2, _⟩ | ⟨e2, _⟩ <;>
      rw [e1, e2] at h1 <;> linarith
  have h2' : 2 * y ≤ rnd y + rnd x := by
    by_contra hc; push Not at hc
    rcases abs_cases (rnd y - y) with ⟨e1, _⟩ | ⟨e1, _⟩ <;> rcases abs_cases (rnd x - y) with ⟨e2, _⟩ | ⟨e2, _⟩ <;>
      rw [e1, e2] at h2 <;> linarith
  linarith

theorem isDouble_intCast {n : ℤ} (h : |n| < 2 ^ 53) : IsDouble (n : ℚ) := ⟨n, 0, h, by simp⟩

theorem rnd_intCast {n : ℤ} (h : |n| < 2 ^ 53) : rnd (n : ℚ) = n := rnd_double (isDouble_intCast h)

theorem rnd_natCast {n : ℕ} (h : n < 2 ^ 53) : rnd (n : ℚ) = n := by
  have := rnd_intCast (n := (n : ℤ)) (by rw [abs_of_nonneg (by positivity)]; exact_mod_cast h)
  exact_mod_cast this

theorem rnd_nonneg {x : ℚ} (h : 0 ≤ x) : 0 ≤ rnd x := by
  have := rnd_mono h; rwa [rnd_zero] at this

/-- The rounded number between multiples of the exact one. -/
theorem rnd_bounds {x : ℚ} (h : 0 ≤ x) : x * (1 - 1 / 2 ^ 53) ≤ rnd x ∧ rnd x ≤ x * (1 + 1 / 2 ^ 53) := by
  have := rnd_error x
  rw [abs_of_nonneg h, abs_le] at this
  constructor <;> [linarith [this.1, (by ring : x * (1 - 1 / 2 ^ 53) = x - x / 2 ^ 53)];
    linarith [this.2, (by ring : x * (1 + 1 / 2 ^ 53) = x + x / 2 ^ 53)]]

theorem rnd_pos {x : ℚ} (h : 0 < x) : 0 < rnd x := by
  have := (rnd_bounds h.le).1
  have h2 : 0 < x * (1 - 1 / 2 ^ 53) := mul_pos h (by norm_num)
  linarith

theorem rnd_neg (x : ℚ) : rnd (-x) = -rnd x := by
  have hodd : ∀ q : ℚ, pyRound (-q) = -pyRound q := by
    intro q
    have h1 := Int.floor_le q
    have h2 := Int.lt_floor_add_one q
    by_cases hq : q = ⌊q⌋
    · rw [hq]
      have := pyRound_intCast (-⌊q⌋)
      push_cast at this
      rw [this, pyRound_intCast]
    · have hlt : (⌊q⌋ : ℚ) < q := lt_of_le_of_ne h1 (Ne.symm hq)
      have hf : ⌊-q⌋ = -⌊q⌋ - 1 := by
        rw [Int.floor_eq_iff]; push_cast; constructor <;> linarith
      unfold pyRound
      rw [hf]; push_cast
      split_ifs <;> first | omega | (exfalso; linarith)
  unfold rnd ulpExp
  rw [abs_neg, neg_div, hodd]; push_cast; ring

end B64

end Verif.Props
