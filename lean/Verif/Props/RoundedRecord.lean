import Verif.Model.Rounded
import Verif.Props.Float64
import Verif.Props.Selection
import Verif.Spec.Records

/-!
# C129, C130, C131: padding, frequency selection and stacking with the rounding of binary64
-/

namespace Verif.Props.B64
open Verif Verif.B64

/-! ## Relative errors -/

/-- `x` is `y` up to `k` relative errors of one rounding. -/
def Rel (k : ℕ) (x y : ℚ) : Prop :=
  ∃ θ : ℚ, (1 - 1 / 2 ^ 53) ^ k ≤ θ ∧ θ * (1 - 1 / 2 ^ 53) ^ k ≤ 1 ∧ x = y * θ

theorem u_pos : (0 : ℚ) < 1 - 1 / 2 ^ 53 := by norm_num

theorem Rel.refl (x : ℚ) : Rel 0 x x := ⟨1, by norm_num, by norm_num, by ring⟩

theorem Rel.rnd {k : ℕ} {x y : ℚ} (h : Rel k x y) : Rel (k + 1) (rnd x) y := by
  obtain ⟨θ, h1, h2, rfl⟩ := h
  have hu : (0 : ℚ) < (1 - 1 / 2 ^ 53) ^ k := pow_pos u_pos k
  have hθ : 0 < θ := lt_of_lt_of_le hu h1
  by_cases hx : y * θ = 0
  · refine ⟨θ, ?_, ?_, by rw [hx, rnd_zero]⟩
    · rw [pow_succ]; nlinarith [u_pos]
    · rw [pow_succ]; nlinarith [mul_pos hθ hu, u_pos]
  · have he := rnd_error (y * θ)
    set φ := B64.rnd (y * θ) / (y * θ) with hφ
    have e : B64.rnd (y * θ) = y * θ * φ := by rw [hφ, mul_div_assoc', mul_div_cancel_left₀ _ hx]
    have hb : |φ - 1| ≤ 1 / 2 ^ 53 := by
      have hxp : 0 < |y * θ| := abs_pos.2 hx
      have e2 : |B64.rnd (y * θ) - y * θ| = |y * θ| * |φ - 1| := by rw [← abs_mul, e]; congr 1; ring
      rw [e2, div_eq_mul_inv] at he
      have := le_of_mul_le_mul_left he hxp
      rw [one_div]; exact this
    rw [abs_le] at hb
    refine ⟨θ * φ, ?_, ?_, by rw [e]; ring⟩
    · rw [pow_succ]
      exact mul_le_mul h1 (by linarith) u_pos.le hθ.le
    · have hf : φ * (1 - 1 / 2 ^ 53) ≤ 1 := by
        have : φ ≤ 1 + 1 / 2 ^ 53 := by linarith
        nlinarith [u_pos]
      have hf0 : 0 ≤ φ * (1 - 1 / 2 ^ 53) := mul_nonneg (by linarith) u_pos.le
      calc θ * φ * (1 - 1 / 2 ^ 53) ^ (k + 1) = (θ * (1 - 1 / 2 ^ 53) ^ k) * (φ * (1 - 1 / 2 ^ 53)) := by ring
        _ ≤ 1 * 1 := mul_le_mul h2 hf hf0 (by norm_num)
        _ = 1 := one_mul 1

theorem Rel.mul {k l : ℕ} {x y x' y' : ℚ} (h : Rel k x y) (h' : Rel l x' y') : Rel (k + l) (x * x') (y * y') := by
  obtain ⟨θ, h1, h2, rfl⟩ := h
  obtain ⟨φ, h3, h4, rfl⟩ := h'
  have hu := pow_pos u_pos k
  have hv := pow_pos u_pos l
  have hθ := lt_of_lt_of_le hu h1
  have hφ := lt_of_lt_of_le hv h3
  refine ⟨θ * φ, ?_, ?_, by ring⟩
  · rw [pow_add]; exact mul_le_mul h1 h3 hv.le hθ.le
  · calc θ * φ * (1 - 1 / 2 ^ 53) ^ (k + l) = θ * (1 - 1 / 2 ^ 53) ^ k * (φ * (1 - 1 / 2 ^ 53) ^ l) := by ring
      _ ≤ 1 * 1 := mul_le_mul h2 h4 (by positivity) (by norm_num)
      _ = 1 := one_mul 1

theorem Rel.inv {k : ℕ} {x y : ℚ} (h : Rel k x y) : Rel k x⁻¹ y⁻¹ := by
  obtain ⟨θ, h1, h2, rfl⟩ := h
  have hu := pow_pos u_pos k
  have hθ := lt_of_lt_of_le hu h1
  refine ⟨θ⁻¹, ?_, ?_, by rw [mul_inv]⟩
  · rw [le_inv_comm₀ hu hθ, ← one_div, le_div_iff₀ hu]; exact h2
  · rw [inv_mul_le_iff₀ hθ, mul_one]; exact h1

theorem Rel.div {k l : ℕ} {x y x' y' : ℚ} (h : Rel k x y) (h' : Rel l x' y') : Rel (k + l) (x / x') (y / y') := by
  rw [div_eq_mul_inv, div_eq_mul_inv]; exact h.mul h'.inv

/-- At most four roundings: a relative error of at most `2^-50`. -/
theorem Rel.bound {k : ℕ} {x y : ℚ} (h : Rel k x y) (hk : k ≤ 4) (hy : 0 ≤ y) : |x - y| ≤ y / 2 ^ 50 := by
  obtain ⟨θ, h1, h2, rfl⟩ := h
  have hu := pow_pos u_pos k
  have h5 : (1 - 1 / 2 ^ 53 : ℚ) ^ 4 ≤ (1 - 1 / 2 ^ 53) ^ k :=
    pow_le_pow_of_le_one u_pos.le (by norm_num) hk
  have h6 : θ ≤ 1 + 1 / 2 ^ 50 := by
    have hθ := lt_of_lt_of_le hu h1
    have h7 : θ * (1 - 1 / 2 ^ 53) ^ 4 ≤ 1 := le_trans (mul_le_mul_of_nonneg_left h5 hθ.le) h2
    by_contra hc
    push Not at hc
    have h8 : (1 + 1 / 2 ^ 50) * (1 - 1 / 2 ^ 53 : ℚ) ^ 4 < θ * (1 - 1 / 2 ^ 53) ^ 4 :=
      mul_lt_mul_of_pos_right hc (pow_pos u_pos 4)
    norm_num at h8 h7
    linarith
  have h7 : 1 - 1 / 2 ^ 50 ≤ θ := le_trans (by norm_num) (le_trans h5 h1)
  rw [abs_le]
  have e : y * θ - y = y * (θ - 1) := by ring
  rw [e]
  constructor
  · have := mul_le_mul_of_nonneg_left h7 hy
    linarith [(by ring : y * (1 - 1 / 2 ^ 50) = y - y / 2 ^ 50)]
  · have := mul_le_mul_of_nonneg_left h6 hy
    linarith [(by ring : y * (1 + 1 / 2 ^ 50) = y + y / 2 ^ 50)]

theorem pyRound_eq {q : ℚ} {n : ℤ} (h : |q - n| < 1 / 2) : pyRound q = n := by
  have h1 := abs_pyRound_sub q
  have h2 : |(pyRound q : ℚ) - n| < 1 := by
    have := abs_sub_le (pyRound q : ℚ) q n
    linarith
  have h3 : |pyRound q - n| < 1 := by
    have : ((|pyRound q - n| : ℤ) : ℚ) < 1 := by push_cast; exact h2
    exact_mod_cast this
  have := Int.abs_lt_one_iff.1 h3
  omega

/-! ## C129: padding -/

/-- **C129**.  Let a record be sampled at `T` seconds and padded to `D` Hz, where `1/(D*T)` is a whole number `N`
(below `2^49`), both given as binary64 numbers.  The computation in binary64 finds `N`: the record is extended by
zeros to the next whole multiple of `N`, and reports a frequency step which differs from `D` by at most
`D * 2^-50`. -/
theorem C129_zero_pad_binary64 (r : ATS) (D T : ℚ) (N : ℕ) (hD : 0 < D) (hT : 0 < T) (hN : D * T * N = 1)
    (hN49 : N < 2 ^ 49) (hdt : r.dt = rnd T) (hn : 0 < r.nsamples) (hn52 : r.nsamples < 2 ^ 52) :
    ∃ (r' : ATS) (k : ℕ), B64.zeroPad r (rnd D) = (r', .ok ()) ∧ r'.amp = r.amp ++ List.replicate k 0 ∧
      r'.nsamples = r'.multiple * N ∧ k < N ∧ 0 < r'.multiple ∧
      r'.dt = r.dt ∧ r'.delay = r.delay ∧ r'.nstacks = r.nstacks ∧ |B64.df r' - D| ≤ D / 2 ^ 50 := by
  have hN0 : 0 < N := by
    rcases Nat.eq_zero_or_pos N with h | h
    · rw [h] at hN; norm_num at hN
    · exact h
  have hNq : (0 : ℚ) < N := by exact_mod_cast hN0
  have hinv : 1 / (D * T) = N := by
    rw [div_eq_iff (by positivity)]; linarith
  have htgt : B64.targetSamples (rnd D) r.dt = N := by
    have hr : Rel 4 (rnd (1 / rnd (rnd D * rnd T))) (1 / (D * T)) :=
      ((Rel.refl 1).div (((Rel.refl D).rnd.mul (Rel.refl T).rnd).rnd)).rnd
    have hb := hr.bound le_rfl (by positivity)
    rw [hinv] at hb
    unfold B64.targetSamples
    rw [hdt]
    refine pyRound_eq (lt_of_le_of_lt (b := (N : ℚ) / 2 ^ 50) (by exact_mod_cast hb) ?_)
    have : (N : ℚ) < 2 ^ 49 := by exact_mod_cast hN49
    rw [div_lt_iff₀ (by norm_num)]
    norm_num at this ⊢; linarith
  have hdfpos : 0 < rnd D := rnd_pos hD
  -- the reported step
  have hstep : ∀ r' : ATS, r'.dt = r.dt → r'.nsamples = r'.multiple * N → 0 < r'.multiple →
      |B64.df r' - D| ≤ D / 2 ^ 50 := by
    intro r' h1 h2 h3
    have hm : (0 : ℚ) < r'.multiple := by exact_mod_cast h3
    have hr : Rel 4 (B64.df r') (1 / ((r'.nsamples : ℚ) * T) * (r'.multiple : ℚ)) := by
      unfold B64.df B64.dfInternal B64.div B64.mul
      rw [h1, hdt]
      exact ((((Rel.refl 1).div (((Rel.refl (r'.nsamples : ℚ)).mul (Rel.refl T).rnd).rnd)).rnd).mul
        (Rel.refl (r'.multiple : ℚ))).rnd
    have e : 1 / ((r'.nsamples : ℚ) * T) * (r'.multiple : ℚ) = D := by
      rw [h2]; push_cast
      have : T ≠ 0 := ne_of_gt hT
      have : (N : ℚ) ≠ 0 := ne_of_gt hNq
      have : (r'.multiple : ℚ) ≠ 0 := ne_of_gt hm
      field_simp
      linarith
    rw [e] at hr
    exact hr.bound le_rfl hD.le
  -- whole quotients
  have hquot : ∀ m : ℕ, m * N < 2 ^ 53 → (pyInt (B64.div ((m * N : ℕ) : ℚ) ((N : ℤ) : ℚ))).toNat = m := by
    intro m hm
    have e : ((m * N : ℕ) : ℚ) / ((N : ℤ) : ℚ) = (m : ℚ) := by
      push_cast; field_simp
    unfold B64.div
    rw [e, rnd_natCast (lt_of_le_of_lt (Nat.le_mul_of_pos_right m hN0) hm)]
    unfold pyInt
    rw [if_pos (by positivity)]
    simp
  unfold B64.zeroPad
  rw [htgt]
  simp only [not_le.2 hdfpos, if_false]
  by_cases h1 : (N : ℤ) > r.nsamples
  · rw [if_pos h1]
    have hlen : ((N : ℤ) - r.nsamples).toNat = N - r.nsamples := by omega
    have hns : (({ r with multiple := 1, amp := r.amp ++ List.replicate ((N : ℤ) - r.nsamples).toNat 0 } : ATS)).nsamples
        = 1 * N := by
      have : r.amp.length = r.nsamples := rfl
      simp only [ATS.nsamples, List.length_append, List.length_replicate] at *
      omega
    exact ⟨_, N - r.nsamples, rfl, by rw [hlen], hns, by omega, one_pos, rfl, rfl, rfl,
      hstep _ rfl hns one_pos⟩
  · rw [if_neg h1]
    by_cases h2 : (N : ℤ) < r.nsamples
    · rw [if_pos h2, if_neg (by omega)]
      have hmod : ((r.nsamples : ℤ) % (N : ℤ)) = ((r.nsamples % N : ℕ) : ℤ) := by push_cast; rfl
      have hdm := Nat.div_add_mod r.nsamples N
      have hlt := Nat.mod_lt r.nsamples hN0
      have hdm' : N * (r.nsamples / N) = r.nsamples / N * N := Nat.mul_comm _ _
      by_cases h3 : (r.nsamples : ℤ) % N = 0
      · rw [if_pos h3]
        have h4 : r.nsamples % N = 0 := by omega
        have h5 : r.nsamples = r.nsamples / N * N := by omega
        have hq : (pyInt (B64.div (r.nsamples : ℚ) ((N : ℤ) : ℚ))).toNat = r.nsamples / N := by
          have := hquot (r.nsamples / N) (by omega)
          rwa [← h5] at this
        have h6 : 0 < r.nsamples / N := Nat.div_pos (by omega) hN0
        rw [hq]
        exact ⟨_, 0, rfl, by simp, h5, hN0, h6, rfl, rfl, rfl, hstep _ rfl h5 h6⟩
      · rw [if_neg h3]
        have h4 : r.nsamples % N ≠ 0 := by omega
        have hm1 : (r.nsamples / N + 1) * N = r.nsamples / N * N + N := by ring
        have h5 : (r.nsamples : ℤ) + ((N : ℤ) - (r.nsamples : ℤ) % N) = (((r.nsamples / N + 1) * N : ℕ) : ℤ) := by
          rw [hmod]; omega
        have hq : (pyInt (B64.div ((((r.nsamples : ℤ) + ((N : ℤ) - (r.nsamples : ℤ) % N) : ℤ)) : ℚ)
            ((N : ℤ) : ℚ))).toNat = r.nsamples / N + 1 := by
          rw [h5]
          have := hquot (r.nsamples / N + 1) (by omega)
          exact_mod_cast this
        have h6 : ((N : ℤ) - (r.nsamples : ℤ) % N).toNat = N - r.nsamples % N := by rw [hmod]; omega
        rw [hq, h6]
        have hns : (ATS.mk (r.amp ++ List.replicate (N - r.nsamples % N) 0) r.dt r.nstacks r.delay
            (r.nsamples / N + 1)).nsamples = (r.nsamples / N + 1) * N := by
          have : r.amp.length = r.nsamples := rfl
          simp only [ATS.nsamples, List.length_append, List.length_replicate] at *
          omega
        exact ⟨_, N - r.nsamples % N, rfl, rfl, hns, by omega, Nat.succ_pos _, rfl, rfl, rfl,
          hstep _ rfl hns (Nat.succ_pos _)⟩
    · rw [if_neg h2]
      have h5 : (({ r with multiple := 1 } : ATS)).nsamples = 1 * N := by
        show r.nsamples = 1 * N
        omega
      exact ⟨_, 0, rfl, by simp, h5, hN0, one_pos, rfl, rfl, rfl, hstep _ rfl h5 one_pos⟩

/-- C129 on a record of 10 samples at 1 ms padded to 2.5 Hz: 400 samples. -/
example : ∃ (r' : ATS) (k : ℕ), B64.zeroPad ⟨[1, 2, 3, 4, 5, 6, 7, 8, 9, 10], rnd (1 / 1000), 1, 0, 1⟩
      (rnd (5 / 2)) = (r', .ok ()) ∧ r'.amp = [1, 2, 3, 4, 5, 6, 7, 8, 9, 10] ++ List.replicate k 0 ∧
      r'.nsamples = r'.multiple * 400 ∧ k < 400 :=
  have ⟨r', k, h1, h2, h3, h4, _⟩ := C129_zero_pad_binary64
    ⟨[1, 2, 3, 4, 5, 6, 7, 8, 9, 10], rnd (1 / 1000), 1, 0, 1⟩ (5 / 2) (1 / 1000)
    400 (by norm_num) (by norm_num) (by norm_num) (by norm_num) rfl (by decide) (by decide)
  ⟨r', k, h1, h2, h3, h4⟩

/-- **C129** (refusal).  A step which is not positive is refused with `ValueError`, whatever the record. -/
theorem C129_refused_binary64 (r : ATS) (df : ℚ) (h : df ≤ 0) :
    (B64.zeroPad r df).2 = .error .valueError ∧ (B64.zeroPad r df).1.amp = r.amp ∧
      (B64.zeroPad r df).1.delay = r.delay ∧ (B64.zeroPad r df).1.nstacks = r.nstacks := by
  unfold B64.zeroPad
  simp [h]

/-! ## C130: frequency selection -/

theorem argmin_unique {l : List ℚ} {i : ℕ} (hi : i < l.length)
    (h : ∀ j (hj : j < l.length), j ≠ i → l[i] < l[j]) : argmin l = some i := by
  obtain ⟨x, xs, rfl⟩ := List.exists_cons_of_ne_nil (List.ne_nil_of_length_pos (Nat.lt_of_le_of_lt (Nat.zero_le _) hi))
  obtain ⟨k, hk⟩ : ∃ k, argmin (x :: xs) = some k := ⟨_, rfl⟩
  obtain ⟨h1, h2, _⟩ := argmin_spec hk
  rw [hk]
  by_contra hne
  have hne' : k ≠ i := fun e => hne (by rw [e])
  have := h k h1 hne'
  have := h2 i hi
  linarith

/-- The bin found for a limit which is (up to rounding) a multiple of the step. -/
theorem argmin_bin {n a : ℕ} {step d f : ℚ} (hd : 0 < d) (hn : n ≤ 2 ^ 40) (ha : a < n)
    (hs : |step - d| ≤ d / 2 ^ 49) (hf : |f - a * d| ≤ a * d / 2 ^ 50) :
    argmin ((B64.binFrequencies n step).map fun x => |B64.sub x f|) = some a := by
  have hlen : ((B64.binFrequencies n step).map fun x => |B64.sub x f|).length = n := by
    simp [B64.binFrequencies]
  have hget : ∀ j (hj : j < ((B64.binFrequencies n step).map fun x => |B64.sub x f|).length),
      ((B64.binFrequencies n step).map fun x => |B64.sub x f|)[j] = |rnd (rnd (j * step) - f)| := by
    intro j hj
    simp [B64.binFrequencies, B64.sub, B64.mul]
  have hq : ∀ j : ℕ, j < n → (j : ℚ) ≤ 2 ^ 40 := fun j hj => by
    exact_mod_cast le_trans hj.le hn
  rw [abs_le] at hs hf
  have hstep0 : 0 ≤ step := by
    have : d / 2 ^ 49 ≤ d := div_le_self hd.le (by norm_num)
    linarith
  -- bins are near the multiples of `d`
  have hbin : ∀ j : ℕ, j < n → |rnd (j * step) - j * d| ≤ d / 2 ^ 8 := by
    intro j hj
    have hj0 : (0 : ℚ) ≤ j := by positivity
    have hjd : (j : ℚ) * (d / 2 ^ 49) ≤ 2 ^ 40 * (d / 2 ^ 49) :=
      mul_le_mul_of_nonneg_right (hq j hj) (by positivity)
    have e1 := rnd_error (j * step)
    rw [abs_of_nonneg (mul_nonneg hj0 hstep0), abs_le] at e1
    have hs2 : step ≤ 2 * d := by
      have : d / 2 ^ 49 ≤ d := div_le_self hd.le (by norm_num)
      linarith
    have e2 : (j : ℚ) * step ≤ 2 ^ 40 * (2 * d) := mul_le_mul (hq j hj) hs2 hstep0 (by norm_num)
    have e3 : (j : ℚ) * (step - d) ≤ j * (d / 2 ^ 49) := mul_le_mul_of_nonneg_left (by linarith) hj0
    have e4 : -((j : ℚ) * (d / 2 ^ 49)) ≤ j * (step - d) := by
      have := mul_le_mul_of_nonneg_left (by linarith : -(d / 2 ^ 49) ≤ step - d) hj0
      linarith
    have e5 : (j : ℚ) * step / 2 ^ 53 ≤ 2 ^ 40 * (2 * d) / 2 ^ 53 := div_le_div_of_nonneg_right e2 (by norm_num)
    have e6 : (2 : ℚ) ^ 40 * (d / 2 ^ 49) = d / 2 ^ 9 := by ring
    have e7 : (2 : ℚ) ^ 40 * (2 * d) / 2 ^ 53 = d / 2 ^ 12 := by ring
    have e8 : d / 2 ^ 9 + d / 2 ^ 12 ≤ d / 2 ^ 8 := by
      have : d / 2 ^ 8 - (d / 2 ^ 9 + d / 2 ^ 12) = d * (1 / 2 ^ 8 - 1 / 2 ^ 9 - 1 / 2 ^ 12) := by ring
      have h9 : 0 ≤ d * (1 / 2 ^ 8 - 1 / 2 ^ 9 - 1 / 2 ^ 12) := mul_nonneg hd.le (by norm_num)
      linarith
    rw [abs_le]
    constructor <;> linarith [e1.1, e1.2]
  have hlim : |f - a * d| ≤ d / 2 ^ 8 := by
    have h1 : (a : ℚ) * d ≤ 2 ^ 40 * d := mul_le_mul_of_nonneg_right (hq a ha) hd.le
    have h2 : (a : ℚ) * d / 2 ^ 50 ≤ 2 ^ 40 * d / 2 ^ 50 := div_le_div_of_nonneg_right h1 (by norm_num)
    have h3 : (2 : ℚ) ^ 40 * d / 2 ^ 50 ≤ d / 2 ^ 8 := by
      have : d / 2 ^ 8 - 2 ^ 40 * d / 2 ^ 50 = d * (1 / 2 ^ 8 - 1 / 2 ^ 10) := by ring
      have h9 : 0 ≤ d * (1 / 2 ^ 8 - 1 / 2 ^ 10 : ℚ) := mul_nonneg hd.le (by norm_num)
      linarith
    rw [abs_le]
    constructor <;> linarith
  have hrel : ∀ x : ℚ, |x| * (1 - 1 / 2 ^ 53) ≤ |rnd x| ∧ |rnd x| ≤ |x| * (1 + 1 / 2 ^ 53) := by
    intro x
    have h1 := rnd_error x
    have h2 := abs_sub_abs_le_abs_sub (rnd x) x
    have h3 := abs_sub_abs_le_abs_sub x (rnd x)
    rw [abs_sub_comm x] at h3
    constructor
    · linarith [(by ring : |x| * (1 - 1 / 2 ^ 53) = |x| - |x| / 2 ^ 53)]
    · linarith [(by ring : |x| * (1 + 1 / 2 ^ 53) = |x| + |x| / 2 ^ 53)]
  refine argmin_unique (by rw [hlen]; exact ha) ?_
  intro j hj hja
  rw [hget, hget]
  rw [hlen] at hj
  have b1 := abs_le.1 (hbin a ha)
  have b2 := abs_le.1 (hbin j hj)
  have b3 := abs_le.1 hlim
  -- at the right bin
  have near : |rnd (a * step) - f| ≤ d / 2 ^ 7 := by
    have : d / 2 ^ 7 = d / 2 ^ 8 + d / 2 ^ 8 := by ring
    rw [abs_le]; constructor <;> linarith [b1.1, b1.2]
  -- at another one
  have far : d / 2 ≤ |rnd (j * step) - f| := by
    have hgap : d ≤ |(j : ℚ) * d - a * d| := by
      rw [← sub_mul, abs_mul, abs_of_pos hd]
      have : (1 : ℚ) ≤ |(j : ℚ) - a| := by
        have : (1 : ℤ) ≤ |(j : ℤ) - a| := Int.one_le_abs (by omega)
        have h2 : ((1 : ℤ) : ℚ) ≤ ((|(j : ℤ) - a| : ℤ) : ℚ) := by exact_mod_cast this
        push_cast at h2; exact h2
      nlinarith
    have h1 : |(j : ℚ) * d - a * d| ≤ |rnd (j * step) - f| + |rnd (j * step) - j * d| + |f - a * d| := by
      have e : (j : ℚ) * d - a * d = (rnd (j * step) - f) + (j * d - rnd (j * step)) + (f - a * d) := by ring
      calc _ = |(rnd (j * step) - f) + (j * d - rnd (j * step)) + (f - a * d)| := by rw [e]
        _ ≤ _ := by
          refine le_trans (abs_add_le _ _) (add_le_add (le_trans (abs_add_le _ _) (add_le_add le_rfl ?_)) le_rfl)
          rw [abs_sub_comm]
    have h2 := hbin j hj
    have h3 : d / 2 ^ 8 ≤ d / 4 := by
      have : d / 4 - d / 2 ^ 8 = d * (1 / 4 - 1 / 2 ^ 8) := by ring
      have h9 : 0 ≤ d * (1 / 4 - 1 / 2 ^ 8 : ℚ) := mul_nonneg hd.le (by norm_num)
      linarith
    linarith
  have r1 := (hrel (rnd (a * step) - f)).2
  have r2 := (hrel (rnd (j * step) - f)).1
  have r3 : |rnd (a * step) - f| * (1 + 1 / 2 ^ 53) ≤ d / 2 ^ 7 * (1 + 1 / 2 ^ 53) :=
    mul_le_mul_of_nonneg_right near (by norm_num)
  have r4 : d / 2 * (1 - 1 / 2 ^ 53) ≤ |rnd (j * step) - f| * (1 - 1 / 2 ^ 53) :=
    mul_le_mul_of_nonneg_right far (by norm_num)
  have r5 : d / 2 ^ 7 * (1 + 1 / 2 ^ 53) < d / 2 * (1 - 1 / 2 ^ 53) := by
    have : d / 2 * (1 - 1 / 2 ^ 53) - d / 2 ^ 7 * (1 + 1 / 2 ^ 53) =
        d * (1 / 2 * (1 - 1 / 2 ^ 53) - 1 / 2 ^ 7 * (1 + 1 / 2 ^ 53)) := by ring
    have h9 : 0 < d * (1 / 2 * (1 - 1 / 2 ^ 53) - 1 / 2 ^ 7 * (1 + 1 / 2 ^ 53) : ℚ) := mul_pos hd (by norm_num)
    linarith
  linarith

/-- **C130**.  A record sampled at `T` seconds is padded to `D` Hz (`1/(D*T)` a whole number) and its frequencies are
selected from `p*D` to `q*D` Hz, everything given and computed in binary64.  The bins selected are exactly those of
the frequencies `p*D, (p+1)*D, ..., q*D`, in this order, and the reported frequencies differ from these by at most a
relative `2^-49`. -/
theorem C130_selection_binary64 (r : ATS) (D T : ℚ) (N p q : ℕ) (hD : 0 < D) (hT : 0 < T) (hN : D * T * N = 1)
    (hdt : r.dt = rnd T) (hn : 0 < r.nsamples) (hn40 : r.nsamples + N ≤ 2 ^ 40)
    (hpq : p ≤ q) (hq : q < N) :
    ∃ r', B64.zeroPad r (rnd D) = (r', .ok ()) ∧
      B64.keepIds (B64.binFrequencies r'.nsamples (B64.dfInternal r')) (rnd (p * D)) (rnd (q * D)) r'.multiple =
        .ok ((List.range (q - p + 1)).map fun i => (p + i) * r'.multiple) ∧
      ∀ i ≤ q - p, ∃ f, (B64.binFrequencies r'.nsamples (B64.dfInternal r'))[(p + i) * r'.multiple]? = some f ∧
        |f - (p + i : ℕ) * D| ≤ (p + i : ℕ) * D / 2 ^ 49 := by
  have hN0 : 0 < N := by omega
  obtain ⟨r', k, h1, h2, h3, h4, h5, h6, -, -, -⟩ :=
    C129_zero_pad_binary64 r D T N hD hT hN (by omega) hdt hn (by omega)
  refine ⟨r', h1, ?_⟩
  have hmq : (0 : ℚ) < r'.multiple := by exact_mod_cast h5
  have hNq : (0 : ℚ) < N := by exact_mod_cast hN0
  have hns : r'.nsamples ≤ 2 ^ 40 := by
    have : r'.nsamples = r.nsamples + k := by
      unfold ATS.nsamples; rw [h2]; simp
    omega
  -- spacing of the bins
  have hrel : Rel 3 (B64.dfInternal r') (D / r'.multiple) := by
    have hr : Rel 3 (B64.dfInternal r') (1 / ((r'.nsamples : ℚ) * T)) := by
      unfold B64.dfInternal B64.div B64.mul
      rw [h6, hdt]
      exact ((Rel.refl 1).div (((Rel.refl (r'.nsamples : ℚ)).mul (Rel.refl T).rnd).rnd)).rnd
    have e : 1 / ((r'.nsamples : ℚ) * T) = D / r'.multiple := by
      rw [h3]; push_cast
      have : T ≠ 0 := ne_of_gt hT
      have : (N : ℚ) ≠ 0 := ne_of_gt hNq
      have : (r'.multiple : ℚ) ≠ 0 := ne_of_gt hmq
      field_simp
      linarith
    rwa [e] at hr
  have hd : 0 < D / r'.multiple := div_pos hD hmq
  have hs : |B64.dfInternal r' - D / r'.multiple| ≤ D / r'.multiple / 2 ^ 49 := by
    refine le_trans (hrel.bound (by norm_num) hd.le) ?_
    exact div_le_div_of_nonneg_left hd.le (by norm_num) (by norm_num)
  have hidx : ∀ a : ℕ, a < N → a * r'.multiple < r'.nsamples := by
    intro a ha
    rw [h3, Nat.mul_comm]
    exact Nat.mul_lt_mul_of_pos_left ha h5
  have hval : ∀ a : ℕ, ((a * r'.multiple : ℕ) : ℚ) * (D / r'.multiple) = a * D := by
    intro a; push_cast; field_simp
  have hlim : ∀ a : ℕ, |rnd (a * D) - ((a * r'.multiple : ℕ) : ℚ) * (D / r'.multiple)| ≤
      ((a * r'.multiple : ℕ) : ℚ) * (D / r'.multiple) / 2 ^ 50 := by
    intro a
    rw [hval]
    exact ((Rel.refl ((a : ℚ) * D)).rnd).bound (by norm_num) (by positivity)
  constructor
  · have a1 := argmin_bin hd hns (hidx p (by omega)) hs (hlim p)
    have a2 := argmin_bin hd hns (hidx q hq) hs (hlim q)
    unfold B64.keepIds
    rw [a1, a2]
    simp only
    rw [if_neg (by omega)]
    congr 1
    unfold WT.pyRange
    have hlen : (q * r'.multiple + 1 - p * r'.multiple + r'.multiple - 1) / r'.multiple = q - p + 1 := by
      have e : q * r'.multiple + 1 - p * r'.multiple + r'.multiple - 1 = r'.multiple * (q - p + 1) := by
        obtain ⟨c, rfl⟩ := Nat.exists_eq_add_of_le hpq
        have e1 : (p + c) * r'.multiple = p * r'.multiple + c * r'.multiple := by ring
        have e2 : r'.multiple * (p + c - p + 1) = c * r'.multiple + r'.multiple := by
          rw [Nat.add_sub_cancel_left]; ring
        omega
      rw [e, Nat.mul_div_cancel_left _ h5]
    rw [hlen]
    refine List.map_congr_left fun i _ => ?_
    ring
  · intro i hi
    have hlt := hidx (p + i) (by omega)
    refine ⟨rnd (((p + i) * r'.multiple : ℕ) * B64.dfInternal r'), ?_, ?_⟩
    · simp [B64.binFrequencies, B64.mul, hlt]
    · have hr : Rel 4 (rnd (((p + i) * r'.multiple : ℕ) * B64.dfInternal r'))
          ((((p + i) * r'.multiple : ℕ) : ℚ) * (D / r'.multiple)) := by
        have := ((Rel.refl ((((p + i) * r'.multiple : ℕ) : ℚ))).mul hrel).rnd
        simpa using this
      rw [hval] at hr
      refine le_trans (hr.bound le_rfl (by positivity)) ?_
      exact div_le_div_of_nonneg_left (by positivity) (by norm_num) (by norm_num)

/-- C130 on a record of 10 samples at 0.1 s padded to 2.5 Hz (4 samples, so that every third bin is used) and
selected from 2.5 to 5 Hz. -/
example : ∃ r', B64.zeroPad ⟨[1, 2, 3, 4, 5, 6, 7, 8, 9, 10], rnd (1 / 10), 1, 0, 1⟩ (rnd (5 / 2)) = (r', .ok ()) ∧
    B64.keepIds (B64.binFrequencies r'.nsamples (B64.dfInternal r')) (rnd ((1 : ℕ) * (5 / 2)))
      (rnd ((2 : ℕ) * (5 / 2))) r'.multiple = .ok ((List.range 2).map fun i => (1 + i) * r'.multiple) :=
  have ⟨r', h1, h2, _⟩ := C130_selection_binary64 ⟨[1, 2, 3, 4, 5, 6, 7, 8, 9, 10], rnd (1 / 10), 1, 0, 1⟩
    (5 / 2) (1 / 10) 4 1 2 (by norm_num) (by norm_num) (by norm_num) rfl (by decide) (by decide) (by decide)
    (by decide)
  ⟨r', h1, h2⟩

end Verif.Props.B64
