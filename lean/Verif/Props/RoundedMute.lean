import Verif.Props.RoundedTrim
import Verif.Props.ArrayMute

/-!
# C136: boundary lines of the mute with the rounding of binary64
-/

namespace Verif.Props.B64
open Verif Verif.B64 Spec

/-- Up to eight roundings: a relative error of at most `2^-49`. -/
theorem Rel.abs_bound {k : ℕ} {x y : ℚ} (h : Rel k x y) (hk : k ≤ 8) : |x - y| ≤ 16 * (|y| / 2 ^ 53) := by
  obtain ⟨θ, h1, h2, rfl⟩ := h
  have hu := pow_pos u_pos k
  have h5 : (1 - 1 / 2 ^ 53 : ℚ) ^ 8 ≤ (1 - 1 / 2 ^ 53) ^ k :=
    pow_le_pow_of_le_one (by norm_num) (by norm_num) hk
  have h6 : (1 - 8 / 2 ^ 53 : ℚ) ≤ (1 - 1 / 2 ^ 53) ^ 8 := by norm_num
  have l : 1 - 16 / 2 ^ 53 ≤ θ := by
    have : (1 : ℚ) - 16 / 2 ^ 53 ≤ 1 - 8 / 2 ^ 53 := by norm_num
    linarith
  have hθ : 0 < θ := lt_of_lt_of_le hu h1
  have r : θ ≤ 1 + 16 / 2 ^ 53 := by
    have h7 : θ * (1 - 8 / 2 ^ 53) ≤ 1 := le_trans (mul_le_mul_of_nonneg_left (le_trans h6 h5) hθ.le) h2
    have h8 : (1 : ℚ) ≤ (1 + 16 / 2 ^ 53) * (1 - 8 / 2 ^ 53) := by norm_num
    exact le_of_mul_le_mul_right (le_trans h7 h8) (by norm_num)
  have e : y * θ - y = y * (θ - 1) := by ring
  rw [e, abs_mul]
  have : |θ - 1| ≤ 16 / 2 ^ 53 := abs_le.2 ⟨by linarith, by linarith⟩
  calc |y| * |θ - 1| ≤ |y| * (16 / 2 ^ 53) := mul_le_mul_of_nonneg_left this (abs_nonneg y)
    _ = _ := by ring

/-- The place of a line at a sensor, in samples. -/
theorem place_near (l : Arr.Line) {dt delay p : ℚ} (hdt : 0 < dt)
    (hW : (|l.t1| + |(l.t2 - l.t1) / (l.x2 - l.x1) * (p - l.x1)|) / dt + |delay / dt| ≤ 2 ^ 38) :
    |add (div (add l.t1 (mul (div (sub l.t2 l.t1) (sub l.x2 l.x1)) (sub p l.x1))) dt) (B64.ndelay delay dt) -
      ((l.t1 + (l.t2 - l.t1) / (l.x2 - l.x1) * (p - l.x1)) / dt + |delay / dt|)| ≤ 1 / 1024 := by
  set A := l.t1
  set B := (l.t2 - l.t1) / (l.x2 - l.x1) * (p - l.x1) with hB
  set M := |A| + |B| with hM
  set W := M / dt + |delay / dt| with hWdef
  have hM0 : 0 ≤ M := add_nonneg (abs_nonneg _) (abs_nonneg _)
  have hb : |mul (div (sub l.t2 l.t1) (sub l.x2 l.x1)) (sub p l.x1) - B| ≤ 16 * (|B| / 2 ^ 53) := by
    have h1 : Rel 1 (sub l.t2 l.t1) (l.t2 - l.t1) := (Rel.refl _).rnd
    have h2 : Rel 1 (sub l.x2 l.x1) (l.x2 - l.x1) := (Rel.refl _).rnd
    have h3 : Rel 1 (sub p l.x1) (p - l.x1) := (Rel.refl _).rnd
    have h4 : Rel 3 (div (sub l.t2 l.t1) (sub l.x2 l.x1)) ((l.t2 - l.t1) / (l.x2 - l.x1)) := (h1.div h2).rnd
    have h5 : Rel 5 (mul (div (sub l.t2 l.t1) (sub l.x2 l.x1)) (sub p l.x1)) B := (h4.mul h3).rnd
    exact h5.abs_bound (by norm_num)
  generalize mul (div (sub l.t2 l.t1) (sub l.x2 l.x1)) (sub p l.x1) = b at hb ⊢
  have hABM : |A + B| ≤ M := abs_add_le A B
  have h1 : |A + b - (A + B)| ≤ 16 * (M / 2 ^ 53) := by
    have e : A + b - (A + B) = b - B := by ring
    rw [e]
    refine le_trans hb (mul_le_mul_of_nonneg_left (div_le_div_of_nonneg_right ?_ (by norm_num)) (by norm_num))
    have := abs_nonneg A
    linarith
  have h2 : |add A b - (A + B)| ≤ (16 + 2) * (M / 2 ^ 53) := rnd_step (by norm_num) hABM h1
  have hMW : M / dt ≤ W := by have := abs_nonneg (delay / dt); linarith
  have h3 : |add A b / dt - (A + B) / dt| ≤ 18 * (W / 2 ^ 53) := by
    rw [← sub_div, abs_div, abs_of_pos hdt]
    calc |add A b - (A + B)| / dt ≤ (16 + 2) * (M / 2 ^ 53) / dt := div_le_div_of_nonneg_right h2 hdt.le
      _ = 18 * (M / dt / 2 ^ 53) := by ring
      _ ≤ 18 * (W / 2 ^ 53) := mul_le_mul_of_nonneg_left (div_le_div_of_nonneg_right hMW (by norm_num)) (by norm_num)
  have hy : |(A + B) / dt| ≤ M / dt := by
    rw [abs_div, abs_of_pos hdt]; exact div_le_div_of_nonneg_right hABM hdt.le
  have h4 : |div (add A b) dt - (A + B) / dt| ≤ (18 + 2) * (W / 2 ^ 53) :=
    rnd_step (by norm_num) (le_trans hy hMW) h3
  have h5 : |B64.ndelay delay dt - (|delay / dt|)| ≤ 1 * (W / 2 ^ 53) := by
    unfold B64.ndelay
    refine le_trans (abs_abs_sub_abs_le_abs_sub _ _) (le_trans (rnd_error _) ?_)
    rw [one_mul]
    refine div_le_div_of_nonneg_right ?_ (by norm_num)
    have : 0 ≤ M / dt := div_nonneg hM0 hdt.le
    linarith
  have h6 : |div (add A b) dt + B64.ndelay delay dt - ((A + B) / dt + |delay / dt|)| ≤ 21 * (W / 2 ^ 53) := by
    have e : div (add A b) dt + B64.ndelay delay dt - ((A + B) / dt + |delay / dt|) =
        (div (add A b) dt - (A + B) / dt) + (B64.ndelay delay dt - |delay / dt|) := by ring
    rw [e]
    refine le_trans (abs_add_le _ _) (le_trans (add_le_add h4 h5) (le_of_eq ?_))
    ring
  have hyW : |(A + B) / dt + (|delay / dt|)| ≤ W := by
    refine le_trans (abs_add_le _ _) (add_le_add hy ?_)
    rw [abs_abs]
  have h7 := rnd_step (by norm_num) hyW h6
  refine le_trans h7 ?_
  have : W / 2 ^ 53 ≤ 2 ^ 38 / 2 ^ 53 := div_le_div_of_nonneg_right hW (by norm_num)
  calc (21 + 2) * (W / 2 ^ 53) ≤ (21 + 2) * (2 ^ 38 / 2 ^ 53) := mul_le_mul_of_nonneg_left this (by norm_num)
    _ ≤ 1 / 1024 := by norm_num

theorem pyInt_near {v w : ℚ} (h : |w - v| ≤ 1 / 1024) : |pyInt w - pyInt v| ≤ 1 ∧
    ((∀ n : ℤ, 1 / 1024 < |v - n|) → pyInt w = pyInt v) := by
  obtain ⟨h1, h2⟩ := abs_le.1 h
  have a1 := Int.floor_le v
  have a2 := Int.lt_floor_add_one v
  have b1 := Int.floor_le w
  have b2 := Int.lt_floor_add_one w
  have c1 := Int.le_ceil v
  have c2 := Int.ceil_lt_add_one v
  have d1 := Int.le_ceil w
  have d2 := Int.ceil_lt_add_one w
  have key : ∀ m n : ℤ, (m : ℚ) < n + 2 → (n : ℚ) < m + 2 → |m - n| ≤ 1 := by
    intro m n e1 e2
    have e1' : m < n + 2 := by exact_mod_cast e1
    have e2' : n < m + 2 := by exact_mod_cast e2
    rw [abs_le]; omega
  unfold pyInt
  constructor
  · split_ifs with p q q
    · exact key _ _ (by linarith) (by linarith)
    · push Not at q
      exact key _ _ (by linarith) (by linarith)
    · push Not at p
      exact key _ _ (by linarith) (by linarith)
    · exact key _ _ (by linarith) (by linarith)
  · intro hn
    have n0 := hn 0
    rw [Int.cast_zero, sub_zero] at n0
    split_ifs with p q q
    · have g1 := hn ⌊v⌋
      have g2 := hn (⌊v⌋ + 1)
      rw [abs_of_nonneg (by linarith)] at g1
      rw [abs_of_nonpos (by push_cast; linarith)] at g2
      push_cast at g2
      rw [Int.floor_eq_iff]
      constructor <;> linarith
    · push Not at q
      rw [abs_of_neg q] at n0
      linarith
    · push Not at p
      rw [abs_of_nonneg q] at n0
      linarith
    · have g1 := hn ⌈v⌉
      have g2 := hn (⌈v⌉ - 1)
      rw [abs_of_nonpos (by linarith)] at g1
      rw [abs_of_nonneg (by push_cast; linarith)] at g2
      push_cast at g2
      rw [Int.ceil_eq_iff]
      constructor <;> linarith

theorem sub_ne_zero_of_ne {x y : ℚ} (h : x ≠ y) : B64.sub x y ≠ 0 := by
  intro h0
  have h2 : rnd (x - y) = 0 := h0
  rcases lt_or_gt_of_ne (sub_ne_zero.2 h) with h1 | h1
  · have := rnd_pos (neg_pos.2 h1)
    rw [rnd_neg, h2] at this
    simp at this
  · have := rnd_pos h1
    rw [h2] at this
    exact lt_irrefl _ this

/-- **C136** (refusal).  A vertical line, and in binary64 no other, raises `ZeroDivisionError`. -/
theorem C136_vertical_line_binary64 (l : Arr.Line) (dt ndelay : ℚ) (positions : List ℚ) :
    B64.lineIndices l dt ndelay positions = .error .zeroDivisionError ↔ l.x1 = l.x2 := by
  unfold B64.lineIndices
  constructor
  · intro h
    split_ifs at h with h0
    by_contra hx
    exact sub_ne_zero_of_ne (Ne.symm hx) h0
  · intro h
    rw [if_pos (by rw [h]; unfold B64.sub; rw [sub_self, rnd_zero])]

/-- **C136**.  At every sensor the boundary line of a mute is placed in binary64 at the sample where exact arithmetic places
it, if it does not pass within a thousandth of a step of a sample; in any case at this sample or one next to it. -/
theorem C136_mute_line_binary64_partial (l : Arr.Line) (dt delay : ℚ) (positions : List ℚ) (hdt : 0 < dt) (hx : l.x1 ≠ l.x2)
    (hW : ∀ p ∈ positions, (|l.t1| + |(l.t2 - l.t1) / (l.x2 - l.x1) * (p - l.x1)|) / dt + |delay / dt| ≤ 2 ^ 38) :
    ∃ ks js : List ℤ, B64.lineIndices l dt (B64.ndelay delay dt) positions = .ok ks ∧
      Arr.lineIndices l dt |delay / dt| positions = .ok js ∧ ks.length = positions.length ∧ js.length = positions.length ∧
      ∀ (i : ℕ) (p : ℚ) (k j : ℤ), positions[i]? = some p → ks[i]? = some k → js[i]? = some j →
        |k - j| ≤ 1 ∧ ((∀ n : ℤ, 1 / 1024 < |lineTime l p / dt + |delay / dt| - n|) → k = j) := by
  have hne : l.x2 - l.x1 ≠ 0 := sub_ne_zero.2 (Ne.symm hx)
  have hne' : ¬ sub l.x2 l.x1 = 0 := sub_ne_zero_of_ne (Ne.symm hx)
  unfold B64.lineIndices Arr.lineIndices
  rw [if_neg hne', if_neg hne]
  refine ⟨_, _, rfl, rfl, by simp, by simp, ?_⟩
  intro i p k j hp hk hj
  simp only [List.getElem?_map, hp, Option.map_some, Option.some.injEq] at hk hj
  have h := place_near l hdt (hW p (List.mem_of_getElem? hp))
  have := pyInt_near h
  rw [hk, hj] at this
  exact this

/-- C136 for a line from 0.1 s at 0 m to 0.3 s at 10 m and a record of 1 ms from -0.01 s: at 3.7 m it is at 184 steps. -/
example : ∃ ks js, B64.lineIndices ⟨0, rnd (1 / 10), 10, rnd (3 / 10)⟩ (rnd (1 / 1000))
      (B64.ndelay (rnd (-1 / 100)) (rnd (1 / 1000))) [rnd (37 / 10)] = .ok ks ∧
    Arr.lineIndices ⟨0, rnd (1 / 10), 10, rnd (3 / 10)⟩ (rnd (1 / 1000)) |rnd (-1 / 100) / rnd (1 / 1000)| [rnd (37 / 10)] =
      .ok js := by
  obtain ⟨ks, js, h1, h2, _⟩ := C136_mute_line_binary64_partial ⟨0, rnd (1 / 10), 10, rnd (3 / 10)⟩ (rnd (1 / 1000))
    (rnd (-1 / 100)) [rnd (37 / 10)] (rnd_pos (by norm_num)) (by norm_num) (by decide +kernel)
  exact ⟨ks, js, h1, h2⟩

set_option maxRecDepth 10000 in
/-- **C136** fails for lines through a sample.  A record is sampled at 0.1 s and muted before 0.3 s, the time of sample 3;
in binary64 the line is placed at sample 2, which is before 0.3 s and is not silenced. -/
theorem C136_line_through_sample_fails :
    B64.lineIndices ⟨0, rnd (3 / 10), 1, rnd (3 / 10)⟩ (rnd (1 / 10)) (B64.ndelay 0 (rnd (1 / 10))) [0] = .ok [2] ∧
      Arr.lineIndices ⟨0, 3 / 10, 1, 3 / 10⟩ (1 / 10) |0 / (1 / 10)| [0] = .ok [3] := by
  constructor <;> decide +kernel

end Verif.Props.B64
