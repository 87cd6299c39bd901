import Mathlib.Data.Rat.Floor
import Verif.Lemmas.Py
import Verif.Spec.Number

/-! # The number functions of the model do what the vocabulary says -/

namespace Verif
open Spec

theorem lt_iff_below (a b : Fl) : a.lt b = true ↔ Below a b := by
  constructor
  · intro h
    cases a <;> cases b <;> simp [Fl.lt] at h
    · exact ⟨_, _, .ninf, .fin _, EReal.bot_lt_coe _⟩
    · exact ⟨_, _, .ninf, .pinf, bot_lt_top⟩
    · exact ⟨_, _, .fin _, .fin _, EReal.coe_lt_coe_iff.2 (by exact_mod_cast h)⟩
    · exact ⟨_, _, .fin _, .pinf, EReal.coe_lt_top _⟩
  · rintro ⟨x, y, ha, hb, h⟩
    cases ha <;> cases hb <;> simp [Fl.lt] at h ⊢
    exact h

theorem lt_false_iff (a b : Fl) : a.lt b = false ↔ ¬ Below a b := by
  rw [← lt_iff_below]; simp

theorem pyInt_eq_cut (q : ℚ) : pyInt q = cut q := by
  unfold pyInt cut
  split_ifs with h
  · rw [Rat.floor_def', Int.tdiv_eq_ediv_of_nonneg (Rat.num_nonneg.2 h)]
  · have h' : 0 ≤ (-q).num := Rat.num_nonneg.2 (by linarith)
    have : ⌈q⌉ = -⌊-q⌋ := by rw [Int.floor_neg, neg_neg]
    rw [this, Rat.floor_def', ← Int.tdiv_eq_ediv_of_nonneg h', Rat.num_neg_eq_neg_num, Rat.neg_den, Int.neg_tdiv,
      neg_neg]

theorem pyRound_roundsTo (q : ℚ) : RoundsTo q (pyRound q) := by
  have h0 := Int.floor_le q
  have h1 := Int.lt_floor_add_one q
  unfold RoundsTo pyRound
  split_ifs with c1 c2 c3
  · refine ⟨abs_le.2 ⟨by linarith, by linarith⟩, fun h => ?_⟩
    rw [abs_of_nonneg (by linarith)] at h; linarith
  · push_cast
    refine ⟨abs_le.2 ⟨by linarith, by linarith⟩, fun h => ?_⟩
    rw [abs_of_nonpos (by linarith)] at h; linarith
  · exact ⟨abs_le.2 ⟨by linarith, by linarith⟩, fun _ => Int.even_iff.2 c3⟩
  · push_cast
    exact ⟨abs_le.2 ⟨by linarith, by linarith⟩, fun _ => by rw [Int.even_iff]; omega⟩

theorem roundsTo_unique {q : ℚ} {m n : ℤ} (hm : RoundsTo q m) (hn : RoundsTo q n) : m = n := by
  have key : ∀ {m n : ℤ}, RoundsTo q m → RoundsTo q n → ¬ m < n := by
    intro m n hm hn h
    have a1 := abs_le.1 hm.1
    have a2 := abs_le.1 hn.1
    have h' : (m : ℚ) + 1 ≤ n := by exact_mod_cast h
    have e : (n : ℚ) = m + 1 := by linarith
    have em := hm.2 (by rw [abs_of_nonneg] <;> linarith)
    have en := hn.2 (by rw [abs_of_nonpos] <;> linarith)
    have : n = m + 1 := by exact_mod_cast e
    rw [Int.even_iff] at em en
    omega
  rcases lt_trichotomy m n with h | h | h
  · exact absurd h (key hm hn)
  · exact h
  · exact absurd h (key hn hm)

/-- Rounding is the function `pyRound`. -/
theorem roundsTo_iff (q : ℚ) (n : ℤ) : RoundsTo q n ↔ pyRound q = n :=
  ⟨fun h => roundsTo_unique (pyRound_roundsTo q) h, fun h => h ▸ pyRound_roundsTo q⟩

theorem not_isNan (v : Fl) : (!v.isNan) = decide (v ≠ .nan) := by
  cases v <;> simp [Fl.isNan]

theorem div_one_eq {x : Fl} (h : x ≠ .fin 0) : Fl.div (.fin 1) x = reciprocal x := by
  cases x <;> simp_all [Fl.div, reciprocal]

end Verif
