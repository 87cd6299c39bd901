import Verif.Model.Spectral
import Mathlib.Tactic.Linarith
import Mathlib.Tactic.Ring
import Mathlib.Tactic.FieldSimp
import Mathlib.Tactic.NormNum

/-!
# C61: trial velocity vectors
-/

namespace Verif.Props
open Verif WT

/-- **C61** (linear).  With linear spacing and `n ≥ 2` points the vector has `n` entries, starts at
`vmin`, ends at `vmax`, has equal differences, and is strictly increasing when `vmin < vmax`. -/
theorem C61_linear (vmin vmax : ℝ) (n : ℕ) (hn : 2 ≤ n) (space : String)
    (hs : space = "linear" ∨ space = "lin") :
    ∃ l, createVector vmin vmax n space = .ok l ∧ l.length = n ∧ l[0]? = some vmin ∧
      l[n - 1]? = some vmax ∧
      (∃ d, ∀ k x y, l[k]? = some x → l[k + 1]? = some y → y - x = d) ∧
      (vmin < vmax → l.Pairwise (· < ·)) := by
  have hn1 : ((n : ℝ) - 1) ≠ 0 := by
    have : (2 : ℝ) ≤ n := by exact_mod_cast hn
    intro h; linarith
  have hpos : (0 : ℝ) < (n : ℝ) - 1 := by
    have : (2 : ℝ) ≤ n := by exact_mod_cast hn
    linarith
  refine ⟨(List.range n).map fun (k : ℕ) => vmin + k * ((vmax - vmin) / ((n : ℝ) - 1)), ?_, by simp,
    ?_, ?_, ?_, ?_⟩
  · unfold createVector
    rw [if_pos hs, if_neg (by omega)]
    simp
  · rw [List.getElem?_map, List.getElem?_range (by omega)]; simp
  · rw [List.getElem?_map, List.getElem?_range (by omega)]
    simp only [Option.map_some, Option.some.injEq]
    rw [Nat.cast_sub (by omega)]
    push_cast
    field_simp
    ring
  · refine ⟨(vmax - vmin) / ((n : ℝ) - 1), ?_⟩
    intro k x y hx hy
    rw [List.getElem?_map] at hx hy
    obtain ⟨a, ha, rfl⟩ := Option.map_eq_some_iff.1 hx
    obtain ⟨b, hb, rfl⟩ := Option.map_eq_some_iff.1 hy
    rw [List.getElem?_eq_some_iff] at ha hb
    obtain ⟨_, ha⟩ := ha
    obtain ⟨_, hb⟩ := hb
    rw [List.getElem_range] at ha hb
    subst ha; subst hb
    push_cast
    ring
  · intro hlt
    rw [List.pairwise_map]
    refine List.pairwise_lt_range.imp ?_
    intro a b hab
    have h1 : (a : ℝ) < b := by exact_mod_cast hab
    have h2 : 0 < (vmax - vmin) / ((n : ℝ) - 1) := div_pos (by linarith) hpos
    nlinarith

/-- **C61** (logarithmic).  With logarithmic spacing, `n ≥ 2` points and positive bounds the vector has
`n` entries, starts at `vmin`, ends at `vmax`, has equal ratios, and is strictly increasing when
`vmin < vmax`. -/
theorem C61_logarithmic (vmin vmax : ℝ) (hmin : 0 < vmin) (hmax : 0 < vmax) (n : ℕ) (hn : 2 ≤ n)
    (space : String) (hs : space = "log" ∨ space = "logarithmic") :
    ∃ l, createVector vmin vmax n space = .ok l ∧ l.length = n ∧ l[0]? = some vmin ∧
      l[n - 1]? = some vmax ∧
      (∃ q, ∀ k x y, l[k]? = some x → l[k + 1]? = some y → y = x * q) ∧
      (vmin < vmax → l.Pairwise (· < ·)) := by
  have hpos : (0 : ℝ) < (n : ℝ) - 1 := by
    have : (2 : ℝ) ≤ n := by exact_mod_cast hn
    linarith
  have hn1 := ne_of_gt hpos
  have hr : 0 < vmax / vmin := div_pos hmax hmin
  refine ⟨(List.range n).map fun (k : ℕ) => vmin * (vmax / vmin) ^ ((k : ℝ) / ((n : ℝ) - 1)), ?_,
    by simp, ?_, ?_, ?_, ?_⟩
  · unfold createVector
    have hnl : ¬ (space = "linear" ∨ space = "lin") := by
      rcases hs with rfl | rfl <;> decide
    rw [if_neg hnl, if_pos hs, if_neg]
    · simp
    · rintro (h | h | h)
      · omega
      · exact absurd h (ne_of_gt hmin)
      · exact absurd h (ne_of_gt hmax)
  · rw [List.getElem?_map, List.getElem?_range (by omega)]; simp
  · rw [List.getElem?_map, List.getElem?_range (by omega)]
    simp only [Option.map_some, Option.some.injEq]
    rw [Nat.cast_sub (by omega)]
    push_cast
    rw [div_self hn1, Real.rpow_one]
    field_simp
  · refine ⟨(vmax / vmin) ^ (1 / ((n : ℝ) - 1)), ?_⟩
    intro k x y hx hy
    rw [List.getElem?_map] at hx hy
    obtain ⟨a, ha, rfl⟩ := Option.map_eq_some_iff.1 hx
    obtain ⟨b, hb, rfl⟩ := Option.map_eq_some_iff.1 hy
    rw [List.getElem?_eq_some_iff] at ha hb
    obtain ⟨_, ha⟩ := ha
    obtain ⟨_, hb⟩ := hb
    rw [List.getElem_range] at ha hb
    subst ha; subst hb
    rw [mul_assoc, ← Real.rpow_add hr]
    congr 2
    push_cast
    ring
  · intro hlt
    rw [List.pairwise_map]
    refine List.pairwise_lt_range.imp ?_
    intro a b hab
    have h1 : (a : ℝ) / ((n : ℝ) - 1) < b / ((n : ℝ) - 1) :=
      div_lt_div_of_pos_right (by exact_mod_cast hab) hpos
    have h2 : 1 < vmax / vmin := (one_lt_div hmin).2 hlt
    exact mul_lt_mul_of_pos_left (Real.rpow_lt_rpow_of_exponent_lt h2 h1) hmin

/-- **C61** (names).  `KeyError` is raised exactly for names other than the four documented ones. -/
theorem C61_unknown_spacing (vmin vmax : ℝ) (n : ℤ) (space : String) :
    createVector vmin vmax n space = .error .keyError ↔
      space ∉ ["linear", "lin", "log", "logarithmic"] := by
  unfold createVector
  simp only [List.mem_cons, List.not_mem_nil, or_false]
  split_ifs with h1 h2 h3 h4
  · simp; tauto
  · simp; tauto
  · simp; tauto
  · simp; tauto
  · simp; tauto

/-- Three trial velocities from 100 to 300. -/
example : createVector 100 300 3 "linear" = .ok [100, 200, 300] := by
  norm_num [createVector, show Int.toNat 3 = 3 from rfl, List.range_succ]

end Verif.Props
