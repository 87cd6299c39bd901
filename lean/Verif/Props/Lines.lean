import Verif.Model.Lines
import Verif.Props.Schematic
import Verif.Props.Correlation

/-!
# C126: the near-field line; C127: error bars of statistics
-/

namespace Verif.Props
open Verif Arr Spec Draw

/-- **C126**.  The near-field line of an array with mean distance `d` between source and receivers: nothing is drawn
unless asked for; otherwise one curve of 30 points evenly spaced from the lower to the upper frequency limit of the axes,
and at each of them `nearfield` wavelengths are as long as `d`: with the velocity `v` of the line at frequency `f`, the
wavelength is `v / f`.  The velocity limits of the axes stay as they are, whatever matplotlib does when a
curve is added; the frequency limits are those matplotlib chooses. -/
theorem C126_nearfield_line (a : Arr) (autoscale : List (List ℚ × List ℚ) → (ℚ × ℚ) × (ℚ × ℚ)) (v : View) (d : ℚ)
    (hd : Spec.IsMean (a.sensors.map fun s => |s.x - a.source.x|) (some d)) :
    nearfieldLine (some a) none autoscale v = .ok v ∧
    ∀ n : ℚ, n ≠ 0 → ∃ (w : View) (fs vs : List ℚ), nearfieldLine (some a) (some n) autoscale v = .ok w ∧
      w.curves = v.curves ++ [(fs, vs)] ∧ w.ylim = v.ylim ∧ w.xlim = (autoscale w.curves).1 ∧ fs.length = 30 ∧ vs.length = 30 ∧
      fs[0]? = some v.xlim.1 ∧ fs[29]? = some v.xlim.2 ∧
      (∀ (i : ℕ) (f g : ℚ), fs[i]? = some f → fs[i + 1]? = some g → g - f = (v.xlim.2 - v.xlim.1) / 29) ∧
      ∀ (i : ℕ) (f u : ℚ), fs[i]? = some f → vs[i]? = some u → f ≠ 0 → n * (u / f) = d := by
  refine ⟨rfl, fun n hn => ?_⟩
  have hdist : a.arrayCenterDistance = d := by
    have hl : (a.sensors.map fun s => |s.x - a.source.x|) = a.offsets := by
      simp [offsets, position, abs_sub_comm]
    rw [hl] at hd
    rcases hd with ⟨-, h⟩ | ⟨h1, q, h2, h3⟩
    · cases h
    · cases h2
      have : (a.offsets.length : ℚ) ≠ 0 := by
        rw [Ne, Nat.cast_eq_zero, List.length_eq_zero_iff]; exact h1
      rw [arrayCenterDistance, div_eq_iff this, ← h3, mul_comm]
  have hget : ∀ (i : ℕ) (f : ℚ), (linspace v.xlim.1 v.xlim.2 30)[i]? = some f →
      f = v.xlim.1 + i * ((v.xlim.2 - v.xlim.1) / 29) := by
    intro i f h
    simp only [linspace, List.getElem?_map, Option.map_eq_some_iff] at h
    obtain ⟨k, hk, rfl⟩ := h
    rw [List.getElem?_range (by
      by_contra hc
      rw [List.getElem?_eq_none (by simpa using hc)] at hk
      cases hk)] at hk
    cases hk
    norm_num
  refine ⟨_, linspace v.xlim.1 v.xlim.2 30, _, rfl, rfl, rfl, rfl, by simp [linspace], by simp [linspace],
    ?_, ?_, ?_, ?_⟩
  · simp [linspace]
  · simp [linspace]
    norm_num
    ring
  · intro i f g hf hg
    rw [hget _ _ hf, hget _ _ hg]
    push_cast
    ring
  · intro i f u hf hu h0
    rw [List.getElem?_map, hf, Option.map_some, Option.some.injEq] at hu
    rw [← hu, hdist]
    field_simp

/-- A transform that did not come from a workflow has no array: the near-field line cannot be drawn. -/
theorem C126_without_array (n : ℚ) (autoscale : List (List ℚ × List ℚ) → (ℚ × ℚ) × (ℚ × ℚ)) (v : View) :
    nearfieldLine none (some n) autoscale v = .error .attributeError ∧
    nearfieldLine none none autoscale v = .ok v := ⟨rfl, rfl⟩

/-- Receivers at 2 and 4, source at -5: the mean distance is 8; at 29 Hz two wavelengths are 8 if the velocity is 116. -/
example : (nearfieldLine (some ⟨[mkS 2 [1], mkS 4 [1]], ⟨-5, 0, 0⟩⟩) (some 2) (fun _ => ((0, 60), (0, 600)))
      ⟨[], (0, 58), (100, 500)⟩).toOption.map (fun w => (w.curves.map fun c => (c.1.length, c.1[14]?, c.2[14]?), w.ylim)) =
      some ([(30, some 28, some 112)], (100, 500)) ∧
    Spec.IsMean ([mkS 2 [1], mkS 4 [1]].map fun s => |s.x - (-5)|) (some 8) := by
  refine ⟨by decide +kernel, Or.inr ⟨by simp, 8, rfl, ?_⟩⟩
  decide +kernel

/-- **C127**.  What `statistics` reports can be plotted, whatever the suite: one set of error bars is added, a bar at
each location `C` kept, from the mean of the values of the members `R` there down and up by their standard
deviation (`R` and `C` are those of `C54_statistics`).  An option given by the caller (the last one of a name) replaces
the default. -/
theorem C127_error_bars (s : Suite) (xtype ytype : String) (xx : List ℚ) (count : ℕ) (ax : List ErrorBars)
    (kwargs : Option (List (String × String))) (h : 3 ≤ s.peaks.length) (xx' : List ℚ) (m : Mat)
    (hm : s.toArray xtype ytype xx = .ok (xx', m)) :
    ∃ (R C : List ℕ) (xs : List ℚ) (mean : List (Option ℚ)) (std : List (Option ℝ)) (b : ErrorBars),
      s.statistics xtype ytype xx count = .ok (xs, mean, std) ∧
      plotStatistics ax xs mean std kwargs = .ok (ax ++ [b]) ∧
      (R, C) = Spec.keptData (Mat.entry m.rows) s.peaks.length xx.length (1 / 100) (1 / 100) count ∧
      b.xs.length = C.length ∧ b.ys.length = C.length ∧ b.half.length = C.length ∧
      (∀ (k c : ℕ), C[k]? = some c → b.xs[k]? = xx[c]? ∧
        Spec.IsMean (R.filterMap fun r => Mat.entry m.rows r c) (b.ys.getD k none) ∧
        Spec.IsStd (R.filterMap fun r => Mat.entry m.rows r c) (b.half.getD k none)) ∧
      ∀ key, b.options.lookup key = ((kwargs.getD []).reverse.lookup key).or
        ([("linestyle", ""), ("color", "k"), ("label", "None"), ("marker", "o"), ("markerfacecolor", "k"),
          ("markersize", "0.5"), ("capsize", "2"), ("zorder", "20")].lookup key) := by
  obtain ⟨R, C, mean, std, k1, -, k3, k4, k5, k6, k7⟩ := (C54_statistics s xtype ytype xx count).2 h xx' m hm
  refine ⟨R, C, _, mean, std, ⟨C.map fun c => xx.getD c 0, mean, std,
    merge errorbarDefaults (kwargs.getD [])⟩, k1, ?_, k4, by simp, k5, k6, ?_, fun key => merge_lookup _ key _⟩
  · unfold plotStatistics
    rw [if_pos (by simp [k5, k6])]
  · intro k c hk
    refine ⟨?_, k7 k c hk⟩
    have hc : c < xx.length := List.mem_range.1 (k3.subset (List.mem_of_getElem? hk))
    simp [hk, hc]

/-- **C127** (refusal).  Places, means and deviations of different lengths are refused and nothing is drawn. -/
theorem C127_lengths_refused (ax : List ErrorBars) (xx : List ℚ) (mean : List (Option ℚ)) (stddev : List (Option ℝ))
    (kwargs : Option (List (String × String))) :
    (∃ bars, plotStatistics ax xx mean stddev kwargs = .ok bars) ↔ xx.length = mean.length ∧ xx.length = stddev.length := by
  unfold plotStatistics
  split_ifs with h
  · exact ⟨fun _ => h, fun _ => ⟨_, rfl⟩⟩
  · exact ⟨fun ⟨_, hb⟩ => (by cases hb), fun hc => absurd hc h⟩

example : 3 ≤ gapSuite.peaks.length ∧ (gapSuite.toArray "frequency" "velocity" [1, 2]).isOk := by
  rw [gapSuite_array]; decide

end Verif.Props
