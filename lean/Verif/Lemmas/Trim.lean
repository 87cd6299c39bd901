import Verif.Lemmas.Records

/-! # Lemmas about `trim` -/

namespace Verif.ATS

theorem time_length (r : ATS) : r.time.length = r.nsamples := by simp [time]

theorem time_getElem (r : ATS) (i : ℕ) (h : i < r.time.length) :
    r.time[i] = (i : ℚ) * r.dt + r.delay := by simp [time]

theorem pySlice_nat {α : Type} (l : List α) (i j : ℕ) (hj : j ≤ l.length) (hi : i ≤ l.length) :
    pySlice l i j = (l.take j).drop i := by
  unfold pySlice
  rw [sliceIdx_natCast, sliceIdx_natCast, Nat.min_eq_left hj, Nat.min_eq_left hi]

/-- Nearest-sample indices used by `trim`. -/
theorem trim_ok {r r' : ATS} {s e : ℚ} (hdt : 0 < r.dt) (h : r.trim s e = (r', .ok ())) :
    ∃ i j : ℕ, i ≤ j ∧ j < r.nsamples ∧
      (∀ k < r.nsamples, |(i : ℚ) * r.dt + r.delay - s| ≤ |(k : ℚ) * r.dt + r.delay - s|) ∧
      (∀ k < r.nsamples, |(j : ℚ) * r.dt + r.delay - e| ≤ |(k : ℚ) * r.dt + r.delay - e|) ∧
      r.delay ≤ s ∧ s ≤ e ∧ e ≤ ((r.nsamples : ℚ) - 1) * r.dt + r.delay ∧
      r' = { r with amp := (r.amp.take (j + 1)).drop i, delay := s } := by
  unfold trim trimBase at h
  rcases hi : argmin (r.time.map fun t => |t - s|) with _ | i
  · simp [hi] at h
  rcases hj : argmin (r.time.map fun t => |t - e|) with _ | j
  · simp [hi, hj] at h
  rcases h0 : r.time.head? with _ | t0
  · simp [hi, hj, h0] at h
  rcases h1 : r.time.getLast? with _ | t1
  · simp [hi, hj, h0, h1] at h
  simp only [hi, hj, h0, h1] at h
  by_cases hc : (s < t0 || s > e || e > t1) = true
  · simp [hc] at h
  · simp only [hc] at h
    simp only [Prod.mk.injEq, and_true, Bool.false_eq_true, if_false] at h
    simp only [Bool.or_eq_true, decide_eq_true_eq, not_or, not_lt, gt_iff_lt] at hc
    obtain ⟨⟨c1, c2⟩, c3⟩ := hc
    obtain ⟨i1, i2, i3⟩ := argmin_spec hi
    obtain ⟨j1, j2, j3⟩ := argmin_spec hj
    simp only [List.length_map, time_length] at i1 j1
    simp only [List.length_map, time_length, List.getElem_map, time_getElem] at i2 i3 j2 j3
    have hpos : 0 < r.nsamples := by omega
    have ht0 : t0 = r.delay := by
      rw [List.head?_eq_getElem?, List.getElem?_eq_getElem (by rw [time_length]; exact hpos)] at h0
      simp only [time_getElem, Option.some.injEq] at h0
      rw [← h0]; simp
    have ht1 : t1 = ((r.nsamples : ℚ) - 1) * r.dt + r.delay := by
      rw [List.getLast?_eq_getElem?, time_length,
        List.getElem?_eq_getElem (by rw [time_length]; omega)] at h1
      simp only [time_getElem, Option.some.injEq] at h1
      rw [← h1, Nat.cast_sub (by omega)]; simp
    have hij : i ≤ j := by
      by_contra hlt
      have hlt : j < i := not_le.1 hlt
      have a := i3 j j1 hlt
      have b := j2 i i1
      have hq : (j : ℚ) * r.dt < (i : ℚ) * r.dt := by
        apply mul_lt_mul_of_pos_right _ hdt
        exact_mod_cast hlt
      -- start is strictly closer to the later sample, end at least as close to the earlier one
      rcases abs_cases ((i : ℚ) * r.dt + r.delay - s) with ⟨e1, f1⟩ | ⟨e1, f1⟩ <;>
      rcases abs_cases ((j : ℚ) * r.dt + r.delay - s) with ⟨e2, f2⟩ | ⟨e2, f2⟩ <;>
      rcases abs_cases ((i : ℚ) * r.dt + r.delay - e) with ⟨e3, f3⟩ | ⟨e3, f3⟩ <;>
      rcases abs_cases ((j : ℚ) * r.dt + r.delay - e) with ⟨e4, f4⟩ | ⟨e4, f4⟩ <;>
      rw [e1, e2] at a <;> rw [e3, e4] at b <;> linarith
    refine ⟨i, j, hij, j1, fun k hk => i2 k hk, fun k hk => j2 k hk, by rw [← ht0]; exact c1, c2,
      by rw [← ht1]; exact c3, ?_⟩
    rw [← h]
    have hsl : pySlice r.amp (i : ℤ) ((j : ℤ) + 1) = (r.amp.take (j + 1)).drop i := by
      have : ((j : ℤ) + 1) = ((j + 1 : ℕ) : ℤ) := by simp
      rw [this]
      have hl : r.amp.length = r.nsamples := rfl
      exact pySlice_nat _ _ _ (by omega) (by omega)
    rw [hsl]

end Verif.ATS
