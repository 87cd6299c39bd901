import Verif.Py.Basic

/-! # Lemmas about the Python primitives -/

namespace Verif

theorem argminFrom_spec (l : List ℚ) : ∀ (pre : List ℚ) (best : ℕ) (v : ℚ),
    pre[best]? = some v → (∀ j (h : j < pre.length), v ≤ pre[j]) →
    (∀ j (h : j < pre.length), j < best → v < pre[j]) →
    ∃ w, (pre ++ l)[argminFrom l pre.length best v]? = some w ∧
      (∀ j (h : j < (pre ++ l).length), w ≤ (pre ++ l)[j]) ∧
      (∀ j (h : j < (pre ++ l).length), j < argminFrom l pre.length best v → w < (pre ++ l)[j]) := by
  induction l with
  | nil =>
    intro pre best v h1 h2 h3
    refine ⟨v, by simpa [argminFrom] using h1, ?_, ?_⟩
    · intro j h; simpa using h2 j (by simpa using h)
    · intro j h hj; simpa using h3 j (by simpa using h) (by simpa [argminFrom] using hj)
  | cons x xs ih =>
    intro pre best v h1 h2 h3
    have hlen : (pre ++ [x]).length = pre.length + 1 := by simp
    have happ : pre ++ x :: xs = (pre ++ [x]) ++ xs := by simp
    have hb : best < pre.length := by
      rcases List.getElem?_eq_some_iff.1 h1 with ⟨h, _⟩; exact h
    have hbv : pre[best] = v := by
      rcases List.getElem?_eq_some_iff.1 h1 with ⟨_, h⟩; exact h
    unfold argminFrom
    by_cases hx : x < v
    · simp only [hx, if_true]
      have := ih (pre ++ [x]) pre.length x (by simp)
        (by
          intro j h
          rcases Nat.lt_or_ge j pre.length with hj | hj
          · rw [List.getElem_append_left hj]; exact le_of_lt (lt_of_lt_of_le hx (h2 j hj))
          · have : j = pre.length := by rw [hlen] at h; omega
            subst this; simp)
        (by
          intro j h hj
          rw [List.getElem_append_left hj]; exact lt_of_lt_of_le hx (h2 j hj))
      rw [hlen] at this
      rw [happ]; exact this
    · simp only [hx, if_false]
      have := ih (pre ++ [x]) best v (by rw [List.getElem?_append_left hb]; exact h1)
        (by
          intro j h
          rcases Nat.lt_or_ge j pre.length with hj | hj
          · rw [List.getElem_append_left hj]; exact h2 j hj
          · have : j = pre.length := by rw [hlen] at h; omega
            subst this; simpa using hx)
        (by
          intro j h hj
          have hj' : j < pre.length := by omega
          rw [List.getElem_append_left hj']; exact h3 j hj' hj)
      rw [hlen] at this
      rw [happ]; exact this

/-- `argmin` returns the first index of the minimum. -/
theorem argmin_spec {l : List ℚ} {i : ℕ} (h : argmin l = some i) :
    ∃ hi : i < l.length, (∀ j (hj : j < l.length), l[i] ≤ l[j]) ∧
      (∀ j (hj : j < l.length), j < i → l[i] < l[j]) := by
  cases l with
  | nil => simp [argmin] at h
  | cons x xs =>
    simp only [argmin, Option.some.injEq] at h
    obtain ⟨w, h1, h2, h3⟩ := argminFrom_spec xs [x] 0 x (by simp) (by
      intro j hj; have : j = 0 := by simpa using hj
      subst this; simp) (by intro j hj h0; omega)
    simp only [List.length_cons, List.length_nil, Nat.zero_add, List.singleton_append] at h1 h2 h3
    rw [h] at h1 h3
    obtain ⟨hi, hw⟩ := List.getElem?_eq_some_iff.1 h1
    refine ⟨hi, ?_, ?_⟩
    · intro j hj; rw [hw]; exact h2 j hj
    · intro j hj hji; rw [hw]; exact h3 j hj hji

theorem argmin_isSome {l : List ℚ} (h : l ≠ []) : ∃ i, argmin l = some i := by
  cases l with
  | nil => exact absurd rfl h
  | cons x xs => exact ⟨_, rfl⟩

theorem argmax_spec {l : List ℚ} {i : ℕ} (h : argmax l = some i) :
    ∃ hi : i < l.length, (∀ j (hj : j < l.length), l[j] ≤ l[i]) ∧
      (∀ j (hj : j < l.length), j < i → l[j] < l[i]) := by
  obtain ⟨hi, h1, h2⟩ := argmin_spec h
  simp only [List.length_map] at hi h1 h2
  refine ⟨hi, ?_, ?_⟩
  · intro j hj; have := h1 j hj; simpa using this
  · intro j hj hji; have := h2 j hj hji; simpa using this

theorem argmax_isSome {l : List ℚ} (h : l ≠ []) : ∃ i, argmax l = some i :=
  argmin_isSome (by simpa using h)

/-! ## Rounding -/

theorem pyRound_intCast (n : ℤ) : pyRound (n : ℚ) = n := by
  simp [pyRound]

theorem pyRound_abs_sub_le (q : ℚ) : |q - pyRound q| ≤ 1 / 2 := by
  have h0 : (⌊q⌋ : ℚ) ≤ q := Int.floor_le q
  have h1 : q < ⌊q⌋ + 1 := Int.lt_floor_add_one q
  unfold pyRound
  split_ifs with a b c
  · rw [abs_le]; constructor <;> linarith
  · push_cast; rw [abs_le]; constructor <;> linarith
  · rw [abs_le]; constructor <;> linarith
  · push_cast; rw [abs_le]; constructor <;> linarith

theorem pyRound_nonneg {q : ℚ} (h : 0 ≤ q) : 0 ≤ pyRound q := by
  have : 0 ≤ ⌊q⌋ := Int.floor_nonneg.2 h
  unfold pyRound; split_ifs <;> omega

/-! ## Slices -/

theorem sliceIdx_natCast (n i : ℕ) : sliceIdx n (i : ℤ) = min i n := by
  unfold sliceIdx
  have : ¬ ((i : ℤ) < 0) := by omega
  simp [this]

theorem sliceIdx_neg (n i : ℕ) (hi : 0 < i) : sliceIdx n (-(i : ℤ)) = n - i := by
  unfold sliceIdx
  have : (-(i : ℤ)) < 0 := by omega
  simp only [this, if_true]; omega

theorem sliceIdx_le (n : ℕ) (i : ℤ) : sliceIdx n i ≤ n := by
  unfold sliceIdx; split_ifs <;> omega

end Verif
