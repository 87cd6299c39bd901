import Verif.Lemmas.Records
import Verif.Lemmas.Trim

/-! # Lemmas about cross-correlation -/

namespace Verif.ATS

theorem getZ_eq_shiftedSample (b : List ℚ) (lag : ℤ) (l : ℕ) :
    getZ b ((l : ℤ) - lag) = Spec.shiftedSample b lag l := by
  unfold getZ Spec.shiftedSample
  by_cases h : 0 ≤ (l : ℤ) - lag
  · by_cases h2 : (l : ℤ) - lag < b.length
    · simp only [h, h2, and_self, if_true]
    · simp only [h, h2, and_false, if_true, if_false]
      rw [List.getD_eq_getElem?_getD, List.getElem?_eq_none (by omega)]; rfl
  · rw [if_neg h, if_neg (fun hc => h hc.1)]

theorem correlate_length (a b : List ℚ) : (correlate a b).length = a.length + b.length - 1 := by
  simp [correlate]

theorem correlate_getElem (a b : List ℚ) (k : ℕ) (h : k < (correlate a b).length) :
    (correlate a b)[k] = Spec.correlation a b ((k : ℤ) - ((b.length : ℤ) - 1)) := by
  unfold Spec.correlation
  simp only [correlate, List.getElem_map, List.getElem_range]
  congr 1
  apply List.map_congr_left
  intro l _
  rw [getZ_eq_shiftedSample]
  congr 1

/-- The shift chosen by `crosscorr_shift` and the record it returns. -/
theorem crosscorrShift_ok {a b : ATS} {e : Excl} {s : ℤ} {out : List ℚ}
    (h : crosscorrShift a b e = .ok (s, out)) :
    a.isSimilar b e = true ∧
    (-(b.nsamples : ℤ) < s ∧ s + b.nsamples < a.nsamples + b.nsamples) ∧
    (∀ s' : ℤ, -(b.nsamples : ℤ) < s' → s' + b.nsamples < a.nsamples + b.nsamples →
      Spec.correlation a.amp b.amp s' ≤ Spec.correlation a.amp b.amp s) ∧
    (∀ s' : ℤ, -(b.nsamples : ℤ) < s' → s' < s →
      Spec.correlation a.amp b.amp s' < Spec.correlation a.amp b.amp s) ∧
    out.length = max b.nsamples s.toNat ∧
    (∀ i < out.length, out[i]? = some (Spec.shiftedSample b.amp s i)) := by
  unfold crosscorrShift crosscorr at h
  by_cases hsim : a.isSimilar b e = true
  swap
  · simp [hsim, bind, Except.bind] at h
  simp only [hsim, Bool.not_true, Bool.false_eq_true, if_false, bind, Except.bind] at h
  rcases hm : argmax (correlate a.amp b.amp) with _ | m
  · simp [hm] at h
  obtain ⟨m1, m2, m3⟩ := argmax_spec hm
  have hla : a.amp.length = a.nsamples := rfl
  have hlb : b.amp.length = b.nsamples := rfl
  simp only [correlate_length, hla, hlb] at m1
  simp only [correlate_length, hla, hlb, correlate_getElem] at m2 m3
  simp only [hm] at h
  have hs : s = ((m : ℤ) + 1) - b.nsamples ∧
      out.length = max b.nsamples s.toNat ∧
      (∀ i < out.length, out[i]? = some (Spec.shiftedSample b.amp s i)) := by
    split_ifs at h with c1 c2
    · simp only [Except.ok.injEq, Prod.mk.injEq] at h
      obtain ⟨h1, h2⟩ := h
      rw [h1] at h2 c1
      refine ⟨h1.symm, ?_⟩
      have hsl : pySlice b.amp 0 (-s) = b.amp.take (b.nsamples - s.toNat) := by
        unfold pySlice
        have : -s = -((s.toNat : ℕ) : ℤ) := by omega
        rw [this, sliceIdx_neg _ _ (by omega)]
        have h0 : sliceIdx b.amp.length 0 = 0 := by
          have := sliceIdx_natCast b.amp.length 0
          simpa using this
        rw [h0]; simp [hlb]
      rw [hsl] at h2
      subst h2
      have hlen : (List.replicate s.toNat (0 : ℚ) ++ b.amp.take (b.nsamples - s.toNat)).length
          = max b.nsamples s.toNat := by
        simp only [List.length_append, List.length_replicate, List.length_take, hlb]; omega
      refine ⟨hlen, ?_⟩
      intro i hi
      rw [hlen] at hi
      unfold Spec.shiftedSample
      by_cases hi2 : i < s.toNat
      · rw [List.getElem?_append_left (by simpa using hi2)]
        rw [if_neg (by omega)]
        simp [hi2]
      · rw [List.getElem?_append_right (by simpa using hi2)]
        rw [if_pos (by rw [hlb]; omega)]
        simp only [List.length_replicate, List.getElem?_take]
        rw [if_pos (by omega)]
        have e1 : ((i : ℤ) - s).toNat = i - s.toNat := by omega
        rw [e1, List.getElem?_eq_getElem (by omega)]
        simp [List.getD_eq_getElem?_getD, List.getElem?_eq_getElem (show i - s.toNat < b.amp.length by omega)]
    · simp only [Except.ok.injEq, Prod.mk.injEq] at h
      obtain ⟨h1, h2⟩ := h
      rw [h1] at h2 c2
      refine ⟨h1.symm, ?_⟩
      subst h2
      have hsn : s.natAbs < b.nsamples := by omega
      have hlen : (b.amp.drop s.natAbs ++ List.replicate s.natAbs (0 : ℚ)).length
          = max b.nsamples s.toNat := by
        simp only [List.length_append, List.length_replicate, List.length_drop, hlb]; omega
      refine ⟨hlen, ?_⟩
      intro i hi
      rw [hlen] at hi
      unfold Spec.shiftedSample
      by_cases hi2 : i < b.nsamples - s.natAbs
      · rw [List.getElem?_append_left (by rw [List.length_drop]; omega)]
        rw [if_pos (by omega)]
        have e1 : ((i : ℤ) - s).toNat = s.natAbs + i := by omega
        rw [e1, List.getElem?_drop, List.getElem?_eq_getElem (by omega)]
        simp [List.getD_eq_getElem?_getD, List.getElem?_eq_getElem (show s.natAbs + i < b.amp.length by omega)]
      · rw [List.getElem?_append_right (by rw [List.length_drop]; omega)]
        rw [if_neg (by omega)]
        simp only [List.length_drop, List.getElem?_replicate]
        rw [if_pos (by omega)]
    · simp only [Except.ok.injEq, Prod.mk.injEq] at h
      obtain ⟨h1, h2⟩ := h
      rw [h1] at c1 c2
      have h0 : s = 0 := by omega
      subst h2
      refine ⟨h1.symm, by omega, ?_⟩
      intro i hi
      subst h0
      unfold Spec.shiftedSample
      rw [if_pos (by omega)]
      have e1 : ((i : ℤ) - 0).toNat = i := by omega
      rw [e1]
      simp [List.getElem?_eq_getElem hi]
  obtain ⟨hs, hrest⟩ := hs
  refine ⟨hsim, ?_, ?_, ?_, hrest⟩
  · have : 0 < b.nsamples ∨ b.nsamples = 0 := by omega
    omega
  · intro s' h1 h2
    have h3 := m2 (s' + b.nsamples - 1).toNat (by omega)
    have e1 : (((s' + b.nsamples - 1).toNat : ℕ) : ℤ) - ((b.nsamples : ℤ) - 1) = s' := by omega
    have e2 : (m : ℤ) - ((b.nsamples : ℤ) - 1) = s := by omega
    rw [e1, e2] at h3
    exact h3
  · intro s' h1 h2
    have h3 := m3 (s' + b.nsamples - 1).toNat (by omega) (by omega)
    have e1 : (((s' + b.nsamples - 1).toNat : ℕ) : ℤ) - ((b.nsamples : ℤ) - 1) = s' := by omega
    have e2 : (m : ℤ) - ((b.nsamples : ℤ) - 1) = s := by omega
    rw [e1, e2] at h3
    exact h3

theorem fromATS_eq (r : ATS) :
    r.fromATS = if 0 < r.nstacks ∧ r.delay ≤ 0 then .ok { r with multiple := 1 }
      else .error .valueError := by
  unfold fromATS ATS.init checkInput
  split_ifs with h1 h2 h3 h4 h5
  · omega
  · rfl
  · exact absurd h4.2 (not_le.2 h3)
  · rfl
  · rfl
  · exact absurd ⟨not_le.1 h1, not_lt.1 h3⟩ h5

theorem fromATS_error {r : ATS} {e : PyErr} (h : r.fromATS = .error e) : e = .valueError := by
  rw [fromATS_eq] at h
  split_ifs at h
  simpa using h.symm

theorem crosscorrShift_error {a b : ATS} {x : Excl} {e : PyErr}
    (h : crosscorrShift a b x = .error e) : e = .valueError := by
  unfold crosscorrShift crosscorr at h
  by_cases hs : a.isSimilar b x = true
  · simp only [hs, Bool.not_true, Bool.false_eq_true, if_false, bind, Except.bind] at h
    split at h
    · simpa using h.symm
    · split_ifs at h
  · simp only [Bool.not_eq_true] at hs
    simp only [hs, Bool.not_false, if_true, bind, Except.bind, Except.error.injEq] at h
    exact h.symm

theorem stackAppend_error {r t r' : ATS} {e : PyErr} (h : r.stackAppend t = (r', .error e)) :
    e = .valueError ∧ r' = r := by
  unfold stackAppend at h
  split_ifs at h
  · simp only [Prod.mk.injEq, Except.error.injEq] at h
    exact ⟨h.2.symm, h.1.symm⟩
  · simp at h

end Verif.ATS
