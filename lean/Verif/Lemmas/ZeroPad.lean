import Verif.Lemmas.Records

/-! # Lemmas about `zero_pad` -/

namespace Verif.ATS

theorem targetSamples_nat {df dt : ℚ} (hdf : 0 < df) (hdt : 0 < dt) :
    ∃ N : ℕ, targetSamples df dt = N :=
  Int.eq_ofNat_of_zero_le (pyRound_nonneg (by positivity))

/-- `zero_pad` with a natural number as target. -/
theorem zeroPad_nat (r : ATS) (df : ℚ) (N : ℕ) (hdf : 0 < df) (hN : targetSamples df r.dt = N) :
    r.zeroPad df =
      if r.nsamples < N then
        ({ r with multiple := 1, amp := r.amp ++ List.replicate (N - r.nsamples) 0 }, .ok ())
      else if N < r.nsamples then
        if N = 0 then ({ r with multiple := 1 }, .error .zeroDivisionError)
        else if r.nsamples % N = 0 then ({ r with multiple := r.nsamples / N }, .ok ())
        else ({ r with multiple := r.nsamples / N + 1,
                       amp := r.amp ++ List.replicate (N - r.nsamples % N) 0 }, .ok ())
      else ({ r with multiple := 1 }, .ok ()) := by
  unfold zeroPad
  simp only [not_le.2 hdf, if_false, hN]
  have e1 : ((N : ℤ) > (r.nsamples : ℤ)) ↔ r.nsamples < N := by omega
  have e2 : ((N : ℤ) < (r.nsamples : ℤ)) ↔ N < r.nsamples := by omega
  have e3 : ((N : ℤ) = 0) ↔ N = 0 := by omega
  have e4 : ((r.nsamples : ℤ) % (N : ℤ) = 0) ↔ r.nsamples % N = 0 := by
    rw [← Int.natCast_emod]; omega
  have e5 : ((r.nsamples : ℤ) / (N : ℤ)).toNat = r.nsamples / N := by
    rw [← Int.natCast_ediv]; exact Int.toNat_natCast _
  have e6 : ((N : ℤ) - r.nsamples).toNat = N - r.nsamples := by omega
  simp only [e1, e2, e3, e4, e5, e6]
  by_cases h0 : N = 0
  · simp only [h0, if_true]
  · simp only [h0, if_false]
    have hNpos : 0 < N := Nat.pos_of_ne_zero h0
    have hmod : r.nsamples % N < N := Nat.mod_lt _ hNpos
    have e7 : (N : ℤ) - (r.nsamples : ℤ) % (N : ℤ) = ((N - r.nsamples % N : ℕ) : ℤ) := by
      rw [← Int.natCast_emod]; omega
    have htot : r.nsamples + (N - r.nsamples % N) = (r.nsamples / N + 1) * N := by
      have := Nat.div_add_mod r.nsamples N
      rw [Nat.add_mul, Nat.one_mul, Nat.mul_comm (r.nsamples / N)]
      omega
    have e8 : (((r.nsamples : ℤ) + ((N - r.nsamples % N : ℕ) : ℤ)) / (N : ℤ)).toNat
        = r.nsamples / N + 1 := by
      rw [← Nat.cast_add, htot, ← Int.natCast_ediv, Nat.mul_div_cancel _ hNpos]
      exact Int.toNat_natCast _
    rw [e7, e8]; simp

/-- What a successful `zero_pad` leaves behind, in terms of its integer target. -/
theorem zeroPad_ok {r r' : ATS} {df : ℚ} {N : ℕ} (hn : 0 < r.nsamples) (hdf : 0 < df)
    (hN : targetSamples df r.dt = N) (h : r.zeroPad df = (r', .ok ())) :
    0 < N ∧ 0 < r'.multiple ∧ r'.nsamples = r'.multiple * N ∧
      r'.dt = r.dt ∧ r'.delay = r.delay ∧ r'.nstacks = r.nstacks ∧
      ∃ k, r'.amp = r.amp ++ List.replicate k 0 ∧ r'.nsamples = r.nsamples + k ∧
        (r.nsamples < N → r'.nsamples = N) ∧ (N ≤ r.nsamples → k < N) := by
  rw [zeroPad_nat r df N hdf hN] at h
  have hl : r.amp.length = r.nsamples := rfl
  split_ifs at h with c1 c2 c3 c4
  · simp only [Prod.mk.injEq, and_true] at h
    subst h
    refine ⟨by omega, by simp, ?_, rfl, rfl, rfl, N - r.nsamples, rfl, ?_, ?_, ?_⟩
    all_goals simp only [nsamples, List.length_append, List.length_replicate]
    all_goals simp only [nsamples] at c1
    all_goals omega
  · simp at h
  · simp only [Prod.mk.injEq, and_true] at h
    subst h
    have hd := Nat.div_add_mod r.nsamples N
    rw [c4, Nat.add_zero, Nat.mul_comm] at hd
    refine ⟨by omega, Nat.div_pos (by omega) (by omega), ?_, rfl, rfl, rfl, 0, by simp, ?_, ?_, ?_⟩
    · exact hd.symm
    · rfl
    · intro; omega
    · intro; omega
  · simp only [Prod.mk.injEq, and_true] at h
    subst h
    have hmod : r.nsamples % N < N := Nat.mod_lt _ (by omega)
    have htot : r.nsamples + (N - r.nsamples % N) = (r.nsamples / N + 1) * N := by
      have := Nat.div_add_mod r.nsamples N
      rw [Nat.add_mul, Nat.one_mul, Nat.mul_comm (r.nsamples / N)]
      omega
    have hlen : (r.amp ++ List.replicate (N - r.nsamples % N) (0 : ℚ)).length =
        r.nsamples + (N - r.nsamples % N) := by simp [nsamples]
    refine ⟨by omega, by simp, ?_, rfl, rfl, rfl, N - r.nsamples % N, rfl, ?_, ?_, ?_⟩
    · exact hlen.trans htot
    · exact hlen
    · intro; omega
    · intro; omega
  · simp only [Prod.mk.injEq, and_true] at h
    subst h
    have : r.nsamples = N := by omega
    refine ⟨by omega, by simp, ?_, rfl, rfl, rfl, 0, by simp, ?_, ?_, ?_⟩
    · change r.nsamples = 1 * N; omega
    · rfl
    · intro; omega
    · intro; omega

/-- The step reported after a successful request. -/
theorem zeroPad_df {r r' : ATS} {df : ℚ} {N : ℕ} (hdt : 0 < r.dt) (hn : 0 < r.nsamples)
    (hdf : 0 < df) (hN : targetSamples df r.dt = N) (h : r.zeroPad df = (r', .ok ())) :
    r'.df = 1 / (N * r.dt) := by
  obtain ⟨h1, h2, h3, h4, -⟩ := zeroPad_ok hn hdf hN h
  have hN' : (N : ℚ) ≠ 0 := by exact_mod_cast ne_of_gt h1
  have hm' : (r'.multiple : ℚ) ≠ 0 := by exact_mod_cast ne_of_gt h2
  have hdt' : r.dt ≠ 0 := ne_of_gt hdt
  simp only [ATS.df, dfInternal, h3, h4]
  push_cast
  field_simp

/-- A positive step is necessary. -/
theorem zeroPad_ok_pos {r r' : ATS} {df : ℚ} (h : r.zeroPad df = (r', .ok ())) : 0 < df := by
  by_contra hc
  unfold zeroPad at h
  simp [not_lt.1 hc] at h

end Verif.ATS
