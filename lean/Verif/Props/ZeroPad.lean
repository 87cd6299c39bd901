import Verif.Lemmas.ZeroPad

/-!
# C03, C04, C05: zero padding
-/

namespace Verif.Props
open Verif ATS

/-- **C03**.  A successful `zero_pad(df)` keeps the samples, appends only zeros and reaches the
frequency step `1/(N*dt)` with `N` an integer nearest `1/(df*dt)`; the number of samples becomes the
smallest admissible one. -/
theorem C03_zero_pad_reaches_step (r r' : ATS) (df : ℚ) (hdt : 0 < r.dt) (hn : 0 < r.nsamples)
    (h : r.zeroPad df = (r', .ok ())) :
    0 < df ∧ ∃ N : ℕ, 0 < N ∧ |1 / (df * r.dt) - N| ≤ 1 / 2 ∧
      (∃ k, r'.amp = r.amp ++ List.replicate k 0 ∧
        (r.nsamples < N → r'.nsamples = N) ∧ (N ≤ r.nsamples → k < N)) ∧
      r'.df = 1 / (N * r.dt) ∧
      r'.nsamples = r'.multiple * N ∧
      r'.dt = r.dt ∧ r'.delay = r.delay ∧ r'.nstacks = r.nstacks := by
  have hdf := zeroPad_ok_pos h
  obtain ⟨N, hN⟩ := targetSamples_nat hdf hdt
  obtain ⟨h1, h2, h3, h4, h5, h6, k, h7, h8, h9, h10⟩ := zeroPad_ok hn hdf hN h
  have hnear := pyRound_abs_sub_le (1 / (df * r.dt))
  have hN2 : pyRound (1 / (df * r.dt)) = N := hN
  rw [hN2] at hnear
  exact ⟨hdf, N, h1, by simpa using hnear, ⟨k, h7, h9, h10⟩, zeroPad_df hdt hn hdf hN h, h3, h4, h5,
    h6⟩

/-- **C03** (exact step).  If `1/(df*dt)` is an integer the requested step is reached exactly. -/
theorem C03_zero_pad_exact (r r' : ATS) (df : ℚ) (hdt : 0 < r.dt) (hn : 0 < r.nsamples)
    (m : ℕ) (hm : 1 / (df * r.dt) = m) (h : r.zeroPad df = (r', .ok ())) :
    r'.df = df := by
  have hdf := zeroPad_ok_pos h
  have hN : targetSamples df r.dt = m := by
    unfold targetSamples; rw [hm]; exact_mod_cast pyRound_intCast (m : ℤ)
  rw [zeroPad_df hdt hn hdf hN h, ← hm]
  have hdt0 : r.dt ≠ 0 := ne_of_gt hdt
  field_simp

/-- **C03** (when it succeeds).  For a non-empty record `zero_pad(df)` succeeds exactly when `df` is
positive and at least one sample is requested (`1/(df*dt)` does not round to zero, i.e. is above
one half). -/
theorem C03_zero_pad_succeeds_iff (r : ATS) (df : ℚ) (hdt : 0 < r.dt) (hn : 0 < r.nsamples) :
    (r.zeroPad df).2 = .ok () ↔ 0 < df ∧ 1 / 2 < 1 / (df * r.dt) := by
  have hround : ∀ q : ℚ, 0 ≤ q → (pyRound q = 0 ↔ q ≤ 1 / 2) := by
    intro q hq
    have h0 : (⌊q⌋ : ℚ) ≤ q := Int.floor_le q
    have h1 : q < ⌊q⌋ + 1 := Int.lt_floor_add_one q
    have h2 : 0 ≤ ⌊q⌋ := Int.floor_nonneg.2 hq
    constructor
    · intro h
      have := pyRound_abs_sub_le q
      rw [h] at this
      have := (abs_le.1 this).2
      simpa using this
    · intro h
      have hf : ⌊q⌋ = 0 := by
        rw [Int.floor_eq_zero_iff]; constructor
        · exact hq
        · linarith
      unfold pyRound
      rw [hf]
      split_ifs with a b c
      · rfl
      · exfalso; simp at b; linarith
      · rfl
      · omega
  by_cases hdf : 0 < df
  · obtain ⟨N, hN⟩ := targetSamples_nat hdf hdt
    have hN2 : pyRound (1 / (df * r.dt)) = N := hN
    have hz := hround (1 / (df * r.dt)) (by positivity)
    rw [hN2] at hz
    have : (1 / 2 < 1 / (df * r.dt)) ↔ N ≠ 0 := by
      rw [← not_le, ← hz]; omega
    rw [this, zeroPad_nat r df N hdf hN]
    split_ifs with c1 c2 c3 c4 <;> simp [hdf] <;> omega
  · have : df ≤ 0 := not_lt.1 hdf
    simp [zeroPad, this, hdf]

/-- C03 on a concrete record: 10 samples of 0.1 s padded to reach 0.25 Hz (target 40 samples) and to
reach 2.5 Hz (target 4 samples, padded to 12 with multiple 3). -/
example :
    let r : ATS := ⟨[1, 2, 3, 4, 5, 6, 7, 8, 9, 10], 1 / 10, 1, 0, 1⟩
    (r.zeroPad (1 / 4)).2 = .ok () ∧ (r.zeroPad (1 / 4)).1.nsamples = 40 ∧
    (r.zeroPad (1 / 4)).1.df = 1 / 4 ∧
    (r.zeroPad (5 / 2)).2 = .ok () ∧ (r.zeroPad (5 / 2)).1.multiple = 3 ∧
    (r.zeroPad (5 / 2)).1.amp = [1, 2, 3, 4, 5, 6, 7, 8, 9, 10, 0, 0] ∧
    (r.zeroPad (5 / 2)).1.df = 5 / 2 := by decide +kernel

/-- **C04 does not hold**: on a padded record a refused request (`df <= 0`) changes the reported
frequency step, because the multiple is reset before the argument is checked. -/
theorem C04_refused_zero_pad_changes_df_counterexample :
    ∃ r0 r r' : ATS, ATS.init [1, 2, 3, 4] (1 / 10) 1 0 = .ok r0 ∧
      r0.zeroPad 5 = (r, .ok ()) ∧ r.zeroPad 0 = (r', .error .valueError) ∧
      r'.df ≠ r.df := by
  refine ⟨⟨[1, 2, 3, 4], 1 / 10, 1, 0, 1⟩, ⟨[1, 2, 3, 4], 1 / 10, 1, 0, 2⟩,
    ⟨[1, 2, 3, 4], 1 / 10, 1, 0, 1⟩, ?_, ?_, ?_, ?_⟩
  · rfl
  all_goals decide +kernel

/-- **C04** (what does hold).  Any refused request leaves samples, time step, delay and stack
count unchanged; if the record's multiple is 1 (never padded to a multiple) nothing at all
changes.  Missing: the multiple, and with it the reported frequency step, may change. -/
theorem C04_refused_zero_pad_keeps_record_partial (r r' : ATS) (df : ℚ) (e : PyErr)
    (h : r.zeroPad df = (r', .error e)) :
    r'.amp = r.amp ∧ r'.dt = r.dt ∧ r'.delay = r.delay ∧ r'.nstacks = r.nstacks ∧
    (r.multiple = 1 → r' = r) := by
  have : r' = { r with multiple := 1 } := by
    unfold zeroPad at h
    simp only at h
    split_ifs at h <;> simp_all
  subst this
  refine ⟨rfl, rfl, rfl, rfl, ?_⟩
  intro h1
  cases r
  simp_all

/-- **C04**: every non-positive step is refused with `ValueError`. -/
theorem C04_nonpositive_step_refused (r : ATS) (df : ℚ) (h : df ≤ 0) :
    (r.zeroPad df).2 = .error .valueError := by
  simp [zeroPad, h]

/-- **C05** (new records).  Before any request the reported step is the one of the record's own length. -/
theorem C05_new_record (amp : List ℚ) (dt delay : ℚ) (nstacks : ℤ) (r : ATS)
    (h : ATS.init amp dt nstacks delay = .ok r) : r.df = 1 / (amp.length * dt) := by
  unfold ATS.init at h
  rcases hc : ATS.checkInput nstacks delay with e | ⟨n, d⟩
  · rw [hc] at h; cases h
  · rw [hc] at h
    cases h
    simp [ATS.df, ATS.dfInternal, ATS.nsamples]

example : ∃ r, ATS.init [1, 2, 3, 4] (1 / 2) 1 0 = .ok r ∧ r.df = 1 / 2 := ⟨_, rfl, by decide +kernel⟩

/-- **C05** (idempotence).  Repeating a request changes nothing. -/
theorem C05_zero_pad_idempotent (r r' : ATS) (df : ℚ) (hdt : 0 < r.dt) (hn : 0 < r.nsamples)
    (h : r.zeroPad df = (r', .ok ())) : r'.zeroPad df = (r', .ok ()) := by
  have hdf := zeroPad_ok_pos h
  obtain ⟨N, hN⟩ := targetSamples_nat hdf hdt
  obtain ⟨h1, h2, h3, h4, -⟩ := zeroPad_ok hn hdf hN h
  rw [zeroPad_nat r' df N hdf (by rw [h4]; exact hN)]
  have hle : N ≤ r'.nsamples := by rw [h3]; exact Nat.le_mul_of_pos_left N h2
  rw [if_neg (by omega)]
  by_cases c : N < r'.nsamples
  · rw [if_pos c, if_neg (by omega), if_pos (by rw [h3]; exact Nat.mul_mod_left _ _)]
    have : r'.nsamples / N = r'.multiple := by rw [h3]; exact Nat.mul_div_cancel _ h1
    rw [this]
  · rw [if_neg c]
    have e : r'.nsamples = N := by omega
    have : r'.multiple = 1 := by
      rw [e] at h3
      have h5 : 1 * N = r'.multiple * N := by omega
      exact (Nat.eq_of_mul_eq_mul_right h1 h5).symm
    rw [← this]

/-- **C05** (history).  After any history of successful requests the original samples are still in
place, followed by zeros only, and the reported step is the one of the last request alone: two records
with the same time step report the same step whatever their lengths and earlier requests. -/
theorem C05_zero_pad_last_request_wins (r s r' s' : ATS) (df : ℚ) (dfs egs : List ℚ)
    (hdt : 0 < r.dt) (hn : 0 < r.nsamples) (hn2 : 0 < s.nsamples) (hsame : s.dt = r.dt)
    (h : runCalls zeroPad r (dfs ++ [df]) = (r', .ok ()))
    (h2 : runCalls zeroPad s (egs ++ [df]) = (s', .ok ())) :
    r'.df = s'.df ∧ (∃ N : ℕ, 0 < N ∧ |1 / (df * r.dt) - N| ≤ 1 / 2 ∧ r'.df = 1 / (N * r.dt)) ∧
      ∃ k, r'.amp = r.amp ++ List.replicate k 0 := by
  have hist : ∀ (ds : List ℚ) (a a' : ATS), 0 < a.dt → 0 < a.nsamples →
      runCalls zeroPad a (ds ++ [df]) = (a', .ok ()) →
      ∃ b : ATS, b.dt = a.dt ∧ 0 < b.nsamples ∧ (∃ k, b.amp = a.amp ++ List.replicate k 0) ∧
        b.zeroPad df = (a', .ok ()) := by
    intro ds
    induction ds with
    | nil =>
      intro a a' _ hna ha
      obtain ⟨a1, ha1, ha2⟩ := runCalls_cons_ok ha
      simp only [runCalls, Prod.mk.injEq, and_true] at ha2
      subst ha2
      exact ⟨a, rfl, hna, ⟨0, by simp⟩, ha1⟩
    | cons d ds ih =>
      intro a a' hda hna ha
      obtain ⟨a1, ha1, ha2⟩ := runCalls_cons_ok ha
      have hd := zeroPad_ok_pos ha1
      obtain ⟨N, hN⟩ := targetSamples_nat hd hda
      obtain ⟨-, -, -, h4, -, -, k, h7, h8, -⟩ := zeroPad_ok hna hd hN ha1
      obtain ⟨b, hb1, hb2, ⟨k', hk'⟩, hb3⟩ := ih a1 a' (by rw [h4]; exact hda) (by omega) ha2
      refine ⟨b, hb1.trans h4, hb2, ⟨k + k', ?_⟩, hb3⟩
      rw [hk', h7, List.append_assoc, List.replicate_append_replicate]
  obtain ⟨b, hb1, hb2, ⟨k, hk⟩, hb3⟩ := hist dfs r r' hdt hn h
  obtain ⟨c, hc1, hc2, -, hc3⟩ := hist egs s s' (by rw [hsame]; exact hdt) hn2 h2
  have hbd : 0 < b.dt := by rw [hb1]; exact hdt
  have hcd : 0 < c.dt := by rw [hc1, hsame]; exact hdt
  have hdf := zeroPad_ok_pos hb3
  obtain ⟨N, hN⟩ := targetSamples_nat hdf hbd
  have hN' : targetSamples df c.dt = N := by rw [hc1, hsame, ← hb1]; exact hN
  have d1 := zeroPad_df hbd hb2 hdf hN hb3
  have d2 := zeroPad_df hcd hc2 hdf hN' hc3
  obtain ⟨_, N2, q1, q2, ⟨k2, q3, -⟩, q4, -⟩ := C03_zero_pad_reaches_step b r' df hbd hb2 hb3
  refine ⟨by rw [d1, d2, hb1, hc1, hsame], ⟨N2, q1, by rw [← hb1]; exact q2, by rw [← hb1]; exact q4⟩,
    ⟨k + k2, ?_⟩⟩
  rw [q3, hk, List.append_assoc, List.replicate_append_replicate]

/-- A concrete history for C05: 6 samples, requests 2.5 Hz, 1 Hz and again 2.5 Hz. -/
example :
    let r : ATS := ⟨[1, 2, 3, 4, 5, 6], 1 / 10, 1, 0, 1⟩
    (runCalls zeroPad r [5 / 2, 1, 5 / 2]).2 = .ok () ∧
    (runCalls zeroPad r [5 / 2, 1, 5 / 2]).1.df = 5 / 2 ∧
    (runCalls zeroPad r [5 / 2, 1, 5 / 2]).1.nsamples = 12 := by decide +kernel

end Verif.Props
