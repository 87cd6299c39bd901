import Verif.Lemmas.Trim

/-!
# C06, C07, C08: trimming, the sign of the delay, copies
-/

namespace Verif.Props
open Verif ATS

/-- **C06** (which samples are kept).  A successful `trim(start, end)` keeps one contiguous block of
samples, from a sample nearest `start` to a sample nearest `end`; nothing but samples and delay
changes. -/
theorem C06_trim_keeps_nearest_block (r r' : ATS) (s e : ℚ) (hdt : 0 < r.dt)
    (h : r.trim s e = (r', .ok ())) :
    ∃ i j : ℕ, i ≤ j ∧ j < r.nsamples ∧
      (∀ k < r.nsamples, |(i : ℚ) * r.dt + r.delay - s| ≤ |(k : ℚ) * r.dt + r.delay - s|) ∧
      (∀ k < r.nsamples, |(j : ℚ) * r.dt + r.delay - e| ≤ |(k : ℚ) * r.dt + r.delay - e|) ∧
      r'.nsamples = j + 1 - i ∧ (∀ k < j + 1 - i, r'.amp[k]? = r.amp[i + k]?) ∧
      r'.dt = r.dt ∧ r'.nstacks = r.nstacks ∧ r'.multiple = r.multiple ∧ r'.delay = s := by
  obtain ⟨i, j, hij, hj, h1, h2, -, -, -, rfl⟩ := trim_ok hdt h
  have hl : r.amp.length = r.nsamples := rfl
  refine ⟨i, j, hij, hj, h1, h2, ?_, ?_, rfl, rfl, rfl, rfl⟩
  · simp only [nsamples, List.length_drop, List.length_take]; omega
  · intro k hk
    simp only [List.getElem?_drop, List.getElem?_take]
    rw [if_pos (by omega)]

/-- **C06 does not hold in general**: when `start` lies between two samples the retained samples are
reported at different times than before. -/
theorem C06_trim_moves_samples_counterexample :
    ∃ r r' : ATS, ATS.init [10, 20, 30, 40] 1 1 0 = .ok r ∧
      r.trim (2 / 5) 3 = (r', .ok ()) ∧ r.time = [0, 1, 2, 3] ∧ r'.amp = [10, 20, 30, 40] ∧
      r'.time = [2 / 5, 7 / 5, 12 / 5, 17 / 5] := by
  refine ⟨⟨[10, 20, 30, 40], 1, 1, 0, 1⟩, ⟨[10, 20, 30, 40], 1, 1, 2 / 5, 1⟩, rfl, ?_, ?_, ?_, ?_⟩
  all_goals decide +kernel

/-- **C06** (time reported for retained samples).  The new time of every retained sample differs
from its old time by one common amount of at most half a time step, and by nothing exactly when `start` is a
sample time.  Missing for the full claim: exactness for a `start` between samples (refuted above). -/
theorem C06_trim_sample_times_partial (r r' : ATS) (s e : ℚ) (hdt : 0 < r.dt)
    (h : r.trim s e = (r', .ok ())) :
    ∃ i : ℕ, ∃ δ : ℚ, |δ| ≤ r.dt / 2 ∧ ((∃ m < r.nsamples, s = (m : ℚ) * r.dt + r.delay) ↔ δ = 0) ∧
      ∀ k < r'.nsamples, r'.amp[k]? = r.amp[i + k]? ∧
        ∃ t t', r.time[i + k]? = some t ∧ r'.time[k]? = some t' ∧ t' = t + δ := by
  obtain ⟨i, j, hij, hj, h1, h2, hb1, hb2, hb3, rfl⟩ := trim_ok hdt h
  have hl : r.amp.length = r.nsamples := rfl
  refine ⟨i, s - ((i : ℚ) * r.dt + r.delay), ?_, ?_, ?_⟩
  · -- some sample is within half a step
    have hx0 : 0 ≤ (s - r.delay) / r.dt := div_nonneg (by linarith) (le_of_lt hdt)
    have hx1 : (s - r.delay) / r.dt ≤ (r.nsamples : ℚ) - 1 := by
      rw [div_le_iff₀ hdt]; linarith
    have hr := pyRound_abs_sub_le ((s - r.delay) / r.dt)
    have hm0 := pyRound_nonneg hx0
    obtain ⟨m, hm⟩ := Int.eq_ofNat_of_zero_le hm0
    rw [hm] at hr
    have hmq : |(s - r.delay) / r.dt - (m : ℚ)| ≤ 1 / 2 := by simpa using hr
    have hmlt : m < r.nsamples := by
      have h3 := (abs_le.1 hmq).1
      have : (m : ℚ) < r.nsamples := by linarith
      exact_mod_cast this
    have h4 := h1 m hmlt
    have h5 : |(m : ℚ) * r.dt + r.delay - s| ≤ r.dt / 2 := by
      have : (m : ℚ) * r.dt + r.delay - s = -(((s - r.delay) / r.dt - m) * r.dt) := by
        field_simp; ring
      rw [this, abs_neg, abs_mul, abs_of_pos hdt]
      nlinarith
    rw [abs_sub_comm]; linarith
  · constructor
    · rintro ⟨m, hm, rfl⟩
      have h3 := h1 m hm
      simp only [sub_self, abs_zero] at h3
      have := abs_eq_zero.1 (le_antisymm h3 (abs_nonneg _))
      linarith
    · intro h0
      exact ⟨i, by omega, by linarith⟩
  · intro k hk
    have hn : k < j + 1 - i := by
      simp only [nsamples, List.length_drop, List.length_take] at hk; omega
    refine ⟨?_, ((i + k : ℕ) : ℚ) * r.dt + r.delay, (k : ℚ) * r.dt + s, ?_, ?_, ?_⟩
    · simp only [List.getElem?_drop, List.getElem?_take]
      rw [if_pos (by omega)]
    · rw [List.getElem?_eq_getElem (by rw [time_length]; omega), time_getElem]
    · have hk' : k < (ATS.time { r with amp := (r.amp.take (j + 1)).drop i, delay := s }).length := by
        rw [time_length]; exact hk
      rw [List.getElem?_eq_getElem hk', time_getElem]
    · push_cast; ring

/-- **C06** (refusal).  For a record with samples, `trim` succeeds exactly when the times lie within the record and are not
reversed; otherwise it raises `IndexError` and nothing changes. -/
theorem C06_trim_refuses_illogical_times (r : ATS) (s e : ℚ) (hn : r.amp ≠ []) :
    ((∃ r', r.trim s e = (r', .ok ())) ↔
      r.delay ≤ s ∧ s ≤ e ∧ e ≤ ((r.nsamples : ℚ) - 1) * r.dt + r.delay) ∧
    (¬ (r.delay ≤ s ∧ s ≤ e ∧ e ≤ ((r.nsamples : ℚ) - 1) * r.dt + r.delay) →
      r.trim s e = (r, .error .indexError)) := by
  have hpos : 0 < r.nsamples := List.length_pos_iff.2 hn
  have hne : ∀ x : ℚ, (r.time.map fun t => |t - x|) ≠ [] := by
    intro x h0
    have := congrArg List.length h0
    simp only [List.length_map, time_length, List.length_nil] at this
    omega
  obtain ⟨i, hi⟩ := argmin_isSome (hne s)
  obtain ⟨j, hj⟩ := argmin_isSome (hne e)
  have h0 : r.time.head? = some r.delay := by
    rw [List.head?_eq_getElem?, List.getElem?_eq_getElem (by rw [time_length]; exact hpos), time_getElem]
    simp
  have h1 : r.time.getLast? = some (((r.nsamples : ℚ) - 1) * r.dt + r.delay) := by
    rw [List.getLast?_eq_getElem?, time_length, List.getElem?_eq_getElem (by rw [time_length]; omega), time_getElem,
      Nat.cast_sub (by omega)]
    simp
  unfold trim trimBase
  rw [hi, hj, h0, h1]
  by_cases hc : r.delay ≤ s ∧ s ≤ e ∧ e ≤ ((r.nsamples : ℚ) - 1) * r.dt + r.delay
  · have : (decide (s < r.delay) || decide (s > e) || decide (e > ((r.nsamples : ℚ) - 1) * r.dt + r.delay)) = false := by
      simp [not_lt.2 hc.1, not_lt.2 hc.2.1, not_lt.2 hc.2.2]
    simp [this, hc]
  · have : (decide (s < r.delay) || decide (s > e) || decide (e > ((r.nsamples : ℚ) - 1) * r.dt + r.delay)) = true := by
      simp only [Bool.or_eq_true, decide_eq_true_eq, gt_iff_lt]
      by_contra hx
      simp only [not_or, not_lt] at hx
      exact hc ⟨hx.1.1, hx.1.2, hx.2⟩
    simp [this, hc]

example :
    let r : ATS := ⟨[5, 6, 7, 8, 9], 1 / 10, 1, -1 / 5, 1⟩
    r.trim (-1 / 10) (1 / 10) = (⟨[6, 7, 8], 1 / 10, 1, -1 / 10, 1⟩, .ok ()) := by decide +kernel

/-- Public mutators of a record. -/
inductive RecOp
  | stack (t : ATS)
  | trim (s e : ℚ)
  | pad (df : ℚ)

/-- Apply one public mutator. -/
def RecOp.run (r : ATS) : RecOp → Outcome ATS
  | .stack t => r.stackAppend t
  | .trim s e => r.trim s e
  | .pad df => r.zeroPad df

/-- **C07 does not hold**: the constructor refuses a positive delay, `trim` produces one. -/
theorem C07_trim_makes_delay_positive_counterexample :
    (∀ amp dt ns d r, ATS.init amp dt ns d = .ok r → 0 < r.nstacks ∧ r.delay ≤ 0) ∧
    ∃ r r' : ATS, ATS.init [1, 2, 3, 4] (1 / 10) 1 0 = .ok r ∧
      r.trim (1 / 10) (3 / 10) = (r', .ok ()) ∧ 0 < r'.delay := by
  constructor
  · intro amp dt ns d r h
    unfold ATS.init checkInput at h
    split_ifs at h with h1 h2
    · simp [bind, Except.bind] at h
    · simp [bind, Except.bind] at h
    · simp only [bind, Except.bind, pure, Except.pure, Except.ok.injEq] at h
      subst h
      exact ⟨by simpa using h1, by simpa using h2⟩
  · refine ⟨⟨[1, 2, 3, 4], 1 / 10, 1, 0, 1⟩, ⟨[2, 3, 4], 1 / 10, 1, 1 / 10, 1⟩, rfl, ?_, ?_⟩
    all_goals decide +kernel

/-- **C07** (what does hold).  Over every history of mutators, failed ones included, the stack count
stays positive, and the delay stays non-positive as long as no `trim` starts after time zero.
Missing: trims with a positive start. -/
theorem C07_delay_and_stacks_invariant_partial (ops : List RecOp)
    (hops : ∀ op ∈ ops, match op with
      | .stack t => 0 < t.nstacks
      | .trim s _ => s ≤ 0
      | .pad _ => True) :
    ∀ r : ATS, 0 < r.nstacks → r.delay ≤ 0 →
      0 < (runAll RecOp.run r ops).nstacks ∧ (runAll RecOp.run r ops).delay ≤ 0 := by
  induction ops with
  | nil => intro r h1 h2; exact ⟨h1, h2⟩
  | cons op ops ih =>
    intro r h1 h2
    have hop := hops op (by simp)
    have key : 0 < (op.run r).1.nstacks ∧ (op.run r).1.delay ≤ 0 := by
      cases op with
      | stack t =>
        simp only [RecOp.run, stackAppend]
        simp only at hop
        split_ifs
        · exact ⟨h1, h2⟩
        · exact ⟨by simp only; omega, h2⟩
      | pad df =>
        simp only [RecOp.run, zeroPad]
        split_ifs <;> exact ⟨h1, h2⟩
      | trim s e =>
        simp only at hop
        simp only [RecOp.run, trim, trimBase]
        split
        · rename_i heq
          split at heq
          · split_ifs at heq
            · simp at heq
            · simp only [Prod.mk.injEq] at heq
              rw [← heq.1]; exact ⟨h1, hop⟩
          · simp at heq
        · rename_i heq
          split at heq
          · split_ifs at heq
            · simp only [Prod.mk.injEq] at heq
              rw [← heq.1]; exact ⟨h1, h2⟩
            · simp at heq
          · simp only [Prod.mk.injEq] at heq
            rw [← heq.1]; exact ⟨h1, h2⟩
    exact ih (fun o ho => hops o (by simp [ho])) _ key.1 key.2

example :
    let r : ATS := ⟨[1, 2, 3, 4], 1 / 10, 1, -1 / 5, 1⟩
    let ops := [RecOp.trim (-1 / 10) (1 / 10), .pad 0, .pad (1 / 2), .stack ⟨[1], 1, 1, 0, 1⟩]
    (runAll RecOp.run r ops).delay = -1 / 10 ∧ (runAll RecOp.run r ops).nsamples = 20 := by
  decide +kernel

/-- **C08 does not hold** for padded records: the copy reports another frequency step. -/
theorem C08_copy_of_padded_record_counterexample :
    ∃ r0 r c : ATS, ATS.init [1, 2, 3, 4] (1 / 10) 1 0 = .ok r0 ∧ r0.zeroPad 5 = (r, .ok ()) ∧
      r.fromATS = .ok c ∧ c.df ≠ r.df := by
  refine ⟨⟨[1, 2, 3, 4], 1 / 10, 1, 0, 1⟩, ⟨[1, 2, 3, 4], 1 / 10, 1, 0, 2⟩,
    ⟨[1, 2, 3, 4], 1 / 10, 1, 0, 1⟩, rfl, ?_, rfl, ?_⟩
  all_goals decide +kernel

/-- **C08 does not hold** for records trimmed to start after time zero: they cannot be copied. -/
theorem C08_copy_of_trimmed_record_counterexample :
    ∃ r0 r : ATS, ATS.init [1, 2, 3, 4] (1 / 10) 1 0 = .ok r0 ∧
      r0.trim (1 / 10) (3 / 10) = (r, .ok ()) ∧ r.fromATS = .error .valueError := by
  refine ⟨⟨[1, 2, 3, 4], 1 / 10, 1, 0, 1⟩, ⟨[2, 3, 4], 1 / 10, 1, 1 / 10, 1⟩, rfl, ?_, ?_⟩
  · decide +kernel
  · simp [fromATS, ATS.init, checkInput, bind, Except.bind]

/-- **C08** (what does hold).  Copying succeeds exactly for records with positive stack count and
non-positive delay; the copy has the same samples, time step, delay and stack count, and is
identical when the record was not padded to a multiple.  Missing: padded records. -/
theorem C08_copy_is_faithful_partial (r : ATS) :
    ((∃ c, r.fromATS = .ok c) ↔ 0 < r.nstacks ∧ r.delay ≤ 0) ∧
    ∀ c, r.fromATS = .ok c → c.amp = r.amp ∧ c.dt = r.dt ∧ c.delay = r.delay ∧
      c.nstacks = r.nstacks ∧ c.time = r.time ∧ c.eq r = true ∧ (r.multiple = 1 → c = r) := by
  have hcase : r.fromATS = if 0 < r.nstacks ∧ r.delay ≤ 0 then .ok { r with multiple := 1 }
      else .error .valueError := by
    unfold fromATS ATS.init checkInput
    split_ifs with h1 h2 h3 h4 h5
    · omega
    · rfl
    · exact absurd h4.2 (not_le.2 h3)
    · rfl
    · rfl
    · exact absurd ⟨not_le.1 h1, not_lt.1 h3⟩ h5
  constructor
  · rw [hcase]; split_ifs with h <;> simp [h]
  · intro c hc
    rw [hcase] at hc
    split_ifs at hc with h
    simp only [Except.ok.injEq] at hc
    subst hc
    refine ⟨rfl, rfl, rfl, rfl, rfl, ?_, ?_⟩
    · simp only [ATS.eq, isSimilar, allclose, has_none, nsamples, decide_true, Bool.or_true, Bool.and_self,
        Bool.true_and]
      rw [List.all_eq_true]
      intro b hb
      obtain ⟨k, hk, rfl⟩ := List.getElem_of_mem hb
      simp only [List.getElem_zipWith, sub_self, abs_zero, id_eq, decide_eq_true_eq]
      positivity
    · intro h1
      cases r
      simp_all

example : ∃ c, (⟨[1, 2], 1 / 2, 3, -1, 1⟩ : ATS).fromATS = .ok c ∧ c.nstacks = 3 := ⟨_, rfl, rfl⟩

end Verif.Props
