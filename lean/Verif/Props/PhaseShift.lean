import Verif.Lemmas.Spectral
import Verif.Spec.PlaneWave
import Verif.Props.Selection

/-!
# C68, C69: the phase-shift transform
-/

open Complex

namespace Verif.Props
open Verif WT Spec

theorem phaseInner_norm (vel frq x : ℝ) (U : ℂ) : ‖phaseInner vel frq x U‖ ≤ 1 := by
  unfold phaseInner
  rw [norm_div, norm_mul, norm_exp_real_I, one_mul, Complex.norm_real, norm_norm]
  exact div_self_le_one _

/-- The weighted sum of at most unit vectors over increasing offsets is at most the array length. -/
theorem phaseSum_le : ∀ (x : List ℝ) (z : List ℂ), x.Pairwise (· ≤ ·) → (∀ a ∈ z, ‖a‖ ≤ 1) →
    ‖phaseSum x z‖ ≤ x.getLastD 0 - x.headD 0
  | [], z, _, _ => by simp [phaseSum]
  | [x], z, _, _ => by simp [phaseSum]
  | x :: x' :: xs, [], h, _ => by
    simp only [phaseSum, norm_zero]
    have : x ≤ (x :: x' :: xs).getLastD 0 := by
      rw [List.pairwise_cons] at h
      rw [List.getLastD_eq_getLast?, List.getLast?_cons_cons]
      have hl := List.getLast?_eq_getLast_of_ne_nil (l := x' :: xs) (by simp)
      rw [hl]
      exact h.1 _ (List.getLast_mem _)
    simpa using this
  | x :: x' :: xs, [a], h, _ => by
    simp only [phaseSum, norm_zero]
    have : x ≤ (x :: x' :: xs).getLastD 0 := by
      rw [List.pairwise_cons] at h
      rw [List.getLastD_eq_getLast?, List.getLast?_cons_cons]
      have hl := List.getLast?_eq_getLast_of_ne_nil (l := x' :: xs) (by simp)
      rw [hl]
      exact h.1 _ (List.getLast_mem _)
    simpa using this
  | x :: x' :: xs, a :: b :: z, h, hz => by
    have ih := phaseSum_le (x' :: xs) (b :: z) (List.pairwise_cons.1 h).2
      (fun c hc => hz c (List.mem_cons_of_mem _ hc))
    have hx : x ≤ x' := (List.pairwise_cons.1 h).1 x' List.mem_cons_self
    have ha := hz a List.mem_cons_self
    have hb := hz b (List.mem_cons_of_mem _ List.mem_cons_self)
    have hlast : (x :: x' :: xs).getLastD 0 = (x' :: xs).getLastD 0 := by
      rw [List.getLastD_eq_getLast?, List.getLastD_eq_getLast?, List.getLast?_cons_cons]
    simp only [phaseSum, hlast]
    simp only [List.headD_cons] at ih ⊢
    have h1 : ‖((1 / 2 * (x' - x) : ℝ) : ℂ) * (a + b)‖ ≤ x' - x := by
      rw [norm_mul, Complex.norm_real, Real.norm_eq_abs, abs_of_nonneg (by linarith)]
      have : ‖a + b‖ ≤ 2 := le_trans (norm_add_le _ _) (by linarith)
      nlinarith
    calc _ ≤ _ := norm_add_le _ _
      _ ≤ _ := by linarith

/-- Adding aligned vectors: the sum is the array length times the common vector. -/
theorem phaseSum_const : ∀ (x : List ℝ) (z : List ℂ) (c : ℂ), x ≠ [] → x.length = z.length →
    (∀ a ∈ z, a = c) → phaseSum x z = ((x.getLastD 0 - x.headD 0 : ℝ) : ℂ) * c
  | [], _, _, h, _, _ => absurd rfl h
  | [x], [a], c, _, _, _ => by simp [phaseSum]
  | [x], [], c, _, h, _ => by simp at h
  | [x], _ :: _ :: _, c, _, h, _ => by simp at h
  | x :: x' :: xs, [], _, _, h, _ => by simp at h
  | x :: x' :: xs, [_], _, _, h, _ => by simp at h
  | x :: x' :: xs, a :: b :: z, c, _, h, hz => by
    have ih := phaseSum_const (x' :: xs) (b :: z) c (by simp) (by simpa using h)
      (fun d hd => hz d (List.mem_cons_of_mem _ hd))
    have ha := hz a List.mem_cons_self
    have hb := hz b (List.mem_cons_of_mem _ List.mem_cons_self)
    have hlast : (x :: x' :: xs).getLastD 0 = (x' :: xs).getLastD 0 := by
      rw [List.getLastD_eq_getLast?, List.getLastD_eq_getLast?, List.getLast?_cons_cons]
    simp only [phaseSum, hlast]
    rw [ih, ha, hb]
    simp only [List.headD_cons]
    push_cast
    ring

theorem arrayLength_cast (x : List ℚ) :
    (x.map fun (q : ℚ) => (q : ℝ)).getLastD 0 - (x.map fun (q : ℚ) => (q : ℝ)).headD 0
      = arrayLength x := by
  unfold arrayLength
  have h1 : (x.map fun (q : ℚ) => (q : ℝ)).headD 0 = ((x.headD 0 : ℚ) : ℝ) := by
    cases x <;> simp
  have h2 : (x.map fun (q : ℚ) => (q : ℝ)).getLastD 0 = ((x.getLastD 0 : ℚ) : ℝ) := by
    rw [List.getLastD_eq_getLast?, List.getLastD_eq_getLast?, List.getLast?_map]
    cases x.getLast? <;> simp
  rw [h1, h2]
  push_cast
  ring

/-- The bins selected from a record are bins of the record. -/
theorem record_bins {r : Record} {set : FreqSettings} {ids : List ℕ} (h : r.keepIds set = .ok ids) :
    ∀ k ∈ ids, k < r.nsamples := by
  intro k hk
  have := keepIds_valid h k hk
  simpa [binFrequencies] using this

/-- **C68** (bound).  With offsets in increasing order and non-vanishing spectra at the selected bins,
every phase-shift power lies between 0 and the array length. -/
theorem C68_bounded (r : Record) (velocities : List ℝ) (set : FreqSettings) (frqs : List ℚ)
    (power : List (List ℝ)) (h : phaseShift r velocities set = .ok (frqs, power))
    (hx : r.offsets.Pairwise (· ≤ ·))
    (_hU : ∀ ids, r.keepIds set = .ok ids → ∀ k ∈ ids, ∀ u ∈ r.tm, fftBin u k ≠ 0) :
    ∀ row ∈ power, ∀ p ∈ row, 0 ≤ p ∧ p ≤ arrayLength r.offsets := by
  unfold phaseShift at h
  rcases hk : r.keepIds set with e | ids
  · rw [hk] at h; cases h
  rw [hk] at h
  cases h
  intro row hrow p hp
  obtain ⟨v, _, rfl⟩ := List.mem_map.1 hrow
  obtain ⟨k, _, rfl⟩ := List.mem_map.1 hp
  refine ⟨norm_nonneg _, ?_⟩
  rw [← arrayLength_cast]
  refine phaseSum_le _ _ ?_ ?_
  · rw [List.pairwise_map]
    exact hx.imp fun hab => by exact_mod_cast hab
  · intro a ha
    obtain ⟨i, hi⟩ := List.mem_iff_getElem?.1 ha
    rw [List.getElem?_zipWith_eq_some] at hi
    obtain ⟨x, U, _, _, rfl⟩ := hi
    exact phaseInner_norm _ _ _ _

/-- **C68** (peak).  If at the selected bin `k` the record is a plane wave of velocity `v` with a
non-vanishing spectrum, the power of every trial velocity equal to `v` at that bin is the array
length: the bound is attained. -/
theorem C68_plane_wave_peak (r : Record) (velocities : List ℝ) (set : FreqSettings) (frqs : List ℚ)
    (power : List (List ℝ)) (h : phaseShift r velocities set = .ok (frqs, power))
    (hx : r.offsets.Pairwise (· ≤ ·)) (hne : r.offsets ≠ []) (hlen : r.tm.length = r.offsets.length)
    (ids : List ℕ) (hids : r.keepIds set = .ok ids)
    (v : ℝ) (i j k : ℕ) (hv : velocities[i]? = some v) (hk : ids[j]? = some k) (S : ℂ) (hS : S ≠ 0)
    (hw : PlaneWaveAt r v k S) :
    (power[i]?.bind fun row => row[j]?) = some (arrayLength r.offsets) := by
  have hbin := record_bins hids
  unfold phaseShift at h
  rw [hids] at h
  cases h
  rw [List.getElem?_map, hv]
  simp only [Option.map_some, Option.bind_some]
  rw [List.getElem?_map, hk]
  simp only [Option.map_some, Option.some.injEq]
  have hkN := hbin k (List.mem_of_getElem? hk)
  have hf : (binFrequencies r.nsamples r.step).getD k 0 = binFrequency r k := by
    simp [binFrequencies, binFrequency, List.getD_eq_getElem?_getD, hkN]
  rw [hf]
  unfold phasePower
  rw [phaseSum_const _ _ (S / (‖S‖ : ℝ)) (by simpa using hne) (by simp [hlen])]
  · rw [arrayLength_cast, norm_mul, norm_div, Complex.norm_real, Complex.norm_real, norm_norm,
      div_self (norm_ne_zero_iff.2 hS), mul_one, Real.norm_eq_abs, abs_of_nonneg]
    rw [← arrayLength_cast]
    have := phaseSum_le (r.offsets.map fun (q : ℚ) => (q : ℝ)) []
      (by rw [List.pairwise_map]; exact hx.imp fun hab => by exact_mod_cast hab) (by simp)
    exact le_trans (norm_nonneg _) this
  · intro a ha
    obtain ⟨n, hn⟩ := List.mem_iff_getElem?.1 ha
    rw [List.getElem?_zipWith_eq_some] at hn
    obtain ⟨x, U, hx1, hU, rfl⟩ := hn
    rw [List.getElem?_map] at hx1 hU
    obtain ⟨q, hq, rfl⟩ := Option.map_eq_some_iff.1 hx1
    obtain ⟨u, hu, rfl⟩ := Option.map_eq_some_iff.1 hU
    have hnl : n < r.tm.length := (List.getElem?_eq_some_iff.1 hu).1
    have := hw n hnl
    rw [List.getD_eq_getElem?_getD, hu, List.getD_eq_getElem?_getD, hq] at this
    simp only [Option.getD_some] at this
    rw [this]
    unfold phaseInner
    rw [norm_mul, norm_exp_neg_real_I, mul_one]
    congr 1
    have e : exp ((2 * Real.pi / v * (q : ℝ) * (binFrequency r k : ℝ) : ℝ) * I) *
        (S * exp (-(2 * Real.pi * (binFrequency r k : ℝ) * (q : ℝ) / v : ℝ) * I)) =
        S * exp ((2 * Real.pi / v * (q : ℝ) * (binFrequency r k : ℝ) : ℝ) * I +
          -(2 * Real.pi * (binFrequency r k : ℝ) * (q : ℝ) / v : ℝ) * I) := by
      rw [Complex.exp_add]; ring
    rw [e]
    have z : ((2 * Real.pi / v * (q : ℝ) * (binFrequency r k : ℝ) : ℝ) : ℂ) * I +
        -((2 * Real.pi * (binFrequency r k : ℝ) * (q : ℝ) / v : ℝ) : ℂ) * I = 0 := by
      push_cast; ring
    rw [z, Complex.exp_zero, mul_one]

/-- A wavelet recorded with whole-sample delays proportional to the offset is a plane wave at every
bin. -/
theorem recorded_planeWave (r : Record) (v dt : ℚ) (w : List ℚ) (hv : v ≠ 0) (hdt : dt ≠ 0)
    (hN : r.nsamples ≠ 0) (h : RecordedPlaneWave r v dt w) (k : ℕ) :
    PlaneWaveAt r (v : ℝ) k (fftBin w k) := by
  obtain ⟨hwl, hstep, h⟩ := h
  intro a ha
  obtain ⟨d, hl, hoff, hrot⟩ := h a ha
  have := fftBin_rotate (r.tm.getD a []) k d
  rw [hrot, hl] at this
  rw [← this, mul_comm]
  congr 1
  rw [← omega_pow]
  congr 2
  have hN' : (r.nsamples : ℝ) ≠ 0 := Nat.cast_ne_zero.2 hN
  have hv' : (v : ℝ) ≠ 0 := by exact_mod_cast hv
  have hdt' : (dt : ℝ) ≠ 0 := by exact_mod_cast hdt
  unfold binFrequency
  rw [hoff, hstep]
  have : (2 * Real.pi * ((k : ℝ) * (1 / ((r.nsamples : ℝ) * dt))) * (v * (d * dt)) / v : ℝ)
      = 2 * Real.pi * k * d / r.nsamples := by field_simp
  have thisC := congrArg (fun t : ℝ => (t : ℂ)) this
  push_cast at thisC ⊢
  rw [thisC]

/-- **C68** (peak, time domain).  A wavelet travelling across the array at velocity `v`, recorded with
whole-sample delays, reaches the array length at trial velocity `v` at every selected bin where the
wavelet has energy; no trial velocity exceeds it (`C68_bounded`). -/
theorem C68_recorded_wave_peak (r : Record) (velocities : List ℝ) (set : FreqSettings)
    (frqs : List ℚ) (power : List (List ℝ)) (h : phaseShift r velocities set = .ok (frqs, power))
    (hx : r.offsets.Pairwise (· ≤ ·)) (hne : r.offsets ≠ []) (hlen : r.tm.length = r.offsets.length)
    (ids : List ℕ) (hids : r.keepIds set = .ok ids)
    (v dt : ℚ) (hv0 : v ≠ 0) (hdt : dt ≠ 0) (w : List ℚ) (hw : RecordedPlaneWave r v dt w)
    (i j k : ℕ) (hv : velocities[i]? = some (v : ℝ)) (hk : ids[j]? = some k)
    (hS : fftBin w k ≠ 0) :
    (power[i]?.bind fun row => row[j]?) = some (arrayLength r.offsets) := by
  have hN : r.nsamples ≠ 0 := by
    have := record_bins hids k (List.mem_of_getElem? hk); omega
  exact C68_plane_wave_peak r velocities set frqs power h hx hne hlen ids hids v i j k hv hk _ hS
    (recorded_planeWave r v dt w hv0 hdt hN hw k)

/-- A pulse crossing three receivers at 2 m/s, sampled every second: delays of 0, 1 and 3 samples. -/
def pulseRecord : Record where
  tm := [[1, 0, 0, 0], [0, 1, 0, 0], [0, 0, 0, 1]]
  offsets := [0, 2, 6]
  nsamples := 4
  step := 1 / 4
  multiple := 1

example : RecordedPlaneWave pulseRecord 2 1 [1, 0, 0, 0] := by
  refine ⟨rfl, by norm_num [pulseRecord], ?_⟩
  intro a ha
  have : a = 0 ∨ a = 1 ∨ a = 2 := by simp [pulseRecord] at ha; omega
  rcases this with rfl | rfl | rfl
  · exact ⟨0, by rfl, by norm_num [pulseRecord], by rfl⟩
  · exact ⟨1, by rfl, by norm_num [pulseRecord], by rfl⟩
  · exact ⟨3, by rfl, by norm_num [pulseRecord], by rfl⟩

example : pulseRecord.keepIds ⟨1 / 4, 3 / 4⟩ = .ok [1, 2, 3] := by decide +kernel

example : pulseRecord.offsets.Pairwise (· ≤ ·) := by decide +kernel

/-- The pulse has energy at every bin. -/
example (k : ℕ) : fftBin [1, 0, 0, 0] k ≠ 0 := by
  rw [fftBin_eq]
  norm_num [Finset.sum_range_succ, List.getD_eq_getElem?_getD]

/-- Apply to each trace its own gain. -/
def applyGains (gains : List ℚ) (tm : List (List ℚ)) : List (List ℚ) :=
  List.zipWith (fun g u => u.map fun x => g * x) gains tm

theorem phaseInner_gain (vel frq x : ℝ) (g : ℚ) (hg : 0 < g) (U : ℂ) :
    phaseInner vel frq x ((g : ℂ) * U) = phaseInner vel frq x U := by
  unfold phaseInner
  have hg' : (0 : ℝ) < g := by exact_mod_cast hg
  have hgc : (g : ℂ) ≠ 0 := by exact_mod_cast ne_of_gt hg
  have : ‖(g : ℂ) * U‖ = (g : ℝ) * ‖U‖ := by
    rw [norm_mul]
    congr 1
    have : ((g : ℚ) : ℂ) = (((g : ℚ) : ℝ) : ℂ) := by push_cast; rfl
    rw [this, Complex.norm_real, Real.norm_eq_abs, abs_of_pos hg']
  rw [this]
  push_cast
  by_cases hU : (‖U‖ : ℂ) = 0
  · rw [hU]; simp
  · field_simp

/-- **C69**.  Giving each trace its own positive gain does not change the result of the phase-shift
transform. -/
theorem C69_gain_invariant (r : Record) (velocities : List ℝ) (set : FreqSettings)
    (gains : List ℚ) (hlen : gains.length = r.tm.length) (hg : ∀ g ∈ gains, 0 < g) :
    phaseShift { r with tm := applyGains gains r.tm } velocities set
      = phaseShift r velocities set := by
  have hin : ∀ (vel frq : ℝ) (k : ℕ) (gs : List ℚ) (tm : List (List ℚ)) (xs : List ℝ),
      gs.length = tm.length → (∀ g ∈ gs, 0 < g) →
      List.zipWith (phaseInner vel frq) xs ((applyGains gs tm).map fun u => fftBin u k) =
        List.zipWith (phaseInner vel frq) xs (tm.map fun u => fftBin u k) := by
    intro vel frq k gs
    induction gs with
    | nil =>
      intro tm xs h _
      have : tm = [] := List.length_eq_zero_iff.1 (by simpa using h.symm)
      subst this; rfl
    | cons g gs ih =>
      intro tm xs h hg
      cases tm with
      | nil => simp at h
      | cons u tm =>
        cases xs with
        | nil => simp
        | cons x xs =>
          have e : applyGains (g :: gs) (u :: tm) = (u.map fun x => g * x) :: applyGains gs tm := rfl
          simp only [e, List.map_cons, List.zipWith_cons_cons, List.cons.injEq]
          refine ⟨?_, ih tm xs (by simpa using h) fun g' hg' => hg g' (List.mem_cons_of_mem _ hg')⟩
          rw [fftBin_gain, phaseInner_gain _ _ _ _ (hg g List.mem_cons_self)]
  have hk : Record.keepIds { r with tm := applyGains gains r.tm } set = r.keepIds set := rfl
  unfold phaseShift
  rw [hk]
  rcases r.keepIds set with e | ids
  · rfl
  · simp only [phasePower, hin _ _ _ gains r.tm _ hlen hg]

example : phaseShift { pulseRecord with tm := [[2, 0, 0, 0], [0, 1 / 3, 0, 0], [0, 0, 0, 7]] }
    [2, 3] ⟨1 / 4, 3 / 4⟩ = phaseShift pulseRecord [2, 3] ⟨1 / 4, 3 / 4⟩ := by
  have := C69_gain_invariant pulseRecord [2, 3] ⟨1 / 4, 3 / 4⟩ [2, 1 / 3, 7] rfl
    (by intro g hg; simp at hg; rcases hg with rfl | rfl | rfl <;> norm_num)
  have e : applyGains [2, 1 / 3, 7] pulseRecord.tm = [[2, 0, 0, 0], [0, 1 / 3, 0, 0], [0, 0, 0, 7]] := by
    decide +kernel
  rw [e] at this
  exact this

end Verif.Props
