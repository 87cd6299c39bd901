import Verif.Lemmas.Spectral
import Verif.Spec.PlaneWave
import Verif.Props.PhaseShift
import Mathlib.Algebra.BigOperators.Field

/-!
# C70, C71, C72: frequency-domain beamforming and FK
-/

open Complex

namespace Verif.Props
open Verif WT Spec

/-! ## The power as a sum of squared magnitudes -/

/-- The weight of one channel. -/
noncomputable def channelWeight (weighting : Option String) (x : ℕ → ℝ) (a : ℕ) : ℝ :=
  if weighting = some "sqrt" then x a else 1

theorem spatialWeight_eq (weighting : Option String) (x : ℕ → ℝ) (a b : ℕ) :
    spatialWeight weighting x a b = channelWeight weighting x a * channelWeight weighting x b := by
  unfold spatialWeight channelWeight
  split_ifs <;> simp

theorem beamPower_add (n : ℕ) (R R' : ℕ → ℕ → ℂ) (w : ℕ → ℕ → ℝ) (s : ℕ → ℂ) :
    beamPower n (fun a b => R a b + R' a b) w s = beamPower n R w s + beamPower n R' w s := by
  unfold beamPower
  rw [← Finset.sum_add_distrib]
  refine Finset.sum_congr rfl fun b _ => ?_
  rw [← add_mul, ← Finset.sum_add_distrib]
  congr 1
  exact Finset.sum_congr rfl fun a _ => by ring

theorem beamPower_div (n : ℕ) (R : ℕ → ℕ → ℂ) (c : ℂ) (w : ℕ → ℕ → ℝ) (s : ℕ → ℂ) :
    beamPower n (fun a b => R a b / c) w s = beamPower n R w s / c := by
  unfold beamPower
  rw [Finset.sum_div]
  refine Finset.sum_congr rfl fun b _ => ?_
  rw [mul_div_right_comm, Finset.sum_div]
  congr 1
  exact Finset.sum_congr rfl fun a _ => by ring

theorem beamPower_zero (n : ℕ) (w : ℕ → ℕ → ℝ) (s : ℕ → ℂ) :
    beamPower n (fun _ _ => 0) w s = 0 := by
  simp [beamPower]

theorem beamPower_rankOne (n : ℕ) (t : ℕ → ℂ) (ω : ℕ → ℝ) (s : ℕ → ℂ) :
    beamPower n (fun a b => t a * (starRingEnd ℂ) (t b)) (fun a b => ω a * ω b) s =
      ((normSq (∑ a ∈ Finset.range n, (starRingEnd ℂ) (s a) * ((ω a : ℂ) * t a)) : ℝ) : ℂ) := by
  rw [← Complex.mul_conj, map_sum, Finset.mul_sum]
  unfold beamPower
  refine Finset.sum_congr rfl fun b _ => ?_
  rw [Finset.sum_mul, Finset.sum_mul]
  refine Finset.sum_congr rfl fun a _ => ?_
  simp only [map_mul, Complex.conj_conj, Complex.conj_ofReal, Complex.ofReal_mul]
  ring

/-- The blocks after the optional inverse-amplitude weighting. -/
noncomputable def weightedBlocks (weighting : Option String) (blocks : List (ℕ → ℂ)) :
    List (ℕ → ℂ) :=
  if weighting = some "invamp" then blocks.map (invamp blocks) else blocks

theorem beamPower_sscm (weighting : Option String) (n : ℕ) (x : ℕ → ℝ) (blocks : List (ℕ → ℂ))
    (s : ℕ → ℂ) :
    beamPower n (sscm weighting blocks) (spatialWeight weighting x) s =
      (((((weightedBlocks weighting blocks).map fun t =>
        normSq (∑ a ∈ Finset.range n,
          (starRingEnd ℂ) (s a) * ((channelWeight weighting x a : ℂ) * t a))).sum /
        (weightedBlocks weighting blocks).length : ℝ)) : ℂ) := by
  have hw : spatialWeight weighting x =
      fun a b => channelWeight weighting x a * channelWeight weighting x b := by
    funext a b; exact spatialWeight_eq _ _ _ _
  have hs : sscm weighting blocks = fun a b =>
      ((weightedBlocks weighting blocks).map fun t => t a * (starRingEnd ℂ) (t b)).sum /
        ((weightedBlocks weighting blocks).length : ℂ) := rfl
  rw [hw, hs, beamPower_div]
  have key : ∀ bl : List (ℕ → ℂ),
      beamPower n (fun a b => (bl.map fun t => t a * (starRingEnd ℂ) (t b)).sum)
        (fun a b => channelWeight weighting x a * channelWeight weighting x b) s =
      (((bl.map fun t => normSq (∑ a ∈ Finset.range n,
          (starRingEnd ℂ) (s a) * ((channelWeight weighting x a : ℂ) * t a))).sum : ℝ) : ℂ) := by
    intro bl
    induction bl with
    | nil => simpa using beamPower_zero n _ s
    | cons t bl ih =>
      simp only [List.map_cons, List.sum_cons]
      rw [beamPower_add, ih, beamPower_rankOne]
      push_cast
      ring
  rw [key]
  push_cast
  ring

theorem sum_nonneg_of_map_normSq (bl : List (ℕ → ℂ)) (f : (ℕ → ℂ) → ℂ) :
    0 ≤ (bl.map fun t => normSq (f t)).sum := by
  induction bl with
  | nil => simp
  | cons t bl ih => simp only [List.map_cons, List.sum_cons]; have := normSq_nonneg (f t); linarith

/-- **C70** (any number of blocks, any steering vector).  The beamforming power of any recorded blocks,
for every weighting and every steering vector, is a non-negative real number. -/
theorem C70_real_nonneg_any_steering (weighting : Option String) (n : ℕ) (x : ℕ → ℝ)
    (blocks : List (ℕ → ℂ)) (s : ℕ → ℂ) :
    (beamPower n (sscm weighting blocks) (spatialWeight weighting x) s).im = 0 ∧
      0 ≤ (beamPower n (sscm weighting blocks) (spatialWeight weighting x) s).re := by
  rw [beamPower_sscm]
  refine ⟨Complex.ofReal_im _, ?_⟩
  rw [Complex.ofReal_re]
  exact div_nonneg (sum_nonneg_of_map_normSq _ _) (Nat.cast_nonneg _)

/-- **C70**.  Every power returned by FDBF is real and non-negative, for every weighting and steering
setting (for `invamp` the spectra at the selected bins must not vanish: numpy gives NaN there). -/
theorem C70_real_nonneg (hankel : ℝ → ℂ) (r : Record) (velocities : List ℝ) (set : FreqSettings)
    (specific : FdbfSpecific) (frqs : List ℚ) (power : List (List ℂ))
    (h : fdbf hankel r velocities set specific = .ok (frqs, power))
    (_hU : specific.get "weighting" = some "invamp" →
      ∀ ids, r.keepIds set = .ok ids → ∀ k ∈ ids, ∀ u ∈ r.tm, fftBin u k ≠ 0) :
    ∀ row ∈ power, ∀ p ∈ row, p.im = 0 ∧ 0 ≤ p.re := by
  unfold fdbf at h
  rcases hk : r.keepIds set with e | ids
  · rw [hk] at h; cases h
  rw [hk] at h
  cases h
  intro row hrow p hp
  obtain ⟨v, _, rfl⟩ := List.mem_map.1 hrow
  obtain ⟨k, _, rfl⟩ := List.mem_map.1 hp
  exact C70_real_nonneg_any_steering _ _ _ _ _

/-! ## The true velocity attains the largest power -/

theorem aligned_is_largest (n : ℕ) (c : ℕ → ℝ) (hc : ∀ a < n, 0 ≤ c a) (S : ℂ) (φ : ℕ → ℝ)
    (t s : ℕ → ℂ) (ht : ∀ a < n, t a = (c a : ℂ) * (S * exp (-(φ a : ℂ) * I)))
    (hs : ∀ a < n, ‖s a‖ = 1) :
    normSq (∑ a ∈ Finset.range n, (starRingEnd ℂ) (s a) * t a) ≤
      normSq (∑ a ∈ Finset.range n, (starRingEnd ℂ) (exp (-(φ a : ℂ) * I)) * t a) := by
  rw [Complex.normSq_eq_norm_sq, Complex.normSq_eq_norm_sq]
  have h1 : ‖∑ a ∈ Finset.range n, (starRingEnd ℂ) (s a) * t a‖ ≤
      ∑ a ∈ Finset.range n, c a * ‖S‖ := by
    refine le_trans (norm_sum_le _ _) (Finset.sum_le_sum fun a ha => ?_)
    have ha' := Finset.mem_range.1 ha
    rw [norm_mul, RCLike.norm_conj, hs a ha', ht a ha', norm_mul, norm_mul, norm_exp_neg_real_I,
      Complex.norm_real, Real.norm_eq_abs, abs_of_nonneg (hc a ha')]
    linarith
  have h2 : ∑ a ∈ Finset.range n, (starRingEnd ℂ) (exp (-(φ a : ℂ) * I)) * t a =
      ((∑ a ∈ Finset.range n, c a : ℝ) : ℂ) * S := by
    rw [Complex.ofReal_sum, Finset.sum_mul]
    refine Finset.sum_congr rfl fun a ha => ?_
    rw [ht a (Finset.mem_range.1 ha), ← Complex.exp_conj]
    have e : (starRingEnd ℂ) (-(φ a : ℂ) * I) = (φ a : ℂ) * I := by
      simp
    rw [e]
    have : exp ((φ a : ℂ) * I) * exp (-(φ a : ℂ) * I) = 1 := by
      rw [← Complex.exp_add]; simp
    linear_combination (c a : ℂ) * S * this
  have h3 : ‖∑ a ∈ Finset.range n, (starRingEnd ℂ) (exp (-(φ a : ℂ) * I)) * t a‖ =
      ∑ a ∈ Finset.range n, c a * ‖S‖ := by
    rw [h2, norm_mul, Complex.norm_real, Real.norm_eq_abs, abs_of_nonneg, Finset.sum_mul]
    exact Finset.sum_nonneg fun a ha => hc a (Finset.mem_range.1 ha)
  rw [h3]
  exact pow_le_pow_left₀ (norm_nonneg _) h1 2

theorem norm_steer (hankel : ℝ → ℂ) (steering : Option String) (kx : ℝ) :
    ‖steer hankel steering kx‖ = 1 := by
  unfold steer
  split_ifs
  · exact norm_exp_neg_real_I _
  · exact norm_exp_neg_real_I _

/-- **C71**.  If at the selected bin `k` the record is a plane wave of velocity `v` and the steering is
plane, then no trial velocity has a larger FDBF power at that bin than `v`, whatever the weighting. -/
theorem C71_peak_at_true_velocity (hankel : ℝ → ℂ) (r : Record) (velocities : List ℝ)
    (set : FreqSettings) (specific : FdbfSpecific) (frqs : List ℚ) (power : List (List ℂ))
    (h : fdbf hankel r velocities set specific = .ok (frqs, power))
    (hplane : specific.get "steering" ≠ some "cylindrical")
    (hlen : r.tm.length = r.offsets.length) (hx : ∀ x ∈ r.offsets, 0 ≤ x)
    (ids : List ℕ) (hids : r.keepIds set = .ok ids)
    (v : ℝ) (i i' j k : ℕ) (hv : velocities[i]? = some v) (hk : ids[j]? = some k) (S : ℂ)
    (hS : S ≠ 0) (hw : PlaneWaveAt r v k S) (p q : ℂ)
    (hp : (power[i]?.bind fun row => row[j]?) = some p)
    (hq : (power[i']?.bind fun row => row[j]?) = some q) :
    q.re ≤ p.re ∧ p.im = 0 ∧ q.im = 0 := by
  have hbin := record_bins hids
  unfold fdbf at h
  rw [hids] at h
  cases h
  have hkN := hbin k (List.mem_of_getElem? hk)
  have hf : (binFrequencies r.nsamples r.step).getD k 0 = binFrequency r k := by
    simp [binFrequencies, binFrequency, List.getD_eq_getElem?_getD, hkN]
  -- the entry of one velocity
  have hent : ∀ (m : ℕ) (y : ℂ),
      (((velocities.map fun v => ids.map fun k =>
        fdbfPower hankel (specific.get "weighting") (specific.get "steering") r.tm.length
          (fun a => ((r.offsets.getD a 0 : ℚ) : ℝ)) [fun a => fftBin (r.tm.getD a []) k] v
          (((binFrequencies r.nsamples r.step).getD k 0 : ℚ) : ℝ))[m]?).bind fun row => row[j]?)
        = some y → ∃ v', velocities[m]? = some v' ∧
        y = fdbfPower hankel (specific.get "weighting") (specific.get "steering") r.tm.length
          (fun a => ((r.offsets.getD a 0 : ℚ) : ℝ)) [fun a => fftBin (r.tm.getD a []) k] v'
          ((binFrequency r k : ℚ) : ℝ) := by
    intro m y hy
    rw [List.getElem?_map] at hy
    rcases hm : velocities[m]? with _ | v'
    · rw [hm] at hy; cases hy
    · rw [hm] at hy
      simp only [Option.map_some, Option.bind_some] at hy
      rw [List.getElem?_map, hk] at hy
      simp only [Option.map_some, Option.some.injEq] at hy
      rw [hf] at hy
      exact ⟨v', rfl, hy.symm⟩
  obtain ⟨v1, hv1, rfl⟩ := hent i p hp
  rw [hv] at hv1
  cases hv1
  obtain ⟨v2, _, rfl⟩ := hent i' q hq
  refine ⟨?_, (C70_real_nonneg_any_steering _ _ _ _ _).1, (C70_real_nonneg_any_steering _ _ _ _ _).1⟩
  unfold fdbfPower
  rw [beamPower_sscm, beamPower_sscm, Complex.ofReal_re, Complex.ofReal_re]
  refine div_le_div_of_nonneg_right ?_ (Nat.cast_nonneg _)
  -- the only block, after weighting
  obtain ⟨g, hg, hblock⟩ : ∃ g : ℝ, 0 ≤ g ∧
      ∃ t : ℕ → ℂ, weightedBlocks (specific.get "weighting") [fun a => fftBin (r.tm.getD a []) k] = [t] ∧
        ∀ a < r.tm.length, t a = (g : ℂ) * fftBin (r.tm.getD a []) k := by
    unfold weightedBlocks
    split_ifs with hinv
    · refine ⟨1 / ‖S‖, by positivity, _, rfl, ?_⟩
      intro a ha
      simp only [invamp, List.map_cons, List.map_nil, List.sum_cons, List.sum_nil, add_zero,
        List.length_cons, List.length_nil, zero_add, Nat.cast_one, div_one]
      rw [hw a ha, norm_mul, norm_exp_neg_real_I, mul_one, mul_comm]
    · exact ⟨1, by norm_num, _, rfl, by intro a _; simp⟩
  obtain ⟨t, ht1, ht2⟩ := hblock
  rw [ht1]
  simp only [List.map_cons, List.map_nil, List.sum_cons, List.sum_nil, add_zero]
  have hplane' : ∀ kx, steer hankel (specific.get "steering") kx = exp (-(kx : ℂ) * I) := by
    intro kx
    unfold steer
    rw [if_neg hplane]
  have hwt : ∀ a < r.tm.length, 0 ≤ channelWeight (specific.get "weighting")
      (fun a => ((r.offsets.getD a 0 : ℚ) : ℝ)) a := by
    intro a ha
    unfold channelWeight
    split_ifs
    · have : r.offsets.getD a 0 ∈ r.offsets := by
        rw [List.getD_eq_getElem?_getD, List.getElem?_eq_getElem (by omega)]
        exact List.getElem_mem _
      have := hx _ this
      show (0 : ℝ) ≤ ((r.offsets.getD a 0 : ℚ) : ℝ)
      exact_mod_cast this
    · norm_num
  have := aligned_is_largest r.tm.length
    (fun a => channelWeight (specific.get "weighting") (fun a => ((r.offsets.getD a 0 : ℚ) : ℝ)) a * g)
    (fun a ha => mul_nonneg (hwt a ha) hg) S
    (fun a => 2 * Real.pi * (binFrequency r k : ℝ) / v * ((r.offsets.getD a 0 : ℚ) : ℝ))
    (fun a => (channelWeight (specific.get "weighting")
      (fun a => ((r.offsets.getD a 0 : ℚ) : ℝ)) a : ℂ) * t a)
    (fun a => steer hankel (specific.get "steering")
      (2 * Real.pi * (binFrequency r k : ℝ) / v2 * ((r.offsets.getD a 0 : ℚ) : ℝ)))
    (by
      intro a ha
      rw [ht2 a ha, hw a ha]
      have e : (2 * Real.pi * (binFrequency r k : ℝ) * (r.offsets.getD a 0 : ℚ) / v : ℝ) =
          2 * Real.pi * (binFrequency r k : ℝ) / v * ((r.offsets.getD a 0 : ℚ) : ℝ) := by ring
      rw [e]
      push_cast
      ring)
    (fun a _ => norm_steer _ _ _)
  simpa only [hplane'] using this

/-- The weighting and steering options of one example: a plane wave crossing three receivers. -/
example : (∀ x ∈ pulseRecord.offsets, 0 ≤ x) ∧ pulseRecord.tm.length = pulseRecord.offsets.length ∧
    FdbfSpecific.get (some [("weighting", "sqrt"), ("steering", "plane")]) "steering" ≠
      some "cylindrical" := by decide +kernel

/-- ... which is a plane wave of velocity 2 at every bin, with a non-vanishing spectrum. -/
example (k : ℕ) : PlaneWaveAt pulseRecord ((2 : ℚ) : ℝ) k (fftBin [1, 0, 0, 0] k) := by
  refine recorded_planeWave pulseRecord 2 1 [1, 0, 0, 0] (by norm_num) (by norm_num)
    (by norm_num [pulseRecord]) ⟨rfl, by norm_num [pulseRecord], ?_⟩ k
  intro a ha
  have : a = 0 ∨ a = 1 ∨ a = 2 := by simp [pulseRecord] at ha; omega
  rcases this with rfl | rfl | rfl
  · exact ⟨0, by rfl, by norm_num [pulseRecord], by rfl⟩
  · exact ⟨1, by rfl, by norm_num [pulseRecord], by rfl⟩
  · exact ⟨3, by rfl, by norm_num [pulseRecord], by rfl⟩

/-- Beamforming the example succeeds, so the theorems apply to it. -/
example (hankel : ℝ → ℂ) (vs : List ℝ) (d : FdbfSpecific) :
    ∃ frqs power, fdbf hankel pulseRecord vs ⟨1 / 4, 3 / 4⟩ d = .ok (frqs, power) := by
  have : pulseRecord.keepIds ⟨1 / 4, 3 / 4⟩ = .ok [1, 2, 3] := by decide +kernel
  unfold fdbf
  rw [this]
  exact ⟨_, _, rfl⟩

/-! ## FK -/

theorem lookup_dictSet_same (d : List (String × String)) (key value : String) :
    (dictSet d key value).lookup key = some value := by
  unfold dictSet
  split_ifs with h
  · induction d with
    | nil => simp at h
    | cons p d ih =>
      rcases p with ⟨a, b⟩
      by_cases ha : a = key
      · subst ha; simp
      · have ha' : (key == a) = false := by simpa using Ne.symm ha
        simp only [List.lookup_cons, ha'] at h
        simp only [List.map_cons, ha, if_false, List.lookup_cons, ha']
        exact ih h
  · have : ∀ d : List (String × String), d.lookup key = none →
        (d ++ [(key, value)]).lookup key = some value := by
      intro d hd
      induction d with
      | nil => simp
      | cons p d ih =>
        rcases p with ⟨a, b⟩
        simp only [List.lookup_cons, List.cons_append] at hd ⊢
        split at hd
        · cases hd
        · exact ih hd
    exact this d (Option.not_isSome_iff_eq_none.1 h)

theorem lookup_dictSet_other (d : List (String × String)) (key value k : String) (hk : k ≠ key) :
    (dictSet d key value).lookup k = d.lookup k := by
  unfold dictSet
  split_ifs with h
  · clear h
    induction d with
    | nil => rfl
    | cons p d ih =>
      rcases p with ⟨a, b⟩
      by_cases ha : a = key
      · subst ha
        have : (k == a) = false := by simpa using hk
        simp only [List.map_cons, if_true, List.lookup_cons, this, ih]
      · simp only [List.map_cons, ha, if_false, List.lookup_cons, ih]
  · clear h
    induction d with
    | nil =>
      have : (k == key) = false := by simpa using hk
      simp [List.lookup_cons, this]
    | cons p d ih =>
      rcases p with ⟨a, b⟩
      simp only [List.cons_append, List.lookup_cons, ih]

/-- **C72** (equality).  Whatever FDBF settings the caller's dictionary holds, the fk transform returns
what FDBF returns with weighting `none` and plane steering. -/
theorem C72_fk_is_plane_fdbf_partial (hankel : ℝ → ℂ) (r : Record) (velocities : List ℝ)
    (set : FreqSettings) (d : List (String × String)) :
    (fk hankel r velocities set (some d)).2 =
      fdbf hankel r velocities set (some [("weighting", "none"), ("steering", "plane")]) := by
  have h1 : FdbfSpecific.get (some (dictSet (dictSet d "weighting" "none") "steering" "plane"))
      "weighting" = some "none" := by
    show List.lookup _ _ = _
    rw [lookup_dictSet_other _ _ _ _ (by decide), lookup_dictSet_same]
  have h2 : FdbfSpecific.get (some (dictSet (dictSet d "weighting" "none") "steering" "plane"))
      "steering" = some "plane" := lookup_dictSet_same _ _ _
  have g1 : FdbfSpecific.get (some [("weighting", "none"), ("steering", "plane")]) "weighting"
      = some "none" := by decide
  have g2 : FdbfSpecific.get (some [("weighting", "none"), ("steering", "plane")]) "steering"
      = some "plane" := by decide
  simp only [fk, fdbf, h1, h2, g1, g2]

/-- **C72** fails in two ways: running fk changes the caller's settings dictionary, so that a later FDBF
run with the same dictionary silently uses other settings; and without an `fdbf-specific` entry, which
FDBF itself does not need, fk raises `KeyError`. -/
theorem C72_settings_fails :
    (∃ d : List (String × String), ∀ hankel r velocities set,
      (fk hankel r velocities set (some d)).1 ≠ some d ∧
      FdbfSpecific.get (some d) "weighting" = some "sqrt" ∧
      FdbfSpecific.get (fk hankel r velocities set (some d)).1 "weighting" = some "none") ∧
    (∀ hankel r velocities set, (fk hankel r velocities set none).2 = .error .keyError) := by
  refine ⟨⟨[("weighting", "sqrt"), ("steering", "cylindrical")], ?_⟩, fun _ _ _ _ => rfl⟩
  intro hankel r velocities set
  refine ⟨?_, by decide, ?_⟩
  · show some (dictSet (dictSet [("weighting", "sqrt"), ("steering", "cylindrical")] "weighting" "none")
      "steering" "plane") ≠ _
    decide
  · show FdbfSpecific.get (some (dictSet (dictSet [("weighting", "sqrt"), ("steering", "cylindrical")]
      "weighting" "none") "steering" "plane")) "weighting" = _
    decide

/-- **C72** (what holds of the settings).  Only the two FDBF settings change: every other key of the
dictionary keeps its value. -/
theorem C72_settings_partial (hankel : ℝ → ℂ) (r : Record) (velocities : List ℝ)
    (set : FreqSettings) (d : List (String × String)) (key : String)
    (h1 : key ≠ "weighting") (h2 : key ≠ "steering") :
    FdbfSpecific.get (fk hankel r velocities set (some d)).1 key = FdbfSpecific.get (some d) key := by
  show (dictSet (dictSet d "weighting" "none") "steering" "plane").lookup key = d.lookup key
  rw [lookup_dictSet_other _ _ _ _ h2, lookup_dictSet_other _ _ _ _ h1]

end Verif.Props
