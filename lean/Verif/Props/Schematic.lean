import Verif.Model.Schematic
import Verif.Lemmas.Number
import Verif.Props.ArrayViews
import Verif.Props.Snr
import Verif.Props.WorkflowExamples

/-!
# C122: the schematic of an array; C123: the plot of the signal-to-noise ratio; C93: automatic picking
-/

namespace Verif.Props
open Verif Arr Spec Draw

theorem lookup_map_replace {α : Type} (k : String) (v : α) (l : List (String × α)) (key : String) :
    (l.map fun p => if p.1 == k then (k, v) else p).lookup key =
      if key = k then (l.lookup key).map fun _ => v else l.lookup key := by
  induction l with
  | nil => simp
  | cons p l ih =>
    rcases p with ⟨a, b⟩
    simp only [List.map_cons]
    by_cases hak : a = k
    · subst hak
      simp only [BEq.rfl, if_true, List.lookup_cons, ih]
      by_cases hka : key = a
      · subst hka; simp
      · have : (key == a) = false := by simpa using hka
        simp [hka, this]
    · have : (a == k) = false := by simpa using hak
      simp only [this, Bool.false_eq_true, if_false, List.lookup_cons, ih]
      by_cases hka : key = a
      · subst hka; simp [hak]
      · have : (key == a) = false := by simpa using hka
        simp [this]

theorem lookup_append_one {α : Type} (k : String) (v : α) (l : List (String × α)) (key : String) :
    (l ++ [(k, v)]).lookup key = (l.lookup key).or (if key = k then some v else none) := by
  induction l with
  | nil =>
    by_cases h : key = k
    · subst h; simp
    · have : (key == k) = false := by simpa using h
      simp [h, List.lookup_cons, this]
  | cons p l ih =>
    rcases p with ⟨a, b⟩
    simp only [List.cons_append, List.lookup_cons, ih]
    cases key == a <;> simp

theorem any_key_iff {α : Type} (k : String) (l : List (String × α)) :
    (l.any fun p => p.1 == k) = (l.lookup k).isSome := by
  induction l with
  | nil => simp
  | cons p l ih =>
    rcases p with ⟨a, b⟩
    simp only [List.any_cons, List.lookup_cons, ih]
    by_cases h : a = k
    · subst h; simp
    · have h1 : (a == k) = false := by simpa using h
      have h2 : (k == a) = false := by simpa using Ne.symm h
      simp [h1, h2]

/-- The value of an option is the last one given, else the default. -/
theorem merge_lookup {α : Type} (given : List (String × α)) (key : String) :
    ∀ defaults : List (String × α),
      (merge defaults given).lookup key = (given.reverse.lookup key).or (defaults.lookup key) := by
  induction given with
  | nil => intro d; simp [merge]
  | cons e given ih =>
    intro d
    rcases e with ⟨k, v⟩
    have step : merge d ((k, v) :: given) = merge (if d.any (fun p => p.1 == k) then
        d.map (fun p => if p.1 == k then (k, v) else p) else d ++ [(k, v)]) given := rfl
    rw [step, ih, List.reverse_cons, lookup_append_one, Option.or_assoc]
    congr 1
    rw [any_key_iff]
    by_cases h : (d.lookup k).isSome
    · rw [if_pos h, lookup_map_replace]
      obtain ⟨w, hw⟩ := Option.isSome_iff_exists.1 h
      by_cases hk : key = k
      · subst hk; simp [hw]
      · simp [hk]
    · rw [if_neg h, lookup_append_one]
      by_cases hk : key = k
      · subst hk; simp [Option.not_isSome_iff_eq_none.1 h]
      · simp [hk]

theorem spacing_error {a : Arr} {e : PyErr} (h : a.spacing = .error e) : e = .valueError := by
  unfold spacing at h
  split at h
  · split_ifs at h
    cases h; rfl
  · cases h; rfl

/-- **C122**.  The schematic can be drawn of every array, also of one with a single sensor or uneven spacing.  It shows
every sensor and the source where they are; the text gives the number of sensors, the source position to the centimetre,
and a spacing exactly when there are at least two sensors all of whose neighbour distances agree to 1 cm. -/
theorem C122_schematic (a : Arr) (ks kq : Option (List (String × String))) (ylim : ℚ × ℚ) :
    ∃ d, schematic a ks kq ylim = .ok d ∧ d.number = a.sensors.length ∧
      d.sensors.length = a.sensors.length ∧
      (∀ (i : ℕ) (s : Sensor), a.sensors[i]? = some s → d.sensors[i]? = some (s.x, s.y)) ∧
      d.source = (a.source.x, a.source.y) ∧
      (∃ n : ℤ, RoundsTo (100 * a.source.x) n ∧ d.sourceText = n / 100) ∧
      (d.spacing.isSome ↔ 2 ≤ a.sensors.length ∧
        ∀ p q, NeighbourDistance a p → NeighbourDistance a q → |p - q| < 1 / 100) ∧
      ∀ q, d.spacing = some q → ∃ m, NeighbourDistance a m ∧ (∀ p, NeighbourDistance a p → m ≤ p) ∧
        |q - m| ≤ 1 / 200 := by
  have htext : ∃ n : ℤ, RoundsTo (100 * a.source.x) n ∧ pyRoundDigits a.source.x 2 = n / 100 := by
    refine ⟨pyRound (100 * a.source.x), pyRound_roundsTo _, ?_⟩
    unfold pyRoundDigits
    norm_num [mul_comm]
  have hcoord : ∀ (i : ℕ) (s : Sensor), a.sensors[i]? = some s →
      (a.sensors.map fun s => (s.x, s.y))[i]? = some (s.x, s.y) := by
    intro i s hs; simp [hs]
  unfold schematic
  rcases hsp : a.spacing with e | q
  · have he := spacing_error hsp
    subst he
    refine ⟨_, rfl, rfl, by simp, hcoord, rfl, htext, ?_, by simp⟩
    simp only [Option.isSome_none, Bool.false_eq_true, false_iff, not_and]
    intro h2 hall
    obtain ⟨q, hq⟩ := (C25_spacing a h2).1.2 hall
    rw [hsp] at hq; cases hq
  · have h2 : 2 ≤ a.sensors.length := by
      by_contra hlt
      rcases hs : a.sensors with _ | ⟨s, _ | ⟨t, l⟩⟩
      · simp [spacing, position, hs, diff, minList] at hsp
      · simp [spacing, position, hs, diff, minList] at hsp
      · simp [hs] at hlt
    refine ⟨_, rfl, rfl, by simp, hcoord, rfl, htext, ?_, ?_⟩
    · simp only [Option.isSome_some, true_iff]
      exact ⟨h2, (C25_spacing a h2).1.1 ⟨q, hsp⟩⟩
    · intro q' hq'
      simp only [Option.some.injEq] at hq'
      subst hq'
      exact (C25_spacing a h2).2.1 q hsp

/-- **C122** (options).  An option given by the caller (the last one of a name) replaces the default of that name, for
sensors and source separately; options not given keep the default: triangles for sensors, diamonds for the source. -/
theorem C122_options (a : Arr) (ks kq : Option (List (String × String))) (ylim : ℚ × ℚ) (d : Schematic)
    (h : schematic a ks kq ylim = .ok d) (key : String) :
    d.sensorOptions.lookup key = ((ks.getD []).reverse.lookup key).or
      ([("marker", "^"), ("color", "k"), ("linestyle", ""), ("label", "Sensor")].lookup key) ∧
    d.sourceOptions.lookup key = ((kq.getD []).reverse.lookup key).or
      ([("marker", "D"), ("color", "b"), ("linestyle", ""), ("label", "Source")].lookup key) := by
  unfold schematic at h
  rcases hsp : a.spacing with e | q
  · have he := spacing_error hsp
    subst he
    rw [hsp] at h
    cases h
    exact ⟨merge_lookup _ _ _, merge_lookup _ _ _⟩
  · rw [hsp] at h
    cases h
    exact ⟨merge_lookup _ _ _, merge_lookup _ _ _⟩

/-- **C122** (limits).  The vertical axis covers -2 to 5.  Everything matplotlib's limits show, where the lower one is not
above the upper one, is shown.  Missing: axes with a reversed vertical axis, see `C122_reversed_axis_fails`. -/
theorem C122_limits_partial (a : Arr) (ks kq : Option (List (String × String))) (ylim : ℚ × ℚ) (d : Schematic)
    (h : schematic a ks kq ylim = .ok d) :
    d.ylim.1 ≤ -2 ∧ 5 ≤ d.ylim.2 ∧ ∀ y, ylim.1 ≤ y → y ≤ ylim.2 → d.ylim.1 ≤ y ∧ y ≤ d.ylim.2 := by
  have : d.ylim = (min ylim.1 (-2), max ylim.2 5) := by
    unfold schematic at h
    rcases hsp : a.spacing with e | q
    · have he := spacing_error hsp
      subst he
      rw [hsp] at h; cases h; rfl
    · rw [hsp] at h; cases h; rfl
  rw [this]
  exact ⟨min_le_right _ _, le_max_right _ _, fun y h1 h2 => ⟨(min_le_left _ _).trans h1, h2.trans (le_max_left _ _)⟩⟩

/-- **C122** fails on axes with a reversed vertical axis: the sensor at y = 9 was within the limits 10 to -10, and is
outside those set. -/
theorem C122_reversed_axis_fails :
    ∃ d, schematic ⟨[⟨⟨[1], 1, 1, 0, 1⟩, 0, 9, 0⟩, ⟨⟨[1], 1, 1, 0, 1⟩, 2, 0, 0⟩], ⟨-5, 0, 0⟩⟩ none none (10, -10) = .ok d ∧
      (0, 9) ∈ d.sensors ∧ d.ylim = (-2, 5) := by
  refine ⟨⟨[(0, 9), (2, 0)], sensorDefaults, (-5, 0), sourceDefaults, 2, some 2, -5, (-2, 5)⟩, ?_⟩
  decide +kernel

/-- Three sensors, unevenly spaced; the caller wants red sensors. -/
example : (schematic ⟨[mkS 0 [1], mkS 2 [1], mkS 5 [1]], ⟨-1 / 3, 0, 0⟩⟩ (some [("color", "r"), ("alpha", "0.5")]) none
      (-1, 1)).toOption = some ⟨[(0, 0), (2, 0), (5, 0)],
        [("marker", "^"), ("color", "r"), ("linestyle", ""), ("label", "Sensor"), ("alpha", "0.5")],
        (-1 / 3, 0), sourceDefaults, 3, none, -33 / 100, (-2, 5)⟩ := by decide +kernel

/-! ## Automatic picking -/

/-- **C93** (algorithms).  `auto_pick_first_arrivals` knows the algorithm "threshold" (for which see `C93_first_arrivals`;
5% by default) and raises `NotImplementedError` for every other, whatever the array. -/
theorem C93_algorithms (a : Arr) (detrend : List ℚ → List ℚ) (algorithm : String) (threshold : Option ℚ) :
    (algorithm ≠ "threshold" → a.autoPick detrend algorithm threshold = .error .notImplementedError) ∧
    (∀ q, a.autoPick detrend "threshold" (some q) = a.pickOnThreshold detrend q) ∧
    a.autoPick detrend "threshold" none = a.pickOnThreshold detrend (1 / 20) := by
  refine ⟨fun h => by simp [autoPick, h], fun q => by simp [autoPick], ?_⟩
  simp only [autoPick, if_true, Option.getD_none]
  norm_num

/-! ## Plot of the signal-to-noise ratio -/

/-- `q` holds the ratios of two windows: one point for each bin of an increasing choice of bins, at the frequency of the
bin on the user's frequency axis, with the ratio of the mean magnitudes. -/
def RatioCurve (signal noise : Arr) (q : List ℚ × List ℝ) : Prop :=
  ∃ (first : Sensor) (bins : List ℕ), noise.sensors.head? = some first ∧ bins.Pairwise (· < ·) ∧
    q.1 = bins.map (fun (k : ℕ) => (k : ℚ) * (first.ts.multiple / (first.ts.amp.length * first.ts.dt))) ∧
    q.2 = bins.map fun k => meanSpectrum signal k / meanSpectrum noise k

/-- What a run draws with `plot_snr` on axes holding `curves`: nothing unless the ratio was asked for, otherwise
one more curve, the ratio of its two windows. -/
def DrawsSnr (set : Settings) (r : Workflow.Result) : Prop :=
  ∀ curves, (set.snrPerform = false → plotSnr r.snr curves = curves) ∧
    (set.snrPerform = true → ∃ q signal noise, plotSnr r.snr curves = curves ++ [q] ∧
      r.final.signal = some signal ∧ r.final.noise = some noise ∧ RatioCurve signal noise q)

theorem snrCore_curve {signal noise : Arr} {fmin fmax : ℚ} {q : List ℚ × List ℝ}
    (h : WT.snrCore signal noise fmin fmax = .ok q) : RatioCurve signal noise q := by
  obtain ⟨ns, nrest, ss, srest, ids, h1, h2, h3, h4, h5, h6⟩ := snrCore_ok (frqs := q.1) (ratios := q.2) h
  have hm : 0 < ns.ts.multiple := by
    rcases Nat.eq_zero_or_pos ns.ts.multiple with h0 | h0
    · rw [h0] at h4
      unfold WT.keepIds at h4
      split at h4
      · simp at h4
      · cases h4
    · exact h0
  have hf : WT.binFrequencies ns.ts.nsamples ns.ts.df ≠ [] := by
    intro h0
    rw [h0] at h4
    simp [WT.keepIds, argmin] at h4
  obtain ⟨ids', i, j, k1, -, -, -, k2, k3, -⟩ := C62_selected_bins _ fmin fmax _ hm hf
  rw [h4] at k1
  cases k1
  refine ⟨ns, ids, by simp [h1], k2, ?_, h6⟩
  rw [h5]
  refine List.map_congr_left fun k hk => ?_
  have hlt : k < ns.ts.nsamples := by simpa [WT.binFrequencies] using k3 k hk
  simp only [WT.binFrequencies, List.getD_eq_getElem?_getD, List.getElem?_map, List.getElem?_range hlt,
    Option.map_some, Option.getD_some]
  simp [ATS.df, ATS.dfInternal, ATS.nsamples, div_eq_mul_inv, mul_comm, mul_left_comm]

theorem snr_curve {signal noise : Arr} {fmin fmax df : ℚ} {pad : Bool} {w : Arr × Arr} {q : List ℚ × List ℝ}
    (h : WT.snr signal noise fmin fmax pad df = (w, .ok q)) : RatioCurve w.1 w.2 q :=
  snrCore_curve (snr_ok (signal' := w.1) (noise' := w.2) (frqs := q.1) (ratios := q.2) h).2.2

theorem drawsSnr_of {set : Settings} {s s' : Workflow.State} {r : Workflow.Result}
    (h : Workflow.calculateSnr set s = .ok (s', r.snr)) (h1 : r.final.signal = s'.signal)
    (h2 : r.final.noise = s'.noise) : DrawsSnr set r := by
  obtain ⟨-, k1, k2⟩ := Workflow.calculateSnr_ok h
  intro curves
  refine ⟨fun hf => ?_, fun hp => ?_⟩
  · rw [(k1 hf).2]; rfl
  · obtain ⟨signal, noise, sp, np, q, j1, j2, j3, j4, j5, j6⟩ := k2 hp
    refine ⟨q, sp, np, ?_, by rw [h1, j5], by rw [h2, j6], snr_curve j3⟩
    rw [j4]; rfl

open Workflow in
/-- **C123**.  After every run of every workflow, `plot_snr` draws nothing unless a signal-to-noise ratio was asked for;
otherwise it adds exactly one curve to the axes, the ratio of the mean spectral magnitudes of the signal and noise windows
of this run, over the frequencies of the noise window. -/
theorem C123_plot_snr (env : Env) (set : Settings) (f : Fnames) (r : Result) :
    (timeDomain env set f = .ok r → DrawsSnr set r) ∧ (single env set f = .ok r → DrawsSnr set r) ∧
    (frequencyDomain env set f = .ok r → DrawsSnr set r) ∧
    (∀ src ch, xcorr env set f src ch = .ok r → DrawsSnr set r) := by
  have htd : ∀ f, timeDomain env set f = .ok r → DrawsSnr set r := by
    intro f h
    unfold timeDomain at h
    obtain ⟨raw, hraw, h⟩ := bind_ok h
    obtain ⟨⟨⟩, hcheck, h⟩ := bind_ok h
    obtain ⟨s1, h1, h⟩ := bind_ok h
    obtain ⟨s2, h2, h⟩ := bind_ok h
    obtain ⟨s3, h3, h⟩ := bind_ok h
    obtain ⟨s4, h4, h⟩ := bind_ok h
    obtain ⟨s5, h5, h⟩ := bind_ok h
    obtain ⟨⟨s6, q⟩, h6, h⟩ := bind_ok h
    simp only at h
    obtain ⟨s7, h7, h⟩ := bind_ok h
    obtain ⟨t, h8, h⟩ := bind_ok h
    cases h
    obtain ⟨padded, e7, rfl⟩ := pad_ok h7
    exact drawsSnr_of h6 rfl rfl
  refine ⟨htd f, ?_, ?_, ?_⟩
  · intro h
    unfold single at h
    split at h
    · exact htd _ h
    · exact htd _ h
    · cases h
    · exact htd _ h
  · intro h
    have hfiles : ∀ names, freqFiles env set names = .ok r → DrawsSnr set r := by
      intro names h
      unfold freqFiles at h
      split at h
      · cases h
      · obtain ⟨ex, _, h⟩ := bind_ok h
        obtain ⟨running, _, h⟩ := bind_ok h
        obtain ⟨_, _, h⟩ := bind_ok h
        obtain ⟨⟨st, running'⟩, _, h⟩ := bind_ok h
        rcases st with _ | s
        · cases h
        · simp only at h
          obtain ⟨⟨s', q⟩, hq, h⟩ := bind_ok h
          cases h
          exact drawsSnr_of hq rfl rfl
    unfold frequencyDomain at h
    split at h
    · exact hfiles _ h
    · exact hfiles _ h
  · intro src ch h
    unfold xcorr at h
    obtain ⟨⟨raw, sig⟩, hraw, h⟩ := bind_ok h
    simp only at h
    obtain ⟨t0, _, h⟩ := bind_ok h
    obtain ⟨raw', _, h⟩ := bind_ok h
    split_ifs at h with hs
    · cases h
    obtain ⟨⟨⟩, hcheck, h⟩ := bind_ok h
    obtain ⟨s1, h1, h⟩ := bind_ok h
    obtain ⟨s2, h2, h⟩ := bind_ok h
    obtain ⟨s3, h3, h⟩ := bind_ok h
    obtain ⟨s4, h4, h⟩ := bind_ok h
    obtain ⟨s5, h5, h⟩ := bind_ok h
    obtain ⟨⟨s6, q⟩, h6, h⟩ := bind_ok h
    simp only at h
    obtain ⟨x, _, h⟩ := bind_ok h
    obtain ⟨s7, h7, h⟩ := bind_ok h
    obtain ⟨t, h8, h⟩ := bind_ok h
    cases h
    obtain ⟨padded, e7, rfl⟩ := pad_ok h7
    exact drawsSnr_of h6 rfl rfl

open Workflow in
/-- A run with a signal-to-noise ratio: one curve more. -/
example : ∃ r, timeDomain exEnv exSet (.one "a") = .ok r ∧ ∃ q, plotSnr r.snr [] = [q] := by
  obtain ⟨r, hr, -, -⟩ := exTimeDomain
  obtain ⟨q, -, -, h, -⟩ := ((C123_plot_snr exEnv exSet (.one "a") r).1 hr []).2 rfl
  exact ⟨r, hr, q, h⟩

end Verif.Props
