import Verif.Lemmas.Number
import Verif.Model.Files
import Verif.Lemmas.CrossCorr
import Verif.Lemmas.Array
import Verif.Lemmas.Sensor
import Verif.Lemmas.Files
import Verif.Props.ArrayViews
import Mathlib.Data.List.GetD

/-!
# C30, C94, C95: correlation with the source signal, the mean source signal, source coordinates
-/

namespace Verif.Props
open Verif Spec ArrSrc

theorem xcorrLoop_ok (a : ArrSrc) (b : ℤ × ℤ) : ∀ (l m : List Sensor), a.xcorrLoop b l = .ok m →
    List.Forall₂ (fun s s' => a.xcorrSensor b s = .ok s') l m := by
  intro l
  induction l with
  | nil => intro m h; simp only [xcorrLoop, Except.ok.injEq] at h; subst h; exact .nil
  | cons s ss ih =>
    intro m h
    unfold xcorrLoop at h
    rcases hs : a.xcorrSensor b s with e | s'
    · rw [hs] at h; simp at h
    rw [hs] at h
    rcases hr : a.xcorrLoop b ss with e | ss'
    · rw [hr] at h; simp at h
    rw [hr, Except.ok.injEq] at h
    subst h
    exact .cons hs (ih _ hr)

/-- **C30** (partial).  After `xcorrelate` on sensors with equally long records there is one number `first`
such that sample `j` of every sensor is the correlation of its record with the source signal at lag
`first + j`, all sensors have the same number of samples, and position, time step and stack count are kept with
no delay.  The full property asks for `first = 0`; here `first` is one more than `(tmin - 0.5) / dt` truncated,
when this does not reach before the beginning of the correlation. -/
theorem C30_xcorrelate_samples_partial (a a' : ArrSrc) (vmin vmax : ℚ)
    (hlen : ∀ s ∈ a.sensors, ∀ t ∈ a.sensors, s.ts.amp.length = t.ts.amp.length)
    (h : a.xcorrelate vmin vmax = (a', .ok ())) :
    a'.source = a.source ∧
    (∀ s ∈ a'.sensors, ∀ t ∈ a'.sensors, s.ts.amp.length = t.ts.amp.length) ∧
    ∃ first : ℤ,
      List.Forall₂ (fun s s' : Sensor =>
        s'.x = s.x ∧ s'.y = s.y ∧ s'.z = s.z ∧ s'.ts.dt = s.ts.dt ∧ s'.ts.nstacks = s.ts.nstacks ∧
        s'.ts.delay = 0 ∧
        ∀ j < s'.ts.amp.length,
          s'.ts.amp[j]? = some (correlation s.ts.amp a.source.amp (first + j))) a.sensors a'.sensors ∧
      ∀ near : ℚ, (∀ s ∈ a.sensors, near ≤ |a.source.src.x - s.x|) →
        (∃ s ∈ a.sensors, near = |a.source.src.x - s.x|) →
        0 ≤ (a.source.amp.length : ℤ) + cut ((near / vmax - 1 / 2) / a.source.dt) →
        (∃ s ∈ a'.sensors, s.ts.amp ≠ []) →
        first = cut ((near / vmax - 1 / 2) / a.source.dt) + 1 := by
  simp only [← pyInt_eq_cut]
  unfold xcorrelate at h
  rcases hb : a.sliceBounds vmin vmax with e | b
  · rw [hb] at h; simp at h
  rw [hb] at h
  rcases hl : a.xcorrLoop b a.sensors with e | ss
  · simp [hl] at h
  simp only [hl, Prod.mk.injEq, and_true] at h
  subst h
  have hF := xcorrLoop_ok a b _ _ hl
  have hF' : List.Forall₂ (fun s s' : Sensor => s' =
      ⟨⟨pySlice (ATS.correlate s.ts.amp a.source.amp) b.1 b.2, s.ts.dt, s.ts.nstacks, 0, 1⟩, s.x, s.y, s.z⟩)
      a.sensors ss := by
    refine hF.imp ?_
    intro s s' hs
    exact (Sensor.init_ok hs).1
  have hmem : ∀ s' ∈ ss, ∃ s ∈ a.sensors, s' =
      ⟨⟨pySlice (ATS.correlate s.ts.amp a.source.amp) b.1 b.2, s.ts.dt, s.ts.nstacks, 0, 1⟩, s.x, s.y, s.z⟩ := by
    intro s' hs'
    exact forall₂_mem_right hF' hs'
  -- the length of every correlation
  obtain ⟨n, hn⟩ : ∃ n, ∀ s ∈ a.sensors, s.ts.amp.length = n := by
    rcases hs : a.sensors with _ | ⟨s, r⟩
    · exact ⟨0, by simp⟩
    · refine ⟨s.ts.amp.length, fun t ht => hlen t (by rw [hs]; exact ht) s (by rw [hs]; simp)⟩
  have hcl : ∀ s ∈ a.sensors,
      (ATS.correlate s.ts.amp a.source.amp).length = n + a.source.amp.length - 1 := by
    intro s hs
    rw [ATS.correlate_length, hn s hs]
  refine ⟨rfl, ?_, ((sliceIdx (n + a.source.amp.length - 1) b.1 : ℕ) : ℤ) - ((a.source.amp.length : ℤ) - 1),
    ?_, ?_⟩
  · intro s hs t ht
    obtain ⟨u, hu, rfl⟩ := hmem s hs
    obtain ⟨v, hv, rfl⟩ := hmem t ht
    exact ATS.pySlice_length _ _ ((hcl u hu).trans (hcl v hv).symm) _ _
  · have hmemF : List.Forall₂ (fun s s' : Sensor => s ∈ a.sensors ∧ s' =
      ⟨⟨pySlice (ATS.correlate s.ts.amp a.source.amp) b.1 b.2, s.ts.dt, s.ts.nstacks, 0, 1⟩, s.x, s.y, s.z⟩)
        a.sensors ss := by
      rw [List.forall₂_iff_get] at hF' ⊢
      exact ⟨hF'.1, fun i h1 h2 => ⟨List.getElem_mem _, hF'.2 i h1 h2⟩⟩
    refine hmemF.imp ?_
    rintro s s' ⟨hs, rfl⟩
    refine ⟨rfl, rfl, rfl, rfl, rfl, rfl, ?_⟩
    intro j hj
    have hc := hcl s hs
    simp only [pySlice, hc] at hj ⊢
    rw [List.length_drop, List.length_take] at hj
    rw [List.getElem?_drop, List.getElem?_take, if_pos (by omega),
      List.getElem?_eq_getElem (by omega), ATS.correlate_getElem]
    congr 2
    push_cast
    ring
  · intro near hmin hex hpos hne
    have hmn : Arr.minList (a.sensors.map fun s => |a.source.src.x - s.x|) = some near := by
      rcases hmn : Arr.minList (a.sensors.map fun s => |a.source.src.x - s.x|) with _ | mn
      · exfalso
        obtain ⟨s, hs, -⟩ := hex
        rcases hss : a.sensors with _ | ⟨s0, r⟩
        · rw [hss] at hs; simp at hs
        · rw [hss] at hmn; simp [Arr.minList] at hmn
      · obtain ⟨m1, m2⟩ := minList_spec hmn
        obtain ⟨s, hs, rfl⟩ := hex
        obtain ⟨t, ht, rfl⟩ := List.mem_map.1 m1
        rw [hmn]
        refine congrArg some ?_
        exact le_antisymm (m2 _ (List.mem_map.2 ⟨s, hs, rfl⟩)) (hmin t ht)
    have hb1 : b.1 = (a.source.amp.length : ℤ) + pyInt ((near / vmax - 1 / 2) / a.source.dt) := by
      unfold sliceBounds at hb
      simp only [hmn] at hb
      split at hb
      · rename_i mn mx h1 h2
        simp only [Option.some.injEq] at h1
        split_ifs at hb
        simp only [Except.ok.injEq] at hb
        rw [← hb, h1]
      · simp at hb
    obtain ⟨s', hs', hne'⟩ := hne
    obtain ⟨s, hs, rfl⟩ := hmem s' hs'
    have hlt : sliceIdx (n + a.source.amp.length - 1) b.1 < n + a.source.amp.length - 1 := by
      by_contra hcon
      apply hne'
      have hc := hcl s hs
      simp only [pySlice, hc]
      apply List.drop_eq_nil_of_le
      rw [List.length_take, hc]
      omega
    rw [← hb1] at hpos
    have hsl : sliceIdx (n + a.source.amp.length - 1) b.1 = min b.1.toNat (n + a.source.amp.length - 1) := by
      unfold sliceIdx; rw [if_neg (by omega)]
    rw [hsl] at hlt ⊢
    omega

/-- Three samples of record, two of source, 0.1 s apart. -/
def exSrc : ArrSrc :=
  ⟨[⟨⟨[0, 1, 2, 0, 0, 0, 0, 0], 1 / 10, 1, 0, 1⟩, 100, 0, 0⟩], ⟨⟨0, 0, 0⟩, [1, 0, 0, 0, 0, 0, 0, 0], 1 / 10⟩⟩

/-- **C30**: the full property fails.  The source signal is a unit impulse at time zero, so the correlation at
lag `t` is the record itself; but `xcorrelate` moves the record's second sample (time 0.1 s) to sample 4
(time 0.4 s). -/
theorem C30_zero_lag_counterexample :
    ∃ a', exSrc.xcorrelate 50 500 = (a', .ok ()) ∧
      (a'.sensors.map fun s => s.ts.amp) = [[0, 0, 0, 1, 2, 0, 0, 0, 0, 0]] ∧
      correlation [0, 1, 2, 0, 0, 0, 0, 0] [1, 0, 0, 0, 0, 0, 0, 0] 1 = 1 := by
  refine ⟨⟨[⟨⟨[0, 0, 0, 1, 2, 0, 0, 0, 0, 0], 1 / 10, 1, 0, 1⟩, 100, 0, 0⟩],
    ⟨⟨0, 0, 0⟩, [1, 0, 0, 0, 0, 0, 0, 0], 1 / 10⟩⟩, ?_, ?_, ?_⟩ <;> decide +kernel

/-- **C30**: when the source signal is shorter than half a second the start of the slice is negative and counts
from the end of the correlation, so that nothing of the record before or at its arrival is kept. -/
theorem C30_short_source_counterexample :
    ∃ a', (⟨[⟨⟨[0, 1, 2, 0, 0, 0, 0, 0], 1 / 10, 1, 0, 1⟩, 10, 0, 0⟩], ⟨⟨0, 0, 0⟩, [1, 0], 1 / 10⟩⟩ :
      ArrSrc).xcorrelate 10 1000 = (a', .ok ()) ∧ (a'.sensors.map fun s => s.ts.amp) = [[0, 0]] := by
  refine ⟨⟨[⟨⟨[0, 0], 1 / 10, 1, 0, 1⟩, 10, 0, 0⟩], ⟨⟨0, 0, 0⟩, [1, 0], 1 / 10⟩⟩, ?_, ?_⟩ <;>
    decide +kernel

/-! ### C94 -/

private theorem foldl_addSignal (n : ℕ) : ∀ (rest : List (List ℚ)) (l : List ℚ), l.length = n →
    (∀ s ∈ rest, s.length = n) →
    ∃ out, rest.foldl addSignal (.ok l) = .ok out ∧ out.length = n ∧
      ∀ i < n, out.getD i 0 = l.getD i 0 + (rest.map fun s => s.getD i 0).sum := by
  intro rest
  induction rest with
  | nil => intro l hl _; exact ⟨l, rfl, hl, by simp⟩
  | cons s rest ih =>
    intro l hl hr
    have hs : s.length = l.length := (hr s (by simp)).trans hl.symm
    obtain ⟨out, h1, h2, h3⟩ := ih (List.zipWith (· + ·) l s) (by simp [hs, hl])
      (fun t ht => hr t (by simp [ht]))
    refine ⟨out, ?_, h2, ?_⟩
    · rw [List.foldl_cons, ← h1]
      simp [addSignal, hs]
    · intro i hi
      rw [h3 i hi, List.map_cons, List.sum_cons, ← add_assoc]
      congr 1
      rw [List.getD_eq_getElem _ _ (by simp [hs, hl, hi]), List.getD_eq_getElem _ _ (by omega),
        List.getD_eq_getElem _ _ (by omega), List.getElem_zipWith]

/-- **C94** (mean).  With signals of one length the result has this length and is their arithmetic mean, sample
by sample. -/
theorem C94_source_signal_is_mean (signals : List (List ℚ)) (n : ℕ) (hne : signals ≠ [])
    (hlen : ∀ s ∈ signals, s.length = n) :
    ∃ out, meanSignal signals = .ok out ∧ out.length = n ∧
      ∀ i < n, out[i]? = some ((signals.map fun s => s.getD i 0).sum / signals.length) := by
  rcases signals with _ | ⟨s0, rest⟩
  · exact absurd rfl hne
  obtain ⟨out, h1, h2, h3⟩ := foldl_addSignal n rest s0 (hlen s0 (by simp)) (fun s hs => hlen s (by simp [hs]))
  refine ⟨out.map (· / ((rest.length : ℚ) + 1)), ?_, by simp [h2], ?_⟩
  · unfold meanSignal
    simp only [h1]
  · intro i hi
    have h3' := h3 i hi
    rw [List.getD_eq_getElem _ _ (by omega : i < out.length)] at h3'
    rw [List.getElem?_map, List.getElem?_eq_getElem (by omega : i < out.length)]
    simp only [Option.map_some, List.map_cons, List.sum_cons, List.length_cons, Nat.cast_add, Nat.cast_one,
      h3']

/-- **C94** (order).  The order of the source files does not matter. -/
theorem C94_source_signal_order_irrelevant (signals other : List (List ℚ)) (n : ℕ) (hne : signals ≠ [])
    (hlen : ∀ s ∈ signals, s.length = n) (hp : signals.Perm other) :
    meanSignal signals = meanSignal other := by
  obtain ⟨o1, h1, h2, h3⟩ := C94_source_signal_is_mean signals n hne hlen
  obtain ⟨o2, g1, g2, g3⟩ := C94_source_signal_is_mean other n
    (by rintro rfl; exact hne hp.eq_nil) (fun s hs => hlen s (hp.mem_iff.2 hs))
  rw [h1, g1]
  congr 1
  apply List.ext_getElem?
  intro i
  by_cases hi : i < n
  · rw [h3 i hi, g3 i hi, hp.length_eq, (hp.map _).sum_eq]
  · rw [List.getElem?_eq_none (by omega), List.getElem?_eq_none (by omega)]

/-- **C94** (lengths).  A signal whose length differs from the first one's is refused, unless it has a single
sample, which numpy adds to every sample: this is why this part is partial. -/
theorem C94_unequal_lengths_refused_partial (s0 : List ℚ) (before after : List (List ℚ)) (s : List ℚ)
    (hb : ∀ t ∈ before, t.length = s0.length) (hs : s.length ≠ s0.length) (h1 : s.length ≠ 1) :
    meanSignal (s0 :: (before ++ s :: after)) = .error .valueError := by
  obtain ⟨out, e1, e2, -⟩ := foldl_addSignal s0.length before s0 rfl hb
  have hstay : ∀ (l : List (List ℚ)) (e : PyErr), l.foldl addSignal (.error e) = .error e := by
    intro l e
    induction l with
    | nil => rfl
    | cons a l ih => rw [List.foldl_cons]; exact ih
  have : (before ++ s :: after).foldl addSignal (.ok s0) = .error .valueError := by
    rw [List.foldl_append, e1, List.foldl_cons]
    have : addSignal (.ok out) s = .error .valueError := by
      simp [addSignal, e2, hs, h1]
    rw [this, hstay]
  unfold meanSignal
  simp only [this]

/-- What a source signal contributes to sample `i`: a signal of one sample contributes this sample everywhere. -/
def contribution (s : List ℚ) (i : ℕ) : ℚ := if s.length = 1 then s.getD 0 0 else s.getD i 0

private theorem foldl_addSignal_any : ∀ (rest : List (List ℚ)) (l : List ℚ),
    (∀ out, rest.foldl addSignal (.ok l) = .ok out →
      (∀ s ∈ rest, s.length = l.length ∨ s.length = 1) ∧ out.length = l.length ∧
      ∀ i < l.length, out.getD i 0 = l.getD i 0 + (rest.map fun s => contribution s i).sum) ∧
    (∀ e, rest.foldl addSignal (.ok l) = .error e →
      e = .valueError ∧ ∃ s ∈ rest, s.length ≠ l.length ∧ s.length ≠ 1) := by
  intro rest
  induction rest with
  | nil =>
    intro l
    constructor
    · intro out h
      simp only [List.foldl_nil, Except.ok.injEq] at h
      subst h; simp
    · intro e h; simp at h
  | cons s rest ih =>
    intro l
    have hstay : ∀ (l : List (List ℚ)) (e : PyErr), l.foldl addSignal (.error e) = .error e := by
      intro l e
      induction l with
      | nil => rfl
      | cons a l ih => rw [List.foldl_cons]; exact ih
    rw [List.foldl_cons]
    by_cases hs : s.length = l.length
    · have e1 : addSignal (.ok l) s = .ok (List.zipWith (· + ·) l s) := by simp [addSignal, hs]
      have hl : (List.zipWith (· + ·) l s).length = l.length := by simp [hs]
      rw [e1]
      obtain ⟨i1, i2⟩ := ih (List.zipWith (· + ·) l s)
      rw [hl] at i1 i2
      refine ⟨fun out h => ?_, fun e h => ?_⟩
      · obtain ⟨h1, h2, h3⟩ := i1 out h
        refine ⟨fun t ht => ?_, h2, fun i hi => ?_⟩
        · rcases List.mem_cons.1 ht with rfl | ht
          · exact Or.inl hs
          · exact h1 t ht
        · rw [h3 i hi, List.map_cons, List.sum_cons, ← add_assoc]
          congr 1
          rw [List.getD_eq_getElem _ _ (by omega), List.getD_eq_getElem _ _ hi, List.getElem_zipWith]
          congr 1
          unfold contribution
          split_ifs with c
          · have : i = 0 := by omega
            subst this
            rw [List.getD_eq_getElem _ _ (by omega)]
          · rw [List.getD_eq_getElem _ _ (by omega)]
      · obtain ⟨h1, t, ht, h2⟩ := i2 e h
        exact ⟨h1, t, by simp [ht], h2⟩
    · by_cases h1 : s.length = 1
      · have e1 : addSignal (.ok l) s = .ok (l.map (· + s.getD 0 0)) := by
          simp only [addSignal, if_neg hs, if_pos h1]
        rw [e1]
        obtain ⟨i1, i2⟩ := ih (l.map (· + s.getD 0 0))
        rw [List.length_map] at i1 i2
        refine ⟨fun out h => ?_, fun e h => ?_⟩
        · obtain ⟨h2, h3, h4⟩ := i1 out h
          refine ⟨fun t ht => ?_, h3, fun i hi => ?_⟩
          · rcases List.mem_cons.1 ht with rfl | ht
            · exact Or.inr h1
            · exact h2 t ht
          · rw [h4 i hi, List.map_cons, List.sum_cons, ← add_assoc]
            congr 1
            rw [List.getD_eq_getElem _ _ (by simpa using hi), List.getD_eq_getElem _ _ hi, List.getElem_map]
            congr 1
            rw [contribution, if_pos h1]
        · obtain ⟨h2, t, ht, h3⟩ := i2 e h
          exact ⟨h2, t, by simp [ht], h3⟩
      · have e1 : addSignal (.ok l) s = .error .valueError := by
          simp only [addSignal, if_neg hs, if_neg h1]
        rw [e1, hstay]
        refine ⟨fun out h => by simp at h, fun e h => ?_⟩
        simp only [Except.error.injEq] at h
        exact ⟨h.symm, s, by simp, hs, h1⟩

/-- **C94** (exactly).  The signals are accepted exactly if every one has the length of the first or a single sample,
and refused with `ValueError` otherwise; sample by sample the result is the mean of what the signals contribute,
where a single sample counts for all of them.  The property asks for the refusal of single samples too. -/
theorem C94_exactly_partial (s0 : List ℚ) (rest : List (List ℚ)) :
    ((∃ out, meanSignal (s0 :: rest) = .ok out) ↔ ∀ s ∈ rest, s.length = s0.length ∨ s.length = 1) ∧
    (∀ e, meanSignal (s0 :: rest) = .error e → e = .valueError) ∧
    ∀ out, meanSignal (s0 :: rest) = .ok out → out.length = s0.length ∧
      ∀ i < s0.length, out[i]? = some (((s0 :: rest).map fun s => contribution s i).sum / (s0 :: rest).length) := by
  obtain ⟨h1, h2⟩ := foldl_addSignal_any rest s0
  unfold meanSignal
  rcases hf : rest.foldl addSignal (.ok s0) with e | l
  · obtain ⟨g1, s, hs, g2, g3⟩ := h2 e hf
    simp only [hf]
    refine ⟨⟨fun ⟨out, h⟩ => (by simp at h), fun h => ?_⟩, fun e' h => ?_, fun out h => by simp at h⟩
    · exact absurd (h s hs) (by tauto)
    · simp only [Except.error.injEq] at h; rw [← h, g1]
  · obtain ⟨g1, g2, g3⟩ := h1 l hf
    simp only [hf]
    refine ⟨⟨fun _ => g1, fun _ => ⟨_, rfl⟩⟩, fun e' h => by simp at h, fun out h => ?_⟩
    simp only [Except.ok.injEq] at h
    subst h
    refine ⟨by simp [g2], fun i hi => ?_⟩
    have h3 := g3 i hi
    rw [List.getD_eq_getElem _ _ (by omega : i < l.length)] at h3
    rw [List.getElem?_map, List.getElem?_eq_getElem (by omega : i < l.length)]
    have h0 : contribution s0 i = s0.getD i 0 := by
      unfold contribution
      split_ifs with c
      · have : i = 0 := by omega
        subst this; rfl
      · rfl
    simp only [Option.map_some, List.map_cons, List.sum_cons, List.length_cons, Nat.cast_add, Nat.cast_one, h3, h0]

/-- **C94**: a source signal of a single sample is not refused but added to every sample. -/
theorem C94_single_sample_counterexample : meanSignal [[1, 2, 3], [5]] = .ok [3, 7 / 2, 4] := by
  decide +kernel

example : meanSignal [[1, 2, 3], [3, 4, 8], [2, 0, 1]] = .ok [2, 2, 4] := by decide +kernel

/-! ### C95 -/

/-- Header fields which `from_files` reads for the source. -/
def sourceHeader (scalar x y : ℤ) : Header :=
  [("coordinate_units", .int 1), ("scalar_to_be_applied_to_all_coordinates", .int scalar),
   ("source_coordinate_x", .int x), ("source_coordinate_y", .int y)]

private theorem sourceFromHeader_eq (z : Bool) (c x y : ℤ) (mapX mapY : ℚ → ℚ) (hc : c ≠ 0) :
    Arr.sourceFromHeader z (sourceHeader c x y) mapX mapY =
      .ok ⟨mapX (Sensor.scaleCoordinate c x x), mapY (Sensor.scaleCoordinate c y y), 0⟩ := by
  simp [Arr.sourceFromHeader, Arr.checkUnits, Arr.headerInt, sourceHeader, List.lookup, HVal.toInt, bind,
    Except.bind, hc, pure, Except.pure]

/-- **C95** (SU; SEGY with a non-zero scalar).  The source is read by the SEG-Y rule for every allowed scalar,
then mapped.  For a scalar of zero the SEGY branch fails, see below. -/
theorem C95_source_scalar_rule_partial (c x y : ℤ) (mapX mapY : ℚ → ℚ)
    (hc : c = 0 ∨ ∃ k : ℕ, c = 10 ^ k ∨ c = -(10 ^ k)) :
    Arr.sourceFromHeader true (sourceHeader c x y) mapX mapY =
      .ok ⟨mapX (segyCoordinate c x), mapY (segyCoordinate c y), 0⟩ ∧
    (c ≠ 0 → Arr.sourceFromHeader false (sourceHeader c x y) mapX mapY =
      .ok ⟨mapX (segyCoordinate c x), mapY (segyCoordinate c y), 0⟩) := by
  rcases hc with rfl | ⟨k, rfl | rfl⟩
  · refine ⟨?_, fun h => absurd rfl h⟩
    simp [Arr.sourceFromHeader, Arr.checkUnits, Arr.headerInt, sourceHeader, List.lookup, HVal.toInt, bind,
      Except.bind, pure, Except.pure, Sensor.scaleCoordinate_one, segyCoordinate]
  · have hne : (10 ^ k : ℤ) ≠ 0 := by positivity
    simp only [sourceFromHeader_eq _ _ _ _ _ _ hne, Sensor.scaleCoordinate_pos, implies_true, and_self]
  · have hne : -(10 ^ k : ℤ) ≠ 0 := by
      have : (10 ^ k : ℤ) ≠ 0 := by positivity
      omega
    simp only [sourceFromHeader_eq _ _ _ _ _ _ hne, Sensor.scaleCoordinate_neg, implies_true, and_self]

example : Arr.sourceFromHeader true (sourceHeader (-100) 1234 (-50)) id id =
    .ok ⟨1234 / 100, -1 / 2, 0⟩ := by decide +kernel

/-- **C95** (from files).  The source of the array which `from_files` returns is the one stated in the last trace of the
first file, by its format, after the mapping: for SEG2 the source location, for SU and SEGY the source coordinates by the
rule above. -/
theorem C95_source_of_the_array (fs : Fs) (f0 : String) (rest : List String) (mapX mapY : ℚ → ℚ) (a : Arr)
    (h : Arr.fromFiles fs (f0 :: rest) mapX mapY = .ok a) :
    ∃ traces t, fs f0 = some traces ∧ traces.getLast? = some t ∧
      ((t.format = some "SEG2" ∧ ∃ hd v x, t.seg2 = some hd ∧ hd.lookup "SOURCE_LOCATION" = some v ∧ v.toFloat = some x ∧
          a.source = ⟨mapX x, 0, 0⟩) ∨
        (t.format = some "SU" ∧ ∃ hd, t.su = some hd ∧ Arr.sourceFromHeader true hd mapX mapY = .ok a.source) ∨
        (t.format = some "SEGY" ∧ ∃ hd, t.segy = some hd ∧ Arr.sourceFromHeader false hd mapX mapY = .ok a.source)) := by
  obtain ⟨traces, sensors, t, format, obj, g1, g2, g3, g4, g5, -, -⟩ := Arr.fromFiles_ok h
  refine ⟨traces, t, g1, g3, ?_⟩
  unfold Arr.parseSource at g5
  by_cases c1 : format = "SEG2"
  · rw [if_pos c1] at g5
    subst c1
    left
    rcases h1 : t.seg2 with _ | hd
    · simp [h1] at g5
    rcases h2 : hd.lookup "SOURCE_LOCATION" with _ | v
    · simp [h1, h2] at g5
    rcases h3 : v.toFloat with _ | x
    · simp [h1, h2, h3] at g5
    simp only [h1, h2, h3, Except.ok.injEq] at g5
    exact ⟨g4, hd, v, x, rfl, h2, h3, g5.symm⟩
  · rw [if_neg c1] at g5
    by_cases c2 : format = "SU"
    · rw [if_pos c2] at g5
      subst c2
      right; left
      rcases h1 : t.su with _ | hd
      · simp [h1] at g5
      simp only [h1] at g5
      exact ⟨g4, hd, rfl, g5⟩
    · rw [if_neg c2] at g5
      by_cases c3 : format = "SEGY"
      · rw [if_pos c3] at g5
        subst c3
        right; right
        rcases h1 : t.segy with _ | hd
        · simp [h1] at g5
        simp only [h1] at g5
        exact ⟨g4, hd, rfl, g5⟩
      · rw [if_neg c3] at g5
        cases g5

/-- One file with one trace. -/
example : (Arr.fromFiles (fun _ => some [⟨[1, 2], 1 / 1000, some "SEG2", some [("RECEIVER_LOCATION", .int 2),
      ("SOURCE_LOCATION", .int (-5)), ("STACK", .int 1), ("DELAY", .int 0)], none, none⟩]) ["a"] (fun x => x + 10) id).toOption.map
      (fun a => (a.source.x, a.sensors.map fun s => s.x)) = some (5, [12]) := by decide +kernel

/-- **C95**: the full property fails, a scalar of zero makes reading a SEGY file's source raise OverflowError,
although the receivers of the same header are read with a scalar of one. -/
theorem C95_segy_zero_scalar_counterexample :
    Arr.sourceFromHeader false (sourceHeader 0 5 0) id id = .error .overflowError ∧
    (∃ s, Sensor.fromHeaderSu [1] 1 (("group_coordinate_x", .int 7) :: sourceHeader 0 5 0) id id = .ok s ∧
      s.x = 7) := by
  refine ⟨by decide +kernel, ⟨⟨⟨[1], 1, 1, 0, 1⟩, 7, 7, 0⟩, ?_, ?_⟩⟩ <;> decide +kernel

end Verif.Props
