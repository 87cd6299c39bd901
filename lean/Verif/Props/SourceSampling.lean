import Verif.Props.XCorrelate

/-!
# C153: the sampling interval of the source signal
-/

namespace Verif.Props
open Verif Spec ArrSrc

/-- The receivers with another source signal sampling. -/
def resampled (a : ArrSrc) (dt : ℚ) : ArrSrc := { a with source := { a.source with dt := dt } }

theorem xcorrLoop_returns (a : ArrSrc) (b : ℤ × ℤ) : ∀ l : List Sensor, (∀ s ∈ l, 0 < s.ts.nstacks) →
    ∃ m, a.xcorrLoop b l = .ok m
  | [], _ => ⟨[], rfl⟩
  | s :: l, h => by
    obtain ⟨m, hm⟩ := xcorrLoop_returns a b l fun t ht => h t (by simp [ht])
    have hs : a.xcorrSensor b s = .ok ⟨⟨pySlice (ATS.correlate s.ts.amp a.source.amp) b.1 b.2, s.ts.dt, s.ts.nstacks, 0, 1⟩,
        s.x, s.y, s.z⟩ := by
      unfold xcorrSensor
      rw [Sensor.init_eq, if_pos ⟨h s (by simp), le_refl _⟩]
    exact ⟨⟨⟨pySlice (ATS.correlate s.ts.amp a.source.amp) b.1 b.2, s.ts.dt, s.ts.nstacks, 0, 1⟩, s.x, s.y, s.z⟩ :: m,
      by simp only [xcorrLoop, hs, hm]⟩

/-- **C153** (fails).  The sampling interval of the source signal is not compared with that of the receivers: whatever it
is, apart from zero, `xcorrelate` returns, and every sensor is the correlation of its samples with the samples of the
source signal as if both were taken at the interval of the sensor. -/
theorem C153_other_sampling_accepted_fails (a : ArrSrc) (vmin vmax dt : ℚ) (hne : a.sensors ≠ [])
    (hst : ∀ s ∈ a.sensors, 0 < s.ts.nstacks) (hv : vmin ≠ 0 ∧ vmax ≠ 0) (hdt : dt ≠ 0) :
    ∃ a', (resampled a dt).xcorrelate vmin vmax = (a', .ok ()) ∧
      ∃ i j : ℤ, a'.sensors = a.sensors.map fun s =>
        ⟨⟨pySlice ((List.range (s.ts.amp.length + a.source.amp.length - 1)).map fun (k : ℕ) =>
            correlation s.ts.amp a.source.amp ((k : ℤ) - ((a.source.amp.length : ℤ) - 1))) i j, s.ts.dt, s.ts.nstacks, 0, 1⟩,
          s.x, s.y, s.z⟩ := by
  have hcorr : ∀ x y : List ℚ, ((List.range (x.length + y.length - 1)).map fun (k : ℕ) =>
      correlation x y ((k : ℤ) - ((y.length : ℤ) - 1))) = ATS.correlate x y := by
    intro x y
    refine List.ext_getElem (by simp [ATS.correlate_length]) ?_
    intro k h1 h2
    rw [ATS.correlate_getElem]
    simp
  have hb : ∃ b, (resampled a dt).sliceBounds vmin vmax = .ok b := by
    rcases hs : a.sensors with _ | ⟨s, rest⟩
    · exact absurd hs hne
    unfold sliceBounds resampled
    simp only [hs, List.map_cons, Arr.minList, Arr.maxList, hv.1, hv.2, hdt, or_self, if_false]
    exact ⟨_, rfl⟩
  obtain ⟨b, hb⟩ := hb
  obtain ⟨m, hm⟩ := xcorrLoop_returns (resampled a dt) b a.sensors hst
  refine ⟨{ resampled a dt with sensors := m }, ?_, b.1, b.2, ?_⟩
  · unfold xcorrelate
    rw [hb]
    simp only [show (resampled a dt).sensors = a.sensors from rfl, hm]
  · have hF := (xcorrLoop_ok (resampled a dt) b _ _ hm).imp fun s s' hs => (Sensor.init_ok hs).1
    rw [← List.forall₂_eq_eq_eq, List.forall₂_map_right_iff]
    refine hF.flip.imp ?_
    rintro s' s rfl
    simp only [hcorr]
    rfl

/-- **C153** (what the interval is used for).  The interval of the source signal is used for nothing but the choice of the
lags that are kept: with two intervals which give the same truncated numbers of samples the result is the same. -/
theorem C153_only_for_the_lags_partial (a : ArrSrc) (vmin vmax dt dt' : ℚ)
    (hv : vmin ≠ 0 ∧ vmax ≠ 0) (hdt : dt ≠ 0 ∧ dt' ≠ 0)
    (h : ∀ s ∈ a.sensors, cut ((|a.source.src.x - s.x| / vmax - 1 / 2) / dt) = cut ((|a.source.src.x - s.x| / vmax - 1 / 2) / dt') ∧
      cut (|a.source.src.x - s.x| / vmin / dt) = cut (|a.source.src.x - s.x| / vmin / dt')) :
    ((resampled a dt).xcorrelate vmin vmax).1.sensors = ((resampled a dt').xcorrelate vmin vmax).1.sensors ∧
      ((resampled a dt).xcorrelate vmin vmax).2 = ((resampled a dt').xcorrelate vmin vmax).2 := by
  have hb : (resampled a dt).sliceBounds vmin vmax = (resampled a dt').sliceBounds vmin vmax := by
    unfold sliceBounds resampled
    dsimp only
    rcases hmn : Arr.minList (a.sensors.map fun s => |a.source.src.x - s.x|) with _ | mn
    · simp only [hmn]
    rcases hmx : Arr.maxList (a.sensors.map fun s => |a.source.src.x - s.x|) with _ | mx
    · simp only [hmn, hmx]
    simp only [hmn, hmx, hv.1, hv.2, hdt.1, hdt.2, or_self, if_false]
    obtain ⟨s, hs, rfl⟩ := List.mem_map.1 (minList_spec hmn).1
    obtain ⟨t, ht, rfl⟩ := List.mem_map.1 (maxList_spec hmx).1
    rw [pyInt_eq_cut, pyInt_eq_cut, pyInt_eq_cut, pyInt_eq_cut, (h s hs).1, (h t ht).2]
  have hl : ∀ b, (resampled a dt).xcorrLoop b = (resampled a dt').xcorrLoop b := by
    intro b
    funext l
    induction l with
    | nil => rfl
    | cons s l ih =>
      simp only [xcorrLoop, ih]
      rfl
  unfold xcorrelate
  rw [hb]
  rcases (resampled a dt').sliceBounds vmin vmax with e | b
  · exact ⟨rfl, rfl⟩
  · simp only [hl, show (resampled a dt).sensors = (resampled a dt').sensors from rfl]
    rcases (resampled a dt').xcorrLoop b (resampled a dt').sensors with e | m <;> exact ⟨rfl, rfl⟩

/-- Receivers sampled at 1 ms, source signal at 1 ms or at 4 ms: the same correlation. -/
example :
    let a : ArrSrc := ⟨[⟨⟨[0, 2, 1], 1 / 1000, 1, 0, 1⟩, 2, 0, 0⟩], ⟨⟨0, 0, 0⟩, [1, 1], 1 / 1000⟩⟩
    ((resampled a (1 / 1000)).xcorrelate 1 4000).1.sensors.map (fun s => s.ts.amp) = [[0, 2, 3, 1]] ∧
      ((resampled a (4 / 1000)).xcorrelate 1 4000).1.sensors.map (fun s => s.ts.amp) = [[0, 2, 3, 1]] := by
  decide +kernel

end Verif.Props
