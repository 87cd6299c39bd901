import Verif.Model.RoundedCurves
import Verif.Props.RoundedMute
import Verif.Props.RoundedStack
import Verif.Props.ArrayViews
import Verif.Lemmas.Number

/-!
# C154: lags kept by the cross-correlation in binary64
-/

namespace Verif.Props.B64
open Verif Verif.B64 Verif.Spec

theorem rnd_abs (x : ℚ) : |rnd x| = rnd |x| := by
  rcases le_total 0 x with h | h
  · rw [abs_of_nonneg h, abs_of_nonneg (rnd_nonneg h)]
  · rw [abs_of_nonpos h, rnd_neg, abs_of_nonpos]
    have := rnd_mono h
    rwa [rnd_zero] at this

theorem minList_rnd (l : List ℚ) : Arr.minList (l.map rnd) = (Arr.minList l).map rnd := by
  rcases h : Arr.minList l with _ | m
  · cases l with
    | nil => rfl
    | cons x l => simp [Arr.minList] at h
  · obtain ⟨h1, h2⟩ := minList_spec h
    rcases h' : Arr.minList (l.map rnd) with _ | m'
    · cases l with
      | nil => cases h1
      | cons x l => simp [Arr.minList] at h'
    · obtain ⟨h3, h4⟩ := minList_spec h'
      obtain ⟨x, hx, rfl⟩ := List.mem_map.1 h3
      rw [Option.map_some, Option.some.injEq]
      exact le_antisymm (h4 _ (List.mem_map.2 ⟨m, h1, rfl⟩)) (rnd_mono (h2 x hx))

theorem maxList_rnd (l : List ℚ) : Arr.maxList (l.map rnd) = (Arr.maxList l).map rnd := by
  rcases h : Arr.maxList l with _ | m
  · cases l with
    | nil => rfl
    | cons x l => simp [Arr.maxList] at h
  · obtain ⟨h1, h2⟩ := maxList_spec h
    rcases h' : Arr.maxList (l.map rnd) with _ | m'
    · cases l with
      | nil => cases h1
      | cons x l => simp [Arr.maxList] at h'
    · obtain ⟨h3, h4⟩ := maxList_spec h'
      obtain ⟨x, hx, rfl⟩ := List.mem_map.1 h3
      rw [Option.map_some, Option.some.injEq]
      exact le_antisymm (rnd_mono (h2 x hx)) (h4 _ (List.mem_map.2 ⟨m, h1, rfl⟩))

theorem far_near {x v dt : ℚ} (hx : 0 ≤ x) (hv : 0 < v) (hdt : 0 < dt) (hb : x / v / dt ≤ 2 ^ 40) :
    |div (div (rnd x) v) dt - x / v / dt| ≤ 1 / 1024 := by
  have h1 : |rnd x - x| ≤ (g - 1) * x := by
    have := rnd_error x
    rw [abs_of_nonneg hx] at this
    unfold g; linarith
  have h2 : |rnd (rnd x / v) - x / v| ≤ (g * g - 1) * (x / v) := by
    refine rnd_near ?_ (by rw [abs_of_nonneg (by positivity)])
    rw [← sub_div, abs_div, abs_of_pos hv, ← mul_div_assoc]
    exact div_le_div_of_nonneg_right h1 hv.le
  have h3 : |rnd (rnd (rnd x / v) / dt) - x / v / dt| ≤ (g * g * g - 1) * (x / v / dt) := by
    refine rnd_near ?_ (by rw [abs_of_nonneg (by positivity)])
    rw [← sub_div, abs_div, abs_of_pos hdt, ← mul_div_assoc]
    exact div_le_div_of_nonneg_right h2 hdt.le
  refine le_trans h3 ?_
  calc (g * g * g - 1) * (x / v / dt) ≤ (g * g * g - 1) * 2 ^ 40 := mul_le_mul_of_nonneg_left hb (by norm_num [g])
    _ ≤ 1 / 1024 := by norm_num [g]

theorem near_near {x v dt : ℚ} (hx : 0 ≤ x) (hv : 0 < v) (hdt : 0 < dt) (hb : (x / v + 1 / 2) / dt ≤ 2 ^ 40) :
    |div (sub (div (rnd x) v) (1 / 2)) dt - (x / v - 1 / 2) / dt| ≤ 1 / 1024 := by
  have hq : 0 ≤ x / v := by positivity
  have h1 : |rnd x - x| ≤ (g - 1) * x := by
    have := rnd_error x
    rw [abs_of_nonneg hx] at this
    unfold g; linarith
  have h2 : |rnd (rnd x / v) - x / v| ≤ (g * g - 1) * (x / v) := by
    refine rnd_near ?_ (by rw [abs_of_nonneg (by positivity)])
    rw [← sub_div, abs_div, abs_of_pos hv, ← mul_div_assoc]
    exact div_le_div_of_nonneg_right h1 hv.le
  have hM : |x / v - 1 / 2| ≤ x / v + 1 / 2 := by rw [abs_le]; constructor <;> linarith
  have h3 : |rnd (rnd (rnd x / v) - 1 / 2) - (x / v - 1 / 2)| ≤ (g * g * g - 1) * (x / v + 1 / 2) := by
    refine rnd_near ?_ hM
    have e : rnd (rnd x / v) - 1 / 2 - (x / v - 1 / 2) = rnd (rnd x / v) - x / v := by ring
    rw [e]
    exact le_trans h2 (mul_le_mul_of_nonneg_left (by linarith) (by norm_num [g]))
  have h4 : |rnd (rnd (rnd (rnd x / v) - 1 / 2) / dt) - (x / v - 1 / 2) / dt| ≤
      (g * g * g * g - 1) * ((x / v + 1 / 2) / dt) := by
    refine rnd_near ?_ ?_
    · rw [← sub_div, abs_div, abs_of_pos hdt, ← mul_div_assoc]
      exact div_le_div_of_nonneg_right h3 hdt.le
    · rw [abs_div, abs_of_pos hdt]
      exact div_le_div_of_nonneg_right hM hdt.le
  refine le_trans h4 ?_
  calc (g * g * g * g - 1) * ((x / v + 1 / 2) / dt) ≤ (g * g * g * g - 1) * 2 ^ 40 :=
        mul_le_mul_of_nonneg_left hb (by norm_num [g])
    _ ≤ 1 / 1024 := by norm_num [g]

/-- **C154**.  Let the nearest receiver be at `near` and the farthest at `far` from the source, with reasonable sizes.  The
lags which are kept are, in binary64, those between `near/vmax - 0.5 s` and `far/vmin`, counted in samples of the source
signal and cut to whole numbers, up to one sample at either end; an end which is not close to a whole number of samples is
exact.  The first two arguments of the slice count from the number of samples of the source signal. -/
theorem C154_lags_binary64 (a : ArrSrc) (vmin vmax near far : ℚ) (hvmin : 0 < vmin) (hvmax : 0 < vmax)
    (hdt : 0 < a.source.dt) (hnear : ∃ s ∈ a.sensors, near = |a.source.src.x - s.x|)
    (hnear' : ∀ s ∈ a.sensors, near ≤ |a.source.src.x - s.x|) (hfar : ∃ s ∈ a.sensors, far = |a.source.src.x - s.x|)
    (hfar' : ∀ s ∈ a.sensors, |a.source.src.x - s.x| ≤ far) (hn : (near / vmax + 1 / 2) / a.source.dt ≤ 2 ^ 40)
    (hf : far / vmin / a.source.dt ≤ 2 ^ 40) :
    ∃ i j : ℤ, B64.sliceBounds a vmin vmax = .ok ((a.source.amp.length : ℤ) + i, (a.source.amp.length : ℤ) + j) ∧
      |i - cut ((near / vmax - 1 / 2) / a.source.dt)| ≤ 1 ∧ |j - cut (far / vmin / a.source.dt)| ≤ 1 ∧
      ((∀ n : ℤ, 1 / 1024 < |(near / vmax - 1 / 2) / a.source.dt - n|) →
        i = cut ((near / vmax - 1 / 2) / a.source.dt)) ∧
      ((∀ n : ℤ, 1 / 1024 < |far / vmin / a.source.dt - n|) → j = cut (far / vmin / a.source.dt)) := by
  have hoffs : (a.sensors.map fun s => |sub a.source.src.x s.x|) =
      (a.sensors.map fun s => |a.source.src.x - s.x|).map rnd := by
    rw [List.map_map]
    refine List.map_congr_left fun s _ => ?_
    exact rnd_abs _
  obtain ⟨s, hs, hs'⟩ := hnear
  obtain ⟨t, ht, ht'⟩ := hfar
  have hmin : Arr.minList (a.sensors.map fun s => |a.source.src.x - s.x|) = some near := by
    rcases h : Arr.minList (a.sensors.map fun s => |a.source.src.x - s.x|) with _ | m
    · rcases hl : a.sensors with _ | ⟨x, l⟩
      · rw [hl] at hs; cases hs
      · rw [hl] at h; simp [Arr.minList] at h
    · obtain ⟨h1, h2⟩ := minList_spec h
      obtain ⟨u, hu, rfl⟩ := List.mem_map.1 h1
      rw [h, Option.some.injEq]
      exact le_antisymm (hs' ▸ h2 _ (List.mem_map.2 ⟨s, hs, rfl⟩)) (hnear' u hu)
  have hmax : Arr.maxList (a.sensors.map fun s => |a.source.src.x - s.x|) = some far := by
    rcases h : Arr.maxList (a.sensors.map fun s => |a.source.src.x - s.x|) with _ | m
    · rcases hl : a.sensors with _ | ⟨x, l⟩
      · rw [hl] at hs; cases hs
      · rw [hl] at h; simp [Arr.maxList] at h
    · obtain ⟨h1, h2⟩ := maxList_spec h
      obtain ⟨u, hu, rfl⟩ := List.mem_map.1 h1
      rw [h, Option.some.injEq]
      exact le_antisymm (hfar' u hu) (ht' ▸ h2 _ (List.mem_map.2 ⟨t, ht, rfl⟩))
  have n0 : 0 ≤ near := hs' ▸ abs_nonneg _
  have f0 : 0 ≤ far := ht' ▸ abs_nonneg _
  refine ⟨pyInt (div (sub (div (rnd near) vmax) (1 / 2)) a.source.dt), pyInt (div (div (rnd far) vmin) a.source.dt), ?_, ?_⟩
  · unfold B64.sliceBounds
    simp only [hoffs, minList_rnd, maxList_rnd, hmin, hmax, Option.map_some, hvmin.ne', hvmax.ne', hdt.ne', or_self, if_false]
  · have p1 := pyInt_near (near_near n0 hvmax hdt hn)
    have p2 := pyInt_near (far_near f0 hvmin hdt hf)
    rw [pyInt_eq_cut ((near / vmax - 1 / 2) / a.source.dt)] at p1
    rw [pyInt_eq_cut (far / vmin / a.source.dt)] at p2
    exact ⟨p1.1, p2.1, p1.2, p2.2⟩

set_option maxRecDepth 10000 in
/-- One sample less: at 35 m, 50 m/s and 1 ms the slowest arrival is 700 samples late, 699 are kept after lag zero: the one sample
cannot be left out of the statement above.  (The array also meets its hypotheses, with `near = far = 35`.) -/
theorem C154_one_sample_less :
    let a : ArrSrc := ⟨[⟨⟨[0, 2, 1], rnd (1 / 1000), 1, 0, 1⟩, 35, 0, 0⟩], ⟨⟨0, 0, 0⟩, [1, 1], rnd (1 / 1000)⟩⟩
    B64.sliceBounds a 50 3000 = .ok (2 - 488, 2 + 699) ∧ (35 / 50 / (1 / 1000) : ℚ) = 700 := by
  decide +kernel

end Verif.Props.B64
