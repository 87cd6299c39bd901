import Verif.Props.Looking
import Verif.Props.SlantMeanRun

/-! # C172: the picks of a slant stack change when the image is looked at -/

namespace Verif.Props
open Verif WT Workflow Builtin

/-- A pulse in the first sample only has the same spectrum at every frequency. -/
theorem fftPadded_first (x : ℚ) (k : ℕ) : fftPadded [x, 0] 4 k = (x : ℂ) := by
  unfold fftPadded fftBin
  have : ([x, 0] ++ List.replicate (4 - [x, (0 : ℚ)].length) 0).take 4 = [x, 0, 0, 0] := rfl
  rw [this]
  simp [Finset.sum_range_succ]

/-- **C172** (a record).  Two sensors recorded a pulse in the first sample, of opposite sign.  The image of the slant
stack has its peak at 2000 m/s at every frequency; after the normalization which is the default of `normalize` and
`plot` it has its peak at 4000 m/s at every frequency. -/
theorem C172_slantstack_fails : ∃ T s,
    Builtin.slantStack (fun a _ n => List.replicate n a) (slantRecord 1 [1, 0, 0, 0] [-8, 0, 0, 0]) slantSet = .ok T ∧
    T.frequencies = [0, 250, 500] ∧
    Builtin.findPeakPower T "frequency-maximum" = .ok [2000, 2000, 2000] ∧
    normalizeComplex (PowerImage.new T.power) "frequency-maximum" = (s, .ok ()) ∧
    Builtin.findPeakPower { T with power := s.power } "frequency-maximum" = .ok [4000, 4000, 4000] := by
  have hrows : slantStackOfArray (slantRecord 1 [1, 0, 0, 0] [-8, 0, 0, 0]) [2000, 4000] = .ok [[1, 0], [-3, 0]] := by
    decide +kernel
  obtain ⟨T, t1, t2, t3⟩ := slantRecord_transform 1 1 0 0 0 [-8, 0, 0, 0] _ hrows
  have hvel : T.velocities = [2000, 4000] := by
    have hv : velocitiesQ (fun a _ n => List.replicate n a) slantSet = .ok [2000, 4000] := by
      simp only [velocitiesQ, slantSet, exSet]
      norm_num [List.range_succ, show Int.toNat 2 = 2 from rfl]
    unfold Builtin.slantStack at t1
    simp only [hv, bind, Except.bind, hrows] at t1
    simp only [slantRecord] at t1
    split at t1
    · cases t1
    · simp only [pure, Except.pure, Except.ok.injEq] at t1
      rw [← t1]
      norm_num
  have hp : T.power = [[1, 1, 1], [-3, -3, -3]] := by
    rw [t3]
    simp [fftPadded_first]
  have hcell : ∀ r c z, cell [[(1 : ℂ), 1, 1], [-3, -3, -3]] r c = some z → (r = 0 ∧ z = 1) ∨ (r = 1 ∧ z = -3) := by
    intro r c z h
    rcases r with _ | _ | r <;> rcases c with _ | _ | _ | c <;> simp_all [cell]
  have hs : Shown T.power 2 3 := by
    rw [hp]
    refine ⟨rfl, ?_, by omega, by omega, ?_⟩
    · intro row hr; simp at hr; rcases hr with rfl | rfl <;> rfl
    · intro c hc
      refine ⟨0, 1, ?_, one_ne_zero⟩
      rcases c with _ | _ | _ | c
      · rfl
      · rfl
      · rfl
      · omega
  have hd : "frequency-maximum" ∈ normalizations := by decide
  obtain ⟨s, vs, h1, h2, h3, h4⟩ := C172_after_normalizing T.power 2 3 hs T.velocities (by rw [hvel]; rfl) []
    "frequency-maximum" (by simp) hd
  have h1' : normalizeComplex (PowerImage.new T.power) "frequency-maximum" = (s, .ok ()) := by
    obtain ⟨s', k1, -, -⟩ := normalizeComplex_step hs _ (new_modulus _) hd
    simp only [List.nil_append, runCalls, k1, Prod.mk.injEq, and_true] at h1
    rw [k1, h1]
  refine ⟨T, s, t1, t2, ?_, h1', ?_⟩
  · have : complexLt (1 : ℂ) (-3) = false := by
      simp [complexLt]; norm_num
    unfold Builtin.findPeakPower
    rw [hp, hvel]
    simp [findPeakBy, argmaxBy, argmaxFrom, this, bind, Except.bind, pure, Except.pure, List.range_succ]
  · have hat : ∀ c < 3, vs[c]? = some 4000 := by
      intro c hc
      obtain ⟨i, ⟨z, z1, z2, -⟩, i2⟩ := h4 c hc
      rw [hp] at z1 z2
      rcases hcell _ _ _ z1 with ⟨rfl, rfl⟩ | ⟨rfl, rfl⟩
      · have h3' : cell [[(1 : ℂ), 1, 1], [-3, -3, -3]] 1 c = some (-3) := by
          rcases c with _ | _ | _ | c
          · rfl
          · rfl
          · rfl
          · omega
        have := z2 1 (-3) h3'
        norm_num at this
      · rw [i2, hvel]; rfl
    unfold Builtin.findPeakPower
    rw [h2]
    congr 1
    rcases vs with _ | ⟨a, _ | ⟨b, _ | ⟨c, _ | ⟨d, vs⟩⟩⟩⟩ <;> simp at h3
    have e0 := hat 0 (by omega)
    have e1 := hat 1 (by omega)
    have e2 := hat 2 (by omega)
    simp at e0 e1 e2
    rw [e0, e1, e2]

end Verif.Props
