import Verif.Model.Workflow
import Verif.Lemmas.Workflow
import Verif.Props.Files
import Verif.Props.Snr

/-!
# Concrete runs of the workflows

Inputs on which the hypotheses of the theorems about workflows hold: a transform which looks at the first
sample of the first receiver, two files, and a user who picks two lines.
-/

namespace Verif.Props
open Verif Workflow

/-- A transform of one velocity and two frequencies: the first two samples. -/
noncomputable def firstSample : Arr → Settings → Except PyErr Transform :=
  fun a _ => .ok ⟨1, [0, 500], [200], [[(((a.sensors.flatMap fun s => s.ts.amp).getD 0 0 : ℚ) : ℂ),
    (((a.sensors.flatMap fun s => s.ts.amp).getD 1 0 : ℚ) : ℂ)]]⟩

/-- The surroundings: the files of `Props/Files.lean`, no detrending, a rectangular window, a user who picks
the first line at time 0 and the second at 0.001 s. -/
noncomputable def exEnv : Env :=
  ⟨exFs, id, id, id, fun _ n => List.replicate n 1,
    ⟨[[(0, 0)], [(2, 0)], [(0, 1 / 1000)], [(2, 1 / 1000)]], [none, none, none, none]⟩,
    [("first", firstSample)]⟩

/-- Settings for `exEnv`: no trimming, no muting, no padding, a signal-to-noise ratio. -/
def exSet : Settings :=
  ⟨false, 0, 1, false, "interactive", none, false, 1, 0, .pinf, "first", 100, 600, 100, 300, 1, "linear",
    none, true, 0, 1 / 1000, 0, 1 / 1000, false, 1⟩

/-- The file "a" as an array. -/
def exA : Arr :=
  ⟨[⟨⟨[1, 2], 1 / 1000, 1, 0, 1⟩, 0, 0, 0⟩, ⟨⟨[3, 4], 1 / 1000, 1, 0, 1⟩, 2, 0, 0⟩], ⟨-5, 0, 0⟩⟩

/-- The file "b" as an array. -/
def exB : Arr :=
  ⟨[⟨⟨[5, 6], 1 / 1000, 3, 0, 1⟩, 0, 0, 0⟩, ⟨⟨[7, 0], 1 / 1000, 3, 0, 1⟩, 2, 0, 0⟩], ⟨-5, 0, 0⟩⟩

theorem exA_read : fromFiles exEnv (.one "a") = .ok exA := by decide +kernel
theorem exB_read : fromFiles exEnv (.one "b") = .ok exB := by decide +kernel
theorem exA_check : check exA = .ok () := by decide +kernel
theorem exB_check : check exB = .ok () := by decide +kernel
theorem exA_near : trimOffsetsFl exA 0 .pinf = (exA, .ok ()) := by decide +kernel
theorem exB_near : trimOffsetsFl exB 0 .pinf = (exB, .ok ()) := by decide +kernel
theorem exA_window : copyWindow exA 0 (1 / 1000) = .ok exA := by decide +kernel
theorem exA_example : exampleArray exEnv exSet "a" = .ok exA := by decide +kernel
theorem exA_similar : exA.isSimilar exA = true := by decide +kernel
theorem exB_similar : exB.isSimilar exA = true := by decide +kernel

theorem exA_snr : ∃ q, WT.snr exA exA 100 600 false 1 = ((exA, exA), .ok q) := by
  have e : WT.keepIds (WT.binFrequencies 2 (500 : ℚ)) 100 600 1 = .ok [0, 1] := by decide +kernel
  have ed : (⟨[1, 2], 1 / 1000, 1, 0, 1⟩ : ATS).df = 500 := by decide +kernel
  have h := snrCore_eq (signal := exA) (noise := exA) (fmin := 100) (fmax := 600) (ids := [0, 1]) rfl rfl rfl
    (by rw [ed]; exact e)
  exact ⟨_, congrArg (Prod.mk (exA, exA)) h⟩

/-- A time-domain run on the file "a" which returns, with a signal-to-noise ratio. -/
theorem exTimeDomain : ∃ r, timeDomain exEnv exSet (.one "a") = .ok r ∧ r.array = exA ∧ r.snr.isSome := by
  obtain ⟨q, hq⟩ := exA_snr
  have hd : Workflow.detrend exEnv exA = exA := by decide +kernel
  refine ⟨⟨⟨1, [0, 500], [200], [[((1 : ℚ) : ℂ), ((2 : ℚ) : ℂ)]]⟩, exA, some q, ⟨exA, none, none, some exA, some exA⟩⟩, ?_, rfl, rfl⟩
  unfold timeDomain
  rw [exA_read]
  simp only [bind, Except.bind, exA_check, Workflow.trimOffsets, State.new, exSet, exA_near, call, pure,
    Except.pure, hd, selectNoise, exA_window, Option.isNone_none, Bool.and_self, if_true, trimTime,
    Bool.false_eq_true, if_false, Workflow.mute, selectSignal, calculateSnr, hq, Workflow.pad,
    Workflow.transform]
  rfl

theorem exA_empty : ∃ vels, Workflow.empty exA exSet = .ok ⟨0, [0, 500], vels, [[0, 0]]⟩ := by
  have e : WT.keepIds (WT.binFrequencies 2 (500 : ℚ)) 100 600 1 = .ok [0, 1] := by decide +kernel
  have ed : (⟨[1, 2], 1 / 1000, 1, 0, 1⟩ : ATS).dfInternal = 500 := by decide +kernel
  have eb : WT.binFrequencies 2 (500 : ℚ) = [0, 500] := by decide +kernel
  obtain ⟨v, hv⟩ : ∃ v, WT.createVector ((100 : ℚ) : ℝ) ((300 : ℚ) : ℝ) 1 "linear" = .ok v := by
    simp [WT.createVector]
  refine ⟨v, ?_⟩
  show (do
    let ids ← WT.keepIds (WT.binFrequencies 2 (⟨[1, 2], 1 / 1000, 1, 0, 1⟩ : ATS).dfInternal) 100 600 1
    let vels ← WT.createVector ((100 : ℚ) : ℝ) ((300 : ℚ) : ℝ) 1 "linear"
    return (⟨0, ids.map fun k => (WT.binFrequencies 2
      (⟨[1, 2], 1 / 1000, 1, 0, 1⟩ : ATS).dfInternal).getD k 0, vels,
      List.replicate 1 (List.replicate ids.length 0)⟩ : Transform)) = _
  rw [ed, e, eb, hv]
  rfl

/-- A frequency-domain run on the files "a" and "b" which returns: the mean of the two transforms. -/
theorem exFrequencyDomain : ∃ r, frequencyDomain exEnv exSet (.many ["a", "b"]) = .ok r ∧
    r.transform.frequencies = [0, 500] ∧ r.transform.power = [[3, 4]] ∧ r.snr.isSome := by
  obtain ⟨q, hq⟩ := exA_snr
  obtain ⟨v, hv⟩ := exA_empty
  have hd : Workflow.detrend exEnv exA = exA := by decide +kernel
  have hd' : Workflow.detrend exEnv exB = exB := by decide +kernel
  have fa : freqFile exEnv exSet exA none "a" = .ok (⟨exA, none, none, some exA, some exA⟩,
      ⟨1, [0, 500], [200], [[((1 : ℚ) : ℂ), ((2 : ℚ) : ℂ)]]⟩) := by
    unfold freqFile
    rw [exA_read]
    simp only [bind, Except.bind, exA_check, exA_similar, Workflow.trimOffsets, State.new, exSet, exA_near,
      call, pure, Except.pure, hd, selectNoise, exA_window, Option.isNone_none, Bool.and_self, if_true,
      trimTime, Bool.false_eq_true, if_false, Workflow.mute, selectSignal, Workflow.pad, Workflow.transform,
      Bool.not_true]
    rfl
  have fb : freqFile exEnv exSet exA (some ⟨exA, none, none, some exA, some exA⟩) "b" =
      .ok (⟨exB, none, none, some exA, some exA⟩,
        ⟨1, [0, 500], [200], [[((5 : ℚ) : ℂ), ((6 : ℚ) : ℂ)]]⟩) := by
    unfold freqFile
    rw [exB_read]
    simp only [bind, Except.bind, exB_check, exB_similar, Workflow.trimOffsets, exSet, exB_near,
      call, pure, Except.pure, hd', selectNoise, Option.isNone_some, Bool.and_false, if_true,
      trimTime, Bool.false_eq_true, if_false, Workflow.mute, selectSignal, Workflow.pad, Workflow.transform,
      Bool.not_true]
    rfl
  refine ⟨⟨⟨2, [0, 500], v, [[3, 4]]⟩, exB, some q, ⟨exB, none, none, some exA, some exA⟩⟩, ?_, rfl, rfl, rfl⟩
  have hc : exEnv.transforms.createClass exSet.transform = .ok firstSample := rfl
  have s1 : Workflow.stack ⟨0, [0, 500], v, [[0, 0]]⟩
      ⟨1, [0, 500], [200], [[((1 : ℚ) : ℂ), ((2 : ℚ) : ℂ)]]⟩ = .ok ⟨1, [0, 500], v, [[1, 2]]⟩ := by
    simp [Workflow.stack, stackRows, broadcast, bind, Except.bind, pure, Except.pure]
  have s2 : Workflow.stack ⟨1, [0, 500], v, [[1, 2]]⟩
      ⟨1, [0, 500], [200], [[((5 : ℚ) : ℂ), ((6 : ℚ) : ℂ)]]⟩ = .ok ⟨2, [0, 500], v, [[3, 4]]⟩ := by
    simp [Workflow.stack, stackRows, broadcast, bind, Except.bind, pure, Except.pure]
    norm_num
  have hl : freqLoop exEnv exSet exA none ⟨0, [0, 500], v, [[0, 0]]⟩ ["a", "b"] =
      .ok (some ⟨exB, none, none, some exA, some exA⟩, ⟨2, [0, 500], v, [[3, 4]]⟩) := by
    simp only [freqLoop, fa, fb, bind, Except.bind, s1, s2, lift]
  simp only [frequencyDomain, freqFiles, exA_example, hv, hc, bind, Except.bind, lift, hl]
  unfold calculateSnr
  simp only [exSet, if_true, hq]
  rfl

/-- As `exEnv`, with the file "a" named "file" and no other file. -/
noncomputable def exFileEnv : Env := { exEnv with fs := fun n => if n = "file" then exFs "a" else none }

/-- A frequency-domain run on this file alone. -/
theorem exFrequencyDomain_one : ∃ r, frequencyDomain exFileEnv exSet (.many ["file"]) = .ok r := by
  obtain ⟨q, hq⟩ := exA_snr
  obtain ⟨v, hv⟩ := exA_empty
  have hread : fromFiles exFileEnv (.one "file") = .ok exA := by decide +kernel
  have hex : exampleArray exFileEnv exSet "file" = .ok exA := by decide +kernel
  have hd : Workflow.detrend exFileEnv exA = exA := by decide +kernel
  have fa : freqFile exFileEnv exSet exA none "file" = .ok (⟨exA, none, none, some exA, some exA⟩,
      ⟨1, [0, 500], [200], [[((1 : ℚ) : ℂ), ((2 : ℚ) : ℂ)]]⟩) := by
    unfold freqFile
    rw [hread]
    simp only [bind, Except.bind, exA_check, exA_similar, Workflow.trimOffsets, State.new, exSet, exA_near,
      call, pure, Except.pure, hd, selectNoise, exA_window, Option.isNone_none, Bool.and_self, if_true,
      trimTime, Bool.false_eq_true, if_false, Workflow.mute, selectSignal, Workflow.pad, Workflow.transform,
      Bool.not_true]
    rfl
  refine ⟨⟨⟨1, [0, 500], v, [[1, 2]]⟩, exA, some q, ⟨exA, none, none, some exA, some exA⟩⟩, ?_⟩
  have hc : exFileEnv.transforms.createClass exSet.transform = .ok firstSample := rfl
  have s1 : Workflow.stack ⟨0, [0, 500], v, [[0, 0]]⟩
      ⟨1, [0, 500], [200], [[((1 : ℚ) : ℂ), ((2 : ℚ) : ℂ)]]⟩ = .ok ⟨1, [0, 500], v, [[1, 2]]⟩ := by
    simp [Workflow.stack, stackRows, broadcast, bind, Except.bind, pure, Except.pure]
  have hl : freqLoop exFileEnv exSet exA none ⟨0, [0, 500], v, [[0, 0]]⟩ ["file"] =
      .ok (some ⟨exA, none, none, some exA, some exA⟩, ⟨1, [0, 500], v, [[1, 2]]⟩) := by
    simp only [freqLoop, fa, bind, Except.bind, s1, lift]
  simp only [frequencyDomain, freqFiles, hex, hv, hc, bind, Except.bind, lift, hl]
  unfold calculateSnr
  simp only [exSet, if_true, hq]
  rfl

/-- As `exSet`, with muting and padding. -/
def exMuteSet : Settings := { exSet with muteApply := true, padApply := true, padDf := 250 }

/-- The file "a" muted between the lines picked. -/
def exM : Arr :=
  ⟨[⟨⟨[1, 0], 1 / 1000, 1, 0, 1⟩, 0, 0, 0⟩, ⟨⟨[3, 0], 1 / 1000, 1, 0, 1⟩, 2, 0, 0⟩], ⟨-5, 0, 0⟩⟩

/-- ... and padded. -/
def exP : Arr :=
  ⟨[⟨⟨[1, 0, 0, 0], 1 / 1000, 1, 0, 1⟩, 0, 0, 0⟩, ⟨⟨[3, 0, 0, 0], 1 / 1000, 1, 0, 1⟩, 2, 0, 0⟩], ⟨-5, 0, 0⟩⟩

/-- A time-domain run with muting, padding and a signal-to-noise ratio. -/
theorem exMuted : ∃ r, timeDomain exEnv exMuteSet (.one "a") = .ok r ∧ r.array = exP ∧ r.snr.isSome := by
  have hq : ∃ q, WT.snr exM exA 100 600 false 1 = ((exM, exA), .ok q) := by
    have e : WT.keepIds (WT.binFrequencies 2 (500 : ℚ)) 100 600 1 = .ok [0, 1] := by decide +kernel
    have ed : (⟨[1, 2], 1 / 1000, 1, 0, 1⟩ : ATS).df = 500 := by decide +kernel
    have h := snrCore_eq (signal := exM) (noise := exA) (fmin := 100) (fmax := 600) (ids := [0, 1]) rfl rfl
      rfl (by rw [ed]; exact e)
    exact ⟨_, congrArg (Prod.mk (exM, exA)) h⟩
  obtain ⟨q, hq⟩ := hq
  have hd : Workflow.detrend exEnv exA = exA := by decide +kernel
  let l1 : Arr.Line := ⟨0, 0, 2, 0⟩
  let l2 : Arr.Line := ⟨0, 1 / 1000, 2, 1 / 1000⟩
  have hi : interactive exEnv ⟨exA, none, none, some exA, none⟩ =
      .ok ⟨exM, some l1, some l2, some exA, none⟩ := by decide +kernel
  have hw : copyWindow exM 0 (1 / 1000) = .ok exM := by decide +kernel
  have hp : exM.zeroPad 250 = (exP, .ok ()) := by decide +kernel
  refine ⟨⟨⟨1, [0, 500], [200], [[((1 : ℚ) : ℂ), ((0 : ℚ) : ℂ)]]⟩, exP, some q,
    ⟨exP, some l1, some l2, some exA, some exM⟩⟩, ?_, rfl, rfl⟩
  unfold timeDomain
  rw [exA_read]
  simp only [bind, Except.bind, exA_check, Workflow.trimOffsets, State.new, exMuteSet, exSet, exA_near, call,
    pure, Except.pure, hd, selectNoise, exA_window, Option.isNone_none, Bool.and_self, if_true, trimTime,
    Bool.false_eq_true, if_false, Workflow.mute, hi, selectSignal, hw, calculateSnr, hq, Workflow.pad, hp,
    Workflow.transform]
  rfl

end Verif.Props
