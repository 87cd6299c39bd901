import Verif.Model.ReadOptions
import Verif.Props.XCorrelate
import Verif.Props.Files

/-!
# C167: read options; C94: the type of the samples
-/

namespace Verif.Props
open Verif Spec Arr ArrSrc

/-! ### C167 -/

/-- **C167** (no options).  Without options the files are read as they are. -/
theorem C167_without_options (read : Option Kwargs → Fs) (fnames : List String) (mapX mapY : ℚ → ℚ) :
    fromFilesOpts read none fnames mapX mapY = fromFiles (read none) fnames mapX mapY := rfl

/-- **C167** (one file).  A single file is read with the options. -/
theorem C167_single_file (read : Option Kwargs → Fs) (opts : Option Kwargs) (f : String) (mapX mapY : ℚ → ℚ) :
    fromFilesOpts read opts [f] mapX mapY = fromFiles (read opts) [f] mapX mapY := by
  unfold fromFilesOpts fromFiles
  simp only [stackFiles]
  rfl

private theorem stackFiles_congr (fs fs' : Fs) (format : String) (mapX mapY : ℚ → ℚ) (src : Source) :
    ∀ (rest : List String) (ss : List Sensor), (∀ f ∈ rest, fs f = fs' f) →
      stackFiles fs format mapX mapY src ss rest = stackFiles fs' format mapX mapY src ss rest := by
  intro rest
  induction rest with
  | nil => intro ss _; rfl
  | cons f rest ih =>
    intro ss h
    have h1 : readFile fs f = readFile fs' f := by
      unfold readFile
      rw [h f (by simp)]
    have h2 := fun ss' => ih ss' (fun g hg => h g (by simp [hg]))
    unfold stackFiles
    rw [h1]
    simp only [h2]

/-- **C167** (partial).  If the options make no difference for the additional files, the call reads all files with the
options.  Missing: options which do make a difference, see `C167_options_fails`. -/
theorem C167_options_partial (read : Option Kwargs → Fs) (opts : Option Kwargs) (f0 : String) (rest : List String)
    (mapX mapY : ℚ → ℚ) (h : ∀ f ∈ rest, read opts f = read none f) :
    fromFilesOpts read opts (f0 :: rest) mapX mapY = fromFiles (read opts) (f0 :: rest) mapX mapY := by
  unfold fromFilesOpts fromFiles
  simp only [stackFiles_congr (read opts) (read none) _ _ _ _ rest _ h]
  rfl

/-- **C167** (what happens, partial).  What the additional files look like with the options does not matter. -/
theorem C167_others_unread_partial (read read' : Option Kwargs → Fs) (opts : Option Kwargs) (f0 : String)
    (rest : List String) (mapX mapY : ℚ → ℚ) (h0 : read opts f0 = read' opts f0)
    (h : ∀ f ∈ rest, read none f = read' none f) :
    fromFilesOpts read opts (f0 :: rest) mapX mapY = fromFilesOpts read' opts (f0 :: rest) mapX mapY := by
  have h1 : readFile (read opts) f0 = readFile (read' opts) f0 := by
    unfold readFile
    rw [h0]
  unfold fromFilesOpts
  simp only [h1, stackFiles_congr (read none) (read' none) _ _ _ _ rest _ h]

/-- `obspy.read` with `apply_calib=True`: the samples multiplied by the calibration factor of the file. -/
def calibrated (factor : ℚ) (fs : Fs) : Option Kwargs → Fs
  | some [("apply_calib", .bool true)] => fun n => (fs n).map fun ts =>
      ts.map fun t => { t with data := t.data.map fun x => factor * x }
  | _ => fs

/-- `apply_calib=True`. -/
def applyCalib : Option Kwargs := some [("apply_calib", .bool true)]

/-- **C167**: the property fails.  Two files read with `apply_calib=True`: the mean is taken of one calibrated and one
uncalibrated record. -/
theorem C167_options_fails :
    fromFilesOpts (calibrated 10 exFs) applyCalib ["a", "a"] id id = .ok
      ⟨[⟨⟨[11 / 2, 11], 1 / 1000, 2, 0, 1⟩, 0, 0, 0⟩, ⟨⟨[33 / 2, 22], 1 / 1000, 2, 0, 1⟩, 2, 0, 0⟩], ⟨-5, 0, 0⟩⟩ ∧
    fromFiles (calibrated 10 exFs applyCalib) ["a", "a"] id id = .ok
      ⟨[⟨⟨[10, 20], 1 / 1000, 2, 0, 1⟩, 0, 0, 0⟩, ⟨⟨[30, 40], 1 / 1000, 2, 0, 1⟩, 2, 0, 0⟩], ⟨-5, 0, 0⟩⟩ := by
  constructor <;> decide +kernel

example : ∃ a, fromFilesOpts (calibrated 10 exFs) applyCalib ["a"] id id = .ok a ∧
    (a.sensors.map fun s => s.ts.amp) = [[10, 20], [30, 40]] :=
  ⟨⟨[⟨⟨[10, 20], 1 / 1000, 1, 0, 1⟩, 0, 0, 0⟩, ⟨⟨[30, 40], 1 / 1000, 1, 0, 1⟩, 2, 0, 0⟩], ⟨-5, 0, 0⟩⟩,
    by decide +kernel, by decide +kernel⟩

example : ∀ f ∈ ["b", "a"], calibrated 1 exFs applyCalib f = calibrated 1 exFs none f := by
  decide +kernel

/-! ### C94 -/

private theorem foldl_floats : ∀ (rest : List Samples) (l : List ℚ),
    rest.foldl addSamples (.ok (.floats l)) =
      ((rest.map Samples.values).foldl addSignal (.ok l)).map Samples.floats := by
  have herr : ∀ (rest : List Samples) (e : PyErr), rest.foldl addSamples (.error e) = .error e := by
    intro rest e
    induction rest with
    | nil => rfl
    | cons a r ih => rw [List.foldl_cons]; exact ih
  have herr' : ∀ (rest : List (List ℚ)) (e : PyErr), rest.foldl addSignal (.error e) = .error e := by
    intro rest e
    induction rest with
    | nil => rfl
    | cons a r ih => rw [List.foldl_cons]; exact ih
  intro rest
  induction rest with
  | nil => intro l; rfl
  | cons s r ih =>
    intro l
    rw [List.foldl_cons, List.map_cons, List.foldl_cons]
    rcases h : addSignal (.ok l) s.values with e | m
    · rw [show addSamples (.ok (.floats l)) s = .error e by simp [addSamples, h], herr, herr']
      rfl
    · rw [show addSamples (.ok (.floats l)) s = .ok (.floats m) by simp [addSamples, h], ih]

/-- **C94** (types of the samples, partial).  If the first source record has floating point samples, the types of the
others do not matter: the result is that of the numbers.  Missing: integers in the first record, see
`C94_integers_fails`. -/
theorem C94_floats_partial (l : List ℚ) (rest : List Samples) :
    meanSamples (.floats l :: rest) = meanSignal (l :: rest.map Samples.values) := by
  unfold meanSamples meanSignal
  simp only [foldl_floats]
  rcases (rest.map Samples.values).foldl addSignal (.ok l) with e | m
  · rfl
  · simp only [Except.map, List.length_map]

/-- **C94** (integers, partial).  If the first source record has integer samples the call never returns an array. -/
theorem C94_integers_refused_partial (l : List ℤ) (rest : List Samples) :
    ∃ e, meanSamples (.ints l :: rest) = .error e ∧
      ((∀ s ∈ rest, ∀ m, s = .ints m → m.length = l.length ∨ m.length = 1) → e = .typeError) := by
  have key : ∀ (rest : List Samples) (acc : Except PyErr Samples),
      ((∃ m, acc = .ok (.ints m) ∧ m.length = l.length) ∨ ∃ e, acc = .error e) →
      (((∃ m, rest.foldl addSamples acc = .ok (.ints m)) ∨ ∃ e, rest.foldl addSamples acc = .error e) ∧
      ((∀ s ∈ rest, ∀ m, s = .ints m → m.length = l.length ∨ m.length = 1) →
        ((∃ m, acc = .ok (.ints m)) ∨ acc = .error .typeError) →
        ∀ e, rest.foldl addSamples acc = .error e → e = .typeError)) := by
    intro rest
    induction rest with
    | nil =>
      intro acc h
      refine ⟨?_, ?_⟩
      · rcases h with ⟨m, h, -⟩ | h
        · exact .inl ⟨m, h⟩
        · exact .inr h
      · rintro - (⟨m, rfl⟩ | rfl) e h
        · cases h
        · cases h; rfl
    | cons s r ih =>
      intro acc h
      have hstep : (∃ m, addSamples acc s = .ok (.ints m) ∧ m.length = l.length) ∨ ∃ e, addSamples acc s = .error e := by
        rcases h with ⟨m, rfl, hm⟩ | ⟨e, rfl⟩
        · rcases s with m' | m'
          · by_cases h1 : m'.length = m.length
            · exact .inl ⟨List.zipWith (· + ·) m m', by simp [addSamples, h1], by simp [h1, hm]⟩
            · by_cases h2 : m'.length = 1
              · exact .inl ⟨m.map (· + m'.getD 0 0), by
                  unfold addSamples
                  dsimp only
                  rw [if_neg h1, if_pos h2], by simp [hm]⟩
              · exact .inr ⟨_, by
                  unfold addSamples
                  dsimp only
                  rw [if_neg h1, if_neg h2]⟩
          · exact .inr ⟨_, rfl⟩
        · exact .inr ⟨e, rfl⟩
      obtain ⟨h1, h2⟩ := ih (addSamples acc s) hstep
      refine ⟨h1, fun hl hacc e he => ?_⟩
      refine h2 (fun t ht => hl t (by simp [ht])) ?_ e he
      rcases hacc with ⟨m, rfl⟩ | rfl
      · rcases s with m' | m'
        · have hm : m.length = l.length := by
            rcases h with ⟨k, hk, hk'⟩ | ⟨e, hk⟩
            · cases hk; exact hk'
            · cases hk
          have := hl (.ints m') (by simp) m' rfl
          rw [← hm] at this
          left
          unfold addSamples
          by_cases g : m'.length = m.length
          · exact ⟨List.zipWith (· + ·) m m', by simp [g]⟩
          · have g2 : m'.length = 1 := by tauto
            exact ⟨m.map (· + m'.getD 0 0), by dsimp only; rw [if_neg g, if_pos g2]⟩
        · exact .inr rfl
      · exact .inr rfl
  obtain ⟨h1, h2⟩ := key rest (.ok (.ints l)) (.inl ⟨l, rfl, rfl⟩)
  unfold meanSamples
  rcases h1 with ⟨m, h⟩ | ⟨e, h⟩
  · exact ⟨.typeError, by simp only [h], fun _ => rfl⟩
  · exact ⟨e, by simp only [h], fun hl => h2 hl (.inl ⟨l, rfl⟩) e h⟩

/-- **C94**: the property fails for records of integers, a single one included; and the order of the files matters. -/
theorem C94_integers_fails :
    meanSamples [.ints [1, 2, 3]] = .error .typeError ∧
    meanSamples [.ints [1, 2, 3], .floats [3, 4, 8]] = .error .typeError ∧
    meanSamples [.floats [3, 4, 8], .ints [1, 2, 3]] = .ok [2, 3, 11 / 2] := by
  decide +kernel

end Verif.Props
