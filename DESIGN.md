# Formal model of swprocess

Lean 4 (4.33.0) with Mathlib, Lake project in `lean/`.

## 1. How the model is organised

| directory | content |
|---|---|
| `lean/Verif/Py/` | the part of Python/numpy semantics the code relies on: exceptions as values, IEEE-like special values, half-even rounding, truncation, slices, insertion-ordered dictionaries, first-index `argmin`/`argmax` |
| `lean/Verif/Model/` | the functions of `/repo/swprocess`, one definition per function, branch by branch; every definition cites file and lines |
| `lean/Verif/Spec/` | small independent specifications (no model helper is used in them) |
| `lean/Verif/Lemmas/` | helper lemmas, invariants |
| `lean/Verif/Props/` | the property theorems, named after the property, each followed by a concrete non-trivial instance of its hypotheses |

Conventions

* A Python method that may raise is a function into `Except PyErr _`. A method
  that mutates its object and may raise *after* having mutated it returns both
  the new state and the outcome, so that "nothing changed" is a statement with content.
* A property which the code does not satisfy is kept in `properties.jsonl` as the user
  would state it.  For it there is a theorem ending in `_fails` or `_counterexample` (the
  negation, with a concrete witness) and a theorem ending in `_partial` with the
  strongest positive statement that was proved.  In `MANIFEST.json` such a
  property is `partial`.
* Section 4 lists all disagreements between the code and its properties.

## 2. Trusted base

1. Lean 4.33.0's kernel.
2. Axioms: only `propext`, `Classical.choice`, `Quot.sound` (the ones Mathlib uses).
   No own axioms, no `sorry`, no `native_decide`, no `bv_decide`.
   `lean/Verif/Audit.lean` prints the axioms of every property theorem during the build.
3. The reading of the Python code: every model definition cites the lines it
   models.  The correspondence is by reading; nothing is extracted or executed.

### What is modelled differently from the code

* **Numbers.** Finite floats are modelled as exact rationals (`ℚ`; every finite float64 is a
  rational) and in most of the model arithmetic is exact.  Rounding is modelled separately, in
  `Py/Float64.lean` (`B64.rnd`: nearest number with 53 bits, ties to even, exponent unbounded), `Model/Rounded.lean` and
  `Model/RoundedCurves.lean`, which repeat with rounding after every operation those functions in which a rounded number decides something (an
  index, a count, a threshold, a place in a file): zero padding, trimming, mute lines, selection of frequencies, the slant stack, spacing,
  SU coordinates, dropping of incomplete data, regions, lags kept by the cross-correlation, limits on derived values of peaks;
  and stacking and the means of statistics.  C66, C129 to C137 and C154 to C156 are about these.
  Overflow and subnormal numbers are **not** modelled.
  `np.pi` is the rational number that float64 stores.  Where NaN or infinities matter (peaks,
  statistics, normalisation) the type `Fl` has `nan`, `-inf`, `+inf` with IEEE comparison rules;
  the sign of zero is not modelled (`x/0` is `+inf` for `x>0`, `-inf` for `x<0`, `nan` for `0/0`).
  Spectral code (`exp`, FFT) is modelled over `ℝ`/`ℂ` with the FFT as the DFT sum.
* **numpy arrays** are lists (or lists of rows); dtype conversions of well-typed inputs are
  identities.  Sharing of arrays between objects is modelled only where a property is about it.
* **External libraries** are specified, not verified:
  `sigpropy.TimeSeries` (`dt`, `nsamples`, `df=1/(nsamples*dt)`, `time=arange(n)*dt`, `trim` with its bounds
  check and nearest-index slice `[start:end+1]`, `detrend`), `scipy.signal.correlate` (full
  correlation), `scipy.signal.windows.tukey` (length and values in [0,1]), `scipy.interpolate.interp1d` (linear
  interpolation on sorted abscissae, NaN outside, ValueError for no points), `obspy` (file reading and
  writing as a map from names to traces, SU header fields as integers), `json` (exact
  round trip of nested lists of floats incl. NaN), `numpy.random` (an arbitrary stream of draws),
  `re` (a backtracking matcher for the fragment used: classes, `?`, `*`, `+`, sequence, alternation, groups;
  characters outside ASCII are not letters or digits of `\d`, `\s`, `\S`),
  matplotlib (an arbitrary stream of user events; an axes object is the list of the lines drawn on it, a legend the
  labels among them that are not empty and do not begin with an underscore), `np.fft.fft`, `np.linalg.inv` (matrix inverse; singular raises).
* **Plotting** is modelled as far as what is drawn where (`Model/Draw.lean`: `waterfall`, `Peaks.plot`,
  `PeaksSuite.plot`, `plot_resolution_limits`, `AbstractWavefieldTransform.plot`).  Colours, markers, tick marks, colour bars, axes labels
  and scales are not modelled.  `Model/Schematic.lean` has what `Array1D.plot` and `plot_snr` draw, `Model/Lines.lean` the
  near-field line and `plot_statistics`.
* **Not modelled at all**: logging and warnings, deprecated aliases, `spaccurve.py`, `spaccurvesuite.py` (entirely commented out),
  commented-out code.  `scipy.optimize.curve_fit` is an arbitrary function which refuses values that are not finite.

## 3. Plan per property

Status of each property is in `MANIFEST.json`; this table says what is modelled and how it is proved.

| id | modelled by | proof |
|---|---|---|
| C01 | `ActiveTimeSeries.stackAppend` folded over a history | induction on the history with the invariant nstacks·amp = Σ nᵢ·aᵢ; permutation invariance of sums |
| C02 | state-and-outcome version of `stack_append` | case analysis on similarity |
| C03 | `zeroPad` branch by branch | case analysis on N vs nsamples, `Nat` div/mod arithmetic |
| C04 | `zeroPad` returns state and outcome | counterexample (multiple is reset before the check); partial: samples unchanged |
| C05 | fold of `zeroPad` | induction over requests; postcondition of the last request |
| C06 | `trim` with nearest-index search | on-grid: exact; off-grid: counterexample and dt/2 bound |
| C07 | operation language over records | counterexample by trim(start>0); partial: invariant without such trims |
| C08 | `fromActiveTimeSeries`, `fromSensor1C`, `fromArray1D` | counterexamples (padded, trimmed); partial: exact characterisation of when the copy is faithful |
| C09 | `crosscorrShift` over full correlation | argmax property; correlation of shifted record = correlation coefficient at lag |
| C10 | `fromCrossStack`, of records and of sensors | length computation for both shift directions, C01 step; fails for sensors (missing arguments) |
| C11 | `isSimilar` with exclusion predicate | relational reasoning |
| C12 | `eq` with `allclose` | counterexamples for symmetry and transitivity; partial: reflexive, exact symmetric core |
| C13 | SU/SEGY header parse incl. `round(x, nd)` | exactness of rounding on powers of ten; counterexample for y with positive scalar |
| C14 | `fromTrace` | case analysis |
| C15 | `safelyGetHeader` | case analysis; totality |
| C16 | `checkArray` | insertion/merge sort permutation and sortedness; uniqueness of strictly sorted permutations |
| C17 | operation language over arrays | invariant by induction over operations |
| C18 | `trimOffsets` loop with `break` | counterexample (source on the far side); partial: exact for source at or left of the array, or no upper limit |
| C19 | `trimOffsets` | case analysis |
| C20 | `flippedTseriesAndOffsets` | monotonicity of the absolute value; counterexample at the boundary |
| C21 | same | reflection lemma |
| C22 | `mute` with arbitrary window function with values in [0,1] | index lemma for slice assignment |
| C23 | `mute` | counterexample (last sample is always muted); partial |
| C24 | `timeseriesMatrix` over `Fl` | max lemmas |
| C25 | `kres`, `spacing` | arithmetic |
| C26 | `fromFiles` over an abstract file system | induction over files; counterexample for non-identity map |
| C27 | `toFile`, `fromFiles` | round-trip lemma for `rint`; counterexamples for nstacks and sub-millisecond delays |
| C28 | `fromFiles` | counterexample (zip truncation); partial for equal channel counts |
| C29 | `isSimilar`, `eq` on arrays | relational reasoning |
| C30 | `xcorrelate` index arithmetic with Python slices | lag of output sample computed; counterexample |
| C31 | `ginputSession` as a function of an event stream | induction on events |
| C32 | `interactiveMute` on the event stream | counterexample; partial |
| C33–C38 | `Peaks` with `Fl` matrices and masks | pointwise lemmas on masks, induction over rejection lists, scan lemma for argmax |
| C39, C40, C46 | file system map, ordered dictionaries | round trip by induction over members; a missing file ends the call |
| C41 | `from_dict` returning the mutated dictionary | counterexample; partial without "valid" |
| C42 | write as truncate+write steps | counterexample at the crash point; partial: crash between member writes |
| C43 | `eq` with broadcasting `allclose` | counterexamples; partial |
| C44 | `Fl` division | field arithmetic |
| C45, C47, C48 | `PeaksSuite` operations | invariant by induction |
| C49 | `calcResolutionLimits` over ℚ/ℝ | field arithmetic for each combination |
| C50 | session as fold over boxes and answers | refinement to "confirmed boxes" specification |
| C51 | `toArray` with linear interpolation | interval lemmas |
| C52, C53 | `drop` | sublist lemmas; counterexample for >100 samples |
| C54, C55 | `statistics` | arithmetic over filtered lists |
| C56 | in-place swap loop | loop invariant |
| C57, C58 | greedy loops with fuel equal to the code's bounds | loop invariant; counterexample |
| C59 | `fillData` with a stream of draws | induction |
| C60 | constructor | direct |
| C61, C62 | `createVector`, `frequencyKeepIds` | arithmetic, argmin lemma |
| C63 | `normalize` over `Fl` | induction over calls; counterexample with zero column |
| C64 | `stack` | as C01 |
| C65 | `findPeakPower` | argmax lemma |
| C66, C67 | `slantStack` with the incremental column index; C66 also `B64.slantStack` | floor monotonicity; loop invariant; with rounding exactly when the last delay is rounded up to another sample: an iff, a partial theorem and a refutation |
| C68–C71 | transforms over ℂ | triangle inequality, Cauchy–Schwarz-type bound |
| C72 | `FK.from_array` with settings as state | counterexample; partial |
| C73 | registry as ordered dictionary | induction over registrations |
| C74, C75 | `fromArray1ds` | counterexample with multiple 2; partial; DFT linearity |
| C76–C81 | workflows as programs over an abstract array with a trace of calls | refinement to step lists |
| C82, C83 | `Matrix` over ℝ | matrix algebra, positive semidefinite order |
| C84, C85 | hour loop, output map | induction; counterexample |
| C86–C88 | version gate, wave type validation and detection, per-file loop, on the texts of the files | characterisation of the matches of each pattern; counterexamples |
| C89 | `preparePlotKwargs`, `prepareTypes` | induction |
| C90 | operation language over arrays, frequency step of every sensor | invariant by induction; counterexample after a refused `zero_pad` |
| C91, C92 | `mute` as state and outcome, window indices from the boundary lines | loop invariant over sensors; floor arithmetic; counterexamples |
| C93 | `autoPickFirstArrivals` | first-index lemma |
| C94 | source signal of `SourceSignal` arrays from files; `meanSamples` with the type of the samples | induction over files, permutation of sums; counterexamples by broadcasting and by integer samples |
| C95 | source coordinates of `fromFiles` | case analysis on the scalar; counterexample for SEGY |
| C96 | programs over a store of `Peaks` objects and suites of references (`Model/SuiteHeap`) | invariant by induction over statements; frame and refinement to suites of values; counterexample |
| C97 | `normalize` as state and outcome | case analysis; counterexample |
| C98 | `findPeakPower` on complex power (lexicographic order of numpy) | counterexample; partial for real non-negative power |
| C99 | `fromArray1ds` of the signal-to-noise ratio with padding | arithmetic of padded lengths; counterexample |
| C100–C103 | workflows as programs | refinement, comparison of two runs; counterexamples |
| C104 | `.max` parsing: backtracking regular expressions, `_parse_peaks`, `from_max` | `Re.run` is sound and complete for the grammar `Parse` (`Spec/Regex.lean`); `findall` works line by line; which lines match; table built column by column equals the specified grid |
| C105, C106 | `Draw.waterfall` (curves and axes limits) | positions and divisors specified in `Spec/Draw.lean`; sums of spacings; counterexamples for uneven spacing and one sensor |
| C107 | `Draw.manualPick` on `Interact` | refinement to the last points of the user's selections |
| C108, C109 | `Draw.plotPeaks`, `Draw.plotSuite` | induction over types and members; each line `Shows` the marked peaks |
| C110 | legend of the drawn lines | invariant: all new axes share one legend; counterexamples on axes of the caller |
| C111 | `Draw.plotResolution` | from C49 |
| C112, C113 | `Draw.plotTransform` in a history of plots and normalizations | invariant: the stored factor recovers the magnitudes; counterexamples (plotting normalizes in place) |
| C114 | `WT.phaseShift`, `WT.fdbf`, `WT.fk`, `WT.findPeakBy`, `Workflow.timeDomain` | from records with a delayed pulse (`Spec.CarriesPulse`) to spectra with linear phase, strict triangle inequality for the maximum, carried through selection, detrending, trimming and padding |
| C115, C116 | `Spac.getRatio`, `Spac.ringRe` | texts as lists of lines (`Spec/Spac.lean`); parses of the pattern against fields between spaces, first alternative of backtracking for the last number; counterexamples for times which end like others and for times with an exponent |
| C117 | `Builtin.phaseShift`, `Builtin.fdbf`, `Builtin.slantStack` | powers by Fourier components at frequencies in Hz (`Spec/Power.lean`), without bins; beamforming as a sum over the sensors in any order; zero padding of the stack |
| C118 | `WT.spatialWeight` | corollary of C117 for a wave with a gain for each receiver; the code weights by the offset and not by its root: refutation with two receivers. That "sqrt" means balance is our reading of the name, the project does not say so |
| C119 | the same | common factors of the spectra pulled out of both transforms; a common delay is a rotation of zero-ended records; mirror image by C21. Slant stack: gain by linearity of every step, mirror by C21; its common delay is in C128 |
| C120 | `MaxFile.processOf`, `MaxFile.nmaximaOf` | first place of a key with a value (`Spec/MaxHeader.lean`); leftmost match and greedy repetition; used to state C104 with the header read from the text |
| C121 | `ATS.fromTrace`, `ATS.fromTraceSeg2`, `Sensor.fromTraceSeg2` | headers as lists of fields; both directions of each case; sensors inherit the SEG2 reader and give it to a `from_trace` which reads the header of the trace's own format: counterexample |
| C122 | `Draw.schematic` | C25 for the spacing, lookups in merged options; reversed axes are a counterexample |
| C123 | `Draw.plotSnr`, the four workflows | C62 for the bins; the steps of each workflow do not change what the ratio step has left |
| C124 | `Suite.statisticsCorr`, `Mat.corrEntry` | Pearson's coefficient (`Spec/Correlation.lean`) on the data of C54; Cauchy-Schwarz for the bounds (the code clips to them); members which have one value only spoil the coefficient: counterexample |
| C125 | `Statistics.fillCorr` | induction over the rows; the mask is taken from the locations and not from the coefficients, so every matrix with something to fill is refused |
| C126, C127 | `Draw.nearfieldLine`, `Draw.plotStatistics` | arithmetic of the line against mean distance and wavelength; C54 for means and deviations |
| C128 | `WT.slantStackOfArray`, `Builtin.slantStack`, `Builtin.findPeakPower` | C67 with travel times of whole samples: interpolation is exact there, trapezoidal sums of a constant and of bounded values; refutation with a pulse over two receivers whose component has a negative real part; for the magnitudes, the transform of a sum of delayed copies is a sum of rotated components, strictly largest in magnitude only where all rotations agree |
| C129, C130 | `B64.zeroPad`, `B64.keepIds` | relative errors of products and quotients (`Rel`), stability of rounding to the nearest integer and of the nearest bin |
| C131 | `B64.stackAppend` folded over a history | invariant: error of the weighted sum against the weighted sum of absolute values |
| C132, C133 | `B64.toMillimetres`, `B64.fromMillimetres`, `B64.spacing` | error bounds against half a unit of the last decimal |
| C134 | `B64.drop`, `B64.identifyRegions` | distinct fractions of small numbers are apart by more than their errors, and rounding is monotone |
| C135 | `B64.trim` | computed times of samples are closer to their own than to any other; exactly when the end is refused; refutation for the last sample |
| C136 | `B64.lineIndices` | relative errors of the slope, absolute error in samples, stability of truncation; refutation for a line through a sample |
| C137 | `B64.slantStack` | errors of index, interpolation, trapezoid and sum; interpolation is Lipschitz, so that a different sample pair does no harm |
| C138 | `statisticsCorr` | every column of the table is a permutation; sums, counts and products are invariant under it |
| C139 | `fromFiles` | the weighted mean of two stacks commutes, then induction over the channels, the files and the permutation; a witness for the files where the first one matters |
| C140 | `Suite.eq` | member by member; with `C43` and `C46` for the suite which was saved; counterexample with an attribute of the user's own |
| C141 | `Suite.rejectLimits`, `rejectBox`, `toJson`, `fromJson` | invariant over histories: what is in memory and what is in the file can be saved |
| C142 | `Crash.saveStates` (the states of the file during a save) | closed form of the list of states by induction over the members; the last state is the one of the complete call; it fails: unreadable and shortened states |
| C143 | `Peaks.raw`, `get`, `rejectLimits`, `rejectBox`, `simplify`; `Suite.statisticsCorr` | every step commutes with the change of units (`Spec/Units.lean`): comparisons by positivity, interpolation and means by linearity, standard deviations and correlations over ℝ |
| C144 | `Builtin.phaseShift`, `fdbf`, `slantStack`, `findPeakPower` | lags `x/v` do not change; the trapezoidal sums and the weights are homogeneous in the offsets; a positive factor keeps the order of the powers |
| C145 | `Concurrent.step`, `run`: programs which read and then write one file, under any schedule | invariants over all schedules for what stays; a losing schedule for any two programs; agreement with `Peaks.toJson` for a program not interrupted |
| C146 | `ATS.trim`, `zeroPad`, `stackAppend`, `Arr.trim`, `zeroPad`, `mute`, `pickOnThreshold`, `Builtin.phaseShift`, `fdbf`, `slantStack`, `findPeakPower` | each is shown to commute with multiplying the times; `np.geomspace` is asked to commute too |
| C147 | `extract_mseed` as the list of states the output directory goes through (folder made, file opened, file complete, row by row); the hourly files are not among the files written | induction over the rows: every state is that of a prefix plus at most one begun row; a second run overwrites whatever the first may have left, so it agrees with a run from the earlier directory; witness that an earlier complete file can be lost |
| C148 | arrays as lists of references into a common store of sensors; constructor, copies and methods on references (sensors' samples are owned: sigpropy copies them) | invariant: no array has a sensor twice, no two arrays share one; refinement of every statement to the array as a value, induction over programs; frame theorem for any state |
| C149 | reading and rejecting with numpy's rules for one-dimensional arrays of different lengths (masks of another length, broadcasting of one entry) | agreement with the main model for equal lengths; case analysis; the constructor does not compare lengths, a single frequency is used for every velocity (`_fails`) |
| C150 | the whole runs `timeDomain`, `single`, `frequencyDomain`, `xcorr` with the registered transforms, files read through `map_x`/`map_y` | every step commutes with the change of coordinates (induction over sensors, files, picks); additional files of the time-domain workflow are outside, they are read without the mappings (C26) |
| C151 | `xcorr` of `Model/Workflow.lean` | refinement in both directions to a relational description of the steps |
| C152 | `Workflow.xcorr`, `ArrSrc.xcorrelate`, the transforms | correlation of a delayed pulse is a delayed wavelet; spectrum of a correlation is a product; slices which hold the wavelet; then as C114 |
| C153 | `ArrSrc.xcorrelate` | refuted for every pair of intervals; what the interval is used for is proved (`_partial`) |
| C154 | `B64.sliceBounds` | error bound of the chain of rounded operations, `int()` near a whole number; minimum and maximum commute with rounding |
| C155 | `B64.nanmean`, `B64.nanvar` over any tree of additions (`Additions`) | induction over the tree; refuted in general, proved for values with few digits |
| C156 | `B64.rejectLimits`, `B64.rejectBox` | rounding is monotone and fixes the limits |
| C157 | `Workflow.frequencyDomain`, `Builtin.phaseShift`/`fdbf`/`fk`, `Builtin.findPeakPower` | C78 (mean of the transforms of the files) and, for every file, the strict inequality between the row of the velocity and every other row shown for C114; sums of strict inequalities |
| C158 | `Workflow.describe`, `Workflow.timeDomain`, `single`, `frequencyDomain`, `xcorr` | the lines are read as steps (`Spec.stepOfLine`), a step is a relation between states of the work (`Spec.Performs`); C76, C78 and C151 give the chain of steps; refutation with a record trimmed to four samples |
| C159 | `Peaks.extendedAttrs`, `get`, `raw` | `C159_listed` characterises the list and shows an unlisted name raises; `C159_documented_partial`: a listed attribute with one of the nine documented names is read for exactly the remaining peaks; `C159_other_names_fails`: any other keyword of the constructor is listed and can be used to reject, but reading it raises AttributeError |
| C160 | `Arr.mute`, `timeDomain`, `Builtin` transforms | `Separated` says what is wave and what is not, in times of samples and lines; `C160_mute_leaves_wave` and `C160_off_lines_irrelevant` by evaluating every record's window (zero off the lines, one past the tapers); `C160_run_recovers` composes with the steps of a run and the recovery of a velocity (C114); `C160_stack_recovers` does so for a frequency-domain run over any number of noisy shots muted between the lines of the first one. Assumed of `tukey`: requested length and ones between tapers of `alpha / 2` of it each |
| C161 | Histories of stack and normalize calls on a transform holding its power and the stored factor (`Growing`, `GrowOp`) | False in general: after a normalization later records count with the maximum (general statement and a case where the peak moves); proved for looks without normalization before, any looks after the last stack (C64 + C63 over histories) |
| C162 | `timeDomainAgain`, `frequencyDomainAgain`, `xcorrAgain`: `run` with the attributes of the last run | False in general: another file gets the old signal-to-noise ratio, and muting uses the window settings only from the second run on (general description of a second run, two cases); proved for the same files and settings with the default mute window, for any number of runs of each of the three workflows (padding of the kept windows is idempotent); from the second run on the result no longer changes (all three workflows) |
| C163 | Builtin `phaseShift`, `fdbf`, `fk`, `findPeakPower` on the array with other samples (`withSamples`); noise measured at a frequency against the spectrum (`CloseAt`) | Normalised spectra differ by at most 2 eps, the trapezoidal integral is bounded by the length of the array, sums by the triangle inequality; for a plane wave the image is the response of the array, whose maximum is its length |
| C164 | Builtin transforms and `Arr.kres` | On a grid the steering vectors of two such velocities differ by one factor of magnitude one, which the magnitude removes; the argmax is the first of equal values; below the limit two sensors at the smallest spacing tell the velocities apart (C114 with C25) |
| C165 | `Suite.statistics`, `Suite.toArray` | from C51 and C54: a chord above a convex function, Popoviciu's bound for the squared deviations |
| C166 | `timeDomain`, `Builtin.findPeakPower`, `Peaks.init`, `Suite.fromPeaks`, `Suite.rejectLimits`, `Suite.statistics` | composition of C114 (the run shows the velocity), C45 (the suite), the effect of the limits on the points, and statistics of complete data (no entry missing, so nothing dropped; a constant is interpolated to itself); for mixtures of workflows C152, C157 and C160 take the place of C114 |
| C167 | `fromFilesOpts`: `obspy.read` as a map from options and names to traces | counterexample (options are not passed on for additional files); partial: congruence of the loop over additional files |
| C168 | `Mat.attempts`, `Mat.replaceGaps`; the random source is a parameter, the bounds 0.05 and 0.01 are exact | regions one after the other with C59 for each; resetting a filled matrix gives the recorded one; induction on the attempts; the statistics handed on are those of the recorded values |
| C169 | `Mat.putCorrs`; uninitialised memory is a parameter | counterexamples (more observations than samples; memory between regions); partial: shapes that fit, coefficients of a square region on the diagonal are those of the data after replacement, square data return exactly if every two samples have a coefficient, dropping first changes nothing else |
| C170 | `timeDomain`, `frequencyDomain`, `Builtin.slantStack`, `Arr.fromFiles`; detrending is any linear operation on the samples | every pre-processing step keeps weighted means of records of one shape (`KeepsMeans`); the slant stack is linear in the samples; witness that unequal stack counts differ |
| C171 | `Builtin.transforms`, `timeDomain` | case analysis over the registered transforms: each keeps the frequencies of the first sensor and the trial velocities of the settings; equality of all steps before the transform for two runs |
| C172 | `Builtin.normalizeComplex`, `WT.findPeakBy` | invariant: power times factor has the magnitudes of the original, so after any history the power is the magnitude over a positive number per frequency; order of magnitudes; the first look at a complex power changes the picks (witness) |
| C173 | `Peaks.get`, `simplify`, `rejectLimits`, `rejectBox`, `Suite.toArray`, `statistics`, `statisticsCorr` | noninterference: the relation “differ in rejected values only” is kept by every rejection (simulation, induction over histories) and every reading depends on the valid values only |
| C174 | `timeDomain`, `single`, `check`, `trimOffsetsFl` | noninterference of two runs: partial, because the source position is checked before the selection and because the selection stops at the first receiver beyond the limit; both failures are proved on files; the loop of the frequency-domain workflow file by file; the cross-correlation workflow from the records cut at time zero |
| C175 | `timeDomain`, `pad`, `Arr.zeroPad`, the registered transforms | two runs, with the formulas of C117 and the Fourier component of a record followed by zeros: partial, because the slant stack takes more delays from a padded record, which changes its values; proved on a file |
| C176 | `Arr.fromFiles`, `timeDomain`, `single`, `frequencyDomain` | two file systems with permuted traces, permutation of `Forall₂`, C16: partial, because the traces of additional files are not sorted before they are stacked in the time domain; proved on files |
| C177 | `ConcurrentSave.step`, `run` | invariant over interleaved reads and writes; induction over the members left for an uninterrupted save: partial, because a save is a loop of appends and two of them mix; proved for any two suites of two members |
| C178 | `Arr.toFile`, `Arr.fromFiles` | what is read is on the grid of the file, a trip on the grid is the identity but for the stack count; induction over the trips: partial, because stack counts go down by one each time, whatever the array |
| C179 | `Builtin.phaseShift`, `fdbf`, `fk`, `slantStack`, `findPeakPower`, `timeDomain` | two runs, with the formulas of C117: partial, because the number of delays of the slant stack depends on the slowest trial velocity (proved equal if the slowest are equal); picks by antisymmetry of the order of powers |
| C180 | `Extract.Shared.step`, `run` (steps of several processes), `runDisk` (one alone) | invariant over all schedules; partial, because asking for a folder and making it are two steps: two programs with a row in one new folder can both find it missing, and the slower ends with `FileExistsError` (proved for any two such rows) |
| C181 | `ATS.stackAppend` along a tree of groupings, `Arr.toFile`, `Arr.fromFiles` | induction over the tree; partial, because `to_file` writes one less than the stack count: what is stacked onto an array read from a file gets too much weight (proved for every array a file can hold) |
| C182 | `timeDomain`, `frequencyDomain`, `single`, all registered transforms but the empty one | each run split into the common steps; the empty transform made from the untouched example has the axis of the processed record, so that stacking one image onto it gives that image |
| C183 | `ATS.trim`, `Arr.trim`, sequences of trims | induction over the steps, by what two steps do; partial, because `trim` sets the delay to the requested start and not to the time of the first sample kept: the differences of the steps add up without bound (proved for every record and number of steps), and a window ending between samples is refused the second time |
| C184 | `Arr.trimOffsets` and sequences of `Arr.trim`, `Arr.zeroPad`, `Arr.mute` | each of these does to a sensor what it does to it in a smaller array; induction over the sequence; partial, because `mute` refuses a whole array when the lines cross at a receiver which is not selected |
| C185 | `Workflow.timeDomain`, `Workflow.xcorr`, `Arr.fromFiles`, `ArrSrc.meanSignal` | multiplying the counts commutes with every step of a run; stacking is associative, so a second pass over the files stacks the first result onto itself; induction over the files and the repetitions |
| C186 | `Workflow.frequencyDomain`, `Builtin.transforms` | the transform of a file is fixed by its name (and the lines of the first file); the image is the mean over the names (C78), and means over lists with the same shares agree; a run over any list of the same files returns by C78's and C182's completeness |
| C187 | `Workflow.frequencyDomain`, `Workflow.stack` | each part returns by C186; count times power of each part is a sum over its names, these sums add up to the sum of the whole list (induction over the parts, C64) |
| C188 | `Workflow.fromFilesWithSource`, `ArrSrc.meanSignal` | sums of signals of one length by induction over the files; equal shares give equal means; two counterexamples for all signals that differ in sampling or have one sample |
| C189 | `Suite.fromSuites`, `Suite.statistics` | the matrix of the combination is that of the one above that of the other; C53 for the three suites; squares about another centre |
| C190 | `Arr.sourceFromHeader`, `Arr.parseSource`, `Arr.stackFiles` | characterisation of the headers that are read; induction on the files |
| C191 | `Settings.ofDict`, `Builtin.specific`, `Builtin.fdbf` | the text looked up is the one at its place; C117 |
| C192 | `runDisk` | the directory after a run described by the set of the rows, by induction |

## 4. Disagreements between the code and its properties

Each item is a theorem: the negation of the property (or of a part of it) with a concrete witness that
the kernel evaluates. The positive parts which were proved are in `MANIFEST.json`.

<!-- generated by tools/gen.py -->
* **C04** — C04 does not hold: on a padded record a refused request (`df <= 0`) changes the reported frequency step, because the multiple is reset before the argument is checked. (`C04_refused_zero_pad_changes_df_counterexample`)
* **C06** — C06 does not hold in general: when `start` lies between two samples the retained samples are reported at different times than before. (`C06_trim_moves_samples_counterexample`)
* **C07** — C07 does not hold: the constructor refuses a positive delay, `trim` produces one. (`C07_trim_makes_delay_positive_counterexample`)
* **C08** — C08 does not hold for padded records: the copy reports another frequency step. (`C08_copy_of_padded_record_counterexample`)
* **C08** — C08 does not hold for records trimmed to start after time zero: they cannot be copied. (`C08_copy_of_trimmed_record_counterexample`)
* **C10** — C10 fails for sensors. Sensors are records with a position, yet cross-stacking two of them through their own class never gives a sensor: it raises `TypeError`, also when their records can be cross-stacked. (`C10_sensors_fails`)
* **C12** — C12 does not hold: `==` is not symmetric. (`C12_eq_not_symmetric_counterexample`)
* **C12** — C12 does not hold: `==` is not transitive. (`C12_eq_not_transitive_counterexample`)
* **C13** — C13 does not hold for y: with scalar 1 (or unset) a receiver at (5, 7) is read as (5, 5). (`C13_receiver_y_counterexample`)
* **C14** — C14 does not hold for a trace without a format of its own: an explicit, supported format is refused, because the header readers look for the format again. (`C14_explicit_format_refused_counterexample`)
* **C14** — fails for every trace without a format of its own: whichever format is stated, no header is ever read. (`C14_no_own_format_fails`)
* **C15** — C15 does not hold for a SEG2 stack count of zero: it is refused rather than read as one. (`C15_seg2_zero_stack_counterexample`)
* **C18** — C18 does not hold for a source at the far end: a sensor in range is dropped because a sensor before it is too far. (`C18_far_source_drops_sensors_counterexample`)
* **C18** — C18 fails for every far-side source whose first (farthest) sensor is beyond the upper limit: the call is refused no matter how many sensors are in range. (`C18_far_first_sensor_always_refused_fails`)
* **C20** — C20 does not hold for a source exactly at the last sensor: the view runs from far to near. (`C20_source_at_last_sensor_counterexample`)
* **C20** — C20 fails for every array of at least two sensors whose source is exactly at the last one: the offsets are strictly decreasing. (`C20_source_at_last_sensor_fails`)
* **C23** — C23 does not hold: with only a start line the last sample of every trace is silenced, even by a rectangular window. (`C23_last_sample_silenced_fails`)
* **C26** — the full property fails, the coordinate mapping is not applied to the additional files. The same file given twice is refused as soon as there is a mapping, though each file alone is accepted. (`C26_mapping_counterexample`)
* **C26** — the full property fails, the sensors have been sorted but the additional traces have not. A file which lists its receivers from far to near cannot be stacked with itself. (`C26_descending_file_counterexample`)
* **C27** — the full property fails. A stack count of two comes back as one, of five as four. (`C27_stack_count_counterexample`)
* **C27** — the full property fails. Two sensors within a millimetre can be written but not read back. (`C27_close_sensors_counterexample`)
* **C28** — fails for every file with fewer channels: whenever the files can be read at all (each with one stack count for its channels) and an additional file has fewer channels than the array has sensors, the array returned has sensors of unequal stack count, the last less than the first. (`C28_fewer_channels_fails`)
* **C28** — the full property fails. A file with fewer channels is stacked onto the first sensors only, a file with more channels is accepted and its last channels ignored, and so is a file with unequal stack counts. (`C28_channel_count_counterexample`)
* **C30** — the full property fails. The source signal is a unit impulse at time zero, so the correlation at lag `t` is the record itself; but `xcorrelate` moves the record's second sample (time 0.1 s) to sample 4 (time 0.4 s). (`C30_zero_lag_counterexample`)
* **C30** — when the source signal is shorter than half a second the start of the slice is negative and counts from the end of the correlation, so that nothing of the record before or at its arrival is kept. (`C30_short_source_counterexample`)
* **C32** — the full property fails. A key pressed within 0.3 s of the first point ends the session with one point, and `interactive_mute` raises IndexError. (`C32_key_press_counterexample`)
* **C32** — nor are the lines asked for when the array has only one sensor: the plot on which they are to be drawn cannot be made, whatever the user does. (`C32_one_sensor_fails`)
* **C37** — A remaining peak of unknown power is dropped although it is the only one of its column. (`C37_nan_power_counterexample`)
* **C41** — is violated: building twice from one dictionary resurrects a rejected peak the second time. (`C41_dictionary_changed_counterexample`)
* **C41** — Whatever was rejected, the second build from the same dictionary has every peak with a velocity again. (`C41_second_build_forgets_rejections_fails`)
* **C41** — fails for suites as it does for single objects: after a suite has been built from a dictionary no data set in it says any longer which peaks were rejected. (`C41_suite_fails`)
* **C42** — is violated at every append: there is a moment at which the file cannot be read at all, so that a crash then loses every data set saved before. (`C42_crash_loses_everything_fails`)
* **C43** — An object with a custom attribute is not equal to itself. (`C43_custom_attribute_counterexample`)
* **C43** — Equal objects with different numbers of remaining peaks: all of its peaks rejected against one remaining. (`C43_count_counterexample`)
* **C43** — Equality is not symmetric: the tolerance is relative to the right-hand side. (`C43_asymmetry_counterexample`)
* **C49** — With axes of unequal length the curve has unequal numbers of abscissae and ordinates. (`C49_unequal_axes_counterexample`)
* **C53** — is violated with more than 100 samples: a member with less than one per cent of the samples is dropped after the columns have been counted. Here `statistics` with the default count of 3 reports the first location although only two of the retained values are there; a mean over the two of them is reported. (`C53_more_than_100_samples_fails`)
* **C53** — is violated when no member has a value at any sample: all locations are reported, backed by nothing. (`C53_no_data_fails`)
* **C58** — is violated by two observations of one sample, one of them missing: the region cannot take in the second row and the search looks for a column after the last. (`C58_last_column_fails`)
* **C58** — is violated by a matrix with more than 100 regions. (`C58_many_regions_fails`)
* **C60** — is violated: `Statistics(...)` raises `TypeError` for every argument (a keyword of `np.array` is misspelt). (`C60_constructor_fails`)
* **C60** — is violated: neither `from_peakssuite` nor `from_data_matrix` ever returns a `Statistics` object. (`C60_class_methods_fails`)
* **C63** — fails without the non-vanishing hypothesis: a frequency with only zero power turns into NaN under `frequency-maximum`, and `none` does not bring it back. (`C63_zero_column_fails`)
* **C66** — C66 fails with binary64 arithmetic. Whatever the traces, on a spread of 22 m (12 receivers 2 m apart, say) with a sampling step of one millisecond and a slowest trial velocity of 110 m/s, where the longest delay is 200 samples, the slant stack of every record of more than 200 samples ends in `IndexError`: the code counts the delays with a longest delay of 199 samples. (`C66_binary64_fails`)
* **C72** — fails in two ways: running fk changes the caller's settings dictionary, so that a later FDBF run with the same dictionary silently uses other settings; and without an `fdbf-specific` entry, which FDBF itself does not need, fk raises `KeyError`. (`C72_settings_fails`)
* **C74** — fails once the windows are padded by a multiple: asking for a 1/2 Hz step on four samples at 1 s reports a ratio at 3/2 Hz, which is not the physical frequency of any bin (they are 0, 1/4, 1/2 and 3/4 Hz). (`C74_multiple_fails`)
* **C74** — fails for windows with different sampling intervals: the signal is taken to be sampled like the noise. Here a signal sampled every 2 s has nothing at 1/4 Hz, but the ratio reported at 1/4 Hz is not zero. (`C74_different_interval_fails`)
* **C77** — fails: the window settings given to `create_settings_dict` have no effect on any run of any workflow, whatever is registered, read, picked or otherwise set. (`C77_window_settings_ignored_fails`)
* **C80** — fails for the fourth registered name: `Masw.run` with the workflow "time-domain-xcorr" raises `TypeError` for all settings and files. (`C80_xcorr_fails`)
* **C85** — Two blocks of the same folder, station and array: the extraction ends without an error and the data of the first block are nowhere. (`C85_overwrite_fails`)
* **C86** — The gate is on the text between the digits too: version `31210` passes for 3.2.0. (`C86_wildcard_counterexample`)
* **C88** — After a single-component file, the peaks of a three-component file are dropped without notice; alone they are read. (`C88_files_interfere_fails`)
* **C88** — The word `inf` before the first data line (`geopsy` writes `MAXIMUM_DISTANCE=inf`) hides that a file is single-component, and its peaks are not found. (`C88_inf_hides_wave_fails`)
* **C88** — A first data line with noise `inf` hides the wave. (`C88_noise_inf_hides_wave_counterexample`)
* **C90** — C90 does not hold: a refused `zero_pad` resets the frequency step of the first sensor only. (`C90_refused_zero_pad_splits_frequency_step_counterexample`)
* **C91** — C91 does not hold: when the window of the second sensor is refused, the first sensor has already been muted. (`C91_refused_mute_changes_earlier_sensors_counterexample`)
* **C92** — C92 does not hold for records which start after time zero: the window is shifted. The record below has samples at times 2, 3, 4, 5, 6, 7, 8; asked to keep times from 3 to 5 it keeps times 7 and up. (`C92_window_shifted_for_positive_delay_counterexample`)
* **C94** — the property fails for records of integers, a single one included; and the order of the files matters. (`C94_integers_fails`)
* **C94** — a source signal of a single sample is not refused but added to every sample. (`C94_single_sample_counterexample`)
* **C95** — the full property fails, a scalar of zero makes reading a SEGY file's source raise OverflowError, although the receivers of the same header are read with a scalar of one. (`C95_segy_zero_scalar_counterexample`)
* **C96** — fails: a combined suite has the members of its parts themselves, so a rejection on the combined suite changes the suites it was made from, and a rejection on one of these changes the combined suite. (`C96_combined_suite_fails`)
* **C97** — fails: a call with an unknown method raises `KeyError` but has already multiplied the power by the stored factor, so that the next documented call gives a wrong result. (`C97_refused_call_fails`)
* **C98** — fails: picking peaks on the un-normalized power of a slant stack (complex numbers) compares real parts. Here the cell of magnitude 5 at 200 m/s loses against the cell of magnitude 1 at 100 m/s. (`C98_complex_power_fails`)
* **C99** — fails for longer windows: with a requested step of 1/10 Hz at 1 s sampling, a noise window of 8 samples is padded to 10 and a signal window of 15 samples to 20, and the call still raises `IndexError`, advising to set `pad_snr=True`. (`C99_padding_fails`)
* **C100** — fails for the frequency-domain workflow: the name is taken for a list of names of one character each, so the run on a readable file fails unless there is a file named by its first character. (`C100_frequency_domain_fails`)
* **C102** — fails: a run with a trim which starts after the trigger returns, and the same run with a signal-to-noise ratio raises `ValueError`, although both windows are within the data they are taken from: the copy made for the signal window refuses a record which starts after the trigger. (`C102_late_trim_fails`)
* **C103** — fails: files with different time steps count as similar, and the frequency-domain workflow averages their transforms column by column although the columns belong to different frequencies. The file "slow" alone is transformed at 0 and 250 Hz; in the run over both files its second column is averaged into the value reported at 500 Hz: (2 + 6) / 2. (`C103_mixed_frequencies_fails`)
* **C104** — Times `0` and `60`: the window at 0 also gets the peak of the window at 60 (frequency and velocity are those of both lines), and the count of peaks does not notice. (`C104_suffix_time_counterexample`)
* **C104** — Frequency `1.5` as a pattern also matches `105`, and a frequency written `1e+02` does not match itself: a file with such lines is refused. (`C104_frequency_pattern_counterexample`)
* **C106** — fails: with uneven spacing the default amplitude is half the mean spacing, but the margin is the first spacing. Here a sample of the first trace is drawn at -5/2, left of the limit -1, and beyond its neighbour's. (`C106_uneven_spacing_counterexample`)
* **C106** — fails for arrays of one sensor: there is no spacing, and the plot raises `IndexError`. (`C106_single_sensor_fails`)
* **C110** — fails on axes of the caller: the label of the first member is not compared with the legend, so plotting two suites on the same axes lists a common label twice. (`C110_given_axes_counterexample`)
* **C110** — fails on axes of the caller: a label already in the legend of one axes object is dropped on all that follow, so the second of two axes has no entry "B" although the data are drawn there. (`C110_lost_label_fails`)
* **C113** — fails: plotting changes the power of the transform that is plotted. (`C113_plot_changes_power_fails`)
* **C113** — fails: a plot refused because of its peak method has already normalized the transform. (`C113_refused_plot_fails`)
* **C115** — Asked for the time `7201`, the pattern also finds the ratios of the time `17201`. (`C115_longer_time_fails`)
* **C115** — Asked for a time as the file has it, such as `2.4282e+07`, the pattern finds nothing: its `+` is read as a repetition. (`C115_absolute_time_fails`)
* **C118** — is violated: a surface wave of unit amplitude, with amplitudes 1 and 1/2 at 1 m and 4 m, has power 9 at its velocity. Two receivers in balance would give 4. (`C118_surface_wave_fails`)
* **C121** — does not hold for sensors whose trace is in another format: both fields are in the SEG2 header and well formed, but `Sensor1C.from_trace_seg2` reads the other header. (`C121_sensor_other_format_fails`)
* **C122** — fails on axes with a reversed vertical axis: the sensor at y = 9 was within the limits 10 to -10, and is outside those set. (`C122_reversed_axis_fails`)
* **C124** — fails with a missing value. The three members which have both values agree perfectly, the coefficient is one. Reported is no number, or, with `mean_substitution`, a smaller one. (`C124_missing_value_fails`)
* **C125** — fails: as soon as one coefficient is missing, whatever the matrix and the fitting procedure, the call raises `ValueError` instead of filling it. (Which entries to fill is decided by the sample locations instead of the coefficients, so that the missing ones are handed to the fit.) The sample locations are such that their logarithms are numbers. (`C125_missing_coefficient_fails`)
* **C128** — is violated: a pulse passes two receivers at 1000 m/s. Recorded from its arrival, its velocity is picked. Recorded from four samples earlier, 500 m/s is picked instead, where the magnitude is smaller, because the largest complex number is taken as the one with the largest real part; with reversed polarity the pulse's velocity is picked again. (`C128_pick_fails`)
* **C135** — fails for the last sample. A record of two samples from -0.01 s at 1 ms ends at -0.009 s, and trimming it to the very interval it covers, -0.01 s to -0.009 s, is refused with `IndexError`: the computed time of the last sample is -0.009000000000000001. (`C135_last_sample_fails`)
* **C136** — fails for lines through a sample. A record is sampled at 0.1 s and muted before 0.3 s, the time of sample 3; in binary64 the line is placed at sample 2, which is before 0.3 s and is not silenced. (`C136_line_through_sample_fails`)
* **C140** — A suite with an attribute of the user's own is not equal to itself. (`C140_custom_attribute_counterexample`)
* **C142** — fails for every suite and every file: there is a moment at which the file cannot be read, so that a process which ends then leaves neither the old nor the new suite; and if the suite has several members, for every smaller number of members there is a moment at which the file holds just these, and is read without complaint. (`C142_interrupted_save_fails`)
* **C145** — fails: for any two `Peaks` with different identifiers, and any file with neither, there is an interleaving in which both programs end without an error and the file has only one of the entries. (`C145_lost_entry_fails`)
* **C149** — The constructor accepts frequencies and velocities of different numbers; the object has velocities, but asking for its frequencies, wavelengths or wavenumbers raises `IndexError`. (`C149_unequal_accepted_fails`)
* **C149** — A single frequency is silently taken for the frequency of every velocity when wavelengths are the limits. (`C149_one_frequency_for_all_fails`)
* **C153** — The sampling interval of the source signal is not compared with that of the receivers: whatever it is, apart from zero, `xcorrelate` returns, and every sensor is the correlation of its samples with the samples of the source signal as if both were taken at the interval of the sensor. (`C153_other_sampling_accepted_fails`)
* **C155** — fails: three curves with the same value, a tenth, have (in binary64) a mean which is larger than each of them, and a variance which is not zero, in whatever order the sums are taken. (`C155_equal_values_counterexample`)
* **C158** — The description says that the traces are correlated before they are trimmed; the run trims them first. The result is another one: with the first 4 ms kept it has five samples, not four. (`C158_correlation_is_last_fails`)
* **C158** — Two workflows have the same title. (`C158_title_counterexample`)
* **C159** — Every other name accepted by the constructor is listed, and peaks can be rejected by it, but reading it raises AttributeError: there is no property of that name. (`C159_other_names_fails`)
* **C161** — Two velocities and one frequency: the first transform has its peak at the first velocity and so has the mean; if the stack is plotted after the first transform, the peak of the final stack is at the second velocity. (`C161_look_moves_peak_counterexample`)
* **C161** — The transform which is stacked may have been plotted, too: its normalized power is stacked then. (`C161_plotted_record_counterexample`)
* **C161** — What is stacked after a normalization counts with the maximum by which the power was divided: for a stack of `n` records with magnitudes `x`, normalized by its largest value `M`, then one more transform of `m` records with powers `y`, then normalized by "none", every entry is `|x n + M y m| / (n + m)`. (`C161_weighted_by_maximum_fails`)
* **C162** — It mutes between the lines of the first run with the window of the settings (the first run uses the default window), and reports the signal-to-noise ratio of the first run. (`C162_second_run_fails`)
* **C162** — fails for muting with window settings: the second run on the same file returns half the amplitudes. (`C162_window_settings_counterexample`)
* **C162** — fails for another file: an object which has processed "a" reports for "c" a ratio at the frequencies of "a", not at those a new object reports. (`C162_other_file_counterexample`)
* **C162** — It mutes all files between the lines of the first run with the window of the settings, also the first file (which the first run muted with the default window), and reports the signal-to-noise ratio of the first run. (`C162_frequency_second_run_fails`)
* **C162** — fails in the frequency domain for muting with window settings: the second run on the same file returns half the amplitudes. (`C162_frequency_window_counterexample`)
* **C162** — The record is that of the files named now and is correlated with the source signal named now, but it is muted between the lines of the first run with the window of the settings, and the signal-to-noise ratio reported is that of the first run. (`C162_xcorr_second_run_fails`)
* **C167** — the property fails. Two files read with `apply_calib=True`: the mean is taken of one calibrated and one uncalibrated record. (`C167_options_fails`)
* **C169** — is violated: complete data of several samples, with more observations than samples or fewer, are refused with `ValueError`, for every random source and every number of attempts. (`C169_observations_fails`)
* **C169** — is violated: of three observations of three samples in two regions, the coefficient of the first and the last sample is whatever number the memory held before. (`C169_uninitialised_fails`)
* **C172** — The power 1 at 100 m/s and -2 at 200 m/s: 100 m/s is picked before, 200 m/s after any documented normalization. (`C172_first_look_fails`)
* **C172** — Two sensors recorded a pulse in the first sample, of opposite sign. The image of the slant stack has its peak at 2000 m/s at every frequency; after the normalization which is the default of `normalize` and `plot` it has its peak at 4000 m/s at every frequency. (`C172_slantstack_fails`)
* **C174** — fails: a receiver on the other side of the source, too far away to be used, makes the run refuse the record, because the position of the source is checked before the receivers are selected. (`C174_other_side_fails`)
* **C174** — fails: with the source beyond the last receiver, one receiver too far away to be used makes the run refuse the record, although the receivers within the offset range are the same. (`C174_far_receiver_fails`)
* **C175** — fails for the slant stack. Of two receivers 2 m apart the four samples at 1 kHz are stacked at 2000 m/s. Without padding two delays are stacked, with padding to 125 Hz six, and the two images, which both have a column at 0 Hz, have the values 4 and 13 in it. (`C175_slant_stack_fails`)
* **C176** — fails for additional files of a stack in the time domain. The run over "first" and "three" returns; if the traces of "three" are listed from far to near it is refused. (`C176_additional_file_fails`)
* **C177** — fails for interleaved saves. For any two suites of two members with different identifiers there is an interleaving after which both programs have ended without an error and the file holds neither suite but three of the four members; if the two suites have the same identifiers, one of the programs ends with `KeyError`. (`C177_mixed_fails`)
* **C178** — fails for the stack counts: whatever the array with counts of three or more, the array read the second time is not the one read the first time; and after sufficiently many times every count is one, so that the record weighs in a stack as much as a single shot. (`C178_stack_counts_fails`)
* **C179** — fails for the slant stack. The same file, first with the trial velocities 2000 m/s and 4000 m/s, then with 4000 m/s and 8000 m/s: the number of delays stacked depends on the slowest trial velocity, and the two images have the values 4 and 8 at 4000 m/s and 0 Hz. (`C179_slant_stack_fails`)
* **C180** — fails if two tables name a folder which is not there. For any two rows in one new folder, with data which can be read and output files which differ, there is an interleaving after which the first process has extracted its row and the second has ended with `FileExistsError`, its file missing. (`C180_folder_fails`)
* **C181** — fails through files. An array whose numbers an SU file can hold is written and read. For every receiver which holds a stack of two shots or more: a further shot stacked onto what was read gives another record than stacked onto what was written, at every sample at which the stack and the shot differ. (`C181_through_files_fails`)
* **C183** — C183 does not hold in general: steps which begin between samples add up. However long a record of two or more samples is, and for every number `n` of steps, there are `n` trims, each beginning and ending within the record as it then is, which all return, keep every sample, and leave each of them `n` times 2/5 of a time step later than it was recorded. (`C183_drift_fails`)
* **C183** — C183 does not hold in general: a window which ends between samples cannot be asked for again. (`C183_again_counterexample`)
* **C184** — C184 does not hold for `mute` the other way round: lines which cross within the records of the receivers selected may not do so beyond them; then `mute` refuses the whole array. (`C184_mute_fails`)
* **C188** — fails for signals with other sampling intervals: they are averaged sample by sample all the same, and the result has the sampling interval of whichever is listed first. (`C188_sampling_fails`)
* **C188** — fails for a signal of one sample: listed after a longer one, its sample is added to every sample of the other; listed before it, the two are refused. (`C188_one_sample_fails`)
<!-- end of generated part -->

## 5. Edited models: what `seeded/LOG.jsonl` shows

`tools/mutate.py` makes one edit in a scratch copy of the model, rebuilds the modules which state the
properties concerned and records the theorems that are lost. How far a record goes:

* `failed_directly`: the proof of the property theorem itself has an error.
* `failed_through_lemmas`: only a lemma which it uses has an error. With `attributed_by` "axioms" the use is
  read off Lean (failed proofs are left out with `sorry` in the scratch copy, and the theorem depends on one);
  with "names" it is guessed from names in the text and can include theorems which are not concerned.
* Both say that the *proof* no longer goes through. They do not say that the *statement* is false for the
  edited model: a lemma can fail because its proof names the function that was edited. In a08 (`int` for
  `round` in `zero_pad`) `targetSamples_nat` and `C03_zero_pad_exact` fail although both remain true;
  the theorem which excludes the edit is `C03_zero_pad_reaches_step`. Only a refutation of the statement
  in the edited model settles this; records with one have the field `refuted`.
* Edits below `Py/` test the specifications as well: a statement written with the model's own comparison or
  truncation changes together with the model. Edit u36 (`<` against infinity) was not noticed by C34 for this
  reason. Since then order, truncation, rounding and reciprocals in statements are those of `Spec/Number.lean`
  (extended reals, integer division, defining inequalities); C11, C22, C23, C27, C30, C33-C37, C92, C93 and C104
  were restated. What is left of `Py/` in statements: `Outcome`, `runCalls`, `runAll` (how calls are made in
  sequence), and in C88, C104, C115 and C116 the regular expressions and the reading of decimal numbers.
* A build that is stopped (INCONCLUSIVE) or an edited model which does not compile (INVALID) is not recorded.

Corrections. Record q02 was withdrawn: its edit did not compile, no theorem had been tested, and the tool
had counted the error in the model as a failure of C84. The edit was replaced by one which compiles. Of the
remaining 193 records at that time, those with `attributed_by` "names" were made before these distinctions;
most of them were repeated. At the end 44 of 849 records say "names": some of that time, and later ones for which the
tool could not complete the build with the failed proofs left out, so that there was no report of axioms (an17 was
finished by hand, see its note).
