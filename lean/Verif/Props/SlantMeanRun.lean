import Verif.Props.SlantMean
import Verif.Props.FreqReturns
import Verif.Props.RunReturns

/-! # C170: runs over two files

The hypotheses of `C170_time_domain` and `C170_same_image` are met by runs over two files, and the two workflows differ
for files with unequal stack counts. -/

namespace Verif.Props
open Verif WT Workflow Arr Sensor

/-- Two shots at one point, and the second again as a stack of three. -/
def slantFs : Fs := fun n =>
  match n with
  | "first" => some [seg2 0 (-5) 1 [1, 2, 3, 4], seg2 2 (-5) 1 [0, 1, 0, 2]]
  | "second" => some [seg2 0 (-5) 1 [5, 6, 0, 1], seg2 2 (-5) 1 [7, 0, 2, 2]]
  | "three" => some [seg2 0 (-5) 3 [5, 6, 0, 1], seg2 2 (-5) 3 [7, 0, 2, 2]]
  | _ => none

noncomputable def slantShots : Env :=
  { exEnv with fs := slantFs, transforms := Builtin.transforms (fun _ => 1) fun a _ n => List.replicate n a }

/-- Slant stack at 2000 m/s and 4000 m/s. -/
def slantSet : Settings :=
  { exSet with transform := "slantstack", snrPerform := false, vmin := 2000, vmax := 4000, nvel := 2 }

def slantRecord (k : ℤ) (u v : List ℚ) : Arr :=
  ⟨[⟨⟨u, 1 / 1000, k, 0, 1⟩, 0, 0, 0⟩, ⟨⟨v, 1 / 1000, k, 0, 1⟩, 2, 0, 0⟩], ⟨-5, 0, 0⟩⟩

/-- Its slant stack. -/
theorem slantRecord_transform (k : ℤ) (u0 u1 u2 u3 : ℚ) (v : List ℚ) (rows : List (List ℚ))
    (h : slantStackOfArray (slantRecord k [u0, u1, u2, u3] v) [2000, 4000] = .ok rows) :
    ∃ T, Builtin.slantStack (fun a _ n => List.replicate n a) (slantRecord k [u0, u1, u2, u3] v) slantSet = .ok T ∧
      T.frequencies = [0, 250, 500] ∧
      T.power = rows.map fun row => [0, 1, 2].map fun k => Builtin.fftPadded row 4 k := by
  have hv : Builtin.velocitiesQ (fun a _ n => List.replicate n a) slantSet = .ok [2000, 4000] := by
    simp only [Builtin.velocitiesQ, slantSet, exSet]
    norm_num [List.range_succ, show Int.toNat 2 = 2 from rfl]
  have hids : keepIds (binFrequencies 4 (250 : ℚ)) 100 600 1 = .ok [0, 1, 2] := by decide +kernel
  have hf : ([0, 1, 2] : List ℕ).map (fun k => (binFrequencies 4 (250 : ℚ)).getD k 0) = [0, 250, 500] := by
    decide +kernel
  refine ⟨⟨1, [0, 250, 500], [2000, 4000].map fun (v : ℚ) => (v : ℝ), _⟩, ?_, rfl, rfl⟩
  have hdf : (⟨[u0, u1, u2, u3], 1 / 1000, k, 0, 1⟩ : ATS).dfInternal = 250 := by
    norm_num [ATS.dfInternal, ATS.nsamples]
  unfold slantRecord at h
  unfold Builtin.slantStack
  simp only [hv, bind, Except.bind, slantRecord, hdf, h]
  have hn : (⟨[u0, u1, u2, u3], 1 / 1000, k, 0, 1⟩ : ATS).nsamples = 4 := rfl
  have hset : slantSet.fmin = 100 ∧ slantSet.fmax = 600 := ⟨rfl, rfl⟩
  simp only [hn, hset.1, hset.2, hids, hf, pure, Except.pure]

theorem slant_orderly : ∀ f ∈ ["first", "second", "three"], Orderly slantFs "SEG2" ⟨-5, 0, 0⟩ 2 f := by
  have key : ∀ f x y p q, slantFs f = some [x, y] → Sensor.fromTrace x {} = .ok p → Sensor.fromTrace y {} = .ok q →
      p.x < q.x → ∀ ts ss, slantFs f = some ts → List.Forall₂ (fun t s => Sensor.fromTrace t {} = .ok s) ts ss →
      ss.Pairwise fun s t => s.x < t.x := by
    intro f x y p q h h1 h2 hlt ts ss hts hss
    rw [h, Option.some.injEq] at hts
    subst hts
    cases hss with
    | cons a1 a2 =>
      cases a2 with
      | cons b1 b2 =>
        cases b2
        rw [h1, Except.ok.injEq] at a1
        rw [h2, Except.ok.injEq] at b1
        subst a1
        subst b1
        simpa using hlt
  have one : ∀ f k u v, slantFs f = some [seg2 0 (-5) k u, seg2 2 (-5) k v] →
      Arr.fromFiles slantFs [f] id id = .ok (slantRecord k u v) →
      Sensor.fromTrace (seg2 0 (-5) k u) {} = .ok ⟨⟨u, 1 / 1000, k, 0, 1⟩, 0, 0, 0⟩ →
      Sensor.fromTrace (seg2 2 (-5) k v) {} = .ok ⟨⟨v, 1 / 1000, k, 0, 1⟩, 2, 0, 0⟩ →
      (∀ t ∈ [seg2 0 (-5) k u, seg2 2 (-5) k v], t.format = some "SEG2" ∧ parseSource "SEG2" id id t = .ok ⟨-5, 0, 0⟩) →
      Orderly slantFs "SEG2" ⟨-5, 0, 0⟩ 2 f := by
    intro f k u v h0 h1 h2 h3 h4
    refine ⟨⟨_, h1⟩, ⟨_, h0, rfl⟩, ?_, ?_, key f _ _ _ _ h0 h2 h3 (by norm_num)⟩
    · intro ts h t ht
      rw [h0, Option.some.injEq] at h
      rw [← h] at ht
      exact (h4 t ht).1
    · intro ts h t ht
      rw [h0, Option.some.injEq] at h
      rw [← h] at ht
      exact (h4 t ht).2
  intro f hf
  simp only [List.mem_cons, List.not_mem_nil, or_false] at hf
  rcases hf with rfl | rfl | rfl
  · exact one _ 1 [1, 2, 3, 4] [0, 1, 0, 2] rfl (by decide +kernel) (by decide +kernel) (by decide +kernel)
      (by decide +kernel)
  · exact one _ 1 [5, 6, 0, 1] [7, 0, 2, 2] rfl (by decide +kernel) (by decide +kernel) (by decide +kernel)
      (by decide +kernel)
  · exact one _ 3 [5, 6, 0, 1] [7, 0, 2, 2] rfl (by decide +kernel) (by decide +kernel) (by decide +kernel)
      (by decide +kernel)

theorem slant_first : fromFiles slantShots (.one "first") = .ok (slantRecord 1 [1, 2, 3, 4] [0, 1, 0, 2]) := by
  decide +kernel
theorem slant_second : fromFiles slantShots (.one "second") = .ok (slantRecord 1 [5, 6, 0, 1] [7, 0, 2, 2]) := by
  decide +kernel
theorem slant_three : fromFiles slantShots (.one "three") = .ok (slantRecord 3 [5, 6, 0, 1] [7, 0, 2, 2]) := by
  decide +kernel
theorem slant_equal : fromFiles slantShots (.many ["first", "second"]) =
    .ok (slantRecord 2 [3, 4, 3 / 2, 5 / 2] [7 / 2, 1 / 2, 1, 2]) := by
  decide +kernel
theorem slant_unequal : fromFiles slantShots (.many ["first", "three"]) =
    .ok (slantRecord 4 [4, 5, 3 / 4, 7 / 4] [21 / 4, 1 / 4, 3 / 2, 2]) := by
  decide +kernel

def slantCount : String → ℤ := fun f => if f = "three" then 3 else 1

theorem slant_shots (names : List String) (h : ∀ f ∈ names, f ∈ ["first", "second", "three"]) :
    Shots slantShots slantCount 4 (1 / 1000) 0 names := by
  have each : ∀ f ∈ names, ∃ k u v, fromFiles slantShots (.one f) = .ok (slantRecord k u v) ∧ u.length = 4 ∧
      v.length = 4 ∧ k = slantCount f := by
    intro f hf
    have := h f hf
    simp only [List.mem_cons, List.not_mem_nil, or_false] at this
    rcases this with rfl | rfl | rfl
    · exact ⟨_, _, _, slant_first, rfl, rfl, rfl⟩
    · exact ⟨_, _, _, slant_second, rfl, rfl, rfl⟩
    · exact ⟨_, _, _, slant_three, rfl, rfl, rfl⟩
  refine ⟨⟨rfl, rfl⟩, ⟨_, _, _, fun f hf => slant_orderly f (h f hf)⟩, ?_, by norm_num, ?_⟩
  · intro f hf a ha s hs
    obtain ⟨k, u, v, e, h1, h2, -⟩ := each f hf
    rw [e, Except.ok.injEq] at ha
    rw [← ha] at hs
    simp only [slantRecord, List.mem_cons, List.not_mem_nil, or_false] at hs
    rcases hs with rfl | rfl
    · exact ⟨h1, rfl, rfl⟩
    · exact ⟨h2, rfl, rfl⟩
  · intro f hf a ha s hs
    obtain ⟨k, u, v, e, -, -, hk⟩ := each f hf
    rw [e, Except.ok.injEq] at ha
    rw [← ha] at hs
    simp only [slantRecord, List.mem_cons, List.not_mem_nil, or_false] at hs
    rcases hs with rfl | rfl <;> exact hk

theorem linear_id : LinearOperation (id : List ℚ → List ℚ) := ⟨fun _ => rfl, fun _ _ _ => rfl, fun _ _ => rfl⟩

/-- Removing the mean is such an operation. -/
example : LinearOperation fun l => l.map fun x => x - l.sum / l.length := by
  refine ⟨fun l => by simp, ?_, ?_⟩
  · intro l m h
    have hs : ∀ l m : List ℚ, l.length = m.length → (List.zipWith (· + ·) l m).sum = l.sum + m.sum := by
      intro l
      induction l with
      | nil => intro m h; simp [List.length_eq_zero_iff.1 h.symm]
      | cons x l ih =>
        intro m h
        rcases m with _ | ⟨y, m⟩
        · simp at h
        · simp only [List.zipWith_cons_cons, List.sum_cons]
          rw [ih m (by simpa using h)]
          ring
    rw [hs l m h]
    apply List.ext_getElem (by simp)
    intro i h1 h2
    simp only [List.getElem_map, List.getElem_zipWith, List.length_zipWith, h, min_self]
    ring
  · intro c l
    have hs : (l.map fun x => c * x).sum = c * l.sum := by
      induction l with
      | nil => simp
      | cons x l ih => simp only [List.map_cons, List.sum_cons, ih]; ring
    rw [hs]
    simp only [List.map_map, List.length_map]
    apply List.map_congr_left
    intro x _
    simp only [Function.comp]
    ring

theorem slant_velocities : ∀ vels, Builtin.velocitiesQ (fun a _ n => List.replicate n a) slantSet = .ok vels →
    ∀ v ∈ vels, 0 < v := by
  have hv : Builtin.velocitiesQ (fun a _ n => List.replicate n a) slantSet = .ok [2000, 4000] := by
    simp only [Builtin.velocitiesQ, slantSet, exSet]
    norm_num [List.range_succ, show Int.toNat 2 = 2 from rfl]
  intro vels h v hm
  rw [hv, Except.ok.injEq] at h
  subst h
  simp only [List.mem_cons, List.not_mem_nil, or_false] at hm
  rcases hm with rfl | rfl <;> norm_num

theorem slantRecord_steps (k : ℤ) (u v : List ℚ) (h : trimOffsetsFl (slantRecord k u v) 0 .pinf =
    (slantRecord k u v, .ok ())) (kw : Option Kwargs) (lines : Option Arr.Line × Option Arr.Line) :
    Spec.Preprocessed slantShots slantSet kw lines (slantRecord k u v) (slantRecord k u v) (slantRecord k u v)
      (slantRecord k u v) (slantRecord k u v) (slantRecord k u v) := ⟨h, rfl, rfl, rfl, rfl, rfl⟩

theorem slantRecord_outside (k : ℤ) (u v : List ℚ) : ¬ Spec.SourceBetween (slantRecord k u v) := by
  rintro ⟨a, b, h1, h2, h3, h4⟩
  simp only [slantRecord, Arr.position, List.map_cons, List.map_nil, List.head?_cons, Option.some.injEq] at h1
  rw [← h1] at h3
  norm_num [slantRecord] at h3

theorem slant_time (f : Fnames) (k : ℤ) (u0 u1 u2 u3 : ℚ) (v : List ℚ) (rows : List (List ℚ))
    (hf : fromFiles slantShots f = .ok (slantRecord k [u0, u1, u2, u3] v))
    (ho : trimOffsetsFl (slantRecord k [u0, u1, u2, u3] v) 0 .pinf = (slantRecord k [u0, u1, u2, u3] v, .ok ()))
    (h : slantStackOfArray (slantRecord k [u0, u1, u2, u3] v) [2000, 4000] = .ok rows) :
    ∃ r, timeDomain slantShots slantSet f = .ok r ∧ r.transform.frequencies = [0, 250, 500] ∧
      r.transform.power = rows.map fun row => [0, 1, 2].map fun k => Builtin.fftPadded row 4 k := by
  obtain ⟨T, hT, h1, h2⟩ := slantRecord_transform k u0 u1 u2 u3 v rows h
  obtain ⟨r, hr, -, e, -⟩ := C76_run_returns slantShots slantSet f _ _ _ _ _ _ (none, none) T hf (by simp [slantRecord])
    (slantRecord_outside _ _ _) (slantRecord_steps k _ v ho none _) (fun h => by cases h) ⟨_, rfl, hT⟩ none (fun _ => rfl)
    (fun h => by cases h)
  rw [← e] at h1 h2
  exact ⟨r, hr, h1, h2⟩

/-- The hypotheses of `C170_time_domain` are met by the files "first" and "three" with stack counts 1 and 3. -/
theorem slant_time_runs : ∃ r r1 r2, timeDomain slantShots slantSet (.many ["first", "three"]) = .ok r ∧
    List.Forall₂ (fun f q => timeDomain slantShots slantSet (.one f) = .ok q) ["first", "three"] [r1, r2] ∧
    r.transform.frequencies = [0, 250, 500] ∧ cell r.transform.power 0 0 = some (43 / 4) ∧
    cell r1.transform.power 0 0 = some 4 ∧ cell r2.transform.power 0 0 = some 13 := by
  obtain ⟨r, h1, h2, h3⟩ := slant_time _ _ _ _ _ _ _ [[17 / 4, 13 / 2], [27 / 4, 47 / 8]] slant_unequal (by decide +kernel) (by decide +kernel)
  obtain ⟨r1, g1, -, g3⟩ := slant_time _ _ _ _ _ _ _ [[2, 2], [3 / 2, 5 / 2]] slant_first (by decide +kernel)
    (by decide +kernel)
  obtain ⟨r2, k1, -, k3⟩ := slant_time _ _ _ _ _ _ _ [[5, 8], [17 / 2, 7]] slant_three (by decide +kernel)
    (by decide +kernel)
  refine ⟨r, r1, r2, h1, .cons g1 (.cons k1 .nil), h2, ?_, ?_, ?_⟩
  · rw [h3]
    norm_num [cell, Builtin.fftPadded, WT.fftBin, Finset.sum_range_succ]
  · rw [g3]
    norm_num [cell, Builtin.fftPadded, WT.fftBin, Finset.sum_range_succ]
  · rw [k3]
    norm_num [cell, Builtin.fftPadded, WT.fftBin, Finset.sum_range_succ]

theorem slantRecord_shape {k : ℤ} {u0 u1 u2 u3 : ℚ} {v : List ℚ} {T : Transform}
    (hT : Builtin.slantStack (fun a _ n => List.replicate n a) (slantRecord k [u0, u1, u2, u3] v) slantSet = .ok T)
    (h : T.frequencies = [0, 250, 500]) : HasShape T.power 2 3 := by
  obtain ⟨s, hs, ⟨-, h2⟩, -⟩ := slantStack_onAxis (by simp) hT
  rw [h] at h2
  exact h2

/-- A frequency-domain run over "first" and another file. -/
theorem slant_frequency (f : String) (k : ℤ) (rows : List (List ℚ))
    (hf : fromFiles slantShots (.one f) = .ok (slantRecord k [5, 6, 0, 1] [7, 0, 2, 2]))
    (ho : trimOffsetsFl (slantRecord k [5, 6, 0, 1] [7, 0, 2, 2]) 0 .pinf =
      (slantRecord k [5, 6, 0, 1] [7, 0, 2, 2], .ok ()))
    (h : slantStackOfArray (slantRecord k [5, 6, 0, 1] [7, 0, 2, 2]) [2000, 4000] = .ok rows) :
    ∃ r, frequencyDomain slantShots slantSet (.many ["first", f]) = .ok r := by
  obtain ⟨T0, t1, t2, t3⟩ := slantRecord_transform 1 1 2 3 4 [0, 1, 0, 2] [[2, 2], [3 / 2, 5 / 2]] (by decide +kernel)
  obtain ⟨T, g1, g2, g3⟩ := slantRecord_transform k 5 6 0 1 [7, 0, 2, 2] rows h
  have hempty : ∃ t, Workflow.empty (slantRecord 1 [1, 2, 3, 4] [0, 1, 0, 2]) slantSet = .ok t ∧
      t.frequencies = [0, 250, 500] := by
    have e : WT.keepIds (WT.binFrequencies 4 (250 : ℚ)) 100 600 1 = .ok [0, 1, 2] := by decide +kernel
    have ed : (⟨[1, 2, 3, 4], 1 / 1000, 1, 0, 1⟩ : ATS).dfInternal = 250 := by decide +kernel
    have eb : WT.binFrequencies 4 (250 : ℚ) = [0, 250, 500, 750] := by decide +kernel
    obtain ⟨v, hv⟩ : ∃ v, WT.createVector ((2000 : ℚ) : ℝ) ((4000 : ℚ) : ℝ) 2 "linear" = .ok v := by
      simp [WT.createVector]
    refine ⟨⟨0, [0, 250, 500], v, List.replicate 2 (List.replicate 3 0)⟩, ?_, rfl⟩
    show (do
      let ids ← WT.keepIds (WT.binFrequencies 4 (⟨[1, 2, 3, 4], 1 / 1000, 1, 0, 1⟩ : ATS).dfInternal) 100 600 1
      let vels ← WT.createVector ((2000 : ℚ) : ℝ) ((4000 : ℚ) : ℝ) 2 "linear"
      return (⟨0, ids.map fun k => (WT.binFrequencies 4
        (⟨[1, 2, 3, 4], 1 / 1000, 1, 0, 1⟩ : ATS).dfInternal).getD k 0, vels,
        List.replicate 2 (List.replicate ids.length 0)⟩ : Transform)) = _
    rw [ed, e, eb, hv]
    rfl
  obtain ⟨t0, e1, e2⟩ := hempty
  obtain ⟨r, hr, -⟩ := C78_run_returns slantShots slantSet "first" [f] _ _ _ _ _ _ _ (none, none) t0 T0 slant_first
    (by simp [slantRecord]) (slantRecord_outside _ _ _) ⟨_, _, rfl, rfl, rfl, rfl⟩ e1
    (slantRecord_steps 1 _ _ (by decide +kernel) none _) (fun h => by cases h) (fun _ => rfl) ⟨_, rfl, t1⟩
    (by rw [e2]; exact slantRecord_shape t1 t2)
    (by
      intro f' hf'
      simp only [List.mem_cons, List.not_mem_nil, or_false] at hf'
      subst hf'
      exact ⟨_, hf, ⟨rfl, rfl⟩, _, _, T, ⟨_, _, _, _, hf, slantRecord_outside _ _ _,
        slantRecord_steps k _ _ ho _ _, _, rfl, g1⟩, by rw [e2]; exact slantRecord_shape g1 g2⟩)
    (fun h => by cases h)
  exact ⟨r, hr⟩

/-- The hypotheses of `C170_same_image` are met by the files "first" and "second". -/
example : ∃ rt rf, Shots slantShots (fun _ => 1) 4 (1 / 1000) 0 ["first", "second"] ∧
    slantSet.transform = "slantstack" ∧ LinearOperation slantShots.detrend ∧
    timeDomain slantShots slantSet (.many ["first", "second"]) = .ok rt ∧
    frequencyDomain slantShots slantSet (.many ["first", "second"]) = .ok rf ∧
    rf.transform.frequencies = [0, 250, 500] ∧ cell rf.transform.power 0 0 = some (17 / 2) := by
  have hsh : Shots slantShots (fun _ => 1) 4 (1 / 1000) 0 ["first", "second"] := by
    obtain ⟨h1, h2, h3, h4, h5⟩ := slant_shots ["first", "second"] (by decide)
    refine ⟨h1, h2, h3, h4, fun f hf => ?_⟩
    have e : slantCount f = 1 := by
      simp only [List.mem_cons, List.not_mem_nil, or_false] at hf
      rcases hf with rfl | rfl <;> rfl
    rw [← e]
    exact h5 f hf
  obtain ⟨rt, ht, h2, h3⟩ := slant_time _ _ _ _ _ _ _ [[7 / 2, 5], [5, 19 / 4]] slant_equal (by decide +kernel)
    (by decide +kernel)
  obtain ⟨rf, hf⟩ := slant_frequency "second" 1 [[5, 8], [17 / 2, 7]] slant_second (by decide +kernel) (by decide +kernel)
  obtain ⟨c1, c2⟩ := C170_same_image slantShots slantSet (fun _ => 1) (fun a _ n => List.replicate n a) (by simp) rfl rfl
    linear_id slant_velocities 1 4 (1 / 1000) 0 "first" ["second"] hsh rt rf ht hf (fun h => by cases h)
  refine ⟨rt, rf, hsh, rfl, linear_id, ht, hf, by rw [c1, h2], ?_⟩
  rw [c2 0 0 (by decide) (by rw [h2]; decide), h3]
  norm_num [cell, Builtin.fftPadded, WT.fftBin, Finset.sum_range_succ]

/-- **C170**: equal stack counts are needed.  For a file with one shot and a file with three the time-domain workflow
weights the images by these counts, the frequency-domain workflow does not. -/
theorem C170_counts_matter : ∃ rt rf, timeDomain slantShots slantSet (.many ["first", "three"]) = .ok rt ∧
    frequencyDomain slantShots slantSet (.many ["first", "three"]) = .ok rf ∧
    cell rt.transform.power 0 0 = some (43 / 4) ∧ cell rf.transform.power 0 0 = some (17 / 2) := by
  obtain ⟨rt, r1, r2, ht, hrs, -, h1, h2, h3⟩ := slant_time_runs
  obtain ⟨rf, hf⟩ := slant_frequency "three" 3 [[5, 8], [17 / 2, 7]] slant_three (by decide +kernel) (by decide +kernel)
  refine ⟨rt, rf, ht, hf, h1, ?_⟩
  obtain ⟨T0, Ts, level, muted, hp0, hps, hfr, hmean⟩ := C78_registered_mean slantShots slantSet (fun _ => 1)
    (fun a _ n => List.replicate n a) (by simp) rfl (fun _ => rfl) "first" ["three"] rf 4 (1 / 1000) 0
    (slant_shots ["first", "three"] (by decide)).recorded (by decide) hf
  have one : ∀ f k u0 u1 u2 u3 v rows kw lines level muted T,
      fromFiles slantShots (.one f) = .ok (slantRecord k [u0, u1, u2, u3] v) →
      trimOffsetsFl (slantRecord k [u0, u1, u2, u3] v) 0 .pinf = (slantRecord k [u0, u1, u2, u3] v, .ok ()) →
      slantStackOfArray (slantRecord k [u0, u1, u2, u3] v) [2000, 4000] = .ok rows →
      Spec.PerFile slantShots slantSet kw lines f level muted T → T.frequencies = [0, 250, 500] ∧
      T.power = rows.map fun row => [0, 1, 2].map fun k => Builtin.fftPadded row 4 k := by
    rintro f k u0 u1 u2 u3 v rows kw lines level muted T e1 e2 e3 ⟨raw, near, cut, padded, g1, -, ⟨p1, p2, p3, p4, p5, p6⟩, g4⟩
    rw [e1, Except.ok.injEq] at g1
    subst g1
    have p1' : trimOffsetsFl (slantRecord k [u0, u1, u2, u3] v) 0 .pinf = (near, .ok ()) := p1
    rw [e2] at p1'
    obtain rfl := (Prod.mk.inj p1').1
    have hl : level = slantRecord k [u0, u1, u2, u3] v := by
      obtain ⟨ss, so⟩ := level
      simp only at p2 p3
      rw [p2, p3]
      rfl
    obtain rfl : cut = level := p4
    obtain rfl : muted = cut := p5
    obtain rfl : padded = muted := p6
    have hT := slantstack_class rfl rfl g4
    rw [hl] at hT
    obtain ⟨T', hT', q1, q2⟩ := slantRecord_transform k u0 u1 u2 u3 v rows e3
    rw [hT', Except.ok.injEq] at hT
    subst hT
    exact ⟨q1, q2⟩
  cases hps with
  | cons hp1 hnil =>
    cases hnil
    obtain ⟨level1, muted1, hp1⟩ := hp1
    obtain ⟨f1, w1⟩ := one "first" _ _ _ _ _ _ [[2, 2], [3 / 2, 5 / 2]] _ _ _ _ _ slant_first (by decide +kernel)
      (by decide +kernel) hp0
    obtain ⟨f2, w2⟩ := one "three" _ _ _ _ _ _ [[5, 8], [17 / 2, 7]] _ _ _ _ _ slant_three (by decide +kernel)
      (by decide +kernel) hp1
    rw [hmean 0 0 (by decide) (by rw [← hfr _ List.mem_cons_self, f1]; decide)]
    simp only [List.map_cons, List.map_nil, w1, w2]
    norm_num [cell, Builtin.fftPadded, WT.fftBin, Finset.sum_range_succ]

end Verif.Props
