import Verif.Lemmas.CrossCorr
import Verif.Model.Sensor

/-!
# C09, C10: cross-correlation and cross-stacking
-/

namespace Verif.Props
open Verif ATS

/-- **C09**.  `crosscorr_shift(a, b)` of two records of equal length returns a shift `s` and the record
`b` moved by `s` samples, filled with zeros, of unchanged length; no overlapping shift correlates
better with `a`, and among equally good shifts the most negative one is taken. -/
theorem C09_crosscorr_shift_is_optimal (a b : ATS) (e : Excl) (s : ℤ) (out : List ℚ)
    (hlen : a.nsamples = b.nsamples) (h : crosscorrShift a b e = .ok (s, out)) :
    |s| < b.nsamples ∧ out.length = b.nsamples ∧
    (∀ i < b.nsamples, out[i]? = some (Spec.shiftedSample b.amp s i)) ∧
    (∀ s' : ℤ, |s'| < b.nsamples →
      Spec.correlation a.amp b.amp s' ≤ Spec.correlation a.amp b.amp s) ∧
    (∀ s' : ℤ, |s'| < b.nsamples → s' < s →
      Spec.correlation a.amp b.amp s' < Spec.correlation a.amp b.amp s) := by
  obtain ⟨-, h1, h2, h3, h4, h5⟩ := crosscorrShift_ok h
  have hs : |s| < b.nsamples := by rw [abs_lt]; omega
  have hout : out.length = b.nsamples := by rw [abs_lt] at hs; omega
  refine ⟨hs, hout, ?_, ?_, ?_⟩
  · intro i hi; exact h5 i (by omega)
  · intro s' hs'; rw [abs_lt] at hs'; exact h2 s' (by omega) (by omega)
  · intro s' hs' hlt; rw [abs_lt] at hs'; exact h3 s' (by omega) hlt

/-- **C09** (what is maximised): the reported correlation is the plain dot product of `a` with the
returned record. -/
theorem C09_correlation_of_returned_record (a b : ATS) (e : Excl) (s : ℤ) (out : List ℚ)
    (hlen : a.nsamples = b.nsamples) (h : crosscorrShift a b e = .ok (s, out)) :
    (List.zipWith (· * ·) a.amp out).sum = Spec.correlation a.amp b.amp s := by
  obtain ⟨-, h2, h3, -⟩ := C09_crosscorr_shift_is_optimal a b e s out hlen h
  unfold Spec.correlation
  congr 1
  apply List.ext_getElem?
  intro i
  have hla : a.amp.length = a.nsamples := rfl
  by_cases hi : i < b.nsamples
  · rw [List.getElem?_zipWith, h3 i hi, List.getElem?_map,
      List.getElem?_eq_getElem (show i < a.amp.length by omega),
      List.getElem?_eq_getElem (show i < (List.range a.amp.length).length by simp; omega)]
    simp [List.getElem?_eq_getElem (show i < a.amp.length by omega)]
  · rw [List.getElem?_eq_none (by simp; omega), List.getElem?_eq_none (by simp; omega)]

/-- Non-triviality of C09: `b` is `a` delayed by two samples; the shift found is -2. -/
example :
    crosscorrShift ⟨[0, 1, 3, 1, 0, 0], 1, 1, 0, 1⟩ ⟨[0, 0, 0, 1, 3, 1], 1, 1, 0, 1⟩ .none =
      .ok (-2, [0, 1, 3, 1, 0, 0]) := by decide +kernel

/-- **C10**.  A successful `from_cross_stack(a, b)` is the stack-weighted mean of `a` and of `b` moved
by a shift of best correlation, with the sum of the stack counts. -/
theorem C10_cross_stack_is_weighted_mean (a b c : ATS) (h : fromCrossStack a b = .ok c) :
    a.nsamples = b.nsamples ∧ a.dt = b.dt ∧ a.delay = b.delay ∧
    c.nstacks = a.nstacks + b.nstacks ∧ c.dt = a.dt ∧ c.delay = a.delay ∧
    c.nsamples = a.nsamples ∧
    ∃ s : ℤ, |s| < a.nsamples ∧
      (∀ s' : ℤ, |s'| < a.nsamples →
        Spec.correlation a.amp b.amp s' ≤ Spec.correlation a.amp b.amp s) ∧
      ∀ i < a.nsamples, c.amp[i]? = some (Spec.weightedMean
        [(a.nstacks, a.amp), (b.nstacks, (List.range b.nsamples).map (Spec.shiftedSample b.amp s))] i) := by
  have hcopy : ∀ r c : ATS, r.fromATS = .ok c → 0 < r.nstacks ∧ c = { r with multiple := 1 } := by
    intro r c hc
    unfold fromATS ATS.init checkInput at hc
    split_ifs at hc with h1 h2
    · simp [bind, Except.bind] at hc
    · simp [bind, Except.bind] at hc
    · simp only [bind, Except.bind, pure, Except.pure, Except.ok.injEq] at hc
      exact ⟨by omega, hc.symm⟩
  unfold fromCrossStack at h
  rcases ha : a.fromATS with e | obj
  · simp [ha, bind, Except.bind] at h
  rcases hb : b.fromATS with e | bc
  · simp [ha, hb, bind, Except.bind] at h
  obtain ⟨ha0, rfl⟩ := hcopy a obj ha
  obtain ⟨hb0, rfl⟩ := hcopy b bc hb
  rcases hcs : crosscorrShift a { b with multiple := 1 } (.coll ["nsamples", "nstacks"]) with e | ⟨s, out⟩
  · simp [ha, hb, hcs, bind, Except.bind] at h
  simp only [ha, hb, hcs, bind, Except.bind] at h
  rcases hst : ({ a with multiple := 1 } : ATS).stackAppend
    { b with multiple := 1, amp := out } with ⟨r, _ | ⟨⟨⟩⟩⟩
  · simp [hst] at h
  simp only [hst, Except.ok.injEq] at h
  subst h
  obtain ⟨hsim, hr, hmax, -, hol, hoi⟩ := crosscorrShift_ok hcs
  have hbn : ({ b with multiple := 1 } : ATS).nsamples = b.nsamples := rfl
  have hbl : b.amp.length = b.nsamples := rfl
  rw [hbn] at hr hmax hol
  obtain ⟨⟨e1, e2, e3⟩, hreq⟩ := (stackAppend_ok_iff _ _ _).1 hst
  obtain ⟨f1, f2, f3, f4, -⟩ := stackAppend_ok_fields hst
  simp only [nsamples] at e3
  have hal : a.amp.length = a.nsamples := rfl
  have hn : a.nsamples = b.nsamples := by omega
  refine ⟨hn, e1, e2, f4, f1, f2, f3, s, by rw [abs_lt]; omega, ?_, ?_⟩
  · intro s' hs'; rw [abs_lt] at hs'; exact hmax s' (by omega) (by omega)
  · intro i hi
    have hs := stackAppend_sample hst ha0 hb0 i hi
    simp only at hs
    have hoi' := hoi i (by omega)
    have hod : out.getD i 0 = Spec.shiftedSample b.amp s i := by
      rw [List.getD_eq_getElem?_getD, hoi']; rfl
    have hrl : i < r.amp.length := by
      have : r.amp.length = r.nsamples := rfl
      have f3' : r.nsamples = a.nsamples := f3
      omega
    have hpos : ((a.nstacks : ℚ) + b.nstacks) ≠ 0 := by
      have : (0 : ℤ) < a.nstacks + b.nstacks := by omega
      exact_mod_cast ne_of_gt this
    rw [List.getElem?_eq_getElem hrl]
    congr 1
    have hg : r.amp.getD i 0 = r.amp[i] := by simp [hrl]
    rw [← hg]
    unfold Spec.weightedMean
    have hm : ((List.range b.nsamples).map (Spec.shiftedSample b.amp s)).getD i 0 =
        Spec.shiftedSample b.amp s i := by
      simp [List.getD_eq_getElem?_getD, show i < b.nsamples by omega]
    simp only [List.map_cons, List.map_nil, List.sum_cons, List.sum_nil, add_zero, hm]
    rw [eq_div_iff hpos, ← hod, ← hs, f4]
    push_cast
    ring

/-- **C10** (records of different length).  They are always refused with `ValueError`. -/
theorem C10_cross_stack_refuses_unequal_lengths (a b : ATS) (hne : a.nsamples ≠ b.nsamples) :
    fromCrossStack a b = .error .valueError := by
  rcases hc : fromCrossStack a b with e | c
  · congr 1
    unfold fromCrossStack at hc
    simp only [bind, Except.bind] at hc
    split at hc
    · rename_i h
      simp only [Except.error.injEq] at hc
      rw [← hc]; exact fromATS_error h
    · split at hc
      · rename_i h
        simp only [Except.error.injEq] at hc
        rw [← hc]; exact fromATS_error h
      · split at hc
        · rename_i h
          simp only [Except.error.injEq] at hc
          rw [← hc]; exact crosscorrShift_error h
        · split at hc
          · simp at hc
          · rename_i h
            simp only [Except.error.injEq] at hc
            rw [← hc]; exact (stackAppend_error h).1
  · exact absurd (C10_cross_stack_is_weighted_mean a b c hc).1 hne

/-- **C10** (when it succeeds). -/
theorem C10_cross_stack_succeeds_iff (a b : ATS) :
    (∃ c, fromCrossStack a b = .ok c) ↔
      0 < a.nstacks ∧ 0 < b.nstacks ∧ a.delay ≤ 0 ∧ a.dt = b.dt ∧ a.delay = b.delay ∧
      a.nsamples = b.nsamples ∧ 0 < a.nsamples := by
  have hcase := fromATS_eq
  constructor
  · rintro ⟨c, hc⟩
    obtain ⟨h1, h2, h3, -, -, -, -, s, hs, -⟩ := C10_cross_stack_is_weighted_mean a b c hc
    have ha : 0 < a.nstacks ∧ a.delay ≤ 0 := by
      by_contra hcon
      simp [fromCrossStack, hcase a, hcon, bind, Except.bind] at hc
    have hb : 0 < b.nstacks ∧ b.delay ≤ 0 := by
      by_contra hcon
      simp [fromCrossStack, hcase a, ha, hcase b, hcon, bind, Except.bind] at hc
    refine ⟨ha.1, hb.1, ha.2, h2, h3, h1, ?_⟩
    have := abs_nonneg s
    omega
  · rintro ⟨h1, h2, h3, h4, h5, h6, h7⟩
    have hsim : a.isSimilar { b with multiple := 1 } (.coll ["nsamples", "nstacks"]) = true := by
      simp [isSimilar, h4, h5, Excl.has]
    have hne : correlate a.amp b.amp ≠ [] := by
      intro h0
      have := congrArg List.length h0
      rw [correlate_length] at this
      simp only [nsamples, List.length_nil] at h6 h7 this
      omega
    obtain ⟨m, hm⟩ := argmax_isSome hne
    have hcs : ∃ s out, crosscorrShift a { b with multiple := 1 } (.coll ["nsamples", "nstacks"]) =
        .ok (s, out) := by
      unfold crosscorrShift crosscorr
      simp only [hsim, Bool.not_true, Bool.false_eq_true, if_false, bind, Except.bind, hm]
      split_ifs <;> exact ⟨_, _, rfl⟩
    obtain ⟨s, out, hcs⟩ := hcs
    obtain ⟨-, hr, -, -, hol, -⟩ := crosscorrShift_ok hcs
    have hbn : ({ b with multiple := 1 } : ATS).nsamples = b.nsamples := rfl
    rw [hbn] at hr hol
    have hol' : out.length = a.nsamples := by omega
    have hst := (stackAppend_ok_iff ({ a with multiple := 1 } : ATS)
      { b with multiple := 1, amp := out } _).2 ⟨⟨h4, h5, by
        change a.nsamples = out.length; omega⟩, rfl⟩
    have ha : a.fromATS = .ok { a with multiple := 1 } := by rw [hcase, if_pos ⟨h1, h3⟩]
    have hb : b.fromATS = .ok { b with multiple := 1 } := by rw [hcase, if_pos ⟨h2, h5 ▸ h3⟩]
    exact ⟨_, by
      simp only [fromCrossStack, ha, hb, bind, Except.bind, hcs]
      rw [hst]⟩

example : ∃ c, fromCrossStack ⟨[0, 1, 3, 1, 0, 0], 1, 1, 0, 1⟩ ⟨[0, 0, 0, 1, 3, 1], 1, 3, 0, 1⟩ =
    .ok c ∧ c.amp = [0, 1, 3, 1, 0, 0] ∧ c.nstacks = 4 := by
  refine ⟨⟨[0, 1, 3, 1, 0, 0], 1, 4, 0, 1⟩, ?_⟩
  decide +kernel

/-- **C10 fails** for sensors.  Sensors are records with a position, yet cross-stacking two of them through their own class
never gives a sensor: it raises `TypeError`, also when their records can be cross-stacked. -/
theorem C10_sensors_fails (a b : Sensor) : Sensor.fromCrossStack a b = .error .typeError := rfl

/-- The records of these two sensors can be cross-stacked. -/
example : ∃ (a b : Sensor) (c : ATS), a.ts.fromCrossStack b.ts = .ok c ∧ c.nstacks = 4 ∧ (a.x, a.y, a.z) = (b.x, b.y, b.z) := by
  refine ⟨⟨⟨[0, 1, 3, 1, 0, 0], 1, 1, 0, 1⟩, 2, 0, 0⟩, ⟨⟨[0, 0, 0, 1, 3, 1], 1, 3, 0, 1⟩, 2, 0, 0⟩,
    ⟨[0, 1, 3, 1, 0, 0], 1, 4, 0, 1⟩, ?_⟩
  decide +kernel

end Verif.Props
