import Verif.Lemmas.Records
import Mathlib.Algebra.Order.BigOperators.Group.List
import Mathlib.Data.Int.Cast.Lemmas

/-!
# C01, C02: stacking of records
-/

namespace Verif.Props
open Verif ATS

/-- **C01** (weighted mean).  After any history of successful `stack_append` calls, every sample
is the stack-weighted mean of the original record and all appended records, `nstacks` is the
total and nothing else has changed. -/
theorem C01_stack_history_is_weighted_mean (r r' : ATS) (hs : List ATS)
    (hr : 0 < r.nstacks) (hpos : ∀ h ∈ hs, 0 < h.nstacks)
    (hrun : runCalls stackAppend r hs = (r', .ok ())) :
    r'.nstacks = r.nstacks + (hs.map ATS.nstacks).sum ∧
    r'.nsamples = r.nsamples ∧ r'.dt = r.dt ∧ r'.delay = r.delay ∧ r'.multiple = r.multiple ∧
    ∀ i < r.nsamples, r'.amp[i]? =
      some (Spec.weightedMean ((r :: hs).map fun h => ((h.nstacks : ℚ), h.amp)) i) := by
  obtain ⟨e1, e2, e3, e4, e5, e6⟩ := runStack_inv hs r r' hr hpos hrun
  refine ⟨e5, e3, e1, e2, e4, ?_⟩
  intro i hi
  have hsum : 0 ≤ (hs.map ATS.nstacks).sum :=
    List.sum_nonneg (by
      intro x hx
      obtain ⟨h, hh, rfl⟩ := List.mem_map.1 hx
      exact le_of_lt (hpos h hh))
  have hp : (r'.nstacks : ℚ) ≠ 0 := by
    have : (0 : ℤ) < r'.nstacks := by omega
    exact_mod_cast ne_of_gt this
  have hlt : i < r'.amp.length := by
    have : r'.nsamples = r'.amp.length := rfl
    omega
  have h6 := e6 i hi
  have hcast : ((r :: hs).map fun h => (h.nstacks : ℚ)).sum = (r'.nstacks : ℚ) := by
    have hl : ∀ l : List ATS, (l.map fun h => (h.nstacks : ℚ)).sum = ((l.map ATS.nstacks).sum : ℤ) := by
      intro l
      induction l with
      | nil => simp
      | cons a l ih => simp [ih]
    rw [hl, e5]
    simp
  have key : r'.amp.getD i 0 =
      Spec.weightedMean ((r :: hs).map fun h => ((h.nstacks : ℚ), h.amp)) i := by
    unfold Spec.weightedMean
    simp only [List.map_map, Function.comp_def]
    rw [hcast, eq_div_iff hp, mul_comm, h6]
    simp
  rw [← key]
  simp [List.getElem?_eq_getElem hlt]

/-- **C01** (order).  The appended records may be appended in any order: the calls succeed as well
and the resulting object is the same. -/
theorem C01_stack_history_order_irrelevant (r r' : ATS) (hs ts : List ATS)
    (hr : 0 < r.nstacks) (hpos : ∀ h ∈ hs, 0 < h.nstacks) (hperm : hs.Perm ts)
    (hrun : runCalls stackAppend r hs = (r', .ok ())) :
    runCalls stackAppend r ts = (r', .ok ()) := by
  have hall := (runStack_ok_iff hs r).1 ⟨r', hrun⟩
  have hts : ∀ h ∈ ts, r.dt = h.dt ∧ r.delay = h.delay ∧ r.nsamples = h.nsamples :=
    fun h hh => hall h (hperm.mem_iff.2 hh)
  obtain ⟨r2, h2⟩ := (runStack_ok_iff ts r).2 hts
  have hpos2 : ∀ h ∈ ts, 0 < h.nstacks := fun h hh => hpos h (hperm.mem_iff.2 hh)
  obtain ⟨a1, a2, a3, a4, a5, a6⟩ :=
    C01_stack_history_is_weighted_mean r r' hs hr hpos hrun
  obtain ⟨b1, b2, b3, b4, b5, b6⟩ :=
    C01_stack_history_is_weighted_mean r r2 ts hr hpos2 h2
  have hw : ∀ i, Spec.weightedMean ((r :: hs).map fun h => ((h.nstacks : ℚ), h.amp)) i =
      Spec.weightedMean ((r :: ts).map fun h => ((h.nstacks : ℚ), h.amp)) i := by
    intro i
    have hp2 := (hperm.cons r).map fun h : ATS => ((h.nstacks : ℚ), h.amp)
    unfold Spec.weightedMean
    rw [(hp2.map _).sum_eq, (hp2.map _).sum_eq]
  have hamp : r'.amp = r2.amp := by
    apply List.ext_getElem?
    intro i
    by_cases hi : i < r.nsamples
    · rw [a6 i hi, b6 i hi, hw i]
    · have h1 : r'.amp.length = r.nsamples := a2
      have h2 : r2.amp.length = r.nsamples := b2
      rw [List.getElem?_eq_none (by omega), List.getElem?_eq_none (by omega)]
  have hns : r'.nstacks = r2.nstacks := by
    rw [a1, b1, (hperm.map _).sum_eq]
  rw [h2]
  congr 1
  cases r'; cases r2
  simp only at hamp hns a3 a4 a5 b3 b4 b5
  simp [hamp, hns, a3, a4, a5, b3, b4, b5]

/-- **C01** (any record may come first).  Stacking a group of records yields the same samples and
stack count whichever record of the group is the base. -/
theorem C01_stack_base_irrelevant (r s r' s' : ATS) (hs ts : List ATS)
    (hpos : ∀ h ∈ r :: hs, 0 < h.nstacks) (hperm : (r :: hs).Perm (s :: ts))
    (h1 : runCalls stackAppend r hs = (r', .ok ()))
    (h2 : runCalls stackAppend s ts = (s', .ok ())) :
    r'.amp = s'.amp ∧ r'.nstacks = s'.nstacks ∧ r'.dt = s'.dt ∧ r'.delay = s'.delay := by
  have hposs : ∀ h ∈ s :: ts, 0 < h.nstacks := fun h hh => hpos h (hperm.mem_iff.2 hh)
  obtain ⟨a1, a2, a3, a4, a5, a6⟩ := C01_stack_history_is_weighted_mean r r' hs
    (hpos r (by simp)) (fun h hh => hpos h (by simp [hh])) h1
  obtain ⟨b1, b2, b3, b4, b5, b6⟩ := C01_stack_history_is_weighted_mean s s' ts
    (hposs s (by simp)) (fun h hh => hposs h (by simp [hh])) h2
  have hall := (runStack_ok_iff hs r).1 ⟨r', h1⟩
  have hsim : r.dt = s.dt ∧ r.delay = s.delay ∧ r.nsamples = s.nsamples := by
    have : s ∈ r :: hs := hperm.mem_iff.2 (by simp)
    rcases List.mem_cons.1 this with rfl | h
    · simp
    · exact hall s h
  have hw : ∀ i, Spec.weightedMean ((r :: hs).map fun h => ((h.nstacks : ℚ), h.amp)) i =
      Spec.weightedMean ((s :: ts).map fun h => ((h.nstacks : ℚ), h.amp)) i := by
    intro i
    have hp2 := hperm.map fun h : ATS => ((h.nstacks : ℚ), h.amp)
    unfold Spec.weightedMean
    rw [(hp2.map _).sum_eq, (hp2.map _).sum_eq]
  refine ⟨?_, ?_, by rw [a3, b3, hsim.1], by rw [a4, b4, hsim.2.1]⟩
  · apply List.ext_getElem?
    intro i
    by_cases hi : i < r.nsamples
    · rw [a6 i hi, b6 i (by omega), hw i]
    · have h1 : r'.amp.length = r.nsamples := a2
      have h2 : s'.amp.length = s.nsamples := b2
      rw [List.getElem?_eq_none (by omega), List.getElem?_eq_none (by omega)]
  · have := (hperm.map ATS.nstacks).sum_eq
    simp only [List.map_cons, List.sum_cons] at this
    rw [a1, b1, this]

/-- Hypotheses of C01 are met by a non-trivial history: three records with different stack counts. -/
example :
    let r : ATS := ⟨[1, 2, 3], 1 / 100, 2, -1 / 10, 1⟩
    let s : ATS := ⟨[4, 0, -3], 1 / 100, 1, -1 / 10, 1⟩
    let t : ATS := ⟨[0, 8, 1], 1 / 100, 5, -1 / 10, 3⟩
    runCalls stackAppend r [s, t] = (⟨[3 / 4, 11 / 2, 1], 1 / 100, 8, -1 / 10, 1⟩, .ok ()) := by
  decide +kernel

/-- **C02**.  `stack_append` succeeds exactly on records with the same time step, delay and number
of samples. -/
theorem C02_stack_succeeds_iff_compatible (r t : ATS) :
    (r.stackAppend t).2 = .ok () ↔
      r.dt = t.dt ∧ r.delay = t.delay ∧ r.amp.length = t.amp.length := by
  constructor
  · intro h
    exact ((stackAppend_ok_iff r t _).1 (Prod.ext rfl h)).1
  · intro h
    rw [(stackAppend_ok_iff r t _).2 ⟨h, rfl⟩]

/-- **C02**.  A refused `stack_append` raises `ValueError` and leaves the record as it was. -/
theorem C02_refused_stack_changes_nothing (r t : ATS)
    (h : ¬ (r.dt = t.dt ∧ r.delay = t.delay ∧ r.amp.length = t.amp.length)) :
    r.stackAppend t = (r, .error .valueError) := by
  have : ¬ r.isSimilar t (.coll ["nstacks"]) = true := by
    rw [isSimilar_nstacks_iff]; exact h
  simp only [Bool.not_eq_true] at this
  simp [stackAppend, this]

example :
    let r : ATS := ⟨[1, 2, 3], 1 / 100, 2, 0, 1⟩
    let t : ATS := ⟨[1, 2], 1 / 100, 2, 0, 1⟩
    ¬ (r.dt = t.dt ∧ r.delay = t.delay ∧ r.amp.length = t.amp.length) := by decide +kernel

/-- **C02** over histories: whatever calls are attempted (failures caught), the record equals the
result of the accepted ones alone. -/
theorem C02_refused_stacks_are_invisible (r : ATS) (ts : List ATS) :
    runAll stackAppend r ts =
      runAll stackAppend r
        (ts.filter fun t => decide (r.dt = t.dt ∧ r.delay = t.delay ∧
          r.amp.length = t.amp.length)) := by
  induction ts generalizing r with
  | nil => rfl
  | cons t ts ih =>
    by_cases h : r.dt = t.dt ∧ r.delay = t.delay ∧ r.amp.length = t.amp.length
    · rw [List.filter_cons_of_pos (by simpa using h)]
      simp only [runAll, List.foldl_cons] at ih ⊢
      rw [ih]
      have hok : r.stackAppend t = _ := (stackAppend_ok_iff r t _).2 ⟨h, rfl⟩
      obtain ⟨e1, e2, e3, _, _⟩ := stackAppend_ok_fields hok
      simp only [nsamples] at e3
      rw [hok]
      simp only at e1 e2 e3 ⊢
      rw [e3]
    · rw [List.filter_cons_of_neg (by simpa using h)]
      simp only [runAll, List.foldl_cons] at ih ⊢
      rw [C02_refused_stack_changes_nothing r t h]
      exact ih r

end Verif.Props
