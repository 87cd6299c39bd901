import Verif.Lemmas.Interp
import Verif.Lemmas.Drop
import Mathlib.Algebra.Order.BigOperators.Group.List
import Mathlib.Algebra.BigOperators.Ring.List
import Mathlib.Algebra.Order.Ring.Abs

/-! # Properties of the suite statistics -/

namespace Verif.Props

open Verif Mat

/-! ### C51 -/

theorem numbers_spec (l : List Fl) (qs : List ℚ) : Suite.numbers l = some qs ↔ l = qs.map Fl.fin := by
  induction l generalizing qs with
  | nil => cases qs <;> simp [Suite.numbers]
  | cons x l ih =>
    cases x with
    | fin q =>
      simp only [Suite.numbers]
      rcases h : Suite.numbers l with _ | r
      · simp only [reduceCtorEq, false_iff]
        intro hh
        cases qs with
        | nil => simp at hh
        | cons a qs =>
          simp only [List.map_cons, List.cons.injEq] at hh
          rw [(ih qs).2 hh.2] at h
          simp at h
      · have := (ih r).1 h
        subst this
        cases qs with
        | nil => simp
        | cons a qs =>
          simp only [Option.some.injEq, List.cons.injEq, List.map_cons, Fl.fin.injEq, and_congr_right_iff]
          intro _
          constructor
          · intro e; rw [e]
          · intro e
            have := (ih qs).2 e
            rw [h] at this
            simpa using this
    | _ => cases qs <;> simp [Suite.numbers]

theorem arrayRow_spec (xtype ytype : String) (xx : List ℚ) (p : Peaks) (row : List (Option ℚ))
    (h : Suite.arrayRow xtype ytype xx p = .ok row) :
    ∃ xs ys : List ℚ, p.simplify xtype = .ok (xs.map Fl.fin) ∧ p.simplify ytype = .ok (ys.map Fl.fin) ∧
      row = xx.map (interp (xs.zip ys)) := by
  unfold Suite.arrayRow at h
  rcases hx : p.simplify xtype with e | xs
  · simp [hx] at h
  rcases hy : p.simplify ytype with e | ys
  · simp [hx, hy] at h
  rcases ha : Suite.numbers xs with _ | a
  · simp [hx, hy, ha] at h
  rcases hb : Suite.numbers ys with _ | b
  · simp [hx, hy, ha, hb] at h
  simp only [hx, hy, ha, hb, Except.ok.injEq] at h
  exact ⟨a, b, by rw [(numbers_spec _ _).1 ha], by rw [(numbers_spec _ _).1 hb], h.symm⟩

theorem arrayRows_spec (xtype ytype : String) (xx : List ℚ) (ps : List Peaks) (rows : List (List (Option ℚ)))
    (h : Suite.arrayRows xtype ytype xx ps = .ok rows) :
    rows.length = ps.length ∧
      ∀ (i : ℕ) (p : Peaks), ps[i]? = some p → ∃ row, rows[i]? = some row ∧ Suite.arrayRow xtype ytype xx p = .ok row := by
  induction ps generalizing rows with
  | nil =>
    simp only [Suite.arrayRows, Except.ok.injEq] at h
    subst h
    simp
  | cons p ps ih =>
    simp only [Suite.arrayRows] at h
    rcases h1 : Suite.arrayRow xtype ytype xx p with e | r
    · simp [h1] at h
    rcases h2 : Suite.arrayRows xtype ytype xx ps with e | rs
    · simp [h1, h2] at h
    simp only [h1, h2, Except.ok.injEq] at h
    subst h
    obtain ⟨g1, g2⟩ := ih rs h2
    refine ⟨by simp [g1], ?_⟩
    intro i q hq
    cases i with
    | zero =>
      simp only [List.getElem?_cons_zero, Option.some.injEq] at hq
      subst hq
      exact ⟨r, by simp, h1⟩
    | succ i => simpa using g2 i q (by simpa using hq)

theorem toArray_spec (s : Suite) (xtype ytype : String) (xx xx' : List ℚ) (m : Mat)
    (h : s.toArray xtype ytype xx = .ok (xx', m)) :
    xx' = xx ∧ m.ncols = xx.length ∧ m.Wf ∧ m.rows.length = s.peaks.length ∧
      ∀ (i : ℕ) (p : Peaks), s.peaks[i]? = some p → ∃ xs ys : List ℚ,
        p.simplify xtype = .ok (xs.map Fl.fin) ∧ p.simplify ytype = .ok (ys.map Fl.fin) ∧
          m.rows[i]? = some (xx.map (interp (xs.zip ys))) := by
  unfold Suite.toArray at h
  rcases hr : Suite.arrayRows xtype ytype xx s.peaks with e | rows
  · simp [hr] at h
  simp only [hr, Except.ok.injEq, Prod.mk.injEq] at h
  obtain ⟨rfl, rfl⟩ := h
  obtain ⟨g1, g2⟩ := arrayRows_spec _ _ _ _ _ hr
  have key : ∀ (i : ℕ) (p : Peaks), s.peaks[i]? = some p → ∃ xs ys : List ℚ,
        p.simplify xtype = .ok (xs.map Fl.fin) ∧ p.simplify ytype = .ok (ys.map Fl.fin) ∧
          rows[i]? = some (xx.map (interp (xs.zip ys))) := by
    intro i p hp
    obtain ⟨row, e1, e2⟩ := g2 i p hp
    obtain ⟨xs, ys, e3, e4, rfl⟩ := arrayRow_spec _ _ _ _ _ e2
    exact ⟨xs, ys, e3, e4, e1⟩
  refine ⟨rfl, rfl, ?_, g1, key⟩
  intro row hrow
  obtain ⟨i, hi⟩ := List.mem_iff_getElem?.1 hrow
  have hlt : i < s.peaks.length := by
    rw [← g1]
    exact (List.getElem?_eq_some_iff.1 hi).1
  obtain ⟨xs, ys, _, _, e⟩ := key i s.peaks[i] (by simp [hlt])
  simp only at hi
  rw [e] at hi
  simp only [Option.some.injEq] at hi
  rw [← hi]
  simp

/-- **C51**.  `to_array` gives one row per member and one column per sample; each entry is the value at the sample of
the broken line through the member's (simplified) points: missing exactly outside the member's range, the member's
value at one of its abscissae, and between the values of the neighbouring abscissae otherwise. -/
theorem C51_resampling (s : Suite) (xtype ytype : String) (xx xx' : List ℚ) (m : Mat)
    (h : s.toArray xtype ytype xx = .ok (xx', m)) :
    xx' = xx ∧ m.rows.length = s.peaks.length ∧
      ∀ (i : ℕ) (p : Peaks), s.peaks[i]? = some p → ∃ xs ys : List ℚ,
        p.simplify xtype = .ok (xs.map Fl.fin) ∧ p.simplify ytype = .ok (ys.map Fl.fin) ∧
          ∃ row, m.rows[i]? = some row ∧ row.length = xx.length ∧
            ((((xs.zip ys).map fun q => q.1).Nodup) → ∀ (j : ℕ) (x : ℚ), xx[j]? = some x →
              ∃ v, row[j]? = some v ∧ Spec.Resampled (xs.zip ys) x v) := by
  obtain ⟨h1, _, _, h2, h3⟩ := toArray_spec _ _ _ _ _ _ h
  refine ⟨h1, h2, ?_⟩
  intro i p hp
  obtain ⟨xs, ys, e1, e2, e3⟩ := h3 i p hp
  refine ⟨xs, ys, e1, e2, _, e3, by simp, ?_⟩
  intro hd j x hx
  exact ⟨interp (xs.zip ys) x, by simp [hx], interp_spec _ hd x⟩

/-- **C51** (refusal).  `to_array` refuses a suite with a member whose simplified values contain NaN. -/
theorem C51_nan_refused (s : Suite) (xtype ytype : String) (xx : List ℚ) (p : Peaks) (hp : p ∈ s.peaks)
    (xs ys : List Fl) (hx : p.simplify xtype = .ok xs) (hy : p.simplify ytype = .ok ys)
    (hn : Fl.nan ∈ xs ∨ Fl.nan ∈ ys) :
    ∃ e, s.toArray xtype ytype xx = .error e := by
  rcases h : s.toArray xtype ytype xx with e | ⟨xx', m⟩
  · exact ⟨e, rfl⟩
  · exfalso
    obtain ⟨_, _, _, _, h3⟩ := toArray_spec _ _ _ _ _ _ h
    obtain ⟨i, hi⟩ := List.mem_iff_getElem?.1 hp
    obtain ⟨a, b, e1, e2, _⟩ := h3 i p hi
    rw [hx] at e1
    rw [hy] at e2
    simp only [Except.ok.injEq] at e1 e2
    subst e1 e2
    simp at hn

/-- A member with peaks at 1 and 3. -/
def statMember (id : String) (f v : List ℚ) : Peaks :=
  ⟨id, ⟨[f.length], f.map .fin⟩, ⟨[f.length], v.map .fin⟩, [], ⟨[f.length], f.map fun _ => true⟩⟩

/-- Three members of different ranges. -/
def statSuite : Suite :=
  ⟨[statMember "a" [3, 1] [100, 200], statMember "b" [1, 2] [100, 300], statMember "c" [2, 4] [500, 700]],
    ["a", "b", "c"]⟩

example : statSuite.toArray "frequency" "velocity" [1, 2, 3, 9] =
    .ok ([1, 2, 3, 9], ⟨4, [[some 200, some 150, some 100, none], [some 100, some 300, none, none],
      [none, some 500, some 600, none]]⟩) := by decide +kernel

/-! ### C52 -/

/-- **C52**.  Dropping incomplete data returns the sub-matrix of some rows `R` and columns `C` (each in their original
order) together with the sample locations of exactly those columns.  There are two candidates - first drop columns
with too few values, then rows, or the other way around - and the one with the larger benefit (missing entries
removed per value removed) is returned, the second one on a tie. -/
theorem C52_aligned (a : DropArgs) (xx : List ℚ) (m : Mat) (h : m.Wf) (hx : xx.length = m.ncols) :
    let e := entry m.rows
    let R0 := List.range m.rows.length
    let C0 := List.range m.ncols
    let C1 := Spec.keepCols e a.samplePercent a.sampleCount R0 C0
    let R1 := Spec.keepRows e a.obsPercent 0 R0 C1
    let R2 := Spec.keepRows e a.obsPercent 0 R0 C0
    let C2 := Spec.keepCols e a.samplePercent a.sampleCount R2 C0
    ∃ R C, R.Sublist R0 ∧ C.Sublist C0 ∧
      (drop a xx m).1 = C.map (fun c => xx.getD c 0) ∧
      (drop a xx m).2.ncols = C.length ∧
      (drop a xx m).2.rows = R.map (fun r => C.map fun c => e r c) ∧
      (if Spec.benefit e m.rows.length m.ncols R1 C1 > Spec.benefit e m.rows.length m.ncols R2 C2
        then R = R1 ∧ C = C1 else R = R2 ∧ C = C2) := by
  intro e R0 C0 C1 R1 R2 C2
  have key := drop_eq a xx m h hx
  simp only at key
  by_cases hb : Spec.benefit e m.rows.length m.ncols R1 C1 > Spec.benefit e m.rows.length m.ncols R2 C2
  · rw [if_pos hb] at key
    rw [key]
    exact ⟨R1, C1, keepRows_sublist _ _ _ _ _, keepRows_sublist _ _ _ _ _, rfl, rfl, rfl, by
      rw [if_pos hb]; exact ⟨rfl, rfl⟩⟩
  · rw [if_neg hb] at key
    rw [key]
    exact ⟨R2, C2, keepRows_sublist _ _ _ _ _, keepRows_sublist _ _ _ _ _, rfl, rfl, rfl, by
      rw [if_neg hb]; exact ⟨rfl, rfl⟩⟩

example : drop ⟨1 / 2, 0, 2⟩ [10, 20, 30] ⟨3, [[some 1, some 2, none], [some 3, some 4, none], [none, some 5, some 6],
    [none, none, some 7]]⟩ = ([10, 20], ⟨2, [[some 1, some 2], [some 3, some 4], [none, some 5]]⟩) := by
  decide +kernel

/-! ### C54 -/

theorem valid_map (f : ℕ → Option ℚ) (R : List ℕ) : valid (R.map f) = R.filterMap f := by
  simp [valid, List.filterMap_map]

theorem nanmean_spec (l : List (Option ℚ)) : Spec.IsMean (valid l) (nanmean l) := by
  unfold nanmean
  split_ifs with h
  · exact Or.inl ⟨h, rfl⟩
  · refine Or.inr ⟨h, _, rfl, ?_⟩
    have : ((valid l).length : ℚ) ≠ 0 := by
      simpa using h
    field_simp

theorem isMean_unique (vs : List ℚ) (a b : Option ℚ) (ha : Spec.IsMean vs a) (hb : Spec.IsMean vs b) : a = b := by
  rcases ha with ⟨h1, rfl⟩ | ⟨h1, q, rfl, h2⟩
  · rcases hb with ⟨_, rfl⟩ | ⟨h3, _⟩
    · rfl
    · exact absurd h1 h3
  · rcases hb with ⟨h3, _⟩ | ⟨_, r, rfl, h4⟩
    · exact absurd h3 h1
    · have : ((vs.length : ℕ) : ℚ) ≠ 0 := by simpa using h1
      rw [mul_right_cancel₀ this (h2.trans h4.symm)]

theorem nanstd_spec (l : List (Option ℚ)) : Spec.IsStd (valid l) (nanstd l) := by
  unfold nanstd
  split_ifs with h
  · exact Or.inl ⟨h, rfl⟩
  · have h2 : 2 ≤ (valid l).length := not_lt.1 h
    have hne : valid l ≠ [] := by
      intro e
      rw [e] at h2
      simp at h2
    have hn0 : ((valid l).length : ℚ) ≠ 0 := by simpa using hne
    have hn : (0 : ℚ) < ((valid l).length : ℚ) - 1 := by
      have : (2 : ℚ) ≤ (valid l).length := by exact_mod_cast h2
      linarith
    refine Or.inr ⟨h2, (valid l).sum / (valid l).length, _, Or.inr ⟨hne, _, rfl, by field_simp⟩, rfl,
      Real.sqrt_nonneg _, ?_⟩
    generalize (valid l).sum / ((valid l).length : ℚ) = mu
    have hs : 0 ≤ ((valid l).map fun x => (x - mu) * (x - mu)).sum := by
      apply List.sum_nonneg
      intro x hx
      obtain ⟨y, _, rfl⟩ := List.mem_map.1 hx
      exact mul_self_nonneg _
    rw [Real.sq_sqrt (by exact_mod_cast div_nonneg hs hn.le)]
    have e : ((((valid l).map fun x => (x - mu) * (x - mu)).sum / ((valid l).length - 1 : ℚ) : ℚ) : ℝ) *
        (((valid l).length : ℝ) - 1) = ((((valid l).map fun x => (x - mu) * (x - mu)).sum : ℚ) : ℝ) := by
      have : ((((valid l).map fun x => (x - mu) * (x - mu)).sum / ((valid l).length - 1 : ℚ)) *
        (((valid l).length : ℚ) - 1)) = ((valid l).map fun x => (x - mu) * (x - mu)).sum := by
        field_simp
      exact_mod_cast this
    rw [e]
    clear e hs hn hn0 hne h2 h
    induction valid l with
    | nil => simp
    | cons a l ih =>
      simp only [List.map_cons, List.sum_cons, Rat.cast_add, ih, Rat.cast_mul, Rat.cast_sub]
      ring

/-- **C54**.  `statistics` refuses suites with fewer than three members.  Otherwise, when it returns, there are members
`R` and sample indices `C` such that the reported locations are the samples `C` and the reported mean and standard
deviation of each of them are those of the values that the members `R` have there.  `R` and `C` are what is left of the
resampled values after dropping samples for which fewer than `count` members or less than one per cent of them have a
value, and members with values at less than one per cent of the samples. -/
theorem C54_statistics (s : Suite) (xtype ytype : String) (xx : List ℚ) (count : ℕ) :
    (s.peaks.length < 3 → s.statistics xtype ytype xx count = .error .valueError) ∧
    (3 ≤ s.peaks.length → ∀ (xx' : List ℚ) (m : Mat), s.toArray xtype ytype xx = .ok (xx', m) →
      ∃ (R C : List ℕ) (mean : List (Option ℚ)) (std : List (Option ℝ)),
        s.statistics xtype ytype xx count = .ok (C.map fun c => xx.getD c 0, mean, std) ∧
        R.Sublist (List.range s.peaks.length) ∧ C.Sublist (List.range xx.length) ∧
        (R, C) = Spec.keptData (entry m.rows) s.peaks.length xx.length (1 / 100) (1 / 100) count ∧
        mean.length = C.length ∧ std.length = C.length ∧
        ∀ (k c : ℕ), C[k]? = some c →
          Spec.IsMean (R.filterMap fun r => entry m.rows r c) (mean.getD k none) ∧
          Spec.IsStd (R.filterMap fun r => entry m.rows r c) (std.getD k none)) := by
  constructor
  · intro h
    simp [Suite.statistics, h]
  · intro h xx' m hm
    obtain ⟨rfl, h1, h2, h3, _⟩ := toArray_spec _ _ _ _ _ _ hm
    obtain ⟨R, C, hR, hC, e1, e2, e3, e4⟩ := C52_aligned ⟨1 / 100, 1 / 100, count⟩ xx' m h2 h1.symm
    have hmat : (drop ⟨1 / 100, 1 / 100, count⟩ xx' m).2 = sub (entry m.rows) R C := by
      rw [sub, ← e2, ← e3]
    have hcols : (drop ⟨1 / 100, 1 / 100, count⟩ xx' m).2.cols = C.map fun c => R.map fun r => entry m.rows r c := by
      rw [hmat, cols_sub]
    refine ⟨R, C, C.map fun c => nanmean (R.map fun r => entry m.rows r c),
      C.map fun c => nanstd (R.map fun r => entry m.rows r c), ?_, by rwa [← h3], by rwa [← h1], ?_, by simp, by simp, ?_⟩
    · unfold Suite.statistics
      rw [if_neg (not_lt.2 h), hm]
      simp only [hcols, e1, List.map_map, Function.comp_def]
    · rw [← h3, ← h1]
      simp only [Spec.keptData]
      split_ifs at e4 with hb
      · rw [if_pos hb, e4.1, e4.2]
      · rw [if_neg hb, e4.1, e4.2]
    · intro k c hk
      have hm := nanmean_spec (R.map fun r => entry m.rows r c)
      have hs := nanstd_spec (R.map fun r => entry m.rows r c)
      rw [valid_map] at hm hs
      simpa [List.getD_eq_getElem?_getD, hk] using ⟨hm, hs⟩

example : 3 ≤ statSuite.peaks.length ∧ (statSuite.toArray "frequency" "velocity" [1, 2, 3, 9]).isOk := by
  decide +kernel

/-! ### C53 -/

theorem present_pos (f : ℕ → Option ℚ) (C : List ℕ) (c : ℕ) (hc : c ∈ C) (h : (f c).isSome) : 1 ≤ Spec.present f C := by
  unfold Spec.present
  exact List.length_pos_of_mem (List.mem_filter.2 ⟨hc, h⟩)

theorem enough_one_percent (f : ℕ → Option ℚ) (C : List ℕ) (hlen : C.length ≤ 100) (hne : C ≠ [])
    (h : 1 ≤ Spec.present f C) : Spec.Enough (1 / 100) 0 f C := by
  refine ⟨Nat.zero_le _, ?_⟩
  have h0 : (0 : ℚ) < C.length := by
    have := List.length_pos_iff.2 hne
    exact_mod_cast this
  rw [le_div_iff₀ h0]
  have h1 : (C.length : ℚ) ≤ 100 := by exact_mod_cast hlen
  have h2 : (1 : ℚ) ≤ Spec.present f C := by exact_mod_cast h
  linarith

/-- Dropping rows without a value in a column does not change the values of the column. -/
theorem values_filter (f : ℕ → Option ℚ) (R : List ℕ) (P : ℕ → Bool) (h : ∀ r ∈ R, (f r).isSome → P r) :
    (R.filter P).filterMap f = R.filterMap f := by
  induction R with
  | nil => rfl
  | cons r R ih =>
    have ih' := ih fun q hq => h q (List.mem_cons_of_mem _ hq)
    have hr := h r List.mem_cons_self
    by_cases hP : P r
    · rw [List.filter_cons_of_pos hP, List.filterMap_cons, List.filterMap_cons, ih']
    · rw [List.filter_cons_of_neg hP, ih', List.filterMap_cons]
      cases hf : f r with
      | none => rfl
      | some v => rw [hf] at hr; exact absurd (hr rfl) hP

theorem present_eq_values (f : ℕ → Option ℚ) (R : List ℕ) : Spec.present f R = (R.filterMap f).length := by
  unfold Spec.present
  induction R with
  | nil => rfl
  | cons r R ih => cases h : f r <;> simp [h, ih]

theorem one_percent_le (k n : ℕ) (hn : n ≤ 100) (h : 1 ≤ k) (hk : k ≤ n) : (1 / 100 : ℚ) ≤ (k : ℚ) / n := by
  have h0 : (0 : ℚ) < n := by
    have : 0 < n := by omega
    exact_mod_cast this
  rw [le_div_iff₀ h0]
  have h1 : (n : ℚ) ≤ 100 := by exact_mod_cast hn
  have h2 : (1 : ℚ) ≤ k := by exact_mod_cast h
  linarith

theorem present_le (f : ℕ → Option ℚ) (R : List ℕ) : Spec.present f R ≤ R.length := List.length_filter_le _ _

/-- With at most 100 positions the fraction of one per cent only asks for one value. -/
theorem enough_iff (f : ℕ → Option ℚ) (R : List ℕ) (count : ℕ) (hR : R.length ≤ 100) :
    Spec.Enough (1 / 100) count f R ↔ max count 1 ≤ Spec.present f R := by
  constructor
  · rintro ⟨h1, h2⟩
    refine max_le h1 ?_
    rcases Nat.eq_zero_or_pos (Spec.present f R) with h0 | h0
    · rw [h0] at h2
      norm_num at h2
    · exact h0
  · intro h
    exact ⟨(le_max_left _ _).trans h, one_percent_le _ _ hR ((le_max_right _ _).trans h) (present_le _ _)⟩

/-- The drop procedure with at most 100 samples keeps only columns with enough values, and all their values. -/
theorem drop_count (xx : List ℚ) (m : Mat) (count : ℕ) (h : m.Wf) (hx : xx.length = m.ncols) (hc : m.ncols ≤ 100)
    (hv : ∃ r < m.rows.length, ∃ c < m.ncols, (entry m.rows r c).isSome) :
    ∃ R C : List ℕ, C.Sublist (List.range m.ncols) ∧
      (drop ⟨1 / 100, 1 / 100, count⟩ xx m).1 = C.map (fun c => xx.getD c 0) ∧
      (drop ⟨1 / 100, 1 / 100, count⟩ xx m).2 = sub (entry m.rows) R C ∧
      (∀ c ∈ C, R.filterMap (fun r => entry m.rows r c) =
        (List.range m.rows.length).filterMap fun r => entry m.rows r c) ∧
      (∀ c ∈ C, count ≤ Spec.present (fun r => entry m.rows r c) (List.range m.rows.length)) ∧
      (m.rows.length ≤ 100 → C = (List.range m.ncols).filter fun c =>
        decide (max count 1 ≤ Spec.present (fun r => entry m.rows r c) (List.range m.rows.length))) := by
  obtain ⟨R, C, hR, hC, e1, e2, e3, e4⟩ := C52_aligned ⟨1 / 100, 1 / 100, count⟩ xx m h hx
  refine ⟨R, C, hC, e1, by rw [sub, ← e2, ← e3], ?_⟩
  obtain ⟨r0, hr0, c0, hc0, hs0⟩ := hv
  have hR0 : List.range m.rows.length ≠ [] := by
    intro e
    have : r0 ∈ List.range m.rows.length := List.mem_range.2 hr0
    rw [e] at this
    simp at this
  have hC0 : List.range m.ncols ≠ [] := by
    intro e
    have : c0 ∈ List.range m.ncols := List.mem_range.2 hc0
    rw [e] at this
    simp at this
  split_ifs at e4 with hb
  · obtain ⟨rfl, rfl⟩ := e4
    have hCd : Spec.keepCols (entry m.rows) (1 / 100) count (List.range m.rows.length) (List.range m.ncols) =
        (List.range m.ncols).filter fun c =>
          Spec.Enough (1 / 100) count (fun r => entry m.rows r c) (List.range m.rows.length) := by
      rw [Spec.keepCols, Spec.keepRows, if_neg (by simp [hR0, hC0])]
    simp only at hC ⊢
    rw [hCd] at hC ⊢
    refine ⟨?_, ?_, ?_⟩
    · intro c hcC
      have hCne := List.ne_nil_of_mem hcC
      have hlen := hC.length_le
      rw [List.length_range] at hlen
      rw [Spec.keepRows, if_neg (not_or.2 ⟨hR0, hCne⟩), values_filter]
      intro r _ hs
      exact decide_eq_true (enough_one_percent _ _ (hlen.trans hc) hCne (present_pos _ _ c hcC hs))
    · intro c hcC
      exact (of_decide_eq_true (List.mem_filter.1 hcC).2).1
    · intro hn
      refine List.filter_congr fun c _ => ?_
      rw [decide_eq_decide]
      exact enough_iff _ _ _ (by simpa using hn)
  · obtain ⟨rfl, rfl⟩ := e4
    have hRd : Spec.keepRows (entry m.rows) (1 / 100) 0 (List.range m.rows.length) (List.range m.ncols) =
        (List.range m.rows.length).filter fun r =>
          Spec.Enough (1 / 100) 0 (fun c => entry m.rows r c) (List.range m.ncols) := by
      rw [Spec.keepRows, if_neg (by simp [hR0, hC0])]
    simp only at hR ⊢
    rw [hRd] at hR ⊢
    have hR2 : ((List.range m.rows.length).filter fun r =>
        decide (Spec.Enough (1 / 100) 0 (fun c => entry m.rows r c) (List.range m.ncols))) ≠ [] := by
      apply List.ne_nil_of_mem (a := r0)
      rw [List.mem_filter]
      refine ⟨List.mem_range.2 hr0, decide_eq_true (enough_one_percent _ _ (by simpa using hc) hC0 ?_)⟩
      exact present_pos _ _ c0 (List.mem_range.2 hc0) hs0
    have hval : ∀ c < m.ncols, ((List.range m.rows.length).filter fun r =>
        decide (Spec.Enough (1 / 100) 0 (fun c => entry m.rows r c) (List.range m.ncols))).filterMap
          (fun r => entry m.rows r c) = (List.range m.rows.length).filterMap fun r => entry m.rows r c := by
      intro c hcc
      rw [values_filter]
      intro r _ hs
      exact decide_eq_true (enough_one_percent _ _ (by simpa using hc) hC0
        (present_pos _ _ c (List.mem_range.2 hcc) hs))
    generalize ((List.range m.rows.length).filter fun r =>
        decide (Spec.Enough (1 / 100) 0 (fun c => entry m.rows r c) (List.range m.ncols))) = R at *
    rw [Spec.keepCols, Spec.keepRows, if_neg (not_or.2 ⟨hC0, hR2⟩)]
    refine ⟨?_, ?_, ?_⟩
    · intro c hcC
      exact hval c (List.mem_range.1 (List.mem_filter.1 hcC).1)
    · intro c hcC
      have h1 := (of_decide_eq_true (List.mem_filter.1 hcC).2).1
      rwa [present_eq_values, hval c (List.mem_range.1 (List.mem_filter.1 hcC).1), ← present_eq_values] at h1
    · intro hn
      refine List.filter_congr fun c hcm => ?_
      rw [decide_eq_decide, enough_iff _ _ _ (hR.length_le.trans (by simpa using hn)), present_eq_values,
        hval c (List.mem_range.1 hcm), ← present_eq_values]

/-- **C53**, partial: at most 100 samples, and at least one member with a value at one of them.  Every reported
location is then backed by at least `drop_sample_if_fewer_count` values: the reported mean and standard deviation are
those of all values that the members have there, and these are that many.  With at most 100 members, conversely, every
location with that many values (and at least one) is reported.  Missing: more than 100 samples, and suites without any
value in range, where the claim is false (below). -/
theorem C53_at_most_100_samples_partial (s : Suite) (xtype ytype : String) (xx : List ℚ) (count : ℕ)
    (h3 : 3 ≤ s.peaks.length) (xx' : List ℚ) (m : Mat) (hm : s.toArray xtype ytype xx = .ok (xx', m))
    (hx : xx.length ≤ 100)
    (hv : ∃ r < s.peaks.length, ∃ c < xx.length, (entry m.rows r c).isSome) :
    let valuesAt (c : ℕ) : List ℚ := (List.range s.peaks.length).filterMap fun r => entry m.rows r c
    ∃ (C : List ℕ) (mean : List (Option ℚ)) (std : List (Option ℝ)),
      s.statistics xtype ytype xx count = .ok (C.map fun c => xx.getD c 0, mean, std) ∧
      C.Sublist (List.range xx.length) ∧ mean.length = C.length ∧ std.length = C.length ∧
      (∀ (k c : ℕ), C[k]? = some c → count ≤ (valuesAt c).length ∧
        Spec.IsMean (valuesAt c) (mean.getD k none) ∧ Spec.IsStd (valuesAt c) (std.getD k none)) ∧
      (s.peaks.length ≤ 100 → ∀ c < xx.length, c ∈ C ↔ count ≤ (valuesAt c).length ∧ valuesAt c ≠ []) := by
  intro valuesAt
  obtain ⟨rfl, h1, h2, h4, _⟩ := toArray_spec _ _ _ _ _ _ hm
  obtain ⟨R, C, hC, e1, e2, hR, e3, e4⟩ := drop_count xx' m count h2 h1.symm (by omega) (by rwa [h4, h1])
  rw [h4] at hR e3 e4
  refine ⟨C, C.map fun c => nanmean (R.map fun r => entry m.rows r c),
    C.map fun c => nanstd (R.map fun r => entry m.rows r c), ?_, by rwa [← h1], by simp, by simp, ?_, ?_⟩
  · unfold Suite.statistics
    rw [if_neg (not_lt.2 h3), hm]
    simp only [e2, e1, cols_sub, List.map_map, Function.comp_def]
  · intro k c hk
    have hcC : c ∈ C := List.mem_iff_getElem?.2 ⟨k, hk⟩
    have hmean := nanmean_spec (R.map fun r => entry m.rows r c)
    have hstd := nanstd_spec (R.map fun r => entry m.rows r c)
    rw [valid_map, hR c hcC] at hmean hstd
    refine ⟨?_, by simpa [List.getD_eq_getElem?_getD, hk] using hmean,
      by simpa [List.getD_eq_getElem?_getD, hk] using hstd⟩
    have := e3 c hcC
    rwa [present_eq_values] at this
  · intro hn c hcl
    rw [e4 hn, List.mem_filter, decide_eq_true_eq, present_eq_values, max_le_iff, Nat.one_le_iff_ne_zero, ne_eq,
      List.length_eq_zero_iff]
    simp [h1, hcl, valuesAt]

example : 3 ≤ statSuite.peaks.length ∧ [1, 2, 3, 9].length ≤ 100 ∧
    ∃ m, statSuite.toArray "frequency" "velocity" [1, 2, 3, 9] = .ok ([1, 2, 3, 9], m) ∧
      (entry m.rows 0 0).isSome := by
  refine ⟨by decide +kernel, by decide, ⟨4, [[some 200, some 150, some 100, none], [some 100, some 300, none, none],
      [none, some 500, some 600, none]]⟩, by decide +kernel, by decide +kernel⟩

/-- Two members over the whole range, one over all samples but the first, one at the first sample only. -/
def wideSuite : Suite :=
  ⟨[statMember "a" [0, 200] [100, 100], statMember "b" [0, 200] [120, 120], statMember "c" [1, 200] [130, 130],
    statMember "d" [0] [900]], ["a", "b", "c", "d"]⟩

/-- 102 sample locations. -/
def wideSamples : List ℚ := (List.range 102).map fun k => (k : ℚ)

/-- The matrix resampled from a suite. -/
def matrixOf (s : Suite) (xtype ytype : String) (xx : List ℚ) : Mat :=
  match s.toArray xtype ytype xx with
  | .error _ => ⟨0, []⟩
  | .ok (_, m) => m

theorem statistics_eq (s : Suite) (xtype ytype : String) (xx : List ℚ) (count : ℕ) (m : Mat)
    (h : s.toArray xtype ytype xx = .ok (xx, m)) (h3 : 3 ≤ s.peaks.length) :
    s.statistics xtype ytype xx count =
      .ok ((drop ⟨1 / 100, 1 / 100, count⟩ xx m).1, (drop ⟨1 / 100, 1 / 100, count⟩ xx m).2.cols.map nanmean,
        (drop ⟨1 / 100, 1 / 100, count⟩ xx m).2.cols.map nanstd) := by
  unfold Suite.statistics
  rw [if_neg (not_lt.2 h3), h]

/-- Numbers per reported sample location. -/
def backing (s : Suite) (xtype ytype : String) (xx : List ℚ) (count : ℕ) : Except PyErr (List (ℚ × ℕ)) :=
  match s.toArray xtype ytype xx with
  | .error e => .error e
  | .ok (xx, m) =>
    let r := drop ⟨1 / 100, 1 / 100, count⟩ xx m
    .ok (r.1.zip (r.2.cols.map numCount))

/-- **C53** is violated with more than 100 samples: a member with less than one per cent of the samples is dropped
after the columns have been counted.  Here `statistics` with the default count of 3 reports the first location although
only two of the retained values are there; a mean over the two of them is reported. -/
theorem C53_more_than_100_samples_fails :
    ∃ mean std, wideSuite.statistics "frequency" "velocity" wideSamples 3 = .ok (wideSamples, mean, std) ∧
      mean[0]? = some (some 110) ∧
      (backing wideSuite "frequency" "velocity" wideSamples 3).map (fun l => l[0]?) = .ok (some (0, 2)) := by
  have h : wideSuite.toArray "frequency" "velocity" wideSamples =
      .ok (wideSamples, matrixOf wideSuite "frequency" "velocity" wideSamples) := by decide +kernel
  have h1 : (drop ⟨1 / 100, 1 / 100, 3⟩ wideSamples (matrixOf wideSuite "frequency" "velocity" wideSamples)).1 =
      wideSamples := by decide +kernel
  refine ⟨_, _, (statistics_eq _ _ _ _ _ _ h (by decide +kernel)).trans (by rw [h1]), ?_, ?_⟩
  · decide +kernel
  · decide +kernel

/-- Three members without any value at the samples. -/
def farSuite : Suite :=
  ⟨[statMember "a" [1, 2] [100, 100], statMember "b" [1, 2] [120, 120], statMember "c" [1, 2] [130, 130]],
    ["a", "b", "c"]⟩

/-- **C53** is violated when no member has a value at any sample: all locations are reported, backed by nothing. -/
theorem C53_no_data_fails :
    ∃ std, farSuite.statistics "frequency" "velocity" [7, 8] 3 = .ok ([7, 8], [none, none], std) ∧
      backing farSuite "frequency" "velocity" [7, 8] 3 = .ok [(7, 0), (8, 0)] := by
  have h : farSuite.toArray "frequency" "velocity" [7, 8] =
      .ok ([7, 8], matrixOf farSuite "frequency" "velocity" [7, 8]) := by decide +kernel
  have h1 : (drop ⟨1 / 100, 1 / 100, 3⟩ [7, 8] (matrixOf farSuite "frequency" "velocity" [7, 8])).1 = [7, 8] := by
    decide +kernel
  have h2 : (drop ⟨1 / 100, 1 / 100, 3⟩ [7, 8] (matrixOf farSuite "frequency" "velocity" [7, 8])).2.cols.map nanmean =
      [none, none] := by decide +kernel
  exact ⟨_, (statistics_eq _ _ _ _ _ _ h (by decide +kernel)).trans (by rw [h1, h2]), by decide +kernel⟩

/-! ### C55 -/

theorem valid_substitute (l : List (Option ℚ)) (mu : ℚ) :
    (valid (l.map fun x => if x.isSome then x else some mu)).length = l.length ∧
      (valid (l.map fun x => if x.isSome then x else some mu)).sum =
        (valid l).sum + mu * (l.length - (valid l).length) := by
  induction l with
  | nil => simp [valid]
  | cons a l ih =>
    have c0 : ∀ l', valid (none :: l') = valid l' := fun _ => rfl
    have c1 : ∀ v l', valid (some v :: l') = v :: valid l' := fun _ _ => rfl
    cases a with
    | none =>
      simp only [List.map_cons, Option.isSome_none, Bool.false_eq_true, if_false, c0, c1, List.length_cons,
        List.sum_cons, ih, Nat.cast_add, Nat.cast_one]
      exact ⟨trivial, by ring⟩
    | some v =>
      simp only [List.map_cons, Option.isSome_some, if_true, c1, List.length_cons,
        List.sum_cons, ih, Nat.cast_add, Nat.cast_one]
      exact ⟨trivial, by ring⟩

/-- **C55**.  Replacing the missing entries of a column with at least one value by the column mean leaves no missing
entry, keeps every value, and leaves the mean unchanged. -/
theorem C55_mean_substitution (l : List (Option ℚ)) (h : ∃ v, some v ∈ l) :
    (substitute l).length = l.length ∧ (∀ x ∈ substitute l, x.isSome) ∧
      (∀ (i : ℕ) (v : ℚ), l[i]? = some (some v) → (substitute l)[i]? = some (some v)) ∧
      ∀ mu, Spec.IsMean (valid l) mu → Spec.IsMean (valid (substitute l)) mu := by
  obtain ⟨v, hv⟩ := h
  have hne : valid l ≠ [] := by
    apply List.ne_nil_of_mem (a := v)
    simp [valid, hv]
  obtain ⟨q, hq⟩ : ∃ q, nanmean l = some q := by
    unfold nanmean
    rw [if_neg hne]
    exact ⟨_, rfl⟩
  have hsub : substitute l = l.map fun x => if x.isSome then x else some q := by
    unfold substitute
    rw [hq]
  refine ⟨by simp [substitute], ?_, ?_, ?_⟩
  · rw [hsub]
    intro x hx
    obtain ⟨y, _, rfl⟩ := List.mem_map.1 hx
    cases y <;> simp
  · intro i w hi
    rw [hsub]
    simp [hi]
  · intro mu hmu
    have e := isMean_unique _ _ _ hmu (nanmean_spec l)
    rw [hq] at e
    subst e
    obtain ⟨h1, h2⟩ := valid_substitute l q
    have hl : l ≠ [] := List.ne_nil_of_mem hv
    rw [hsub]
    refine Or.inr ⟨?_, q, rfl, ?_⟩
    · intro e
      rw [e] at h1
      exact hl (List.length_eq_zero_iff.1 (by simpa using h1.symm))
    · rw [h2, h1]
      rcases hmu with ⟨e, _⟩ | ⟨_, r, e, h3⟩
      · exact absurd e hne
      · simp only [Option.some.injEq] at e
        subst e
        rw [← h3]
        ring

example : substitute [some 1, none, some 4] = [some 1, some (5 / 2), some 4] := by decide +kernel

end Verif.Props
