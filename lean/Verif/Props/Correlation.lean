import Verif.Model.Correlation
import Verif.Spec.Correlation
import Verif.Props.Statistics
import Mathlib.Algebra.BigOperators.Fin
import Mathlib.Algebra.Order.BigOperators.Ring.Finset

/-!
# C124: correlation coefficients; C125: filling of missing correlation coefficients
-/

namespace Verif.Props
open Verif Mat

/-! ## Correlation coefficients -/

theorem complete_map {α : Type} (f : α → ℚ) (l : List α) : complete (l.map fun a => some (f a)) = some (l.map f) := by
  induction l with
  | nil => rfl
  | cons a l ih => simp [complete, ih]

theorem complete_none {l : List (Option ℚ)} (h : none ∈ l) : complete l = none := by
  induction l with
  | nil => cases h
  | cons a l ih =>
    cases a with
    | none => rfl
    | some q => simp [complete, ih (by simpa using h)]

theorem cauchy (ps : List (ℝ × ℝ)) :
    (ps.map fun p => p.1 * p.2).sum ^ 2 ≤ (ps.map fun p => p.1 ^ 2).sum * (ps.map fun p => p.2 ^ 2).sum := by
  rw [← Fin.sum_univ_fun_getElem ps fun p => p.1 * p.2, ← Fin.sum_univ_fun_getElem ps fun p => p.1 ^ 2,
    ← Fin.sum_univ_fun_getElem ps fun p => p.2 ^ 2]
  exact Finset.sum_mul_sq_le_sq_mul_sq _ _ _

theorem sum_sq_eq_zero (l : List ℚ) (m : ℚ) : (l.map fun x => (x - m) * (x - m)).sum = 0 ↔ ∀ x ∈ l, x = m := by
  induction l with
  | nil => simp
  | cons a l ih =>
    have h1 : 0 ≤ (l.map fun x => (x - m) * (x - m)).sum :=
      List.sum_nonneg fun y hy => by
        obtain ⟨x, -, rfl⟩ := List.mem_map.1 hy
        exact mul_self_nonneg _
    simp only [List.map_cons, List.sum_cons, List.forall_mem_cons]
    rw [add_eq_zero_iff_of_nonneg (mul_self_nonneg _) h1, ih, mul_self_eq_zero, sub_eq_zero]

/-- Covariance of the coordinates of pairs. -/
theorem cov_map {α : Type} (f g : α → ℚ) (l : List α) :
    cov (l.map f) (l.map g) = (l.map fun a => (f a - (l.map f).sum / l.length) * (g a - (l.map g).sum / l.length)).sum /
      ((l.length : ℚ) - 1) := by
  unfold cov
  simp only [List.length_map, List.zipWith_map_left, List.zipWith_map_right, List.zipWith_self]

theorem sum_div_isMean (vs : List ℚ) (h : vs ≠ []) : Spec.IsMean vs (some (vs.sum / vs.length)) := by
  refine Or.inr ⟨h, _, rfl, ?_⟩
  have : (vs.length : ℚ) ≠ 0 := by simpa using h
  field_simp

theorem sum_cast {α : Type} (f : α → ℚ) (l : List α) : (((l.map f).sum : ℚ) : ℝ) = (l.map fun a => (f a : ℝ)).sum := by
  induction l with
  | nil => simp
  | cons a l ih => simp [ih]

/-- The model's entry is the correlation coefficient. -/
theorem corrEntry_spec (ps : List (ℚ × ℚ)) :
    Spec.IsCorrelation ps (corrEntry (ps.map fun p => some p.1) (ps.map fun p => some p.2)) := by
  unfold corrEntry
  rw [complete_map, complete_map]
  simp only [List.length_map]
  split_ifs with h1 h2
  · left
    refine ⟨Or.inl ?_, rfl⟩
    match ps, h1 with
    | [], _ => simp
    | [p], _ => simp
    | _ :: _ :: _, h => simp at h
  · left
    refine ⟨?_, rfl⟩
    have hn : ((ps.length : ℚ) - 1) ≠ 0 := by
      have : (2 : ℚ) ≤ ps.length := by exact_mod_cast not_lt.1 h1
      intro h; linarith
    have key : ∀ f : ℚ × ℚ → ℚ, cov (ps.map f) (ps.map f) = 0 → ∀ p ∈ ps, ∀ q ∈ ps, f p = f q := by
      intro f hf
      rw [cov_map, div_eq_zero_iff] at hf
      have hf := hf.resolve_right hn
      have h3 := (sum_sq_eq_zero (ps.map f) ((ps.map f).sum / ps.length)).1 (by
        rw [List.map_map]; exact hf)
      intro p hp q hq
      rw [h3 _ (List.mem_map_of_mem hp), h3 _ (List.mem_map_of_mem hq)]
    rcases h2 with h2 | h2
    · exact Or.inl (key _ h2)
    · exact Or.inr (key _ h2)
  · right
    push Not at h2
    have hlen : 2 ≤ ps.length := not_lt.1 h1
    have hne : ps ≠ [] := by rintro rfl; simp at hlen
    have hn : (0 : ℝ) < (ps.length : ℝ) - 1 := by
      have : (2 : ℝ) ≤ ps.length := by exact_mod_cast hlen
      linarith
    set mx := (ps.map Prod.fst).sum / (ps.length : ℚ) with hmx
    set my := (ps.map Prod.snd).sum / (ps.length : ℚ) with hmy
    set A := (ps.map fun p => ((p.1 - mx : ℚ) : ℝ) ^ 2).sum with hA
    set B := (ps.map fun p => ((p.2 - my : ℚ) : ℝ) ^ 2).sum with hB
    set S := (ps.map fun p => ((p.1 - mx : ℚ) : ℝ) * ((p.2 - my : ℚ) : ℝ)).sum with hS
    have cx : ((cov (ps.map fun p => p.1) (ps.map fun p => p.1) : ℚ) : ℝ) = A / ((ps.length : ℝ) - 1) := by
      rw [cov_map]
      push_cast
      rw [sum_cast, hA]
      congr 2
      refine List.map_congr_left fun p _ => ?_
      push_cast [hmx]
      ring
    have cy : ((cov (ps.map fun p => p.2) (ps.map fun p => p.2) : ℚ) : ℝ) = B / ((ps.length : ℝ) - 1) := by
      rw [cov_map]
      push_cast
      rw [sum_cast, hB]
      congr 2
      refine List.map_congr_left fun p _ => ?_
      push_cast [hmy]
      ring
    have cxy : ((cov (ps.map fun p => p.1) (ps.map fun p => p.2) : ℚ) : ℝ) = S / ((ps.length : ℝ) - 1) := by
      rw [cov_map]
      push_cast
      rw [sum_cast, hS]
      congr 2
      refine List.map_congr_left fun p _ => ?_
      push_cast [hmx, hmy]
      ring
    have nonneg : ∀ f : ℚ × ℚ → ℝ, 0 ≤ (ps.map fun p => f p ^ 2).sum := fun f =>
      List.sum_nonneg fun y hy => by
        obtain ⟨x, -, rfl⟩ := List.mem_map.1 hy
        positivity
    have hA0 : A ≠ 0 := by
      intro h
      rw [h, zero_div] at cx
      exact h2.1 (by exact_mod_cast cx)
    have hB0 : B ≠ 0 := by
      intro h
      rw [h, zero_div] at cy
      exact h2.2 (by exact_mod_cast cy)
    have hAp : 0 < A := lt_of_le_of_ne (nonneg _) (Ne.symm hA0)
    have hBp : 0 < B := lt_of_le_of_ne (nonneg _) (Ne.symm hB0)
    have hCS : S ^ 2 ≤ A * B := by
      have := cauchy (ps.map fun p => (((p.1 - mx : ℚ) : ℝ), ((p.2 - my : ℚ) : ℝ)))
      simpa [List.map_map, Function.comp_def, hS, hA, hB] using this
    have hval : (cov (ps.map fun p => p.1) (ps.map fun p => p.2) : ℝ) /
        Real.sqrt (cov (ps.map fun p => p.1) (ps.map fun p => p.1)) /
        Real.sqrt (cov (ps.map fun p => p.2) (ps.map fun p => p.2)) = S / (Real.sqrt A * Real.sqrt B) := by
      rw [cx, cy, cxy, Real.sqrt_div hAp.le, Real.sqrt_div hBp.le]
      have h3 := Real.mul_self_sqrt hn.le
      have h4 : Real.sqrt ((ps.length : ℝ) - 1) ≠ 0 := (Real.sqrt_pos.2 hn).ne'
      have h5 : Real.sqrt A ≠ 0 := (Real.sqrt_pos.2 hAp).ne'
      have h6 : Real.sqrt B ≠ 0 := (Real.sqrt_pos.2 hBp).ne'
      have h7 : (ps.length : ℝ) - 1 ≠ 0 := hn.ne'
      field_simp
      rw [sq, h3]
    have hbound : |S / (Real.sqrt A * Real.sqrt B)| ≤ 1 := by
      have hp : 0 < Real.sqrt A * Real.sqrt B := mul_pos (Real.sqrt_pos.2 hAp) (Real.sqrt_pos.2 hBp)
      rw [abs_div, abs_of_pos hp, div_le_one hp, ← Real.sqrt_mul hAp.le]
      exact Real.abs_le_sqrt hCS
    obtain ⟨hb1, hb2⟩ := abs_le.1 hbound
    refine ⟨mx, my, Real.sqrt A, Real.sqrt B, S / (Real.sqrt A * Real.sqrt B), ?_, ?_, Real.sqrt_pos.2 hAp,
      Real.sqrt_pos.2 hBp, Real.sq_sqrt hAp.le, Real.sq_sqrt hBp.le, ?_, ?_⟩
    · have := sum_div_isMean (ps.map Prod.fst) (by simpa using hne)
      simpa [hmx] using this
    · have := sum_div_isMean (ps.map Prod.snd) (by simpa using hne)
      simpa [hmy] using this
    · have h5 : Real.sqrt A ≠ 0 := (Real.sqrt_pos.2 hAp).ne'
      have h6 : Real.sqrt B ≠ 0 := (Real.sqrt_pos.2 hBp).ne'
      rw [← hS]
      field_simp
    · rw [hval, min_eq_right hb2, max_eq_right hb1]

/-- The values at samples `c` and `d` of those members `R` which have both. -/
def both (e : ℕ → ℕ → Option ℚ) (R : List ℕ) (c d : ℕ) : List (ℚ × ℚ) :=
  R.filterMap fun r => (e r c).bind fun x => (e r d).map fun y => (x, y)

theorem both_eq {e : ℕ → ℕ → Option ℚ} {R : List ℕ} {c d : ℕ}
    (h : ∀ r ∈ R, (e r c).isSome ∧ (e r d).isSome) :
    R.map (fun r => e r c) = (both e R c d).map (fun p => some p.1) ∧
    R.map (fun r => e r d) = (both e R c d).map (fun p => some p.2) := by
  induction R with
  | nil => simp [both]
  | cons r R ih =>
    obtain ⟨h1, h2⟩ := h r (by simp)
    obtain ⟨x, hx⟩ := Option.isSome_iff_exists.1 h1
    obtain ⟨y, hy⟩ := Option.isSome_iff_exists.1 h2
    obtain ⟨i1, i2⟩ := ih fun r hr => h r (by simp [hr])
    have hb : both e (r :: R) c d = (x, y) :: both e R c d := by simp [both, hx, hy]
    rw [hb]
    simp [hx, hy, i1, i2]

/-- Filling the gaps of a column by its mean. -/
theorem substitute_map (e : ℕ → ℕ → Option ℚ) (R : List ℕ) (c : ℕ) (mu : ℚ)
    (h : Spec.IsMean (R.filterMap fun r => e r c) (some mu)) :
    substitute (R.map fun r => e r c) = R.map fun r => some ((e r c).getD mu) := by
  have hm : nanmean (R.map fun r => e r c) = some mu := by
    refine isMean_unique _ _ _ ?_ h
    rw [← valid_map]
    exact nanmean_spec _
  unfold substitute
  rw [hm, List.map_map]
  refine List.map_congr_left fun r _ => ?_
  simp only [Function.comp_apply]
  cases e r c <;> simp

theorem corrEntry_pairs (R : List ℕ) (f g : ℕ → ℚ) :
    Spec.IsCorrelation (R.map fun r => (f r, g r))
      (corrEntry (R.map fun r => some (f r)) (R.map fun r => some (g r))) := by
  have := corrEntry_spec (R.map fun r => (f r, g r))
  simpa [List.map_map, Function.comp_def] using this

/-- **C124** (partial).  `statistics` with correlation coefficients reports the same locations, means and standard
deviations as without.  With the members `R` and samples `C` on which these rest (see `C54_statistics`), the coefficient of
two samples at which all members `R` have a value is Pearson's, whether or not means are substituted.  If one of the
values is missing, it is not a number, or, with `mean_substitution`, the coefficient of the values with the mean of each
sample in the gaps.  Missing from the full statement: the coefficient of the members which have both values
(`C124_missing_value_fails`). -/
theorem C124_correlations_partial (s : Suite) (xtype ytype : String) (xx : List ℚ) (ignore : Bool) (count : ℕ)
    (subst : Bool) (h : 3 ≤ s.peaks.length) (xx' : List ℚ) (m : Mat) (hm : s.toArray xtype ytype xx = .ok (xx', m)) :
    ∃ (R C : List ℕ) (mean : List (Option ℚ)) (std : List (Option ℝ)) (K : Option (List (List (Option ℝ)))),
      s.statisticsCorr xtype ytype xx ignore count subst = .ok (C.map fun c => xx.getD c 0, mean, std, K) ∧
      s.statistics xtype ytype xx count = .ok (C.map fun c => xx.getD c 0, mean, std) ∧
      (R, C) = Spec.keptData (entry m.rows) s.peaks.length xx.length (1 / 100) (1 / 100) count ∧
      (ignore = true → K = none) ∧
      (ignore = false → ∃ M, K = some M ∧ M.length = C.length ∧ (∀ row ∈ M, row.length = C.length) ∧
        ∀ (i j c d : ℕ), C[i]? = some c → C[j]? = some d → ∃ row rho, M[i]? = some row ∧ row[j]? = some rho ∧
          ((∀ r ∈ R, (entry m.rows r c).isSome ∧ (entry m.rows r d).isSome) →
            Spec.IsCorrelation (both (entry m.rows) R c d) rho) ∧
          (subst = false → (∃ r ∈ R, entry m.rows r c = none ∨ entry m.rows r d = none) → rho = none) ∧
          (subst = true → ∀ mu nu, Spec.IsMean (R.filterMap fun r => entry m.rows r c) (some mu) →
            Spec.IsMean (R.filterMap fun r => entry m.rows r d) (some nu) →
            Spec.IsCorrelation (R.map fun r => ((entry m.rows r c).getD mu, (entry m.rows r d).getD nu)) rho)) := by
  obtain ⟨rfl, h1, h2, h3, _⟩ := toArray_spec _ _ _ _ _ _ hm
  obtain ⟨R, C, hR, hC, e1, e2, e3, e4⟩ := C52_aligned ⟨1 / 100, 1 / 100, count⟩ xx' m h2 h1.symm
  have hmat : (drop ⟨1 / 100, 1 / 100, count⟩ xx' m).2 = sub (entry m.rows) R C := by
    rw [sub, ← e2, ← e3]
  have hcols : (drop ⟨1 / 100, 1 / 100, count⟩ xx' m).2.cols = C.map fun c => R.map fun r => entry m.rows r c := by
    rw [hmat, cols_sub]
  refine ⟨R, C, C.map fun c => nanmean (R.map fun r => entry m.rows r c),
    C.map fun c => nanstd (R.map fun r => entry m.rows r c),
    if ignore then none else some (C.map fun c => C.map fun d =>
      corrEntry (if subst then substitute (R.map fun r => entry m.rows r c) else R.map fun r => entry m.rows r c)
        (if subst then substitute (R.map fun r => entry m.rows r d) else R.map fun r => entry m.rows r d)),
    ?_, ?_, ?_, ?_, ?_⟩
  · unfold Suite.statisticsCorr
    rw [if_neg (not_lt.2 h), hm]
    simp only [hcols, e1, List.map_map, Function.comp_def]
    cases ignore <;> cases subst <;> simp [Function.comp_def]
  · unfold Suite.statistics
    rw [if_neg (not_lt.2 h), hm]
    simp only [hcols, e1, List.map_map, Function.comp_def]
  · rw [← h3, ← h1]
    simp only [Spec.keptData]
    split_ifs at e4 with hb
    · rw [if_pos hb, e4.1, e4.2]
    · rw [if_neg hb, e4.1, e4.2]
  · intro hi; rw [if_pos hi]
  · intro hi
    rw [hi]
    refine ⟨_, rfl, by simp, by simp, ?_⟩
    intro i j c d hc hd
    refine ⟨_, _, by rw [List.getElem?_map, hc]; rfl, by rw [List.getElem?_map, hd]; rfl, ?_, ?_, ?_⟩
    · intro hall
      have hsub : ∀ k, (∀ r ∈ R, (entry m.rows r k).isSome) →
          substitute (R.map fun r => entry m.rows r k) = R.map fun r => entry m.rows r k := by
        intro k hk
        unfold substitute
        rw [List.map_map]
        refine List.map_congr_left fun r hr => ?_
        simp [hk r hr]
      beta_reduce
      rw [hsub c fun r hr => (hall r hr).1, hsub d fun r hr => (hall r hr).2, ite_self, ite_self]
      obtain ⟨b1, b2⟩ := both_eq hall
      rw [b1, b2]
      exact corrEntry_spec _
    · rintro rfl ⟨r, hr, hn⟩
      simp only [Bool.false_eq_true, if_false]
      unfold corrEntry
      rcases hn with hn | hn
      · rw [complete_none (l := R.map fun r => entry m.rows r c) (List.mem_map.2 ⟨r, hr, hn⟩)]
      · rw [complete_none (l := R.map fun r => entry m.rows r d) (List.mem_map.2 ⟨r, hr, hn⟩)]
        split <;> simp_all
    · rintro rfl mu nu hmu hnu
      beta_reduce
      rw [if_pos rfl, if_pos rfl, substitute_map _ R c mu hmu, substitute_map _ R d nu hnu]
      exact corrEntry_pairs R _ _

theorem cov_comm {xs ys : List ℚ} (h : xs.length = ys.length) : cov xs ys = cov ys xs := by
  unfold cov
  rw [List.zipWith_comm, h]
  simp only [mul_comm]

theorem complete_length {l : List (Option ℚ)} {xs : List ℚ} (h : complete l = some xs) : xs.length = l.length := by
  induction l generalizing xs with
  | nil => cases h; rfl
  | cons a l ih =>
    cases a with
    | none => cases h
    | some q =>
      simp only [complete, Option.map_eq_some_iff] at h
      obtain ⟨ys, hy, rfl⟩ := h
      simp [ih hy]

theorem corrEntry_comm {a b : List (Option ℚ)} (h : a.length = b.length) : corrEntry a b = corrEntry b a := by
  unfold corrEntry
  rcases ha : complete a with _ | xs
  · rcases complete b with _ | ys <;> rfl
  · rcases hb : complete b with _ | ys
    · rfl
    · have hl : xs.length = ys.length := by rw [complete_length ha, complete_length hb, h]
      simp only [hl]
      rw [cov_comm hl, div_right_comm]
      split_ifs <;> first | rfl | tauto

theorem corrEntry_self (a : List (Option ℚ)) (rho : ℝ) (h : corrEntry a a = some rho) : rho = 1 := by
  unfold corrEntry at h
  rcases ha : complete a with _ | xs
  · rw [ha] at h; cases h
  rw [ha] at h
  simp only at h
  split_ifs at h with h1 h2
  rw [or_self] at h2
  have hp : (0 : ℝ) < cov xs xs := by
    have h0 : (0 : ℚ) ≤ cov xs xs := by
      have e := cov_map (fun x : ℚ => x) (fun x => x) xs
      simp only [List.map_id'] at e
      rw [e]
      apply div_nonneg
      · exact List.sum_nonneg fun y hy => by
          obtain ⟨x, -, rfl⟩ := List.mem_map.1 hy
          exact mul_self_nonneg _
      · have : (2 : ℚ) ≤ xs.length := by exact_mod_cast not_lt.1 h1
        linarith
    exact_mod_cast lt_of_le_of_ne h0 (Ne.symm h2)
  have e : (cov xs xs : ℝ) / Real.sqrt (cov xs xs) / Real.sqrt (cov xs xs) = 1 := by
    rw [div_div, Real.mul_self_sqrt hp.le, div_self hp.ne']
  rw [e] at h
  simp only [Option.some.injEq] at h
  rw [← h]
  norm_num

/-- **C124** (shape).  Whatever is missing and whether or not means are substituted, the reported coefficients form a
symmetric matrix, all of them lie between -1 and 1, and those of a sample with itself are one (or not a number). -/
theorem C124_symmetric_bounded (s : Suite) (xtype ytype : String) (xx xs : List ℚ) (count : ℕ) (subst : Bool)
    (mean : List (Option ℚ)) (std : List (Option ℝ)) (M : List (List (Option ℝ)))
    (h : s.statisticsCorr xtype ytype xx false count subst = .ok (xs, mean, std, some M)) :
    (∀ i j : ℕ, (M[i]?.bind fun row => row[j]?) = M[j]?.bind fun row => row[i]?) ∧
    (∀ row ∈ M, ∀ rho, some rho ∈ row → -1 ≤ rho ∧ rho ≤ 1) ∧
    ∀ (i : ℕ) (row : List (Option ℝ)) (rho : ℝ), M[i]? = some row → row[i]? = some (some rho) → rho = 1 := by
  unfold Suite.statisticsCorr at h
  by_cases h3 : s.peaks.length < 3
  · rw [if_pos h3] at h; cases h
  rw [if_neg h3] at h
  rcases hm : s.toArray xtype ytype xx with e | ⟨xx', m⟩
  · rw [hm] at h; cases h
  rw [hm] at h
  obtain ⟨rfl, h1, h2, h4, _⟩ := toArray_spec _ _ _ _ _ _ hm
  obtain ⟨R, C, hR, hC, e1, e2, e3, e4⟩ := C52_aligned ⟨1 / 100, 1 / 100, count⟩ xx' m h2 h1.symm
  have hmat : (drop ⟨1 / 100, 1 / 100, count⟩ xx' m).2 = sub (entry m.rows) R C := by
    rw [sub, ← e2, ← e3]
  obtain ⟨data, hdata, hM, hlen⟩ : ∃ data : List (List (Option ℚ)), True ∧
      M = (data.map fun a => data.map fun b => corrEntry a b) ∧ ∀ a ∈ data, a.length = R.length := by
    simp only [Bool.false_eq_true, if_false, Except.ok.injEq, Prod.mk.injEq, Option.some.injEq, hmat, cols_sub] at h
    refine ⟨_, trivial, h.2.2.2.symm, ?_⟩
    intro a ha
    cases subst
    · simp only [Bool.false_eq_true, if_false, List.mem_map] at ha
      obtain ⟨c, -, rfl⟩ := ha
      simp
    · simp only [if_true, List.map_map, List.mem_map, Function.comp_apply] at ha
      obtain ⟨c, -, rfl⟩ := ha
      simp [substitute]
  subst hM
  refine ⟨?_, ?_, ?_⟩
  · intro i j
    simp only [List.getElem?_map]
    rcases hi : data[i]? with _ | a
    · rcases hj : data[j]? with _ | b <;> simp [hi]
    · rcases hj : data[j]? with _ | b
      · simp [hj]
      · simp only [Option.map_some, Option.bind_some, List.getElem?_map, hi, hj]
        rw [corrEntry_comm]
        rw [hlen a (List.mem_of_getElem? hi), hlen b (List.mem_of_getElem? hj)]
  · intro row hrow rho hrho
    obtain ⟨a, -, rfl⟩ := List.mem_map.1 hrow
    obtain ⟨b, -, hb⟩ := List.mem_map.1 hrho
    unfold corrEntry at hb
    rcases ha' : complete a with _ | x
    · rw [ha'] at hb; cases hb
    rcases hb' : complete b with _ | y
    · rw [ha', hb'] at hb; cases hb
    rw [ha', hb'] at hb
    simp only at hb
    split_ifs at hb
    simp only [Option.some.injEq] at hb
    rw [← hb]
    exact ⟨le_max_left _ _, max_le (by norm_num) (min_le_left _ _)⟩
  · intro i row rho hrow hrho
    rw [List.getElem?_map] at hrow
    rcases hi : data[i]? with _ | a
    · rw [hi] at hrow; cases hrow
    rw [hi] at hrow
    simp only [Option.map_some, Option.some.injEq] at hrow
    subst hrow
    rw [List.getElem?_map, hi] at hrho
    simp only [Option.map_some, Option.some.injEq] at hrho
    exact corrEntry_self a rho hrho

/-- Three members with values at 1 and 2, a fourth one at 1 only. -/
def gapSuite : Suite :=
  ⟨[statMember "a" [1, 2] [100, 100], statMember "b" [1, 2] [200, 200], statMember "c" [1, 2] [300, 300],
    statMember "d" [1] [400]], ["a", "b", "c", "d"]⟩

theorem gapSuite_array : gapSuite.toArray "frequency" "velocity" [1, 2] =
    .ok ([1, 2], ⟨2, [[some 100, some 100], [some 200, some 200], [some 300, some 300], [some 400, none]]⟩) := by
  decide +kernel

/-- **C124** fails with a missing value.  The three members which have both values agree perfectly, the coefficient is
one.  Reported is no number, or, with `mean_substitution`, a smaller one. -/
theorem C124_missing_value_fails :
    (∃ xs mean std M, gapSuite.statisticsCorr "frequency" "velocity" [1, 2] false 3 false = .ok (xs, mean, std, some M) ∧
      (M[0]?.bind fun row => row[1]?) = some none) ∧
    (∃ xs mean std M rho, gapSuite.statisticsCorr "frequency" "velocity" [1, 2] false 3 true =
      .ok (xs, mean, std, some M) ∧ (M[0]?.bind fun row => row[1]?) = some rho ∧ rho ≠ some 1) ∧
    Spec.IsCorrelation [(100, 100), (200, 200), (300, 300)] (some 1) := by
  have hk : Spec.keptData (entry [[some 100, some 100], [some 200, some 200], [some 300, some 300], [some 400, none]])
      gapSuite.peaks.length [1, 2].length (1 / 100) (1 / 100) 3 = ([0, 1, 2, 3], [0, 1]) := by decide +kernel
  refine ⟨?_, ?_, ?_⟩
  · obtain ⟨R, C, mean, std, K, k1, -, k3, -, k5⟩ := C124_correlations_partial gapSuite "frequency" "velocity" [1, 2]
      false 3 false (by decide) _ _ gapSuite_array
    replace k3 := k3.trans hk
    cases k3
    obtain ⟨M, rfl, -, -, hM⟩ := k5 rfl
    obtain ⟨row, rho, r1, r2, -, r4, -⟩ := hM 0 1 0 1 rfl rfl
    refine ⟨_, _, _, M, k1, ?_⟩
    rw [r1, Option.bind_some, r2, r4 rfl ⟨3, by simp, Or.inr rfl⟩]
  · obtain ⟨R, C, mean, std, K, k1, -, k3, -, k5⟩ := C124_correlations_partial gapSuite "frequency" "velocity" [1, 2]
      false 3 true (by decide) _ _ gapSuite_array
    replace k3 := k3.trans hk
    cases k3
    obtain ⟨M, rfl, -, -, hM⟩ := k5 rfl
    obtain ⟨row, rho, r1, r2, -, -, r5⟩ := hM 0 1 0 1 rfl rfl
    refine ⟨_, _, _, M, rho, k1, ?_, ?_⟩
    · rw [r1, Option.bind_some, r2]
    · have hc := r5 rfl 250 200 (Or.inr ⟨by decide, 250, rfl, by decide +kernel⟩)
        (Or.inr ⟨by decide, 200, rfl, by decide +kernel⟩)
      rintro rfl
      have hps : ([0, 1, 2, 3].map fun r =>
          ((entry [[some 100, some 100], [some 200, some 200], [some 300, some 300], [some 400, none]] r 0).getD 250,
           (entry [[some 100, some 100], [some 200, some 200], [some 300, some 300], [some 400, none]] r 1).getD 200)) =
          [((100 : ℚ), (100 : ℚ)), (200, 200), (300, 300), (400, 200)] := by decide +kernel
      rw [hps] at hc
      rcases hc with ⟨-, h⟩ | ⟨mx, my, sx, sy, rho, m1, m2, p1, p2, q1, q2, q3, q4⟩
      · cases h
      · cases q4
        have hx : mx = 250 := by
          rcases m1 with ⟨h, -⟩ | ⟨-, q, hq, hs⟩
          · cases h
          · cases hq; norm_num at hs; linarith
        have hy : my = 200 := by
          rcases m2 with ⟨h, -⟩ | ⟨-, q, hq, hs⟩
          · cases h
          · cases hq; norm_num at hs; linarith
        subst hx hy
        norm_num at q1 q2 q3
        have : (sx * sy) ^ 2 = 20000 ^ 2 := by rw [q3]
        rw [mul_pow, q1, q2] at this
        norm_num at this
  · refine Or.inr ⟨200, 200, Real.sqrt 20000, Real.sqrt 20000, 1, Or.inr ⟨by simp, _, rfl, by norm_num⟩,
      Or.inr ⟨by simp, _, rfl, by norm_num⟩, by positivity, by positivity, ?_, ?_, ?_, rfl⟩
    · rw [Real.sq_sqrt (by norm_num)]; norm_num
    · rw [Real.sq_sqrt (by norm_num)]; norm_num
    · rw [one_mul, Real.mul_self_sqrt (by norm_num)]; norm_num

/-- Two samples at which all members have values. -/
example : ∃ xs mean std M rho, gapSuite.statisticsCorr "frequency" "velocity" [1, 1] false 3 false =
    .ok (xs, mean, std, some M) ∧ (M[0]?.bind fun row => row[1]?) = some rho ∧
    Spec.IsCorrelation [(100, 100), (200, 200), (300, 300), (400, 400)] rho := by
  have ha : gapSuite.toArray "frequency" "velocity" [1, 1] =
      .ok ([1, 1], ⟨2, [[some 100, some 100], [some 200, some 200], [some 300, some 300], [some 400, some 400]]⟩) := by
    decide +kernel
  obtain ⟨R, C, mean, std, K, k1, -, k3, -, k5⟩ := C124_correlations_partial gapSuite "frequency" "velocity" [1, 1]
    false 3 false (by decide) _ _ ha
  have hk : Spec.keptData
      (entry [[some 100, some 100], [some 200, some 200], [some 300, some 300], [some 400, some 400]])
      gapSuite.peaks.length [1, 1].length (1 / 100) (1 / 100) 3 = ([0, 1, 2, 3], [0, 1]) := by decide +kernel
  replace k3 := k3.trans hk
  cases k3
  obtain ⟨M, rfl, -, -, hM⟩ := k5 rfl
  obtain ⟨row, rho, r1, r2, r3, -, -⟩ := hM 0 1 0 1 rfl rfl
  exact ⟨_, _, _, M, rho, k1, by rw [r1, Option.bind_some, r2], r3 (by decide +kernel)⟩

/-! ## Filling -/

open Statistics

theorem fillSide_complete (fit : List Fl → List Fl → Except PyErr (Fl → Fl)) (xs ys : List Fl)
    (h : ∀ y ∈ ys, y ≠ .nan) : fillSide fit xs ys = .ok ys := by
  unfold fillSide
  rw [if_neg]
  simp only [List.any_eq_true, not_exists, not_and]
  intro y hy
  have := h y hy
  cases y <;> simp_all [Fl.isNan]

theorem fillSide_missing (fit : List Fl → List Fl → Except PyErr (Fl → Fl)) (xs ys : List Fl)
    (hx : ∀ x ∈ xs, ∃ q, x = .fin q) (hl : xs.length = ys.length) (h : .nan ∈ ys) :
    fillSide fit xs ys = .error .valueError := by
  unfold fillSide
  rw [if_pos (List.any_eq_true.2 ⟨_, h, rfl⟩)]
  obtain ⟨q0, hq0⟩ : ∃ q0, xs.headD .nan = .fin q0 := by
    cases xs with
    | nil =>
      have : ys = [] := List.length_eq_zero_iff.1 hl.symm
      rw [this] at h; cases h
    | cons x xs => exact hx x (by simp)
  have hfin : ∀ x ∈ xs.map fun x => Fl.sub x (xs.headD .nan), x.isNan = false := by
    intro x hx'
    obtain ⟨y, hy, rfl⟩ := List.mem_map.1 hx'
    obtain ⟨q, rfl⟩ := hx y hy
    rw [hq0]; rfl
  generalize hX : (xs.map fun x => Fl.sub x (xs.headD .nan)) = X at hfin
  have hXl : X.length = ys.length := by rw [← hX, List.length_map, hl]
  have hz : ((X.zip ys).filter fun p => !p.1.isNan).map (fun p => p.2) = ys := by
    rw [List.filter_eq_self.2]
    · rw [← List.unzip_snd, List.unzip_zip hXl]
    · intro p hp
      rw [hfin p.1 (List.of_mem_zip hp).1]; rfl
  unfold filler curveFit
  rw [hz, if_pos]
  right; right
  exact List.any_eq_true.2 ⟨_, h, rfl⟩

theorem fillCorrRow_eq (fit : List Fl → List Fl → Except PyErr (Fl → Fl)) (lx : List Fl) (k : ℕ) (ys : List Fl)
    (hx : ∀ x ∈ lx, ∃ q, x = .fin q) (hl : lx.length = ys.length) :
    fillCorrRow fit lx k ys = if .nan ∈ ys then .error .valueError else .ok ys := by
  have hsplit : (Fl.nan ∈ ys) ↔ Fl.nan ∈ ys.drop k ∨ Fl.nan ∈ ys.take k := by
    conv_lhs => rw [← List.take_append_drop k ys]
    rw [List.mem_append, or_comm]
  unfold fillCorrRow
  by_cases h1 : Fl.nan ∈ ys.drop k
  · rw [fillSide_missing fit _ _ (fun x h => hx x (List.mem_of_mem_drop h)) (by simp [hl]) h1,
      if_pos (hsplit.2 (Or.inl h1))]
  · rw [fillSide_complete fit _ _ (fun y hy e => h1 (e ▸ hy))]
    simp only
    by_cases h2 : Fl.nan ∈ ys.take k
    · rw [fillSide_missing fit _ _ (fun x h => hx x (List.mem_of_mem_take (List.mem_reverse.1 h))) (by simp [hl])
        (List.mem_reverse.2 h2), if_pos (hsplit.2 (Or.inr h2))]
    · rw [fillSide_complete fit _ _ (fun y hy e => h2 (e ▸ List.mem_reverse.1 hy)),
        if_neg (fun h => (hsplit.1 h).elim h1 h2)]
      simp

/-- **C125** (partial).  Without missing coefficients the matrix is returned unchanged. -/
theorem C125_nothing_missing_partial (log : ℚ → Fl) (fit : List Fl → List Fl → Except PyErr (Fl → Fl)) (xx : List ℚ)
    (corr : List (List Fl)) (h : ∀ row ∈ corr, ∀ y ∈ row, y ≠ .nan) : fillCorr log fit xx corr = .ok corr := by
  unfold fillCorr
  suffices ∀ k, fillCorrRows fit (xx.map log) k corr = .ok corr from this 0
  induction corr with
  | nil => intro k; rfl
  | cons ys rest ih =>
    intro k
    have hy := h ys (by simp)
    unfold fillCorrRows fillCorrRow
    rw [fillSide_complete fit _ _ (fun y hy' => hy y (List.mem_of_mem_drop hy')),
      fillSide_complete fit _ _ (fun y hy' => hy y (List.mem_of_mem_take (List.mem_reverse.1 hy'))),
      ih (fun row hr => h row (by simp [hr]))]
    simp

/-- **C125** fails: as soon as one coefficient is missing, whatever the matrix and the fitting procedure, the call
raises `ValueError` instead of filling it.  (Which entries to fill is decided by the sample locations instead of the
coefficients, so that the missing ones are handed to the fit.)  The sample locations are such that their logarithms are
numbers. -/
theorem C125_missing_coefficient_fails (log : ℚ → Fl) (fit : List Fl → List Fl → Except PyErr (Fl → Fl)) (xx : List ℚ)
    (corr : List (List Fl)) (hlog : ∀ x ∈ xx, ∃ q, log x = .fin q) (hlen : ∀ row ∈ corr, row.length = xx.length)
    (h : ∃ row ∈ corr, .nan ∈ row) : fillCorr log fit xx corr = .error .valueError := by
  have hx : ∀ x ∈ xx.map log, ∃ q, x = .fin q := by
    intro x hx'
    obtain ⟨y, hy, rfl⟩ := List.mem_map.1 hx'
    exact hlog y hy
  unfold fillCorr
  suffices ∀ k, fillCorrRows fit (xx.map log) k corr = .error .valueError from this 0
  induction corr with
  | nil => obtain ⟨row, hr, -⟩ := h; cases hr
  | cons ys rest ih =>
    intro k
    unfold fillCorrRows
    rw [fillCorrRow_eq fit _ k ys hx (by rw [List.length_map, hlen ys (by simp)])]
    by_cases hy : Fl.nan ∈ ys
    · rw [if_pos hy]
    · rw [if_neg hy]
      simp only
      rw [ih (fun row hr => hlen row (by simp [hr])) (by
        obtain ⟨row, hr, hn⟩ := h
        rcases List.mem_cons.1 hr with rfl | hr
        · exact absurd hn hy
        · exact ⟨row, hr, hn⟩)]

/-- Two samples, one coefficient missing. -/
example : fillCorr (fun x => .fin (x - 1)) (fun _ _ => .ok id) [1, 2] [[.fin 1, .nan], [.nan, .fin 1]] =
    .error .valueError := by decide +kernel

theorem zipWith_forall₂ (f : Fl → Fl) (hf : f .nan = .nan) : ∀ (xs ys : List Fl), xs.length = ys.length →
    List.Forall₂ (fun y z => z = y ∨ z = .nan) ys (List.zipWith (fun x y => if x.isNan then f x else y) xs ys)
  | [], [], _ => .nil
  | x :: xs, y :: ys, h => by
    refine .cons ?_ (zipWith_forall₂ f hf xs ys (by simpa using h))
    cases x <;> simp [Fl.isNan, hf]

theorem fillSide_forall₂ {fit : List Fl → List Fl → Except PyErr (Fl → Fl)}
    (hfit : ∀ xs ys f, fit xs ys = .ok f → f .nan = .nan) {xs ys zs : List Fl} (hl : xs.length = ys.length)
    (h : fillSide fit xs ys = .ok zs) : List.Forall₂ (fun y z => z = y ∨ z = .nan) ys zs := by
  unfold fillSide at h
  split_ifs at h with c
  · unfold filler at h
    split at h
    · cases h
    · rename_i f hf
      simp only [Except.ok.injEq] at h
      subst h
      refine zipWith_forall₂ f ?_ _ _ (by simpa using hl)
      unfold curveFit at hf
      split_ifs at hf
      exact hfit _ _ _ hf
  · simp only [Except.ok.injEq] at h
    subst h
    exact List.forall₂_same.2 fun y _ => Or.inl rfl

/-- **C125** fails, for any sample locations (also those without a logarithm): whatever the fitting procedure, as long
as the fitted function at a location which is not a number is not a number, a returned matrix has in every place the
given coefficient or none.  In particular no missing coefficient is ever filled with a number. -/
theorem C125_never_filled (log : ℚ → Fl) (fit : List Fl → List Fl → Except PyErr (Fl → Fl)) (xx : List ℚ)
    (corr out : List (List Fl)) (hfit : ∀ xs ys f, fit xs ys = .ok f → f .nan = .nan)
    (hlen : ∀ row ∈ corr, row.length = xx.length) (h : fillCorr log fit xx corr = .ok out) :
    List.Forall₂ (List.Forall₂ fun y z => z = y ∨ z = .nan) corr out := by
  unfold fillCorr at h
  generalize 0 = k at h
  induction corr generalizing k out with
  | nil => simp only [fillCorrRows, Except.ok.injEq] at h; subst h; exact .nil
  | cons ys rest ih =>
    have hl : (xx.map log).length = ys.length := by rw [List.length_map, hlen ys (by simp)]
    unfold fillCorrRows fillCorrRow at h
    rcases h1 : fillSide fit ((xx.map log).drop k) (ys.drop k) with e | right
    · rw [h1] at h; cases h
    rcases h2 : fillSide fit ((xx.map log).take k).reverse (ys.take k).reverse with e | left
    · rw [h1, h2] at h; cases h
    rcases h3 : fillCorrRows fit (xx.map log) (k + 1) rest with e | rs
    · rw [h1, h2, h3] at h; cases h
    rw [h1, h2, h3] at h
    simp only [Except.ok.injEq] at h
    subst h
    refine .cons ?_ (ih rs (fun row hr => hlen row (by simp [hr])) (k + 1) h3)
    have f1 := fillSide_forall₂ hfit (by simp [hl]) h1
    have f2 := fillSide_forall₂ hfit (by simp [hl]) h2
    have := List.rel_append (List.forall₂_reverse_iff.2 f2) f1
    simpa using this

/-- A location without logarithm: the call returns, and the coefficient is still missing. -/
example : fillCorr (fun x => if 0 < x then .fin (x - 1) else .nan) (fun _ _ => .ok id) [1, -1]
    [[.fin 1, .nan], [.fin (1 / 2), .fin 1]] = .ok [[.fin 1, .nan], [.fin (1 / 2), .fin 1]] := by decide +kernel

/-- … and a known coefficient at such a location is lost. -/
example : fillCorr (fun x => if 0 < x then .fin (x - 1) else .nan) (fun _ _ => .ok id) [1, -1, -2]
    [[.fin 1, .fin (1 / 2), .nan]] = .ok [[.fin 1, .nan, .nan]] := by decide +kernel

end Verif.Props
