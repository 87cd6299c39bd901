import Verif.Props.Correlation
import Mathlib.Data.List.Perm.Basic

/-!
# C138: the order in which curves were added to a suite does not matter for its statistics
-/

namespace Verif.Props
open Verif Mat

/-! ## Rows in another order -/

theorem arrayRows_perm {xtype ytype : String} {xx : List ℚ} {ps qs : List Peaks} (h : ps.Perm qs) :
    ∀ {rows : List (List (Option ℚ))}, Suite.arrayRows xtype ytype xx ps = .ok rows →
      ∃ rows', Suite.arrayRows xtype ytype xx qs = .ok rows' ∧ rows.Perm rows' := by
  induction h with
  | nil => intro rows h; exact ⟨rows, h, List.Perm.refl _⟩
  | cons p _ ih =>
    rename_i ps qs _
    intro rows h
    simp only [Suite.arrayRows] at h ⊢
    rcases h1 : Suite.arrayRow xtype ytype xx p with e | r
    · simp [h1] at h
    rcases h2 : Suite.arrayRows xtype ytype xx ps with e | rs
    · simp [h1, h2] at h
    simp only [h1, h2, Except.ok.injEq] at h
    subst h
    obtain ⟨rs', h3, h4⟩ := ih h2
    exact ⟨r :: rs', by simp [h3], h4.cons r⟩
  | swap p q ps =>
    intro rows h
    simp only [Suite.arrayRows] at h ⊢
    rcases h1 : Suite.arrayRow xtype ytype xx q with e | r
    · simp [h1] at h
    rcases h2 : Suite.arrayRow xtype ytype xx p with e | r'
    · simp [h1, h2] at h
    rcases h3 : Suite.arrayRows xtype ytype xx ps with e | rs
    · simp [h1, h2, h3] at h
    simp only [h1, h2, h3, Except.ok.injEq] at h
    subst h
    exact ⟨r' :: r :: rs, by simp, List.Perm.swap _ _ _⟩
  | trans _ _ ih1 ih2 =>
    intro rows h
    obtain ⟨r1, h1, h2⟩ := ih1 h
    obtain ⟨r2, h3, h4⟩ := ih2 h1
    exact ⟨r2, h3, h2.trans h4⟩

theorem nanmean_perm {a b : List (Option ℚ)} (h : a.Perm b) : nanmean a = nanmean b := by
  have hv : (valid a).Perm (valid b) := h.filterMap _
  unfold nanmean
  rw [hv.sum_eq, hv.length_eq]
  by_cases c : valid a = []
  · rw [if_pos c, if_pos (by rw [c] at hv; exact hv.nil_eq.symm)]
  · rw [if_neg c, if_neg (fun e => c (by rw [e] at hv; exact hv.eq_nil))]

theorem nanstd_perm {a b : List (Option ℚ)} (h : a.Perm b) : nanstd a = nanstd b := by
  have hv : (valid a).Perm (valid b) := h.filterMap _
  unfold nanstd
  simp only [hv.sum_eq, hv.length_eq, (hv.map _).sum_eq]

theorem complete_eq {α : Type} (f : α → Option ℚ) (l : List α) :
    complete (l.map f) = if l.all fun a => (f a).isSome then some (l.map fun a => (f a).getD 0) else none := by
  induction l with
  | nil => rfl
  | cons a l ih =>
    rcases ha : f a with _ | q
    · simp [complete, ha]
    · simp only [List.map_cons, ha, complete, ih, List.all_cons, Option.isSome_some, Bool.true_and, Option.getD_some]
      split_ifs <;> rfl

theorem corrEntry_perm {α : Type} (f g : α → Option ℚ) {l l' : List α} (h : l.Perm l') :
    corrEntry (l.map f) (l.map g) = corrEntry (l'.map f) (l'.map g) := by
  have hall : ∀ f : α → Option ℚ, (l.all fun a => (f a).isSome) = l'.all fun a => (f a).isSome := by
    intro f
    rw [Bool.eq_iff_iff, List.all_eq_true, List.all_eq_true]
    exact ⟨fun hh x hx => hh x (h.mem_iff.2 hx), fun hh x hx => hh x (h.mem_iff.1 hx)⟩
  have hcov : ∀ f g : α → ℚ, cov (l.map f) (l.map g) = cov (l'.map f) (l'.map g) := by
    intro f g
    rw [cov_map, cov_map, (h.map f).sum_eq, (h.map g).sum_eq, h.length_eq, (h.map _).sum_eq]
  unfold corrEntry
  rw [complete_eq, complete_eq, complete_eq, complete_eq, hall f, hall g]
  split_ifs with c1 c2
  · simp only [hcov, List.length_map, h.length_eq]
  · rfl
  · rfl
  · rfl

/-! ## Dropping incomplete data -/

theorem dropIndices_counts (rows rows' : List (List (Option ℚ))) (percent : ℚ) (count : ℕ)
    (h : (rows.map fun l => (numCount l, l.length)) = rows'.map fun l => (numCount l, l.length)) :
    dropIndices rows percent count = dropIndices rows' percent count := by
  have key : ∀ rows : List (List (Option ℚ)), dropIndices rows percent count =
      if (rows.map fun l => (numCount l, l.length)) = [] ∨
          ((rows.map fun l => (numCount l, l.length)).headD (0, 0)).2 = 0 then []
      else ((rows.map fun l => (numCount l, l.length)).zipIdx.filter fun p =>
        decide (p.1.1 < count) || decide ((p.1.1 : ℚ) / p.1.2 < percent)).map fun p => p.2 := by
    intro rows
    unfold dropIndices
    have hc : (rows = [] ∨ rows.headD [] = []) ↔ ((rows.map fun l => (numCount l, l.length)) = [] ∨
          ((rows.map fun l => (numCount l, l.length)).headD (0, 0)).2 = 0) := by
      cases rows <;> simp
    by_cases c : rows = [] ∨ rows.headD [] = []
    · rw [if_pos c, if_pos (hc.1 c)]
    · rw [if_neg c, if_neg (fun e => c (hc.2 e)), List.zipIdx_map, List.filter_map, List.map_map]
      rfl
  rw [key, key, h]

theorem deleteAt_self (rows : List (List (Option ℚ))) (percent : ℚ) (count : ℕ) :
    deleteAt (dropIndices rows percent count) rows =
      if rows = [] ∨ rows.headD [] = [] then rows
      else rows.filter fun r => !(decide (numCount r < count) || decide ((numCount r : ℚ) / r.length < percent)) := by
  unfold dropIndices
  by_cases c : rows = [] ∨ rows.headD [] = []
  · rw [if_pos c, if_pos c, deleteAt_nil]
  · rw [if_neg c, if_neg c]
    have := deleteAt_filter (((rows.zipIdx.filter fun p => decide (numCount p.1 < count) ||
        decide ((numCount p.1 : ℚ) / p.1.length < percent)).map fun p => p.2))
      (fun r => !(decide (numCount r < count) || decide ((numCount r : ℚ) / r.length < percent))) id rows 0 (by
        intro i hi
        rw [Nat.zero_add, mem_dropIndices_aux rows (fun row => decide (numCount row < count) ||
          decide ((numCount row : ℚ) / row.length < percent)) i hi, Bool.not_not])
    simpa [deleteAt] using this

/-- Two matrices with the same rows in another order. -/
structure Reordered (m m' : Mat) : Prop where
  ncols : m.ncols = m'.ncols
  rows : m.rows.Perm m'.rows
  wf : m.Wf

namespace Reordered
variable {m m' : Mat}

theorem headD (h : Reordered m m') : (m.rows = [] ∨ m.rows.headD [] = []) ↔ (m'.rows = [] ∨ m'.rows.headD [] = []) := by
  have hw : ∀ r ∈ m'.rows, r.length = m'.ncols := fun r hr => h.ncols ▸ h.wf r (h.rows.mem_iff.2 hr)
  have key : ∀ (rows : List (List (Option ℚ))) (n : ℕ), (∀ r ∈ rows, r.length = n) →
      ((rows = [] ∨ rows.headD [] = []) ↔ rows.length = 0 ∨ n = 0) := by
    intro rows n hr
    cases rows with
    | nil => simp
    | cons a l =>
      have := hr a (by simp)
      simp [← this]
  rw [key _ _ h.wf, key _ _ hw, h.rows.length_eq, h.ncols]

theorem rowsDropped (h : Reordered m m') (percent : ℚ) (count : ℕ) :
    Reordered (m.deleteRows (dropIndices m.rows percent count)) (m'.deleteRows (dropIndices m'.rows percent count)) := by
  refine ⟨h.ncols, ?_, ?_⟩
  · simp only [deleteRows, deleteAt_self]
    by_cases c : m.rows = [] ∨ m.rows.headD [] = []
    · rw [if_pos c, if_pos (h.headD.1 c)]; exact h.rows
    · rw [if_neg c, if_neg (fun e => c (h.headD.2 e))]; exact h.rows.filter _
  · intro r hr
    simp only [deleteRows] at hr ⊢
    refine h.wf r ?_
    unfold deleteAt at hr
    obtain ⟨p, hp, rfl⟩ := List.mem_map.1 hr
    exact List.fst_mem_of_mem_zipIdx (List.mem_of_mem_filter hp)

theorem cols_counts (h : Reordered m m') :
    (m.cols.map fun l => (numCount l, l.length)) = m'.cols.map fun l => (numCount l, l.length) := by
  unfold cols
  rw [h.ncols, List.map_map, List.map_map]
  refine List.map_congr_left fun c _ => ?_
  have hp := h.rows.map fun r => r.getD c none
  simp only [Function.comp, numCount, hp.countP_eq, hp.length_eq]

theorem colsDropped (h : Reordered m m') (percent : ℚ) (count : ℕ) :
    dropIndices m.cols percent count = dropIndices m'.cols percent count ∧
    Reordered (m.deleteCols (dropIndices m.cols percent count)) (m'.deleteCols (dropIndices m'.cols percent count)) := by
  have hi := dropIndices_counts m.cols m'.cols percent count h.cols_counts
  refine ⟨hi, ?_, ?_, ?_⟩
  · simp only [deleteCols, hi, h.ncols]
  · simp only [deleteCols, hi]; exact h.rows.map _
  · intro r hr
    obtain ⟨r', hr', rfl⟩ := List.mem_map.1 hr
    exact length_deleteAt _ _ _ (by rw [List.length_range]; exact h.wf r' hr')

theorem utility (h : Reordered m m') {r r' : Mat} (hr : Reordered r r') : Mat.utility m r = Mat.utility m' r' := by
  unfold Mat.utility nans nums
  rw [(h.rows.map _).sum_eq, (h.rows.map _).sum_eq, (hr.rows.map _).sum_eq, (hr.rows.map _).sum_eq]

theorem drop (h : Reordered m m') (a : DropArgs) (xx : List ℚ) :
    (Mat.drop a xx m).1 = (Mat.drop a xx m').1 ∧ Reordered (Mat.drop a xx m).2 (Mat.drop a xx m').2 := by
  obtain ⟨e1, h1⟩ := h.colsDropped a.samplePercent a.sampleCount
  have o1 : (option1 a xx m).1 = (option1 a xx m').1 ∧ Reordered (option1 a xx m).2 (option1 a xx m').2 :=
    ⟨by simp only [option1, e1], h1.rowsDropped a.obsPercent 0⟩
  obtain ⟨e2, h2⟩ := (h.rowsDropped a.obsPercent 0).colsDropped a.samplePercent a.sampleCount
  have o2 : (option2 a xx m).1 = (option2 a xx m').1 ∧ Reordered (option2 a xx m).2 (option2 a xx m').2 :=
    ⟨by simp only [option2, e2], h2⟩
  unfold Mat.drop
  simp only
  rw [h.utility o1.2, h.utility o2.2]
  split_ifs
  · exact o1
  · exact o2

theorem colEq (h : Reordered m m') : ∀ c, (m.rows.map fun r => r.getD c none).Perm (m'.rows.map fun r => r.getD c none) :=
  fun _ => h.rows.map _

end Reordered

/-- **C138**.  Two suites with the same members in another order have the same statistics: sample locations, means,
standard deviations and correlation coefficients, for every choice of options. -/
theorem C138_order_of_curves (s t : Suite) (h : s.peaks.Perm t.peaks) (xtype ytype : String) (xx : List ℚ)
    (ignore : Bool) (count : ℕ) (subst : Bool)
    (out : List ℚ × List (Option ℚ) × List (Option ℝ) × Option (List (List (Option ℝ))))
    (hs : s.statisticsCorr xtype ytype xx ignore count subst = .ok out) :
    t.statisticsCorr xtype ytype xx ignore count subst = .ok out := by
  unfold Suite.statisticsCorr at hs ⊢
  rw [← h.length_eq]
  by_cases c : s.peaks.length < 3
  · rw [if_pos c] at hs; cases hs
  rw [if_neg c] at hs ⊢
  rcases ha : s.toArray xtype ytype xx with e | ⟨xs, m⟩
  · rw [ha] at hs; cases hs
  obtain ⟨rfl, g1, g2, -, -⟩ := toArray_spec s xtype ytype xx xs m ha
  unfold Suite.toArray at ha ⊢
  rcases hr : Suite.arrayRows xtype ytype xs s.peaks with e | rows
  · rw [hr] at ha; cases ha
  rw [hr] at ha
  simp only [Except.ok.injEq, Prod.mk.injEq, true_and] at ha
  obtain ⟨rows', hr', hp⟩ := arrayRows_perm h hr
  have ha' : s.toArray xtype ytype xs = .ok (xs, m) := by unfold Suite.toArray; rw [hr, ← ha]
  rw [ha'] at hs
  rw [hr']
  simp only at hs ⊢
  have hre : Reordered m ⟨xs.length, rows'⟩ := ⟨by rw [← ha], by rw [← ha]; exact hp, g2⟩
  obtain ⟨d1, d2⟩ := hre.drop ⟨1 / 100, 1 / 100, count⟩ xs
  rw [← hs]
  generalize Mat.drop ⟨1 / 100, 1 / 100, count⟩ xs m = u at *
  generalize Mat.drop ⟨1 / 100, 1 / 100, count⟩ xs ⟨xs.length, rows'⟩ = v at *
  have em : v.2.cols.map nanmean = u.2.cols.map nanmean := by
    unfold cols
    rw [← d2.ncols, List.map_map, List.map_map]
    exact List.map_congr_left fun c _ => (nanmean_perm (d2.colEq c)).symm
  have es : v.2.cols.map nanstd = u.2.cols.map nanstd := by
    unfold cols
    rw [← d2.ncols, List.map_map, List.map_map]
    exact List.map_congr_left fun c _ => (nanstd_perm (d2.colEq c)).symm
  -- the data used for the correlations, entry by entry
  have data : ∀ w : Mat, (if subst then w.cols.map substitute else w.cols) =
      (List.range w.ncols).map fun c => w.rows.map fun r =>
        if subst then (if (r.getD c none).isSome then r.getD c none else nanmean (w.rows.map fun r => r.getD c none))
        else r.getD c none := by
    intro w
    cases subst
    · rfl
    · simp only [if_true, cols, List.map_map, substitute, Function.comp_def]
  have ec : ∀ c, nanmean (v.2.rows.map fun r => r.getD c none) = nanmean (u.2.rows.map fun r => r.getD c none) :=
    fun c => (nanmean_perm (d2.colEq c)).symm
  have hd : ((if subst then v.2.cols.map substitute else v.2.cols).map fun a =>
        (if subst then v.2.cols.map substitute else v.2.cols).map fun b => corrEntry a b) =
      (if subst then u.2.cols.map substitute else u.2.cols).map fun a =>
        (if subst then u.2.cols.map substitute else u.2.cols).map fun b => corrEntry a b := by
    rw [data, data, ← d2.ncols, List.map_map, List.map_map]
    refine List.map_congr_left fun c _ => ?_
    simp only [Function.comp, List.map_map]
    refine List.map_congr_left fun d _ => ?_
    simp only [Function.comp, ec]
    exact (corrEntry_perm _ _ d2.rows).symm
  rw [em, es, hd, d1]

/-- … and if one order is refused, so is every other. -/
theorem C138_order_of_curves_refused (s t : Suite) (h : s.peaks.Perm t.peaks) (xtype ytype : String) (xx : List ℚ)
    (ignore : Bool) (count : ℕ) (subst : Bool) (e : PyErr)
    (hs : s.statisticsCorr xtype ytype xx ignore count subst = .error e) :
    ∃ e', t.statisticsCorr xtype ytype xx ignore count subst = .error e' := by
  rcases ht : t.statisticsCorr xtype ytype xx ignore count subst with e' | out
  · exact ⟨e', rfl⟩
  · rw [C138_order_of_curves t s h.symm xtype ytype xx ignore count subst out ht] at hs
    cases hs

/-- The statistics of three curves, one of which ends early. -/
example : ∃ out, statSuite.statisticsCorr "frequency" "velocity" [1, 2] false 3 true = .ok out ∧
    (Suite.mk statSuite.peaks.reverse statSuite.ids.reverse).statisticsCorr "frequency" "velocity" [1, 2] false 3 true =
      .ok out := by
  have hok : ∃ out, statSuite.statisticsCorr "frequency" "velocity" [1, 2] false 3 true = .ok out := by
    have ha : ∃ r, statSuite.toArray "frequency" "velocity" [1, 2] = .ok r := by
      have : (statSuite.toArray "frequency" "velocity" [1, 2]).isOk = true := by decide +kernel
      revert this
      cases statSuite.toArray "frequency" "velocity" [1, 2] <;> simp [Except.isOk, Except.toBool]
    obtain ⟨⟨x, m⟩, ha⟩ := ha
    unfold Suite.statisticsCorr
    rw [if_neg (by decide), ha]
    exact ⟨_, rfl⟩
  obtain ⟨out, hout⟩ := hok
  exact ⟨out, hout, C138_order_of_curves _ _ (List.reverse_perm _).symm _ _ _ _ _ _ _ hout⟩

end Verif.Props
