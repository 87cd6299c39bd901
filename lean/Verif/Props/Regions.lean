import Verif.Lemmas.Regions

/-! # Properties of `Statistics`: sorting, regions, random replacement, construction -/

namespace Verif.Props

open Verif Mat

/-! ### C56 -/

/-- **C56**.  Sorting returns the same rows in another order, in which the first sampled column of the rows is
non-decreasing; empty rows, whose first sampled column is taken to be the number of columns, come last. -/
theorem C56_sort (m : Mat) (h : m.Wf) :
    (sort m).rows.Perm m.rows ∧
      (sort m).rows.Pairwise fun a b => Spec.firstColumn a ≤ Spec.firstColumn b := by
  have inv := sort_inv m h m.ncols le_rfl
  refine ⟨inv.perm, ?_⟩
  rw [List.pairwise_iff_getElem]
  intro i j hi hj hij
  have hi' : i < ((List.range m.ncols).foldl sortCol (m.rows, 0)).1.length := hi
  have hj' : j < ((List.range m.ncols).foldl sortCol (m.rows, 0)).1.length := hj
  have ei : Spec.firstColumn (sort m).rows[i] = fc ((List.range m.ncols).foldl sortCol (m.rows, 0)).1 i := by
    unfold fc
    rw [List.getD_eq_getElem _ _ hi']
    rfl
  have ej : Spec.firstColumn (sort m).rows[j] = fc ((List.range m.ncols).foldl sortCol (m.rows, 0)).1 j := by
    unfold fc
    rw [List.getD_eq_getElem _ _ hj']
    rfl
  have hlen : (sort m).rows[i].length = m.ncols := h _ (inv.perm.mem_iff.1 (List.getElem_mem hi'))
  have hle : Spec.firstColumn (sort m).rows[i] ≤ m.ncols := by
    rw [← hlen]
    exact List.findIdx_le_length
  have goal : fc ((List.range m.ncols).foldl sortCol (m.rows, 0)).1 i ≤ fc ((List.range m.ncols).foldl sortCol (m.rows, 0)).1 j →
      Spec.firstColumn (sort m).rows[i] ≤ Spec.firstColumn (sort m).rows[j] := by
    intro hh
    rw [← ei, ← ej] at hh
    exact hh
  refine goal ?_
  rw [ei] at hle
  by_cases hcj : j < ((List.range m.ncols).foldl sortCol (m.rows, 0)).2
  · exact inv.sorted i j hij hcj
  · exact hle.trans (inv.rest j (not_lt.1 hcj) hj')

example : sort ⟨3, [[none, none, some 1], [none, none, none], [some 2, none, none], [none, some 3, none]]⟩ =
    ⟨3, [[some 2, none, none], [none, some 3, none], [none, none, some 1], [none, none, none]]⟩ := by decide +kernel

/-! ### C57 -/

/-- The area of a region. -/
def area (r : Region) : ℚ := ((r.eRow - r.sRow) * (r.eCol - r.sCol) : ℕ)

/-- A region is inside the matrix; if its first entry has a value then at least the fraction `thr` of its entries
have one, and neither one more row nor one more column would keep that density. -/
structure GoodRegion (m : Mat) (thr : ℚ) (r : Region) : Prop where
  rows : r.sRow < r.eRow ∧ r.eRow ≤ m.rows.length
  cols : r.sCol < r.eCol ∧ r.eCol ≤ m.ncols
  dense : (entry m.rows r.sRow r.sCol).isSome →
    thr * area r ≤ Spec.valuesIn (entry m.rows) r.sRow r.eRow r.sCol r.eCol
  maxRow : (entry m.rows r.sRow r.sCol).isSome → r.eRow < m.rows.length →
    (Spec.valuesIn (entry m.rows) r.sRow (r.eRow + 1) r.sCol r.eCol : ℚ) < thr * area { r with eRow := r.eRow + 1 }
  maxCol : (entry m.rows r.sRow r.sCol).isSome → r.eCol < m.ncols →
    (Spec.valuesIn (entry m.rows) r.sRow r.eRow r.sCol (r.eCol + 1) : ℚ) < thr * area { r with eCol := r.eCol + 1 }

theorem goodRegion_of (m : Mat) (thr : ℚ) (sRow sCol : ℕ) (g : Grow) (hi : GrowInv m thr sRow sCol g)
    (hs : Stuck m thr sRow sCol g) : GoodRegion m thr ⟨sRow, sCol, g.cRow + 1, g.cCol + 1⟩ := by
  have h1 := hi.r1
  have h2 := hi.r2
  have h3 := hi.c1
  have h4 := hi.c2
  refine ⟨by simp only; omega, by simp only; omega, ?_, ?_, ?_⟩
  · intro hv
    have := hi.dense
    rw [hi.vals hv, hi.total] at this
    exact this
  · intro hv hr
    have := hs.row hr
    rw [hi.vals hv, hi.total, ← Spec_row m sRow sCol g h1] at this
    refine lt_of_lt_of_eq this ?_
    congr 1
    unfold area
    simp only
    congr 1
    rw [show g.cRow + 1 + 1 - sRow = (g.cRow + 1 - sRow) + 1 by omega]
    ring
  · intro hv hr
    have := hs.col hr
    rw [hi.vals hv, hi.total, ← Spec_col m sRow sCol g h3] at this
    refine lt_of_lt_of_eq this ?_
    congr 1
    unfold area
    simp only
    congr 1
    rw [show g.cCol + 1 + 1 - sCol = (g.cCol + 1 - sCol) + 1 by omega]
    ring
where
  Spec_row (m : Mat) (sRow sCol : ℕ) (g : Grow) (h : sRow ≤ g.cRow) :
      Spec.valuesIn (entry m.rows) sRow (g.cRow + 1 + 1) sCol (g.cCol + 1) =
        Spec.valuesIn (entry m.rows) sRow (g.cRow + 1) sCol (g.cCol + 1) +
          Spec.present (fun c => entry m.rows (g.cRow + 1) c) (List.range' sCol (g.cCol + 1 - sCol)) :=
    valuesIn_row _ _ _ _ _ (by omega)
  Spec_col (m : Mat) (sRow sCol : ℕ) (g : Grow) (h : sCol ≤ g.cCol) :
      Spec.valuesIn (entry m.rows) sRow (g.cRow + 1) sCol (g.cCol + 1 + 1) =
        Spec.valuesIn (entry m.rows) sRow (g.cRow + 1) sCol (g.cCol + 1) +
          Spec.present (fun r => entry m.rows r (g.cCol + 1)) (List.range' sRow (g.cRow + 1 - sRow)) :=
    valuesIn_col _ _ _ _ _ (by omega)

/-- The regions, from a given start corner: each starts in the column where the one before it ends, in the first row
with a value there, and the last one ends in the last corner of the matrix. -/
def Tiles (m : Mat) : ℕ → ℕ → List Region → Prop
  | _, _, [] => False
  | sRow, sCol, [r] => r.sRow = sRow ∧ r.sCol = sCol ∧ r.eRow = m.rows.length ∧ r.eCol = m.ncols
  | sRow, sCol, r :: rs => r.sRow = sRow ∧ r.sCol = sCol ∧
      ∃ sRow', (entry m.rows sRow' r.eCol).isSome ∧ (∀ k < sRow', entry m.rows k r.eCol = none) ∧ Tiles m sRow' r.eCol rs

theorem regionsFrom_ok (m : Mat) (h : m.Wf) (thr : ℚ) (ht : thr ≤ 1) (n sRow sCol : ℕ) (hr : sRow < m.rows.length)
    (hc : sCol < m.ncols) (rs : List Region) (hrs : regionsFrom m thr n sRow sCol = .ok rs) :
    Tiles m sRow sCol rs ∧ ∀ r ∈ rs, GoodRegion m thr r := by
  induction n generalizing sRow sCol rs with
  | zero => simp [regionsFrom] at hrs
  | succ n ih =>
    obtain ⟨g, e, gi, gs⟩ := grow_spec m h thr sRow sCol ((m.rows.length - sRow) + (m.ncols - sCol)) ⟨sRow, sCol, 1, 1⟩
      (growInv_start m thr ht sRow sCol hr hc) (by simp only; omega)
    have good := goodRegion_of m thr sRow sCol g gi gs
    simp only [regionsFrom, e] at hrs
    split_ifs at hrs with h1 h2
    · simp only [Except.ok.injEq] at hrs
      subst hrs
      refine ⟨⟨rfl, rfl, h1.1, h1.2⟩, ?_⟩
      intro r hr
      rw [List.mem_singleton] at hr
      subst hr
      exact good
    · rcases hf : m.firstValid (g.cCol + 1) with _ | sRow'
      · simp [hf] at hrs
      · simp only [hf] at hrs
        obtain ⟨f1, f2, f3⟩ := firstValid_some m _ _ hf
        rcases hR : regionsFrom m thr n sRow' (g.cCol + 1) with er | rs'
        · simp [hR] at hrs
        · simp only [hR, Except.ok.injEq] at hrs
          obtain ⟨i1, i2⟩ := ih sRow' (g.cCol + 1) f1 (not_le.1 h2) rs' hR
          subst hrs
          constructor
          · cases rs' with
            | nil => exact absurd i1 (by simp [Tiles])
            | cons r' rs' => exact ⟨rfl, rfl, sRow', f2, f3, i1⟩
          · intro r hr
            rcases List.mem_cons.1 hr with rfl | hr
            · exact good
            · exact i2 r hr

/-- **C57**.  When region identification of a non-empty matrix returns, the regions' column ranges tile all columns from
left to right and the last one ends in the last row and column; every region that starts at a value has at least the
requested density and cannot be extended by a row or a column without losing it; every region but the first starts at
a value. -/
theorem C57_regions (m : Mat) (h : m.Wf) (thr : ℚ) (ht : thr ≤ 1) (hr : 0 < m.rows.length) (hc : 0 < m.ncols)
    (rs : List Region) (hrs : identifyRegions m thr = .ok rs) :
    Tiles m 0 0 rs ∧ ∀ r ∈ rs, GoodRegion m thr r :=
  regionsFrom_ok m h thr ht 100 0 0 hr hc rs hrs

/-- A matrix with two regions. -/
def twoRegions : Mat := ⟨3, [[some 1, some 2, none], [some 3, some 4, none], [none, none, some 5]]⟩

example : identifyRegions twoRegions (9 / 10) = .ok [⟨0, 0, 2, 2⟩, ⟨2, 2, 3, 3⟩] := by decide +kernel

/-- The density of a rectangle, given by its first and last entry, is the number of values in it over its area. -/
theorem calcDensity_eq (m : Mat) (h : m.Wf) (b1 c1 b2 c2 : ℕ) (hr : b1 ≤ b2 ∧ b2 < m.rows.length)
    (hc : c1 ≤ c2 ∧ c2 < m.ncols) :
    calcDensity m b1 c1 b2 c2 = Spec.valuesIn (entry m.rows) b1 (b2 + 1) c1 (c2 + 1) / (((b2 + 1 - b1) * (c2 + 1 - c1) : ℕ) : ℚ) := by
  have e : (((m.rows.drop b1).take (b2 + 1 - b1)).map fun r => numCount ((r.drop c1).take (c2 + 1 - c1))) =
      (List.range' b1 (b2 + 1 - b1)).map fun r => Spec.present (fun c => entry m.rows r c) (List.range' c1 (c2 + 1 - c1)) := by
    apply List.ext_getElem
    · simp only [List.length_take, List.length_drop, List.length_map, List.length_range']
      omega
    · intro i h1 h2
      simp only [List.length_map, List.length_range'] at h2
      simp only [List.getElem_take, List.getElem_drop, List.getElem_map, List.getElem_range', Nat.one_mul]
      have hrow := rowPart_eq m h (b1 + i) c1 (c2 + 1) (by omega) (by omega)
      unfold rowPart at hrow
      rw [List.getD_eq_getElem _ _ (by omega)] at hrow
      rw [hrow]
      unfold numCount Spec.present
      rw [List.countP_map, List.countP_eq_length_filter]
      rfl
  unfold calcDensity Spec.valuesIn Spec.values
  rw [e, mul_comm]
  congr 1
  · have q1 : ((b2 + 1 - b1 : ℕ) : ℚ) = (b2 : ℚ) - b1 + 1 := by rw [Nat.cast_sub (by omega)]; push_cast; ring
    have q2 : ((c2 + 1 - c1 : ℕ) : ℚ) = (c2 : ℚ) - c1 + 1 := by rw [Nat.cast_sub (by omega)]; push_cast; ring
    rw [Nat.cast_mul, q1, q2]

/-- **C57** (density).  `_calc_density` of a region which starts at a value, given by its first and last entry, is at
least the requested density. -/
theorem C57_density (m : Mat) (h : m.Wf) (thr : ℚ) (ht : thr ≤ 1) (hr : 0 < m.rows.length) (hc : 0 < m.ncols)
    (rs : List Region) (hrs : identifyRegions m thr = .ok rs) (r : Region) (hmem : r ∈ rs)
    (hv : (entry m.rows r.sRow r.sCol).isSome) :
    thr ≤ calcDensity m r.sRow r.sCol (r.eRow - 1) (r.eCol - 1) := by
  have g := (C57_regions m h thr ht hr hc rs hrs).2 r hmem
  have g1 := g.rows
  have g2 := g.cols
  rw [calcDensity_eq m h _ _ _ _ (by omega) (by omega), show r.eRow - 1 + 1 = r.eRow by omega,
    show r.eCol - 1 + 1 = r.eCol by omega, le_div_iff₀]
  · exact g.dense hv
  · have : 0 < (r.eRow - r.sRow) * (r.eCol - r.sCol) := Nat.mul_pos (by omega) (by omega)
    exact_mod_cast this

/-- Three of the four entries of a square have values. -/
example : calcDensity ⟨2, [[some 1, some 2], [some 3, none]]⟩ 0 0 1 1 = 3 / 4 ∧
    identifyRegions ⟨2, [[some 1, some 2], [some 3, none]]⟩ (3 / 4) = .ok [⟨0, 0, 2, 2⟩] := by decide +kernel

/-! ### C58 -/

theorem regionsFrom_error (m : Mat) (h : m.Wf) (thr : ℚ) (ht : thr ≤ 1) (n sRow sCol : ℕ) (hr : sRow < m.rows.length)
    (hc : sCol < m.ncols) (hn : m.ncols - sCol ≤ n) (e : PyErr) (he : regionsFrom m thr n sRow sCol = .error e) :
    e = .indexError := by
  induction n generalizing sRow sCol with
  | zero => omega
  | succ n ih =>
    obtain ⟨g, eg, gi, gs⟩ := grow_spec m h thr sRow sCol ((m.rows.length - sRow) + (m.ncols - sCol)) ⟨sRow, sCol, 1, 1⟩
      (growInv_start m thr ht sRow sCol hr hc) (by simp only; omega)
    simp only [regionsFrom, eg] at he
    split_ifs at he with h1 h2
    · simpa using he.symm
    · rcases hf : m.firstValid (g.cCol + 1) with _ | sRow'
      · simp only [hf] at he
        simpa using he.symm
      · simp only [hf] at he
        obtain ⟨f1, _, _⟩ := firstValid_some m _ _ hf
        have hc1 := gi.c1
        rcases hR : regionsFrom m thr n sRow' (g.cCol + 1) with er | rs'
        · simp only [hR, Except.error.injEq] at he
          subst he
          exact ih sRow' (g.cCol + 1) f1 (not_le.1 h2) (by omega) hR
        · simp [hR] at he

/-- **C58**, partial: with at most 100 columns, region identification either returns or raises `IndexError`; it never
runs out of passes.  (Missing: the claim itself, which is false, see below.) -/
theorem C58_failure_kind_partial (m : Mat) (h : m.Wf) (thr : ℚ) (ht : thr ≤ 1) (hr : 0 < m.rows.length)
    (hc : 0 < m.ncols) (hn : m.ncols ≤ 100) :
    (∃ rs, identifyRegions m thr = .ok rs) ∨ identifyRegions m thr = .error .indexError := by
  rcases hi : identifyRegions m thr with e | rs
  · right
    rw [regionsFrom_error m h thr ht 100 0 0 hr hc (by omega) e hi]
  · exact Or.inl ⟨rs, rfl⟩

/-- **C58**, partial: a matrix without missing entries is one region.  (Missing: matrices with missing entries.) -/
theorem C58_complete_matrix_partial (m : Mat) (h : m.Wf) (thr : ℚ) (ht : thr ≤ 1) (hr : 0 < m.rows.length)
    (hc : 0 < m.ncols) (hfull : ∀ r < m.rows.length, ∀ c < m.ncols, (entry m.rows r c).isSome) :
    identifyRegions m thr = .ok [⟨0, 0, m.rows.length, m.ncols⟩] := by
  obtain ⟨g, eg, gi, gs⟩ := grow_spec m h thr 0 0 ((m.rows.length - 0) + (m.ncols - 0)) ⟨0, 0, 1, 1⟩
      (growInv_start m thr ht 0 0 hr hc) (by simp only; omega)
  have hp : ∀ (f : ℕ → Option ℚ) (l : List ℕ), (∀ i ∈ l, (f i).isSome) → Spec.present f l = l.length := by
    intro f l hl
    unfold Spec.present
    rw [List.filter_eq_self.2 hl]
  have hg1 := gi.r2
  have hg2 := gi.c2
  have hv : ∀ r2 c2, r2 ≤ m.rows.length → c2 ≤ m.ncols → Spec.valuesIn (entry m.rows) 0 r2 0 c2 = r2 * c2 := by
    intro r2 c2 h1 h2
    unfold Spec.valuesIn Spec.values
    rw [List.map_congr_left (g := fun _ => c2)]
    · simp
    · intro r hr
      rw [List.mem_range'_1] at hr
      rw [hp]
      · simp
      · intro c hc
        rw [List.mem_range'_1] at hc
        exact hfull r (by omega) c (by omega)
  have good := goodRegion_of m thr 0 0 g gi gs
  have s0 := hfull 0 hr 0 hc
  have er : g.cRow + 1 = m.rows.length := by
    by_contra hne
    have hlt : g.cRow + 1 < m.rows.length := by omega
    have := good.maxRow s0 hlt
    simp only [area] at this
    rw [hv _ _ (by omega) (by omega)] at this
    simp only [Nat.sub_zero] at this
    have hpos : (0 : ℚ) ≤ (((g.cRow + 1 + 1) * (g.cCol + 1) : ℕ) : ℚ) := Nat.cast_nonneg _
    nlinarith
  have ec : g.cCol + 1 = m.ncols := by
    by_contra hne
    have hlt : g.cCol + 1 < m.ncols := by omega
    have := good.maxCol s0 hlt
    simp only [area] at this
    rw [hv _ _ (by omega) (by omega)] at this
    simp only [Nat.sub_zero] at this
    have hpos : (0 : ℚ) ≤ (((g.cRow + 1) * (g.cCol + 1 + 1) : ℕ) : ℚ) := Nat.cast_nonneg _
    nlinarith
  have key : ∀ n, regionsFrom m thr (n + 1) 0 0 = .ok [⟨0, 0, m.rows.length, m.ncols⟩] := by
    intro n
    simp only [regionsFrom, eg]
    rw [if_pos ⟨er, ec⟩, er, ec]
  exact key 99

example : identifyRegions ⟨2, [[some 1, some 2], [some 3, some 4]]⟩ (9 / 10) = .ok [⟨0, 0, 2, 2⟩] := by decide +kernel

/-- **C58** is violated by two observations of one sample, one of them missing: the region cannot take in the second
row and the search looks for a column after the last. -/
theorem C58_last_column_fails :
    ∃ m : Mat, m.Wf ∧ 0 < m.rows.length ∧ 0 < m.ncols ∧
      (∀ c < m.ncols, ∃ r < m.rows.length, (entry m.rows r c).isSome) ∧
      identifyRegions m (9 / 10) = .error .indexError := by
  refine ⟨⟨1, [[some 1], [none]]⟩, ?_, by decide, by decide, ?_, by decide +kernel⟩
  · intro r hr
    rcases List.mem_cons.1 hr with rfl | hr
    · rfl
    · rw [List.mem_singleton] at hr
      subst hr
      rfl
  · intro c hc
    exact ⟨0, by decide, by have : c = 0 := by simpa using hc
                            subst this
                            decide +kernel⟩

/-- One observation per sample: the diagonal. -/
def diagonal (n : ℕ) : Mat :=
  ⟨n, (List.range n).map fun i => (List.range n).map fun j => if i = j then some 1 else none⟩

/-- **C58** is violated by a matrix with more than 100 regions. -/
theorem C58_many_regions_fails :
    (∀ c < (diagonal 101).ncols, ∃ r < (diagonal 101).rows.length, (entry (diagonal 101).rows r c).isSome) ∧
      identifyRegions (diagonal 101) (9 / 10) = .error .valueError := by
  constructor
  · intro c hc
    refine ⟨c, by simpa [diagonal] using hc, ?_⟩
    have hc' : c < 101 := hc
    simp [entry, diagonal, List.getD_eq_getElem?_getD, hc']
  · decide +kernel

/-! ### C60 -/

/-- **C60** is violated: `Statistics(...)` raises `TypeError` for every argument (a keyword of `np.array` is
misspelt). -/
theorem C60_constructor_fails (xx : List ℚ) (mean stddev : List (Option ℚ)) (corr : List (List (Option ℚ))) :
    Statistics.init xx mean stddev corr = .error .typeError := by
  simp [Statistics.init, Statistics.npArray, Statistics.arrayKeywords]

/-- **C60** is violated: neither `from_peakssuite` nor `from_data_matrix` ever returns a `Statistics` object. -/
theorem C60_class_methods_fails :
    (∀ (s : Suite) (xx : List ℚ) (xtype ytype : String), ∃ e, Statistics.fromPeaksSuite s xx xtype ytype = .error e) ∧
    (∀ (a : DropArgs) (thr : ℚ) (xx : List ℚ) (m : Mat)
      (rest : Mat → List Region → Except PyErr (List (Option ℚ) × List (Option ℚ) × List (List (Option ℚ)))),
      ∃ e, Statistics.fromDataMatrix a thr xx m rest = .error e) := by
  constructor
  · intro s xx xtype ytype
    unfold Statistics.fromPeaksSuite
    rcases s.toArray xtype ytype xx with e | r
    · exact ⟨e, rfl⟩
    · refine ⟨.attributeError, ?_⟩
      simp only
      rw [if_neg (by decide)]
  · intro a thr xx m rest
    unfold Statistics.fromDataMatrix
    simp only
    rcases identifyRegions (sort (drop a xx m).2) thr with e | rs
    · exact ⟨e, rfl⟩
    · simp only
      rcases rest (sort (drop a xx m).2) rs with e | ⟨mean, stddev, corr⟩
      · exact ⟨e, rfl⟩
      · exact ⟨.typeError, C60_constructor_fails _ _ _ _⟩

end Verif.Props
