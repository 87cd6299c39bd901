import Verif.Model.Replacement
import Verif.Props.Fill
import Verif.Props.Regions

/-!
# C168: random replacement of missing values; C169: correlation coefficients of `Statistics.from_data_matrix`
-/

namespace Verif.Props
open Verif Mat

/-! ## What is meant -/

/-- The entry in row `i` and column `j` lies in the region: its start corner is included, its end corner is not. -/
def Inside (r : Region) (i j : ℕ) : Prop := (r.sRow ≤ i ∧ i < r.eRow) ∧ r.sCol ≤ j ∧ j < r.eCol

/-- `out` is `m` after random replacement in the regions: nothing recorded is changed, no entry inside a region is
missing, and outside of all regions nothing happens. -/
structure Replaced (m : Mat) (regions : List Region) (out : Mat) : Prop where
  shape : out.ncols = m.ncols ∧ out.rows.length = m.rows.length ∧ ∀ row ∈ out.rows, row.length = m.ncols
  recorded : ∀ i j v, entry m.rows i j = some v → entry out.rows i j = some v
  filled : ∀ r ∈ regions, ∀ i j, Inside r i j → (entry out.rows i j).isSome
  outside : ∀ i j, (∀ r ∈ regions, ¬ Inside r i j) → entry out.rows i j = entry m.rows i j

/-- The regions are rectangles of the matrix. -/
def Rectangles (m : Mat) (regions : List Region) : Prop :=
  ∀ r ∈ regions, (r.sRow ≤ r.eRow ∧ r.eRow ≤ m.rows.length) ∧ r.sCol ≤ r.eCol ∧ r.eCol ≤ m.ncols

/-- The numbers of a column. -/
def colNumbers (m : Mat) (c : ℕ) : List ℚ := (List.range m.rows.length).filterMap fun i => entry m.rows i c

/-- Arithmetic mean. -/
def average (l : List ℚ) : ℚ := l.sum / l.length

/-- Sample standard deviation. -/
noncomputable def deviation (l : List ℚ) : ℝ :=
  Real.sqrt (((l.map fun x => (x - average l) ^ 2).sum / ((l.length : ℚ) - 1) : ℚ) : ℝ)

/-- The statistics of a column after replacement are close to those before: at least two numbers are there and the means
are not zero; the mean has moved by less than five percent and the coefficient of variation by less than 0.01. -/
def CloseTo (old new : List ℚ) : Prop :=
  (2 ≤ old.length ∧ 2 ≤ new.length) ∧ (average old ≠ 0 ∧ average new ≠ 0) ∧
    |average new - average old| < 5 / 100 * |average old| ∧
    |deviation new / (average new : ℝ) - deviation old / (average old : ℝ)| < 1 / 100

/-! ## Parts of a matrix -/

theorem region_has_iff (r : Region) (i j : ℕ) : r.has i j = true ↔ Inside r i j := by
  simp [Region.has, Inside]

theorem entry_part (m : Mat) (r : Region) (i j : ℕ) :
    entry (m.part r).rows i j =
      if i < r.eRow - r.sRow ∧ j < r.eCol - r.sCol then entry m.rows (r.sRow + i) (r.sCol + j) else none := by
  unfold entry part
  simp only [List.getD_eq_getElem?_getD, List.getElem?_map, List.getElem?_take, List.getElem?_drop]
  by_cases h1 : i < r.eRow - r.sRow
  · by_cases h2 : j < r.eCol - r.sCol
    · simp only [h1, h2, if_true, and_self]
      rcases m.rows[r.sRow + i]? with _ | row
      · simp
      · simp [h2]
    · simp only [h1, h2, and_false, if_false, if_true]
      rcases m.rows[r.sRow + i]? with _ | row
      · simp
      · simp [h2]
  · simp [h1]

theorem entry_mapIdx (rows : List (List (Option ℚ))) (f : ℕ → ℕ → Option ℚ → Option ℚ) (i j : ℕ) (row : List (Option ℚ))
    (hi : rows[i]? = some row) (hj : j < row.length) :
    entry (rows.mapIdx fun i row => row.mapIdx fun j x => f i j x) i j = f i j (entry rows i j) := by
  unfold entry
  simp only [List.getD_eq_getElem?_getD, List.getElem?_mapIdx, hi, Option.map_some, Option.getD_some,
    List.getElem?_eq_getElem hj]

theorem entry_out (rows : List (List (Option ℚ))) (i j : ℕ) (h : ∀ row, rows[i]? = some row → row.length ≤ j) :
    entry rows i j = none := by
  unfold entry
  rcases hr : rows[i]? with _ | row
  · simp [List.getD_eq_getElem?_getD, hr]
  · simp [List.getD_eq_getElem?_getD, hr, List.getElem?_eq_none (h row hr)]

theorem mapIdx_lengths (rows : List (List (Option ℚ))) (f : ℕ → ℕ → Option ℚ → Option ℚ) (i : ℕ) :
    ((rows.mapIdx fun i row => row.mapIdx fun j x => f i j x)[i]?.map List.length) = rows[i]?.map List.length := by
  rw [List.getElem?_mapIdx]
  rcases rows[i]? with _ | row <;> simp

theorem entry_mapIdx_any (rows : List (List (Option ℚ))) (f : ℕ → ℕ → Option ℚ → Option ℚ) (i j : ℕ)
    (hnone : entry rows i j = none → f i j none = none) :
    (entry (rows.mapIdx fun i row => row.mapIdx fun j x => f i j x) i j = f i j (entry rows i j)) := by
  by_cases h : ∃ row, rows[i]? = some row ∧ j < row.length
  · obtain ⟨row, h1, h2⟩ := h
    exact entry_mapIdx rows f i j row h1 h2
  · push Not at h
    rw [entry_out rows i j h, hnone (entry_out rows i j h)]
    apply entry_out
    intro row hr
    have := mapIdx_lengths rows f i
    rw [hr] at this
    rcases h' : rows[i]? with _ | row'
    · rw [h'] at this; simp at this
    · rw [h'] at this
      simp only [Option.map_some, Option.some.injEq] at this
      rw [this]
      exact h row' h'

theorem mapIdx_wf {m : Mat} (h : m.Wf) (f : ℕ → ℕ → Option ℚ → Option ℚ) :
    (Mat.mk m.ncols (m.rows.mapIdx fun i row => row.mapIdx fun j x => f i j x)).Wf := by
  intro row hrow
  obtain ⟨i, hi⟩ := List.getElem?_of_mem hrow
  have := mapIdx_lengths m.rows f i
  simp only at hi
  rw [hi] at this
  rcases h' : m.rows[i]? with _ | row'
  · rw [h'] at this; simp at this
  · rw [h'] at this
    simp only [Option.map_some, Option.some.injEq] at this
    rw [this]
    exact h row' (List.mem_of_getElem? h')

theorem part_wf {m : Mat} (h : m.Wf) (r : Region) (hr : r.eCol ≤ m.ncols) : (m.part r).Wf := by
  intro row hrow
  simp only [part, List.mem_map] at hrow
  obtain ⟨row', h1, rfl⟩ := hrow
  have := h row' (List.mem_of_mem_drop (List.mem_of_mem_take h1))
  simp only [List.length_take, List.length_drop, this, part]
  omega

theorem part_rows {m : Mat} (r : Region) (hr : r.eRow ≤ m.rows.length) : (m.part r).rows.length = r.eRow - r.sRow := by
  simp only [part, List.length_map, List.length_take, List.length_drop]
  omega

/-! ## One attempt -/

section Loop
variable {G : Type} (normal : G → Option ℚ → Option ℝ → ℚ × G)

theorem fillRegion_replaced (means : List (Option ℚ)) (stddevs : List (Option ℝ)) (m : Mat) (g : G) (r : Region)
    (h : m.Wf) (hm : means.length = m.ncols) (hs : stddevs.length = m.ncols)
    (hr : (r.sRow ≤ r.eRow ∧ r.eRow ≤ m.rows.length) ∧ r.sCol ≤ r.eCol ∧ r.eCol ≤ m.ncols) :
    Replaced m [r] (fillRegion normal means stddevs (m, g) r).1 := by
  have l1 : ((means.drop r.sCol).take (r.eCol - r.sCol)).length = (m.part r).ncols := by
    simp only [List.length_take, List.length_drop, hm, part]; omega
  have l2 : ((stddevs.drop r.sCol).take (r.eCol - r.sCol)).length = (m.part r).ncols := by
    simp only [List.length_take, List.length_drop, hs, part]; omega
  obtain ⟨req, -, -, -, e4, ⟨e5, e6, e7⟩, e8⟩ := C59_fill normal (m.part r) (part_wf h r hr.2.2) _ _ l1 l2 g
  set o := fillData normal (m.part r) ((means.drop r.sCol).take (r.eCol - r.sCol))
    ((stddevs.drop r.sCol).take (r.eCol - r.sCol)) g with ho
  have hout : (fillRegion normal means stddevs (m, g) r).1 = m.putPart r o.1 := rfl
  have hins : ∀ i j, Inside r i j → ∃ row, m.rows[i]? = some row ∧ j < row.length := by
    rintro i j ⟨⟨a1, a2⟩, a3, a4⟩
    have hi : i < m.rows.length := by omega
    refine ⟨m.rows[i], List.getElem?_eq_getElem hi, ?_⟩
    rw [h _ (List.getElem_mem hi)]
    omega
  have hin : ∀ i j, Inside r i j → entry (m.putPart r o.1).rows i j = entry o.1.rows (i - r.sRow) (j - r.sCol) := by
    intro i j hij
    obtain ⟨row, h1, h2⟩ := hins i j hij
    unfold putPart
    rw [entry_mapIdx m.rows (fun i j x => if r.has i j then entry o.1.rows (i - r.sRow) (j - r.sCol) else x) i j row h1 h2]
    rw [if_pos ((region_has_iff r i j).2 hij)]
  have hnot : ∀ i j, ¬ Inside r i j → entry (m.putPart r o.1).rows i j = entry m.rows i j := by
    intro i j hij
    have hb : r.has i j = false := by
      rcases hh : r.has i j with _ | _
      · rfl
      · exact absurd ((region_has_iff r i j).1 hh) hij
    unfold putPart
    rw [entry_mapIdx_any m.rows (fun i j x => if r.has i j then entry o.1.rows (i - r.sRow) (j - r.sCol) else x) i j
      (fun _ => by simp [hb])]
    simp [hb]
  rw [hout]
  refine ⟨⟨rfl, by simp [putPart], mapIdx_wf h _⟩, ?_, ?_, ?_⟩
  · intro i j v hv
    by_cases hij : Inside r i j
    · rw [hin i j hij]
      obtain ⟨⟨a1, a2⟩, a3, a4⟩ := hij
      refine e4 _ _ _ ?_
      rw [entry_part, if_pos ⟨by omega, by omega⟩, Nat.add_sub_cancel' a1, Nat.add_sub_cancel' a3, hv]
    · rw [hnot i j hij, hv]
  · intro r' hr' i j hij
    rw [List.mem_singleton] at hr'
    subst hr'
    rw [hin i j hij]
    obtain ⟨⟨a1, a2⟩, a3, a4⟩ := hij
    refine e8 _ ?_ _ ?_
    · rw [part_rows r' hr.1.2]; omega
    · simp only [part]; omega
  · intro i j hij
    exact hnot i j (hij r (List.mem_singleton.2 rfl))

theorem attempt_replaced (means : List (Option ℚ)) (stddevs : List (Option ℝ)) (regions : List Region) (m : Mat) (g : G)
    (h : m.Wf) (hm : means.length = m.ncols) (hs : stddevs.length = m.ncols) (hr : Rectangles m regions) :
    Replaced m regions (attempt normal means stddevs regions (m, g)).1 := by
  induction regions generalizing m g with
  | nil => exact ⟨⟨rfl, rfl, h⟩, fun _ _ _ h => h, fun r hr => (by simp at hr), fun _ _ _ => rfl⟩
  | cons r rs ih =>
    have h1 := fillRegion_replaced normal means stddevs m g r h hm hs (hr r List.mem_cons_self)
    obtain ⟨s1, s2, s3⟩ := h1.shape
    set m1 := fillRegion normal means stddevs (m, g) r with hm1
    have h2 := ih m1.1 m1.2 (by intro row hrow; rw [s1]; exact s3 row hrow) (by rw [s1, hm]) (by rw [s1, hs])
      (by intro q hq; rw [s1, s2]; exact hr q (List.mem_cons_of_mem _ hq))
    have hatt : attempt normal means stddevs (r :: rs) (m, g) = attempt normal means stddevs rs (m1.1, m1.2) := rfl
    rw [hatt]
    obtain ⟨t1, t2, t3⟩ := h2.shape
    refine ⟨⟨by rw [t1, s1], by rw [t2, s2], by intro row hrow; rw [← s1]; exact t3 row hrow⟩, ?_, ?_, ?_⟩
    · intro i j v hv
      exact h2.recorded i j v (h1.recorded i j v hv)
    · intro q hq i j hij
      rcases List.mem_cons.1 hq with rfl | hq
      · have := h1.filled q (List.mem_singleton.2 rfl) i j hij
        obtain ⟨v, hv⟩ := Option.isSome_iff_exists.1 this
        rw [h2.recorded i j v hv]
        rfl
      · exact h2.filled q hq i j hij
    · intro i j hij
      rw [h2.outside i j fun q hq => hij q (List.mem_cons_of_mem _ hq)]
      exact h1.outside i j fun q hq => by
        rw [List.mem_singleton] at hq
        subst hq
        exact hij q List.mem_cons_self

/-- Two matrices of one shape with the same entries. -/
theorem mat_ext {m m' : Mat} (h : m.Wf) (h' : ∀ row ∈ m'.rows, row.length = m.ncols) (hc : m'.ncols = m.ncols)
    (hl : m'.rows.length = m.rows.length) (he : ∀ i j, entry m'.rows i j = entry m.rows i j) : m' = m := by
  obtain ⟨nc, rows⟩ := m
  obtain ⟨nc', rows'⟩ := m'
  simp only at hc hl he h'
  subst hc
  congr 1
  refine List.ext_getElem hl fun i h1 h2 => ?_
  have e1 := h' _ (List.getElem_mem h1)
  have e2 := h _ (List.getElem_mem h2)
  refine List.ext_getElem (by rw [e1, e2]) fun j g1 g2 => ?_
  have := he i j
  unfold entry at this
  simpa [List.getD_eq_getElem?_getD, List.getElem?_eq_getElem h1, List.getElem?_eq_getElem h2,
    List.getElem?_eq_getElem g1, List.getElem?_eq_getElem g2] using this

/-- Setting the replaced entries back to missing restores the data. -/
theorem reset_replaced {m out : Mat} {regions : List Region} (h : m.Wf) (hr : Replaced m regions out) :
    reset m out = m := by
  obtain ⟨s1, s2, s3⟩ := hr.shape
  have hw : out.Wf := by intro row hrow; rw [s1]; exact s3 row hrow
  refine mat_ext h ?_ s1 (by simp [reset, s2]) ?_
  · intro row hrow
    have := mapIdx_wf hw (fun i j x => if (entry m.rows i j).isNone then none else x) row hrow
    rw [this]
    exact s1
  · intro i j
    unfold reset
    rw [entry_mapIdx_any out.rows (fun i j x => if (entry m.rows i j).isNone then none else x) i j (by simp)]
    rcases hv : entry m.rows i j with _ | v
    · rfl
    · simpa using hr.recorded i j v hv

/-! ## Statistics -/

theorem cols_numbers (m : Mat) (c : ℕ) (hc : c < m.ncols) : ∃ col, m.cols[c]? = some col ∧ valid col = colNumbers m c := by
  refine ⟨m.rows.map fun r => r.getD c none, by simp [cols, hc], ?_⟩
  unfold valid colNumbers
  have : (m.rows.map fun r => r.getD c none) = (List.range m.rows.length).map fun i => entry m.rows i c := by
    refine List.ext_getElem (by simp) fun i h1 h2 => ?_
    simp only [List.length_map] at h1
    simp [entry, List.getD_eq_getElem?_getD, List.getElem?_eq_getElem h1]
  rw [this, List.filterMap_map]
  rfl

theorem stat_mean (m : Mat) (c : ℕ) (hc : c < m.ncols) :
    m.calcStat.1.getD c none = if colNumbers m c = [] then none else some (average (colNumbers m c)) := by
  obtain ⟨col, h1, h2⟩ := cols_numbers m c hc
  simp only [calcStat, List.getD_eq_getElem?_getD, List.getElem?_map, h1, Option.map_some, Option.getD_some, nanmean, h2,
    average]

theorem stat_std (m : Mat) (c : ℕ) (hc : c < m.ncols) :
    m.calcStat.2.getD c none = if (colNumbers m c).length < 2 then none else some (deviation (colNumbers m c)) := by
  obtain ⟨col, h1, h2⟩ := cols_numbers m c hc
  simp only [calcStat, List.getD_eq_getElem?_getD, List.getElem?_map, h1, Option.map_some, Option.getD_some, nanstd, h2,
    deviation, average, pow_two]

theorem closeColumn_iff (old new : List ℚ) :
    closeColumn (if old = [] then none else some (average old)) (if old.length < 2 then none else some (deviation old))
      (if new = [] then none else some (average new)) (if new.length < 2 then none else some (deviation new)) ↔
    CloseTo old new := by
  have aux : ∀ l : List ℚ, 2 ≤ l.length → l ≠ [] := by
    intro l hl h
    simp [h] at hl
  have hdiv : ∀ a b : ℚ, a ≠ 0 → (|(b - a) / a| < 1 / 20 ↔ |b - a| < 5 / 100 * |a|) := by
    intro a b ha
    rw [abs_div, div_lt_iff₀ (abs_pos.2 ha)]
    norm_num
  unfold CloseTo
  by_cases h1 : old.length < 2
  · rw [if_pos h1]
    constructor
    · intro h
      rcases (if old = [] then none else some (average old) : Option ℚ) with _ | a <;> simp [closeColumn] at h
    · rintro ⟨⟨h, -⟩, -⟩
      omega
  · by_cases h2 : new.length < 2
    · rw [if_pos h2]
      constructor
      · intro h
        rw [if_neg (aux old (by omega)), if_neg h1] at h
        rcases (if new = [] then none else some (average new) : Option ℚ) with _ | a <;> simp [closeColumn] at h
      · rintro ⟨⟨-, h⟩, -⟩
        omega
    · rw [if_neg h1, if_neg h2, if_neg (aux old (by omega)), if_neg (aux new (by omega))]
      simp only [closeColumn]
      constructor
      · rintro ⟨a, b, c, d⟩
        exact ⟨⟨by omega, by omega⟩, ⟨a, b⟩, (hdiv _ _ a).1 c, d⟩
      · rintro ⟨-, ⟨a, b⟩, c, d⟩
        exact ⟨a, b, (hdiv _ _ a).2 c, d⟩

theorem accepted_iff (m out : Mat) (hc : out.ncols = m.ncols) :
    accepted m.calcStat.1 m.calcStat.2 out ↔ ∀ c < m.ncols, CloseTo (colNumbers m c) (colNumbers out c) := by
  unfold accepted
  rw [hc]
  refine forall₂_congr fun c h => ?_
  rw [stat_mean m c h, stat_std m c h, stat_mean out c (by omega), stat_std out c (by omega)]
  exact closeColumn_iff _ _

/-! ## C168 -/

/-- The random source after `k` attempts, every one of them on the original data. -/
noncomputable def sourceAfter (m : Mat) (regions : List Region) (g : G) : ℕ → G
  | 0 => g
  | k + 1 => (attempt normal m.calcStat.1 m.calcStat.2 regions (m, sourceAfter m regions g k)).2

/-- The data after one attempt, the `k`-th, on the original data. -/
noncomputable def filledAt (m : Mat) (regions : List Region) (g : G) (k : ℕ) : Mat :=
  (attempt normal m.calcStat.1 m.calcStat.2 regions (m, sourceAfter normal m regions g k)).1

theorem calcStat_lengths (m : Mat) : m.calcStat.1.length = m.ncols ∧ m.calcStat.2.length = m.ncols := by
  simp [calcStat, cols]

theorem filledAt_replaced (m : Mat) (h : m.Wf) (regions : List Region) (hr : Rectangles m regions) (g : G) (k : ℕ) :
    Replaced m regions (filledAt normal m regions g k) :=
  attempt_replaced normal _ _ regions m _ h (calcStat_lengths m).1 (calcStat_lengths m).2 hr

theorem attempts_from (m : Mat) (h : m.Wf) (hc : 0 < m.ncols) (regions : List Region) (hr : Rectangles m regions) (g : G)
    (n k : ℕ) :
    (∃ i, k ≤ i ∧ i < k + n ∧ (∀ c < m.ncols, CloseTo (colNumbers m c) (colNumbers (filledAt normal m regions g i) c)) ∧
        (∀ j, k ≤ j → j < i → ¬ ∀ c < m.ncols, CloseTo (colNumbers m c) (colNumbers (filledAt normal m regions g j) c)) ∧
        attempts normal m m.calcStat.1 m.calcStat.2 regions n (m, sourceAfter normal m regions g k) =
          .ok (filledAt normal m regions g i)) ∨
    ((∀ i, k ≤ i → i < k + n → ¬ ∀ c < m.ncols, CloseTo (colNumbers m c) (colNumbers (filledAt normal m regions g i) c)) ∧
        attempts normal m m.calcStat.1 m.calcStat.2 regions n (m, sourceAfter normal m regions g k) = .error .valueError) := by
  induction n generalizing k with
  | zero => exact Or.inr ⟨fun i h1 h2 => by omega, rfl⟩
  | succ n ih =>
    have hrep := filledAt_replaced normal m h regions hr g k
    have hnc : (filledAt normal m regions g k).ncols = m.ncols := hrep.shape.1
    have hunf : attempts normal m m.calcStat.1 m.calcStat.2 regions (n + 1) (m, sourceAfter normal m regions g k) =
        @ite _ (accepted m.calcStat.1 m.calcStat.2 (filledAt normal m regions g k)) (Classical.propDecidable _)
          (.ok (filledAt normal m regions g k))
          (attempts normal m m.calcStat.1 m.calcStat.2 regions n
            (reset m (filledAt normal m regions g k), sourceAfter normal m regions g (k + 1))) := by
      rw [attempts]
      exact if_neg (show ¬ (filledAt normal m regions g k).ncols = 0 by omega)
    by_cases ha : accepted m.calcStat.1 m.calcStat.2 (filledAt normal m regions g k)
    · left
      refine ⟨k, le_refl _, by omega, (accepted_iff m _ hnc).1 ha, fun j h1 h2 => by omega, ?_⟩
      rw [hunf, if_pos ha]
    · have hna := fun hh => ha ((accepted_iff m _ hnc).2 hh)
      rw [hunf, if_neg ha, reset_replaced h hrep]
      rcases ih (k + 1) with ⟨i, h1, h2, h3, h4, h5⟩ | ⟨h1, h2⟩
      · left
        refine ⟨i, by omega, by omega, h3, fun j g1 g2 => ?_, h5⟩
        rcases Nat.eq_or_lt_of_le g1 with rfl | g1
        · exact hna
        · exact h4 j g1 g2
      · right
        refine ⟨fun i g1 g2 => ?_, h2⟩
        rcases Nat.eq_or_lt_of_le g1 with rfl | g1
        · exact hna
        · exact h1 i g1 (by omega)

/-- **C168**.  Data returned by random replacement: no recorded value is changed, every gap in a region is filled, other
gaps stay, and in every column mean and coefficient of variation are close to those of the recorded values. -/
theorem C168_replacement (m : Mat) (h : m.Wf) (hc : 0 < m.ncols) (regions : List Region) (hr : Rectangles m regions)
    (n : ℕ) (g : G) (out : Mat) (hout : replaceGaps normal m regions n g = .ok out) :
    Replaced m regions out ∧ ∀ c < m.ncols, CloseTo (colNumbers m c) (colNumbers out c) := by
  rcases attempts_from normal m h hc regions hr g n 0 with ⟨i, -, -, h3, -, h5⟩ | ⟨-, h2⟩
  · have : out = filledAt normal m regions g i := by
      have := hout.symm.trans h5
      injection this
    subst this
    exact ⟨filledAt_replaced normal m h regions hr g i, h3⟩
  · have := hout.symm.trans h2
    cases this

/-- **C168**.  A refused attempt leaves no trace in the data: every attempt starts from the recorded values, only the
random source has moved on; the first attempt close to the recorded statistics is the result, and `ValueError` is raised
exactly if none of the permitted attempts is. -/
theorem C168_first_accepted (m : Mat) (h : m.Wf) (hc : 0 < m.ncols) (regions : List Region) (hr : Rectangles m regions)
    (n : ℕ) (g : G) :
    let good := fun k => ∀ c < m.ncols, CloseTo (colNumbers m c) (colNumbers (filledAt normal m regions g k) c)
    (∀ k out, (replaceGaps normal m regions n g = .ok out ∧ good k ∧ k < n ∧ ∀ j < k, ¬ good j) →
      out = filledAt normal m regions g k) ∧
    ((∃ out, replaceGaps normal m regions n g = .ok out) ↔ ∃ k < n, good k) ∧
    (replaceGaps normal m regions n g = .error .valueError ↔ ∀ k < n, ¬ good k) := by
  intro good
  rcases attempts_from normal m h hc regions hr g n 0 with ⟨i, -, h2, h3, h4, h5⟩ | ⟨h1, h2⟩
  · have e : replaceGaps normal m regions n g = .ok (filledAt normal m regions g i) := h5
    refine ⟨?_, ⟨fun _ => ⟨i, by omega, h3⟩, fun _ => ⟨_, e⟩⟩, ?_, ?_⟩
    · rintro k out ⟨e1, e2, e3, e4⟩
      have hki : k = i := by
        rcases Nat.lt_trichotomy k i with hlt | heq | hgt
        · exact absurd e2 (h4 k (by omega) hlt)
        · exact heq
        · exact absurd h3 (e4 i hgt)
      rw [hki]
      have := e1.symm.trans e
      injection this
    · intro e1
      rw [e] at e1
      cases e1
    · intro hn
      exact absurd h3 (hn i (by omega))
  · have e : replaceGaps normal m regions n g = .error .valueError := h2
    have hno : ∀ k < n, ¬ good k := fun k hk => h1 k (by omega) (by omega)
    refine ⟨?_, ⟨?_, ?_⟩, fun _ => hno, fun _ => e⟩
    · rintro k out ⟨e1, -⟩
      rw [e] at e1
      cases e1
    · rintro ⟨out, e1⟩
      rw [e] at e1
      cases e1
    · rintro ⟨k, hk, hg⟩
      exact absurd hg (hno k hk)

/-- The regions found in the data are rectangles of it. -/
theorem C168_regions_found (m : Mat) (h : m.Wf) (thr : ℚ) (ht : thr ≤ 1) (hr : 0 < m.rows.length) (hc : 0 < m.ncols)
    (regions : List Region) (hrs : identifyRegions m thr = .ok regions) : Rectangles m regions := by
  intro r hmem
  have := (C57_regions m h thr ht hr hc regions hrs).2 r hmem
  exact ⟨⟨by have := this.rows; omega, this.rows.2⟩, by have := this.cols; omega, this.cols.2⟩

/-- **C168**.  If nothing is missing inside the regions, every column has two numbers and no mean is zero, the first
attempt is accepted and the data stay as they are, whatever the random source. -/
theorem C168_nothing_missing (m : Mat) (h : m.Wf) (hc : 0 < m.ncols) (regions : List Region) (hr : Rectangles m regions)
    (hfull : ∀ r ∈ regions, ∀ i j, Inside r i j → (entry m.rows i j).isSome)
    (hstat : ∀ c < m.ncols, 2 ≤ (colNumbers m c).length ∧ average (colNumbers m c) ≠ 0) (n : ℕ) (hn : 0 < n) (g : G) :
    replaceGaps normal m regions n g = .ok m := by
  have hrep := filledAt_replaced normal m h regions hr g 0
  have e : filledAt normal m regions g 0 = m := by
    refine mat_ext h hrep.shape.2.2 hrep.shape.1 hrep.shape.2.1 fun i j => ?_
    by_cases hij : ∃ r ∈ regions, Inside r i j
    · obtain ⟨r, hr1, hr2⟩ := hij
      obtain ⟨v, hv⟩ := Option.isSome_iff_exists.1 (hfull r hr1 i j hr2)
      rw [hv, hrep.recorded i j v hv]
    · push Not at hij
      exact hrep.outside i j hij
  have hgood : ∀ c < m.ncols, CloseTo (colNumbers m c) (colNumbers (filledAt normal m regions g 0) c) := by
    intro c hcc
    rw [e]
    obtain ⟨a, b⟩ := hstat c hcc
    refine ⟨⟨a, a⟩, ⟨b, b⟩, ?_, by simp⟩
    rw [sub_self, abs_zero]
    have := abs_pos.2 b
    positivity
  obtain ⟨h1, h2, -⟩ := C168_first_accepted normal m h hc regions hr n g
  obtain ⟨out, ho⟩ := h2.2 ⟨0, hn, hgood⟩
  rw [ho, h1 0 out ⟨ho, hgood, hn, fun j hj => by omega⟩, e]

theorem mem_gaps (e : ℕ → ℕ → Option ℚ) (nr nc : ℕ) (p : ℕ × ℕ) :
    p ∈ Spec.gaps e nr nc ↔ p.1 < nr ∧ p.2 < nc ∧ e p.1 p.2 = none := by
  obtain ⟨r, c⟩ := p
  simp only [Spec.gaps, List.mem_flatMap, List.mem_map, List.mem_filter, List.mem_range, Option.isNone_iff_eq_none,
    Prod.mk.injEq]
  constructor
  · rintro ⟨c', h1, r', ⟨h2, h3⟩, rfl, rfl⟩
    exact ⟨h2, h1, h3⟩
  · rintro ⟨h1, h2, h3⟩
    exact ⟨c, h2, r, ⟨h1, h3⟩, rfl, rfl⟩

theorem fillRegion_draws (means : List (Option ℚ)) (stddevs : List (Option ℝ)) (m : Mat) (g : G) (r : Region)
    (h : m.Wf) (hm : means.length = m.ncols) (hs : stddevs.length = m.ncols)
    (hr : (r.sRow ≤ r.eRow ∧ r.eRow ≤ m.rows.length) ∧ r.sCol ≤ r.eCol ∧ r.eCol ≤ m.ncols) :
    ∃ (places : List (ℕ × ℕ)) (req : List (Option ℚ × Option ℝ)), places.Nodup ∧
      (∀ p : ℕ × ℕ, p ∈ places ↔ entry m.rows p.1 p.2 = none ∧ Inside r p.1 p.2) ∧
      places.map (fun p => (means.zip stddevs)[p.2]?) = req.map some ∧
      (fillRegion normal means stddevs (m, g) r).2 = (Spec.draws normal g req).2 ∧
      ∀ (k : ℕ) (p : ℕ × ℕ), places[k]? = some p →
        entry (fillRegion normal means stddevs (m, g) r).1.rows p.1 p.2 = (Spec.draws normal g req).1[k]? := by
  have l1 : ((means.drop r.sCol).take (r.eCol - r.sCol)).length = (m.part r).ncols := by
    simp only [List.length_take, List.length_drop, hm, part]; omega
  have l2 : ((stddevs.drop r.sCol).take (r.eCol - r.sCol)).length = (m.part r).ncols := by
    simp only [List.length_take, List.length_drop, hs, part]; omega
  obtain ⟨req, e1, e2, e3, -, -, -⟩ := C59_fill normal (m.part r) (part_wf h r hr.2.2) _ _ l1 l2 g
  have hrows := part_rows r hr.1.2
  have hmem : ∀ p : ℕ × ℕ, p ∈ Spec.gaps (entry (m.part r).rows) (m.part r).rows.length (m.part r).ncols ↔
      p.1 < r.eRow - r.sRow ∧ p.2 < r.eCol - r.sCol ∧ entry m.rows (r.sRow + p.1) (r.sCol + p.2) = none := by
    intro p
    rw [mem_gaps, hrows, entry_part]
    constructor
    · rintro ⟨a, b, c⟩
      have b' : p.2 < r.eCol - r.sCol := b
      rw [if_pos ⟨a, b'⟩] at c
      exact ⟨a, b', c⟩
    · rintro ⟨a, b, c⟩
      refine ⟨a, b, ?_⟩
      rw [if_pos ⟨a, b⟩]
      exact c
  refine ⟨(Spec.gaps (entry (m.part r).rows) (m.part r).rows.length (m.part r).ncols).map
    fun p => (r.sRow + p.1, r.sCol + p.2), req, ?_, ?_, ?_, e2, ?_⟩
  · refine (gaps_nodup _ _ _).map ?_
    rintro ⟨a, b⟩ ⟨c, d⟩ hab
    simp only [Prod.mk.injEq, Nat.add_left_cancel_iff] at hab
    exact Prod.ext hab.1 hab.2
  · rintro ⟨i, j⟩
    rw [List.mem_map]
    constructor
    · rintro ⟨⟨a, b⟩, h1, h2⟩
      obtain ⟨h3, h4, h5⟩ := (hmem _).1 h1
      simp only [Prod.mk.injEq] at h2 h3 h4 h5
      obtain ⟨rfl, rfl⟩ := h2
      exact ⟨h5, ⟨⟨by omega, by omega⟩, by omega, by omega⟩⟩
    · rintro ⟨h1, ⟨h2, h3⟩, h4, h5⟩
      simp only at h1 h2 h3 h4 h5
      refine ⟨(i - r.sRow, j - r.sCol), (hmem _).2 ⟨by simp only; omega, by simp only; omega, ?_⟩, ?_⟩
      · simp only
        rw [Nat.add_sub_cancel' h2, Nat.add_sub_cancel' h4]
        exact h1
      · simp only [Prod.mk.injEq]
        omega
  · rw [← e1, List.map_map]
    refine List.map_congr_left fun p hp => ?_
    obtain ⟨-, h4, -⟩ := (hmem p).1 hp
    simp only [Function.comp_apply, List.zip_eq_zipWith, List.getElem?_zipWith, List.getElem?_take, List.getElem?_drop, h4,
      if_true]
  · intro k p hk
    rw [List.getElem?_map] at hk
    obtain ⟨q, hq, rfl⟩ := Option.map_eq_some_iff.1 hk
    rw [← e3 k q hq]
    obtain ⟨h3, h4, -⟩ := (hmem q).1 (List.mem_of_getElem? hq)
    have hi : r.sRow + q.1 < m.rows.length := by omega
    show entry (m.putPart r _).rows (r.sRow + q.1) (r.sCol + q.2) = _
    unfold putPart
    rw [entry_mapIdx m.rows (fun i j x => if r.has i j then entry _ (i - r.sRow) (j - r.sCol) else x) _ _ m.rows[r.sRow + q.1]
      (List.getElem?_eq_getElem hi) (by rw [h _ (List.getElem_mem hi)]; omega)]
    rw [if_pos ((region_has_iff r _ _).2 ⟨⟨by omega, by omega⟩, by omega, by omega⟩), Nat.add_sub_cancel_left,
      Nat.add_sub_cancel_left]

theorem attempt_draws (means : List (Option ℚ)) (stddevs : List (Option ℝ)) (regions : List Region) (m : Mat) (g : G)
    (h : m.Wf) (hm : means.length = m.ncols) (hs : stddevs.length = m.ncols) (hr : Rectangles m regions) :
    ∃ (places : List (ℕ × ℕ)) (req : List (Option ℚ × Option ℝ)), places.Nodup ∧
      (∀ p : ℕ × ℕ, p ∈ places ↔ entry m.rows p.1 p.2 = none ∧ ∃ r ∈ regions, Inside r p.1 p.2) ∧
      places.map (fun p => (means.zip stddevs)[p.2]?) = req.map some ∧
      (attempt normal means stddevs regions (m, g)).2 = (Spec.draws normal g req).2 ∧
      ∀ (k : ℕ) (p : ℕ × ℕ), places[k]? = some p →
        entry (attempt normal means stddevs regions (m, g)).1.rows p.1 p.2 = (Spec.draws normal g req).1[k]? := by
  induction regions generalizing m g with
  | nil => exact ⟨[], [], List.nodup_nil, by simp, rfl, rfl, by simp⟩
  | cons r rs ih =>
    obtain ⟨pl1, rq1, a1, a2, a3, a4, a5⟩ := fillRegion_draws normal means stddevs m g r h hm hs (hr r List.mem_cons_self)
    have h1 := fillRegion_replaced normal means stddevs m g r h hm hs (hr r List.mem_cons_self)
    obtain ⟨s1, s2, s3⟩ := h1.shape
    set m1 := fillRegion normal means stddevs (m, g) r with hm1
    have hw1 : m1.1.Wf := by intro row hrow; rw [s1]; exact s3 row hrow
    have hr1 : Rectangles m1.1 rs := by intro q hq; rw [s1, s2]; exact hr q (List.mem_cons_of_mem _ hq)
    obtain ⟨pl2, rq2, b1, b2, b3, b4, b5⟩ := ih m1.1 m1.2 hw1 (by rw [s1, hm]) (by rw [s1, hs]) hr1
    have hrep := attempt_replaced normal means stddevs rs m1.1 m1.2 hw1 (by rw [s1, hm]) (by rw [s1, hs]) hr1
    have hatt : attempt normal means stddevs (r :: rs) (m, g) = attempt normal means stddevs rs (m1.1, m1.2) := rfl
    have hlen : pl1.length = rq1.length := by
      have := congrArg List.length a3
      simpa using this
    have hmiss : ∀ p : ℕ × ℕ, entry m1.1.rows p.1 p.2 = none ↔ entry m.rows p.1 p.2 = none ∧ ¬ Inside r p.1 p.2 := by
      intro p
      constructor
      · intro hp
        refine ⟨?_, ?_⟩
        · rcases hv : entry m.rows p.1 p.2 with _ | v
          · rfl
          · rw [h1.recorded _ _ v hv] at hp; cases hp
        · intro hin
          have := h1.filled r (List.mem_singleton.2 rfl) _ _ hin
          rw [hp] at this; cases this
      · rintro ⟨hp, hin⟩
        rw [h1.outside _ _ (fun q hq => by rw [List.mem_singleton] at hq; subst hq; exact hin), hp]
    rw [hatt]
    refine ⟨pl1 ++ pl2, rq1 ++ rq2, ?_, ?_, ?_, ?_, ?_⟩
    · rw [List.nodup_append']
      refine ⟨a1, b1, ?_⟩
      intro p hp hq
      exact ((hmiss p).1 ((b2 p).1 hq).1).2 ((a2 p).1 hp).2
    · intro p
      rw [List.mem_append, a2, b2, hmiss]
      constructor
      · rintro (⟨c1, c2⟩ | ⟨⟨c1, -⟩, q, c3, c4⟩)
        · exact ⟨c1, r, List.mem_cons_self, c2⟩
        · exact ⟨c1, q, List.mem_cons_of_mem _ c3, c4⟩
      · rintro ⟨c1, q, c3, c4⟩
        by_cases hin : Inside r p.1 p.2
        · exact Or.inl ⟨c1, hin⟩
        · rcases List.mem_cons.1 c3 with rfl | c3
          · exact absurd c4 hin
          · exact Or.inr ⟨⟨c1, hin⟩, q, c3, c4⟩
    · rw [List.map_append, List.map_append, a3, b3]
    · rw [b4, a4, draws_append]
    · intro k p hk
      rw [draws_append]
      by_cases hkl : k < pl1.length
      · rw [List.getElem?_append_left hkl] at hk
        rw [List.getElem?_append_left (by rw [draws_length]; omega)]
        have hv := a5 k p hk
        obtain ⟨v, hv'⟩ := Option.isSome_iff_exists.1
          (h1.filled r (List.mem_singleton.2 rfl) _ _ ((a2 p).1 (List.mem_of_getElem? hk)).2)
        rw [← hv, hv']
        exact hrep.recorded _ _ v hv'
      · rw [List.getElem?_append_right (by omega)] at hk
        rw [List.getElem?_append_right (by rw [draws_length]; omega), draws_length, ← hlen, ← a4]
        exact b5 _ p hk

/-- **C168**.  Every value put in is a draw of its own.  The `k`-th attempt asks the random source - where the attempts
before have left it - exactly once for every missing entry in a region, with the mean and the deviation of the recorded
values of its column; the numbers obtained, one after the other, are the values put in. -/
theorem C168_own_draws (m : Mat) (h : m.Wf) (regions : List Region) (hr : Rectangles m regions) (g : G) (k : ℕ) :
    ∃ (places : List (ℕ × ℕ)) (req : List (Option ℚ × Option ℝ)), places.Nodup ∧
      (∀ p : ℕ × ℕ, p ∈ places ↔ entry m.rows p.1 p.2 = none ∧ ∃ r ∈ regions, Inside r p.1 p.2) ∧
      List.Forall₂ (fun (p : ℕ × ℕ) (q : Option ℚ × Option ℝ) => p.2 < m.ncols ∧
        q = (if colNumbers m p.2 = [] then none else some (average (colNumbers m p.2)),
          if (colNumbers m p.2).length < 2 then none else some (deviation (colNumbers m p.2)))) places req ∧
      sourceAfter normal m regions g (k + 1) = (Spec.draws normal (sourceAfter normal m regions g k) req).2 ∧
      ∀ (i : ℕ) (p : ℕ × ℕ), places[i]? = some p →
        entry (filledAt normal m regions g k).rows p.1 p.2 =
          (Spec.draws normal (sourceAfter normal m regions g k) req).1[i]? := by
  obtain ⟨hl1, hl2⟩ := calcStat_lengths m
  obtain ⟨pl, rq, h1, h2, h3, h4, h5⟩ := attempt_draws normal _ _ regions m (sourceAfter normal m regions g k) h hl1 hl2 hr
  refine ⟨pl, rq, h1, h2, ?_, h4, h5⟩
  have hlen : pl.length = rq.length := by
    have := congrArg List.length h3
    simpa using this
  rw [List.forall₂_iff_get]
  refine ⟨hlen, fun i g1 g2 => ?_⟩
  simp only [List.get_eq_getElem]
  have hcol : pl[i].2 < m.ncols := by
    obtain ⟨-, r, hr1, hr2⟩ := (h2 _).1 (List.getElem_mem g1)
    have := (hr r hr1).2.2
    have := hr2.2.2
    omega
  refine ⟨hcol, ?_⟩
  have e := congrArg (fun l : List (Option (Option ℚ × Option ℝ)) => l[i]?) h3
  simp only [List.getElem?_map, List.getElem?_eq_getElem g1, List.getElem?_eq_getElem g2, Option.map_some,
    Option.some.injEq] at e
  rw [← stat_mean m _ hcol, ← stat_std m _ hcol]
  rw [List.zip_eq_zipWith, List.getElem?_zipWith, List.getElem?_eq_getElem (by omega), List.getElem?_eq_getElem (by omega)] at e
  simp only [Option.some.injEq] at e
  rw [← e]
  simp only [List.getD_eq_getElem?_getD]
  rw [List.getElem?_eq_getElem (by omega), List.getElem?_eq_getElem (by omega)]
  rfl

/-- **C168**.  Without attempts, or with a column of mean zero, the data are refused. -/
theorem C168_refused (m : Mat) (h : m.Wf) (hc : 0 < m.ncols) (regions : List Region) (hr : Rectangles m regions) (n : ℕ)
    (g : G) (hz : n = 0 ∨ ∃ c < m.ncols, average (colNumbers m c) = 0) :
    replaceGaps normal m regions n g = .error .valueError := by
  refine (C168_first_accepted normal m h hc regions hr n g).2.2.2 fun k hk hg => ?_
  rcases hz with rfl | ⟨c, h1, h2⟩
  · omega
  · exact (hg c h1).2.1.1 h2

end Loop

/-! A case with a gap, filled by a draw equal to the mean of its column. -/

/-- Two columns, one value missing. -/
def oneGap : Mat := ⟨2, [[some 100, some 200], [some 102, some 202], [some 101, none]]⟩

example : Rectangles oneGap [⟨0, 0, 3, 2⟩] ∧ oneGap.Wf ∧
    identifyRegions oneGap (4 / 5) = .ok [⟨0, 0, 3, 2⟩] := by
  refine ⟨?_, ?_, by decide +kernel⟩
  · intro r hr
    simp only [List.mem_singleton] at hr
    subst hr
    decide
  · intro row hrow
    simp only [oneGap, List.mem_cons, List.not_mem_nil, or_false] at hrow
    rcases hrow with rfl | rfl | rfl <;> rfl

/-- A random source that always gives 201. -/
def gives201 : Unit → Option ℚ → Option ℝ → ℚ × Unit := fun g _ _ => (201, g)

/-- The gap filled. -/
def oneGapFilled : Mat := ⟨2, [[some 100, some 200], [some 102, some 202], [some 101, some 201]]⟩

theorem oneGap_attempt (a b : Option ℚ) (s t : Option ℝ) :
    attempt gives201 [a, b] [s, t] [⟨0, 0, 3, 2⟩] (oneGap, ()) = (oneGapFilled, ()) := rfl

theorem oneGap_filledAt (k : ℕ) : filledAt gives201 oneGap [⟨0, 0, 3, 2⟩] () k = oneGapFilled := by
  obtain ⟨h1, h2⟩ := calcStat_lengths oneGap
  unfold filledAt
  generalize oneGap.calcStat.1 = l1 at *
  generalize oneGap.calcStat.2 = l2 at *
  change l1.length = 2 at h1
  change l2.length = 2 at h2
  obtain ⟨a, b, rfl⟩ := List.length_eq_two.1 h1
  obtain ⟨s, t, rfl⟩ := List.length_eq_two.1 h2
  exact congrArg Prod.fst (oneGap_attempt a b s t)

example : replaceGaps gives201 oneGap [⟨0, 0, 3, 2⟩] 10 () = .ok oneGapFilled := by
  have hw : oneGap.Wf := by
    intro row hrow
    simp only [oneGap, List.mem_cons, List.not_mem_nil, or_false] at hrow
    rcases hrow with rfl | rfl | rfl <;> rfl
  have hr : Rectangles oneGap [⟨0, 0, 3, 2⟩] := by
    intro r hr
    simp only [List.mem_singleton] at hr
    subst hr
    decide
  have c0 : colNumbers oneGap 0 = [100, 102, 101] ∧ colNumbers oneGapFilled 0 = [100, 102, 101] := ⟨rfl, rfl⟩
  have c1 : colNumbers oneGap 1 = [200, 202] ∧ colNumbers oneGapFilled 1 = [200, 202, 201] := ⟨rfl, rfl⟩
  have hgood : ∀ c < oneGap.ncols, CloseTo (colNumbers oneGap c) (colNumbers (filledAt gives201 oneGap [⟨0, 0, 3, 2⟩] () 0) c) := by
    intro c hc
    rw [oneGap_filledAt]
    have hc2 : c = 0 ∨ c = 1 := by
      have : oneGap.ncols = 2 := rfl
      omega
    rcases hc2 with rfl | rfl
    · rw [c0.1, c0.2]
      refine ⟨by decide, ⟨by norm_num [average], by norm_num [average]⟩, by norm_num [average], by simp⟩
    · rw [c1.1, c1.2]
      refine ⟨by decide, ⟨by norm_num [average], by norm_num [average]⟩, by norm_num [average], ?_⟩
      have d1 : deviation [200, 202] = Real.sqrt 2 := by norm_num [deviation, average]
      have d2 : deviation [200, 202, 201] = 1 := by norm_num [deviation, average]
      have a1 : average [200, 202] = 201 := by norm_num [average]
      have a2 : average [200, 202, 201] = 201 := by norm_num [average]
      rw [d1, d2, a1, a2, abs_lt]
      have s1 : Real.sqrt 2 < 2 := by rw [Real.sqrt_lt' (by norm_num)]; norm_num
      have s2 : 0 ≤ Real.sqrt 2 := Real.sqrt_nonneg 2
      constructor <;> push_cast <;> linarith
  obtain ⟨h1, h2, -⟩ := C168_first_accepted gives201 oneGap hw (by decide) _ hr 10 ()
  obtain ⟨out, ho⟩ := h2.2 ⟨0, by decide, hgood⟩
  rw [ho, h1 0 out ⟨ho, hgood, by decide, fun j hj => by omega⟩, oneGap_filledAt]

/-! ## C169 -/

/-- The entry of a matrix of coefficients. -/
def coefficient (corr : List (List Fl)) (i j : ℕ) : Option Fl := (corr[i]?).bind fun row => row[j]?

theorem putCorr_ok_iff (num : ℝ → ℚ) (m : Mat) (corr : List (List Fl)) (r : Region) :
    (∃ c, putCorr num m corr r = .ok c) ↔ (r.eCol - r.sCol = 1 ∨ r.eRow - r.sRow = r.eCol - r.sCol) := by
  unfold putCorr
  dsimp only [part]
  by_cases h : r.eCol - r.sCol = 1 ∨ r.eRow - r.sRow = r.eCol - r.sCol
  · rw [if_pos h]
    exact ⟨fun _ => h, fun _ => ⟨_, rfl⟩⟩
  · rw [if_neg h]
    exact ⟨fun ⟨c, hc⟩ => (by cases hc), fun hh => absurd hh h⟩

theorem putCorr_error (num : ℝ → ℚ) (m : Mat) (corr : List (List Fl)) (r : Region)
    (h : ¬ (r.eCol - r.sCol = 1 ∨ r.eRow - r.sRow = r.eCol - r.sCol)) : putCorr num m corr r = .error .valueError := by
  unfold putCorr
  dsimp only [part]
  rw [if_neg h]

theorem coefficient_mapIdx (corr : List (List Fl)) (f : ℕ → ℕ → Fl → Fl) (i j : ℕ) :
    coefficient (corr.mapIdx fun i row => row.mapIdx fun j x => f i j x) i j = (coefficient corr i j).map (f i j) := by
  unfold coefficient
  rw [List.getElem?_mapIdx]
  rcases corr[i]? with _ | row
  · rfl
  · simp [List.getElem?_mapIdx]

theorem putCorr_outside (num : ℝ → ℚ) (m : Mat) (corr corr' : List (List Fl)) (r : Region)
    (h : putCorr num m corr r = .ok corr') (i j : ℕ) (hij : ¬ Inside r i j) : coefficient corr' i j = coefficient corr i j := by
  unfold putCorr at h
  dsimp only at h
  split at h
  · injection h with h
    rw [← h, coefficient_mapIdx corr (fun i j x => if r.has i j then _ else x)]
    have hb : r.has i j = false := by
      rcases hh : r.has i j with _ | _
      · rfl
      · exact absurd ((region_has_iff r i j).1 hh) hij
    simp [hb]
  · cases h

/-- **C169**, partial: the coefficients are computed exactly if every region has one column or as many rows as columns;
otherwise `ValueError` is raised.  (Missing: regions of other shapes, see below.) -/
theorem C169_shapes_partial (num : ℝ → ℚ) (m : Mat) (regions : List Region) (corr : List (List Fl)) :
    ((∃ c, putCorrs num m regions corr = .ok c) ↔
      ∀ r ∈ regions, r.eCol - r.sCol = 1 ∨ r.eRow - r.sRow = r.eCol - r.sCol) ∧
    ((∃ r ∈ regions, ¬ (r.eCol - r.sCol = 1 ∨ r.eRow - r.sRow = r.eCol - r.sCol)) →
      putCorrs num m regions corr = .error .valueError) := by
  induction regions generalizing corr with
  | nil => exact ⟨⟨fun _ r hr => by simp at hr, fun _ => ⟨corr, rfl⟩⟩, fun ⟨r, hr, _⟩ => by simp at hr⟩
  | cons r rs ih =>
    unfold putCorrs
    by_cases hb : r.eCol - r.sCol = 1 ∨ r.eRow - r.sRow = r.eCol - r.sCol
    · obtain ⟨c, hc⟩ := (putCorr_ok_iff num m corr r).2 hb
      rw [hc]
      dsimp only
      rw [(ih c).1]
      refine ⟨by simp [hb], ?_⟩
      rintro ⟨q, hq, hq2⟩
      rcases List.mem_cons.1 hq with rfl | hq
      · exact absurd hb hq2
      · exact (ih c).2 ⟨q, hq, hq2⟩
    · rw [putCorr_error num m corr r hb]
      dsimp only
      refine ⟨⟨?_, fun hh => absurd (hh r List.mem_cons_self) hb⟩, fun _ => rfl⟩
      rintro ⟨c, hc⟩
      cases hc

/-- **C169**, partial: inside a square region that starts on the diagonal, the coefficient in row `i` and column `j` is
that of the samples `i` and `j`.  (Missing: everything outside of the regions and regions of other shapes.) -/
theorem C169_coefficient_partial (num : ℝ → ℚ) (m : Mat) (corr : List (List Fl)) (r : Region)
    (hr : r.eRow ≤ m.rows.length ∧ r.eCol ≤ m.ncols) (hd : r.sRow = r.sCol ∧ r.eRow = r.eCol)
    (hsize : corr.length = m.rows.length ∧ ∀ row ∈ corr, row.length = m.ncols) :
    ∃ c, putCorr num m corr r = .ok c ∧ ∀ i j, Inside r i j →
      coefficient c i j = some (match corrEntry
          ((List.range' r.sRow (r.eRow - r.sRow)).map fun k => entry m.rows k i)
          ((List.range' r.sRow (r.eRow - r.sRow)).map fun k => entry m.rows k j) with
        | none => .nan
        | some rho => .fin (num rho)) := by
  have hcol : ∀ j, r.sCol ≤ j → j < r.eCol →
      (m.part r).cols.getD (j - r.sCol) [] = (List.range' r.sRow (r.eRow - r.sRow)).map fun k => entry m.rows k j := by
    intro j h1 h2
    have hlt : j - r.sCol < r.eCol - r.sCol := by omega
    have : (m.part r).cols[j - r.sCol]? = some ((m.part r).rows.map fun row => row.getD (j - r.sCol) none) := by
      simp [cols, part, hlt]
    rw [List.getD_eq_getElem?_getD, this, Option.getD_some]
    have hl := part_rows r hr.1
    refine List.ext_getElem (by simp [hl]) fun i g1 g2 => ?_
    simp only [List.length_map] at g1
    have e := entry_part m r i (j - r.sCol)
    rw [if_pos ⟨by omega, hlt⟩, Nat.add_sub_cancel' h1] at e
    simp only [List.getElem_map, List.getElem_range', Nat.one_mul]
    rw [← e]
    simp [entry, List.getD_eq_getElem?_getD, List.getElem?_eq_getElem g1]
  have hok : (m.part r).ncols = 1 ∨ r.eRow - r.sRow = (m.part r).ncols := Or.inr (by simp only [part]; omega)
  unfold putCorr
  dsimp only
  rw [if_pos hok]
  refine ⟨_, rfl, fun i j hij => ?_⟩
  have hb := (region_has_iff r i j).2 hij
  obtain ⟨⟨a1, a2⟩, a3, a4⟩ := hij
  rw [coefficient_mapIdx corr (fun i j x => if r.has i j then _ else x)]
  have hx : ∃ x, coefficient corr i j = some x := by
    have hi : i < corr.length := by omega
    have hj : j < (corr[i]).length := by rw [hsize.2 _ (List.getElem_mem hi)]; omega
    exact ⟨corr[i][j], by simp [coefficient, List.getElem?_eq_getElem hi, List.getElem?_eq_getElem hj]⟩
  obtain ⟨x, hx⟩ := hx
  rw [hx, Option.map_some, if_pos hb]
  have hidx : (if (m.part r).ncols = 1 then 0 else i - r.sRow) = i - r.sCol := by
    split
    · rename_i h1
      simp only [part] at h1
      omega
    · rw [hd.1]
  rw [hidx, hcol j a3 a4, hcol i (by omega) (by omega)]
  rfl

/-- **C169** is violated: complete data of several samples, with more observations than samples or fewer, are refused
with `ValueError`, for every random source and every number of attempts. -/
theorem C169_observations_fails {G : Type} (x : Statistics.External G) (n : ℕ) (g : G) (xx : List ℚ) (m : Mat)
    (h : m.Wf) (thr : ℚ) (ht : thr ≤ 1) (hrow : 0 < m.rows.length) (hc : 2 ≤ m.ncols)
    (hfull : ∀ r < m.rows.length, ∀ c < m.ncols, (entry m.rows r c).isSome) (hne : m.rows.length ≠ m.ncols)
    (regions : List Region) (hregions : identifyRegions m thr = .ok regions) :
    Statistics.replaceAndCorrelate x n g xx m regions = .error .valueError := by
  have e := C58_complete_matrix_partial m h thr ht hrow (by omega) hfull
  rw [hregions] at e
  injection e with e
  subst e
  unfold Statistics.replaceAndCorrelate
  have hr : Rectangles m [⟨0, 0, m.rows.length, m.ncols⟩] := by
    intro r hr
    rw [List.mem_singleton] at hr
    subst hr
    simp
  rcases attempts_from x.normal m h (by omega) _ hr g n 0 with ⟨i, -, -, -, -, h5⟩ | ⟨-, h2⟩
  · have e : replaceGaps x.normal m [⟨0, 0, m.rows.length, m.ncols⟩] n g = .ok _ := h5
    rw [e]
    dsimp only
    rw [(C169_shapes_partial x.num _ _ x.junk).2 ⟨_, List.mem_singleton.2 rfl, by simp only [Nat.sub_zero]; omega⟩]
  · have e : replaceGaps x.normal m [⟨0, 0, m.rows.length, m.ncols⟩] n g = .error .valueError := h2
    rw [e]

/-- Four observations of three samples. -/
def fourByThree : Mat := ⟨3, [[some 1, some 2, some 3], [some 2, some 3, some 5], [some 3, some 1, some 4], [some 4, some 4, some 1]]⟩

example : identifyRegions fourByThree (4 / 5) = .ok [⟨0, 0, 4, 3⟩] ∧ fourByThree.rows.length ≠ fourByThree.ncols ∧
    (∀ r < fourByThree.rows.length, ∀ c < fourByThree.ncols, (entry fourByThree.rows r c).isSome) := by decide +kernel

/-- **C169**, partial: what is written lies inside the regions; a coefficient outside of them stays what the memory held
before.  (Missing: a value for these, see below.) -/
theorem C169_outside_partial (num : ℝ → ℚ) (m : Mat) (regions : List Region) (junk corr : List (List Fl))
    (h : putCorrs num m regions junk = .ok corr) (i j : ℕ) (hij : ∀ r ∈ regions, ¬ Inside r i j) :
    coefficient corr i j = coefficient junk i j := by
  induction regions generalizing junk with
  | nil =>
    unfold putCorrs at h
    injection h with h
    rw [h]
  | cons r rs ih =>
    unfold putCorrs at h
    rcases hp : putCorr num m junk r with e | c
    · rw [hp] at h; cases h
    · rw [hp] at h
      rw [ih c h fun q hq => hij q (List.mem_cons_of_mem _ hq)]
      exact putCorr_outside num m junk c r hp i j (hij r List.mem_cons_self)

/-- **C169** is violated: of three observations of three samples in two regions, the coefficient of the first and the
last sample is whatever number the memory held before. -/
theorem C169_uninitialised_fails (num : ℝ → ℚ) (a b : ℚ) (hab : a ≠ b) :
    identifyRegions twoRegions (9 / 10) = .ok [⟨0, 0, 2, 2⟩, ⟨2, 2, 3, 3⟩] ∧
    ∃ ca cb : List (List Fl),
      putCorrs num twoRegions [⟨0, 0, 2, 2⟩, ⟨2, 2, 3, 3⟩] (List.replicate 3 (List.replicate 3 (.fin a))) = .ok ca ∧
      putCorrs num twoRegions [⟨0, 0, 2, 2⟩, ⟨2, 2, 3, 3⟩] (List.replicate 3 (List.replicate 3 (.fin b))) = .ok cb ∧
      coefficient ca 0 2 = some (.fin a) ∧ coefficient cb 0 2 = some (.fin b) ∧ ca ≠ cb := by
  refine ⟨by decide +kernel, ?_⟩
  have key : ∀ q : ℚ, ∃ c, putCorrs num twoRegions [⟨0, 0, 2, 2⟩, ⟨2, 2, 3, 3⟩]
      (List.replicate 3 (List.replicate 3 (.fin q))) = .ok c ∧ coefficient c 0 2 = some (.fin q) := by
    intro q
    obtain ⟨c, hc⟩ := ((C169_shapes_partial num twoRegions [⟨0, 0, 2, 2⟩, ⟨2, 2, 3, 3⟩]
      (List.replicate 3 (List.replicate 3 (.fin q)))).1).2 (by
        intro r hr
        simp only [List.mem_cons, List.not_mem_nil, or_false] at hr
        rcases hr with rfl | rfl <;> decide)
    refine ⟨c, hc, ?_⟩
    rw [C169_outside_partial num twoRegions _ _ c hc 0 2 (by
      intro r hr
      simp only [List.mem_cons, List.not_mem_nil, or_false] at hr
      rcases hr with rfl | rfl <;> simp [Inside])]
    rfl
  obtain ⟨ca, h1, h2⟩ := key a
  obtain ⟨cb, h3, h4⟩ := key b
  refine ⟨ca, cb, h1, h3, h2, h4, fun h => hab ?_⟩
  rw [h, h4] at h2
  injection h2 with h2
  injection h2 with h2
  exact h2.symm

end Verif.Props
