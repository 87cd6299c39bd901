import Verif.Lemmas.Drop
import Mathlib.Tactic.Ring
import Mathlib.Data.List.Perm.Basic

/-! # Lemmas about sorting rows, regions and random replacement -/

namespace Verif
namespace Mat

open Spec

/-! ## Sorting -/

/-- First sampled column of row `i`. -/
def fc (rows : List (List (Option ℚ))) (i : ℕ) : ℕ := firstColumn (rows.getD i [])

theorem fc_le_iff (rows : List (List (Option ℚ))) (i c : ℕ) (h : c ≤ fc rows i) (hl : c < (rows.getD i []).length) :
    (entry rows i c).isSome ↔ fc rows i = c := by
  unfold fc firstColumn at *
  unfold entry
  rw [List.getD_eq_getElem _ _ hl]
  constructor
  · intro hs
    refine le_antisymm ?_ h
    by_contra hc
    have := List.not_of_lt_findIdx (not_le.1 hc)
    rw [hs] at this
    simp at this
  · intro e
    have hlt : (rows.getD i []).findIdx (fun x => x.isSome) < (rows.getD i []).length := by rw [e]; exact hl
    have := List.findIdx_getElem (w := hlt)
    simp only [e] at this
    exact this

theorem swapRows_length (i j : ℕ) (rows : List (List (Option ℚ))) : (swapRows i j rows).length = rows.length := by
  simp [swapRows]

theorem swapRows_getD (i j k : ℕ) (rows : List (List (Option ℚ))) (hi : i < rows.length) (hj : j < rows.length) :
    (swapRows i j rows).getD k [] = rows.getD (if k = j then i else if k = i then j else k) [] := by
  simp only [swapRows, List.getD_eq_getElem?_getD]
  by_cases h1 : k = j
  · subst h1
    simp [hj]
  · by_cases h2 : k = i
    · subst h2
      rw [List.getElem?_set_ne (Ne.symm h1)]
      simp [h1, hi]
    · rw [List.getElem?_set_ne (Ne.symm h1), List.getElem?_set_ne (Ne.symm h2)]
      simp [h1, h2]

theorem swapRows_perm (i j : ℕ) (rows : List (List (Option ℚ))) (hi : i < rows.length) (hj : j < rows.length) :
    (swapRows i j rows).Perm rows := by
  unfold swapRows
  rw [List.getD_eq_getElem _ _ hi, List.getD_eq_getElem _ _ hj]
  exact List.set_set_perm hi hj

theorem swapRows_fc (i j k : ℕ) (rows : List (List (Option ℚ))) (hi : i < rows.length) (hj : j < rows.length) :
    fc (swapRows i j rows) k = fc rows (if k = j then i else if k = i then j else k) := by
  unfold fc
  rw [swapRows_getD i j k rows hi hj]

/-- State of the inner loop: rows before `cRow` are placed, `vids` are the remaining rows to place. -/
structure InSort (orig rows : List (List (Option ℚ))) (cRow c : ℕ) (vids : List ℕ) : Prop where
  perm : rows.Perm orig
  vsorted : vids.Pairwise (· < ·)
  vrange : ∀ v ∈ vids, cRow ≤ v ∧ v < rows.length
  cle : cRow ≤ rows.length
  placed : ∀ i < cRow, fc rows i ≤ c
  sorted : ∀ i j, i < j → j < cRow → fc rows i ≤ fc rows j
  rest : ∀ i, cRow ≤ i → i < rows.length → c ≤ fc rows i ∧ (fc rows i = c ↔ i ∈ vids)

theorem sortStep_inv (orig rows : List (List (Option ℚ))) (cRow c v : ℕ) (vids : List ℕ)
    (h : InSort orig rows cRow c (v :: vids)) :
    InSort orig (swapRows cRow v rows) (cRow + 1) c vids := by
  obtain ⟨hv1, hv2⟩ := h.vrange v (by simp)
  have hc : cRow < rows.length := by omega
  have vs := List.pairwise_cons.1 h.vsorted
  have hfv : fc rows v = c := ((h.rest v hv1 hv2).2).2 (by simp)
  refine ⟨(swapRows_perm cRow v rows hc hv2).trans h.perm, vs.2, ?_, ?_, ?_, ?_, ?_⟩
  · intro w hw
    rw [swapRows_length]
    have := vs.1 w hw
    have := (h.vrange w (List.mem_cons_of_mem _ hw)).2
    omega
  · rw [swapRows_length]; omega
  · intro i hi
    rw [swapRows_fc _ _ _ _ hc hv2]
    by_cases e : i = cRow
    · subst e
      by_cases e2 : i = v
      · rw [if_pos e2]
        subst e2
        exact hfv.le
      · rw [if_neg e2, if_pos rfl]
        exact hfv.le
    · rw [if_neg (by omega), if_neg e]
      exact h.placed i (by omega)
  · intro i j hij hj
    rw [swapRows_fc _ _ _ _ hc hv2, swapRows_fc _ _ _ _ hc hv2]
    have ei : (if i = v then cRow else if i = cRow then v else i) = i := by
      rw [if_neg (by omega), if_neg (by omega)]
    rw [ei]
    by_cases e : j = cRow
    · have : fc rows (if j = v then cRow else if j = cRow then v else j) = c := by
        by_cases e2 : j = v
        · rw [if_pos e2, ← e, e2]
          exact hfv
        · rw [if_neg e2, if_pos e]
          exact hfv
      rw [this]
      exact h.placed i (by omega)
    · rw [if_neg (by omega), if_neg e]
      exact h.sorted i j hij (by omega)
  · intro i hi hil
    rw [swapRows_length] at hil
    rw [swapRows_fc _ _ _ _ hc hv2]
    by_cases e : i = v
    · rw [if_pos e]
      obtain ⟨r1, r2⟩ := h.rest cRow le_rfl hc
      refine ⟨r1, ?_⟩
      rw [r2]
      constructor
      · intro hm
        rcases List.mem_cons.1 hm with e2 | hm
        · omega
        · have := vs.1 _ hm
          omega
      · intro hm
        have := vs.1 _ hm
        omega
    · rw [if_neg e, if_neg (by omega)]
      obtain ⟨r1, r2⟩ := h.rest i (by omega) hil
      refine ⟨r1, ?_⟩
      rw [r2]
      simp [e]

theorem sortLoop_inv (orig : List (List (Option ℚ))) (c : ℕ) (vids : List ℕ) (st : List (List (Option ℚ)) × ℕ)
    (h : InSort orig st.1 st.2 c vids) :
    InSort orig (vids.foldl sortStep st).1 (vids.foldl sortStep st).2 c [] := by
  induction vids generalizing st with
  | nil => simpa
  | cons v vids ih =>
    rw [List.foldl_cons]
    exact ih _ (sortStep_inv orig st.1 st.2 c v vids h)

/-- State between columns. -/
structure OutSort (orig rows : List (List (Option ℚ))) (cRow c : ℕ) : Prop where
  perm : rows.Perm orig
  cle : cRow ≤ rows.length
  placed : ∀ i < cRow, fc rows i < c
  sorted : ∀ i j, i < j → j < cRow → fc rows i ≤ fc rows j
  rest : ∀ i, cRow ≤ i → i < rows.length → c ≤ fc rows i

theorem sortCol_inv (orig : List (List (Option ℚ))) (nc c : ℕ) (hw : ∀ r ∈ orig, r.length = nc) (hc : c < nc)
    (st : List (List (Option ℚ)) × ℕ) (h : OutSort orig st.1 st.2 c) :
    OutSort orig (sortCol st c).1 (sortCol st c).2 (c + 1) := by
  have hin : InSort orig st.1 st.2 c (valIds st.1 c st.2) := by
    refine ⟨h.perm, ?_, ?_, h.cle, fun i hi => (h.placed i hi).le, h.sorted, ?_⟩
    · exact (List.pairwise_lt_range).filter _
    · intro v hv
      simp only [valIds, List.mem_filter, List.mem_range, Bool.and_eq_true, decide_eq_true_eq] at hv
      exact ⟨hv.2.2, hv.1⟩
    · intro i hi hil
      have hle := h.rest i hi hil
      refine ⟨hle, ?_⟩
      have hlen : (st.1.getD i []).length = nc := by
        apply hw
        rw [← h.perm.mem_iff, List.getD_eq_getElem _ _ hil]
        exact List.getElem_mem hil
      rw [← fc_le_iff st.1 i c hle (by omega)]
      simp [valIds, hil, hi]
  have hout := sortLoop_inv orig c _ st hin
  refine ⟨hout.perm, hout.cle, ?_, hout.sorted, ?_⟩
  · intro i hi
    have := hout.placed i hi
    unfold sortCol
    omega
  · intro i hi hil
    obtain ⟨r1, r2⟩ := hout.rest i hi hil
    have : fc (List.foldl sortStep st (valIds st.1 c st.2)).1 i ≠ c := by
      intro e
      simpa using r2.1 e
    unfold sortCol
    omega

theorem sort_inv (m : Mat) (h : m.Wf) (k : ℕ) (hk : k ≤ m.ncols) :
    OutSort m.rows ((List.range k).foldl sortCol (m.rows, 0)).1 ((List.range k).foldl sortCol (m.rows, 0)).2 k := by
  induction k with
  | zero =>
    exact ⟨List.Perm.refl _, Nat.zero_le _, by simp, by simp, fun _ _ _ => Nat.zero_le _⟩
  | succ k ih =>
    rw [List.range_succ, List.foldl_append]
    exact sortCol_inv m.rows m.ncols k h (by omega) _ (ih (by omega))

/-! ## Regions -/

theorem rowPart_eq (m : Mat) (h : m.Wf) (r s e : ℕ) (hr : r < m.rows.length) (he : e ≤ m.ncols) :
    m.rowPart r s e = (List.range' s (e - s)).map fun c => entry m.rows r c := by
  have hl : (m.rows.getD r []).length = m.ncols := by
    apply h
    rw [List.getD_eq_getElem _ _ hr]
    exact List.getElem_mem hr
  apply List.ext_getElem
  · simp only [rowPart, List.length_take, List.length_drop, List.length_map, List.length_range']
    omega
  · intro i h1 h2
    simp only [List.length_map, List.length_range'] at h2
    simp only [rowPart, List.getElem_take, List.getElem_drop, List.getElem_map, List.getElem_range', Nat.one_mul, entry]
    exact (List.getD_eq_getElem _ _ (by omega)).symm

theorem colPart_eq (m : Mat) (c s e : ℕ) (he : e ≤ m.rows.length) :
    m.colPart c s e = (List.range' s (e - s)).map fun r => entry m.rows r c := by
  apply List.ext_getElem
  · simp only [colPart, List.length_take, List.length_drop, List.length_map, List.length_range']
    omega
  · intro i h1 h2
    simp only [List.length_map, List.length_range'] at h2
    simp only [colPart, List.getElem_take, List.getElem_drop, List.getElem_map, List.getElem_range', Nat.one_mul, entry]
    rw [List.getD_eq_getElem m.rows _ (by omega)]

theorem valuesIn_row (e : ℕ → ℕ → Option ℚ) (r1 r2 c1 c2 : ℕ) (h : r1 ≤ r2) :
    valuesIn e r1 (r2 + 1) c1 c2 = valuesIn e r1 r2 c1 c2 + present (fun c => e r2 c) (List.range' c1 (c2 - c1)) := by
  unfold valuesIn values
  rw [show r2 + 1 - r1 = (r2 - r1) + 1 by omega, List.range'_concat]
  simp [show r1 + (r2 - r1) = r2 by omega]

theorem valuesIn_col (e : ℕ → ℕ → Option ℚ) (r1 r2 c1 c2 : ℕ) (h : c1 ≤ c2) :
    valuesIn e r1 r2 c1 (c2 + 1) = valuesIn e r1 r2 c1 c2 + present (fun r => e r c2) (List.range' r1 (r2 - r1)) := by
  unfold valuesIn values
  rw [show c2 + 1 - c1 = (c2 - c1) + 1 by omega, List.range'_concat]
  generalize List.range' r1 (r2 - r1) = R
  simp only [Nat.one_mul, show c1 + (c2 - c1) = c2 by omega]
  induction R with
  | nil => rfl
  | cons r R ih =>
    simp only [List.map_cons, List.sum_cons, ih]
    unfold present
    simp only [List.filter_append, List.length_append, List.filter_cons, List.filter_nil]
    cases (e r c2).isSome <;> simp <;> omega

/-- Invariant of growing a region from a start corner. -/
structure GrowInv (m : Mat) (thr : ℚ) (sRow sCol : ℕ) (g : Grow) : Prop where
  r1 : sRow ≤ g.cRow
  r2 : g.cRow < m.rows.length
  c1 : sCol ≤ g.cCol
  c2 : g.cCol < m.ncols
  total : g.total = (g.cRow + 1 - sRow) * (g.cCol + 1 - sCol)
  vals : (entry m.rows sRow sCol).isSome →
    g.nVals = valuesIn (entry m.rows) sRow (g.cRow + 1) sCol (g.cCol + 1)
  dense : thr * g.total ≤ g.nVals

theorem growRow_eq (m : Mat) (h : m.Wf) (thr : ℚ) (sRow sCol : ℕ) (g : Grow) (hg : GrowInv m thr sRow sCol g) :
    growRow m thr sCol g =
      if g.cRow + 1 < m.rows.length then
        if thr * ((g.total + (g.cCol + 1 - sCol) : ℕ) : ℚ) ≤
            ((g.nVals + present (fun c => entry m.rows (g.cRow + 1) c) (List.range' sCol (g.cCol + 1 - sCol)) : ℕ) : ℚ) then
          (⟨g.cRow + 1, g.cCol,
            g.nVals + present (fun c => entry m.rows (g.cRow + 1) c) (List.range' sCol (g.cCol + 1 - sCol)),
            g.total + (g.cCol + 1 - sCol)⟩, false)
        else (g, true)
      else (g, true) := by
  unfold growRow
  by_cases h1 : g.cRow + 1 < m.rows.length
  · have h0c := hg.c1
    have h1c := hg.c2
    have hpos : (0 : ℚ) < ((g.total + (g.cCol + 1 - sCol) : ℕ) : ℚ) := by
      have : 0 < g.cCol + 1 - sCol := by omega
      exact_mod_cast Nat.lt_of_lt_of_le this (Nat.le_add_left _ _)
    rw [if_pos h1, if_pos h1]
    simp only [rowPart_eq m h _ sCol _ h1 (show g.cCol + 1 ≤ m.ncols by omega), numCount_map, List.length_map,
      List.length_range', le_div_iff₀ hpos]
  · rw [if_neg h1, if_neg h1]

theorem growCol_eq (m : Mat) (thr : ℚ) (sRow sCol : ℕ) (g : Grow) (hg : GrowInv m thr sRow sCol g) :
    growCol m thr sRow g =
      if g.cCol + 1 < m.ncols then
        if thr * ((g.total + (g.cRow + 1 - sRow) : ℕ) : ℚ) ≤
            ((g.nVals + present (fun r => entry m.rows r (g.cCol + 1)) (List.range' sRow (g.cRow + 1 - sRow)) : ℕ) : ℚ) then
          (⟨g.cRow, g.cCol + 1,
            g.nVals + present (fun r => entry m.rows r (g.cCol + 1)) (List.range' sRow (g.cRow + 1 - sRow)),
            g.total + (g.cRow + 1 - sRow)⟩, false)
        else (g, true)
      else (g, true) := by
  unfold growCol
  by_cases h1 : g.cCol + 1 < m.ncols
  · have h0c := hg.r1
    have h1c := hg.r2
    have hpos : (0 : ℚ) < ((g.total + (g.cRow + 1 - sRow) : ℕ) : ℚ) := by
      have : 0 < g.cRow + 1 - sRow := by omega
      exact_mod_cast Nat.lt_of_lt_of_le this (Nat.le_add_left _ _)
    rw [if_pos h1, if_pos h1]
    simp only [colPart_eq m _ sRow _ (show g.cRow + 1 ≤ m.rows.length by omega), numCount_map, List.length_map,
      List.length_range', le_div_iff₀ hpos]
  · rw [if_neg h1, if_neg h1]

theorem growRow_inv (m : Mat) (h : m.Wf) (thr : ℚ) (sRow sCol : ℕ) (g : Grow) (hg : GrowInv m thr sRow sCol g) :
    GrowInv m thr sRow sCol (growRow m thr sCol g).1 := by
  rw [growRow_eq m h thr sRow sCol g hg]
  split_ifs with h1 h2
  · have h0r := hg.r1
    have h0c := hg.c1
    refine ⟨by simp only; omega, h1, h0c, hg.c2, ?_, ?_, h2⟩
    · simp only
      rw [hg.total, show g.cRow + 1 + 1 - sRow = (g.cRow + 1 - sRow) + 1 by omega]
      ring
    · intro hs
      simp only
      rw [hg.vals hs, valuesIn_row _ sRow (g.cRow + 1) _ _ (by omega)]
  · exact hg
  · exact hg

theorem growCol_inv (m : Mat) (thr : ℚ) (sRow sCol : ℕ) (g : Grow) (hg : GrowInv m thr sRow sCol g) :
    GrowInv m thr sRow sCol (growCol m thr sRow g).1 := by
  rw [growCol_eq m thr sRow sCol g hg]
  split_ifs with h1 h2
  · have h0r := hg.r1
    have h0c := hg.c1
    refine ⟨h0r, hg.r2, by simp only; omega, h1, ?_, ?_, h2⟩
    · simp only
      rw [hg.total, show g.cCol + 1 + 1 - sCol = (g.cCol + 1 - sCol) + 1 by omega]
      ring
    · intro hs
      simp only
      rw [hg.vals hs, valuesIn_col _ _ _ sCol (g.cCol + 1) (by omega)]
  · exact hg
  · exact hg

/-- What holds when growing stops: neither the next row nor the next column keeps the density. -/
structure Stuck (m : Mat) (thr : ℚ) (sRow sCol : ℕ) (g : Grow) : Prop where
  row : g.cRow + 1 < m.rows.length →
    ((g.nVals + present (fun c => entry m.rows (g.cRow + 1) c) (List.range' sCol (g.cCol + 1 - sCol)) : ℕ) : ℚ) <
      thr * ((g.total + (g.cCol + 1 - sCol) : ℕ) : ℚ)
  col : g.cCol + 1 < m.ncols →
    ((g.nVals + present (fun r => entry m.rows r (g.cCol + 1)) (List.range' sRow (g.cRow + 1 - sRow)) : ℕ) : ℚ) <
      thr * ((g.total + (g.cRow + 1 - sRow) : ℕ) : ℚ)

theorem growRow_failed (m : Mat) (h : m.Wf) (thr : ℚ) (sRow sCol : ℕ) (g : Grow) (hg : GrowInv m thr sRow sCol g)
    (hf : (growRow m thr sCol g).2 = true) :
    (growRow m thr sCol g).1 = g ∧ (g.cRow + 1 < m.rows.length →
      ((g.nVals + present (fun c => entry m.rows (g.cRow + 1) c) (List.range' sCol (g.cCol + 1 - sCol)) : ℕ) : ℚ) <
        thr * ((g.total + (g.cCol + 1 - sCol) : ℕ) : ℚ)) := by
  rw [growRow_eq m h thr sRow sCol g hg] at hf ⊢
  split_ifs at hf ⊢ with h1 h2
  · exact ⟨rfl, fun _ => not_le.1 h2⟩
  · exact ⟨rfl, fun h => absurd h h1⟩

theorem growCol_failed (m : Mat) (thr : ℚ) (sRow sCol : ℕ) (g : Grow) (hg : GrowInv m thr sRow sCol g)
    (hf : (growCol m thr sRow g).2 = true) :
    (growCol m thr sRow g).1 = g ∧ (g.cCol + 1 < m.ncols →
      ((g.nVals + present (fun r => entry m.rows r (g.cCol + 1)) (List.range' sRow (g.cRow + 1 - sRow)) : ℕ) : ℚ) <
        thr * ((g.total + (g.cRow + 1 - sRow) : ℕ) : ℚ)) := by
  rw [growCol_eq m thr sRow sCol g hg] at hf ⊢
  split_ifs at hf ⊢ with h1 h2
  · exact ⟨rfl, fun _ => not_le.1 h2⟩
  · exact ⟨rfl, fun h => absurd h h1⟩

theorem growRow_progress (m : Mat) (thr : ℚ) (sCol : ℕ) (g : Grow) :
    (growRow m thr sCol g).1.cCol = g.cCol ∧
      ((growRow m thr sCol g).2 = true → (growRow m thr sCol g).1.cRow = g.cRow) ∧
      ((growRow m thr sCol g).2 = false → (growRow m thr sCol g).1.cRow = g.cRow + 1) := by
  simp only [growRow]
  split_ifs <;> simp

theorem growCol_progress (m : Mat) (thr : ℚ) (sRow : ℕ) (g : Grow) :
    (growCol m thr sRow g).1.cRow = g.cRow ∧
      ((growCol m thr sRow g).2 = true → (growCol m thr sRow g).1.cCol = g.cCol) ∧
      ((growCol m thr sRow g).2 = false → (growCol m thr sRow g).1.cCol = g.cCol + 1) := by
  simp only [growCol]
  split_ifs <;> simp

/-- The inner loop always ends by a break, in a state that cannot grow. -/
theorem grow_spec (m : Mat) (h : m.Wf) (thr : ℚ) (sRow sCol : ℕ) (n : ℕ) (g : Grow) (hg : GrowInv m thr sRow sCol g)
    (hn : (m.rows.length - g.cRow) + (m.ncols - g.cCol) ≤ n + 1) :
    ∃ g', grow m thr sRow sCol n g = some g' ∧ GrowInv m thr sRow sCol g' ∧ Stuck m thr sRow sCol g' := by
  induction n generalizing g with
  | zero =>
    have := hg.r2
    have := hg.c2
    omega
  | succ n ih =>
    simp only [grow]
    have ir := growRow_inv m h thr sRow sCol g hg
    have ic := growCol_inv m thr sRow sCol _ ir
    have pr := growRow_progress m thr sCol g
    have pc := growCol_progress m thr sRow (growRow m thr sCol g).1
    rcases h1 : (growRow m thr sCol g).2 with _ | _
    · simp only [Bool.false_and, Bool.false_eq_true, if_false]
      apply ih _ ic
      have e1 := pr.2.2 h1
      have e2 := pr.1
      have e3 := pc.1
      have hr2 := ic.r2
      have hc2 := ic.c2
      rcases h2 : (growCol m thr sRow (growRow m thr sCol g).1).2 with _ | _
      · have := pc.2.2 h2; omega
      · have := pc.2.1 h2; omega
    · rcases h2 : (growCol m thr sRow (growRow m thr sCol g).1).2 with _ | _
      · simp only [Bool.and_false, Bool.false_eq_true, if_false]
        apply ih _ ic
        have e1 := pr.2.1 h1
        have e2 := pr.1
        have e3 := pc.1
        have e4 := pc.2.2 h2
        have hr2 := ic.r2
        have hc2 := ic.c2
        omega
      · simp only [Bool.and_self, if_true]
        obtain ⟨f1, f2⟩ := growRow_failed m h thr sRow sCol g hg h1
        rw [f1] at h2 ⊢
        obtain ⟨f3, f4⟩ := growCol_failed m thr sRow sCol g hg h2
        rw [f3]
        exact ⟨g, rfl, hg, f2, f4⟩

theorem growInv_start (m : Mat) (thr : ℚ) (ht : thr ≤ 1) (sRow sCol : ℕ) (hr : sRow < m.rows.length)
    (hc : sCol < m.ncols) : GrowInv m thr sRow sCol ⟨sRow, sCol, 1, 1⟩ := by
  refine ⟨le_rfl, hr, le_rfl, hc, ?_, ?_, ?_⟩
  · simp
  · intro hs
    simp only [valuesIn, values, show sRow + 1 - sRow = 1 by omega, show sCol + 1 - sCol = 1 by omega, List.range'_one,
      List.map_cons, List.map_nil, List.sum_cons, List.sum_nil, present, List.filter_cons, hs]
    simp
  · simpa using ht

theorem firstValid_some (m : Mat) (c r : ℕ) (h : m.firstValid c = some r) :
    r < m.rows.length ∧ (entry m.rows r c).isSome ∧ ∀ r' < r, (entry m.rows r' c) = none := by
  unfold firstValid at h
  obtain ⟨h1, h2, h3⟩ := List.find?_range_eq_some.1 h
  refine ⟨List.mem_range.1 h2, h1, ?_⟩
  intro r' hr'
  simpa using h3 r' hr'

theorem firstValid_none (m : Mat) (c : ℕ) (h : m.firstValid c = none) : ∀ r < m.rows.length, (entry m.rows r c) = none := by
  unfold firstValid at h
  rw [List.find?_eq_none] at h
  intro r hr
  simpa using h r (List.mem_range.2 hr)

end Mat
end Verif
