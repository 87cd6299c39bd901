import Verif.Lemmas.Drop

/-! # Properties of random replacement (`Statistics._fill_data`) -/

namespace Verif.Props

open Verif Mat

/-- Write a number into an entry. -/
def setAt (rows : List (List (Option ℚ))) (r c : ℕ) (v : ℚ) : List (List (Option ℚ)) :=
  rows.modify r fun row => row.set c (some v)

theorem setAt_length (rows : List (List (Option ℚ))) (r c : ℕ) (v : ℚ) : (setAt rows r c v).length = rows.length := by
  simp [setAt]

theorem setAt_row (rows : List (List (Option ℚ))) (r c : ℕ) (v : ℚ) (r' : ℕ) :
    (setAt rows r c v).getD r' [] = if r' = r then (rows.getD r []).set c (some v) else rows.getD r' [] := by
  simp only [setAt, List.getD_eq_getElem?_getD, List.getElem?_modify]
  by_cases h : r' = r
  · subst h
    rcases rows[r']? with _ | row <;> simp
  · rw [if_neg h]
    rcases h2 : rows[r']? with _ | row
    · simp
    · simp [Ne.symm h]

theorem setAt_rowLength (rows : List (List (Option ℚ))) (r c : ℕ) (v : ℚ) (r' : ℕ) :
    ((setAt rows r c v).getD r' []).length = (rows.getD r' []).length := by
  rw [setAt_row]
  split_ifs with h
  · subst h; simp
  · rfl

theorem setAt_entry (rows : List (List (Option ℚ))) (r c : ℕ) (v : ℚ) (hc : c < (rows.getD r []).length) (r' c' : ℕ) :
    entry (setAt rows r c v) r' c' = if r' = r ∧ c' = c then some v else entry rows r' c' := by
  unfold entry
  rw [setAt_row]
  by_cases h : r' = r
  · subst h
    simp only [if_true, true_and]
    by_cases h2 : c' = c
    · subst h2
      rw [if_pos rfl, List.getD_eq_getElem?_getD, List.getElem?_set_self hc]
      rfl
    · rw [if_neg h2, List.getD_eq_getElem?_getD, List.getElem?_set_ne (Ne.symm h2), ← List.getD_eq_getElem?_getD]
  · simp [h]

/-- Write several numbers, one after the other. -/
def assign (rows : List (List (Option ℚ))) (l : List ((ℕ × ℕ) × ℚ)) : List (List (Option ℚ)) :=
  l.foldl (fun rows p => setAt rows p.1.1 p.1.2 p.2) rows

theorem assign_length (rows : List (List (Option ℚ))) (l : List ((ℕ × ℕ) × ℚ)) :
    (assign rows l).length = rows.length := by
  unfold assign
  induction l generalizing rows with
  | nil => rfl
  | cons p l ih =>
    rw [List.foldl_cons, ih, setAt_length]

theorem assign_rowLength (rows : List (List (Option ℚ))) (l : List ((ℕ × ℕ) × ℚ)) (r : ℕ) :
    ((assign rows l).getD r []).length = (rows.getD r []).length := by
  unfold assign
  induction l generalizing rows with
  | nil => rfl
  | cons p l ih =>
    rw [List.foldl_cons, ih, setAt_rowLength]

theorem assign_other (rows : List (List (Option ℚ))) (l : List ((ℕ × ℕ) × ℚ)) (r c : ℕ)
    (hb : ∀ p ∈ l, p.1.2 < (rows.getD p.1.1 []).length) (h : ∀ p ∈ l, p.1 ≠ (r, c)) :
    entry (assign rows l) r c = entry rows r c := by
  unfold assign
  induction l generalizing rows with
  | nil => rfl
  | cons p l ih =>
    rw [List.foldl_cons, ih]
    · rw [setAt_entry _ _ _ _ (hb p (by simp)), if_neg]
      rintro ⟨rfl, rfl⟩
      exact h p (by simp) rfl
    · intro q hq
      rw [setAt_rowLength]
      exact hb q (List.mem_cons_of_mem _ hq)
    · exact fun q hq => h q (List.mem_cons_of_mem _ hq)

theorem assign_at (rows : List (List (Option ℚ))) (l : List ((ℕ × ℕ) × ℚ)) (p : (ℕ × ℕ) × ℚ) (hp : p ∈ l)
    (hb : ∀ p ∈ l, p.1.2 < (rows.getD p.1.1 []).length) (hn : (l.map fun p => p.1).Nodup) :
    entry (assign rows l) p.1.1 p.1.2 = some p.2 := by
  induction l generalizing rows with
  | nil => simp at hp
  | cons q l ih =>
    rw [List.map_cons, List.nodup_cons] at hn
    have hb' : ∀ p ∈ l, p.1.2 < ((setAt rows q.1.1 q.1.2 q.2).getD p.1.1 []).length := by
      intro w hw
      rw [setAt_rowLength]
      exact hb w (List.mem_cons_of_mem _ hw)
    rcases List.mem_cons.1 hp with rfl | hp
    · have : assign rows (p :: l) = assign (setAt rows p.1.1 p.1.2 p.2) l := rfl
      rw [this, assign_other _ _ _ _ hb', setAt_entry _ _ _ _ (hb p (by simp)), if_pos ⟨rfl, rfl⟩]
      intro w hw e
      exact hn.1 (List.mem_map.2 ⟨w, hw, e⟩)
    · exact ih (setAt rows q.1.1 q.1.2 q.2) hp hb' hn.2

section
variable {G Mu Sd : Type} (normal : G → Mu → Sd → ℚ × G)

theorem draws_length (g : G) (l : List (Mu × Sd)) : (Spec.draws normal g l).1.length = l.length := by
  induction l generalizing g with
  | nil => rfl
  | cons p l ih => simp [Spec.draws, ih]

theorem draws_append (g : G) (a b : List (Mu × Sd)) :
    Spec.draws normal g (a ++ b) =
      ((Spec.draws normal g a).1 ++ (Spec.draws normal (Spec.draws normal g a).2 b).1,
        (Spec.draws normal (Spec.draws normal g a).2 b).2) := by
  induction a generalizing g with
  | nil => rfl
  | cons p l ih => simp [Spec.draws, ih]

theorem fillIds_eq (c : ℕ) (mu : Mu) (sd : Sd) (ids : List ℕ) (st : List (List (Option ℚ)) × G) :
    fillIds normal c mu sd ids st =
      (assign st.1 ((ids.map fun r => (r, c)).zip (Spec.draws normal st.2 (ids.map fun _ => (mu, sd))).1),
        (Spec.draws normal st.2 (ids.map fun _ => (mu, sd))).2) := by
  induction ids generalizing st with
  | nil => rfl
  | cons r ids ih =>
    simp only [fillIds, ih]
    rfl

/-- Missing entries of the columns from `c` on, for as many columns as there are parameters. -/
def gapsFrom (rows : List (List (Option ℚ))) (c n : ℕ) : List (ℕ × ℕ) :=
  (List.range' c n).flatMap fun c => (nanIds rows c).map fun r => (r, c)

/-- The requests for them. -/
def requests (rows : List (List (Option ℚ))) : ℕ → List (Mu × Sd) → List (Mu × Sd)
  | _, [] => []
  | c, p :: ps => (nanIds rows c).map (fun _ => p) ++ requests rows (c + 1) ps

theorem requests_length (rows : List (List (Option ℚ))) (c : ℕ) (ps : List (Mu × Sd)) :
    (requests rows c ps).length = (gapsFrom rows c ps.length).length := by
  induction ps generalizing c with
  | nil => simp [requests, gapsFrom]
  | cons p ps ih =>
    simp only [requests, List.length_append, ih, List.length_map, List.length_cons, gapsFrom, List.range'_succ,
      List.flatMap_cons]

theorem gapsFrom_col (rows : List (List (Option ℚ))) (c n : ℕ) : ∀ p ∈ gapsFrom rows c n, c ≤ p.2 := by
  intro p hp
  simp only [gapsFrom, List.mem_flatMap, List.mem_map, List.mem_range'_1] at hp
  obtain ⟨c', h1, r, _, rfl⟩ := hp
  exact h1.1

theorem nanIds_congr (rows rows' : List (List (Option ℚ))) (c : ℕ) (hl : rows.length = rows'.length)
    (h : ∀ r, entry rows r c = entry rows' r c) : nanIds rows c = nanIds rows' c := by
  unfold nanIds
  rw [hl]
  apply List.filter_congr
  intro r _
  rw [h]

theorem fillCols_eq (rows0 : List (List (Option ℚ))) (c nc : ℕ) (ps : List (Mu × Sd))
    (st : List (List (Option ℚ)) × G) (hl : st.1.length = rows0.length)
    (hrow : ∀ r < rows0.length, (st.1.getD r []).length = nc) (hc : c + ps.length ≤ nc)
    (h : ∀ r c', c ≤ c' → entry st.1 r c' = entry rows0 r c') :
    fillCols normal c ps st =
      (assign st.1 ((gapsFrom rows0 c ps.length).zip (Spec.draws normal st.2 (requests rows0 c ps)).1),
        (Spec.draws normal st.2 (requests rows0 c ps)).2) := by
  induction ps generalizing c st with
  | nil => rfl
  | cons p ps ih =>
    obtain ⟨mu, sd⟩ := p
    have e : nanIds st.1 c = nanIds rows0 c := nanIds_congr _ _ _ hl fun r => h r c le_rfl
    simp only [fillCols]
    rw [e, fillIds_eq]
    simp only [List.length_cons] at hc
    have hb : ∀ p ∈ ((nanIds rows0 c).map fun r => (r, c)).zip
        (Spec.draws normal st.2 ((nanIds rows0 c).map fun _ => (mu, sd))).1, p.1.2 < (st.1.getD p.1.1 []).length ∧ p.1.2 = c := by
      intro p hp
      have := (List.of_mem_zip hp).1
      simp only [List.mem_map, nanIds, List.mem_filter, List.mem_range] at this
      obtain ⟨r, hr, e⟩ := this
      rw [← e]
      exact ⟨by simp only [hrow r hr.1]; omega, rfl⟩
    rw [ih (c + 1)]
    · have e2 : gapsFrom rows0 c (ps.length + 1) = (nanIds rows0 c).map (fun r => (r, c)) ++ gapsFrom rows0 (c + 1) ps.length := by
        simp [gapsFrom, List.range'_succ]
      simp only [requests, List.length_cons, draws_append, e2]
      rw [List.zip_append (by simp [draws_length])]
      simp only [assign, List.foldl_append]
    · simp only [assign_length, hl]
    · intro r hr
      simp only [assign_rowLength]
      exact hrow r hr
    · omega
    · intro r c' hc'
      simp only
      rw [assign_other _ _ _ _ fun p hp => (hb p hp).1]
      · exact h r c' (by omega)
      · intro p hp e3
        have h1 := (hb p hp).2
        rw [e3] at h1
        simp only at h1
        omega

end

theorem gaps_nodup (e : ℕ → ℕ → Option ℚ) (nr nc : ℕ) : (Spec.gaps e nr nc).Nodup := by
  unfold Spec.gaps
  rw [List.nodup_flatMap]
  constructor
  · intro c _
    refine List.Nodup.map ?_ (List.nodup_range.filter _)
    intro a b hab
    simpa using hab
  · refine List.nodup_range.imp ?_
    intro a b hab p hp hq
    simp only [List.mem_map] at hp hq
    obtain ⟨r, _, rfl⟩ := hp
    obtain ⟨r', _, e⟩ := hq
    simp only [Prod.mk.injEq] at e
    exact hab e.2.symm

theorem requests_eq {Mu Sd : Type} (rows : List (List (Option ℚ))) (c : ℕ) (ps : List (Mu × Sd)) :
    (gapsFrom rows c ps.length).map (fun p => ps[p.2 - c]?) = (requests rows c ps).map some := by
  induction ps generalizing c with
  | nil => simp [gapsFrom, requests]
  | cons p ps ih =>
    have e2 : gapsFrom rows c (ps.length + 1) = (nanIds rows c).map (fun r => (r, c)) ++ gapsFrom rows (c + 1) ps.length := by
      simp [gapsFrom, List.range'_succ]
    rw [List.length_cons, e2, List.map_append, requests, List.map_append, ← ih (c + 1)]
    congr 1
    · rw [List.map_map, List.map_map]
      apply List.map_congr_left
      intro r _
      simp
    · apply List.map_congr_left
      intro q hq
      have := gapsFrom_col rows (c + 1) ps.length q hq
      rw [show q.2 - c = (q.2 - (c + 1)) + 1 by omega]
      rfl

/-- **C59**.  Filling asks the random source exactly once per missing entry - column by column, from top to bottom -
with the mean and the deviation of that column; the missing entries become the numbers obtained, in that order; every
value is left unchanged and no entry is missing afterwards. -/
theorem C59_fill {G Mu Sd : Type} (normal : G → Mu → Sd → ℚ × G) (m : Mat) (h : m.Wf) (means : List Mu)
    (stddevs : List Sd) (h1 : means.length = m.ncols) (h2 : stddevs.length = m.ncols) (g : G) :
    let e := entry m.rows
    let out := fillData normal m means stddevs g
    let gs := Spec.gaps e m.rows.length m.ncols
    ∃ req : List (Mu × Sd),
      gs.map (fun p => (means.zip stddevs)[p.2]?) = req.map some ∧
      out.2 = (Spec.draws normal g req).2 ∧
      (∀ (k : ℕ) (p : ℕ × ℕ), gs[k]? = some p → entry out.1.rows p.1 p.2 = (Spec.draws normal g req).1[k]?) ∧
      (∀ (r c : ℕ) (v : ℚ), e r c = some v → entry out.1.rows r c = some v) ∧
      (out.1.ncols = m.ncols ∧ out.1.rows.length = m.rows.length ∧ out.1.Wf) ∧
      ∀ r < m.rows.length, ∀ c < m.ncols, (entry out.1.rows r c).isSome := by
  intro e out gs
  have hz : (means.zip stddevs).take m.ncols = means.zip stddevs := by
    rw [List.take_of_length_le]
    simp [h1, h2]
  have hzl : (means.zip stddevs).length = m.ncols := by simp [h1, h2]
  have hrow : ∀ r < m.rows.length, (m.rows.getD r []).length = m.ncols := by
    intro r hr
    apply h
    rw [List.getD_eq_getElem _ _ hr]
    exact List.getElem_mem hr
  have hg : gapsFrom m.rows 0 m.ncols = gs := by
    simp only [gapsFrom, gs, Spec.gaps, nanIds, List.range_eq_range', e]
  have key := fillCols_eq normal m.rows 0 m.ncols (means.zip stddevs) (m.rows, g) rfl hrow (by omega)
    (fun _ _ _ => rfl)
  rw [hzl, hg] at key
  have hout : out = (⟨m.ncols, assign m.rows (gs.zip (Spec.draws normal g (requests m.rows 0 (means.zip stddevs))).1)⟩,
      (Spec.draws normal g (requests m.rows 0 (means.zip stddevs))).2) := by
    simp only [out, fillData, hz, key]
  have hlen : (Spec.draws normal g (requests m.rows 0 (means.zip stddevs))).1.length = gs.length := by
    rw [draws_length, requests_length, hzl, hg]
  have hmem : ∀ p ∈ gs, p.1 < m.rows.length ∧ p.2 < m.ncols ∧ e p.1 p.2 = none := by
    intro p hp
    simp only [gs, Spec.gaps, List.mem_flatMap, List.mem_map, List.mem_filter, List.mem_range] at hp
    obtain ⟨c, hc, r, hr, rfl⟩ := hp
    exact ⟨hr.1, hc, by simpa using hr.2⟩
  have hb : ∀ p ∈ gs.zip (Spec.draws normal g (requests m.rows 0 (means.zip stddevs))).1,
      p.1.2 < (m.rows.getD p.1.1 []).length := by
    intro p hp
    have := hmem p.1 (List.of_mem_zip hp).1
    rw [hrow _ this.1]
    exact this.2.1
  have hat : ∀ (k : ℕ) (p : ℕ × ℕ), gs[k]? = some p →
      entry out.1.rows p.1 p.2 = (Spec.draws normal g (requests m.rows 0 (means.zip stddevs))).1[k]? := by
    intro k p hk
    have hk2 : k < gs.length := (List.getElem?_eq_some_iff.1 hk).1
    rw [hout]
    have hv : (Spec.draws normal g (requests m.rows 0 (means.zip stddevs))).1[k]? =
        some (Spec.draws normal g (requests m.rows 0 (means.zip stddevs))).1[k] := by
      simp [hlen, hk2]
    rw [hv]
    refine assign_at m.rows _ (p, _) ?_ hb ?_
    · exact List.mem_iff_getElem?.2 ⟨k, List.getElem?_zip_eq_some.2 ⟨hk, hv⟩⟩
    · rw [List.map_fst_zip (by omega)]
      exact gaps_nodup _ _ _
  refine ⟨requests m.rows 0 (means.zip stddevs), ?_, by rw [hout], hat, ?_, ⟨by rw [hout], by rw [hout]; simp [assign_length], ?_⟩, ?_⟩
  · have := requests_eq m.rows 0 (means.zip stddevs)
    rw [hzl, hg] at this
    simpa using this
  · intro r c v hv
    rw [hout]
    simp only
    rw [assign_other _ _ _ _ hb]
    · exact hv
    · intro p hp e3
      have := (hmem p.1 (List.of_mem_zip hp).1).2.2
      rw [e3] at this
      simp only at this
      rw [this] at hv
      simp at hv
  · intro row hr
    rw [hout] at hr ⊢
    obtain ⟨i, hi, rfl⟩ := List.mem_iff_getElem.1 hr
    have := assign_rowLength m.rows (gs.zip (Spec.draws normal g (requests m.rows 0 (means.zip stddevs))).1) i
    simp only at hi
    rw [List.getD_eq_getElem _ _ hi] at this
    simp only
    rw [this]
    apply hrow
    rwa [assign_length] at hi
  · intro r hr c hc
    rcases hv : e r c with _ | v
    · have : (r, c) ∈ gs := by
        simp only [gs, Spec.gaps, List.mem_flatMap, List.mem_map, List.mem_filter, List.mem_range]
        exact ⟨c, hc, r, ⟨hr, by simp [hv]⟩, rfl⟩
      obtain ⟨k, hk⟩ := List.mem_iff_getElem?.1 this
      rw [hat k _ hk]
      have hk2 : k < gs.length := (List.getElem?_eq_some_iff.1 hk).1
      simp [hlen, hk2]
    · rw [hout]
      simp only
      rw [assign_other _ _ _ _ hb]
      · change (e r c).isSome
        rw [hv]
        rfl
      · intro p hp e3
        have := (hmem p.1 (List.of_mem_zip hp).1).2.2
        rw [e3] at this
        simp only at this
        rw [this] at hv
        simp at hv

/-- A source that returns the mean plus the number of earlier requests. -/
def countingSource (g : ℕ) (mu _sd : ℚ) : ℚ × ℕ := (mu + g, g + 1)

example : fillData countingSource ⟨2, [[some 1, none], [none, none], [none, some 4]]⟩ [10, 20] [1, 1] 0 =
    (⟨2, [[some 1, some 22], [some 10, some 23], [some 11, some 4]]⟩, 4) := by decide +kernel

end Verif.Props
