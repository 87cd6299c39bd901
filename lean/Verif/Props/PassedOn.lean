import Verif.Props.Replacement
import Verif.Props.Correlation

/-!
# C168, C169: what `Statistics.from_data_matrix` hands to the constructor

The means and deviations are those of the recorded values, the coefficients those of the data after replacement, and the
sample locations those of the samples which were kept.
-/

namespace Verif.Props
open Verif Mat

namespace PassedOn

/-- The matrix of coefficients has the size of the data. -/
def SameSize (m : Mat) (corr : List (List Fl)) : Prop :=
  corr.length = m.rows.length ∧ ∀ row ∈ corr, row.length = m.ncols

/-- The data of one sample in the rows of a region. -/
def sampleIn (m : Mat) (r : Region) (j : ℕ) : List (Option ℚ) :=
  (List.range' r.sRow (r.eRow - r.sRow)).map fun k => entry m.rows k j

/-- An entry of the coefficients as they are stored. -/
def storedAt (corr : List (List (Option ℚ))) (i j : ℕ) : Option ℚ := ((corr[i]?).bind fun row => row[j]?).bind id

theorem putCorr_size {num : ℝ → ℚ} {m m' : Mat} {corr corr' : List (List Fl)} {r : Region}
    (h : putCorr num m corr r = .ok corr') (hs : SameSize m' corr) : SameSize m' corr' := by
  unfold putCorr at h
  dsimp only at h
  split at h
  · injection h with h
    subst h
    refine ⟨by simpa using hs.1, fun row hrow => ?_⟩
    obtain ⟨i, hi, rfl⟩ := List.mem_iff_getElem.1 hrow
    simp only [List.length_mapIdx] at hi
    simp only [List.getElem_mapIdx, List.length_mapIdx]
    exact hs.2 _ (List.getElem_mem hi)
  · cases h

theorem putCorrs_size {num : ℝ → ℚ} {m m' : Mat} (regions : List Region) {corr corr' : List (List Fl)}
    (h : putCorrs num m regions corr = .ok corr') (hs : SameSize m' corr) : SameSize m' corr' := by
  induction regions generalizing corr with
  | nil =>
    unfold putCorrs at h
    injection h with h
    exact h ▸ hs
  | cons r rs ih =>
    unfold putCorrs at h
    rcases hp : putCorr num m corr r with e | c
    · rw [hp] at h; cases h
    · rw [hp] at h
      exact ih h (putCorr_size hp hs)

theorem putCorrs_inside {num : ℝ → ℚ} {m : Mat} (regions : List Region) {corr corr' : List (List Fl)} (r : Region)
    (hr : r.eRow ≤ m.rows.length ∧ r.eCol ≤ m.ncols) (hd : r.sRow = r.sCol ∧ r.eRow = r.eCol)
    (hmem : r ∈ regions) (i j : ℕ) (hij : Inside r i j) (honly : ∀ q ∈ regions, Inside q i j → q = r)
    (h : putCorrs num m regions corr = .ok corr') (hs : SameSize m corr) :
    coefficient corr' i j = some (match corrEntry (sampleIn m r i) (sampleIn m r j) with
      | none => .nan
      | some rho => .fin (num rho)) := by
  induction regions generalizing corr with
  | nil => cases hmem
  | cons q qs ih =>
    unfold putCorrs at h
    rcases hp : putCorr num m corr q with e | c
    · rw [hp] at h; cases h
    rw [hp] at h
    by_cases hq : r ∈ qs
    · exact ih hq (fun p hp' => honly p (List.mem_cons_of_mem _ hp')) h (putCorr_size hp hs)
    · have hqr : r = q := by
        rcases List.mem_cons.1 hmem with e | e
        · exact e
        · exact absurd e hq
      subst hqr
      rw [C169_outside_partial num m qs c corr' h i j fun p hp' hin =>
        hq ((honly p (List.mem_cons_of_mem _ hp') hin) ▸ hp')]
      obtain ⟨c', e1, e2⟩ := C169_coefficient_partial num m corr r hr hd hs
      rw [hp] at e1
      injection e1 with e1
      subst e1
      exact e2 i j hij

theorem noNan_of_fillCorr {log : ℚ → Fl} {fit : List Fl → List Fl → Except PyErr (Fl → Fl)} {xx : List ℚ}
    {corr out : List (List Fl)} (hlog : ∀ x ∈ xx, ∃ q, log x = .fin q) (hlen : ∀ row ∈ corr, row.length = xx.length)
    (h : Statistics.fillCorr log fit xx corr = .ok out) : out = corr ∧ ∀ row ∈ corr, ∀ y ∈ row, y ≠ .nan := by
  by_cases hn : ∃ row ∈ corr, Fl.nan ∈ row
  · rw [C125_missing_coefficient_fails log fit xx corr hlog hlen hn] at h
    cases h
  · have hall : ∀ row ∈ corr, ∀ y ∈ row, y ≠ .nan := fun row hrow y hy e => hn ⟨row, hrow, e ▸ hy⟩
    rw [C125_nothing_missing_partial log fit xx corr hall] at h
    injection h with h
    exact ⟨h.symm, hall⟩

/-- The three steps of a call that gets to the constructor. -/
theorem steps {G : Type} {x : Statistics.External G} {n : ℕ} {g : G} {xx : List ℚ} {m : Mat} {regions : List Region}
    {mean stddev : List (Option ℚ)} {corr : List (List (Option ℚ))}
    (h : Statistics.replaceAndCorrelate x n g xx m regions = .ok (mean, stddev, corr)) :
    ∃ out c c', replaceGaps x.normal m regions n g = .ok out ∧ putCorrs x.num out regions x.junk = .ok c ∧
      Statistics.fillCorr x.log x.fit xx c = .ok c' ∧ mean = m.calcStat.1 ∧
      stddev = (m.calcStat.2.map fun s => s.map x.num) ∧ corr = c'.map fun row => row.map Statistics.stored := by
  unfold Statistics.replaceAndCorrelate at h
  rcases h1 : replaceGaps x.normal m regions n g with e | out
  · rw [h1] at h; cases h
  rw [h1] at h
  dsimp only at h
  rcases h2 : putCorrs x.num out regions x.junk with e | c
  · rw [h2] at h; cases h
  rw [h2] at h
  dsimp only at h
  rcases h3 : Statistics.fillCorr x.log x.fit xx c with e | c'
  · rw [h3] at h; cases h
  rw [h3] at h
  dsimp only at h
  injection h with h
  injection h with a h
  injection h with b d
  exact ⟨out, c, c', rfl, h2, h3, a.symm, b.symm, d.symm⟩

theorem storedAt_map (c : List (List Fl)) (i j : ℕ) :
    storedAt (c.map fun row => row.map Statistics.stored) i j = (coefficient c i j).bind Statistics.stored := by
  unfold storedAt coefficient
  rw [List.getElem?_map]
  rcases c[i]? with _ | row
  · rfl
  · simp only [Option.map_some, Option.bind_some, List.getElem?_map]
    rcases row[j]? with _ | y <;> rfl

end PassedOn
open PassedOn

/-- **C168**.  The means and deviations which `from_data_matrix` hands on are, for every sample, those of the recorded
values, of which there are at least two: random replacement has no part in them. -/
theorem C168_recorded_statistics {G : Type} (x : Statistics.External G) (n : ℕ) (g : G) (xx : List ℚ) (m : Mat)
    (h : m.Wf) (hc : 0 < m.ncols) (regions : List Region) (hr : Rectangles m regions)
    (mean stddev : List (Option ℚ)) (corr : List (List (Option ℚ)))
    (hout : Statistics.replaceAndCorrelate x n g xx m regions = .ok (mean, stddev, corr)) :
    (mean.length = m.ncols ∧ stddev.length = m.ncols) ∧ ∀ c < m.ncols, 2 ≤ (colNumbers m c).length ∧
      mean[c]? = some (some (average (colNumbers m c))) ∧
      stddev[c]? = some (some (x.num (deviation (colNumbers m c)))) := by
  obtain ⟨out, c, c', h1, h2, h3, rfl, rfl, rfl⟩ := steps hout
  obtain ⟨l1, l2⟩ := calcStat_lengths m
  refine ⟨⟨l1, by rw [List.length_map, l2]⟩, fun k hk => ?_⟩
  obtain ⟨⟨h2n, -⟩, -⟩ := (C168_replacement x.normal m h hc regions hr n g out h1).2 k hk
  have hne : colNumbers m k ≠ [] := by
    intro e
    simp [e] at h2n
  have e1 := stat_mean m k hk
  have e2 := stat_std m k hk
  rw [if_neg hne, List.getD_eq_getElem?_getD, List.getElem?_eq_getElem (by omega), Option.getD_some] at e1
  rw [if_neg (by omega), List.getD_eq_getElem?_getD, List.getElem?_eq_getElem (by omega), Option.getD_some] at e2
  refine ⟨h2n, ?_, ?_⟩
  · rw [List.getElem?_eq_getElem (by omega), e1]
  · rw [List.getElem?_map, List.getElem?_eq_getElem (by omega), e2]
    rfl

/-- **C169**, partial: the coefficients which `from_data_matrix` hands on are, inside a square region on the diagonal that
no other region meets, those of the data after random replacement, and all of them are there.  (Missing: coefficients
outside of such regions.) -/
theorem C169_of_replaced_data_partial {G : Type} (x : Statistics.External G) (n : ℕ) (g : G) (xx : List ℚ) (m : Mat)
    (h : m.Wf) (hc : 0 < m.ncols) (regions : List Region) (hr : Rectangles m regions)
    (hxx : xx.length = m.ncols) (hlog : ∀ y ∈ xx, ∃ q, x.log y = .fin q) (hjunk : SameSize m x.junk)
    (mean stddev : List (Option ℚ)) (corr : List (List (Option ℚ)))
    (hout : Statistics.replaceAndCorrelate x n g xx m regions = .ok (mean, stddev, corr)) :
    ∃ out, replaceGaps x.normal m regions n g = .ok out ∧ Replaced m regions out ∧
      ∀ r ∈ regions, r.sRow = r.sCol ∧ r.eRow = r.eCol → ∀ i j, Inside r i j →
        (∀ q ∈ regions, Inside q i j → q = r) →
        ∃ rho, corrEntry (sampleIn out r i) (sampleIn out r j) = some rho ∧ storedAt corr i j = some (x.num rho) := by
  obtain ⟨out, c, c', h1, h2, h3, rfl, rfl, rfl⟩ := steps hout
  obtain ⟨hrep, -⟩ := C168_replacement x.normal m h hc regions hr n g out h1
  refine ⟨out, h1, hrep, fun r hmem hd i j hij honly => ?_⟩
  have hs := putCorrs_size regions h2 hjunk
  obtain ⟨rfl, hnn⟩ := noNan_of_fillCorr hlog (fun row hrow => by rw [hs.2 row hrow, hxx]) h3
  have hso : SameSize out x.junk := ⟨by rw [hrep.shape.2.1]; exact hjunk.1, by rw [hrep.shape.1]; exact hjunk.2⟩
  have hb := hr r hmem
  have e := putCorrs_inside regions r ⟨by rw [hrep.shape.2.1]; exact hb.1.2, by rw [hrep.shape.1]; exact hb.2.2⟩ hd hmem
    i j hij honly h2 hso
  rw [storedAt_map, e]
  rcases hrho : corrEntry (sampleIn out r i) (sampleIn out r j) with _ | rho
  · exfalso
    rw [hrho] at e
    dsimp only at e
    unfold coefficient at e
    rcases hrow : c'[i]? with _ | row
    · rw [hrow] at e; cases e
    rw [hrow, Option.bind_some] at e
    exact hnn row (List.mem_of_getElem? hrow) _ (List.mem_of_getElem? e) rfl
  · exact ⟨rho, rfl, rfl⟩

/-- **C169**, partial: data with as many observations as samples, all of them one region.  The coefficients are found
exactly if random replacement succeeds and, in the data after replacement, every two samples have a coefficient.
(Missing: other numbers of observations, for which `C169_observations_fails`.) -/
theorem C169_square_data_partial {G : Type} (x : Statistics.External G) (n : ℕ) (g : G) (xx : List ℚ) (m : Mat)
    (h : m.Wf) (hc : 0 < m.ncols) (hsq : m.rows.length = m.ncols)
    (hxx : xx.length = m.ncols) (hlog : ∀ y ∈ xx, ∃ q, x.log y = .fin q) (hjunk : SameSize m x.junk) :
    let whole : Region := ⟨0, 0, m.rows.length, m.ncols⟩
    (∃ result, Statistics.replaceAndCorrelate x n g xx m [whole] = .ok result) ↔
    ∃ out, replaceGaps x.normal m [whole] n g = .ok out ∧
      ∀ i < m.ncols, ∀ j < m.ncols, (corrEntry (sampleIn out whole i) (sampleIn out whole j)).isSome := by
  intro whole
  have hr : Rectangles m [whole] := by
    intro r hr
    rw [List.mem_singleton] at hr
    subst hr
    exact ⟨⟨Nat.zero_le _, le_refl _⟩, Nat.zero_le _, le_refl _⟩
  have hin : ∀ i < m.ncols, ∀ j < m.ncols, Inside whole i j := fun i hi j hj =>
    ⟨⟨Nat.zero_le _, by change i < m.rows.length; omega⟩, Nat.zero_le _, hj⟩
  constructor
  · rintro ⟨⟨mean, stddev, corr⟩, hout⟩
    obtain ⟨out, h1, -, h3⟩ := C169_of_replaced_data_partial x n g xx m h hc [whole] hr hxx hlog hjunk mean stddev corr hout
    refine ⟨out, h1, fun i hi j hj => ?_⟩
    obtain ⟨rho, e, -⟩ := h3 whole (by simp) ⟨rfl, hsq⟩ i j (hin i hi j hj) fun q hq _ => by simpa using hq
    rw [e]
    rfl
  · rintro ⟨out, h1, h2⟩
    obtain ⟨hrep, -⟩ := C168_replacement x.normal m h hc [whole] hr n g out h1
    have hso : SameSize out x.junk := ⟨by rw [hrep.shape.2.1]; exact hjunk.1, by rw [hrep.shape.1]; exact hjunk.2⟩
    obtain ⟨c, hput⟩ := ((C169_shapes_partial x.num out [whole] x.junk).1).2 (by
      intro r hr
      rw [List.mem_singleton] at hr
      subst hr
      right
      simp only [whole]
      omega)
    have hs := putCorrs_size [whole] hput hjunk
    have hnn : ∀ row ∈ c, ∀ y ∈ row, y ≠ .nan := by
      intro row hrow y hy e
      subst e
      obtain ⟨i, hi, rfl⟩ := List.mem_iff_getElem.1 hrow
      obtain ⟨j, hj, hy⟩ := List.mem_iff_getElem.1 hy
      have hlen := hs.2 _ hrow
      have hi2 : i < m.ncols := by have := hs.1; omega
      have hj2 : j < m.ncols := by omega
      have e := putCorrs_inside [whole] whole ⟨by rw [hrep.shape.2.1], by rw [hrep.shape.1]⟩ ⟨rfl, hsq⟩ (by simp)
        i j (hin i hi2 j hj2) (fun q hq _ => by simpa using hq) hput hso
      have e2 : coefficient c i j = some .nan := by
        simp [coefficient, List.getElem?_eq_getElem hi, List.getElem?_eq_getElem hj, hy]
      have e3 := h2 i hi2 j hj2
      rw [e2] at e
      rcases hrho : corrEntry (sampleIn out whole i) (sampleIn out whole j) with _ | rho
      · rw [hrho] at e3; cases e3
      · rw [hrho] at e
        injection e with e
        cases e
    unfold Statistics.replaceAndCorrelate
    rw [h1]
    dsimp only
    rw [hput]
    dsimp only
    rw [C125_nothing_missing_partial x.log x.fit xx c hnn]
    exact ⟨_, rfl⟩

/-- **C169**, partial: `from_data_matrix` does on the data what it does on the samples and observations that are kept,
with their locations, when nothing is to be dropped.  (Missing: a returned object, for which `C60_class_methods_fails`.) -/
theorem C169_kept_data_partial {G : Type} (x : Statistics.External G) (a : DropArgs) (thr : ℚ) (n : ℕ) (g : G)
    (xx : List ℚ) (m : Mat) :
    Statistics.fromMatrix x a thr n g xx m =
      Statistics.fromMatrix x ⟨0, 0, 0⟩ thr n g (Mat.drop a xx m).1 (Mat.drop a xx m).2 := by
  have hz : ∀ rows : List (List (Option ℚ)), dropIndices rows 0 0 = [] := by
    intro rows
    unfold dropIndices
    split
    · rfl
    · rw [List.map_eq_nil_iff, List.filter_eq_nil_iff]
      intro p _
      have : ¬ ((numCount p.1 : ℚ) / p.1.length < 0) := not_lt.2 (by positivity)
      simp [this]
  have hd : ∀ (ys : List ℚ) (k : Mat), Mat.drop ⟨0, 0, 0⟩ ys k = (ys, k) := by
    intro ys k
    have hcols : k.deleteCols [] = k := by
      cases k with
      | mk nc rows =>
        unfold deleteCols
        simp only [deleteAt_nil, List.length_range]
        congr 1
        conv_rhs => rw [← List.map_id rows]
        exact List.map_congr_left fun l _ => deleteAt_nil l
    have hrows : ∀ k : Mat, k.deleteRows [] = k := fun k => by unfold deleteRows; rw [deleteAt_nil]
    unfold Mat.drop option1 option2
    simp only [hz, hcols, hrows, deleteAt_nil]
    split <;> rfl
  unfold Statistics.fromMatrix Statistics.fromDataMatrix
  rw [hd]

/-! ## A case with a gap -/

namespace PassedOn

/-- Three observations of three samples, one value missing. -/
def squareGap : Mat := ⟨3, [[some 100, some 200, some 300], [some 102, some 202, some 303], [some 101, none, some 301]]⟩

/-- The gap filled. -/
def squareFilled : Mat := ⟨3, [[some 100, some 200, some 300], [some 102, some 202, some 303], [some 101, some 201, some 301]]⟩

/-- A random source that always gives 201, logarithms that are numbers, a fit that is never called, memory full of
zeros. -/
noncomputable def squareExternal : Statistics.External Unit where
  normal := gives201
  log := fun q => .fin q
  fit := fun _ _ => .error .valueError
  num := fun r => (⌊r⌋ : ℚ)
  junk := List.replicate 3 (List.replicate 3 (.fin 0))

theorem squareGap_wf : squareGap.Wf := by
  intro row hrow
  simp only [squareGap, List.mem_cons, List.not_mem_nil, or_false] at hrow
  rcases hrow with rfl | rfl | rfl <;> rfl

theorem squareGap_rect : Rectangles squareGap [⟨0, 0, 3, 3⟩] := by
  intro r hr
  simp only [List.mem_singleton] at hr
  subst hr
  decide

theorem squareGap_attempt (a b c : Option ℚ) (s t u : Option ℝ) :
    attempt gives201 [a, b, c] [s, t, u] [⟨0, 0, 3, 3⟩] (squareGap, ()) = (squareFilled, ()) := rfl

theorem squareGap_filledAt (k : ℕ) : filledAt gives201 squareGap [⟨0, 0, 3, 3⟩] () k = squareFilled := by
  obtain ⟨h1, h2⟩ := calcStat_lengths squareGap
  unfold filledAt
  generalize squareGap.calcStat.1 = l1 at *
  generalize squareGap.calcStat.2 = l2 at *
  change l1.length = 3 at h1
  change l2.length = 3 at h2
  obtain ⟨a, b, c, rfl⟩ := List.length_eq_three.1 h1
  obtain ⟨s, t, u, rfl⟩ := List.length_eq_three.1 h2
  exact congrArg Prod.fst (squareGap_attempt a b c s t u)

theorem squareGap_replaced : replaceGaps gives201 squareGap [⟨0, 0, 3, 3⟩] 10 () = .ok squareFilled := by
  have c0 : colNumbers squareGap 0 = [100, 102, 101] ∧ colNumbers squareFilled 0 = [100, 102, 101] := ⟨rfl, rfl⟩
  have c1 : colNumbers squareGap 1 = [200, 202] ∧ colNumbers squareFilled 1 = [200, 202, 201] := ⟨rfl, rfl⟩
  have c2 : colNumbers squareGap 2 = [300, 303, 301] ∧ colNumbers squareFilled 2 = [300, 303, 301] := ⟨rfl, rfl⟩
  have hgood : ∀ c < squareGap.ncols,
      CloseTo (colNumbers squareGap c) (colNumbers (filledAt gives201 squareGap [⟨0, 0, 3, 3⟩] () 0) c) := by
    intro c hc
    rw [squareGap_filledAt]
    have hc2 : c = 0 ∨ c = 1 ∨ c = 2 := by
      have : squareGap.ncols = 3 := rfl
      omega
    rcases hc2 with rfl | rfl | rfl
    · rw [c0.1, c0.2]
      refine ⟨by decide, ⟨by norm_num [average], by norm_num [average]⟩, by norm_num [average], by simp⟩
    · rw [c1.1, c1.2]
      refine ⟨by decide, ⟨by norm_num [average], by norm_num [average]⟩, by norm_num [average], ?_⟩
      have d1 : deviation [200, 202] = Real.sqrt 2 := by norm_num [deviation, average]
      have d2 : deviation [200, 202, 201] = 1 := by norm_num [deviation, average]
      have a1 : average [200, 202] = 201 := by norm_num [average]
      have a2 : average [200, 202, 201] = 201 := by norm_num [average]
      rw [d1, d2, a1, a2, abs_lt]
      have s1 : Real.sqrt 2 < 2 := by rw [Real.sqrt_lt' (by norm_num)]; norm_num
      have s2 : 0 ≤ Real.sqrt 2 := Real.sqrt_nonneg 2
      constructor <;> push_cast <;> linarith
    · rw [c2.1, c2.2]
      refine ⟨by decide, ⟨by norm_num [average], by norm_num [average]⟩, by norm_num [average], by simp⟩
  obtain ⟨h1, h2, -⟩ := C168_first_accepted gives201 squareGap squareGap_wf (by decide) _ squareGap_rect 10 ()
  obtain ⟨out, ho⟩ := h2.2 ⟨0, by decide, hgood⟩
  rw [ho, h1 0 out ⟨ho, hgood, by decide, fun j hj => by omega⟩, squareGap_filledAt]

theorem corrEntry_isSome {a b : List (Option ℚ)} {xs ys : List ℚ} (ha : complete a = some xs) (hb : complete b = some ys)
    (hl : 2 ≤ xs.length) (h1 : cov xs xs ≠ 0) (h2 : cov ys ys ≠ 0) : (corrEntry a b).isSome := by
  unfold corrEntry
  rw [ha, hb]
  dsimp only
  rw [if_neg (by omega), if_neg (by tauto)]
  rfl

theorem squareGap_returns : ∃ result,
    Statistics.replaceAndCorrelate squareExternal 10 () [1, 2, 3] squareGap [⟨0, 0, 3, 3⟩] = .ok result := by
  refine (C169_square_data_partial squareExternal 10 () [1, 2, 3] squareGap squareGap_wf (by decide) rfl rfl
    (fun y _ => ⟨y, rfl⟩) ⟨rfl, ?_⟩).2 ⟨squareFilled, squareGap_replaced, fun i hi j hj => ?_⟩
  · intro row hrow
    simp only [squareExternal, List.mem_replicate] at hrow
    rw [hrow.2]
    rfl
  · have key : ∀ i < 3, ∃ xs, complete (sampleIn squareFilled ⟨0, 0, 3, 3⟩ i) = some xs ∧ 2 ≤ xs.length ∧ cov xs xs ≠ 0 := by
      intro i hi
      rcases (show i = 0 ∨ i = 1 ∨ i = 2 by omega) with rfl | rfl | rfl
      · exact ⟨[100, 102, 101], by decide +kernel⟩
      · exact ⟨[200, 202, 201], by decide +kernel⟩
      · exact ⟨[300, 303, 301], by decide +kernel⟩
    obtain ⟨xs, a1, a2, a3⟩ := key i hi
    obtain ⟨ys, b1, -, b3⟩ := key j hj
    exact corrEntry_isSome a1 b1 a2 a3 b3

end PassedOn

/-- The hypotheses of `C168_recorded_statistics`, `C169_of_replaced_data_partial` and `C169_square_data_partial` are met:
data with a gap, for which the call gets to the constructor; without the replacement it would not, as the second sample
has no coefficient. -/
example : (∃ mean stddev corr, Statistics.replaceAndCorrelate squareExternal 10 () [1, 2, 3] squareGap [⟨0, 0, 3, 3⟩] =
      .ok (mean, stddev, corr)) ∧ identifyRegions squareGap (4 / 5) = .ok [⟨0, 0, 3, 3⟩] ∧
    corrEntry (sampleIn squareGap ⟨0, 0, 3, 3⟩ 0) (sampleIn squareGap ⟨0, 0, 3, 3⟩ 1) = none := by
  obtain ⟨⟨mean, stddev, corr⟩, h⟩ := squareGap_returns
  exact ⟨⟨mean, stddev, corr, h⟩, by decide +kernel, rfl⟩

/-- A sample is dropped, with its location. -/
example : ((Mat.drop ⟨0, 0, 3⟩ [1, 2, 3] squareGap).1, (Mat.drop ⟨0, 0, 3⟩ [1, 2, 3] squareGap).2.rows) =
    ([1, 3], [[some 100, some 300], [some 102, some 303], [some 101, some 301]]) := by decide +kernel

end Verif.Props
