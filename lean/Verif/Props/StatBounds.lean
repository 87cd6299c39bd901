import Verif.Props.Statistics
import Mathlib.Analysis.Convex.Function
import Mathlib.Data.Finset.Max
import Mathlib.Tactic.Linarith
import Mathlib.Tactic.FieldSimp

/-! # The statistics of a suite stay between the curves of its members

The bounds are arbitrary functions of the location, a convex one below and a concave one above (constants and straight
lines are both): between two points of a broken line nothing more can be said. -/

namespace Verif.Props

open Verif Mat

/-- A location in the range of the points is one of them, or it has a left and a right neighbour. -/
theorem neighbours (ps : List (ℚ × ℚ)) (x : ℚ) (h : (∃ p ∈ ps, p.1 ≤ x) ∧ ∃ p ∈ ps, x ≤ p.1) :
    (∃ p ∈ ps, p.1 = x) ∨ ∃ p ∈ ps, ∃ q ∈ ps, p.1 < x ∧ x < q.1 ∧ ∀ r ∈ ps, r.1 ≤ p.1 ∨ q.1 ≤ r.1 := by
  classical
  by_cases hx : ∃ p ∈ ps, p.1 = x
  · exact Or.inl hx
  right
  have hne : ∀ p ∈ ps, p.1 ≠ x := fun p hp e => hx ⟨p, hp, e⟩
  obtain ⟨⟨p0, hp0, l0⟩, ⟨q0, hq0, u0⟩⟩ := h
  obtain ⟨p, hp, pmax⟩ := Finset.exists_max_image (ps.toFinset.filter fun p => p.1 < x) Prod.fst
    ⟨p0, by simpa [hp0] using lt_of_le_of_ne l0 (hne p0 hp0)⟩
  obtain ⟨q, hq, qmin⟩ := Finset.exists_min_image (ps.toFinset.filter fun p => x < p.1) Prod.fst
    ⟨q0, by simpa [hq0] using lt_of_le_of_ne u0 (hne q0 hq0).symm⟩
  simp only [Finset.mem_filter, List.mem_toFinset] at hp hq pmax qmin
  refine ⟨p, hp.1, q, hq.1, hp.2, hq.2, ?_⟩
  intro r hr
  rcases lt_or_gt_of_ne (hne r hr) with g | g
  · exact Or.inl (pmax r ⟨hr, g⟩)
  · exact Or.inr (qmin r ⟨hr, g⟩)

/-- Points have one broken line. -/
theorem resampled_unique (ps : List (ℚ × ℚ)) (x : ℚ) (v w : Option ℚ) (hv : Spec.Resampled ps x v)
    (hw : Spec.Resampled ps x w) : v = w := by
  by_cases hr : (∃ p ∈ ps, p.1 ≤ x) ∧ ∃ p ∈ ps, x ≤ p.1
  · rcases neighbours ps x hr with ⟨p, hp, e⟩ | ⟨p, hp, q, hq, h1, h2, h3⟩
    · rw [hv.atPoint p hp e, hw.atPoint p hp e]
    · obtain ⟨y, rfl, e1, _⟩ := hv.between p hp q hq h1 h2 h3
      obtain ⟨z, rfl, e2, _⟩ := hw.between p hp q hq h1 h2 h3
      have hd : q.1 - p.1 ≠ 0 := by linarith
      have := mul_right_cancel₀ hd (e1.trans e2.symm)
      rw [sub_left_inj.1 this]
  · rw [hv.missing.2 hr, hw.missing.2 hr]

/-- A value of the broken line through points above a convex function is above that function. -/
theorem resampled_above (D : Set ℚ) (L : ℚ → ℚ) (hL : ConvexOn ℚ D L) (ps : List (ℚ × ℚ))
    (hps : ∀ p ∈ ps, p.1 ∈ D ∧ L p.1 ≤ p.2) (x y : ℚ) (h : Spec.Resampled ps x (some y)) : L x ≤ y := by
  obtain ⟨hm, ha, hb⟩ := h
  have hr : (∃ p ∈ ps, p.1 ≤ x) ∧ ∃ p ∈ ps, x ≤ p.1 := by
    by_contra hc
    exact absurd (hm.2 hc) (by simp)
  rcases neighbours ps x hr with ⟨p, hp, e⟩ | ⟨p, hp, q, hq, h1, h2, h3⟩
  · have := ha p hp e
    simp only [Option.some.injEq] at this
    rw [this, ← e]
    exact (hps p hp).2
  · obtain ⟨z, hz, e, _, _⟩ := hb p hp q hq h1 h2 h3
    simp only [Option.some.injEq] at hz
    subst hz
    have hd : 0 < q.1 - p.1 := by linarith [h1, h2]
    have c := hL.2 (hps p hp).1 (hps q hq).1 (div_nonneg (sub_nonneg.2 h2.le) hd.le)
      (div_nonneg (sub_nonneg.2 h1.le) hd.le) (show (q.1 - x) / (q.1 - p.1) + (x - p.1) / (q.1 - p.1) = 1 by
        field_simp
        ring)
    simp only [smul_eq_mul] at c
    have ex : (q.1 - x) / (q.1 - p.1) * p.1 + (x - p.1) / (q.1 - p.1) * q.1 = x := by
      field_simp
      ring
    rw [ex] at c
    have ey : y = (q.1 - x) / (q.1 - p.1) * p.2 + (x - p.1) / (q.1 - p.1) * q.2 := by
      field_simp
      linarith
    rw [ey]
    refine c.trans (add_le_add ?_ ?_)
    · exact mul_le_mul_of_nonneg_left (hps p hp).2 (div_nonneg (by linarith [h2]) hd.le)
    · exact mul_le_mul_of_nonneg_left (hps q hq).2 (div_nonneg (by linarith [h1]) hd.le)

/-- The broken line through the points with the opposite values. -/
theorem resampled_neg (ps : List (ℚ × ℚ)) (x : ℚ) (v : Option ℚ) (h : Spec.Resampled ps x v) :
    Spec.Resampled (ps.map fun p => (p.1, -p.2)) x (v.map fun y => -y) := by
  obtain ⟨hm, ha, hb⟩ := h
  refine ⟨?_, ?_, ?_⟩
  · simpa using hm
  · intro p hp e
    obtain ⟨q, hq, rfl⟩ := List.mem_map.1 hp
    simp [ha q hq e]
  · intro p hp q hq h1 h2 h3
    obtain ⟨p', hp', rfl⟩ := List.mem_map.1 hp
    obtain ⟨q', hq', rfl⟩ := List.mem_map.1 hq
    obtain ⟨y, hy, e1, e2, e3⟩ := hb p' hp' q' hq' h1 h2 (fun r hr => h3 (r.1, -r.2) (List.mem_map.2 ⟨r, hr, rfl⟩))
    refine ⟨-y, by simp [hy], ?_, ?_, ?_⟩
    · simp only
      linear_combination -e1
    · rw [min_neg_neg]
      exact neg_le_neg e3
    · rw [max_neg_neg]
      exact neg_le_neg e2

theorem resampled_below (D : Set ℚ) (U : ℚ → ℚ) (hU : ConcaveOn ℚ D U) (ps : List (ℚ × ℚ))
    (hps : ∀ p ∈ ps, p.1 ∈ D ∧ p.2 ≤ U p.1) (x y : ℚ) (h : Spec.Resampled ps x (some y)) : y ≤ U x := by
  have g := resampled_above D (-U) hU.neg (ps.map fun p => (p.1, -p.2)) (by
    intro p hp
    obtain ⟨q, hq, rfl⟩ := List.mem_map.1 hp
    exact ⟨(hps q hq).1, neg_le_neg (hps q hq).2⟩) x (-y) (resampled_neg ps x _ h)
  simp only [Pi.neg_apply] at g
  linarith

theorem mean_between (vs : List ℚ) (l u mu : ℚ) (h : Spec.IsMean vs (some mu)) (hv : ∀ v ∈ vs, l ≤ v ∧ v ≤ u) :
    l ≤ mu ∧ mu ≤ u := by
  rcases h with ⟨_, h⟩ | ⟨hne, q, hq, e⟩
  · simp at h
  simp only [Option.some.injEq] at hq
  subst hq
  have hn : (0 : ℚ) < vs.length := by
    have := List.length_pos_iff.2 hne
    exact_mod_cast this
  have h1 : l * vs.length ≤ vs.sum := by
    have := List.card_nsmul_le_sum vs l (fun v hv' => (hv v hv').1)
    rw [nsmul_eq_mul] at this
    linarith
  have h2 : vs.sum ≤ u * vs.length := by
    have := List.sum_le_card_nsmul vs u (fun v hv' => (hv v hv').2)
    rw [nsmul_eq_mul] at this
    linarith
  rw [← e] at h1 h2
  exact ⟨le_of_mul_le_mul_right h1 hn, le_of_mul_le_mul_right h2 hn⟩

/-- The sum of squared deviations from any number, bounded by the range of the values. -/
theorem deviations_le (l u mu : ℝ) (vs : List ℚ) (hv : ∀ v ∈ vs, l ≤ (v : ℝ) ∧ (v : ℝ) ≤ u) :
    (vs.map fun (v : ℚ) => ((v : ℝ) - mu) ^ 2).sum ≤
      (vs.length : ℝ) * (mu ^ 2 - l * u) + (l + u - 2 * mu) * ((vs.sum : ℚ) : ℝ) := by
  induction vs with
  | nil => simp
  | cons a vs ih =>
    have h1 := ih (fun v hv' => hv v (by simp [hv']))
    have h2 := hv a (by simp)
    simp only [List.map_cons, List.sum_cons, List.length_cons, Rat.cast_add, Nat.cast_add, Nat.cast_one]
    nlinarith [mul_nonneg (sub_nonneg.2 h2.1) (sub_nonneg.2 h2.2)]

theorem std_between (vs : List ℚ) (l u : ℚ) (sd : ℝ) (h : Spec.IsStd vs (some sd)) (hv : ∀ v ∈ vs, l ≤ v ∧ v ≤ u) :
    0 ≤ sd ∧ 2 * sd ^ 2 ≤ ((u : ℝ) - l) ^ 2 := by
  rcases h with ⟨_, h⟩ | ⟨h2, mu, s, hm, hs, h0, e⟩
  · simp at h
  simp only [Option.some.injEq] at hs
  subst hs
  refine ⟨h0, ?_⟩
  have hd := deviations_le l u mu vs (fun v hv' => ⟨by exact_mod_cast (hv v hv').1, by exact_mod_cast (hv v hv').2⟩)
  rw [← e] at hd
  rcases hm with ⟨_, hm⟩ | ⟨_, q, hq, em⟩
  · simp at hm
  simp only [Option.some.injEq] at hq
  subst hq
  have em' : ((vs.sum : ℚ) : ℝ) = mu * vs.length := by exact_mod_cast em.symm
  rw [em'] at hd
  have hn : (2 : ℝ) ≤ vs.length := by exact_mod_cast h2
  have k1 : sd ^ 2 * ((vs.length : ℝ) - 1) ≤ (vs.length : ℝ) * ((mu - l) * (u - mu)) := by
    calc sd ^ 2 * ((vs.length : ℝ) - 1) ≤ _ := hd
      _ = _ := by ring
  have k2 : ((mu : ℝ) - l) * (u - mu) ≤ ((u : ℝ) - l) ^ 2 / 4 := by
    nlinarith [sq_nonneg ((mu : ℝ) - l - (u - mu))]
  have k3 : sd ^ 2 * ((vs.length : ℝ) - 1) ≤ (vs.length : ℝ) * (((u : ℝ) - l) ^ 2 / 4) :=
    k1.trans (mul_le_mul_of_nonneg_left k2 (by linarith))
  by_contra hc
  push Not at hc
  nlinarith [mul_nonneg (sub_nonneg.2 hn) (sq_nonneg ((u : ℝ) - l)), mul_lt_mul_of_pos_right hc (show (0 : ℝ) < (vs.length : ℝ) - 1 by linarith)]

/-- The points of the member: its simplified abscissae and ordinates, which are all numbers. -/
def PointsOf (p : Peaks) (xtype ytype : String) (xs ys : List ℚ) : Prop :=
  p.simplify xtype = .ok (xs.map Fl.fin) ∧ p.simplify ytype = .ok (ys.map Fl.fin)

theorem pointsOf_unique (p : Peaks) (xtype ytype : String) (xs ys xs' ys' : List ℚ)
    (h : PointsOf p xtype ytype xs ys) (h' : PointsOf p xtype ytype xs' ys') : xs = xs' ∧ ys = ys' := by
  obtain ⟨a1, a2⟩ := h
  obtain ⟨b1, b2⟩ := h'
  rw [a1] at b1
  rw [a2] at b2
  simp only [Except.ok.injEq] at b1 b2
  have inj : Function.Injective Fl.fin := fun a b e => by cases e; rfl
  exact ⟨List.map_injective_iff.2 inj b1, List.map_injective_iff.2 inj b2⟩

/-- What `statistics` returned comes from values of the members' broken lines. -/
theorem statistics_values (s : Suite) (xtype ytype : String) (xx : List ℚ) (count : ℕ) (locs : List ℚ)
    (mean : List (Option ℚ)) (std : List (Option ℝ)) (h : s.statistics xtype ytype xx count = .ok (locs, mean, std))
    (hd : ∀ p ∈ s.peaks, ∀ xs ys, PointsOf p xtype ytype xs ys → ((xs.zip ys).map fun q => q.1).Nodup) :
    mean.length = locs.length ∧ std.length = locs.length ∧ ∀ (k : ℕ) (x : ℚ), locs[k]? = some x →
      x ∈ xx ∧ ∃ vs : List ℚ, Spec.IsMean vs (mean.getD k none) ∧ Spec.IsStd vs (std.getD k none) ∧
        ∀ v ∈ vs, ∃ p ∈ s.peaks, ∃ xs ys, PointsOf p xtype ytype xs ys ∧ Spec.Resampled (xs.zip ys) x (some v) := by
  obtain ⟨g1, g2⟩ := C54_statistics s xtype ytype xx count
  have h3 : 3 ≤ s.peaks.length := by
    by_contra hc
    rw [g1 (by omega)] at h
    cases h
  rcases ht : s.toArray xtype ytype xx with e | ⟨xx', m⟩
  · unfold Suite.statistics at h
    rw [if_neg (by omega), ht] at h
    cases h
  obtain ⟨R, C, mean', std', e1, hR, hC, _, l1, l2, hv⟩ := g2 h3 xx' m ht
  rw [e1] at h
  simp only [Except.ok.injEq, Prod.mk.injEq] at h
  obtain ⟨rfl, rfl, rfl⟩ := h
  refine ⟨by simp [l1], by simp [l2], ?_⟩
  intro k x hk
  rw [List.getElem?_map] at hk
  rcases hc : C[k]? with _ | c
  · simp [hc] at hk
  simp only [hc, Option.map_some, Option.some.injEq] at hk
  have hcm : c < xx.length := by
    have := hC.subset (List.mem_of_getElem? hc)
    simpa using this
  have hxc : xx[c]? = some x := by
    rw [List.getD_eq_getElem?_getD, List.getElem?_eq_getElem hcm] at hk
    rw [List.getElem?_eq_getElem hcm]
    simpa using hk
  refine ⟨List.mem_of_getElem? hxc, _, (hv k c hc).1, (hv k c hc).2, ?_⟩
  intro v hvm
  obtain ⟨r, hr, er⟩ := List.mem_filterMap.1 hvm
  have hrl : r < s.peaks.length := by
    have := hR.subset hr
    simpa using this
  obtain ⟨_, _, hrow⟩ := C51_resampling s xtype ytype xx xx' m ht
  obtain ⟨xs, ys, e2, e3, row, hrow1, _, hrow2⟩ := hrow r s.peaks[r] (by simp [hrl])
  obtain ⟨v', hv', hres⟩ := hrow2 (hd _ (List.getElem_mem hrl) xs ys ⟨e2, e3⟩) c x hxc
  have : v' = some v := by
    simp only [entry, List.getD_eq_getElem?_getD, hrow1, Option.getD_some, hv'] at er
    exact er
  subst this
  exact ⟨_, List.getElem_mem hrl, xs, ys, ⟨e2, e3⟩, hres⟩

/-- **C165**.  If the points of every member lie between a convex function `L` of the location and a concave function
`U`, then so does every mean that `statistics` reports, and the standard deviation it reports is at most the distance
of the two functions divided by the square root of two. -/
theorem C165_between (s : Suite) (xtype ytype : String) (xx : List ℚ) (count : ℕ) (locs : List ℚ)
    (mean : List (Option ℚ)) (std : List (Option ℝ)) (h : s.statistics xtype ytype xx count = .ok (locs, mean, std))
    (hd : ∀ p ∈ s.peaks, ∀ xs ys, PointsOf p xtype ytype xs ys → ((xs.zip ys).map fun q => q.1).Nodup)
    (D : Set ℚ) (L U : ℚ → ℚ) (hL : ConvexOn ℚ D L) (hU : ConcaveOn ℚ D U)
    (hb : ∀ p ∈ s.peaks, ∀ xs ys, PointsOf p xtype ytype xs ys →
      ∀ q ∈ xs.zip ys, q.1 ∈ D ∧ L q.1 ≤ q.2 ∧ q.2 ≤ U q.1) (k : ℕ) (x : ℚ) (hk : locs[k]? = some x) :
    (∀ mu, mean[k]? = some (some mu) → L x ≤ mu ∧ mu ≤ U x) ∧
    (∀ sd, std[k]? = some (some sd) → 0 ≤ sd ∧ 2 * sd ^ 2 ≤ ((U x : ℝ) - L x) ^ 2) := by
  obtain ⟨_, _, hv⟩ := statistics_values s xtype ytype xx count locs mean std h hd
  obtain ⟨_, vs, hm, hs, hvs⟩ := hv k x hk
  have hb' : ∀ v ∈ vs, L x ≤ v ∧ v ≤ U x := by
    intro v hvm
    obtain ⟨p, hp, xs, ys, hpt, hres⟩ := hvs v hvm
    exact ⟨resampled_above D L hL _ (fun q hq => ⟨(hb p hp xs ys hpt q hq).1, (hb p hp xs ys hpt q hq).2.1⟩) x v hres,
      resampled_below D U hU _ (fun q hq => ⟨(hb p hp xs ys hpt q hq).1, (hb p hp xs ys hpt q hq).2.2⟩) x v hres⟩
  constructor
  · intro mu e
    rw [List.getD_eq_getElem?_getD, e, Option.getD_some] at hm
    exact mean_between vs _ _ mu hm hb'
  · intro sd e
    rw [List.getD_eq_getElem?_getD, e, Option.getD_some] at hs
    exact std_between vs _ _ sd hs hb'

/-- Values between 100 and 700: the hypotheses of the theorem are met by the suite of three members of different
ranges. -/
example : (∃ locs mean std, statSuite.statistics "frequency" "velocity" [1, 2, 3, 9] 2 = .ok (locs, mean, std)) ∧
    ConvexOn ℚ Set.univ (fun _ : ℚ => (100 : ℚ)) ∧ ConcaveOn ℚ Set.univ (fun _ : ℚ => (700 : ℚ)) ∧
    ∀ p ∈ statSuite.peaks, ∀ xs ys, PointsOf p "frequency" "velocity" xs ys →
      ((xs.zip ys).map fun q => q.1).Nodup ∧ ∀ q ∈ xs.zip ys, q.1 ∈ Set.univ ∧ 100 ≤ q.2 ∧ q.2 ≤ 700 := by
  refine ⟨?_, convexOn_const _ convex_univ, concaveOn_const _ convex_univ, ?_⟩
  · obtain ⟨R, C, mean, std, e, _⟩ := (C54_statistics statSuite "frequency" "velocity" [1, 2, 3, 9] 2).2
      (by decide +kernel) [1, 2, 3, 9] ⟨4, [[some 200, some 150, some 100, none], [some 100, some 300, none, none],
        [none, some 500, some 600, none]]⟩ (by decide +kernel)
    exact ⟨_, _, _, e⟩
  · intro p hp xs ys h
    simp only [statSuite, List.mem_cons, List.not_mem_nil, or_false] at hp
    rcases hp with rfl | rfl | rfl
    · obtain ⟨rfl, rfl⟩ := pointsOf_unique _ _ _ _ _ _ _ h (show PointsOf _ _ _ [3, 1] [100, 200] from
        ⟨by decide +kernel, by decide +kernel⟩)
      exact ⟨by decide, by norm_num⟩
    · obtain ⟨rfl, rfl⟩ := pointsOf_unique _ _ _ _ _ _ _ h (show PointsOf _ _ _ [1, 2] [100, 300] from
        ⟨by decide +kernel, by decide +kernel⟩)
      exact ⟨by decide, by norm_num⟩
    · obtain ⟨rfl, rfl⟩ := pointsOf_unique _ _ _ _ _ _ _ h (show PointsOf _ _ _ [2, 4] [500, 700] from
        ⟨by decide +kernel, by decide +kernel⟩)
      exact ⟨by decide, by norm_num⟩

/-- **C165** (straight line).  If the points of all members lie on one straight line, every mean that `statistics`
reports is the value of that line and every standard deviation is zero. -/
theorem C165_straight_line (s : Suite) (xtype ytype : String) (xx : List ℚ) (count : ℕ) (locs : List ℚ)
    (mean : List (Option ℚ)) (std : List (Option ℝ)) (h : s.statistics xtype ytype xx count = .ok (locs, mean, std))
    (hd : ∀ p ∈ s.peaks, ∀ xs ys, PointsOf p xtype ytype xs ys → ((xs.zip ys).map fun q => q.1).Nodup)
    (a b : ℚ) (hb : ∀ p ∈ s.peaks, ∀ xs ys, PointsOf p xtype ytype xs ys → ∀ q ∈ xs.zip ys, q.2 = a * q.1 + b)
    (k : ℕ) (x : ℚ) (hk : locs[k]? = some x) :
    (∀ mu, mean[k]? = some (some mu) → mu = a * x + b) ∧ (∀ sd, std[k]? = some (some sd) → sd = 0) := by
  have hc : ConvexOn ℚ Set.univ fun x : ℚ => a * x + b := by
    refine ⟨convex_univ, ?_⟩
    intro x _ y _ c d _ _ hcd
    simp only [smul_eq_mul]
    apply le_of_eq
    linear_combination (-b) * hcd
  have hc' : ConcaveOn ℚ Set.univ fun x : ℚ => a * x + b := by
    refine ⟨convex_univ, ?_⟩
    intro x _ y _ c d _ _ hcd
    simp only [smul_eq_mul]
    apply le_of_eq
    linear_combination b * hcd
  obtain ⟨h1, h2⟩ := C165_between s xtype ytype xx count locs mean std h hd Set.univ _ _ hc hc'
    (fun p hp xs ys hpt q hq => ⟨trivial, (hb p hp xs ys hpt q hq).ge, (hb p hp xs ys hpt q hq).le⟩) k x hk
  refine ⟨fun mu e => le_antisymm (h1 mu e).2 (h1 mu e).1, fun sd e => ?_⟩
  obtain ⟨g0, g⟩ := h2 sd e
  simp only [sub_self] at g
  nlinarith [sq_nonneg sd]

/-- Three members on the line `10 x + 5`. -/
def lineSuite : Suite :=
  ⟨[statMember "a" [1, 3] [15, 35], statMember "b" [1, 2] [15, 25], statMember "c" [2, 4] [25, 45]], ["a", "b", "c"]⟩

example : (∃ locs mean std, lineSuite.statistics "frequency" "velocity" [1, 2, 3] 2 = .ok (locs, mean, std)) ∧
    ∀ p ∈ lineSuite.peaks, ∀ xs ys, PointsOf p "frequency" "velocity" xs ys →
      ((xs.zip ys).map fun q => q.1).Nodup ∧ ∀ q ∈ xs.zip ys, q.2 = 10 * q.1 + 5 := by
  refine ⟨?_, ?_⟩
  · obtain ⟨R, C, mean, std, e, _⟩ := (C54_statistics lineSuite "frequency" "velocity" [1, 2, 3] 2).2
      (by decide +kernel) [1, 2, 3] ⟨3, [[some 15, some 25, some 35], [some 15, some 25, none],
        [none, some 25, some 35]]⟩ (by decide +kernel)
    exact ⟨_, _, _, e⟩
  · intro p hp xs ys h
    simp only [lineSuite, List.mem_cons, List.not_mem_nil, or_false] at hp
    rcases hp with rfl | rfl | rfl
    · obtain ⟨rfl, rfl⟩ := pointsOf_unique _ _ _ _ _ _ _ h (show PointsOf _ _ _ [1, 3] [15, 35] from
        ⟨by decide +kernel, by decide +kernel⟩)
      exact ⟨by decide, by norm_num⟩
    · obtain ⟨rfl, rfl⟩ := pointsOf_unique _ _ _ _ _ _ _ h (show PointsOf _ _ _ [1, 2] [15, 25] from
        ⟨by decide +kernel, by decide +kernel⟩)
      exact ⟨by decide, by norm_num⟩
    · obtain ⟨rfl, rfl⟩ := pointsOf_unique _ _ _ _ _ _ _ h (show PointsOf _ _ _ [2, 4] [25, 45] from
        ⟨by decide +kernel, by decide +kernel⟩)
      exact ⟨by decide, by norm_num⟩

/-- **C165** (same curve).  If all members have the same points, every mean that `statistics` reports is the value of
their common broken line, and every standard deviation is zero. -/
theorem C165_same_curve (s : Suite) (xtype ytype : String) (xx : List ℚ) (count : ℕ) (locs : List ℚ)
    (mean : List (Option ℚ)) (std : List (Option ℝ)) (h : s.statistics xtype ytype xx count = .ok (locs, mean, std))
    (xs ys : List ℚ) (hs : ∀ p ∈ s.peaks, PointsOf p xtype ytype xs ys)
    (hd : ((xs.zip ys).map fun q => q.1).Nodup) (k : ℕ) (x : ℚ) (hk : locs[k]? = some x) :
    (∀ mu, mean[k]? = some (some mu) → Spec.Resampled (xs.zip ys) x (some mu)) ∧
      (∀ sd, std[k]? = some (some sd) → sd = 0) := by
  have hinj : ∀ p ∈ s.peaks, ∀ xs' ys', PointsOf p xtype ytype xs' ys' → xs' = xs ∧ ys' = ys := fun p hp xs' ys' hpt =>
    pointsOf_unique _ _ _ _ _ _ _ hpt (hs p hp)
  obtain ⟨_, _, hv⟩ := statistics_values s xtype ytype xx count locs mean std h (fun p hp xs' ys' hpt => by
    obtain ⟨rfl, rfl⟩ := hinj p hp xs' ys' hpt
    exact hd)
  obtain ⟨_, vs, hm, hst, hvs⟩ := hv k x hk
  have hres : ∀ v ∈ vs, Spec.Resampled (xs.zip ys) x (some v) := by
    intro v hvm
    obtain ⟨p, hp, xs', ys', hpt, hr⟩ := hvs v hvm
    obtain ⟨rfl, rfl⟩ := hinj p hp xs' ys' hpt
    exact hr
  have heq : ∀ v ∈ vs, v = (interp (xs.zip ys) x).getD 0 := by
    intro v hvm
    have := resampled_unique _ x _ _ (hres v hvm) (interp_spec _ hd x)
    rw [← this]
    rfl
  have hbd : ∀ v ∈ vs, (interp (xs.zip ys) x).getD 0 ≤ v ∧ v ≤ (interp (xs.zip ys) x).getD 0 := fun v hvm =>
    ⟨(heq v hvm).ge, (heq v hvm).le⟩
  constructor
  · intro mu e
    rw [List.getD_eq_getElem?_getD, e, Option.getD_some] at hm
    obtain ⟨m1, m2⟩ := mean_between vs _ _ mu hm hbd
    rcases hm with ⟨_, hm⟩ | ⟨hne, _⟩
    · simp at hm
    obtain ⟨v, hvm⟩ := List.exists_mem_of_ne_nil _ hne
    have : mu = v := by
      rw [heq v hvm]
      exact le_antisymm m2 m1
    rw [this]
    exact hres v hvm
  · intro sd e
    rw [List.getD_eq_getElem?_getD, e, Option.getD_some] at hst
    obtain ⟨g0, g⟩ := std_between vs _ _ sd hst hbd
    simp only [sub_self] at g
    nlinarith [sq_nonneg sd]

/-- Three members with the points (1, 200), (2, 500) and (4, 100). -/
def sameSuite : Suite :=
  ⟨[statMember "a" [1, 2, 4] [200, 500, 100], statMember "b" [1, 2, 4] [200, 500, 100],
    statMember "c" [1, 2, 4] [200, 500, 100]], ["a", "b", "c"]⟩

example : (∃ locs mean std, sameSuite.statistics "frequency" "velocity" [1, 3] 2 = .ok (locs, mean, std)) ∧
    ∀ p ∈ sameSuite.peaks, PointsOf p "frequency" "velocity" [1, 2, 4] [200, 500, 100] := by
  refine ⟨?_, ?_⟩
  · obtain ⟨R, C, mean, std, e, _⟩ := (C54_statistics sameSuite "frequency" "velocity" [1, 3] 2).2
      (by decide +kernel) [1, 3] ⟨2, [[some 200, some 300], [some 200, some 300], [some 200, some 300]]⟩
      (by decide +kernel)
    exact ⟨_, _, _, e⟩
  · intro p hp
    simp only [sameSuite, List.mem_cons, List.not_mem_nil, or_false] at hp
    rcases hp with rfl | rfl | rfl <;> exact ⟨by decide +kernel, by decide +kernel⟩

end Verif.Props
