import Verif.Props.Normalize
import Verif.Props.Selection
import Verif.Props.Waterfall

/-!
# C112, C113: plots of a transform
-/

namespace Verif.Props
open Verif WT Draw

/-! ## Specification -/

/-- What a user may do with a transform: normalize its power, or plot it. -/
inductive Use where
  | normalize (by_ : String)
  | plot (axGiven figGiven : Bool) (normalization peaks : String)

/-- One such call. -/
def use (frequencies velocities : List ℚ) (s : PowerState) : Use → Outcome PowerState
  | .normalize how => WT.normalize s how
  | .plot ax fig n p =>
    match plotTransform frequencies velocities s ax fig n p with
    | (s', .error e) => (s', .error e)
    | (s', .ok _) => (s', .ok ())

/-- Calls as documented: known methods, and no axes without their figure. -/
def Use.Documented : Use → Prop
  | .normalize how => how ∈ normMethods
  | .plot ax fig n p => n ∈ normMethods ∧ (p = "none" ∨ p = "frequency-maximum") ∧ (ax = true → fig = true)

/-! ## Proofs -/

private theorem finites_finM (p : List (List ℚ)) : finites (finM p) = some p := by
  have h : ((finM p).all fun row => row.all Fl.isFin) = true := by
    simp [finM, List.all_eq_true, Fl.isFin]
  rw [finites, if_pos h]
  simp [finM, Function.comp_def, Fl.toRat]

private def Recovers (orig : List (List ℚ)) (s : PowerState) : Prop :=
  ∃ X, scaleBy s.toAbs s.power = finM X ∧ qAbs X = qAbs orig

private theorem recovers_new (orig : List (List ℚ)) : Recovers orig (PowerState.new (finM orig)) :=
  ⟨orig, by simp [PowerState.new, scaleBy, finM, Function.comp_def, Fl.mul], rfl⟩

private theorem recovers_normalize {orig : List (List ℚ)} {nf : ℕ} (h : Normalizable orig nf) {s : PowerState}
    (hs : Recovers orig s) {how : String} (hh : how ∈ normMethods) :
    ∃ s' p, WT.normalize s how = (s', .ok ()) ∧ Recovers orig s' ∧ s'.power = finM p ∧ NormalizedBy how orig p := by
  obtain ⟨X, h1, h2⟩ := hs
  obtain ⟨e1, e2⟩ := normalize_step s X (qAbs orig) nf h.good how hh h1 h2
  exact ⟨_, _, e1, ⟨qAbs orig, e2, good_qAbs_idem h.good⟩, rfl,
    normalizedBy_qNorm orig nf h.rows_ne h.rect h.good how hh⟩

private theorem normalized_shape {how : String} {orig p : List (List ℚ)} {nf : ℕ} (h : Normalizable orig nf)
    {s s' : PowerState} (hs : Recovers orig s) (hn : WT.normalize s how = (s', .ok ())) (hh : how ∈ normMethods)
    (hp : s'.power = finM p) : p.length = orig.length ∧ ∀ row ∈ p, row.length = nf := by
  obtain ⟨X, h1, h2⟩ := hs
  obtain ⟨e1, -⟩ := normalize_step s X (qAbs orig) nf h.good how hh h1 h2
  rw [e1, Prod.mk.injEq] at hn
  rw [← hn.1] at hp
  simp only at hp
  have : qNorm how (qAbs orig) = p := by
    have := congrArg (fun m => m.map fun row => row.map Fl.toRat) hp
    simpa [finM, Function.comp_def, Fl.toRat] using this
  have hg := h.good
  subst this
  unfold qNorm
  constructor
  · split_ifs <;> simp [qAbs]
  · split_ifs
    · exact hg.rows
    · intro row hr
      obtain ⟨r, hr', rfl⟩ := List.mem_map.1 hr
      simpa using hg.rows r hr'
    · intro row hr
      obtain ⟨r, hr', rfl⟩ := List.mem_map.1 hr
      simp [hg.qColMax_length, hg.rows r hr']

private theorem normalized_nonneg {how : String} {orig p : List (List ℚ)} (hh : how ∈ normMethods)
    (hp : NormalizedBy how orig p) {r c : ℕ} {y : ℚ} (hy : entry p r c = some y) : 0 ≤ y := by
  rcases hp r c with ⟨-, h⟩ | ⟨x, y', hx, hy', h1, h2, h3⟩
  · rw [h] at hy; cases hy
  · rw [hy'] at hy; cases hy
    simp only [normMethods, List.mem_cons, List.not_mem_nil, or_false] at hh
    rcases hh with rfl | rfl | rfl
    · rw [h1 rfl]; exact abs_nonneg x
    · obtain ⟨M, hM, rfl⟩ := h2 rfl
      exact div_nonneg (abs_nonneg x) ((abs_nonneg x).trans (hM.2 ⟨r, c, x, hx, rfl⟩))
    · obtain ⟨M, hM, rfl⟩ := h3 rfl
      exact div_nonneg (abs_nonneg x) ((abs_nonneg x).trans (hM.2 ⟨r, x, hx, rfl⟩))

private theorem normalized_positive {how : String} {orig p : List (List ℚ)} {nf : ℕ} (h : Normalizable orig nf)
    (hh : how ∈ normMethods) (hp : NormalizedBy how orig p) : ∃ r c y, entry p r c = some y ∧ 0 < y := by
  obtain ⟨r, x, hx, hx0⟩ := h.nonzero 0 h.cols_pos
  rcases hp r 0 with ⟨h, -⟩ | ⟨x', y', hx', hy', h1, h2, h3⟩
  · rw [h] at hx; cases hx
  · rw [hx'] at hx; cases hx
    have hpos := abs_pos.2 hx0
    refine ⟨r, 0, y', hy', ?_⟩
    simp only [normMethods, List.mem_cons, List.not_mem_nil, or_false] at hh
    rcases hh with rfl | rfl | rfl
    · rw [h1 rfl]; exact hpos
    · obtain ⟨M, hM, rfl⟩ := h2 rfl
      exact div_pos hpos (hpos.trans_le (hM.2 ⟨r, 0, x, hx', rfl⟩))
    · obtain ⟨M, hM, rfl⟩ := h3 rfl
      exact div_pos hpos (hpos.trans_le (hM.2 ⟨r, x, hx', rfl⟩))

private theorem levels_ends (top : ℚ) : (levels top).head? = some 0 ∧ (levels top).getLast? = some top := by
  constructor
  · simp [levels, List.range_succ]
  · simp only [levels, List.range_succ, List.map_append, List.map_cons, List.map_nil]
    rw [List.getLast?_append]
    simp
    ring

private theorem plot_step {orig : List (List ℚ)} {nf : ℕ} (h : Normalizable orig nf) (frequencies velocities : List ℚ)
    (hvel : velocities.length = orig.length) {s : PowerState} (hs : Recovers orig s) {ax fig : Bool}
    {n peaks : String} (hn : n ∈ normMethods) (hp : peaks = "none" ∨ peaks = "frequency-maximum")
    (hax : ax = true → fig = true) :
    ∃ s' img, plotTransform frequencies velocities s ax fig n peaks = (s', .ok img) ∧ Recovers orig s' ∧
      s'.power = finM img.power ∧
      img.frequencies = frequencies ∧ img.velocities = velocities ∧ NormalizedBy n orig img.power ∧
      (∃ top, img.levels.head? = some 0 ∧ img.levels.getLast? = some top ∧
        ∀ r c x, entry img.power r c = some x → 0 ≤ x ∧ x ≤ top) ∧
      (peaks = "none" → img.peaks = none) ∧
      (peaks = "frequency-maximum" → ∃ picked, img.peaks = some (frequencies, picked) ∧ picked.length = nf ∧
        ∀ c, c < nf → ∃ i, FirstColumnMax img.power c i ∧ picked[c]? = velocities[i]?) := by
  obtain ⟨s', p, e1, e2, e3, e4⟩ := recovers_normalize h hs hn
  obtain ⟨q1, q2⟩ := normalized_shape h hs e1 hn e3
  obtain ⟨r, c, y, hy, hpos⟩ := normalized_positive h hn e4
  have hmem : y ∈ p.flatten := (mem_flatten_iff_entry _ _).2 ⟨r, c, hy⟩
  obtain ⟨top, htop⟩ := maxList_some (l := p.flatten) (by intro h0; rw [h0] at hmem; cases hmem)
  obtain ⟨t1, t2⟩ := maxList_spec htop
  have htop0 : ¬ top ≤ 0 := not_le.2 (hpos.trans_le (t2 y hmem))
  have hc : ¬ (ax && !fig) = true := by cases ax <;> cases fig <;> simp_all
  have hlev : ∀ r c x, entry p r c = some x → 0 ≤ x ∧ x ≤ top := fun r c x hx =>
    ⟨normalized_nonneg hn e4 hx, t2 x ((mem_flatten_iff_entry _ _).2 ⟨r, c, hx⟩)⟩
  obtain ⟨l1, l2⟩ := levels_ends top
  have hfin : finites s'.power = some p := by rw [e3, finites_finM]
  rcases hp with rfl | rfl
  · refine ⟨s', ⟨frequencies, velocities, p, levels top, none⟩, ?_, e2, e3, rfl, rfl, e4, ⟨top, l1, l2, hlev⟩,
      fun _ => rfl, fun h => by simp at h⟩
    simp only [plotTransform, if_neg hc, e1, hfin, htop, if_neg htop0, if_true]
  · have hpne : p ≠ [] := by
      intro h0; rw [h0] at q1; exact h.rows_ne (List.length_eq_zero_iff.1 q1.symm)
    obtain ⟨out, o1, o2, o3⟩ := C65_peak velocities p nf hpne q2 (by omega)
    refine ⟨s', ⟨frequencies, velocities, p, levels top, some (frequencies, out)⟩, ?_, e2, e3, rfl, rfl, e4,
      ⟨top, l1, l2, hlev⟩, fun h => by simp at h, fun _ => ⟨out, rfl, o2, o3⟩⟩
    have o1' : findPeakPower velocities (p.map fun row => row.map fun x => ⟨x, 0⟩) "frequency-maximum" = .ok out := o1
    have hne : ¬ "frequency-maximum" = "none" := by decide
    simp only [plotTransform, if_neg hc, e1, hfin, htop, if_neg htop0, if_neg hne, o1']

private theorem use_step {orig : List (List ℚ)} {nf : ℕ} (h : Normalizable orig nf) (frequencies velocities : List ℚ)
    (hvel : velocities.length = orig.length) {s : PowerState} (hs : Recovers orig s) {u : Use} (hu : u.Documented) :
    ∃ s', use frequencies velocities s u = (s', .ok ()) ∧ Recovers orig s' := by
  cases u with
  | normalize how =>
    obtain ⟨s', p, e1, e2, -⟩ := recovers_normalize h hs hu
    exact ⟨s', e1, e2⟩
  | plot ax fig n peaks =>
    obtain ⟨s', img, e1, e2, -⟩ := plot_step h frequencies velocities hvel hs hu.1 hu.2.1 hu.2.2
    exact ⟨s', by simp only [use, e1], e2⟩

private theorem use_history {orig : List (List ℚ)} {nf : ℕ} (h : Normalizable orig nf) (frequencies velocities : List ℚ)
    (hvel : velocities.length = orig.length) : ∀ (uses : List Use) (s : PowerState), Recovers orig s →
      (∀ u ∈ uses, u.Documented) → ∃ s', runCalls (use frequencies velocities) s uses = (s', .ok ()) ∧ Recovers orig s' := by
  intro uses
  induction uses with
  | nil => intro s hs _; exact ⟨s, rfl, hs⟩
  | cons u uses ih =>
    intro s hs hu
    obtain ⟨s1, e1, e2⟩ := use_step h frequencies velocities hvel hs (hu u (by simp))
    obtain ⟨s2, e3, e4⟩ := ih s1 e2 (fun v hv => hu v (by simp [hv]))
    exact ⟨s2, by simp only [runCalls, e1, e3], e4⟩

/-- **C112**.  Whatever was plotted or normalized before, a plot shows the original power normalized by the requested
method, over the transform's own frequencies and velocities, with levels from zero to at least every value, and, if asked
for, for every frequency the velocity of the first largest value shown. -/
theorem C112_plot_shows_power (orig : List (List ℚ)) (nf : ℕ) (h : Normalizable orig nf)
    (frequencies velocities : List ℚ) (hvel : velocities.length = orig.length)
    (earlier : List Use) (he : ∀ u ∈ earlier, u.Documented) (ax fig : Bool) (hax : ax = true → fig = true)
    (normalization peaks : String) (hn : normalization ∈ normMethods)
    (hp : peaks = "none" ∨ peaks = "frequency-maximum") :
    ∃ s, runCalls (use frequencies velocities) (PowerState.new (finM orig)) earlier = (s, .ok ()) ∧
    ∃ s' img, plotTransform frequencies velocities s ax fig normalization peaks = (s', .ok img) ∧
      img.frequencies = frequencies ∧ img.velocities = velocities ∧ NormalizedBy normalization orig img.power ∧
      (∃ top, img.levels.head? = some 0 ∧ img.levels.getLast? = some top ∧
        ∀ r c x, entry img.power r c = some x → 0 ≤ x ∧ x ≤ top) ∧
      (peaks = "none" → img.peaks = none) ∧
      (peaks = "frequency-maximum" → ∃ picked, img.peaks = some (frequencies, picked) ∧ picked.length = nf ∧
        ∀ c, c < nf → ∃ i, FirstColumnMax img.power c i ∧ picked[c]? = velocities[i]?) := by
  obtain ⟨s, e1, e2⟩ := use_history h frequencies velocities hvel earlier _ (recovers_new orig) he
  obtain ⟨s', img, p1, -, -, p2⟩ := plot_step h frequencies velocities hvel e2 hn hp hax
  exact ⟨s, e1, s', img, p1, p2⟩

example : Normalizable [[2, 0], [-1, 3]] 2 := by
  refine ⟨by simp, by norm_num, by simp, ?_⟩
  intro c hc
  rcases (by omega : c = 0 ∨ c = 1) with rfl | rfl
  · exact ⟨0, 2, rfl, by norm_num⟩
  · exact ⟨1, 3, rfl, by norm_num⟩

example : (plotTransform [5, 10] [100, 200]
      (runAll (use [5, 10] [100, 200]) (PowerState.new (finM [[2, 0], [-1, 3]]))
        [.plot false false "absolute-maximum" "none", .normalize "frequency-maximum"]) true true
      "frequency-maximum" "frequency-maximum").2.toOption.map (fun i => (i.power, i.peaks)) =
    some ([[1, 0], [1 / 2, 1]], some ([5, 10], [100, 200])) := by decide +kernel

/-- **C113** fails: plotting changes the power of the transform that is plotted. -/
theorem C113_plot_changes_power_fails :
    ∃ (orig : List (List ℚ)) (s' : PowerState) (img : Image), Normalizable orig 1 ∧
      plotTransform [5] [100, 200] (PowerState.new (finM orig)) false false "frequency-maximum" "frequency-maximum" =
        (s', .ok img) ∧ s'.power ≠ (PowerState.new (finM orig)).power := by
  refine ⟨[[2], [1]], ⟨finM [[1], [1 / 2]], .perColumn [.fin 2]⟩,
    ⟨[5], [100, 200], [[1], [1 / 2]], levels 1, some ([5], [100])⟩, ⟨by simp, by norm_num, by simp, ?_⟩,
    by decide +kernel, by decide +kernel⟩
  intro c hc
  have : c = 0 := by omega
  subst this
  exact ⟨0, 2, rfl, by norm_num⟩

/-- **C113** fails: a plot refused because of its peak method has already normalized the transform. -/
theorem C113_refused_plot_fails :
    ∃ s' : PowerState, plotTransform [5] [100, 200] (PowerState.new (finM [[2], [1]])) false false "absolute-maximum"
        "maximum" = (s', .error .notImplementedError) ∧ s'.power ≠ (PowerState.new (finM [[2], [1]])).power :=
  ⟨⟨finM [[1], [1 / 2]], .scalar (.fin 2)⟩, by decide +kernel, by decide +kernel⟩

/-- **C113** (partial: axes without figure).  This refusal comes before any change. -/
theorem C113_axes_without_figure_partial (frequencies velocities : List ℚ) (s : PowerState) (n peaks : String) :
    plotTransform frequencies velocities s true false n peaks = (s, .error .valueError) := by
  simp [plotTransform]

/-- **C113** (partial: what plotting leaves).  After any plots and normalizations the magnitudes are still recovered by
`normalize(by="none")`. -/
theorem C113_magnitudes_kept_partial (orig : List (List ℚ)) (nf : ℕ) (h : Normalizable orig nf)
    (frequencies velocities : List ℚ) (hvel : velocities.length = orig.length)
    (earlier : List Use) (he : ∀ u ∈ earlier, u.Documented) :
    ∃ s, runCalls (use frequencies velocities) (PowerState.new (finM orig)) (earlier ++ [.normalize "none"]) =
      (s, .ok ()) ∧ s.power = orig.map fun row => row.map fun x => Fl.fin |x| := by
  obtain ⟨s, e1, X, h1, h2⟩ := use_history h frequencies velocities hvel earlier _ (recovers_new orig) he
  obtain ⟨e3, -⟩ := normalize_step s X (qAbs orig) nf h.good "none" (by simp [normMethods]) h1 h2
  refine ⟨⟨finM (qNorm "none" (qAbs orig)), qScale "none" (qAbs orig)⟩, ?_, ?_⟩
  · have : ∀ (l : List Use) (t : PowerState), runCalls (use frequencies velocities) t l = (s, .ok ()) →
        runCalls (use frequencies velocities) t (l ++ [.normalize "none"]) =
          (⟨finM (qNorm "none" (qAbs orig)), qScale "none" (qAbs orig)⟩, .ok ()) := by
      intro l
      induction l with
      | nil =>
        intro t ht
        simp only [runCalls, Prod.mk.injEq, and_true] at ht
        subst ht
        simp only [List.nil_append, runCalls, use, e3]
      | cons u l ih =>
        intro t ht
        simp only [List.cons_append, runCalls] at ht ⊢
        generalize use frequencies velocities t u = r at ht
        obtain ⟨t', o⟩ := r
        cases o with
        | error e => simp at ht
        | ok v => exact ih t' ht
    exact this earlier _ e1
  · simp [qNorm, finM, qAbs, Function.comp_def]

/-- **C113** (partial: the picked peaks).  For power that is never negative, plotting and normalizing do not change which
velocities `find_peak_power` returns. -/
theorem C113_peaks_kept_partial (orig : List (List ℚ)) (nf : ℕ) (h : Normalizable orig nf)
    (hnn : ∀ r c x, entry orig r c = some x → 0 ≤ x)
    (frequencies velocities : List ℚ) (hvel : velocities.length = orig.length)
    (earlier : List Use) (he : ∀ u ∈ earlier, u.Documented) (how : String) (hh : how ∈ normMethods) :
    ∃ s p, runCalls (use frequencies velocities) (PowerState.new (finM orig)) earlier = (s, .ok ()) ∧
      (WT.normalize s how).1.power = finM p ∧
      findPeakPower velocities (realPower p) "frequency-maximum" =
        findPeakPower velocities (realPower orig) "frequency-maximum" := by
  obtain ⟨s, e1, e2⟩ := use_history h frequencies velocities hvel earlier _ (recovers_new orig) he
  obtain ⟨s', p, n1, -, n3, n4⟩ := recovers_normalize h e2 hh
  obtain ⟨q1, q2⟩ := normalized_shape h e2 n1 hh n3
  refine ⟨s, p, e1, by rw [n1]; exact n3, ?_⟩
  have hpne : p ≠ [] := by
    intro h0; rw [h0] at q1; exact h.rows_ne (List.length_eq_zero_iff.1 q1.symm)
  obtain ⟨o1, a1, a2, a3⟩ := C65_peak velocities p nf hpne q2 (by omega)
  obtain ⟨o2, b1, b2, b3⟩ := C65_peak velocities orig nf h.rows_ne h.rect hvel
  rw [a1, b1]
  congr 1
  apply List.ext_getElem?
  intro c
  by_cases hc : c < nf
  · obtain ⟨i, hi, hi'⟩ := a3 c hc
    obtain ⟨j, hj, hj'⟩ := b3 c hc
    have hscale : ∃ k : ℚ, 0 < k ∧ ∀ r, entry p r c = (entry orig r c).map fun x => x * k := by
      simp only [normMethods, List.mem_cons, List.not_mem_nil, or_false] at hh
      obtain ⟨r0, x0, hx0, hx0'⟩ := h.nonzero c hc
      have hx0p : 0 < |x0| := abs_pos.2 hx0'
      rcases hh with rfl | rfl | rfl
      · refine ⟨1, one_pos, fun r => ?_⟩
        rcases n4 r c with ⟨u, v⟩ | ⟨x, y, hx, hy, u, -⟩
        · rw [u, v]; rfl
        · rw [hx, hy, u rfl, abs_of_nonneg (hnn r c x hx)]; simp
      · rcases n4 r0 c with ⟨u, -⟩ | ⟨x, y, hx, hy, -, u, -⟩
        · rw [u] at hx0; cases hx0
        · obtain ⟨M, hM, -⟩ := u rfl
          have hMp : 0 < M := hx0p.trans_le (hM.2 ⟨r0, c, x0, hx0, rfl⟩)
          refine ⟨1 / M, one_div_pos.2 hMp, fun r => ?_⟩
          rcases n4 r c with ⟨u, v⟩ | ⟨x, y, hx, hy, -, u, -⟩
          · rw [u, v]; rfl
          · obtain ⟨M', hM', rfl⟩ := u rfl
            rw [hx, hy, hM'.unique hM, abs_of_nonneg (hnn r c x hx)]
            simp [div_eq_mul_inv]
      · rcases n4 r0 c with ⟨u, -⟩ | ⟨x, y, hx, hy, -, -, u⟩
        · rw [u] at hx0; cases hx0
        · obtain ⟨M, hM, -⟩ := u rfl
          have hMp : 0 < M := hx0p.trans_le (hM.2 ⟨r0, x0, hx0, rfl⟩)
          refine ⟨1 / M, one_div_pos.2 hMp, fun r => ?_⟩
          rcases n4 r c with ⟨u, v⟩ | ⟨x, y, hx, hy, -, -, u⟩
          · rw [u, v]; rfl
          · obtain ⟨M', hM', rfl⟩ := u rfl
            rw [hx, hy, hM'.unique hM, abs_of_nonneg (hnn r c x hx)]
            simp [div_eq_mul_inv]
    obtain ⟨k, hk, hkr⟩ := hscale
    obtain ⟨v, v1, v2, v3⟩ := hi
    obtain ⟨w, w1, w2, w3⟩ := hj
    change entry p i c = some v at v1
    change entry orig j c = some w at w1
    rw [hkr i, Option.map_eq_some_iff] at v1
    obtain ⟨x, hx, rfl⟩ := v1
    have hij : i = j := by
      rcases lt_trichotomy i j with hlt | heq | hgt
      · have h1 := w3 i x hlt hx
        have h2 := v2 j (w * k) (by change entry p j c = _; rw [hkr j, w1]; rfl)
        exact absurd (le_of_mul_le_mul_right h2 hk) (not_le.2 h1)
      · exact heq
      · have h1 := v3 j (w * k) hgt (by change entry p j c = _; rw [hkr j, w1]; rfl)
        have h2 := w2 i x hx
        exact absurd (lt_of_mul_lt_mul_right h1 hk.le) (not_lt.2 h2)
    rw [hi', hj', hij]
  · rw [List.getElem?_eq_none (by omega), List.getElem?_eq_none (by omega)]

example : ∀ r c x, entry [[2, 0], [1, 3]] r c = some x → 0 ≤ x := by
  intro r c x h
  have : x ∈ ([[2, 0], [1, 3]] : List (List ℚ)).flatten := (mem_flatten_iff_entry _ _).2 ⟨r, c, h⟩
  simp at this
  rcases this with rfl | rfl | rfl | rfl <;> norm_num

end Verif.Props
