import Verif.Props.Recovery
import Verif.Props.OneAxis
import Verif.Props.StatBounds
import Verif.Props.Suite

/-!
# C166: from the shots of a survey to the statistics of its dispersion curves
-/

namespace Verif.Props
open Verif WT Spec Workflow Mat

/-! ## What is meant -/

/-- `p` are the picks of the transform `t`: one point per frequency, at the trial velocity of largest power; `num` turns
the velocity into the number which is stored. -/
def PicksOf (num : ℝ → ℚ) (t : Transform) (p : Peaks) : Prop :=
  ∃ vs id, Builtin.findPeakPower t "frequency-maximum" = .ok vs ∧
    Peaks.init ⟨[t.frequencies.length], t.frequencies.map Fl.fin⟩ ⟨[vs.length], vs.map fun x => .fin (num x)⟩ id [] = .ok p

/-- Every frequency between `lo` and `hi` at which `t` was picked shows the velocity `v`. -/
def ShowsBetween (t : Transform) (v lo hi : ℚ) : Prop :=
  ∃ vs, Builtin.findPeakPower t "frequency-maximum" = .ok vs ∧ vs.length = t.frequencies.length ∧
    ∀ (j : ℕ) (f : ℚ), t.frequencies[j]? = some f → lo ≤ f → f ≤ hi → vs[j]? = some (v : ℝ)

/-- The location lies between two of the frequencies from `lo` to `hi`. -/
def Covers (t : Transform) (lo hi x : ℚ) : Prop :=
  (∃ f ∈ t.frequencies, lo ≤ f ∧ f ≤ hi ∧ f ≤ x) ∧ ∃ f ∈ t.frequencies, lo ≤ f ∧ f ≤ hi ∧ x ≤ f

/-! ## Statistics of complete data -/

theorem keepRows_full (e : ℕ → ℕ → Option ℚ) (percent : ℚ) (count : ℕ) (R C : List ℕ)
    (hall : ∀ r ∈ R, ∀ c ∈ C, (e r c).isSome) (hp : percent ≤ 1) (hc : count ≤ C.length) : keepRows e percent count R C = R := by
  unfold keepRows
  split_ifs with h
  · rfl
  · push Not at h
    refine List.filter_eq_self.2 fun r hr => ?_
    have hf : present (fun c => e r c) C = C.length := by
      unfold present
      rw [List.filter_eq_self.2]
      intro c hc
      exact hall r hr c hc
    have hpos : (C.length : ℚ) ≠ 0 := by
      simpa using h.2
    simp only [Enough, hf, decide_eq_true_eq]
    exact ⟨hc, by rw [div_self hpos]; exact hp⟩

theorem keptData_full (e : ℕ → ℕ → Option ℚ) (nr nc count : ℕ) (hall : ∀ r < nr, ∀ c < nc, (e r c).isSome)
    (hc : count ≤ nr) : keptData e nr nc (1 / 100) (1 / 100) count = (List.range nr, List.range nc) := by
  have h1 : keepCols e (1 / 100) count (List.range nr) (List.range nc) = List.range nc :=
    keepRows_full _ _ _ _ _ (fun r hr c hc => hall c (List.mem_range.1 hc) r (List.mem_range.1 hr)) (by norm_num) (by simpa)
  have h2 : keepRows e (1 / 100) 0 (List.range nr) (List.range nc) = List.range nr :=
    keepRows_full _ _ _ _ _ (fun r hr c hc => hall r (List.mem_range.1 hr) c (List.mem_range.1 hc)) (by norm_num) (by simp)
  unfold keptData
  simp only [h1, h2]
  split_ifs <;> rfl

/-- All members have values at all locations, on one line: nothing is dropped. -/
theorem statistics_constant (s : Suite) (xtype ytype : String) (xx : List ℚ) (count : ℕ) (v : ℚ) (h3 : 3 ≤ s.peaks.length)
    (hcount : count ≤ s.peaks.length)
    (hs : ∀ p ∈ s.peaks, ∃ xs ys, PointsOf p xtype ytype xs ys ∧ ((xs.zip ys).map fun q => q.1).Nodup ∧
      (∀ q ∈ xs.zip ys, q.2 = v) ∧ ∀ x ∈ xx, (∃ q ∈ xs.zip ys, q.1 ≤ x) ∧ ∃ q ∈ xs.zip ys, x ≤ q.1) :
    s.statistics xtype ytype xx count = .ok (xx, xx.map fun _ => some v, xx.map fun _ => some 0) := by
  have hd : ∀ p ∈ s.peaks, ∀ xs ys, PointsOf p xtype ytype xs ys → ((xs.zip ys).map fun q => q.1).Nodup := by
    intro p hp xs ys hpt
    obtain ⟨xs', ys', h1, h2, -⟩ := hs p hp
    obtain ⟨rfl, rfl⟩ := pointsOf_unique _ _ _ _ _ _ _ hpt h1
    exact h2
  have hrows : ∀ ps : List Peaks, (∀ p ∈ ps, p ∈ s.peaks) → ∃ rows, Suite.arrayRows xtype ytype xx ps = .ok rows := by
    intro ps
    induction ps with
    | nil => intro _; exact ⟨[], rfl⟩
    | cons p ps ih =>
      intro hps
      obtain ⟨rows, hr⟩ := ih fun q hq => hps q (List.mem_cons_of_mem _ hq)
      obtain ⟨xs, ys, ⟨h1, h2⟩, -⟩ := hs p (hps p List.mem_cons_self)
      have e1 := (numbers_spec (xs.map Fl.fin) xs).2 rfl
      have e2 := (numbers_spec (ys.map Fl.fin) ys).2 rfl
      exact ⟨xx.map (interp (xs.zip ys)) :: rows, by simp only [Suite.arrayRows, Suite.arrayRow, h1, h2, e1, e2, hr]⟩
  obtain ⟨rows, hrows⟩ := hrows s.peaks fun _ h => h
  have hm : s.toArray xtype ytype xx = .ok (xx, ⟨xx.length, rows⟩) := by
    unfold Suite.toArray
    rw [hrows]
  obtain ⟨R, C, mean, std, e1, -, -, e4, l1, l2, hv⟩ := (C54_statistics s xtype ytype xx count).2 h3 xx _ hm
  have hfull : ∀ r < s.peaks.length, ∀ c < xx.length, entry rows r c = some v := by
    intro r hr c hc
    obtain ⟨_, _, hrow⟩ := C51_resampling s xtype ytype xx xx _ hm
    obtain ⟨xs, ys, a1, a2, row, b1, -, b2⟩ := hrow r s.peaks[r] (by simp [hr])
    obtain ⟨xs', ys', h1, h2, h4, h5⟩ := hs _ (List.getElem_mem hr)
    obtain ⟨rfl, rfl⟩ := pointsOf_unique _ _ _ _ _ _ _ ⟨a1, a2⟩ h1
    obtain ⟨w, c1, hres⟩ := b2 h2 c xx[c] (by simp [hc])
    have hw : w.isSome := by
      rcases hw : w with _ | y
      · exact absurd (h5 _ (List.getElem_mem hc)) (hres.missing.1 hw)
      · rfl
    obtain ⟨y, rfl⟩ := Option.isSome_iff_exists.1 hw
    have hy : y = v := by
      refine le_antisymm ?_ ?_
      · exact resampled_below Set.univ (fun _ => v) (concaveOn_const _ convex_univ) _
          (fun q hq => ⟨trivial, (h4 q hq).le⟩) _ y hres
      · exact resampled_above Set.univ (fun _ => v) (convexOn_const _ convex_univ) _
          (fun q hq => ⟨trivial, (h4 q hq).ge⟩) _ y hres
    simp only [entry, List.getD_eq_getElem?_getD, b1, Option.getD_some, c1, hy]
  rw [keptData_full _ _ _ _ (fun r hr c hc => by rw [hfull r hr c hc]; rfl) hcount] at e4
  simp only [Prod.mk.injEq] at e4
  obtain ⟨rfl, rfl⟩ := e4
  have hloc : ((List.range xx.length).map fun c => xx.getD c 0) = xx := by
    apply List.ext_getElem
    · simp
    · intro i h1 h2
      simp [List.getD_eq_getElem?_getD, h2]
  rw [e1, hloc]
  have hval : ∀ k < xx.length, mean[k]? = some (some v) ∧ std[k]? = some (some 0) := by
    intro k hk
    have hk' : k < mean.length := by rw [l1]; simpa
    have hk'' : k < std.length := by rw [l2]; simpa
    obtain ⟨m1, m2⟩ := hv k k (by simp [hk])
    have hvs : (List.range s.peaks.length).filterMap (fun r => entry rows r k) = List.replicate s.peaks.length v := by
      have : ∀ l : List ℕ, (∀ r ∈ l, r < s.peaks.length) →
          l.filterMap (fun r => entry rows r k) = List.replicate l.length v := by
        intro l
        induction l with
        | nil => intro _; rfl
        | cons r l ih =>
          intro hl
          rw [List.filterMap_cons, hfull r (hl r List.mem_cons_self) k hk, ih fun r hr => hl r (List.mem_cons_of_mem _ hr)]
          rfl
      have := this (List.range s.peaks.length) fun r hr => List.mem_range.1 hr
      simpa using this
    simp only [hvs] at m1 m2
    rw [List.getD_eq_getElem?_getD, List.getElem?_eq_getElem hk', Option.getD_some] at m1
    rw [List.getD_eq_getElem?_getD, List.getElem?_eq_getElem hk'', Option.getD_some] at m2
    rw [List.getElem?_eq_getElem hk', List.getElem?_eq_getElem hk'']
    have hb : ∀ w ∈ List.replicate s.peaks.length v, v ≤ w ∧ w ≤ v := by
      intro w hw
      rw [(List.mem_replicate.1 hw).2]
      exact ⟨le_rfl, le_rfl⟩
    constructor
    · rcases m1' : mean[k] with _ | q
      · rw [m1'] at m1
        rcases m1 with ⟨m1, -⟩ | ⟨-, q, m1, -⟩
        · have := congrArg List.length m1
          simp at this
          rw [this] at h3
          simp at h3
        · cases m1
      · rw [m1'] at m1
        obtain ⟨g1, g2⟩ := mean_between _ v v q m1 hb
        rw [le_antisymm g2 g1]
    · rcases m2' : std[k] with _ | sd
      · rw [m2'] at m2
        rcases m2 with ⟨m2, -⟩ | ⟨-, _, _, -, m2, -⟩
        · simp at m2; omega
        · cases m2
      · rw [m2'] at m2
        obtain ⟨g1, g2⟩ := std_between _ v v sd m2 hb
        rw [sub_self] at g2
        have : sd ^ 2 = 0 := le_antisymm (by linarith) (sq_nonneg sd)
        rw [pow_eq_zero_iff (by norm_num)] at this
        rw [this]
  congr 3
  · apply List.ext_getElem
    · rw [l1]; simp
    · intro i h1 h2
      have hi : i < xx.length := by simpa using h2
      have := (hval i hi).1
      rw [List.getElem?_eq_getElem h1] at this
      simpa using this
  · apply List.ext_getElem
    · rw [l2]; simp
    · intro i h1 h2
      have hi : i < xx.length := by simpa using h2
      have := (hval i hi).2
      rw [List.getElem?_eq_getElem h1] at this
      simpa using this

/-! ## Picks after the selection of frequencies -/

/-- The points left of picks when frequencies outside of the limits are rejected. -/
theorem points_within (fs vs : List ℚ) (id : String) (lo hi : ℚ) (hl : fs.length = vs.length) (p : Peaks)
    (hp : Peaks.init ⟨[fs.length], fs.map Fl.fin⟩ ⟨[vs.length], vs.map Fl.fin⟩ id [] = .ok p) :
    (p.rejectLimits "frequency" (some (.fin lo)) (some (.fin hi))).2 = .ok () ∧
    PointsOf (p.rejectLimits "frequency" (some (.fin lo)) (some (.fin hi))).1 "frequency" "velocity"
      (((fs.zip vs).filter fun q => decide (lo ≤ q.1 ∧ q.1 ≤ hi)).map fun q => q.1)
      (((fs.zip vs).filter fun q => decide (lo ≤ q.1 ∧ q.1 ≤ hi)).map fun q => q.2) := by
  simp only [Peaks.init, List.any_nil, Bool.false_eq_true, if_false, Except.ok.injEq] at hp
  subst hp
  have key : ∀ (fs vs : List ℚ), fs.length = vs.length →
      List.zipWith (fun v m => if m then false else v) ((vs.map Fl.fin).map fun v => !v.isNan)
        (List.zipWith (Peaks.limitsMark (some (.fin lo)) (some (.fin hi))) (fs.map Fl.fin) ((vs.map Fl.fin).map fun v => !v.isNan)) =
      fs.map fun f => decide (lo ≤ f ∧ f ≤ hi) := by
    intro fs
    induction fs with
    | nil => intro vs h; simp
    | cons f fs ih =>
      intro vs h
      rcases vs with _ | ⟨v, vs⟩
      · simp at h
      have := ih vs (by simpa using h)
      simp only [List.map_cons, List.zipWith_cons_cons] at this ⊢
      rw [this]
      congr 1
      simp only [Peaks.limitsMark, Fl.isNan, Fl.lt, Bool.not_false, if_true, Bool.true_and]
      by_cases h1 : hi < f <;> by_cases h2 : f < lo <;> simp [h1, h2, not_le.2, not_lt.1]
  have sel : ∀ (fs vs : List ℚ), fs.length = vs.length →
      (((fs.map Fl.fin).zip (fs.map fun f => decide (lo ≤ f ∧ f ≤ hi))).filter fun q => q.2).map (fun q => q.1) =
        (((fs.zip vs).filter fun q => decide (lo ≤ q.1 ∧ q.1 ≤ hi)).map fun q => q.1).map Fl.fin ∧
      (((vs.map Fl.fin).zip (fs.map fun f => decide (lo ≤ f ∧ f ≤ hi))).filter fun q => q.2).map (fun q => q.1) =
        (((fs.zip vs).filter fun q => decide (lo ≤ q.1 ∧ q.1 ≤ hi)).map fun q => q.2).map Fl.fin := by
    intro fs
    induction fs with
    | nil => intro vs h; simp
    | cons f fs ih =>
      intro vs h
      rcases vs with _ | ⟨v, vs⟩
      · simp at h
      obtain ⟨i1, i2⟩ := ih vs (by simpa using h)
      simp only [List.map_cons, List.zip_cons_cons, List.filter_cons]
      by_cases hc : lo ≤ f ∧ f ≤ hi
      · simp only [hc, and_self, decide_true, if_true, List.map_cons, i1, i2]
      · simp only [hc, decide_false, Bool.false_eq_true, if_false, i1, i2]
        exact ⟨trivial, trivial⟩
  refine ⟨rfl, ?_⟩
  simp only [Peaks.rejectLimits, Peaks.raw, if_true, Peaks.reject, Nd.map, key fs vs hl]
  constructor
  · simp only [Peaks.simplify, Peaks.raw, Peaks.get, Peaks.stored, Nd.select, if_true, List.mem_cons, true_or, (sel fs vs hl).1]
  · simp only [Peaks.simplify, Peaks.raw, Peaks.get, Peaks.stored, Nd.select, if_true, List.mem_cons, true_or, or_true,
      (sel fs vs hl).2, show ("velocity" : String) ≠ "frequency" by decide, if_false]

/-- **C166** (picks).  The picks of three or more transforms which show the velocity `v` at the frequencies from `lo` to
`hi` are collected in a suite and the frequencies outside of these limits rejected.  Then the mean at every location
inside the frequencies of each of them is `v` and the standard deviation zero. -/
theorem C166_picks (num : ℝ → ℚ) (v lo hi : ℚ) (hnum : num v = v) (ps : List Peaks) (s : Suite)
    (hs : Suite.fromPeaks ps = .ok s) (h3 : 3 ≤ ps.length) (xx : List ℚ) (count : ℕ) (hcount : count ≤ ps.length)
    (hp : ∀ p ∈ ps, ∃ t, PicksOf num t p ∧ ShowsBetween t v lo hi ∧
      (t.frequencies.filter fun f => decide (lo ≤ f ∧ f ≤ hi)).Nodup ∧ ∀ x ∈ xx, Covers t lo hi x) :
    ∃ s', s.rejectLimits "frequency" (some (.fin lo)) (some (.fin hi)) = (s', .ok ()) ∧
      s'.statistics "frequency" "velocity" xx count = .ok (xx, xx.map fun _ => some v, xx.map fun _ => some 0) := by
  have hsp : s.peaks = ps := by
    obtain ⟨c1, c2, c3⟩ := C45_from_peaks ps
    by_cases hn : (ps.map Peaks.identifier).Nodup
    · rw [c2 (by rintro rfl; simp at h3) hn] at hs
      cases hs; rfl
    · rw [c3 hn] at hs; cases hs
  have hpts : ∀ p ∈ ps, (p.rejectLimits "frequency" (some (.fin lo)) (some (.fin hi))).2 = .ok () ∧
      ∃ xs ys, PointsOf (p.rejectLimits "frequency" (some (.fin lo)) (some (.fin hi))).1 "frequency" "velocity" xs ys ∧
        ((xs.zip ys).map fun q => q.1).Nodup ∧ (∀ q ∈ xs.zip ys, q.2 = v) ∧
        ∀ x ∈ xx, (∃ q ∈ xs.zip ys, q.1 ≤ x) ∧ ∃ q ∈ xs.zip ys, x ≤ q.1 := by
    intro p hpm
    obtain ⟨t, ⟨vs, id, hv, hi'⟩, ⟨vs', hv', hlen, hshow⟩, hnd, hcov⟩ := hp p hpm
    rw [hv] at hv'
    cases hv'
    obtain ⟨g1, g2⟩ := points_within t.frequencies (vs.map num) id lo hi (by simp [hlen]) p (by
      rw [List.length_map, List.map_map]; exact hi')
    have hz : ∀ l : List (ℚ × ℚ), (l.map fun q => q.1).zip (l.map fun q => q.2) = l := by
      intro l
      induction l with
      | nil => rfl
      | cons a l ih => simp [ih]
    have hfst : ((t.frequencies.zip (vs.map num)).filter fun q => decide (lo ≤ q.1 ∧ q.1 ≤ hi)).map (fun q => q.1) =
        t.frequencies.filter fun f => decide (lo ≤ f ∧ f ≤ hi) := by
      have : (t.frequencies.zip (vs.map num)).map (fun q => q.1) = t.frequencies :=
        List.map_fst_zip (by simp [hlen])
      conv_rhs => rw [← this]
      rw [List.filter_map]
      rfl
    refine ⟨g1, _, _, g2, ?_, ?_, ?_⟩
    · rw [hz, hfst]; exact hnd
    · rw [hz]
      intro q hq
      obtain ⟨hq, hc⟩ := List.mem_filter.1 hq
      simp only [decide_eq_true_eq] at hc
      obtain ⟨j, hj⟩ := List.mem_iff_getElem?.1 hq
      rw [List.getElem?_zip_eq_some] at hj
      obtain ⟨j1, j2⟩ := hj
      have := hshow j q.1 j1 hc.1 hc.2
      rw [List.getElem?_map, this] at j2
      simp only [Option.map_some, Option.some.injEq] at j2
      rw [← j2, hnum]
    · rw [hz]
      have hin : ∀ f ∈ t.frequencies, lo ≤ f → f ≤ hi →
          ∃ q ∈ (t.frequencies.zip (vs.map num)).filter fun q => decide (lo ≤ q.1 ∧ q.1 ≤ hi), q.1 = f := by
        intro f hf h1 h2
        have : f ∈ t.frequencies.filter fun f => decide (lo ≤ f ∧ f ≤ hi) :=
          List.mem_filter.2 ⟨hf, by simp [h1, h2]⟩
        rw [← hfst] at this
        obtain ⟨q, hq, rfl⟩ := List.mem_map.1 this
        exact ⟨q, hq, rfl⟩
      intro x hx
      obtain ⟨⟨f, f1, f2, f3, f4⟩, f', f1', f2', f3', f4'⟩ := hcov x hx
      obtain ⟨q, hq, rfl⟩ := hin f f1 f2 f3
      obtain ⟨q', hq', rfl⟩ := hin f' f1' f2' f3'
      exact ⟨⟨q, hq, f4⟩, q', hq', f4'⟩
  have hfe := forEach_ok (fun p => p.rejectLimits "frequency" (some (.fin lo)) (some (.fin hi))) s.peaks (by
    rw [hsp]; exact fun p hp => (hpts p hp).1)
  refine ⟨_, by unfold Suite.rejectLimits; rw [hfe], ?_⟩
  rw [hsp]
  refine statistics_constant _ _ _ _ _ v (by simpa using h3) (by simpa using hcount) ?_
  intro p' hp'
  obtain ⟨p, hp, rfl⟩ := List.mem_map.1 hp'
  exact (hpts p hp).2

/-! ## Whole runs -/

/-- Positive frequencies of a transform are all different. -/
theorem frequencies_nodup {ρ : ATS} {set : Settings} {t : Transform} (h : axisOf ρ set = .ok t.frequencies) {lo hi : ℚ}
    (hlo : 0 < lo) : (t.frequencies.filter fun f => decide (lo ≤ f ∧ f ≤ hi)).Nodup := by
  unfold axisOf at h
  rcases hk : WT.keepIds (WT.binFrequencies ρ.nsamples ρ.dfInternal) set.fmin set.fmax ρ.multiple with e | ids
  · rw [hk] at h; cases h
  rw [hk] at h
  simp only [Except.map, Except.ok.injEq] at h
  have hv := keepIds_valid hk
  have hnd : ids.Nodup := by
    unfold WT.keepIds at hk
    split at hk
    · split_ifs at hk with hm
      cases hk
      exact (pyRange_sorted _ _ _ (Nat.pos_of_ne_zero hm)).imp fun h => h.ne
    · cases hk
  have hf : t.frequencies = ids.map fun (k : ℕ) => (k : ℚ) * ρ.dfInternal := by
    rw [← h]
    refine List.map_congr_left fun k hk => ?_
    have := hv k hk
    simp only [WT.binFrequencies, List.length_map, List.length_range] at this
    simp [WT.binFrequencies, List.getD_eq_getElem?_getD, this]
  by_cases hd : ρ.dfInternal = 0
  · have : t.frequencies.filter (fun f => decide (lo ≤ f ∧ f ≤ hi)) = [] := by
      rw [List.filter_eq_nil_iff]
      intro f hfm
      rw [hf, hd] at hfm
      obtain ⟨k, -, rfl⟩ := List.mem_map.1 hfm
      simp [not_le.2 hlo]
    rw [this]
    exact List.nodup_nil
  · refine List.Nodup.filter _ ?_
    rw [hf]
    refine List.Nodup.map ?_ hnd
    intro a b hab
    have := mul_right_cancel₀ hd hab
    exact_mod_cast this

/-- The transforms other than the slant stack lie on the frequency axis of the records. -/
theorem plain_onAxis {hankel : ℝ → ℂ} {geom : ℚ → ℚ → ℕ → List ℚ} {a : Arr} {set : Settings} {t : Transform}
    (hne : set.transform ≠ "slantstack") (ht : ∃ tr, (Builtin.transforms hankel geom).createClass set.transform = .ok tr ∧
      tr a set = .ok t) : ∃ s ∈ a.sensors, OnAxis s.ts set t := by
  obtain ⟨tr, h1, h2⟩ := ht
  have hb : (set.transform == "slantstack") = false := by simpa using hne
  have h1' : (Builtin.transforms hankel (fun _ _ n => List.replicate n 0)).createClass set.transform = .ok tr := by
    rw [← h1]
    simp only [Registry.createClass, Builtin.transforms, List.lookup, hb]
  obtain ⟨s, hs, h, -⟩ := builtin_onAxis (by simp) h1' h2
  exact ⟨s, hs, h⟩

/-- A shot of the survey, recorded in the files `f`, was processed by a time-domain run with the settings `set`, and the
peaks `p` were picked from the transform of the run.  The ground carries a pulse at the velocity `v`, which is one of the
trial velocities; at the frequencies of the transform between `lo` and `hi` the pulse has energy and the array is
short enough not to confuse the trial velocities. -/
structure CleanShot (env : Env) (num : ℝ → ℚ) (v lo hi : ℚ) (p : Peaks) (set : Settings) (f : Fnames) (raw : Arr) (r : Result)
    (dt : ℚ) (lead : ℤ) (pulse : List ℚ) (n : ℕ) : Prop where
  transform : set.transform = "phaseshift" ∨ set.transform = "fk" ∨
    set.transform = "fdbf" ∧ (Builtin.specific set.fdbf).get "steering" ≠ some "cylindrical"
  unmuted : set.muteApply = false
  recorded : fromFiles env f = .ok raw
  consistent : Consistent raw
  outside : (∀ s ∈ raw.sensors, raw.source.x ≤ s.x) ∨ (∀ s ∈ raw.sensors, s.x < raw.source.x)
  step : 0 < dt
  wave : pulse ≠ []
  carried : CarriesPulse ⟨raw.sensors.map fun s => { s with ts := { s.ts with amp := env.detrend s.ts.amp } }, raw.source⟩
    v dt lead pulse n
  kept : set.trimApply = true → ∀ s ∈ raw.sensors, PulseWithin raw.source v lead pulse set.trimBegin set.trimEnd s
  run : timeDomain env set f = .ok r
  tried : (v : ℝ) ∈ r.transform.velocities
  positive : ∀ w ∈ r.transform.velocities, 0 < w
  band : ∀ x ∈ r.transform.frequencies, lo ≤ x → x ≤ hi →
    pulseSpectrum pulse (x * dt) ≠ 0 ∧ ResolvesAway r.array x r.transform.velocities
  picked : PicksOf num r.transform p

/-- **C166**.  Three or more shots over ground of velocity `v`, each processed by a time-domain run with settings of its
own, their picks collected in a suite and limited to the frequencies from `lo` to `hi`: at every location inside the
frequencies of each run, `statistics` gives the mean `v` and the standard deviation zero. -/
theorem C166_survey (env : Env) (hankel : ℝ → ℂ) (geom : ℚ → ℚ → ℕ → List ℚ)
    (henv : env.transforms = Builtin.transforms hankel geom) (hd : ∀ l, (env.detrend l).length = l.length)
    (num : ℝ → ℚ) (v lo hi : ℚ) (hnum : num v = v) (hlo : 0 < lo) (ps : List Peaks) (s : Suite)
    (hs : Suite.fromPeaks ps = .ok s) (h3 : 3 ≤ ps.length) (xx : List ℚ) (count : ℕ) (hcount : count ≤ ps.length)
    (hshots : ∀ p ∈ ps, ∃ set f raw r dt lead pulse n, CleanShot env num v lo hi p set f raw r dt lead pulse n ∧
      ∀ x ∈ xx, Covers r.transform lo hi x) :
    ∃ s', s.rejectLimits "frequency" (some (.fin lo)) (some (.fin hi)) = (s', .ok ()) ∧
      s'.statistics "frequency" "velocity" xx count = .ok (xx, xx.map fun _ => some v, xx.map fun _ => some 0) := by
  refine C166_picks num v lo hi hnum ps s hs h3 xx count hcount fun p hp => ?_
  obtain ⟨set, f, raw, r, dt, lead, pulse, n, hc, hcov⟩ := hshots p hp
  refine ⟨r.transform, hc.picked, ?_, ?_, hcov⟩
  · obtain ⟨vs, h1, h2, h4⟩ := C114_run_recovers env hankel geom set f raw r henv hd hc.transform hc.unmuted hc.recorded
      hc.consistent hc.outside v dt lead pulse n hc.step hc.wave hc.carried hc.kept hc.run hc.tried hc.positive
    refine ⟨vs, h1, h2, fun j x hj hx hx' => ?_⟩
    obtain ⟨b1, b2⟩ := hc.band x (List.mem_of_getElem? hj) hx hx'
    exact h4 j x hj (lt_of_lt_of_le hlo hx) b1 b2
  · obtain ⟨_, _, _, _, _, -, -, -, ⟨tr, ht1, ht2⟩, -⟩ := C76_steps _ _ _ _ hc.run
    rw [henv] at ht1
    obtain ⟨ρ, -, hax⟩ := plain_onAxis (by rcases hc.transform with e | e | e <;> simp [e]) ⟨tr, ht1, ht2⟩
    exact frequencies_nodup hax.1 hlo

/-! ## A survey -/

theorem survey_returns : ∃ r, timeDomain pulseEnv (pulseSet "phaseshift") (.one "a") = .ok r ∧ r.array = pulsePadded ∧
    r.transform.frequencies = [125 / 2, 125] ∧ r.transform.velocities = [2000, 4000] := by
  obtain ⟨t, ht, hf, hv⟩ := pulse_transform (tr := "phaseshift") (.inl rfl)
  have hraw : fromFiles pulseEnv (.one "a") = .ok pulseArr := by decide +kernel
  have hpre : Spec.Preprocessed pulseEnv (pulseSet "phaseshift") none (none, none) pulseArr pulseArr pulseArr pulseArr
      pulseArr pulsePadded := by
    refine ⟨?_, rfl, rfl, rfl, rfl, ?_⟩
    · show trimOffsetsFl pulseArr 0 .pinf = _
      decide +kernel
    · show Arr.zeroPad pulseArr (125 / 2) = _
      decide +kernel
  obtain ⟨r, hr, ea, et, -⟩ := C76_run_returns pulseEnv (pulseSet "phaseshift") (.one "a") pulseArr pulseArr pulseArr pulseArr
    pulseArr pulsePadded (none, none) t hraw (by decide) (by
      rintro ⟨p, q, h1, h2, h3, h4⟩
      cases h1
      exact absurd h3 (by decide +kernel)) hpre (by intro h; cases h) ht none (fun _ => rfl) (by intro h; cases h)
  exact ⟨r, hr, ea, by rw [et, hf], by rw [et, hv]⟩

open Classical in
/-- Whole numbers are stored exactly. -/
noncomputable def wholeNumber (x : ℝ) : ℚ := ⌊x⌋

/-- The hypotheses: three shots over ground of 2000 m/s. -/
example : ∃ ps s, Suite.fromPeaks ps = .ok s ∧ ps.length = 3 ∧ wholeNumber ((2000 : ℚ) : ℝ) = 2000 ∧
    ∀ p ∈ ps, ∃ set f raw r dt lead pulse n, CleanShot pulseEnv wholeNumber 2000 60 130 p set f raw r dt lead pulse n ∧
      ∀ x ∈ [70, (100 : ℚ)], Covers r.transform 60 130 x := by
  obtain ⟨r, hr, ea, hf, hv⟩ := survey_returns
  have hraw : fromFiles pulseEnv (.one "a") = .ok pulseArr := by decide +kernel
  have hres : ∀ x ∈ r.transform.frequencies, ResolvesAway r.array x r.transform.velocities := by
    rw [hf, ea, hv]
    intro x hx
    have hx : x ≤ 125 := by
      simp only [List.mem_cons, List.not_mem_nil, or_false] at hx
      rcases hx with rfl | rfl <;> norm_num
    refine ⟨_, List.mem_cons_self, _, List.mem_cons_of_mem _ List.mem_cons_self, by decide +kernel, by decide +kernel,
      by decide +kernel, ?_⟩
    have hf1 : (x : ℝ) ≤ 125 := by exact_mod_cast hx
    intro w hw
    simp only [List.mem_cons, List.not_mem_nil, or_false] at hw
    simp only
    rcases hw with rfl | rfl <;> norm_num <;> linarith
  have hpos : ∀ w ∈ r.transform.velocities, 0 < w := by
    rw [hv]; intro w hw; simp at hw; rcases hw with rfl | rfl <;> norm_num
  obtain ⟨vs, h1, -, -⟩ := C114_run_recovers pulseEnv (fun _ => 0) (fun _ _ _ => []) (pulseSet "phaseshift") (.one "a") pulseArr r
    rfl (fun _ => rfl) (.inl rfl) rfl hraw (by unfold Consistent SameMeta; decide +kernel)
    (.inl (by decide +kernel)) 2000 (1 / 1000) 0 [1] 8 (by norm_num)
    (by decide) pulse_carried (by intro h; cases h) hr (by rw [hv]; simp) hpos
  let mk : String → Peaks := fun id =>
    ⟨id, ⟨[r.transform.frequencies.length], r.transform.frequencies.map Fl.fin⟩,
      ⟨[vs.length], vs.map fun x => .fin (wholeNumber x)⟩, [],
      ⟨[vs.length], (vs.map fun x => Fl.fin (wholeNumber x)).map fun v => !v.isNan⟩⟩
  have hmk : ∀ id, CleanShot pulseEnv wholeNumber 2000 60 130 (mk id) (pulseSet "phaseshift") (.one "a") pulseArr r
      (1 / 1000) 0 [1] 8 := fun id =>
    ⟨.inl rfl, rfl, hraw, by unfold Consistent SameMeta; decide +kernel, .inl (by decide +kernel), by norm_num, by decide,
      pulse_carried, (by intro h; cases h), hr, by rw [hv]; simp, hpos,
      fun x hx _ _ => ⟨by simp [pulseSpectrum], hres x hx⟩, ⟨vs, id, h1, rfl⟩⟩
  refine ⟨[mk "a", mk "b", mk "c"], ⟨[mk "a", mk "b", mk "c"], ["a", "b", "c"]⟩, ?_, rfl, ?_, ?_⟩
  · rw [(C45_from_peaks _).2.1 (by simp) (by simp [mk])]
    rfl
  · simp [wholeNumber]
  · intro p hp
    have hcov : ∀ x ∈ [70, (100 : ℚ)], Covers r.transform 60 130 x := by
      intro x hx
      simp only [List.mem_cons, List.not_mem_nil, or_false] at hx
      unfold Covers
      rw [hf]
      rcases hx with rfl | rfl <;> norm_num
    simp only [List.mem_cons, List.not_mem_nil, or_false] at hp
    rcases hp with rfl | rfl | rfl <;> exact ⟨_, _, _, _, _, _, _, _, hmk _, hcov⟩

end Verif.Props
