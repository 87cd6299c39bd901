import Verif.Model.Draw
import Verif.Spec.Draw
import Verif.Props.ArrayViews
import Verif.Props.Interact

/-!
# C105, C106, C107: waterfall plots and picks made on them
-/

namespace Verif.Props
open Verif Arr Spec Draw

theorem diff_sum : ∀ (x : ℚ) (l : List ℚ), (diff (x :: l)).sum = (x :: l).getLastD x - x
  | x, [] => by simp [diff]
  | x, y :: l => by
    have h := diff_sum y l
    simp only [diff, List.sum_cons, h, List.getLastD_cons]
    ring

theorem diff_length : ∀ (x : ℚ) (l : List ℚ), (diff (x :: l)).length = l.length
  | x, [] => by simp [diff]
  | x, y :: l => by simp [diff, diff_length y l]

theorem positions_eq (a : Arr) (s0 : Sensor) (rest : List Sensor) (h : a.sensors = s0 :: rest) (b : Bool) :
    positions a b = a.sensors.map fun s => if b then s.x - s0.x else s.x := by
  cases b <;> simp [positions, position, h, Function.comp_def]

theorem getLastD_map_x (s0 : Sensor) (rest : List Sensor) (f : Sensor → ℚ) (d : ℚ) :
    ((s0 :: rest).map f).getLastD d = f ((s0 :: rest).getLast (by simp)) := by
  rw [List.getLastD_eq_getLast?, List.getLast?_map, List.getLast?_eq_getLast_of_ne_nil (by simp)]
  rfl

theorem defaultScale_eq (a : Arr) (s0 : Sensor) (rest : List Sensor) (h : a.sensors = s0 :: rest) (b : Bool) :
    defaultScale (positions a b) =
      (((s0 :: rest).getLast (by simp)).x - s0.x) / (2 * ((a.sensors.length : ℚ) - 1)) := by
  rw [positions_eq a s0 rest h b, h]
  unfold defaultScale
  have e : (s0 :: rest).map (fun s => if b then s.x - s0.x else s.x) =
      (if b then s0.x - s0.x else s0.x) :: rest.map fun s => if b then s.x - s0.x else s.x := by simp
  have hs : (diff ((s0 :: rest).map fun s => if b then s.x - s0.x else s.x)).sum =
      ((s0 :: rest).getLast (by simp)).x - s0.x := by
    rw [e, diff_sum, ← e, getLastD_map_x]
    cases b <;> simp
  have hl : (diff ((s0 :: rest).map fun s => if b then s.x - s0.x else s.x)).length = rest.length := by
    rw [e, diff_length]; simp
  rw [hs, hl]
  simp only [List.length_cons, Nat.cast_add, Nat.cast_one, add_sub_cancel_right]
  rw [div_div, mul_comm]

theorem maxAbs_eq_of_greatest {l : List ℚ} {m : ℚ} (h : IsGreatest {v | ∃ x ∈ l, v = |x|} m) : maxAbs l = m := by
  obtain ⟨⟨x, hx, rfl⟩, hm⟩ := h
  obtain ⟨h1, h2, h3, h4⟩ := maxAbs_spec l
  apply le_antisymm
  · by_cases hz : ∃ y ∈ l, y ≠ 0
    · obtain ⟨-, y, hy, hyy⟩ := h3 hz
      rw [← hyy]; exact hm ⟨y, hy, rfl⟩
    · push Not at hz
      rw [h4 hz]; exact abs_nonneg x
  · exact h1 x hx

theorem minList_some {l : List ℚ} (h : l ≠ []) : ∃ m, minList l = some m := by
  cases l with
  | nil => exact absurd rfl h
  | cons x xs => exact ⟨_, rfl⟩

theorem maxList_some {l : List ℚ} (h : l ≠ []) : ∃ m, maxList l = some m := by
  cases l with
  | nil => exact absurd rfl h
  | cons x xs => exact ⟨_, rfl⟩

/-- A row of the matrix of traces, given the divisor. -/
theorem row_of_divisor (a : Arr) (detrend : List ℚ → List ℚ) (n : Normalize) (i : ℕ) (s : Sensor) (m : ℚ)
    (hs : a.sensors[i]? = some s) (hm : Divisor a (fun t => detrend t.ts.amp) n s m) :
    (a.timeseriesmatrixFl detrend n)[i]? =
      some ((detrend s.ts.amp).map fun x => Fl.div (.fin x) (.fin m)) := by
  cases n with
  | none =>
    simp only [Divisor] at hm
    subst hm
    simp [timeseriesmatrixFl, hs, Fl.div]
  | each =>
    simp only [Divisor] at hm
    simp [timeseriesmatrixFl, hs, maxAbs_eq_of_greatest hm]
  | all =>
    simp only [Divisor] at hm
    have : maxAbs (a.sensors.map fun s => detrend s.ts.amp).flatten = m := by
      apply maxAbs_eq_of_greatest
      convert hm using 2
      ext v
      constructor
      · rintro ⟨x, hx, rfl⟩
        obtain ⟨r, hr, hxr⟩ := List.mem_flatten.1 hx
        obtain ⟨t, ht, rfl⟩ := List.mem_map.1 hr
        exact ⟨t, ht, x, hxr, rfl⟩
      · rintro ⟨t, ht, x, hx, rfl⟩
        exact ⟨x, List.mem_flatten.2 ⟨_, List.mem_map.2 ⟨t, ht, rfl⟩, hx⟩, rfl⟩
    simp [timeseriesmatrixFl, hs, this]

/-- **C105**.  For an array of at least two sensors with at least one sample, and time on either axis, `waterfall`
draws one curve per sensor in the order of the array.  Every curve has the times of its own record on the time axis and,
on the other, each (detrended) sample divided by the requested divisor, times the amplitude factor, plus the position
of the sensor; a trace whose divisor is zero is drawn as NaN throughout, so not at all.  The time axis runs
from the first to the last time, downwards if vertical; the other axis exceeds the array by its first spacing on either
side. -/
theorem C105_traces_at_receivers (a : Arr) (hc : Consistent a) (h2 : 2 ≤ a.sensors.length)
    (hsamples : ∀ s ∈ a.sensors, s.ts.amp ≠ []) (newAxes : Bool) (timeAx : String)
    (ht : timeAx = "x" ∨ timeAx = "y") (detrend : List ℚ → List ℚ) (n : Normalize) (scale : Option ℚ)
    (fromFirst : Bool) :
    ∃ w, waterfall a newAxes timeAx detrend n scale fromFirst = .ok w ∧
      w.curves.length = a.sensors.length ∧
      (∀ (i : ℕ) (s : Sensor), a.sensors[i]? = some s → ∃ vals : List Fl,
        w.curves[i]? = some (if timeAx = "x" then (s.ts.time.map Fl.fin, vals) else (vals, s.ts.time.map Fl.fin)) ∧
        ∀ (m k x : ℚ), Divisor a (fun t => detrend t.ts.amp) n s m → DrawnFactor a scale k →
          DrawnAt a fromFirst s x →
          (m ≠ 0 → vals = (detrend s.ts.amp).map fun v => Fl.fin (v / m * k + x)) ∧
          (m = 0 → vals = (detrend s.ts.amp).map fun _ => Fl.nan)) ∧
      (∀ s ∈ a.sensors, ∃ t0 t1, IsLeast {t | t ∈ s.ts.time} t0 ∧ IsGreatest {t | t ∈ s.ts.time} t1 ∧
        (timeAx = "x" → w.xlim = (t0, t1)) ∧ (timeAx = "y" → w.ylim = (t1, t0))) ∧
      ∀ s1 s2 sn x1 x2 xn, a.sensors[0]? = some s1 → a.sensors[1]? = some s2 → a.sensors.getLast? = some sn →
        DrawnAt a fromFirst s1 x1 → DrawnAt a fromFirst s2 x2 → DrawnAt a fromFirst sn xn →
        (if timeAx = "x" then w.ylim else w.xlim) = (x1 - (x2 - x1), xn + (x2 - x1)) := by
  rcases hl : a.sensors with _ | ⟨s0, _ | ⟨s1, rest⟩⟩
  · rw [hl] at h2; simp at h2
  · rw [hl] at h2; simp at h2
  rw [← hl]
  have hmem0 : s0 ∈ a.sensors := by rw [hl]; simp
  have htime : ∀ s ∈ a.sensors, s.ts.time = s0.ts.time := by
    intro s hs
    obtain ⟨e1, e2, e3, e4⟩ := hc.2.2 s hs s0 hmem0
    simp only [ATS.time, ATS.nsamples, e1, e3, e4]
  have hne : s0.ts.time ≠ [] := by
    intro h
    have : s0.ts.time.length = 0 := by rw [h]; rfl
    rw [ATS.time_length] at this
    exact hsamples s0 hmem0 (List.length_eq_zero_iff.1 this)
  obtain ⟨t0, h0⟩ := minList_some hne
  obtain ⟨t1, h1⟩ := maxList_some hne
  have hpos := positions_eq a s0 (s1 :: rest) hl fromFirst
  obtain ⟨p0, p1, ps, hps⟩ : ∃ p0 p1 ps, positions a fromFirst = p0 :: p1 :: ps := by
    rw [hpos, hl]; exact ⟨_, _, _, rfl⟩
  have hk : ∀ k, DrawnFactor a scale k → scale.getD (defaultScale (positions a fromFirst)) = k := by
    intro k hk
    cases scale with
    | some q => simpa [DrawnFactor] using hk.symm
    | none =>
      obtain ⟨f, l, hf, hla, rfl⟩ := hk
      rw [Option.getD_none, defaultScale_eq a s0 (s1 :: rest) hl fromFirst]
      rw [hl] at hf hla
      rw [List.getLast?_eq_getLast_of_ne_nil (by simp)] at hla
      simp only [List.head?_cons, Option.some.injEq] at hf hla
      rw [← hf, ← hla]
  have hcurve : ∀ (i : ℕ) (s : Sensor), a.sensors[i]? = some s → ∃ vals : List Fl,
      (List.zipWith (placeTrace (scale.getD (defaultScale (positions a fromFirst)))) (positions a fromFirst)
        (a.timeseriesmatrixFl detrend n))[i]? = some vals ∧
        ∀ (m k x : ℚ), Divisor a (fun t => detrend t.ts.amp) n s m → DrawnFactor a scale k →
          DrawnAt a fromFirst s x →
          (m ≠ 0 → vals = (detrend s.ts.amp).map fun v => Fl.fin (v / m * k + x)) ∧
          (m = 0 → vals = (detrend s.ts.amp).map fun _ => Fl.nan) := by
    intro i s hs
    have hrow : ∃ row, (a.timeseriesmatrixFl detrend n)[i]? = some row := by
      cases n <;> simp [timeseriesmatrixFl, hs]
    obtain ⟨row, hrow⟩ := hrow
    have hp : (positions a fromFirst)[i]? = some (if fromFirst then s.x - s0.x else s.x) := by
      rw [hpos, List.getElem?_map, hs]; rfl
    refine ⟨placeTrace (scale.getD (defaultScale (positions a fromFirst)))
      (if fromFirst then s.x - s0.x else s.x) row, by simp [List.getElem?_zipWith, hp, hrow], ?_⟩
    intro m k x hm hkk hx
    rw [hk k hkk]
    have hx' : (if fromFirst then s.x - s0.x else s.x) = x := by
      unfold DrawnAt at hx
      cases fromFirst with
      | false => simpa using hx.symm
      | true =>
        obtain ⟨f, hf, rfl⟩ := by simpa using hx
        rw [hl] at hf
        simp only [List.head?_cons, Option.some.injEq] at hf
        simp [hf]
    rw [hx']
    have := row_of_divisor a detrend n i s m hs hm
    rw [hrow, Option.some.injEq] at this
    subst this
    constructor
    · intro hm0
      simp [placeTrace, Function.comp_def, Fl.div, hm0, Fl.mul, Fl.add]
    · rintro rfl
      have hz : ∀ v ∈ detrend s.ts.amp, v = 0 := by
        intro v hv
        cases n with
        | none => simp [Divisor] at hm
        | each => exact abs_nonpos_iff.1 (hm.2 ⟨v, hv, rfl⟩)
        | all => exact abs_nonpos_iff.1 (hm.2 ⟨s, List.mem_of_getElem? hs, v, hv, rfl⟩)
      simp only [placeTrace, List.map_map]
      apply List.map_congr_left
      intro v hv
      simp [hz v hv, Fl.div, Fl.infMul, Fl.mul, Fl.add]
  have hlen : (List.zipWith (placeTrace (scale.getD (defaultScale (positions a fromFirst)))) (positions a fromFirst)
        (a.timeseriesmatrixFl detrend n)).length = a.sensors.length := by
    have e1 : (positions a fromFirst).length = a.sensors.length := by rw [hpos]; simp
    have e2 : (a.timeseriesmatrixFl detrend n).length = a.sensors.length := by
      cases n <;> simp [timeseriesmatrixFl]
    simp [List.length_zipWith, e1, e2]
  have hlim : IsLeast {t | t ∈ s0.ts.time} t0 ∧ IsGreatest {t | t ∈ s0.ts.time} t1 := by
    obtain ⟨g1, g2⟩ := minList_spec h0
    obtain ⟨g3, g4⟩ := maxList_spec h1
    exact ⟨⟨g1, fun t ht => g2 t ht⟩, ⟨g3, fun t ht => g4 t ht⟩⟩
  have hat : ∀ s x, DrawnAt a fromFirst s x → x = if fromFirst then s.x - s0.x else s.x := by
    intro s x hx
    unfold DrawnAt at hx
    cases fromFirst with
    | false => simpa using hx
    | true =>
      obtain ⟨f, hf, rfl⟩ := by simpa using hx
      rw [hl] at hf
      simp only [List.head?_cons, Option.some.injEq] at hf
      simp [hf]
  have hdist : ∀ u1 u2 un x1 x2 xn, a.sensors[0]? = some u1 → a.sensors[1]? = some u2 →
      a.sensors.getLast? = some un → DrawnAt a fromFirst u1 x1 → DrawnAt a fromFirst u2 x2 →
      DrawnAt a fromFirst un xn →
      (p0 - (p1 - p0), (positions a fromFirst).getLastD p0 + (p1 - p0)) = (x1 - (x2 - x1), xn + (x2 - x1)) := by
    intro u1 u2 un x1 x2 xn g1 g2 g3 d1 d2 d3
    have q0 : (positions a fromFirst)[0]? = some x1 := by
      rw [hpos, List.getElem?_map, g1, hat _ _ d1]; rfl
    have q1 : (positions a fromFirst)[1]? = some x2 := by
      rw [hpos, List.getElem?_map, g2, hat _ _ d2]; rfl
    have qn : (positions a fromFirst).getLastD p0 = xn := by
      rw [List.getLastD_eq_getLast?, hpos, List.getLast?_map, g3, hat _ _ d3]; rfl
    rw [hps] at q0 q1
    simp only [List.getElem?_cons_zero, Option.some.injEq, List.getElem?_cons_succ] at q0 q1
    rw [qn, q0, q1]
  rcases ht with rfl | rfl
  · have b1 : (newAxes && "x" != "x" && "x" != "y") = false := by cases newAxes <;> decide
    have b2 : (("x" : String) != "x" && "x" != "y") = false := by decide
    refine ⟨_, by simp only [waterfall, b1, hl, h0, h1, b2, hps, Bool.false_eq_true, if_false, if_true]; rfl, ?_⟩
    rw [← hps]
    refine ⟨by rw [List.length_map, hlen], ?_, ?_, ?_⟩
    · intro i s hs
      obtain ⟨vals, hv, hvals⟩ := hcurve i s hs
      refine ⟨vals, ?_, hvals⟩
      rw [List.getElem?_map, hv, htime s (List.mem_of_getElem? hs)]
      rfl
    · intro s hs
      rw [htime s hs]
      exact ⟨t0, t1, hlim.1, hlim.2, fun _ => rfl, fun h => absurd h (by decide)⟩
    · intro u1 u2 un x1 x2 xn g1 g2 g3 d1 d2 d3
      rw [if_pos rfl]
      exact hdist u1 u2 un x1 x2 xn g1 g2 g3 d1 d2 d3
  · have b1 : (newAxes && "y" != "x" && "y" != "y") = false := by cases newAxes <;> decide
    have b2 : (("y" : String) != "x" && "y" != "y") = false := by decide
    have b3 : ¬ ("y" : String) = "x" := by decide
    refine ⟨_, by simp only [waterfall, b1, hl, h0, h1, b2, hps, Bool.false_eq_true, if_false, if_neg b3]; rfl, ?_⟩
    rw [← hps]
    refine ⟨by rw [List.length_map, hlen], ?_, ?_, ?_⟩
    · intro i s hs
      obtain ⟨vals, hv, hvals⟩ := hcurve i s hs
      refine ⟨vals, ?_, hvals⟩
      rw [List.getElem?_map, hv, htime s (List.mem_of_getElem? hs), if_neg b3]
      rfl
    · intro s hs
      rw [htime s hs]
      exact ⟨t0, t1, hlim.1, hlim.2, fun h => absurd h b3, fun _ => rfl⟩
    · intro u1 u2 un x1 x2 xn g1 g2 g3 d1 d2 d3
      rw [if_neg b3]
      exact hdist u1 u2 un x1 x2 xn g1 g2 g3 d1 d2 d3

example : waterfall ⟨[mkS 2 [1, -2], mkS 4 [0, 0], mkS 6 [4, 1]], ⟨-1, 0, 0⟩⟩ true "y" id .each none true =
    .ok ⟨[([.fin (1 / 2), .fin (-1)], [.fin 0, .fin 1]), ([.nan, .nan], [.fin 0, .fin 1]),
      ([.fin 5, .fin (17 / 4)], [.fin 0, .fin 1])], (-2, 6), (1, 0)⟩ := by decide +kernel

/-- Positions of evenly spaced sensors. -/
theorem evenly_x {a : Arr} {d : ℚ} (hd : EvenlySpaced a d) (s0 : Sensor) (h0 : a.sensors[0]? = some s0) :
    ∀ (i : ℕ) (s : Sensor), a.sensors[i]? = some s → s.x = s0.x + i * d := by
  intro i
  induction i with
  | zero => intro s hs; rw [h0] at hs; cases hs; simp
  | succ i ih =>
    intro s hs
    have hi : i < a.sensors.length := by
      obtain ⟨h, -⟩ := List.getElem?_eq_some_iff.1 hs
      omega
    have hp := List.getElem?_eq_getElem hi
    have := hd i _ _ hp hs
    have h' := ih _ hp
    push_cast
    linarith

/-- **C106** (partial).  On an evenly spaced array whose traces are not all zero, normalized each by itself or all
together and drawn with the default amplitude, every sample is drawn within half the spacing of its own receiver and
inside the limits of the plot, and no sample of a trace is drawn beyond one of the next trace.  Missing: unevenly
spaced arrays and arrays of one sensor, where this is false. -/
theorem C106_evenly_spaced_partial (a : Arr) (hc : Consistent a) (h2 : 2 ≤ a.sensors.length) (newAxes : Bool)
    (timeAx : String) (ht : timeAx = "x" ∨ timeAx = "y") (detrend : List ℚ → List ℚ)
    (hd : ∀ l, (detrend l).length = l.length) (n : Normalize) (hn : n ≠ .none) (fromFirst : Bool) (d : ℚ)
    (heven : EvenlySpaced a d) (hlive : ∀ s ∈ a.sensors, ∃ x ∈ detrend s.ts.amp, x ≠ 0) :
    ∃ w, waterfall a newAxes timeAx detrend n none fromFirst = .ok w ∧
      w.curves.length = a.sensors.length ∧
      (∀ (i : ℕ) (s : Sensor) (c : List Fl × List Fl), a.sensors[i]? = some s → w.curves[i]? = some c →
        ∀ v ∈ (if timeAx = "x" then c.2 else c.1), ∃ q, v = .fin q ∧
          (if timeAx = "x" then w.ylim else w.xlim).1 < q ∧ q < (if timeAx = "x" then w.ylim else w.xlim).2 ∧
          ∀ x, DrawnAt a fromFirst s x → |q - x| ≤ d / 2) ∧
      ∀ (i : ℕ) (c c' : List Fl × List Fl) (q q' : ℚ), w.curves[i]? = some c → w.curves[i + 1]? = some c' →
        .fin q ∈ (if timeAx = "x" then c.2 else c.1) → .fin q' ∈ (if timeAx = "x" then c'.2 else c'.1) →
        q ≤ q' := by
  have hsamples : ∀ s ∈ a.sensors, s.ts.amp ≠ [] := by
    intro s hs h
    obtain ⟨x, hx, -⟩ := hlive s hs
    have := hd s.ts.amp
    rw [h, List.length_nil, List.length_eq_zero_iff] at this
    rw [h, this] at hx
    cases hx
  obtain ⟨w, hw, hlen, hcur, -, hdist⟩ := C105_traces_at_receivers a hc h2 hsamples newAxes timeAx ht detrend n
    none fromFirst
  obtain ⟨N, hN⟩ : ∃ N, a.sensors.length = N + 2 := ⟨a.sensors.length - 2, by omega⟩
  have g0 : a.sensors[0]? = some (a.sensors[0]'(by omega)) := List.getElem?_eq_getElem (by omega)
  have g1 : a.sensors[1]? = some (a.sensors[1]'(by omega)) := List.getElem?_eq_getElem (by omega)
  have gn : a.sensors[N + 1]? = some (a.sensors[N + 1]'(by omega)) := List.getElem?_eq_getElem (by omega)
  generalize a.sensors[0]'(by omega) = s0 at g0
  generalize a.sensors[1]'(by omega) = s1 at g1
  generalize a.sensors[N + 1]'(by omega) = sn at gn
  have hx := evenly_x heven s0 g0
  have hhead : a.sensors.head? = some s0 := by rw [List.head?_eq_getElem?, g0]
  have hlast : a.sensors.getLast? = some sn := by rw [List.getLast?_eq_getElem?, hN]; simpa using gn
  have hdpos : 0 < d := by
    have := heven 0 s0 s1 g0 g1
    have hlt : s0.x < s1.x := by
      obtain ⟨_, e0⟩ := List.getElem?_eq_some_iff.1 g0
      obtain ⟨_, e1⟩ := List.getElem?_eq_some_iff.1 g1
      rw [← e0, ← e1]
      exact List.pairwise_iff_getElem.1 hc.2.1 0 1 _ _ (by omega)
    linarith
  have hk : DrawnFactor a none (d / 2) := by
    refine ⟨s0, sn, hhead, hlast, ?_⟩
    rw [hx (N + 1) sn gn, hN]
    have : ((N : ℚ) + 1) ≠ 0 := by positivity
    push_cast
    have e : (N : ℚ) + 2 - 1 = N + 1 := by ring
    rw [e]
    field_simp
    ring
  -- where sensor i is drawn
  let base : ℚ := if fromFirst then 0 else s0.x
  have hat : ∀ (i : ℕ) (s : Sensor), a.sensors[i]? = some s → DrawnAt a fromFirst s (base + i * d) := by
    intro i s hs
    unfold DrawnAt
    cases fromFirst with
    | false => simp [base, hx i s hs]
    | true => simp [base, hhead, hx i s hs]
  have hatu : ∀ (i : ℕ) (s : Sensor) (x : ℚ), a.sensors[i]? = some s → DrawnAt a fromFirst s x →
      x = base + i * d := by
    intro i s x hs hxx
    unfold DrawnAt at hxx
    cases fromFirst with
    | false => simp only [Bool.false_eq_true, if_false] at hxx; simp [base, hxx, hx i s hs]
    | true =>
      obtain ⟨f, hf, rfl⟩ := by simpa using hxx
      rw [hhead] at hf; cases hf
      simp [base, hx i s hs]
  have hlim := hdist s0 s1 sn _ _ _ g0 g1 hlast (hat 0 s0 g0) (hat 1 s1 g1) (hat (N + 1) sn gn)
  -- the samples
  have hval : ∀ (i : ℕ) (s : Sensor) (c : List Fl × List Fl), a.sensors[i]? = some s → w.curves[i]? = some c →
      ∀ v ∈ (if timeAx = "x" then c.2 else c.1), ∃ q, v = .fin q ∧ |q - (base + i * d)| ≤ d / 2 := by
    intro i s c hs hcc v hv
    obtain ⟨vals, h1, h3⟩ := hcur i s hs
    obtain ⟨m, hm, hmpos, hmle⟩ : ∃ m, Divisor a (fun t => detrend t.ts.amp) n s m ∧ 0 < m ∧
        ∀ x ∈ detrend s.ts.amp, |x| ≤ m := by
      have hsm := List.mem_of_getElem? hs
      cases n with
      | none => exact absurd rfl hn
      | each =>
        obtain ⟨k1, -, k3, -⟩ := maxAbs_spec (detrend s.ts.amp)
        obtain ⟨kp, y, hy, hyy⟩ := k3 (hlive s hsm)
        exact ⟨_, ⟨⟨y, hy, hyy.symm⟩, by rintro v ⟨x, hx, rfl⟩; exact k1 x hx⟩, kp, k1⟩
      | all =>
        obtain ⟨k1, -, k3, -⟩ := maxAbs_spec (a.sensors.map fun s => detrend s.ts.amp).flatten
        have hmem : ∀ t ∈ a.sensors, ∀ x ∈ detrend t.ts.amp,
            x ∈ (a.sensors.map fun s => detrend s.ts.amp).flatten :=
          fun t ht x hx => List.mem_flatten.2 ⟨_, List.mem_map.2 ⟨t, ht, rfl⟩, hx⟩
        obtain ⟨x, hx, hx0⟩ := hlive s hsm
        obtain ⟨kp, y, hy, hyy⟩ := k3 ⟨x, hmem s hsm x hx, hx0⟩
        obtain ⟨r, hr, hyr⟩ := List.mem_flatten.1 hy
        obtain ⟨t, ht, rfl⟩ := List.mem_map.1 hr
        exact ⟨_, ⟨⟨t, ht, y, hyr, hyy.symm⟩, by rintro v ⟨u, hu, x, hx, rfl⟩; exact k1 x (hmem u hu x hx)⟩, kp,
          fun x hx => k1 x (hmem s hsm x hx)⟩
    have hvals := (h3 m (d / 2) _ hm hk (hat i s hs)).1 hmpos.ne'
    have hcv : (if timeAx = "x" then c.2 else c.1) = vals := by
      rw [hcc, Option.some.injEq] at h1
      rw [h1]
      split_ifs <;> rfl
    rw [hcv, hvals] at hv
    obtain ⟨x, hxm, rfl⟩ := List.mem_map.1 hv
    refine ⟨_, rfl, ?_⟩
    have h5 : |x / m| ≤ 1 := by
      rw [abs_div, abs_of_pos hmpos, div_le_one hmpos]; exact hmle x hxm
    have : x / m * (d / 2) + (base + i * d) - (base + i * d) = x / m * (d / 2) := by ring
    rw [this, abs_mul, abs_of_pos (half_pos hdpos)]
    calc |x / m| * (d / 2) ≤ 1 * (d / 2) := by
          apply mul_le_mul_of_nonneg_right h5 (half_pos hdpos).le
      _ = d / 2 := one_mul _
  refine ⟨w, hw, hlen, ?_, ?_⟩
  · intro i s c hs hcc v hv
    obtain ⟨q, hq, hqq⟩ := hval i s c hs hcc v hv
    have hile : i ≤ N + 1 := by
      obtain ⟨h, -⟩ := List.getElem?_eq_some_iff.1 hs
      omega
    have hid : (i : ℚ) * d ≤ ((N + 1 : ℕ) : ℚ) * d := by
      apply mul_le_mul_of_nonneg_right _ hdpos.le
      exact_mod_cast hile
    have hi0 : 0 ≤ (i : ℚ) * d := by positivity
    have hab := abs_le.1 hqq
    refine ⟨q, hq, ?_, ?_, ?_⟩
    · rw [hlim]; push_cast; linarith [hab.1]
    · rw [hlim]; push_cast at hid ⊢; linarith [hab.2]
    · intro x hxx
      rw [hatu i s x hs hxx]; exact hqq
  · intro i c c' q q' hcc hcc' hq hq'
    have hi : i + 1 < a.sensors.length := by
      obtain ⟨h, -⟩ := List.getElem?_eq_some_iff.1 hcc'
      omega
    obtain ⟨r, e, hr⟩ := hval i _ c (List.getElem?_eq_getElem (by omega)) hcc _ hq
    obtain ⟨r', e', hr'⟩ := hval (i + 1) _ c' (List.getElem?_eq_getElem hi) hcc' _ hq'
    cases e; cases e'
    have h1 := abs_le.1 hr
    have h3 := abs_le.1 hr'
    push_cast at h3
    linarith [h1.2, h3.1]

example : ∃ a : Arr, Consistent a ∧ 2 ≤ a.sensors.length ∧ EvenlySpaced a 2 ∧
    ∀ s ∈ a.sensors, ∃ x ∈ id s.ts.amp, x ≠ 0 := by
  refine ⟨⟨[mkS 2 [1, -2], mkS 4 [0, 3], mkS 6 [4, 1]], ⟨-1, 0, 0⟩⟩, ?_, by decide, ?_, ?_⟩
  · refine ⟨by simp, ?_, ?_⟩
    · simp [mkS]; norm_num
    · simp [SameMeta, mkS]
  · intro k s t hs ht
    match k, hs, ht with
    | 0, hs, ht => cases hs; cases ht; norm_num [mkS]
    | 1, hs, ht => cases hs; cases ht; norm_num [mkS]
    | k + 2, hs, ht => simp at ht
  · simp [mkS]

/-- **C106** fails: with uneven spacing the default amplitude is half the mean spacing, but the margin is the first
spacing.  Here a sample of the first trace is drawn at -5/2, left of the limit -1, and beyond its neighbour's. -/
theorem C106_uneven_spacing_counterexample :
    ∃ a : Arr, Consistent a ∧ (∀ s ∈ a.sensors, ∃ x ∈ id s.ts.amp, x ≠ 0) ∧
      waterfall a true "y" id .each none false =
        .ok ⟨[([.fin (-5 / 2), .fin (5 / 2)], [.fin 0, .fin 1]), ([.fin (-3 / 2), .fin (7 / 2)], [.fin 0, .fin 1]),
          ([.fin (15 / 2), .fin (25 / 2)], [.fin 0, .fin 1])], (-1, 11), (1, 0)⟩ := by
  refine ⟨⟨[mkS 0 [-1, 1], mkS 1 [-1, 1], mkS 10 [-1, 1]], ⟨-1, 0, 0⟩⟩, ⟨by simp, ?_, ?_⟩, ?_, by decide +kernel⟩
  · simp [mkS]
  · simp [SameMeta, mkS]
  · simp [mkS]

/-- **C106** fails for arrays of one sensor: there is no spacing, and the plot raises `IndexError`. -/
theorem C106_single_sensor_fails (s : Sensor) (src : Source) (hs : s.ts.amp ≠ []) (timeAx : String)
    (ht : timeAx = "x" ∨ timeAx = "y") (detrend : List ℚ → List ℚ) (n : Normalize) (scale : Option ℚ)
    (fromFirst : Bool) :
    waterfall ⟨[s], src⟩ true timeAx detrend n scale fromFirst = .error .indexError := by
  have hne : s.ts.time ≠ [] := by
    intro h
    have : s.ts.time.length = 0 := by rw [h]; rfl
    rw [ATS.time_length] at this
    exact hs (List.length_eq_zero_iff.1 this)
  obtain ⟨t0, h0⟩ := minList_some hne
  obtain ⟨t1, h1⟩ := maxList_some hne
  rcases ht with rfl | rfl <;> cases fromFirst <;>
    simp [waterfall, h0, h1, positions, position]

/-- **C105** (refusals).  A time axis other than "x" and "y" is refused. -/
theorem C105_refused (a : Arr) (newAxes : Bool) (timeAx : String) (ht : timeAx ≠ "x" ∧ timeAx ≠ "y")
    (detrend : List ℚ → List ℚ) (n : Normalize) (scale : Option ℚ) (fromFirst : Bool) :
    ∃ e, waterfall a newAxes timeAx detrend n scale fromFirst = .error e := by
  have b : (timeAx != "x" && timeAx != "y") = true := by simp [ht.1, ht.2]
  unfold waterfall
  split_ifs with h
  · exact ⟨_, rfl⟩
  · split
    · exact ⟨_, rfl⟩
    · dsimp only
      split
      · exact ⟨_, rfl⟩
      · exact ⟨_, rfl⟩

/-! ## Picks -/

/-- **C107**.  When `manual_pick_first_arrivals` returns, it returns the distances and the times of the last points
of the user's non-empty selections, in the order made, none twice and none missing; on a plot with time on the
vertical axis a point is (distance, time), otherwise (time, distance).  There is no limit on the number of picks: the
session ends only when the user presses a key twice. -/
theorem C107_picks (a : Arr) (timeAx : String) (detrend : List ℚ → List ℚ) (n : Normalize) (scale : Option ℚ)
    (fromFirst : Bool) (u : Interact.User) (ds ts : List ℚ)
    (h : manualPick a timeAx detrend n scale fromFirst u = some (.ok (ds, ts))) :
    (timeAx = "x" ∨ timeAx = "y") ∧ ds.length = ts.length ∧ ∃ used rest pressed left,
      u.picks = used ++ rest ∧ u.presses = pressed ++ some true :: some true :: left ∧
      lastPoints used = (if timeAx = "y" then ds.zip ts else ts.zip ds) := by
  unfold manualPick at h
  split at h
  · cases h
  rename_i w hw
  split at h
  · cases h
  rename_i xs ys u' hg
  have htime : timeAx = "x" ∨ timeAx = "y" := by
    by_contra hc
    push Not at hc
    obtain ⟨e, he⟩ := C105_refused a true timeAx hc detrend n scale fromFirst
    rw [he] at hw
    cases hw
  obtain ⟨used, pressed, h1, h2, h3, h4, -, h6⟩ := C31_session_returns_last_points _ _ _ _ _ _ _ hg
  have hlt : (xs.length : ℤ) < u.picks.length + 1 := by
    have e1 : xs.length = (lastPoints used).length := by rw [← h4, List.length_zip, h3, min_self]
    have e2 : (lastPoints used).length ≤ used.length := List.length_filterMap_le _ _
    have e3 : used.length ≤ u.picks.length := by rw [h1]; simp
    omega
  obtain ⟨pre, hpre⟩ := h6 hlt
  refine ⟨htime, ?_, used, u'.picks, pre, u'.presses, h1, by rw [h2, hpre]; simp, ?_⟩
  · split_ifs at h <;> simp only [Option.some.injEq, Except.ok.injEq, Prod.mk.injEq] at h <;>
      obtain ⟨rfl, rfl⟩ := h
    · exact h3
    · exact h3.symm
  · rw [← h4]
    split_ifs at h ⊢ <;> simp only [Option.some.injEq, Except.ok.injEq, Prod.mk.injEq] at h <;>
      obtain ⟨rfl, rfl⟩ := h <;> rfl

/-- **C107** (the picks do arrive).  A user who presses a key to begin, picks the points `pts ++ [last]` one at a
time, presses a key after each to go on, lets the time for leaving pass after all but the last and presses a key after
the last gets exactly these points. -/
theorem C107_picks_returned (a : Arr) (timeAx : String) (detrend : List ℚ → List ℚ) (n : Normalize)
    (scale : Option ℚ) (fromFirst : Bool) (w : Waterfall)
    (hw : waterfall a true timeAx detrend n scale fromFirst = .ok w) (pts : List Interact.Pt) (last : Interact.Pt) :
    manualPick a timeAx detrend n scale fromFirst
      ⟨(pts ++ [last]).map fun p => [p], some true :: (pts.flatMap fun _ => [some true, none]) ++ [some true, some true]⟩ =
    some (.ok (if timeAx = "y" then ((pts ++ [last]).map Prod.fst, (pts ++ [last]).map Prod.snd)
      else ((pts ++ [last]).map Prod.snd, (pts ++ [last]).map Prod.fst))) := by
  have key : ∀ (pts : List Interact.Pt) (left : ℕ) (xs ys : List ℚ), pts.length < left →
      Interact.selectLoop true left ((pts ++ [last]).map fun p => [p])
        ((pts.flatMap fun _ => [some true, none]) ++ [some true, some true]) xs ys =
      some (xs ++ (pts ++ [last]).map Prod.fst, ys ++ (pts ++ [last]).map Prod.snd, ⟨[], []⟩) := by
    intro pts
    induction pts with
    | nil =>
      intro left xs ys hl
      obtain ⟨left, rfl⟩ : ∃ k, left = k + 1 := ⟨left - 1, by omega⟩
      simp [Interact.selectLoop, Interact.waitKey]
    | cons p pts ih =>
      intro left xs ys hl
      obtain ⟨left, rfl⟩ : ∃ k, left = k + 1 := ⟨left - 1, by omega⟩
      have := ih left (xs ++ [p.1]) (ys ++ [p.2]) (by simpa using hl)
      simp only [List.cons_append, List.map_cons, List.flatMap_cons, Interact.selectLoop, List.getLast?_singleton,
        if_true, Interact.waitKey, List.nil_append]
      rw [this]
      simp
  unfold manualPick
  rw [hw]
  simp only [Interact.ginputSession, if_true, List.cons_append, Interact.waitKey]
  have hn : (((((pts ++ [last]).map fun p => [p]).length : ℕ) : ℤ) + 1).toNat = pts.length + 2 := by simp; omega
  rw [hn, key pts _ [] [] (by omega)]
  simp

example : manualPick ⟨[mkS 2 [1, -2], mkS 4 [0, 3]], ⟨-1, 0, 0⟩⟩ "x" id .each none false
    ⟨[[(1, 2), (1 / 2, 4)], [], [(1, 6)]], [some true, some true, none, some true, some true]⟩ =
      some (.ok ([4, 6], [1 / 2, 1])) := by decide +kernel

end Verif.Props
