import Verif.Props.ArrayStructure
import Verif.Props.RecordEquality

/-!
# C24, C25, C29, C93: normalized traces, geometry, equality of arrays, first arrivals
-/

namespace Verif.Props
open Verif Arr Spec

theorem foldl_max_spec (l : List ℚ) : ∀ x : ℚ, x ≤ l.foldl max x ∧ (∀ y ∈ l, y ≤ l.foldl max x) ∧
    (l.foldl max x = x ∨ l.foldl max x ∈ l) := by
  induction l with
  | nil => intro x; simp
  | cons a l ih =>
    intro x
    obtain ⟨h1, h2, h3⟩ := ih (max x a)
    simp only [List.foldl_cons]
    refine ⟨le_trans (le_max_left _ _) h1, ?_, ?_⟩
    · intro y hy
      rcases List.mem_cons.1 hy with rfl | hy
      · exact le_trans (le_max_right _ _) h1
      · exact h2 y hy
    · rcases h3 with h3 | h3
      · rw [h3]
        rcases max_choice x a with h | h
        · left; exact h
        · right; rw [h]; simp
      · right; simp [h3]

theorem foldl_min_spec (l : List ℚ) : ∀ x : ℚ, l.foldl min x ≤ x ∧ (∀ y ∈ l, l.foldl min x ≤ y) ∧
    (l.foldl min x = x ∨ l.foldl min x ∈ l) := by
  induction l with
  | nil => intro x; simp
  | cons a l ih =>
    intro x
    obtain ⟨h1, h2, h3⟩ := ih (min x a)
    simp only [List.foldl_cons]
    refine ⟨le_trans h1 (min_le_left _ _), ?_, ?_⟩
    · intro y hy
      rcases List.mem_cons.1 hy with rfl | hy
      · exact le_trans h1 (min_le_right _ _)
      · exact h2 y hy
    · rcases h3 with h3 | h3
      · rw [h3]
        rcases min_choice x a with h | h
        · left; exact h
        · right; rw [h]; simp
      · right; simp [h3]

theorem maxAbs_spec (l : List ℚ) : (∀ x ∈ l, |x| ≤ maxAbs l) ∧ 0 ≤ maxAbs l ∧
    ((∃ x ∈ l, x ≠ 0) → 0 < maxAbs l ∧ ∃ x ∈ l, |x| = maxAbs l) ∧ ((∀ x ∈ l, x = 0) → maxAbs l = 0) := by
  unfold maxAbs
  obtain ⟨h1, h2, h3⟩ := foldl_max_spec (l.map fun x => |x|) 0
  have h4 : ∀ x ∈ l, |x| ≤ (l.map fun x => |x|).foldl max 0 :=
    fun x hx => h2 _ (List.mem_map.2 ⟨x, hx, rfl⟩)
  refine ⟨h4, h1, ?_, ?_⟩
  · rintro ⟨x, hx, hne⟩
    have hpos : 0 < (l.map fun x => |x|).foldl max 0 := lt_of_lt_of_le (abs_pos.2 hne) (h4 x hx)
    refine ⟨hpos, ?_⟩
    rcases h3 with h3 | h3
    · rw [h3] at hpos; exact absurd hpos (lt_irrefl _)
    · obtain ⟨y, hy, hyy⟩ := List.mem_map.1 h3
      exact ⟨y, hy, hyy⟩
  · intro hz
    rcases h3 with h3 | h3
    · exact h3
    · obtain ⟨y, hy, hyy⟩ := List.mem_map.1 h3
      rw [← hyy, hz y hy, abs_zero]

/-- `row` is `amp` divided by one positive number, with largest absolute value one. -/
def ScaledToOne (amp : List ℚ) (row : List Fl) : Prop :=
  ∃ m : ℚ, 0 < m ∧ row = amp.map (fun x => Fl.fin (x / m)) ∧ (∀ x ∈ amp, |x / m| ≤ 1) ∧
    ∃ x ∈ amp, |x / m| = 1

/-- **C24** ("none").  Without normalization the rows are the samples. -/
theorem C24_none_returns_samples (a : Arr) :
    a.timeseriesmatrixFl id .none = a.sensors.map fun s => s.ts.amp.map Fl.fin := by
  simp [timeseriesmatrixFl, Function.comp_def]

/-- **C24** ("each").  Row by row, with or without a detrending step: a trace with a non-zero sample is
divided by one positive number so that its largest absolute value is one; a trace of zeros becomes NaN. -/
theorem C24_each_scales_every_trace (a : Arr) (detrend : List ℚ → List ℚ) (i : ℕ) (s : Sensor)
    (row : List Fl) (hs : a.sensors[i]? = some s)
    (hrow : (a.timeseriesmatrixFl detrend .each)[i]? = some row) :
    ((∃ x ∈ detrend s.ts.amp, x ≠ 0) → ScaledToOne (detrend s.ts.amp) row) ∧
    ((∀ x ∈ detrend s.ts.amp, x = 0) → row = (detrend s.ts.amp).map fun _ => Fl.nan) := by
  simp only [timeseriesmatrixFl, List.getElem?_map, hs, Option.map_some, Option.some.injEq] at hrow
  subst hrow
  generalize detrend s.ts.amp = r
  obtain ⟨h1, h2, h3, h4⟩ := maxAbs_spec r
  constructor
  · intro hne
    obtain ⟨hpos, y, hy, hyy⟩ := h3 hne
    refine ⟨maxAbs r, hpos, ?_, ?_, y, hy, ?_⟩
    · apply List.map_congr_left
      intro x _
      simp [Fl.div, hpos.ne']
    · intro x hx
      rw [abs_div, abs_of_pos hpos, div_le_one hpos]; exact h1 x hx
    · rw [abs_div, abs_of_pos hpos, hyy, div_self hpos.ne']
  · intro hz
    apply List.map_congr_left
    intro x hx
    simp [Fl.div, h4 hz, hz x hx, Fl.infMul]

/-- **C24** ("all").  The whole matrix is divided by one positive number so that its largest absolute value
is one, unless all samples are zero, which gives NaN everywhere. -/
theorem C24_all_scales_the_matrix (a : Arr) (detrend : List ℚ → List ℚ) :
    ((∃ s ∈ a.sensors, ∃ x ∈ detrend s.ts.amp, x ≠ 0) → ∃ m : ℚ, 0 < m ∧
      a.timeseriesmatrixFl detrend .all =
        a.sensors.map (fun s => (detrend s.ts.amp).map fun x => Fl.fin (x / m)) ∧
      (∀ s ∈ a.sensors, ∀ x ∈ detrend s.ts.amp, |x / m| ≤ 1) ∧
      ∃ s ∈ a.sensors, ∃ x ∈ detrend s.ts.amp, |x / m| = 1) ∧
    ((∀ s ∈ a.sensors, ∀ x ∈ detrend s.ts.amp, x = 0) →
      a.timeseriesmatrixFl detrend .all =
        a.sensors.map (fun s => (detrend s.ts.amp).map fun _ => Fl.nan)) := by
  simp only [timeseriesmatrixFl, List.map_map, Function.comp_def]
  obtain ⟨h1, h2, h3, h4⟩ := maxAbs_spec (a.sensors.map fun s => detrend s.ts.amp).flatten
  generalize hM : maxAbs (a.sensors.map fun s => detrend s.ts.amp).flatten = M at *
  have hmem : ∀ s ∈ a.sensors, ∀ x ∈ detrend s.ts.amp,
      x ∈ (a.sensors.map fun s => detrend s.ts.amp).flatten :=
    fun s hs x hx => List.mem_flatten.2 ⟨_, List.mem_map.2 ⟨s, hs, rfl⟩, hx⟩
  constructor
  · rintro ⟨s, hs, x, hx, hne⟩
    obtain ⟨hpos, y, hy, hyy⟩ := h3 ⟨x, hmem s hs x hx, hne⟩
    refine ⟨M, hpos, ?_, ?_, ?_⟩
    · apply List.map_congr_left
      intro s _
      apply List.map_congr_left
      intro x _
      simp [Fl.div, hpos.ne']
    · intro s hs x hx
      rw [abs_div, abs_of_pos hpos, div_le_one hpos]; exact h1 x (hmem s hs x hx)
    · obtain ⟨r, hr, hyr⟩ := List.mem_flatten.1 hy
      obtain ⟨t, ht, rfl⟩ := List.mem_map.1 hr
      exact ⟨t, ht, y, hyr, by rw [abs_div, abs_of_pos hpos, hyy, div_self hpos.ne']⟩
  · intro hz
    have hM0 : M = 0 := by
      apply h4
      intro x hx
      obtain ⟨r, hr, hxr⟩ := List.mem_flatten.1 hx
      obtain ⟨t, ht, rfl⟩ := List.mem_map.1 hr
      exact hz t ht x hxr
    apply List.map_congr_left
    intro s hs
    apply List.map_congr_left
    intro x hx
    simp [Fl.div, hM0, hz s hs x hx, Fl.infMul]

example :
    let a : Arr := ⟨[mkS 0 [1, -2], mkS 1 [0, 0], mkS 2 [4, 1]], ⟨-1, 0, 0⟩⟩
    a.timeseriesmatrixFl id .each = [[.fin (1 / 2), .fin (-1)], [.nan, .nan], [.fin 1, .fin (1 / 4)]] ∧
    a.timeseriesmatrixFl id .all = [[.fin (1 / 4), .fin (-1 / 2)], [.fin 0, .fin 0], [.fin 1, .fin (1 / 4)]] := by
  decide +kernel

/-! ## Geometry -/

theorem diff_getElem (l : List ℚ) : ∀ (k : ℕ) (x y : ℚ), l[k]? = some x → l[k + 1]? = some y →
    (diff l)[k]? = some (y - x) := by
  induction l with
  | nil => intro k x y h; simp at h
  | cons a l ih =>
    intro k x y h1 h2
    rcases l with _ | ⟨b, l⟩
    · simp at h2
    · unfold diff
      cases k with
      | zero =>
        simp only [List.getElem?_cons_zero, Option.some.injEq, Nat.zero_add, List.getElem?_cons_succ] at h1 h2 ⊢
        rw [← h1, ← h2]
      | succ k =>
        simp only [List.getElem?_cons_succ] at h1 h2 ⊢
        exact ih k x y h1 h2

theorem diff_mem (l : List ℚ) (d : ℚ) (h : d ∈ diff l) :
    ∃ (k : ℕ) (x y : ℚ), l[k]? = some x ∧ l[k + 1]? = some y ∧ d = y - x := by
  induction l with
  | nil => simp [diff] at h
  | cons a l ih =>
    rcases l with _ | ⟨b, l⟩
    · simp [diff] at h
    · unfold diff at h
      rcases List.mem_cons.1 h with rfl | h
      · exact ⟨0, a, b, rfl, rfl, rfl⟩
      · obtain ⟨k, x, y, h1, h2, h3⟩ := ih h
        exact ⟨k + 1, x, y, h1, h2, h3⟩

/-- `d` is the distance between two neighbouring sensors. -/
def NeighbourDistance (a : Arr) (d : ℚ) : Prop :=
  ∃ (k : ℕ) (s t : Sensor), a.sensors[k]? = some s ∧ a.sensors[k + 1]? = some t ∧ d = t.x - s.x

theorem mem_diff_iff (a : Arr) (d : ℚ) : d ∈ diff a.position ↔ NeighbourDistance a d := by
  constructor
  · intro h
    obtain ⟨k, x, y, h1, h2, h3⟩ := diff_mem _ _ h
    simp only [position, List.getElem?_map, Option.map_eq_some_iff] at h1 h2
    obtain ⟨s, hs, rfl⟩ := h1
    obtain ⟨t, ht, rfl⟩ := h2
    exact ⟨k, s, t, hs, ht, h3⟩
  · rintro ⟨k, s, t, hs, ht, rfl⟩
    have := diff_getElem a.position k s.x t.x (by simp [position, hs]) (by simp [position, ht])
    exact List.mem_of_getElem? this

theorem minList_spec {l : List ℚ} {m : ℚ} (h : minList l = some m) : m ∈ l ∧ ∀ x ∈ l, m ≤ x := by
  rcases l with _ | ⟨a, l⟩
  · simp [minList] at h
  · simp only [minList, Option.some.injEq] at h
    obtain ⟨h1, h2, h3⟩ := foldl_min_spec l a
    rw [h] at h1 h2 h3
    refine ⟨?_, ?_⟩
    · rcases h3 with h3 | h3
      · rw [h3]; simp
      · simp [h3]
    · intro x hx
      rcases List.mem_cons.1 hx with rfl | hx
      · exact h1
      · exact h2 x hx

theorem maxList_spec {l : List ℚ} {m : ℚ} (h : maxList l = some m) : m ∈ l ∧ ∀ x ∈ l, x ≤ m := by
  rcases l with _ | ⟨a, l⟩
  · simp [maxList] at h
  · simp only [maxList, Option.some.injEq] at h
    obtain ⟨h1, h2, h3⟩ := foldl_max_spec l a
    rw [h] at h1 h2 h3
    refine ⟨?_, ?_⟩
    · rcases h3 with h3 | h3
      · rw [h3]; simp
      · simp [h3]
    · intro x hx
      rcases List.mem_cons.1 hx with rfl | hx
      · exact h1
      · exact h2 x hx

theorem exists_min_max (a : Arr) (h2 : 2 ≤ a.sensors.length) :
    ∃ mn mx, minList (diff a.position) = some mn ∧ maxList (diff a.position) = some mx := by
  rcases hs : a.sensors with _ | ⟨s, _ | ⟨t, rest⟩⟩
  · rw [hs] at h2; simp at h2
  · rw [hs] at h2; simp at h2
  · exact ⟨_, _, by simp only [position, hs, List.map_cons, diff, minList]; rfl,
      by simp only [position, hs, List.map_cons, diff, maxList]; rfl⟩

/-- The smallest distance between any two sensors of an ordered array is one between neighbours. -/
theorem neighbour_le (a : Arr) (hc : Consistent a) (i j : ℕ) (hij : i < j) (s t : Sensor)
    (hs : a.sensors[i]? = some s) (ht : a.sensors[j]? = some t) :
    0 < t.x - s.x ∧ ∃ d, NeighbourDistance a d ∧ d ≤ t.x - s.x := by
  have hmono : ∀ i j : ℕ, i < j → ∀ s t, a.sensors[i]? = some s → a.sensors[j]? = some t → s.x < t.x := by
    intro i j hij s t hs ht
    have hi : i < a.sensors.length := (List.getElem?_eq_some_iff.1 hs).1
    have hj : j < a.sensors.length := (List.getElem?_eq_some_iff.1 ht).1
    have := List.pairwise_iff_getElem.1 hc.2.1 i j hi hj hij
    rwa [(List.getElem?_eq_some_iff.1 hs).2, (List.getElem?_eq_some_iff.1 ht).2] at this
  refine ⟨by linarith [hmono i j hij s t hs ht], ?_⟩
  have hj : j < a.sensors.length := (List.getElem?_eq_some_iff.1 ht).1
  have hu : a.sensors[i + 1]? = some (a.sensors[i + 1]'(by omega)) :=
    List.getElem?_eq_getElem (by omega)
  refine ⟨_, ⟨i, s, _, hs, hu, rfl⟩, ?_⟩
  rcases Nat.lt_or_eq_of_le (Nat.succ_le_of_lt hij) with h | h
  · have := hmono (i + 1) j h _ t hu ht; linarith
  · have h' : i + 1 = j := h
    subst h'
    rw [hu] at ht
    simp only [Option.some.injEq] at ht
    rw [ht]

/-- **C25** (resolution).  For an array with at least two sensors `kres` is defined, and times the smallest
distance between any two of its sensors it is (the float) pi. -/
theorem C25_kres_times_smallest_spacing_is_pi (a : Arr) (hc : Consistent a) (h2 : 2 ≤ a.sensors.length) :
    ∃ k m, a.kres = .ok k ∧ k * m = pyPi ∧ 0 < m ∧
      (∃ (i j : ℕ) (s t : Sensor), i < j ∧ a.sensors[i]? = some s ∧ a.sensors[j]? = some t ∧ m = t.x - s.x) ∧
      ∀ (i j : ℕ) (s t : Sensor), i < j → a.sensors[i]? = some s → a.sensors[j]? = some t → m ≤ t.x - s.x := by
  obtain ⟨mn, mx, hmn, -⟩ := exists_min_max a h2
  obtain ⟨h1, hle⟩ := minList_spec hmn
  obtain ⟨i, s, t, hs, ht, hd⟩ := (mem_diff_iff a mn).1 h1
  have hpos := (neighbour_le a hc i (i + 1) (by omega) s t hs ht).1
  refine ⟨pyPi / mn, mn, by simp [kres, hmn], ?_, by rw [hd]; exact hpos,
    ⟨i, i + 1, s, t, by omega, hs, ht, hd⟩, ?_⟩
  · rw [div_mul_cancel₀]; rw [hd]; exact hpos.ne'
  · intro i j s t hij hs ht
    obtain ⟨-, d, hd, hdle⟩ := neighbour_le a hc i j hij s t hs ht
    exact (hle d ((mem_diff_iff a d).2 hd)).trans hdle

/-- **C25** (the float pi).  `np.pi` is pi to within 10⁻¹⁵; the bounds used are those of its decimals. -/
theorem C25_pyPi_decimals : 3141592653589793 / 1000000000000000 ≤ pyPi ∧
    pyPi ≤ 3141592653589794 / 1000000000000000 := by decide +kernel

/-- **C25** (spacing).  `spacing` is defined exactly when all neighbour distances agree to within 1 cm, and
is then within half a centimetre of the smallest; otherwise it raises `ValueError`. -/
theorem C25_spacing (a : Arr) (h2 : 2 ≤ a.sensors.length) :
    ((∃ q, a.spacing = .ok q) ↔
      ∀ d e, NeighbourDistance a d → NeighbourDistance a e → |d - e| < 1 / 100) ∧
    (∀ q, a.spacing = .ok q → ∃ m, NeighbourDistance a m ∧ (∀ d, NeighbourDistance a d → m ≤ d) ∧
      |q - m| ≤ 1 / 200) ∧
    ∀ e, a.spacing = .error e → e = .valueError := by
  obtain ⟨mn, mx, hmn, hmx⟩ := exists_min_max a h2
  obtain ⟨h1, hle⟩ := minList_spec hmn
  obtain ⟨h3, hge⟩ := maxList_spec hmx
  have hsp : a.spacing = if mx - mn < 1 / 100 then .ok (pyRoundDigits mn 2) else .error .valueError := by
    simp [spacing, hmn, hmx]
  rw [hsp]
  refine ⟨?_, ?_, ?_⟩
  · split_ifs with h
    · refine ⟨fun _ d e hd he => ?_, fun _ => ⟨_, rfl⟩⟩
      have h5 := hle d ((mem_diff_iff a d).2 hd)
      have h6 := hge d ((mem_diff_iff a d).2 hd)
      have h7 := hle e ((mem_diff_iff a e).2 he)
      have h8 := hge e ((mem_diff_iff a e).2 he)
      rw [abs_lt]; constructor <;> linarith
    · refine ⟨fun ⟨q, hq⟩ => (by simp at hq), fun hall => ?_⟩
      exact absurd (lt_of_le_of_lt (le_abs_self _)
        (hall mx mn ((mem_diff_iff a mx).1 h3) ((mem_diff_iff a mn).1 h1))) h
  · intro q hq
    split_ifs at hq with h
    simp only [Except.ok.injEq] at hq
    refine ⟨mn, (mem_diff_iff a mn).1 h1, fun d hd => hle d ((mem_diff_iff a d).2 hd), ?_⟩
    rw [← hq, pyRoundDigits]
    have := pyRound_abs_sub_le (mn * (10 : ℚ) ^ (2 : ℤ))
    norm_num at this ⊢
    rw [abs_le] at this ⊢
    constructor <;> linarith [this.1, this.2]
  · intro e he
    split_ifs at he
    simpa using he.symm

example : (Arr.mk [mkS 0 [1], mkS 2 [1], mkS (401 / 100) [1]] ⟨-1, 0, 0⟩).spacing = .error .valueError ∧
    (Arr.mk [mkS 0 [1], mkS 2 [1], mkS 4 [1]] ⟨-1, 0, 0⟩).spacing = .ok 2 ∧
    (Arr.mk [mkS 0 [1], mkS 2 [1], mkS 3 [1]] ⟨-1, 0, 0⟩).kres = .ok pyPi := by decide +kernel

/-! ## Equality and similarity -/

/-- **C29** (similarity is an equivalence, and its meaning). -/
theorem C29_similarity_is_equivalence :
    (∀ a b : Arr, a.isSimilar b = true ↔ a.sensors.length = b.sensors.length ∧ a.source = b.source) ∧
    (∀ a : Arr, a.isSimilar a = true) ∧ (∀ a b : Arr, a.isSimilar b = true → b.isSimilar a = true) ∧
    (∀ a b c : Arr, a.isSimilar b = true → b.isSimilar c = true → a.isSimilar c = true) := by
  have h : ∀ a b : Arr, a.isSimilar b = true ↔ a.sensors.length = b.sensors.length ∧ a.source = b.source := by
    intro a b
    simp only [isSimilar, nchannels, Source.eq, Bool.and_eq_true, decide_eq_true_eq]
    constructor
    · rintro ⟨h1, ⟨h2, h3⟩, h4⟩
      refine ⟨of_decide_eq_true h1, ?_⟩
      cases ha : a.source; cases hb : b.source
      simp_all
    · rintro ⟨h1, h2⟩
      simp [h1, h2]
  refine ⟨h, fun a => (h a a).2 ⟨rfl, rfl⟩, fun a b hab => ?_, fun a b c hab hbc => ?_⟩
  · obtain ⟨h1, h2⟩ := (h a b).1 hab
    exact (h b a).2 ⟨h1.symm, h2.symm⟩
  · obtain ⟨h1, h2⟩ := (h a b).1 hab
    obtain ⟨h3, h4⟩ := (h b c).1 hbc
    exact (h a c).2 ⟨h1.trans h3, h2.trans h4⟩

theorem sensor_eq_iff (s t : Sensor) : s.eq t = true ↔
    s.x = t.x ∧ s.y = t.y ∧ s.z = t.z ∧ s.ts.eq t.ts = true := by
  simp [Sensor.eq, Sensor.isSimilar, ATS.eq, and_assoc]

/-- **C29** (meaning of equality).  Arrays are equal exactly when they have equally many sensors and the same
source and their sensors agree pairwise in position and record. -/
theorem C29_equality_iff (a b : Arr) : a.eq b = true ↔
    a.sensors.length = b.sensors.length ∧ a.source = b.source ∧
      ∀ (i : ℕ) (s t : Sensor), a.sensors[i]? = some s → b.sensors[i]? = some t →
        s.x = t.x ∧ s.y = t.y ∧ s.z = t.z ∧ s.ts.eq t.ts = true := by
  rw [Arr.eq, Bool.and_eq_true, C29_similarity_is_equivalence.1 a b, and_assoc]
  refine and_congr_right fun hl => and_congr_right fun _ => ?_
  rw [List.all_eq_true]
  constructor
  · intro h i s t hs ht
    rw [← sensor_eq_iff]
    refine h _ (List.mem_iff_getElem?.2 ⟨i, ?_⟩)
    rw [List.getElem?_zipWith, hs, ht]
    rfl
  · intro h v hv
    obtain ⟨i, hi⟩ := List.mem_iff_getElem?.1 hv
    rw [List.getElem?_zipWith] at hi
    rcases hs : a.sensors[i]? with _ | s
    · simp [hs] at hi
    rcases ht : b.sensors[i]? with _ | t
    · simp [hs, ht] at hi
    rw [hs, ht] at hi
    simp only [Option.some.injEq] at hi
    rw [← hi]
    exact (sensor_eq_iff s t).2 (h i s t hs ht)

/-- **C29** (every array equals itself). -/
theorem C29_equality_reflexive (a : Arr) : a.eq a = true := by
  rw [C29_equality_iff]
  refine ⟨rfl, rfl, ?_⟩
  intro i s t hs ht
  rw [hs, Option.some.injEq] at ht
  subst ht
  exact ⟨rfl, rfl, rfl, (C12_eq_reflexive_and_sound_partial s.ts s.ts).1⟩

theorem copySensors_ok (l : List Sensor) (h : ∀ s ∈ l, 0 < s.ts.nstacks ∧ s.ts.delay ≤ 0) :
    copySensors l = .ok (l.map fun s => { s with ts := { s.ts with multiple := 1 } }) := by
  induction l with
  | nil => rfl
  | cons s rest ih =>
    unfold copySensors
    rw [ih (fun t ht => h t (by simp [ht])), Sensor.fromSensor, Sensor.init_eq, if_pos (h s (by simp))]
    rfl

/-- **C29** (copies).  The copy of an array which starts at or before time zero exists and equals it; if no
sensor was padded to a multiple the copy is identical. -/
theorem C29_copy_equals_original (l : List Sensor) (src : Source) (a : Arr) (h : Arr.init l src = .ok a)
    (hl : ∀ s ∈ l, 0 < s.ts.nstacks ∧ s.ts.delay ≤ 0) :
    ∃ c, a.fromArray = .ok c ∧ c.eq a = true ∧ a.eq c = true ∧
      ((∀ s ∈ l, s.ts.multiple = 1) → c = a) := by
  obtain ⟨hc, hp, -⟩ := init_consistent h
  have ha : ∀ s ∈ a.sensors, 0 < s.ts.nstacks ∧ s.ts.delay ≤ 0 := fun s hs => hl s (hp.mem_iff.1 hs)
  have hcc : Consistent ⟨a.sensors.map fun s => { s with ts := { s.ts with multiple := 1 } }, a.source⟩ := by
    refine consistent_of_frame hc ?_
    simp only [List.forall₂_map_right_iff]
    exact List.forall₂_same.2 fun s _ => ⟨rfl, rfl, rfl, rfl, rfl⟩
  refine ⟨⟨a.sensors.map fun s => { s with ts := { s.ts with multiple := 1 } }, a.source⟩, ?_, ?_, ?_, ?_⟩
  · unfold fromArray
    rw [copySensors_ok _ ha]
    exact init_of_consistent hcc
  · rw [C29_equality_iff]
    refine ⟨by simp, rfl, ?_⟩
    intro i s t hs ht
    simp only [List.getElem?_map, ht, Option.map_some, Option.some.injEq] at hs
    subst hs
    refine ⟨rfl, rfl, rfl, ?_⟩
    exact (C12_eq_reflexive_and_sound_partial t.ts t.ts).1
  · rw [C29_equality_iff]
    refine ⟨by simp, rfl, ?_⟩
    intro i s t hs ht
    simp only [List.getElem?_map, hs, Option.map_some, Option.some.injEq] at ht
    subst ht
    refine ⟨rfl, rfl, rfl, ?_⟩
    exact (C12_eq_reflexive_and_sound_partial s.ts s.ts).1
  · intro hm
    have : a.sensors.map (fun s => { s with ts := { s.ts with multiple := 1 } }) = a.sensors := by
      conv_rhs => rw [← List.map_id a.sensors]
      apply List.map_congr_left
      intro s hs
      have := hm s (hp.mem_iff.1 hs)
      rcases s with ⟨⟨amp, dt, ns, d, m⟩, x, y, z⟩
      simp only at this
      subst this
      rfl
    rw [this]

example :
    let a : Arr := ⟨[mkS 0 [1, 2], mkS 1 [3, 4]], ⟨-1, 0, 0⟩⟩
    a.fromArray = .ok a ∧ a.eq ⟨[mkS 0 [1, 2], mkS 1 [3, 5]], ⟨-1, 0, 0⟩⟩ = false := by decide +kernel

/-! ## First arrivals -/

/-- The condition of the model for sample `k`. -/
def Exceeds (threshold : ℚ) (tr : List Fl) (k : ℕ) : Prop :=
  ∃ v, tr[k]? = some v ∧
    Fl.lt (.fin threshold) (Fl.abs (Fl.sub v (flMean (tr.take 10)))) = true

theorem firstExceeding_ok (threshold : ℚ) (tr : List Fl) (k : ℕ) :
    firstExceeding threshold tr = .ok k ↔
      Exceeds threshold tr k ∧ ∀ j < k, ¬ Exceeds threshold tr j := by
  unfold firstExceeding Exceeds
  generalize hp : (fun v => Fl.lt (.fin threshold) (Fl.abs (Fl.sub v (flMean (tr.take 10))))) = p
  have hp' : ∀ v, Fl.lt (.fin threshold) (Fl.abs (Fl.sub v (flMean (tr.take 10)))) = p v :=
    fun v => congrFun hp v
  simp only [hp']
  have hiff : tr.findIdx? p = some k ↔
      (∃ v, tr[k]? = some v ∧ p v = true) ∧ ∀ j < k, ¬ ∃ v, tr[j]? = some v ∧ p v = true := by
    rw [List.findIdx?_eq_some_iff_getElem]
    constructor
    · rintro ⟨h1, h2, h3⟩
      refine ⟨⟨_, List.getElem?_eq_getElem h1, h2⟩, ?_⟩
      rintro j hj ⟨v, hv, hpv⟩
      have := h3 j hj
      rw [(List.getElem?_eq_some_iff.1 hv).2, hpv] at this
      simp at this
    · rintro ⟨⟨v, hv, hpv⟩, h3⟩
      have hk := (List.getElem?_eq_some_iff.1 hv).1
      refine ⟨hk, by rw [(List.getElem?_eq_some_iff.1 hv).2]; exact hpv, ?_⟩
      intro j hj
      have := h3 j hj
      intro hpj
      exact this ⟨_, List.getElem?_eq_getElem (by omega), hpj⟩
  rw [← hiff]
  rcases tr.findIdx? p with _ | j <;> simp

theorem firstExceeding_error (threshold : ℚ) (tr : List Fl) (e : PyErr) :
    firstExceeding threshold tr = .error e ↔
      e = .indexError ∧ ∀ k, ¬ Exceeds threshold tr k := by
  constructor
  · intro h
    have he : e = .indexError := by
      unfold firstExceeding at h
      split at h
      · simp at h
      · simpa using h.symm
    refine ⟨he, ?_⟩
    intro k hk
    classical
    obtain ⟨j, hj, hmin⟩ : ∃ j, Exceeds threshold tr j ∧ ∀ i < j, ¬ Exceeds threshold tr i :=
      ⟨Nat.find ⟨k, hk⟩, Nat.find_spec _, fun i hi => Nat.find_min _ hi⟩
    rw [(firstExceeding_ok threshold tr j).2 ⟨hj, hmin⟩] at h
    simp at h
  · rintro ⟨rfl, h⟩
    rcases hf : firstExceeding threshold tr with e | k
    · unfold firstExceeding at hf
      split at hf
      · simp at hf
      · exact hf.symm
    · exact absurd ((firstExceeding_ok threshold tr k).1 hf).1 (h k)

/-- Sample `k` of a trace is further from the mean of the first ten samples than the threshold times the largest
absolute value of the trace, which is not zero. -/
def LeavesBand (threshold : ℚ) (x : List ℚ) (k : ℕ) : Prop :=
  ∃ m v : ℚ, 0 < m ∧ (∀ y ∈ x, |y| ≤ m) ∧ (∃ y ∈ x, |y| = m) ∧ x[k]? = some v ∧
    threshold * m < |v - (x.take 10).sum / (x.take 10).length|

private theorem flSum_fin (l : List ℚ) : flSum (l.map Fl.fin) = .fin l.sum := by
  have key : ∀ (l : List ℚ) (q : ℚ), (l.map Fl.fin).foldl Fl.add (.fin q) = .fin (q + l.sum) := by
    intro l
    induction l with
    | nil => intro q; simp
    | cons x l ih => intro q; simp [Fl.add, ih, add_assoc]
  rw [flSum, key, zero_add]

private theorem sum_map_div (l : List ℚ) (m : ℚ) : (l.map fun x => x / m).sum = l.sum / m := by
  induction l with
  | nil => simp
  | cons x l ih => simp [ih, add_div]

theorem exceeds_iff (a : Arr) (detrend : List ℚ → List ℚ) (threshold : ℚ) (i : ℕ) (s : Sensor) (row : List Fl)
    (hs : a.sensors[i]? = some s) (hrow : (a.timeseriesmatrixFl detrend .each)[i]? = some row) (k : ℕ) :
    Exceeds threshold row k ↔ LeavesBand threshold (detrend s.ts.amp) k := by
  obtain ⟨hne, hz⟩ := C24_each_scales_every_trace a detrend i s row hs hrow
  generalize detrend s.ts.amp = x at hne hz
  by_cases h : ∃ y ∈ x, y ≠ 0
  · obtain ⟨m, hm, rfl, hle, y, hy, hy1⟩ := hne h
    have hym : |y| = m := by
      rw [abs_div, abs_of_pos hm, div_eq_one_iff_eq hm.ne'] at hy1; exact hy1
    have hle' : ∀ y ∈ x, |y| ≤ m := fun y hy => by
      have := hle y hy
      rwa [abs_div, abs_of_pos hm, div_le_one hm] at this
    have hmap : x.map (fun x => Fl.fin (x / m)) = (x.map fun x => x / m).map Fl.fin := by simp
    have hx0 : (x.take 10).length ≠ 0 := by
      have := List.length_pos_of_mem hy
      rw [List.length_take]; omega
    have hmean : flMean ((x.map fun x => Fl.fin (x / m)).take 10) =
        .fin ((x.take 10).sum / (x.take 10).length / m) := by
      rw [hmap, ← List.map_take, flMean, flSum_fin, ← List.map_take, sum_map_div]
      have : ((x.take 10).length : ℚ) ≠ 0 := by exact_mod_cast hx0
      simp only [List.length_map, Fl.div, this, if_false]
      rw [div_right_comm]
    have hkey : ∀ v : ℚ, (threshold < |v / m - (x.take 10).sum / (x.take 10).length / m|) ↔
        threshold * m < |v - (x.take 10).sum / (x.take 10).length| := by
      intro v
      rw [← sub_div, abs_div, abs_of_pos hm, lt_div_iff₀ hm]
    unfold Exceeds LeavesBand
    rw [hmean]
    constructor
    · rintro ⟨v, hv, hlt⟩
      rw [List.getElem?_map, Option.map_eq_some_iff] at hv
      obtain ⟨v, hv, rfl⟩ := hv
      refine ⟨m, v, hm, hle', ⟨y, hy, hym⟩, hv, (hkey v).1 ?_⟩
      simpa [Fl.sub, Fl.neg, Fl.add, Fl.abs, Fl.lt, ← sub_eq_add_neg] using hlt
    · rintro ⟨m', v, -, hle2, ⟨z, hz1, hz2⟩, hv, hlt⟩
      have : m' = m := le_antisymm (hz2 ▸ hle' z hz1) (hym ▸ hle2 y hy)
      subst this
      refine ⟨.fin (v / m'), by simp [hv], ?_⟩
      simpa [Fl.sub, Fl.neg, Fl.add, Fl.abs, Fl.lt, ← sub_eq_add_neg] using (hkey v).2 hlt
  · push Not at h
    constructor
    · rintro ⟨v, hv, hlt⟩
      rw [hz h, List.getElem?_map, Option.map_eq_some_iff] at hv
      obtain ⟨-, -, rfl⟩ := hv
      simp [Fl.sub, Fl.add, Fl.abs, Fl.lt] at hlt
    · rintro ⟨m, v, hm, -, ⟨y, hy, hym⟩, -⟩
      rw [h y hy, abs_zero] at hym
      exact absurd hym hm.ne

theorem first_arrivals (a : Arr) (detrend : List ℚ → List ℚ) (threshold : ℚ) (hc : Consistent a)
    (hd : ∀ l, (detrend l).length = l.length) :
    (∀ ps ts, a.pickOnThreshold detrend threshold = .ok (ps, ts) →
      ps = a.sensors.map Sensor.x ∧ ts.length = a.sensors.length ∧
      ∀ (i : ℕ) (s : Sensor) (t : ℚ) (tr : List Fl), a.sensors[i]? = some s → ts[i]? = some t →
        (a.timeseriesmatrixFl detrend .each)[i]? = some tr →
        ∃ k : ℕ, t = (k : ℚ) * s.ts.dt + s.ts.delay ∧ Exceeds threshold tr k ∧
          ∀ j < k, ¬ Exceeds threshold tr j) ∧
    ((∃ r, a.pickOnThreshold detrend threshold = .ok r) ↔
      ∀ tr ∈ a.timeseriesmatrixFl detrend .each, ∃ k, Exceeds threshold tr k) ∧
    ∀ e, a.pickOnThreshold detrend threshold = .error e → e = .indexError := by
  rcases hl : a.sensors with _ | ⟨s0, rest⟩
  · exact absurd hl hc.1
  have hmeta : ∀ s ∈ a.sensors, SameMeta s0.ts s.ts := fun s hs => hc.2.2 s0 (by rw [hl]; simp) s hs
  have hlen : ∀ tr ∈ a.timeseriesmatrixFl detrend .each, tr.length = s0.ts.time.length := by
    intro tr ht
    simp only [timeseriesmatrixFl, List.map_map, List.mem_map] at ht
    obtain ⟨s, hs, rfl⟩ := ht
    simp only [Function.comp, List.length_map, hd, ATS.time_length]
    exact ((hmeta s hs).2.2.2).symm
  have hrows : (a.timeseriesmatrixFl detrend .each).length = a.sensors.length := by
    simp [timeseriesmatrixFl]
  have hpick : a.pickOnThreshold detrend threshold =
      match pickLoop threshold s0.ts.time (a.timeseriesmatrixFl detrend .each) with
      | .error e => .error e
      | .ok ts => .ok (a.position, ts) := by
    simp only [pickOnThreshold, hl]
    rfl
  have hloop : ∀ rows : List (List Fl), (∀ tr ∈ rows, tr.length = s0.ts.time.length) →
      ((∀ ts, pickLoop threshold s0.ts.time rows = .ok ts → ts.length = rows.length ∧
        ∀ (i : ℕ) (t : ℚ) (tr : List Fl), ts[i]? = some t → rows[i]? = some tr →
          ∃ k : ℕ, s0.ts.time[k]? = some t ∧ Exceeds threshold tr k ∧
            ∀ j < k, ¬ Exceeds threshold tr j) ∧
      ((∃ ts, pickLoop threshold s0.ts.time rows = .ok ts) ↔
        ∀ tr ∈ rows, ∃ k, Exceeds threshold tr k) ∧
      ∀ e, pickLoop threshold s0.ts.time rows = .error e → e = .indexError) := by
    intro rows
    induction rows with
    | nil =>
      intro _
      refine ⟨?_, ?_, ?_⟩
      · intro ts h
        simp only [pickLoop, Except.ok.injEq] at h
        subst h
        simp
      · simp [pickLoop]
      · intro e h; simp [pickLoop] at h
    | cons tr rows ih =>
      intro hrl
      obtain ⟨ih1, ih2, ih3⟩ := ih (fun t ht => hrl t (by simp [ht]))
      rcases hf : firstExceeding threshold tr with e | k
      · obtain ⟨he, hnone⟩ := (firstExceeding_error threshold tr e).1 hf
        have : pickLoop threshold s0.ts.time (tr :: rows) = .error e := by simp [pickLoop, hf]
        rw [this]
        refine ⟨by simp, ?_, ?_⟩
        · constructor
          · rintro ⟨ts, h⟩; simp at h
          · intro h
            obtain ⟨k, hk⟩ := h tr (by simp)
            exact absurd hk (hnone k)
        · intro e' h'
          simp only [Except.error.injEq] at h'
          rw [← h', he]
      · obtain ⟨hex, hfirst⟩ := (firstExceeding_ok threshold tr k).1 hf
        have hk : k < s0.ts.time.length := by
          obtain ⟨v, hv, -⟩ := hex
          rw [← hrl tr (by simp)]
          exact (List.getElem?_eq_some_iff.1 hv).1
        rcases hr : pickLoop threshold s0.ts.time rows with e | ts
        · have : pickLoop threshold s0.ts.time (tr :: rows) = .error e := by
            simp [pickLoop, hf, List.getElem?_eq_getElem hk, hr]
          rw [this]
          refine ⟨by simp, ?_, ?_⟩
          · constructor
            · rintro ⟨ts, h⟩; simp at h
            · intro h
              obtain ⟨ts, hts⟩ := ih2.2 (fun t ht => h t (by simp [ht]))
              rw [hr] at hts; simp at hts
          · intro e' h'
            simp only [Except.error.injEq] at h'
            rw [← h']; exact ih3 e hr
        · have : pickLoop threshold s0.ts.time (tr :: rows) = .ok (s0.ts.time[k] :: ts) := by
            simp [pickLoop, hf, List.getElem?_eq_getElem hk, hr]
          rw [this]
          obtain ⟨ih11, ih12⟩ := ih1 ts hr
          refine ⟨?_, ?_, by simp⟩
          · intro ts' h'
            simp only [Except.ok.injEq] at h'
            subst h'
            refine ⟨by simp [ih11], ?_⟩
            intro i t tr2 ht htr2
            cases i with
            | zero =>
              simp only [List.getElem?_cons_zero, Option.some.injEq] at ht htr2
              subst htr2
              exact ⟨k, by rw [List.getElem?_eq_getElem hk, ht], hex, hfirst⟩
            | succ i =>
              simp only [List.getElem?_cons_succ] at ht htr2
              exact ih12 i t tr2 ht htr2
          · refine ⟨fun _ => ?_, fun _ => ⟨_, rfl⟩⟩
            intro tr2 htr2
            rcases List.mem_cons.1 htr2 with rfl | htr2
            · exact ⟨k, hex⟩
            · exact (ih2.1 ⟨ts, hr⟩) tr2 htr2
  obtain ⟨h1, h2, h3⟩ := hloop _ hlen
  rw [hpick]
  refine ⟨?_, ?_, ?_⟩
  · intro ps ts h
    rcases hr : pickLoop threshold s0.ts.time (a.timeseriesmatrixFl detrend .each) with e | ts'
    · rw [hr] at h; simp at h
    · rw [hr] at h
      simp only [Except.ok.injEq, Prod.mk.injEq] at h
      obtain ⟨rfl, rfl⟩ := h
      obtain ⟨h11, h12⟩ := h1 ts' hr
      refine ⟨by rw [← hl]; rfl, by rw [h11, hrows, hl], ?_⟩
      intro i s t tr hs ht htr2
      obtain ⟨k, hk1, hk2, hk3⟩ := h12 i t tr ht htr2
      rw [← hl] at hs
      have hm := hmeta s (List.mem_of_getElem? hs)
      refine ⟨k, ?_, hk2, hk3⟩
      obtain ⟨hkl, hkt⟩ := List.getElem?_eq_some_iff.1 hk1
      rw [← hkt, ATS.time_getElem, hm.1, hm.2.2.1]
  · rw [← h2]
    rcases hr : pickLoop threshold s0.ts.time (a.timeseriesmatrixFl detrend .each) with e | ts' <;> simp
  · intro e h
    rcases hr : pickLoop threshold s0.ts.time (a.timeseriesmatrixFl detrend .each) with e' | ts'
    · rw [hr] at h
      simp only [Except.error.injEq] at h
      rw [← h]; exact h3 e' hr
    · rw [hr] at h; simp at h

/-- **C93**.  Threshold picking returns the sensor positions and, for each sensor, the time of the first sample of
its detrended trace which is further from the mean of the first ten samples than the threshold, as a part of the
largest absolute value of the trace; if there is none for one of the traces the call raises `IndexError`. -/
theorem C93_first_arrivals (a : Arr) (detrend : List ℚ → List ℚ) (threshold : ℚ) (hc : Consistent a)
    (hd : ∀ l, (detrend l).length = l.length) :
    (∀ ps ts, a.pickOnThreshold detrend threshold = .ok (ps, ts) →
      ps = a.sensors.map Sensor.x ∧ ts.length = a.sensors.length ∧
      ∀ (i : ℕ) (s : Sensor) (t : ℚ), a.sensors[i]? = some s → ts[i]? = some t →
        ∃ k : ℕ, t = (k : ℚ) * s.ts.dt + s.ts.delay ∧ LeavesBand threshold (detrend s.ts.amp) k ∧
          ∀ j < k, ¬ LeavesBand threshold (detrend s.ts.amp) j) ∧
    ((∃ r, a.pickOnThreshold detrend threshold = .ok r) ↔
      ∀ s ∈ a.sensors, ∃ k, LeavesBand threshold (detrend s.ts.amp) k) ∧
    ∀ e, a.pickOnThreshold detrend threshold = .error e → e = .indexError := by
  obtain ⟨h1, h2, h3⟩ := first_arrivals a detrend threshold hc hd
  have hlen : (a.timeseriesmatrixFl detrend .each).length = a.sensors.length := by simp [timeseriesmatrixFl]
  have hrow : ∀ (i : ℕ) (s : Sensor), a.sensors[i]? = some s →
      ∃ row, (a.timeseriesmatrixFl detrend .each)[i]? = some row := by
    intro i s hs
    have := (List.getElem?_eq_some_iff.1 hs).1
    exact ⟨_, List.getElem?_eq_getElem (by omega)⟩
  refine ⟨?_, ?_, h3⟩
  · intro ps ts h
    obtain ⟨g1, g2, g3⟩ := h1 ps ts h
    refine ⟨g1, g2, fun i s t hs ht => ?_⟩
    obtain ⟨row, hr⟩ := hrow i s hs
    obtain ⟨k, k1, k2, k3⟩ := g3 i s t row hs ht hr
    simp only [exceeds_iff a detrend threshold i s row hs hr] at k2 k3
    exact ⟨k, k1, k2, k3⟩
  · rw [h2]
    constructor
    · intro h s hs
      obtain ⟨i, hi⟩ := List.mem_iff_getElem?.1 hs
      obtain ⟨row, hr⟩ := hrow i s hi
      obtain ⟨k, hk⟩ := h row (List.mem_of_getElem? hr)
      exact ⟨k, (exceeds_iff a detrend threshold i s row hi hr k).1 hk⟩
    · intro h row hr
      obtain ⟨i, hi⟩ := List.mem_iff_getElem?.1 hr
      have hil := (List.getElem?_eq_some_iff.1 hi).1
      have hs : a.sensors[i]? = some a.sensors[i] := List.getElem?_eq_getElem (by omega)
      obtain ⟨k, hk⟩ := h _ (List.mem_of_getElem? hs)
      exact ⟨k, (exceeds_iff a detrend threshold i _ row hs hi k).2 hk⟩

example :
    let a : Arr := ⟨[mkS 0 [0, 0, 1, 4, 0], mkS 1 [0, 0, 0, 0, 5]], ⟨-1, 0, 0⟩⟩
    a.pickOnThreshold id (1 / 2) = .ok ([0, 1], [3, 4]) ∧
    (Arr.mk [mkS 0 [0, 0]] ⟨-1, 0, 0⟩).pickOnThreshold id (1 / 2) = .error .indexError := by decide +kernel

/-- **C25** (normalized positions).  Every array can be viewed with positions measured from its first sensor: they
begin at zero, keep all distances, and are not negative if the sensors are in order. -/
theorem C25_normalized_positions (a : Arr) (h : a.sensors ≠ []) :
    ∃ ps, a.positionNormalized = .ok ps ∧ ps.length = a.sensors.length ∧ ps[0]? = some 0 ∧
      (∀ (i j : ℕ) (s t : Sensor) (p q : ℚ), a.sensors[i]? = some s → a.sensors[j]? = some t →
        ps[i]? = some p → ps[j]? = some q → q - p = t.x - s.x) ∧
      (Consistent a → ∀ p ∈ ps, 0 ≤ p) := by
  rcases ha : a.sensors with _ | ⟨s0, rest⟩
  · exact absurd ha h
  refine ⟨a.sensors.map fun t => t.x - s0.x, by unfold positionNormalized; rw [ha], by simp [ha], by simp [ha], ?_, ?_⟩
  · intro i j s t p q hs ht hp hq
    rw [← ha] at hs ht
    rw [List.getElem?_map, hs] at hp
    rw [List.getElem?_map, ht] at hq
    simp only [Option.map_some, Option.some.injEq] at hp hq
    rw [← hp, ← hq]; ring
  · intro hc p hp
    obtain ⟨t, ht, rfl⟩ := List.mem_map.1 hp
    have hs := hc.2.1
    rw [ha] at hs ht
    rcases List.mem_cons.1 ht with rfl | ht
    · simp
    · exact sub_nonneg.2 (le_of_lt ((List.pairwise_cons.1 hs).1 t ht))

example : (Arr.mk [mkS 3 [0], mkS 5 [0], mkS 9 [0]] ⟨-1, 0, 0⟩).positionNormalized = .ok [0, 2, 6] := by decide +kernel

theorem sum_bounds (l : List ℚ) (lo hi : ℚ) (h : ∀ x ∈ l, lo ≤ x ∧ x ≤ hi) :
    l.length * lo ≤ l.sum ∧ l.sum ≤ l.length * hi := by
  induction l with
  | nil => simp
  | cons a l ih =>
    obtain ⟨h1, h2⟩ := ih fun x hx => h x (by simp [hx])
    obtain ⟨h3, h4⟩ := h a (by simp)
    simp only [List.length_cons, List.sum_cons, Nat.cast_add, Nat.cast_one]
    constructor <;> linarith

/-- **C25** (distance of the array's centre).  It is the mean offset: bounds of the offsets are bounds of it, and as
many times the number of sensors it is their sum; with the source before (behind) all sensors it is the distance
from the source to the mean position. -/
theorem C25_center_distance (a : Arr) (h : a.sensors ≠ []) :
    a.arrayCenterDistance * a.sensors.length = (a.sensors.map (offset a.source)).sum ∧
    (∀ lo hi, (∀ s ∈ a.sensors, lo ≤ offset a.source s ∧ offset a.source s ≤ hi) →
      lo ≤ a.arrayCenterDistance ∧ a.arrayCenterDistance ≤ hi) ∧
    ((∀ s ∈ a.sensors, a.source.x ≤ s.x) →
      a.arrayCenterDistance = (a.sensors.map Sensor.x).sum / a.sensors.length - a.source.x) ∧
    ((∀ s ∈ a.sensors, s.x ≤ a.source.x) →
      a.arrayCenterDistance = a.source.x - (a.sensors.map Sensor.x).sum / a.sensors.length) := by
  have hl : (0 : ℚ) < a.sensors.length := by exact_mod_cast List.length_pos_iff.2 h
  have e : a.offsets = a.sensors.map (offset a.source) := by
    simp only [offsets, position, List.map_map]; rfl
  have e2 : a.arrayCenterDistance = (a.sensors.map (offset a.source)).sum / a.sensors.length := by
    rw [arrayCenterDistance, e, List.length_map]
  have hsum : ∀ (l : List Sensor) (c d : ℚ), (l.map fun s => c + d * s.x).sum = l.length * c + d * (l.map Sensor.x).sum := by
    intro l c d
    induction l with
    | nil => simp
    | cons s l ih =>
      simp only [List.map_cons, List.sum_cons, ih, List.length_cons, Nat.cast_add, Nat.cast_one]; ring
  rw [e2]
  refine ⟨div_mul_cancel₀ _ hl.ne', ?_, ?_, ?_⟩
  · intro lo hi hb
    obtain ⟨h1, h2⟩ := sum_bounds (a.sensors.map (offset a.source)) lo hi (by
      intro x hx; obtain ⟨s, hs, rfl⟩ := List.mem_map.1 hx; exact hb s hs)
    rw [List.length_map] at h1 h2
    rw [le_div_iff₀ hl, div_le_iff₀ hl]
    constructor <;> linarith
  · intro hb
    have : a.sensors.map (offset a.source) = a.sensors.map fun s => -a.source.x + 1 * s.x := by
      refine List.map_congr_left fun s hs => ?_
      rw [offset, abs_of_nonpos (sub_nonpos.2 (hb s hs))]; ring
    rw [this, hsum]
    field_simp
    ring
  · intro hb
    have : a.sensors.map (offset a.source) = a.sensors.map fun s => a.source.x + (-1) * s.x := by
      refine List.map_congr_left fun s hs => ?_
      rw [offset, abs_of_nonneg (sub_nonneg.2 (hb s hs))]; ring
    rw [this, hsum]
    field_simp
    ring

example : (Arr.mk [mkS 3 [0], mkS 5 [0], mkS 10 [0]] ⟨-1, 0, 0⟩).arrayCenterDistance = 7 := by decide +kernel


end Verif.Props
