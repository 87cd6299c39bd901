import Verif.Spec.Pulse
import Verif.Props.Invariance

/-!
# C128: the slant stack of a passing signal; C119 for the slant stack
-/

open Complex

namespace Verif.Props
open Verif WT Spec Workflow

/-- The slant stack of an array: the integrals over the sensors from near to far. -/
theorem slantStackOfArray_rows (a : Arr) (vels : List ℚ) (stack : List (List ℚ))
    (h : slantStackOfArray a vels = .ok stack) (hc : Consistent a) (hdt : ∀ s ∈ a.sensors, 0 < s.ts.dt)
    (hout : (∀ s ∈ a.sensors, a.source.x ≤ s.x) ∨ (∀ s ∈ a.sensors, s.x < a.source.x)) (hpos : ∀ v ∈ vels, 0 < v) :
    ∃ (ss : List Sensor) (s0 : Sensor) (nt : ℕ), NearToFar a ss ∧ ss.head? = some s0 ∧
      (∀ s ∈ ss, ∀ v ∈ vels, nt + ⌊(offset a.source s - offset a.source s0) / v / s0.ts.dt⌋ + 1 ≤ s0.ts.amp.length) ∧
      stack = vels.map fun v => (List.range nt).map fun (m : ℕ) =>
          slantSpec (ss.map fun s => s.ts.amp) (ss.map (offset a.source)) (offset a.source s0) s0.ts.dt v
            (m * s0.ts.dt) := by
  obtain ⟨ss, hperm, hsorted, hflip⟩ := C20_near_to_far_partial a hc hout
  have hne : ss ≠ [] := fun h => hc.1 (List.nil_perm.1 (h ▸ hperm))
  obtain ⟨s0, srest, hss⟩ := List.exists_cons_of_ne_nil hne
  have hs0 : s0 ∈ a.sensors := hperm.mem_iff.1 (by simp [hss])
  rcases hs : a.sensors with _ | ⟨s1, rest⟩
  · exact absurd hs hc.1
  have hs1 : s1 ∈ a.sensors := by simp [hs]
  have hm := hc.2.2 s1 hs1 s0 hs0
  simp only [bind, Except.bind, slantStackOfArray, hflip, hs] at h
  have hvne : vels ≠ [] := by
    rintro rfl
    rw [hss] at h
    simp [slantStack, Arr.minList] at h
  have hin : SlantInput (ss.map fun s => s.ts.amp) (ss.map (offset a.source)) s1.ts.dt vels s0.ts.amp.length := by
    refine ⟨by simp [hss], by simp, ?_, hdt _ hs1, hvne, hpos⟩
    intro u hu
    obtain ⟨s, hs, rfl⟩ := List.mem_map.1 hu
    exact (hc.2.2 s (hperm.mem_iff.1 hs) s0 hs0).2.2.2
  rcases C67_slant_stack _ _ _ _ _ hin with he | ⟨xmin, nt, ⟨hx1, hx2⟩, hle, -, hok⟩
  · rw [h] at he; cases he
  rw [h] at hok
  have hxmin : xmin = offset a.source s0 := by
    refine le_antisymm (hx2 _ (by simp [hss])) ?_
    obtain ⟨s, hs, rfl⟩ := List.mem_map.1 hx1
    rw [hss] at hs hsorted
    rcases List.mem_cons.1 hs with rfl | hs
    · exact le_rfl
    · exact ((List.pairwise_cons.1 hsorted).1 s hs).le
  subst hxmin
  rw [hm.1] at hle hok
  exact ⟨ss, s0, nt, ⟨hperm, hsorted⟩, by simp [hss], fun s hs v hv => hle _ (List.mem_map_of_mem hs) v hv,
    Except.ok.inj hok⟩

/-- The trapezoidal sum of a constant is the constant times the aperture. -/
theorem trapezoidSum_const (x : List ℚ) (g : ℕ → ℚ) (c : ℚ) (hg : ∀ k < x.length, g k = c) (x0 : ℚ) (h0 : x.head? = some x0) :
    trapezoidSum x g = (x.getLast?.getD 0 - x0) * c := by
  have key : ∀ n, n < x.length → ((List.range n).map fun k =>
      (x.getD (k + 1) 0 - x.getD k 0) / 2 * (g k + g (k + 1))).sum = (x.getD n 0 - x.getD 0 0) * c := by
    intro n hn
    induction n with
    | zero => simp
    | succ n ih =>
      rw [List.range_succ, List.map_append, List.sum_append, ih (by omega)]
      simp only [List.map_cons, List.map_nil, List.sum_cons, List.sum_nil]
      rw [hg n (by omega), hg (n + 1) hn]
      ring
  have hl : 0 < x.length := by cases x <;> simp at h0 ⊢
  rw [trapezoidSum, key _ (by omega)]
  congr 2
  · rw [List.getLast?_eq_getElem?, List.getD_eq_getElem?_getD]
  · cases x with
    | nil => simp at h0
    | cons y ys => simpa using h0

/-- ... and one of bounded values is bounded. -/
theorem trapezoidSum_bound (x : List ℚ) (g : ℕ → ℚ) (M : ℚ) (hg : ∀ k < x.length, |g k| ≤ M)
    (hx : x.Pairwise (· < ·)) (x0 : ℚ) (h0 : x.head? = some x0) :
    |trapezoidSum x g| ≤ (x.getLast?.getD 0 - x0) * M := by
  have key : ∀ n, n < x.length → |((List.range n).map fun k =>
      (x.getD (k + 1) 0 - x.getD k 0) / 2 * (g k + g (k + 1))).sum| ≤ (x.getD n 0 - x.getD 0 0) * M := by
    intro n hn
    induction n with
    | zero => simp
    | succ n ih =>
      rw [List.range_succ, List.map_append, List.sum_append]
      simp only [List.map_cons, List.map_nil, List.sum_cons, List.sum_nil, add_zero]
      have hlt : x.getD n 0 < x.getD (n + 1) 0 := by
        have := List.pairwise_iff_getElem.1 hx n (n + 1) (by omega) hn (by omega)
        simpa [List.getD_eq_getElem?_getD, hn, show n < x.length by omega] using this
      have h1 := ih (by omega)
      have h2 : |(x.getD (n + 1) 0 - x.getD n 0) / 2 * (g n + g (n + 1))| ≤ (x.getD (n + 1) 0 - x.getD n 0) * M := by
        rw [abs_mul, abs_of_nonneg (by linarith)]
        have := abs_add_le (g n) (g (n + 1))
        have := hg n (by omega)
        have := hg (n + 1) hn
        have : |g n + g (n + 1)| ≤ 2 * M := by linarith
        calc _ ≤ (x.getD (n + 1) 0 - x.getD n 0) / 2 * (2 * M) := mul_le_mul_of_nonneg_left this (by linarith)
          _ = _ := by ring
      refine (abs_add_le _ _).trans ?_
      linarith
  have hl : 0 < x.length := by cases x <;> simp at h0 ⊢
  have := key (x.length - 1) (by omega)
  rw [trapezoidSum]
  refine this.trans (le_of_eq ?_)
  congr 2
  · rw [List.getLast?_eq_getElem?, List.getD_eq_getElem?_getD]
  · cases x with
    | nil => simp at h0
    | cons y ys => simpa using h0

theorem linearAt_bound (u : List ℚ) (dt t M : ℚ) (hM : 0 ≤ M) (hu : ∀ y ∈ u, |y| ≤ M) : |linearAt u dt t| ≤ M := by
  have hb : ∀ i, |u.getD i 0| ≤ M := by
    intro i
    rw [List.getD_eq_getElem?_getD]
    rcases h : u[i]? with _ | y
    · simpa using hM
    · simpa using hu y (List.mem_of_getElem? h)
  have h0 : 0 ≤ t / dt - ⌊t / dt⌋ := by have := Int.floor_le (t / dt); linarith
  have h1 : t / dt - ⌊t / dt⌋ ≤ 1 := by have := (Int.lt_floor_add_one (t / dt)).le; linarith
  unfold linearAt
  refine (abs_add_le _ _).trans ?_
  rw [abs_mul, abs_mul, abs_of_nonneg h0, abs_of_nonneg (by linarith : 0 ≤ 1 - (t / dt - ⌊t / dt⌋))]
  have a1 := mul_le_mul_of_nonneg_right (hb (⌊t / dt⌋.toNat)) (by linarith : 0 ≤ 1 - (t / dt - ⌊t / dt⌋))
  have a2 := mul_le_mul_of_nonneg_right (hb (⌊t / dt⌋.toNat + 1)) h0
  nlinarith

theorem linearAt_sample (u : List ℚ) (dt : ℚ) (hdt : 0 < dt) (n : ℕ) : linearAt u dt (n * dt) = u.getD n 0 := by
  unfold linearAt
  rw [mul_div_cancel_right₀ _ hdt.ne']
  simp

/-- **C128**, partial.  In the slant stack of a signal passing the array at a velocity among the trial velocities, the
row of that velocity is the signal times the aperture, and no value of any row is larger than the aperture times the
largest value of the signal.  Missing: that the transform's peak is there (`C128_pick_fails`). -/
theorem C128_stack_of_signal_partial (a : Arr) (vels : List ℚ) (stack : List (List ℚ))
    (h : slantStackOfArray a vels = .ok stack) (hc : Consistent a) (hdt : ∀ s ∈ a.sensors, 0 < s.ts.dt)
    (hout : (∀ s ∈ a.sensors, a.source.x ≤ s.x) ∨ (∀ s ∈ a.sensors, s.x < a.source.x)) (hpos : ∀ v ∈ vels, 0 < v)
    (v : ℚ) (hv : v ∈ vels) (w : List ℚ) (hw : PulseOver a v w) :
    ∃ near ∈ a.sensors, ∃ far ∈ a.sensors, ∃ nt : ℕ,
      (∀ s ∈ a.sensors, offset a.source near ≤ offset a.source s ∧ offset a.source s ≤ offset a.source far) ∧
      nt + ⌊(offset a.source far - offset a.source near) / v / near.ts.dt⌋ < near.ts.amp.length ∧
      (∀ i : ℕ, vels[i]? = some v →
        stack[i]? = some ((w.take nt).map fun x => (offset a.source far - offset a.source near) * x)) ∧
      stack.length = vels.length ∧
      ∀ row ∈ stack, row.length = nt ∧
        ∀ M, (∀ x ∈ w, |x| ≤ M) → ∀ p ∈ row, |p| ≤ (offset a.source far - offset a.source near) * M := by
  obtain ⟨ss, s0, nt, ⟨hperm, hsorted⟩, hhead, hle, rfl⟩ := slantStackOfArray_rows a vels stack h hc hdt hout hpos
  have hne : ss ≠ [] := by rintro rfl; simp at hhead
  obtain ⟨sl, hsl⟩ : ∃ sl, ss.getLast? = some sl := ⟨_, List.getLast?_eq_some_getLast hne⟩
  have hs0 : s0 ∈ a.sensors := hperm.mem_iff.1 (List.mem_of_mem_head? hhead)
  have hslm : sl ∈ a.sensors := hperm.mem_iff.1 (List.mem_of_getLast? hsl)
  have hvpos := hpos v hv
  have hdt0 := hdt _ hs0
  have hnear : ∀ s ∈ a.sensors, offset a.source s0 ≤ offset a.source s := by
    intro s hs
    have := hperm.mem_iff.2 hs
    cases ss with
    | nil => cases this
    | cons t ts =>
      simp only [List.head?_cons, Option.some.injEq] at hhead
      subst hhead
      rcases List.mem_cons.1 this with rfl | h
      · exact le_rfl
      · exact ((List.pairwise_cons.1 hsorted).1 s h).le
  have hfar : ∀ s ∈ a.sensors, offset a.source s ≤ offset a.source sl := by
    intro s hs
    have := hperm.mem_iff.2 hs
    have e := List.dropLast_append_getLast? sl hsl
    rw [← e] at this hsorted
    rcases List.mem_append.1 this with h | h
    · exact ((List.pairwise_append.1 hsorted).2.2 s h sl (by simp)).le
    · rw [List.mem_singleton.1 h]
  have hsame : ∀ s ∈ a.sensors, s.ts.dt = s0.ts.dt ∧ s.ts.amp.length = s0.ts.amp.length := fun s hs =>
    ⟨(hc.2.2 s hs s0 hs0).1, (hc.2.2 s hs s0 hs0).2.2.2⟩
  -- the signal, counted from the nearest receiver
  have hw' : w.length = s0.ts.amp.length ∧ ∀ s ∈ a.sensors, ∃ d : ℕ,
      offset a.source s - offset a.source s0 = v * (d * s0.ts.dt) ∧ s.ts.amp = (List.replicate d 0 ++ w).take w.length := by
    obtain ⟨near, hn, hall⟩ := hw
    have e : near = s0 := by
      obtain ⟨d, hd, -⟩ := hall s0 hs0
      have h1 := hnear near hn
      have h2 : 0 ≤ v * (d * s0.ts.dt) := by positivity
      have h3 : offset a.source near = offset a.source s0 := by linarith
      by_contra hne'
      have m1 := hperm.mem_iff.2 hn
      cases ss with
      | nil => cases m1
      | cons t ts =>
        simp only [List.head?_cons, Option.some.injEq] at hhead
        subst hhead
        rcases List.mem_cons.1 m1 with rfl | h
        · exact hne' rfl
        · have := (List.pairwise_cons.1 hsorted).1 near h
          linarith
    subst e
    refine ⟨?_, fun s hs => ?_⟩
    · obtain ⟨d, -, hd⟩ := hall near hn
      have := congrArg List.length hd
      simp at this
      omega
    · obtain ⟨d, hd, hamp⟩ := hall s hs
      exact ⟨d, by rw [hd, (hsame s hs).1], hamp⟩
  obtain ⟨hlen, hw'⟩ := hw'
  have hx0 : (ss.map (offset a.source)).head? = some (offset a.source s0) := by rw [List.head?_map, hhead]; rfl
  have hxl : (ss.map (offset a.source)).getLast?.getD 0 = offset a.source sl := by rw [List.getLast?_map, hsl]; rfl
  have hfl0 : 0 ≤ ⌊(offset a.source sl - offset a.source s0) / v / s0.ts.dt⌋ :=
    Int.floor_nonneg.2 (div_nonneg (div_nonneg (sub_nonneg.2 (hfar _ hs0)) hvpos.le) hdt0.le)
  have hbnd := hle sl (hperm.mem_iff.2 hslm) v hv
  refine ⟨s0, hs0, sl, hslm, nt, fun s hs => ⟨hnear s hs, hfar s hs⟩, by omega, ?_, by simp, ?_⟩
  · intro i hi
    simp only [List.getElem?_map, hi, Option.map_some, Option.some.injEq]
    obtain ⟨df, hdf, -⟩ := hw' sl hslm
    have hfl : ⌊(offset a.source sl - offset a.source s0) / v / s0.ts.dt⌋ = df := by
      rw [hdf, mul_div_cancel_left₀ _ hvpos.ne', mul_div_cancel_right₀ _ hdt0.ne']
      simp
    rw [hfl] at hbnd
    refine List.ext_getElem (by simp; omega) fun m h1 h2 => ?_
    simp only [List.length_map, List.length_range] at h1
    simp only [List.getElem_map, List.getElem_range, List.getElem_take]
    unfold slantSpec
    rw [trapezoidSum_const _ _ (w[m]'(by omega)) ?_ _ hx0, hxl]
    intro k hk
    simp only [List.length_map] at hk
    have hmem : ss[k] ∈ a.sensors := hperm.mem_iff.1 (List.getElem_mem hk)
    obtain ⟨d, hd, hamp⟩ := hw' _ hmem
    have hdle : d ≤ df := by
      have h1 := hfar _ hmem
      have h2 : v * (d * s0.ts.dt) ≤ v * (df * s0.ts.dt) := by linarith
      have h3 := le_of_mul_le_mul_left h2 hvpos
      exact_mod_cast le_of_mul_le_mul_right h3 hdt0
    simp only [List.getD_eq_getElem?_getD, List.getElem?_map, List.getElem?_eq_getElem hk, Option.map_some,
      Option.getD_some]
    rw [hd, mul_div_cancel_left₀ _ hvpos.ne', show (m : ℚ) * s0.ts.dt + d * s0.ts.dt = ((m + d : ℕ) : ℚ) * s0.ts.dt by
      push_cast; ring, linearAt_sample _ _ hdt0, hamp, List.getD_eq_getElem?_getD, List.getElem?_take_of_lt (by omega),
      List.getElem?_append_right (by simp)]
    simp [List.getElem?_eq_getElem (show m < w.length by omega)]
  · intro row hrow
    obtain ⟨v', -, rfl⟩ := List.mem_map.1 hrow
    refine ⟨by simp, fun M hM p hp => ?_⟩
    obtain ⟨m, hm, rfl⟩ := List.mem_map.1 hp
    have hmr := List.mem_range.1 hm
    have hM0 : 0 ≤ M := (abs_nonneg _).trans (hM (w[0]'(by omega)) (List.getElem_mem _))
    unfold slantSpec
    rw [← hxl]
    refine trapezoidSum_bound _ _ M ?_ (List.pairwise_map.2 hsorted) _ hx0
    intro k hk
    simp only [List.length_map] at hk
    simp only [List.getD_eq_getElem?_getD, List.getElem?_map, List.getElem?_eq_getElem hk, Option.map_some,
      Option.getD_some]
    refine linearAt_bound _ _ _ M hM0 fun y hy => ?_
    obtain ⟨d, -, hamp⟩ := hw' _ (hperm.mem_iff.1 (List.getElem_mem hk))
    rw [hamp] at hy
    rcases List.mem_append.1 (List.mem_of_mem_take hy) with h | h
    · rw [(List.mem_replicate.1 h).2, abs_zero]; exact hM0
    · exact hM y h

/-! ## C119 for the slant stack -/

theorem mapM_except_map {α β γ : Type} (f : α → Except PyErr β) (g : β → γ) : ∀ l : List α,
    (l.mapM fun x => (f x).map g) = (l.mapM f).map (List.map g)
  | [] => rfl
  | x :: l => by
    rw [List.mapM_cons, List.mapM_cons, mapM_except_map f g l]
    rcases f x with e | y
    · rfl
    · rcases l.mapM f with e | ys <;> rfl

theorem amplitudes_gain (q : ℚ) (u : List ℚ) (cols : List ℤ) (delta : ℚ) :
    amplitudes (u.map fun x => q * x) cols delta = (amplitudes u cols delta).map (List.map fun x => q * x) := by
  have hr : ∀ i, readSample (u.map fun x => q * x) i = (readSample u i).map fun x => q * x := by
    intro i
    unfold readSample
    rw [List.getElem?_map]
    split_ifs
    · rfl
    · rcases u[i.toNat]? with _ | x <;> rfl
  unfold amplitudes
  rw [← mapM_except_map]
  congr 1
  funext c
  rw [hr, hr]
  rcases readSample u c with e | lo
  · rfl
  rcases readSample u (c + 1) with e | hi
  · rfl
  simp only [Except.map, bind, Except.bind, pure, Except.pure, Except.ok.injEq]
  ring

theorem trapezoid_gain (q : ℚ) : ∀ d l : List ℚ, trapezoid d (l.map fun x => q * x) = q * trapezoid d l
  | [], _ => by simp [trapezoid]
  | _ :: _, [] => by simp [trapezoid]
  | _ :: _, [_] => by simp [trapezoid]
  | d :: ds, x :: y :: rest => by
    have ih := trapezoid_gain q ds (y :: rest)
    simp only [List.map_cons] at ih
    simp only [List.map_cons, trapezoid, ih]
    ring

theorem slantRow_gain (q : ℚ) (tm : List (List ℚ)) (pos : List ℚ) (dt : ℚ) (n : ℕ) (carry : Carry) (v : ℚ) :
    slantRow (tm.map fun u => u.map fun x => q * x) pos dt n carry v =
      (slantRow tm pos dt n carry v).map fun p => (p.1, p.2.map fun x => q * x) := by
  unfold slantRow
  simp only [List.zip_map_left, List.mapM_map, Prod.map_fst, Prod.map_snd, id_eq, Function.comp_def, amplitudes_gain,
    mapM_except_map]
  generalize (List.mapM (m := Except PyErr) (fun x : List ℚ × ℚ × List ℤ × ℤ =>
    amplitudes x.1 x.2.2.1 (x.2.1 / dt / v - ((pyInt (x.2.1 / dt / v) : ℤ) : ℚ)))
    (tm.zip (pos.zip (List.zipWith (fun p c => updateCols p dt v c) pos carry)))) = z
  rcases z with e | amps
  · rfl
  simp only [Except.map, bind, Except.bind, pure, Except.pure, Except.ok.injEq, Prod.mk.injEq, true_and, List.map_map]
  refine List.map_congr_left fun j _ => ?_
  simp only [Function.comp_def]
  rw [← trapezoid_gain, List.map_map]
  refine congrArg _ (List.map_congr_left fun a _ => ?_)
  simp only [Function.comp_def, List.getD_eq_getElem?_getD, List.getElem?_map]
  rcases a[j]? with _ | x <;> simp

theorem slantRows_gain (q : ℚ) (tm : List (List ℚ)) (pos : List ℚ) (dt : ℚ) (n : ℕ) : ∀ (vels : List ℚ) (carry : Carry),
    slantRows (tm.map fun u => u.map fun x => q * x) pos dt n carry vels =
      (slantRows tm pos dt n carry vels).map (List.map (List.map fun x => q * x))
  | [], _ => rfl
  | v :: vels, carry => by
    rw [slantRows, slantRows, slantRow_gain]
    rcases slantRow tm pos dt n carry v with e | ⟨c, row⟩
    · rfl
    simp only [Except.map, bind, Except.bind]
    rw [slantRows_gain q tm pos dt n vels c]
    rcases slantRows tm pos dt n c vels with e | rows <;> rfl

theorem slantStackOfArray_gain (q : ℚ) (a : Arr) (vels : List ℚ) :
    slantStackOfArray (amplified q a) vels = (slantStackOfArray a vels).map (List.map (List.map fun x => q * x)) := by
  have hflip : (amplified q a).flippedTseriesAndOffsets =
      (a.flippedTseriesAndOffsets).map fun p => (p.1.map (List.map fun x => q * x), p.2) := by
    unfold Arr.flippedTseriesAndOffsets Arr.flipRequired Arr.position Arr.timeseriesmatrix Arr.offsets Arr.position amplified
    simp only [List.map_map, Function.comp_def]
    rcases (a.sensors.map Sensor.x).getLast? with _ | p
    · rfl
    · by_cases h : a.source.x > p
      · simp [bind, Except.bind, h, pure, Except.pure, Except.map, Function.comp_def]
      · simp [bind, Except.bind, h, pure, Except.pure, Except.map, Function.comp_def]
  unfold slantStackOfArray
  rw [hflip]
  rcases a.flippedTseriesAndOffsets with e | ⟨tm, offs⟩
  · rfl
  rcases hs : a.sensors with _ | ⟨s, rest⟩
  · simp [amplified, hs, Except.map, bind, Except.bind]
  simp only [amplified, hs, Except.map, bind, Except.bind, List.map_cons]
  unfold slantStack
  rcases Arr.minList offs with _ | m
  · rfl
  rcases vels with _ | ⟨v, vels⟩
  · rfl
  have hh : ((tm.map (List.map fun x => q * x)).headD []).length = (tm.headD []).length := by cases tm <;> simp
  simp only [hh, slantRows_gain]
  split_ifs <;> rfl

theorem fftPadded_gain (q : ℚ) (u : List ℚ) (n k : ℕ) :
    Builtin.fftPadded (u.map fun x => q * x) n k = (q : ℂ) * Builtin.fftPadded u n k := by
  unfold Builtin.fftPadded
  rw [← fftBin_gain, List.map_take, List.map_append, List.map_replicate, List.length_map, mul_zero]

/-- **C119** (gain, slant stack).  Multiplying all records by a common factor multiplies every value of the slant-stack
transform by it. -/
theorem C119_gain_slant_stack (geom : ℚ → ℚ → ℕ → List ℚ) (a : Arr) (q : ℚ) (set : Settings) :
    Builtin.slantStack geom (amplified q a) set = (Builtin.slantStack geom a set).map fun t =>
      { t with power := t.power.map fun row => row.map fun p => (q : ℂ) * p } := by
  unfold Builtin.slantStack
  rcases Builtin.velocitiesQ geom set with e | vels
  · rfl
  simp only [bind, Except.bind]
  rw [slantStackOfArray_gain]
  rcases slantStackOfArray a vels with e | stack
  · rfl
  rcases hs : a.sensors with _ | ⟨s, rest⟩
  · simp [amplified, hs, Except.map]
  simp only [amplified, hs, List.map_cons, Except.map, ATS.nsamples, ATS.dfInternal, List.length_map]
  rcases keepIds (binFrequencies s.ts.amp.length (1 / (s.ts.amp.length * s.ts.dt))) set.fmin set.fmax s.ts.multiple
    with e | ids
  · rfl
  simp only [pure, Except.pure, List.map_map, Function.comp_def, fftPadded_gain]

/-- **C119** (side, slant stack).  An array and its source seen in a mirror give the same slant-stack transform. -/
theorem C119_mirror_slant_stack (geom : ℚ → ℚ → ℕ → List ℚ) (a : Arr) (c : ℚ) (hc : Consistent a)
    (hmult : ∀ s ∈ a.sensors, ∀ t ∈ a.sensors, s.ts.multiple = t.ts.multiple)
    (hout : (∀ s ∈ a.sensors, a.source.x < s.x) ∨ (∀ s ∈ a.sensors, s.x < a.source.x)) (set : Settings) :
    ∃ b, Arr.init (a.sensors.map (mirrorS c)) (mirrorSrc c a.source) = .ok b ∧
      Builtin.slantStack geom b set = Builtin.slantStack geom a set := by
  obtain ⟨b, hb, hflip⟩ := C21_mirror_symmetry a c hc hout
  have hperm := ((C16_construction_iff (a.sensors.map (mirrorS c)) (mirrorSrc c a.source)
    (by simpa using hc.1)).2.1 b hb).1
  refine ⟨b, hb, ?_⟩
  unfold Builtin.slantStack slantStackOfArray
  rw [hflip]
  rcases hsa : a.sensors with _ | ⟨s, rest⟩
  · exact absurd hsa hc.1
  rcases hsb : b.sensors with _ | ⟨t, rest'⟩
  · have := hperm.length_eq
    simp [hsa, hsb] at this
  obtain ⟨t', ht', e⟩ := List.mem_map.1 (hperm.mem_iff.1 (show t ∈ b.sensors by simp [hsb]))
  subst e
  have hm := hc.2.2 t' ht' s (by simp [hsa])
  have h3 := hmult t' ht' s (by simp [hsa])
  simp [mirrorS, ATS.nsamples, ATS.dfInternal, hm.1, hm.2.2.2, h3]

/-! ## C128: picking from the slant stack -/

/-- A pulse reaching the first of two receivers, 1 m apart, at sample `n` of 8, and the second one sample later. -/
def twoArr (n : ℕ) : Arr :=
  ⟨[⟨⟨List.take 8 (List.replicate n (0 : ℚ) ++ 1 :: List.replicate 7 0), 1 / 1000, 1, 0, 1⟩, 1, 0, 0⟩,
    ⟨⟨List.take 8 (List.replicate (n + 1) (0 : ℚ) ++ 1 :: List.replicate 7 0), 1 / 1000, 1, 0, 1⟩, 2, 0, 0⟩], ⟨0, 0, 0⟩⟩

/-- Slant stack at 125 Hz for 500 m/s and 1000 m/s. -/
def twoSet : Settings := { pulseSet "slantstack" with fmin := 120, fmax := 130, vmin := 500, vmax := 1000, nvel := 2 }

theorem pick_two (v1 v2 : ℝ) (n : ℕ) (fs : List ℚ) (p q : ℂ) :
    (q.re < p.re → Builtin.findPeakPower ⟨n, fs, [v1, v2], [[p], [q]]⟩ "frequency-maximum" = .ok [v1]) ∧
    (p.re < q.re → Builtin.findPeakPower ⟨n, fs, [v1, v2], [[p], [q]]⟩ "frequency-maximum" = .ok [v2]) := by
  constructor
  · intro h
    have h1 : Builtin.complexLt p q = false := by
      simp [Builtin.complexLt, h.le, h.ne']
    simp [Builtin.findPeakPower, findPeakBy, List.range_succ, argmaxBy, argmaxFrom, h1, pure, Except.pure, bind, Except.bind]
  · intro h
    have h1 : Builtin.complexLt p q = true := by
      simp [Builtin.complexLt, h]
    simp [Builtin.findPeakPower, findPeakBy, List.range_succ, argmaxBy, argmaxFrom, h1, pure, Except.pure, bind, Except.bind]

theorem two_keepIds : keepIds (binFrequencies 8 (125 : ℚ)) 120 130 1 = .ok [1] := by decide +kernel

/-- The values of the slant-stack transform of an array with these stacked rows. -/
theorem two_transform (geom : ℚ → ℚ → ℕ → List ℚ) (a : Arr) (s : Sensor) (rest : List Sensor) (r1 r2 : List ℚ)
    (hs : a.sensors = s :: rest) (hl : s.ts.amp.length = 8) (hdt : s.ts.dt = 1 / 1000) (hm : s.ts.multiple = 1)
    (h : slantStackOfArray a [500, 1000] = .ok [r1, r2]) (h1 : r1.length ≤ 8) (h2 : r2.length ≤ 8) :
    Builtin.slantStack geom a twoSet = .ok ⟨1, [125], [500, 1000],
      [[component (125 : ℚ) (1 / 1000 : ℚ) r1], [component (125 : ℚ) (1 / 1000 : ℚ) r2]]⟩ := by
  have hv : Builtin.velocitiesQ geom twoSet = .ok [500, 1000] := by
    simp only [Builtin.velocitiesQ, twoSet, pulseSet]
    norm_num [List.range_succ, show Int.toNat 2 = 2 from rfl]
  have hf : ([1] : List ℕ).map (fun k => (binFrequencies 8 (125 : ℚ)).getD k 0) = [125] := by decide +kernel
  have hd : s.ts.dfInternal = 125 := by unfold ATS.dfInternal; rw [ATS.nsamples, hl, hdt]; norm_num
  have hset : twoSet.fmin = 120 ∧ twoSet.fmax = 130 := ⟨rfl, rfl⟩
  unfold Builtin.slantStack
  simp only [hv, bind, Except.bind, h, hs, hd, ATS.nsamples, hl, hm, hset.1, hset.2, two_keepIds, pure, Except.pure, hf]
  simp only [List.map_cons, List.map_nil]
  rw [fftPadded_component r1 8 1 (1 / 1000) 125 h1 (by norm_num) (by norm_num [physicalFrequency]),
    fftPadded_component r2 8 1 (1 / 1000) 125 h2 (by norm_num) (by norm_num [physicalFrequency])]
  norm_num

theorem two_stacks : slantStackOfArray (twoArr 0) [500, 1000] = .ok [[1 / 2, 0, 0, 0, 0], [1, 0, 0, 0, 0]] ∧
    slantStackOfArray (twoArr 4) [500, 1000] = .ok [[0, 0, 0, 1 / 2, 1 / 2], [0, 0, 0, 0, 1]] := by decide +kernel

theorem two_pulse : PulseOver (twoArr 0) 1000 [1, 0, 0, 0, 0, 0, 0, 0] ∧ PulseOver (twoArr 4) 1000 [0, 0, 0, 0, 1, 0, 0, 0] := by
  constructor
  · refine ⟨_, by simp [twoArr]; exact Or.inl rfl, ?_⟩
    intro s hs
    simp only [twoArr, List.mem_cons, List.not_mem_nil, or_false] at hs
    rcases hs with rfl | rfl
    · exact ⟨0, by norm_num [offset], by decide +kernel⟩
    · exact ⟨1, by norm_num [offset, twoArr], by decide +kernel⟩
  · refine ⟨_, by simp [twoArr]; exact Or.inl rfl, ?_⟩
    intro s hs
    simp only [twoArr, List.mem_cons, List.not_mem_nil, or_false] at hs
    rcases hs with rfl | rfl
    · exact ⟨0, by norm_num [offset], by decide +kernel⟩
    · exact ⟨1, by norm_num [offset, twoArr], by decide +kernel⟩

theorem two_component (x y : ℚ) : component (125 : ℚ) (1 / 1000 : ℚ) [0, 0, 0, x, y] =
    x * exp (-(3 * (Real.pi / 4) : ℝ) * I) - y := by
  have h4 : exp (-(2 * Real.pi * ((125 : ℚ) : ℝ) * ((4 : ℕ) * ((1 / 1000 : ℚ) : ℝ)) : ℝ) * I) = -1 := by
    rw [show (-(2 * Real.pi * ((125 : ℚ) : ℝ) * ((4 : ℕ) * ((1 / 1000 : ℚ) : ℝ)) : ℝ) * I : ℂ) = -(Real.pi * I) by
      push_cast; ring, exp_neg, exp_pi_mul_I]
    norm_num
  have h3 : exp (-(2 * Real.pi * ((125 : ℚ) : ℝ) * ((3 : ℕ) * ((1 / 1000 : ℚ) : ℝ)) : ℝ) * I) =
      exp (-(3 * (Real.pi / 4) : ℝ) * I) := by
    congr 1
    push_cast; ring
  unfold component
  rw [show [0, 0, 0, x, y].length = 5 from rfl, Finset.sum_range_succ, Finset.sum_range_succ, h3, h4]
  simp [Finset.sum_range_succ]
  ring

/-- **C128** is violated: a pulse passes two receivers at 1000 m/s.  Recorded from its arrival, its velocity is picked.
Recorded from four samples earlier, 500 m/s is picked instead, where the magnitude is smaller, because the largest
complex number is taken as the one with the largest real part; with reversed polarity the pulse's velocity is picked
again. -/
theorem C128_pick_fails (geom : ℚ → ℚ → ℕ → List ℚ) : ∃ ta tb tc p q,
    PulseOver (twoArr 0) 1000 [1, 0, 0, 0, 0, 0, 0, 0] ∧ StartedEarlier 4 (twoArr 0) (twoArr 4) ∧
    Builtin.slantStack geom (twoArr 0) twoSet = .ok ta ∧
    Builtin.findPeakPower ta "frequency-maximum" = .ok [1000] ∧
    Builtin.slantStack geom (twoArr 4) twoSet = .ok tb ∧
    Builtin.findPeakPower tb "frequency-maximum" = .ok [500] ∧ tb.power = [[p], [q]] ∧ ‖p‖ < ‖q‖ ∧
    Builtin.slantStack geom (amplified (-1) (twoArr 4)) twoSet = .ok tc ∧
    Builtin.findPeakPower tc "frequency-maximum" = .ok [1000] := by
  have ha := two_transform geom (twoArr 0) _ _ _ _ rfl rfl rfl rfl two_stacks.1 (by simp) (by simp)
  have hb := two_transform geom (twoArr 4) _ _ _ _ rfl rfl rfl rfl two_stacks.2 (by simp) (by simp)
  have hcx := C119_gain_slant_stack geom (twoArr 4) (-1) twoSet
  rw [hb] at hcx
  have e1 : component (125 : ℚ) (1 / 1000 : ℚ) [1 / 2, 0, 0, 0, 0] = 1 / 2 := by
    simp [component, Finset.sum_range_succ]
  have e2 : component (125 : ℚ) (1 / 1000 : ℚ) [1, 0, 0, 0, 0] = 1 := by
    simp [component, Finset.sum_range_succ]
  have e3 : component (125 : ℚ) (1 / 1000 : ℚ) [0, 0, 0, 1 / 2, 1 / 2] =
      1 / 2 * exp (-(3 * (Real.pi / 4) : ℝ) * I) - 1 / 2 := by
    rw [two_component]
    push_cast; ring
  have e4 : component (125 : ℚ) (1 / 1000 : ℚ) [0, 0, 0, 0, 1] = -1 := by
    rw [two_component]
    simp
  rw [e1, e2] at ha
  rw [e3, e4] at hb hcx
  have hcos : Real.cos (3 * (Real.pi / 4)) = -(Real.sqrt 2 / 2) := by
    rw [show 3 * (Real.pi / 4) = Real.pi - Real.pi / 4 by ring, Real.cos_pi_sub, Real.cos_pi_div_four]
  have hsq : Real.sqrt 2 < 2 := by
    rw [Real.sqrt_lt' (by norm_num)]; norm_num
  have hsq0 : 0 < Real.sqrt 2 := by positivity
  have hre : (1 / 2 * exp (-(3 * (Real.pi / 4) : ℝ) * I) - 1 / 2 : ℂ).re = -(Real.sqrt 2 / 4) - 1 / 2 := by
    rw [show (1 / 2 * exp (-(3 * (Real.pi / 4) : ℝ) * I) - 1 / 2 : ℂ) =
      ((1 / 2 : ℝ) : ℂ) * exp ((-(3 * (Real.pi / 4)) : ℝ) * I) - ((1 / 2 : ℝ) : ℂ) by push_cast; ring, sub_re, re_ofReal_mul,
      exp_ofReal_mul_I_re, Real.cos_neg, hcos, ofReal_re]
    ring
  have him : (1 / 2 * exp (-(3 * (Real.pi / 4) : ℝ) * I) - 1 / 2 : ℂ).im ^ 2 = 1 / 8 := by
    rw [show (1 / 2 * exp (-(3 * (Real.pi / 4) : ℝ) * I) - 1 / 2 : ℂ) =
      ((1 / 2 : ℝ) : ℂ) * exp ((-(3 * (Real.pi / 4)) : ℝ) * I) - ((1 / 2 : ℝ) : ℂ) by push_cast; ring, sub_im, im_ofReal_mul,
      exp_ofReal_mul_I_im, Real.sin_neg, ofReal_im, sub_zero, mul_pow, neg_sq, Real.sin_sq, hcos]
    have := Real.sq_sqrt (show (0 : ℝ) ≤ 2 by norm_num)
    nlinarith
  refine ⟨_, _, _, _, _, two_pulse.1, ⟨rfl, ?_⟩, ha, ?_, hb, ?_, rfl, ?_, hcx, ?_⟩
  · exact .cons ⟨[1, 0, 0, 0], by decide +kernel, by decide +kernel⟩
      (.cons ⟨[0, 1, 0, 0], by decide +kernel, by decide +kernel⟩ .nil)
  · exact (pick_two _ _ _ _ _ _).2 (by norm_num)
  · exact (pick_two _ _ _ _ _ _).1 (by rw [hre, neg_re, one_re]; linarith)
  · rw [norm_neg, norm_one, ← sq_lt_one_iff₀ (norm_nonneg _), Complex.sq_norm, Complex.normSq_apply, ← sq, ← sq, him, hre]
    nlinarith [Real.sq_sqrt (show (0 : ℝ) ≤ 2 by norm_num)]
  · refine (pick_two _ _ _ _ _ _).2 ?_
    beta_reduce
    rw [show ((-1 : ℚ) : ℂ) = -1 by norm_num, neg_one_mul, neg_one_mul, neg_re, neg_re, hre, neg_re, one_re]
    linarith

/-- The pulse over two receivers meets the hypotheses of `C128_stack_of_signal_partial`. -/
example : ∃ stack, slantStackOfArray (twoArr 4) [500, 1000] = .ok stack ∧ Consistent (twoArr 4) ∧
    (∀ s ∈ (twoArr 4).sensors, 0 < s.ts.dt) ∧ (∀ s ∈ (twoArr 4).sensors, (twoArr 4).source.x ≤ s.x) ∧
    PulseOver (twoArr 4) 1000 [0, 0, 0, 0, 1, 0, 0, 0] :=
  ⟨_, two_stacks.2, ⟨by simp [twoArr], by simp [twoArr], by simp [twoArr, SameMeta]⟩, by simp [twoArr], by simp [twoArr],
    two_pulse.2⟩

end Verif.Props
