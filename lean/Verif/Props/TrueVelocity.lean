import Verif.Props.Beamforming
import Verif.Model.Builtin
import Mathlib.Analysis.Convex.StrictConvexSpace
import Mathlib.Analysis.Complex.Convex
import Mathlib.Analysis.InnerProductSpace.Convex

/-!
# C71, C114: the velocity of a single wave is recovered
-/

open Complex

namespace Verif.Props
open Verif WT Spec

/-! ## When a weighted sum of unit vectors is as long as possible -/

/-- The phase-shift sum over increasing offsets is as long as the array only if all vectors are equal. -/
theorem phaseSum_eq_length : ∀ (x : List ℝ) (z : List ℂ), x.Pairwise (· < ·) → x.length = z.length → (∀ a ∈ z, ‖a‖ = 1) →
    ‖phaseSum x z‖ = x.getLastD 0 - x.headD 0 → ∀ a ∈ z, ∀ b ∈ z, a = b
  | [], [], _, _, _, _ => by simp
  | [], _ :: _, _, h, _, _ => by simp at h
  | [x], [a], _, _, _, _ => by simp
  | [x], [], _, h, _, _ => by simp at h
  | [x], _ :: _ :: _, _, h, _, _ => by simp at h
  | x :: x' :: xs, [], _, h, _, _ => by simp at h
  | x :: x' :: xs, [_], _, h, _, _ => by simp at h
  | x :: x' :: xs, a :: b :: z, hx, hl, hz, h => by
    have hx' := (List.pairwise_cons.1 hx).2
    have hz' : ∀ c ∈ b :: z, ‖c‖ = 1 := fun c hc => hz c (List.mem_cons_of_mem _ hc)
    have hlt : x < x' := (List.pairwise_cons.1 hx).1 x' List.mem_cons_self
    have ha := hz a List.mem_cons_self
    have hb := hz b (List.mem_cons_of_mem _ List.mem_cons_self)
    have hlast : (x :: x' :: xs).getLastD 0 = (x' :: xs).getLastD 0 := by
      rw [List.getLastD_eq_getLast?, List.getLastD_eq_getLast?, List.getLast?_cons_cons]
    have hrest := phaseSum_le (x' :: xs) (b :: z) (hx'.imp le_of_lt) fun c hc => (hz' c hc).le
    simp only [phaseSum, hlast] at h
    simp only [List.headD_cons] at h hrest
    have h1 : ‖((1 / 2 * (x' - x) : ℝ) : ℂ) * (a + b)‖ = 1 / 2 * (x' - x) * ‖a + b‖ := by
      rw [norm_mul, Complex.norm_real, Real.norm_eq_abs, abs_of_pos (by linarith)]
    have h2 : ‖a + b‖ ≤ 2 := le_trans (norm_add_le _ _) (by linarith)
    have h3 := norm_add_le (((1 / 2 * (x' - x) : ℝ) : ℂ) * (a + b)) (phaseSum (x' :: xs) (b :: z))
    rw [h, h1] at h3
    have h4 : ‖a + b‖ = 2 := by
      refine le_antisymm h2 ?_
      by_contra hc
      nlinarith
    have hab : a = b := eq_of_norm_eq_of_norm_add_eq (ha.trans hb.symm) (by rw [h4, ha, hb]; norm_num)
    have h5 : ‖phaseSum (x' :: xs) (b :: z)‖ = (x' :: xs).getLastD 0 - (x' :: xs).headD 0 := by
      simp only [List.headD_cons]
      refine le_antisymm hrest ?_
      rw [h4] at h3
      linarith
    have ih := phaseSum_eq_length (x' :: xs) (b :: z) hx' (by simpa using hl) hz' h5
    subst hab
    intro c hc d hd
    have hmem : ∀ y ∈ a :: a :: z, y ∈ a :: z := fun y hy => by simpa using hy
    exact ih c (hmem c hc) d (hmem d hd)

/-- A sum of complex numbers with two terms of different directions is shorter than the sum of the lengths. -/
theorem norm_sum_lt {n : ℕ} (u : ℕ → ℂ) {a b : ℕ} (ha : a < n) (hb : b < n) (hab : a ≠ b)
    (h : ‖u a‖ • u b ≠ ‖u b‖ • u a) : ‖∑ i ∈ Finset.range n, u i‖ < ∑ i ∈ Finset.range n, ‖u i‖ := by
  have hb' : b ∈ (Finset.range n).erase a := Finset.mem_erase.2 ⟨hab.symm, Finset.mem_range.2 hb⟩
  rw [← Finset.add_sum_erase _ _ (Finset.mem_range.2 ha), ← Finset.add_sum_erase _ _ hb',
    ← Finset.add_sum_erase _ (fun i => ‖u i‖) (Finset.mem_range.2 ha), ← Finset.add_sum_erase _ (fun i => ‖u i‖) hb',
    ← add_assoc, ← add_assoc]
  refine lt_of_le_of_lt (norm_add_le _ _) (add_lt_add_of_lt_of_le ?_ (norm_sum_le _ _))
  refine norm_add_lt_of_not_sameRay fun hs => h ?_
  exact sameRay_iff_norm_smul_eq.1 hs

/-! ## Phases -/

theorem exp_two_pi_eq (s t : ℝ) :
    exp (((2 * Real.pi * s : ℝ) : ℂ) * I) = exp (((2 * Real.pi * t : ℝ) : ℂ) * I) ↔ ∃ n : ℤ, s = t + n := by
  rw [Complex.exp_eq_exp_iff_exists_int]
  refine exists_congr fun n => ?_
  have hpi : (Real.pi : ℂ) ≠ 0 := by exact_mod_cast Real.pi_ne_zero
  constructor
  · intro h
    have h2 : ((2 * Real.pi * I : ℂ)) * (s : ℂ) = (2 * Real.pi * I : ℂ) * ((t + n : ℝ) : ℂ) := by
      push_cast at h ⊢
      linear_combination h
    have h3 := mul_left_cancel₀ (by simp [hpi, I_ne_zero]) h2
    exact_mod_cast h3
  · intro h
    rw [h]
    push_cast
    ring

/-- The shifted and normalized spectrum of one trace of a plane wave. -/
theorem phaseInner_wave (v v' f x g : ℝ) (hg : 0 < g) (S : ℂ) (hS : S ≠ 0) :
    phaseInner v' f x ((g : ℂ) * (S * exp (-((2 * Real.pi * f / v * x : ℝ) : ℂ) * I))) =
      exp (((2 * Real.pi * (f * (x / v') - f * (x / v)) : ℝ) : ℂ) * I) * (S / (‖S‖ : ℝ)) := by
  unfold phaseInner
  rw [norm_mul, norm_mul, norm_exp_neg_real_I, Complex.norm_real, Real.norm_eq_abs, abs_of_pos hg, mul_one]
  have hn : ((‖S‖ : ℝ) : ℂ) ≠ 0 := by exact_mod_cast norm_ne_zero_iff.2 hS
  have hg' : (g : ℂ) ≠ 0 := by exact_mod_cast hg.ne'
  have he : exp (((2 * Real.pi * (f * (x / v') - f * (x / v)) : ℝ) : ℂ) * I) =
      exp (((2 * Real.pi / v' * x * f : ℝ) : ℂ) * I) * exp (-((2 * Real.pi * f / v * x : ℝ) : ℂ) * I) := by
    rw [← Complex.exp_add]
    congr 1
    push_cast
    ring
  rw [he]
  push_cast
  field_simp

/-- **C114** (phase shift, exact).  If at a selected bin the record is a plane wave of velocity `v`, whatever the gains of
the traces, then the power of a trial velocity is at most the array length, and it reaches the array length exactly if
between any two receivers the trial velocity and `v` differ by a whole number of periods. -/
theorem C114_phase_shift_maximum_iff (r : Record) (velocities : List ℝ) (set : FreqSettings) (frqs : List ℚ)
    (power : List (List ℝ)) (h : phaseShift r velocities set = .ok (frqs, power))
    (hx : r.offsets.Pairwise (· < ·)) (hne : r.offsets ≠ []) (hlen : r.tm.length = r.offsets.length)
    (ids : List ℕ) (hids : r.keepIds set = .ok ids)
    (v v' : ℝ) (i j k : ℕ) (hv : velocities[i]? = some v') (hk : ids[j]? = some k) (S : ℂ) (hS : S ≠ 0)
    (hw : WaveAt id r v k S) :
    ∃ p, (power[i]?.bind fun row => row[j]?) = some p ∧ p ≤ arrayLength r.offsets ∧
      (p = arrayLength r.offsets ↔
        ∀ xa ∈ r.offsets, ∀ xb ∈ r.offsets, Aliased (binFrequency r k : ℝ) v v' xa xb) := by
  have hbin := record_bins hids
  unfold phaseShift at h
  rw [hids] at h
  cases h
  rw [List.getElem?_map, hv]
  simp only [Option.map_some, Option.bind_some]
  rw [List.getElem?_map, hk]
  refine ⟨_, rfl, ?_⟩
  have hkN := hbin k (List.mem_of_getElem? hk)
  have hf : (binFrequencies r.nsamples r.step).getD k 0 = binFrequency r k := by
    simp [binFrequencies, binFrequency, List.getD_eq_getElem?_getD, hkN]
  beta_reduce
  rw [hf]
  unfold phasePower
  set f : ℝ := (binFrequency r k : ℝ) with hfdef
  set xs : List ℝ := r.offsets.map fun (x : ℚ) => (x : ℝ) with hxs
  have hxs' : xs.Pairwise (· < ·) := by
    rw [hxs, List.pairwise_map]
    exact hx.imp fun hab => by exact_mod_cast hab
  -- the vectors that are added
  have hz : List.zipWith (phaseInner v' f) xs (r.tm.map fun u => fftBin u k) =
      xs.map fun x => exp (((2 * Real.pi * (f * (x / v') - f * (x / v)) : ℝ) : ℂ) * I) * (S / (‖S‖ : ℝ)) := by
    refine List.ext_getElem (by simp [hxs, hlen]) fun a h1 h2 => ?_
    have ha : a < r.offsets.length := by simpa [hxs] using h2
    have ha' : a < r.tm.length := by omega
    obtain ⟨g, hg, hU⟩ := hw a ha'
    rw [List.getD_eq_getElem?_getD, List.getD_eq_getElem?_getD, List.getElem?_eq_getElem ha',
      List.getElem?_eq_getElem ha] at hU
    simp only [Option.getD_some, id] at hU
    simp only [List.getElem_zipWith, List.getElem_map, hxs]
    rw [hU]
    exact phaseInner_wave v v' f _ g hg S hS
  rw [hz]
  have hunit : ‖S / ((‖S‖ : ℝ) : ℂ)‖ = 1 := by
    rw [norm_div, Complex.norm_real, norm_norm, div_self (norm_ne_zero_iff.2 hS)]
  have hnorm : ∀ z ∈ xs.map fun x => exp (((2 * Real.pi * (f * (x / v') - f * (x / v)) : ℝ) : ℂ) * I) *
      (S / (‖S‖ : ℝ)), ‖z‖ = 1 := by
    intro z hz
    obtain ⟨x, -, rfl⟩ := List.mem_map.1 hz
    rw [norm_mul, norm_exp_real_I, hunit, one_mul]
  have hS0 : S / ((‖S‖ : ℝ) : ℂ) ≠ 0 := norm_ne_zero_iff.1 (by rw [hunit]; norm_num)
  have halias : ∀ xa xb : ℚ, Aliased f v v' xa xb ↔
      exp (((2 * Real.pi * (f * (xb / v') - f * (xb / v)) : ℝ) : ℂ) * I) =
        exp (((2 * Real.pi * (f * (xa / v') - f * (xa / v)) : ℝ) : ℂ) * I) := by
    intro xa xb
    rw [exp_two_pi_eq]
    refine exists_congr fun n => ?_
    constructor <;> intro e
    · rw [sub_div, sub_div] at e; linarith
    · rw [sub_div, sub_div]; linarith
  refine ⟨?_, ?_, ?_⟩
  · rw [← arrayLength_cast]
    exact phaseSum_le _ _ (hxs'.imp le_of_lt) fun z hz => (hnorm z hz).le
  · intro he xa hxa xb hxb
    rw [← arrayLength_cast] at he
    have hall := phaseSum_eq_length _ _ hxs' (by simp) hnorm he
    rw [halias]
    have := hall _ (List.mem_map_of_mem (List.mem_map_of_mem hxb)) _ (List.mem_map_of_mem (List.mem_map_of_mem hxa))
    exact mul_right_cancel₀ hS0 this
  · intro hall
    obtain ⟨x0, rest, h0⟩ := List.exists_cons_of_ne_nil hne
    have hx0 : x0 ∈ r.offsets := by rw [h0]; exact List.mem_cons_self
    rw [phaseSum_const xs _ (exp (((2 * Real.pi * (f * ((x0 : ℝ) / v') - f * ((x0 : ℝ) / v)) : ℝ) : ℂ) * I) *
      (S / (‖S‖ : ℝ))) (by simpa [hxs] using hne) (by simp)]
    · rw [hxs, arrayLength_cast, norm_mul, norm_mul, norm_exp_real_I, hunit, mul_one, mul_one, Complex.norm_real,
        Real.norm_eq_abs, abs_of_nonneg]
      have := phaseSum_le xs [] (hxs'.imp le_of_lt) (by simp)
      rw [hxs, arrayLength_cast] at this
      exact le_trans (norm_nonneg _) this
    · intro z hz
      obtain ⟨y, hy, rfl⟩ := List.mem_map.1 hz
      obtain ⟨xb, hxb, rfl⟩ := List.mem_map.1 hy
      rw [(halias x0 xb).1 (hall x0 hx0 xb hxb)]

/-- Receivers closer than both wavelengths tell the velocities apart. -/
theorem not_aliased {f v v' : ℝ} (hf : 0 < f) (hv : 0 < v) (hv' : 0 < v') (hne : v' ≠ v) {xa xb : ℚ} (hx : xa < xb)
    (h : f * (xb - xa) < v) (h' : f * (xb - xa) < v') : ¬ Aliased f v v' xa xb := by
  rintro ⟨n, hn⟩
  have hd : (0 : ℝ) < xb - xa := by have : (xa : ℝ) < xb := by exact_mod_cast hx
                                    linarith
  rw [← mul_div_assoc, ← mul_div_assoc] at hn
  have a1 := (div_lt_one hv).2 h
  have a2 := (div_lt_one hv').2 h'
  have b1 : 0 < f * (xb - xa) / v := by positivity
  have b2 : 0 < f * (xb - xa) / v' := by positivity
  have n0 : n = 0 := by
    have c1 : (n : ℝ) < 1 := by linarith
    have c2 : (-1 : ℝ) < n := by linarith
    have d1 : n < 1 := by exact_mod_cast c1
    have d2 : -1 < n := by exact_mod_cast c2
    omega
  rw [n0, Int.cast_zero, add_zero, div_eq_div_iff hv'.ne' hv.ne'] at hn
  exact hne (mul_left_cancel₀ (by positivity) hn).symm

/-- **C114** (phase shift, below the aliasing frequency).  If at a selected bin the record is a plane wave of velocity `v`
and some two receivers are closer together than the wavelengths of `v` and of another trial velocity at that
frequency, then the other trial velocity has less power than the array length, which is the power of `v`. -/
theorem C114_phase_shift_unique (r : Record) (velocities : List ℝ) (set : FreqSettings) (frqs : List ℚ)
    (power : List (List ℝ)) (h : phaseShift r velocities set = .ok (frqs, power))
    (hx : r.offsets.Pairwise (· < ·)) (hlen : r.tm.length = r.offsets.length)
    (ids : List ℕ) (hids : r.keepIds set = .ok ids)
    (v v' : ℝ) (hv0 : 0 < v) (hv0' : 0 < v') (hne : v' ≠ v) (i i' j k : ℕ) (hv : velocities[i]? = some v)
    (hv' : velocities[i']? = some v') (hk : ids[j]? = some k) (S : ℂ) (hS : S ≠ 0) (hw : WaveAt id r v k S)
    (hf : 0 < binFrequency r k) (xa xb : ℚ) (ha : xa ∈ r.offsets) (hb : xb ∈ r.offsets) (hab : xa < xb)
    (hres : (binFrequency r k : ℝ) * (xb - xa) < v) (hres' : (binFrequency r k : ℝ) * (xb - xa) < v') :
    ∃ p p', (power[i]?.bind fun row => row[j]?) = some p ∧ (power[i']?.bind fun row => row[j]?) = some p' ∧
      p = arrayLength r.offsets ∧ p' < p := by
  have hnil : r.offsets ≠ [] := List.ne_nil_of_mem ha
  obtain ⟨p, hp, -, hiff⟩ := C114_phase_shift_maximum_iff r velocities set frqs power h hx hnil hlen ids hids v v i j k
    hv hk S hS hw
  obtain ⟨p', hp', hle, hiff'⟩ := C114_phase_shift_maximum_iff r velocities set frqs power h hx hnil hlen ids hids v v' i' j k
    hv' hk S hS hw
  have hpe := hiff.2 fun xa _ xb _ => ⟨0, by simp⟩
  refine ⟨p, p', hp, hp', hpe, ?_⟩
  rw [hpe]
  refine lt_of_le_of_ne hle fun he => ?_
  exact not_aliased (by exact_mod_cast hf) hv0 hv0' hne hab hres hres' (hiff'.1 he xa ha xb hb)

/-! ## Beamforming -/

theorem steer_eq (hankel : ℝ → ℂ) (steering : Option String) (kx : ℝ) :
    steer hankel steering kx = exp (-((lagOf hankel steering kx : ℝ) : ℂ) * I) := by
  unfold steer lagOf
  split_ifs <;> rfl

/-- The power of every trial velocity for a wave whose wavefront is that of the steering: the squared length of a sum of
vectors with lengths `c` which do not depend on the trial velocity, turned by the differences of the phase lags. -/
theorem fdbf_wave (hankel : ℝ → ℂ) (r : Record) (velocities : List ℝ)
    (set : FreqSettings) (specific : FdbfSpecific) (frqs : List ℚ) (power : List (List ℂ))
    (h : fdbf hankel r velocities set specific = .ok (frqs, power))
    (hlen : r.tm.length = r.offsets.length) (hx : ∀ x ∈ r.offsets, 0 ≤ x)
    (ids : List ℕ) (hids : r.keepIds set = .ok ids) (v : ℝ) (j k : ℕ) (hk : ids[j]? = some k) (S : ℂ) (hS : S ≠ 0)
    (lag : ℝ → ℝ) (hw : WaveAt lag r v k S) :
    ∃ c : ℕ → ℝ, (∀ a, a < r.offsets.length → 0 ≤ c a) ∧
      (∀ (a : ℕ) (x : ℚ), r.offsets[a]? = some x → (specific.get "weighting" = some "sqrt" → 0 < x) → 0 < c a) ∧
      ∀ (i : ℕ) (v' : ℝ), velocities[i]? = some v' → (power[i]?.bind fun row => row[j]?) =
        some (((‖∑ a ∈ Finset.range r.offsets.length, (c a : ℂ) * (S * exp (((
          lagOf hankel (specific.get "steering") (2 * Real.pi * (binFrequency r k : ℝ) / v' * (r.offsets.getD a 0 : ℚ)) -
          lag (2 * Real.pi * (binFrequency r k : ℝ) / v * (r.offsets.getD a 0 : ℚ)) : ℝ) : ℂ) * I))‖ ^ 2 : ℝ)) : ℂ) := by
  have hbin := record_bins hids
  unfold fdbf at h
  rw [hids] at h
  cases h
  have hkN := hbin k (List.mem_of_getElem? hk)
  have hf : (binFrequencies r.nsamples r.step).getD k 0 = binFrequency r k := by
    simp [binFrequencies, binFrequency, List.getD_eq_getElem?_getD, hkN]
  -- gains of the traces
  have hgain : ∃ g : ℕ → ℝ, ∀ a, a < r.tm.length → 0 < g a ∧ fftBin (r.tm.getD a []) k =
      (g a : ℂ) * (S * exp (-(lag (2 * Real.pi * (binFrequency r k : ℝ) / v * (r.offsets.getD a 0 : ℚ)) : ℝ) * I)) := by
    classical
    refine ⟨fun a => if h : a < r.tm.length then Classical.choose (hw a h) else 0, fun a ha => ?_⟩
    simp only [dif_pos ha]
    exact Classical.choose_spec (hw a ha)
  obtain ⟨g, hg⟩ := hgain
  -- the only block, after weighting
  obtain ⟨g', hg', t, ht1, ht2⟩ : ∃ g' : ℕ → ℝ, (∀ a, a < r.tm.length → 0 < g' a) ∧ ∃ t : ℕ → ℂ,
      weightedBlocks (specific.get "weighting") [fun a => fftBin (r.tm.getD a []) k] = [t] ∧
      ∀ a < r.tm.length, t a = (g' a : ℂ) * fftBin (r.tm.getD a []) k := by
    unfold weightedBlocks
    split_ifs with hinv
    · refine ⟨fun a => 1 / ‖fftBin (r.tm.getD a []) k‖, ?_, _, rfl, ?_⟩
      · intro a ha
        have hn : fftBin (r.tm.getD a []) k ≠ 0 := by
          rw [(hg a ha).2]
          exact mul_ne_zero (by exact_mod_cast (hg a ha).1.ne') (mul_ne_zero hS (Complex.exp_ne_zero _))
        have := norm_pos_iff.2 hn
        positivity
      · intro a ha
        simp only [invamp, List.map_cons, List.map_nil, List.sum_cons, List.sum_nil, add_zero,
          List.length_cons, List.length_nil, zero_add, Nat.cast_one, div_one]
        rw [mul_comm]
    · exact ⟨fun _ => 1, fun _ _ => one_pos, _, rfl, by intro a _; simp⟩
  set cw : ℕ → ℝ := channelWeight (specific.get "weighting") (fun a => ((r.offsets.getD a 0 : ℚ) : ℝ)) with hcw
  refine ⟨fun a => cw a * (g' a * g a), ?_, ?_, ?_⟩
  · intro a ha
    have hpos := mul_pos (hg' a (by omega)) (hg a (by omega)).1
    refine mul_nonneg ?_ hpos.le
    rw [hcw]
    unfold channelWeight
    split_ifs
    · have : r.offsets.getD a 0 ∈ r.offsets := by
        rw [List.getD_eq_getElem?_getD, List.getElem?_eq_getElem ha]
        exact List.getElem_mem _
      beta_reduce
      exact_mod_cast hx _ this
    · norm_num
  · intro a x hax hpos
    have ha : a < r.offsets.length := (List.getElem?_eq_some_iff.1 hax).1
    have hpos' := mul_pos (hg' a (by omega)) (hg a (by omega)).1
    refine mul_pos ?_ hpos'
    rw [hcw]
    unfold channelWeight
    split_ifs with hs
    · beta_reduce
      rw [List.getD_eq_getElem?_getD, hax]
      exact_mod_cast hpos hs
    · norm_num
  · intro i v' hv'
    rw [List.getElem?_map, hv']
    simp only [Option.map_some, Option.bind_some]
    rw [List.getElem?_map, hk]
    simp only [Option.map_some, Option.some.injEq]
    rw [hf]
    unfold fdbfPower
    rw [beamPower_sscm, ht1]
    simp only [List.map_cons, List.map_nil, List.sum_cons, List.sum_nil, add_zero, List.length_cons, List.length_nil,
      zero_add, Nat.cast_one, div_one]
    rw [Complex.normSq_eq_norm_sq, hlen]
    congr 3
    refine Finset.sum_congr rfl fun a ha => ?_
    have ha' : a < r.tm.length := by rw [hlen]; exact Finset.mem_range.1 ha
    rw [steer_eq, ← Complex.exp_conj, ht2 a ha', (hg a ha').2]
    have e : (starRingEnd ℂ) (-((lagOf hankel (specific.get "steering")
        (2 * Real.pi * (binFrequency r k : ℝ) / v' * (r.offsets.getD a 0 : ℚ)) : ℝ) : ℂ) * I) =
        ((lagOf hankel (specific.get "steering")
        (2 * Real.pi * (binFrequency r k : ℝ) / v' * (r.offsets.getD a 0 : ℚ)) : ℝ) : ℂ) * I := by
      simp
    rw [e]
    push_cast
    rw [sub_mul, sub_eq_add_neg, Complex.exp_add, ← neg_mul]
    ring

/-- **C71** (wavefront of the steering).  If at a selected bin the record is a wave of velocity `v` with the wavefront the
steering is made for — cylindrical for `"cylindrical"`, plane otherwise — and any positive gains, then no trial
velocity has a larger power at that bin than `v`, whatever the weighting. -/
theorem C71_matching_wavefront (hankel : ℝ → ℂ) (r : Record) (velocities : List ℝ)
    (set : FreqSettings) (specific : FdbfSpecific) (frqs : List ℚ) (power : List (List ℂ))
    (h : fdbf hankel r velocities set specific = .ok (frqs, power))
    (hlen : r.tm.length = r.offsets.length) (hx : ∀ x ∈ r.offsets, 0 ≤ x)
    (ids : List ℕ) (hids : r.keepIds set = .ok ids)
    (v v' : ℝ) (i i' j k : ℕ) (hv : velocities[i]? = some v) (hv' : velocities[i']? = some v') (hk : ids[j]? = some k)
    (S : ℂ) (hS : S ≠ 0) (hw : WaveAt (lagOf hankel (specific.get "steering")) r v k S) :
    ∃ p q : ℝ, (power[i]?.bind fun row => row[j]?) = some (p : ℂ) ∧ (power[i']?.bind fun row => row[j]?) = some (q : ℂ) ∧
      0 ≤ q ∧ q ≤ p := by
  obtain ⟨c, hc, -, hent⟩ := fdbf_wave hankel r velocities set specific frqs power h hlen hx ids hids v j k hk S hS _ hw
  refine ⟨_, _, hent i v hv, hent i' v' hv', by positivity, ?_⟩
  refine pow_le_pow_left₀ (norm_nonneg _) ?_ 2
  simp only [sub_self, Complex.ofReal_zero, zero_mul, Complex.exp_zero, mul_one]
  rw [← Finset.sum_mul, norm_mul, ← Complex.ofReal_sum, Complex.norm_real, Real.norm_eq_abs,
    abs_of_nonneg (Finset.sum_nonneg fun a ha => hc a (Finset.mem_range.1 ha)), Finset.sum_mul]
  refine le_trans (norm_sum_le _ _) (Finset.sum_le_sum fun a ha => ?_)
  rw [norm_mul, norm_mul, norm_exp_real_I, mul_one, Complex.norm_real, Real.norm_eq_abs,
    abs_of_nonneg (hc a (Finset.mem_range.1 ha))]

/-- The pulse of `pulseRecord` is a plane wave in the sense of `WaveAt`. -/
theorem pulseRecord_wave (k : ℕ) : WaveAt id pulseRecord 2 k (fftBin [1, 0, 0, 0] k) := by
  have hrec : RecordedPlaneWave pulseRecord 2 1 [1, 0, 0, 0] := by
    refine ⟨rfl, by norm_num [pulseRecord], ?_⟩
    intro a ha
    have : a = 0 ∨ a = 1 ∨ a = 2 := by simp [pulseRecord] at ha; omega
    rcases this with rfl | rfl | rfl
    · exact ⟨0, by rfl, by norm_num [pulseRecord], by rfl⟩
    · exact ⟨1, by rfl, by norm_num [pulseRecord], by rfl⟩
    · exact ⟨3, by rfl, by norm_num [pulseRecord], by rfl⟩
  have h := recorded_planeWave pulseRecord 2 1 [1, 0, 0, 0] (by norm_num) (by norm_num) (by norm_num [pulseRecord]) hrec k
  intro a ha
  refine ⟨1, one_pos, ?_⟩
  rw [h a ha]
  simp only [id]
  push_cast
  rw [one_mul]
  congr 3
  ring

/-- With a Hankel function of unit modulus and phase `k x`, the same pulse has the wavefront of cylindrical steering. -/
example (k : ℕ) : WaveAt (lagOf (fun kx => exp ((kx : ℂ) * I)) (some "cylindrical")) pulseRecord 2 k
    (fftBin [1, 0, 0, 0] k) := by
  intro a ha
  obtain ⟨g, hg, h⟩ := pulseRecord_wave k a ha
  refine ⟨g, hg, ?_⟩
  rw [h]
  congr 2
  simp only [lagOf, if_true, id]
  generalize 2 * Real.pi * (binFrequency pulseRecord k : ℝ) / 2 * ((pulseRecord.offsets.getD a 0 : ℚ) : ℝ) = x
  have hz := Complex.norm_mul_exp_arg_mul_I (exp ((x : ℂ) * I))
  rw [Complex.norm_exp_ofReal_mul_I, Complex.ofReal_one, one_mul] at hz
  rw [neg_mul, neg_mul, Complex.exp_neg, Complex.exp_neg, hz]

/-- **C114** (beamforming, below the aliasing frequency).  With plane steering: if at a selected bin the record is a plane
wave of velocity `v` and some two receivers, of non-zero offset for square-root weighting, are closer together than the
wavelengths of `v` and of another trial velocity at that frequency, then the other trial velocity has less power than
`v`. -/
theorem C114_beamforming_unique (hankel : ℝ → ℂ) (r : Record) (velocities : List ℝ)
    (set : FreqSettings) (specific : FdbfSpecific) (frqs : List ℚ) (power : List (List ℂ))
    (h : fdbf hankel r velocities set specific = .ok (frqs, power))
    (hplane : specific.get "steering" ≠ some "cylindrical")
    (hlen : r.tm.length = r.offsets.length) (hx : ∀ x ∈ r.offsets, 0 ≤ x)
    (ids : List ℕ) (hids : r.keepIds set = .ok ids)
    (v v' : ℝ) (hv0 : 0 < v) (hv0' : 0 < v') (hne : v' ≠ v) (i i' j k : ℕ) (hv : velocities[i]? = some v)
    (hv' : velocities[i']? = some v') (hk : ids[j]? = some k) (S : ℂ) (hS : S ≠ 0) (hw : WaveAt id r v k S)
    (hf : 0 < binFrequency r k) (xa xb : ℚ) (ha : xa ∈ r.offsets) (hb : xb ∈ r.offsets) (hab : xa < xb)
    (hsqrt : specific.get "weighting" = some "sqrt" → 0 < xa)
    (hres : (binFrequency r k : ℝ) * (xb - xa) < v) (hres' : (binFrequency r k : ℝ) * (xb - xa) < v') :
    ∃ p q : ℝ, (power[i]?.bind fun row => row[j]?) = some (p : ℂ) ∧ (power[i']?.bind fun row => row[j]?) = some (q : ℂ) ∧
      0 ≤ q ∧ q < p := by
  obtain ⟨c, hc, hcpos, hent⟩ := fdbf_wave hankel r velocities set specific frqs power h hlen hx ids hids v j k hk S hS _ hw
  obtain ⟨a, hxa⟩ := List.mem_iff_getElem?.1 ha
  obtain ⟨b, hxb⟩ := List.mem_iff_getElem?.1 hb
  have hal := (List.getElem?_eq_some_iff.1 hxa).1
  have hbl := (List.getElem?_eq_some_iff.1 hxb).1
  have hca := hcpos a xa hxa hsqrt
  have hcb := hcpos b xb hxb fun hs => lt_trans (hsqrt hs) hab
  have hga : r.offsets.getD a 0 = xa := by rw [List.getD_eq_getElem?_getD, hxa]; rfl
  have hgb : r.offsets.getD b 0 = xb := by rw [List.getD_eq_getElem?_getD, hxb]; rfl
  refine ⟨_, _, hent i v hv, hent i' v' hv', by positivity, ?_⟩
  refine pow_lt_pow_left₀ ?_ (norm_nonneg _) (by norm_num)
  have hlag : ∀ kx, lagOf hankel (specific.get "steering") kx = kx := fun kx => by
    unfold lagOf; rw [if_neg hplane]
  simp only [hlag, id, sub_self, Complex.ofReal_zero, zero_mul, Complex.exp_zero, mul_one]
  rw [← Finset.sum_mul, norm_mul (∑ _ ∈ _, _), ← Complex.ofReal_sum, Complex.norm_real, Real.norm_eq_abs,
    abs_of_nonneg (Finset.sum_nonneg fun a ha => hc a (Finset.mem_range.1 ha)), Finset.sum_mul]
  have hnorm : ∀ (d : ℕ) (φ : ℝ), d < r.offsets.length → ‖(c d : ℂ) * (S * exp ((φ : ℂ) * I))‖ = c d * ‖S‖ := by
    intro d φ hd
    rw [norm_mul, norm_mul, norm_exp_real_I, mul_one, Complex.norm_real, Real.norm_eq_abs, abs_of_nonneg (hc d hd)]
  refine lt_of_lt_of_le (norm_sum_lt _ hal hbl (by rintro rfl; rw [hxa] at hxb; cases hxb; exact lt_irrefl _ hab) ?_)
    (Finset.sum_le_sum fun d hd => (hnorm d _ (Finset.mem_range.1 hd)).le)
  intro he
  rw [hnorm a _ hal, hnorm b _ hbl, hga, hgb] at he
  simp only [Complex.real_smul] at he
  have hSn : ((‖S‖ : ℝ) : ℂ) ≠ 0 := by exact_mod_cast norm_ne_zero_iff.2 hS
  have hca' : (c a : ℂ) ≠ 0 := by exact_mod_cast hca.ne'
  have hcb' : (c b : ℂ) ≠ 0 := by exact_mod_cast hcb.ne'
  have he2 : exp (((2 * Real.pi * (binFrequency r k : ℝ) / v' * xb - 2 * Real.pi * (binFrequency r k : ℝ) / v * xb : ℝ) : ℂ) * I)
      = exp (((2 * Real.pi * (binFrequency r k : ℝ) / v' * xa - 2 * Real.pi * (binFrequency r k : ℝ) / v * xa : ℝ) : ℂ) * I) := by
    refine mul_left_cancel₀ (mul_ne_zero (mul_ne_zero (mul_ne_zero hca' hcb') hSn) hS) ?_
    push_cast at he ⊢
    linear_combination he
  have e1 : ∀ x : ℚ, (2 * Real.pi * (binFrequency r k : ℝ) / v' * x - 2 * Real.pi * (binFrequency r k : ℝ) / v * x : ℝ) =
      2 * Real.pi * ((binFrequency r k : ℝ) * (x / v') - (binFrequency r k : ℝ) * (x / v)) := fun x => by ring
  rw [e1, e1, exp_two_pi_eq] at he2
  obtain ⟨n, hn⟩ := he2
  refine not_aliased (by exact_mod_cast hf) hv0 hv0' hne hab hres hres' ⟨n, ?_⟩
  rw [sub_div, sub_div]
  linarith

/-- Trial velocities 2 and 3, frequency 1/4: the first two receivers, 2 m apart, resolve them. -/
example : (binFrequency pulseRecord 1 : ℝ) * ((2 : ℚ) - (0 : ℚ) : ℝ) < 2 ∧ 0 < binFrequency pulseRecord 1 ∧
    fftBin [1, 0, 0, 0] 1 ≠ 0 ∧ pulseRecord.offsets.Pairwise (· < ·) := by
  refine ⟨by norm_num [binFrequency, pulseRecord], by norm_num [binFrequency, pulseRecord], ?_, by decide +kernel⟩
  rw [fftBin_eq]
  norm_num [Finset.sum_range_succ, List.getD_eq_getElem?_getD]

end Verif.Props
