import Verif.Props.RoundedSlant
import Mathlib.Tactic.Positivity

/-!
# C137: the values of the slant stack with the rounding of binary64

`Props/SlantStack.lean` proves that with exact numbers the slant stack returns `slantSpec`: the trapezoidal integral
over offset of the linearly interpolated traces.  In binary64 a delay can fall just short of a sample instead of on
it, so that other samples are read; linear interpolation is continuous, so that the value hardly changes.
-/

namespace Verif.Props.B64
open Verif Verif.B64

/-! ## Lemmas -/

/-- Linear interpolation of a sequence at `s ≥ 0`. -/
def lerp (g : ℕ → ℚ) (s : ℚ) : ℚ :=
  g ⌊s⌋.toNat * (1 - (s - ⌊s⌋)) + g (⌊s⌋.toNat + 1) * (s - ⌊s⌋)

theorem abs_lerp_le {g : ℕ → ℚ} {A : ℚ} (hg : ∀ i, |g i| ≤ A) (s : ℚ) : |lerp g s| ≤ A := by
  have h0 := Int.floor_le s
  have h1 := Int.lt_floor_add_one s
  obtain ⟨a1, a2⟩ := abs_le.1 (hg ⌊s⌋.toNat)
  obtain ⟨b1, b2⟩ := abs_le.1 (hg (⌊s⌋.toNat + 1))
  unfold lerp
  rw [abs_le]
  constructor <;> nlinarith

theorem lerp_lipschitz_aux {g : ℕ → ℚ} {A s t : ℚ} (hg : ∀ i, |g i| ≤ A) (hs : 0 ≤ s) (hst : s ≤ t) :
    |lerp g t - lerp g s| ≤ 2 * A * (t - s) := by
  have hA : 0 ≤ A := le_trans (abs_nonneg _) (hg 0)
  have s0 := Int.floor_le s
  have s1 := Int.lt_floor_add_one s
  have t0 := Int.floor_le t
  have t1 := Int.lt_floor_add_one t
  rcases le_or_gt 1 (t - s) with hfar | hnear
  · have h1 := abs_lerp_le hg s
    have h2 := abs_lerp_le hg t
    refine le_trans (abs_sub _ _) ?_
    nlinarith
  · have hk : 0 ≤ ⌊s⌋ := Int.floor_nonneg.2 hs
    have hle : ⌊s⌋ ≤ ⌊t⌋ := Int.floor_le_floor hst
    have hlt : ⌊t⌋ < ⌊s⌋ + 2 := by
      have : (⌊t⌋ : ℚ) < ⌊s⌋ + 2 := by linarith
      exact_mod_cast this
    have d1 : |g (⌊s⌋.toNat + 1) - g ⌊s⌋.toNat| ≤ 2 * A := by
      refine le_trans (abs_sub _ _) ?_
      linarith [hg (⌊s⌋.toNat + 1), hg ⌊s⌋.toNat]
    rcases (by omega : ⌊t⌋ = ⌊s⌋ ∨ ⌊t⌋ = ⌊s⌋ + 1) with h | h
    · have e : lerp g t - lerp g s = (g (⌊s⌋.toNat + 1) - g ⌊s⌋.toNat) * (t - s) := by
        unfold lerp; rw [h]; ring
      rw [e, abs_mul, abs_of_nonneg (sub_nonneg.2 hst)]
      exact mul_le_mul_of_nonneg_right d1 (sub_nonneg.2 hst)
    · have d2 : |g (⌊s⌋.toNat + 2) - g (⌊s⌋.toNat + 1)| ≤ 2 * A := by
        refine le_trans (abs_sub _ _) ?_
        linarith [hg (⌊s⌋.toNat + 2), hg (⌊s⌋.toNat + 1)]
      have ht : ⌊t⌋.toNat = ⌊s⌋.toNat + 1 := by omega
      have hc : (⌊t⌋ : ℚ) = ⌊s⌋ + 1 := by exact_mod_cast h
      have e : lerp g t - lerp g s = (g (⌊s⌋.toNat + 2) - g (⌊s⌋.toNat + 1)) * (t - ⌊t⌋) +
          (g (⌊s⌋.toNat + 1) - g ⌊s⌋.toNat) * (⌊t⌋ - s) := by
        unfold lerp; rw [ht, hc]; ring
      rw [e]
      refine le_trans (abs_add_le _ _) ?_
      rw [abs_mul, abs_mul, abs_of_nonneg (sub_nonneg.2 t0), abs_of_nonneg (by rw [hc]; linarith : (0 : ℚ) ≤ ⌊t⌋ - s)]
      have q1 := mul_le_mul_of_nonneg_right d2 (sub_nonneg.2 t0)
      have q2 := mul_le_mul_of_nonneg_right d1 (by rw [hc]; linarith : (0 : ℚ) ≤ ⌊t⌋ - s)
      have : 2 * A * (t - s) = 2 * A * (t - ⌊t⌋) + 2 * A * (⌊t⌋ - s) := by ring
      rw [this]
      exact add_le_add q1 q2

theorem lerp_lipschitz {g : ℕ → ℚ} {A s t : ℚ} (hg : ∀ i, |g i| ≤ A) (hs : 0 ≤ s) (ht : 0 ≤ t) :
    |lerp g t - lerp g s| ≤ 2 * A * |t - s| := by
  rcases le_total s t with h | h
  · rw [abs_of_nonneg (sub_nonneg.2 h)]; exact lerp_lipschitz_aux hg hs h
  · rw [abs_sub_comm, abs_sub_comm t s, abs_of_nonneg (sub_nonneg.2 h)]; exact lerp_lipschitz_aux hg ht h

/-- Error of one rounded operation on a number known to be at most `B`. -/
theorem rnd_err {x B : ℚ} (h : |x| ≤ B) : |rnd x - x| ≤ B / 2 ^ 53 :=
  le_trans (rnd_error x) (div_le_div_of_nonneg_right h (by positivity))

/-- Rounded interpolation between two samples. -/
theorem lerp_rounded {a b δ A : ℚ} (ha : |a| ≤ A) (hb : |b| ≤ A) (h0 : 0 ≤ δ) (h1 : δ ≤ 1) :
    |add (mul a (sub 1 (rnd δ))) (mul b (rnd δ)) - (a * (1 - δ) + b * δ)| ≤ 9 * A / 2 ^ 53 := by
  have hA : 0 ≤ A := le_trans (abs_nonneg _) ha
  have e0 : rnd (0 : ℚ) = 0 := rnd_zero
  have e1 : rnd (1 : ℚ) = 1 := by simpa using rnd_natCast (n := 1) (by norm_num)
  have d0 : 0 ≤ rnd δ := rnd_nonneg h0
  have d1 : rnd δ ≤ 1 := by rw [← e1]; exact rnd_mono h1
  have w0 : 0 ≤ rnd (1 - rnd δ) := rnd_nonneg (by linarith)
  have w1 : rnd (1 - rnd δ) ≤ 1 := by
    conv_rhs => rw [← e1]
    exact rnd_mono (by linarith)
  have ed := rnd_err (x := δ) (B := 1) (by rw [abs_of_nonneg h0]; exact h1)
  have ew := rnd_err (x := 1 - rnd δ) (B := 1) (by rw [abs_of_nonneg (by linarith)]; linarith)
  have m1 : |a * rnd (1 - rnd δ)| ≤ A := by
    rw [abs_mul, abs_of_nonneg w0]
    calc |a| * rnd (1 - rnd δ) ≤ A * 1 := mul_le_mul ha w1 w0 hA
      _ = A := mul_one A
  have m2 : |b * rnd δ| ≤ A := by
    rw [abs_mul, abs_of_nonneg d0]
    calc |b| * rnd δ ≤ A * 1 := mul_le_mul hb d1 d0 hA
      _ = A := mul_one A
  have f1 := rnd_err m1
  have f2 := rnd_err m2
  have hε : A / 2 ^ 53 ≤ A := div_le_self hA (by norm_num)
  have s1 : |rnd (a * rnd (1 - rnd δ)) + rnd (b * rnd δ)| ≤ 4 * A := by
    obtain ⟨p1, p2⟩ := abs_le.1 m1
    obtain ⟨q1, q2⟩ := abs_le.1 m2
    obtain ⟨r1, r2⟩ := abs_le.1 f1
    obtain ⟨t1, t2⟩ := abs_le.1 f2
    rw [abs_le]; constructor <;> linarith
  have f3 := rnd_err s1
  have g1 : |a * (rnd (1 - rnd δ) - (1 - δ))| ≤ A * (2 / 2 ^ 53) := by
    rw [abs_mul]
    refine mul_le_mul ha ?_ (abs_nonneg _) hA
    obtain ⟨p1, p2⟩ := abs_le.1 ed
    obtain ⟨q1, q2⟩ := abs_le.1 ew
    rw [abs_le]; constructor <;> linarith
  have g2 : |b * (rnd δ - δ)| ≤ A * (1 / 2 ^ 53) := by
    rw [abs_mul]
    exact mul_le_mul hb ed (abs_nonneg _) hA
  show |rnd (rnd (a * rnd (1 - rnd δ)) + rnd (b * rnd δ)) - _| ≤ _
  obtain ⟨p1, p2⟩ := abs_le.1 f1
  obtain ⟨q1, q2⟩ := abs_le.1 f2
  obtain ⟨r1, r2⟩ := abs_le.1 f3
  obtain ⟨s3, s4⟩ := abs_le.1 g1
  obtain ⟨t3, t4⟩ := abs_le.1 g2
  have k1 : 9 * A / 2 ^ 53 = 4 * A / 2 ^ 53 + A / 2 ^ 53 + A / 2 ^ 53 + A * (2 / 2 ^ 53) + A * (1 / 2 ^ 53) := by ring
  rw [k1, abs_le]
  constructor <;> nlinarith

/-- Error of the rounded position of a sample.  `p` is the exact distance, the code starts from its rounded value. -/
theorem floatIndex_error {p dt v N : ℚ} (hdt : 0 < dt) (hv : 0 < v) (hp : 0 ≤ p)
    (hN : floatIndex (rnd p) dt v ≤ N) : |floatIndex (rnd p) dt v - p / dt / v| ≤ 5 * N / 2 ^ 53 := by
  have b1 := rnd_bounds hp
  have h1 : 0 ≤ rnd p / dt := div_nonneg (rnd_nonneg hp) hdt.le
  have b2 := rnd_bounds h1
  have h2 : 0 ≤ rnd (rnd p / dt) / v := div_nonneg (rnd_nonneg h1) hv.le
  have b3 := rnd_bounds h2
  have hi : floatIndex (rnd p) dt v = rnd (rnd (rnd p / dt) / v) := rfl
  rw [hi] at hN ⊢
  set r := rnd (rnd (rnd p / dt) / v)
  set s := p / dt / v with hs
  have hs0 : 0 ≤ s := div_nonneg (div_nonneg hp hdt.le) hv.le
  have c1 : rnd p / dt ≤ p / dt * (1 + 1 / 2 ^ 53) := by
    have := div_le_div_of_nonneg_right b1.2 hdt.le
    calc rnd p / dt ≤ p * (1 + 1 / 2 ^ 53) / dt := this
      _ = _ := by ring
  have c1' : p / dt * (1 - 1 / 2 ^ 53) ≤ rnd p / dt := by
    have := div_le_div_of_nonneg_right b1.1 hdt.le
    calc p / dt * (1 - 1 / 2 ^ 53) = p * (1 - 1 / 2 ^ 53) / dt := by ring
      _ ≤ _ := this
  have c2 : rnd (rnd p / dt) / v ≤ s * (1 + 1 / 2 ^ 53) * (1 + 1 / 2 ^ 53) := by
    have h3 : rnd (rnd p / dt) ≤ p / dt * (1 + 1 / 2 ^ 53) * (1 + 1 / 2 ^ 53) :=
      le_trans b2.2 (mul_le_mul_of_nonneg_right c1 (by norm_num))
    have := div_le_div_of_nonneg_right h3 hv.le
    calc _ ≤ p / dt * (1 + 1 / 2 ^ 53) * (1 + 1 / 2 ^ 53) / v := this
      _ = _ := by rw [hs]; ring
  have c2' : s * (1 - 1 / 2 ^ 53) * (1 - 1 / 2 ^ 53) ≤ rnd (rnd p / dt) / v := by
    have h3 : p / dt * (1 - 1 / 2 ^ 53) * (1 - 1 / 2 ^ 53) ≤ rnd (rnd p / dt) :=
      le_trans (mul_le_mul_of_nonneg_right c1' (by norm_num)) b2.1
    have := div_le_div_of_nonneg_right h3 hv.le
    calc s * (1 - 1 / 2 ^ 53) * (1 - 1 / 2 ^ 53) = p / dt * (1 - 1 / 2 ^ 53) * (1 - 1 / 2 ^ 53) / v := by rw [hs]; ring
      _ ≤ _ := this
  have c3 : r ≤ s * (1 + 1 / 2 ^ 53) * (1 + 1 / 2 ^ 53) * (1 + 1 / 2 ^ 53) :=
    le_trans b3.2 (mul_le_mul_of_nonneg_right c2 (by norm_num))
  have c3' : s * (1 - 1 / 2 ^ 53) * (1 - 1 / 2 ^ 53) * (1 - 1 / 2 ^ 53) ≤ r :=
    le_trans (mul_le_mul_of_nonneg_right c2' (by norm_num)) b3.1
  have hsN : s * (9 / 10) ≤ N := by
    refine le_trans ?_ (le_trans c3' hN)
    have : (9 : ℚ) / 10 ≤ (1 - 1 / 2 ^ 53) * (1 - 1 / 2 ^ 53) * (1 - 1 / 2 ^ 53) := by norm_num
    have := mul_le_mul_of_nonneg_left this hs0
    linarith
  have k1 : s * (1 + 1 / 2 ^ 53) * (1 + 1 / 2 ^ 53) * (1 + 1 / 2 ^ 53) ≤ s + s * (4 / 2 ^ 53) := by
    have : (1 + 1 / 2 ^ 53) * (1 + 1 / 2 ^ 53) * (1 + 1 / 2 ^ 53) ≤ 1 + (4 : ℚ) / 2 ^ 53 := by norm_num
    have := mul_le_mul_of_nonneg_left this hs0
    linarith
  have k2 : s - s * (4 / 2 ^ 53) ≤ s * (1 - 1 / 2 ^ 53) * (1 - 1 / 2 ^ 53) * (1 - 1 / 2 ^ 53) := by
    have : 1 - (4 : ℚ) / 2 ^ 53 ≤ (1 - 1 / 2 ^ 53) * (1 - 1 / 2 ^ 53) * (1 - 1 / 2 ^ 53) := by norm_num
    have := mul_le_mul_of_nonneg_left this hs0
    linarith
  have k3 : s * (4 / 2 ^ 53) ≤ 5 * N / 2 ^ 53 := by
    rw [le_div_iff₀ (by norm_num)]
    have : s * (4 / 2 ^ 53) * 2 ^ 53 = 4 * s := by ring
    rw [this]
    linarith
  rw [abs_le]
  constructor <;> linarith

/-- Interpolated value of the trace `u` at delay `j`, receiver position `p`, as computed. -/
def amp64 (u : List ℚ) (dt v p : ℚ) (j : ℕ) : ℚ :=
  add (mul (u.getD (j + (low64 dt v p).toNat) 0) (sub 1 (sub (floatIndex p dt v) (low64 dt v p))))
    (mul (u.getD (j + (low64 dt v p).toNat + 1) 0) (sub (floatIndex p dt v) (low64 dt v p)))

theorem amplitudes64_ok (u : List ℚ) (nt L : ℕ) (δ : ℚ) (h' : nt = 0 ∨ L + nt + 1 ≤ u.length) :
    amplitudes u ((List.range nt).map fun (j : ℕ) => (j : ℤ) + (L : ℤ)) δ =
      .ok ((List.range nt).map fun j => add (mul (u.getD (j + L) 0) (sub 1 δ)) (mul (u.getD (j + L + 1) 0) δ)) := by
  unfold amplitudes
  rw [Props.mapM_ok_pointwise _ _ (fun c : ℤ => add (mul (u.getD c.toNat 0) (sub 1 δ)) (mul (u.getD (c.toNat + 1) 0) δ))]
  · rw [List.map_map]
    refine congrArg _ (List.map_congr_left fun j _ => ?_)
    simp only [Function.comp]
    have : ((j : ℤ) + (L : ℤ)).toNat = j + L := by omega
    rw [this]
  · intro c hc
    obtain ⟨j, hj, rfl⟩ := List.mem_map.1 hc
    have hj' := List.mem_range.1 hj
    have e1 : ((j : ℤ) + (L : ℤ)) = ((j + L : ℕ) : ℤ) := by push_cast; rfl
    have e2 : ((j : ℤ) + (L : ℤ)) + 1 = ((j + L + 1 : ℕ) : ℤ) := by push_cast; rfl
    rw [e2, e1, Props.readSample_ok _ _ (by omega), Props.readSample_ok _ _ (by omega)]
    rfl

theorem slantRow64_ok (tm : List (List ℚ)) (pos : List ℚ) (dt v : ℚ) (nt npts : ℕ) (carry : WT.Carry)
    (hu : ∀ u ∈ tm, u.length = npts) (hdt : 0 < dt) (hv : 0 < v)
    (hpos : ∀ p ∈ pos, 0 ≤ p) (hb : ∀ p ∈ pos, nt = 0 ∨ ⌊floatIndex p dt v⌋ + nt + 1 ≤ npts)
    (hc : Props.CarryOk pos nt carry) :
    slantRow tm pos dt nt carry v = .ok (fullCarry64 pos dt nt v, (List.range nt).map fun (j : ℕ) =>
      (trapezoids (diff pos) ((tm.zip (pos.zip (fullCarry64 pos dt nt v))).map fun x =>
        amp64 x.1 dt v x.2.1 j)).foldl add 0) := by
  unfold slantRow
  rw [update_carry64 pos dt nt v carry hc]
  have key : ((tm.zip (pos.zip (fullCarry64 pos dt nt v))).mapM fun x =>
      amplitudes x.1 x.2.2.1 (sub (floatIndex x.2.1 dt v) (pyInt (floatIndex x.2.1 dt v)))) =
      .ok ((tm.zip (pos.zip (fullCarry64 pos dt nt v))).map fun x => (List.range nt).map fun (j : ℕ) =>
        amp64 x.1 dt v x.2.1 j) := by
    refine Props.mapM_ok_pointwise _ _ _ ?_
    intro x hx
    obtain ⟨i, hi⟩ := List.mem_iff_getElem?.1 hx
    rw [List.getElem?_zip_eq_some] at hi
    obtain ⟨hi1, hi2⟩ := hi
    rw [List.getElem?_zip_eq_some] at hi2
    obtain ⟨hi2, hi3⟩ := hi2
    have hp := List.mem_of_getElem? hi2
    have hx3 : x.2.2 = ((List.range nt).map fun (j : ℕ) => (j : ℤ) + low64 dt v x.2.1, low64 dt v x.2.1) := by
      unfold fullCarry64 at hi3
      rw [List.getElem?_map, hi2] at hi3
      exact (Option.some.inj hi3).symm
    obtain ⟨l1, l2⟩ := low64_eq hdt hv (hpos _ hp)
    have hul := hu _ (List.mem_of_getElem? hi1)
    have hbb := hb _ hp
    have hL : low64 dt v x.2.1 = ((low64 dt v x.2.1).toNat : ℤ) := by omega
    rw [hx3]
    simp only
    rw [hL, amplitudes64_ok _ _ _ _ (by omega)]
    rfl
  simp only [key, bind, Except.bind, pure, Except.pure]
  refine congrArg _ (Prod.ext rfl ?_)
  refine List.map_congr_left fun j hj => ?_
  have hj' := List.mem_range.1 hj
  rw [List.map_map]
  have : ((fun (a : List ℚ) => a.getD j 0) ∘ fun x : List ℚ × ℚ × List ℤ × ℤ =>
      (List.range nt).map fun (j : ℕ) => amp64 x.1 dt v x.2.1 j) = fun x => amp64 x.1 dt v x.2.1 j := by
    funext x
    simp [List.getD_eq_getElem?_getD, hj']
  rw [this]

theorem slantRows64_ok (tm : List (List ℚ)) (pos : List ℚ) (dt : ℚ) (nt npts : ℕ)
    (hu : ∀ u ∈ tm, u.length = npts) (hdt : 0 < dt)
    (hpos : ∀ p ∈ pos, 0 ≤ p) (vs : List ℚ) : ∀ (carry : WT.Carry), Props.CarryOk pos nt carry →
    (∀ v ∈ vs, 0 < v ∧ ∀ p ∈ pos, nt = 0 ∨ ⌊floatIndex p dt v⌋ + nt + 1 ≤ npts) →
    slantRows tm pos dt nt carry vs = .ok (vs.map fun v => (List.range nt).map fun (j : ℕ) =>
      (trapezoids (diff pos) ((tm.zip (pos.zip (fullCarry64 pos dt nt v))).map fun x =>
        amp64 x.1 dt v x.2.1 j)).foldl add 0) := by
  induction vs with
  | nil => intro carry _ _; rfl
  | cons v vs ih =>
    intro carry hc hv
    obtain ⟨h1, h2⟩ := hv v List.mem_cons_self
    have hr := slantRow64_ok tm pos dt v nt npts carry hu hdt h1 hpos h2 hc
    have := ih (fullCarry64 pos dt nt v) (fullCarry64_ok pos dt nt v)
      (fun w hw => hv w (List.mem_cons_of_mem _ hw))
    simp only [slantRows, hr, this, bind, Except.bind, pure, Except.pure, List.map_cons]

/-- Error of the interpolated value. -/
theorem amp64_error {u : List ℚ} {dt v p A N : ℚ} {j : ℕ} (hdt : 0 < dt) (hv : 0 < v) (hp : 0 ≤ p)
    (hu : ∀ y ∈ u, |y| ≤ A) (hA : 0 ≤ A) (hN : floatIndex (rnd p) dt v ≤ N) :
    |amp64 u dt v (rnd p) j - Props.linearAt u dt (j * dt + p / v)| ≤ (10 * N + 9) * A / 2 ^ 53 ∧
      |amp64 u dt v (rnd p) j| ≤ 2 * A := by
  have hp' := rnd_nonneg hp
  obtain ⟨l1, l2⟩ := low64_eq hdt hv hp'
  have hf0 := floatIndex_nonneg hdt hv hp'
  have hg : ∀ i, |u.getD i 0| ≤ A := by
    intro i
    rw [List.getD_eq_getElem?_getD]
    cases h : u[i]? with
    | none => simpa using hA
    | some y => exact hu y (List.mem_of_getElem? h)
  set f := floatIndex (rnd p) dt v with hf
  have e1 : lerp (fun i => u.getD i 0) (j + f) = u.getD (j + (low64 dt v (rnd p)).toNat) 0 * (1 - (f - ⌊f⌋)) +
      u.getD (j + (low64 dt v (rnd p)).toNat + 1) 0 * (f - ⌊f⌋) := by
    have a1 : ⌊(j : ℚ) + f⌋ = j + ⌊f⌋ := Int.floor_natCast_add j f
    unfold lerp
    rw [a1, l1]
    have : ((j : ℤ) + ⌊f⌋).toNat = j + ⌊f⌋.toNat := by omega
    rw [this]
    push_cast
    ring
  have e2 : Props.linearAt u dt (j * dt + p / v) = lerp (fun i => u.getD i 0) (j + p / dt / v) := by
    have hdt0 := ne_of_gt hdt
    have hv0 := ne_of_gt hv
    have e : (j * dt + p / v) / dt = j + p / dt / v := by field_simp
    unfold Props.linearAt lerp
    simp only [e]
  have h1 := lerp_rounded (hg (j + (low64 dt v (rnd p)).toNat)) (hg (j + (low64 dt v (rnd p)).toNat + 1))
    (sub_nonneg.2 (Int.floor_le f)) (by linarith [Int.lt_floor_add_one f])
  rw [← e1] at h1
  have e3 : amp64 u dt v (rnd p) j = add (mul (u.getD (j + (low64 dt v (rnd p)).toNat) 0) (sub 1 (rnd (f - ⌊f⌋))))
    (mul (u.getD (j + (low64 dt v (rnd p)).toNat + 1) 0) (rnd (f - ⌊f⌋))) := by
    unfold amp64
    rw [l1]
    rfl
  rw [← e3] at h1
  have hs0 : 0 ≤ p / dt / v := div_nonneg (div_nonneg hp hdt.le) hv.le
  have h2 := lerp_lipschitz (g := fun i => u.getD i 0) (A := A) (s := j + p / dt / v) (t := j + f) hg
    (by positivity) (by positivity)
  rw [add_sub_add_left_eq_sub] at h2
  have h3 := floatIndex_error hdt hv hp hN
  have h4 : 2 * A * |f - p / dt / v| ≤ 2 * A * (5 * N / 2 ^ 53) := mul_le_mul_of_nonneg_left h3 (by linarith)
  constructor
  · rw [e2]
    have := abs_sub_le (amp64 u dt v (rnd p) j) (lerp (fun i => u.getD i 0) (j + f))
      (lerp (fun i => u.getD i 0) (j + p / dt / v))
    refine le_trans this (le_trans (add_le_add h1 (le_trans h2 h4)) (le_of_eq ?_))
    ring
  · have h5 := abs_lerp_le (g := fun i => u.getD i 0) hg (j + f)
    have h6 : 9 * A / 2 ^ 53 ≤ A := by
      rw [div_le_iff₀ (by norm_num)]
      nlinarith
    have := abs_sub_abs_le_abs_sub (amp64 u dt v (rnd p) j) (lerp (fun i => u.getD i 0) (j + f))
    linarith

/-- One trapezoid. -/
theorem trapezoid64_error {x y m X a b a' b' A E : ℚ} (hx : 0 ≤ x - m) (hxX : x - m ≤ X) (hy : 0 ≤ y - m)
    (hyX : y - m ≤ X) (ha : |a'| ≤ 2 * A) (hb : |b'| ≤ 2 * A) (hA : 0 ≤ A)
    (ea : |a' - a| ≤ E) (eb : |b' - b| ≤ E) :
    |mul (mul (1 / 2) (sub (sub y m) (sub x m))) (add b' a') - (y - x) / 2 * (a + b)| ≤
      20 * X * A / 2 ^ 53 + X * E ∧
    |mul (mul (1 / 2) (sub (sub y m) (sub x m))) (add b' a')| ≤ 4 * X * A := by
  have hX : 0 ≤ X := le_trans hx hxX
  have hε : X / 2 ^ 53 ≤ X / 1000 := div_le_div_of_nonneg_left hX (by norm_num) (by norm_num)
  have hεA : A / 2 ^ 53 ≤ A / 1000 := div_le_div_of_nonneg_left hA (by norm_num) (by norm_num)
  obtain ⟨p1, p2⟩ := abs_le.1 (rnd_err (x := y - m) (B := X) (by rw [abs_of_nonneg hy]; exact hyX))
  obtain ⟨q1, q2⟩ := abs_le.1 (rnd_err (x := x - m) (B := X) (by rw [abs_of_nonneg hx]; exact hxX))
  obtain ⟨r1, r2⟩ := abs_le.1 (rnd_err (x := rnd (y - m) - rnd (x - m)) (B := 2 * X)
    (by rw [abs_le]; constructor <;> linarith))
  have kk : 2 * X / 2 ^ 53 = 2 * (X / 2 ^ 53) := by ring
  rw [kk] at r1 r2
  obtain ⟨s1, s2⟩ := abs_le.1 (rnd_err (x := 1 / 2 * rnd (rnd (y - m) - rnd (x - m))) (B := X)
    (by rw [abs_le]; constructor <;> linarith))
  obtain ⟨a1, a2⟩ := abs_le.1 ha
  obtain ⟨b1, b2⟩ := abs_le.1 hb
  have hs := rnd_err (x := b' + a') (B := 4 * A) (by rw [abs_le]; constructor <;> linarith)
  have hd : |rnd (1 / 2 * rnd (rnd (y - m) - rnd (x - m))) - (y - x) / 2| ≤ 3 * X / 2 ^ 53 := by
    have : 3 * X / 2 ^ 53 = 3 * (X / 2 ^ 53) := by ring
    rw [this, abs_le]; constructor <;> linarith
  have hd' : |rnd (1 / 2 * rnd (rnd (y - m) - rnd (x - m)))| ≤ 51 / 100 * X := by
    rw [abs_le]; constructor <;> linarith
  have hs' : |rnd (b' + a')| ≤ 5 * A := by
    have : 4 * A / 2 ^ 53 = 4 * (A / 2 ^ 53) := by ring
    rw [this] at hs
    obtain ⟨t1, t2⟩ := abs_le.1 hs
    rw [abs_le]; constructor <;> linarith
  have hh : |(y - x) / 2| ≤ X / 2 := by
    rw [abs_le]; constructor <;> linarith
  have hab : |rnd (b' + a') - (a + b)| ≤ 4 * A / 2 ^ 53 + 2 * E := by
    obtain ⟨t1, t2⟩ := abs_le.1 hs
    obtain ⟨u1, u2⟩ := abs_le.1 ea
    obtain ⟨w1, w2⟩ := abs_le.1 eb
    rw [abs_le]; constructor <;> linarith
  have hprod : |rnd (1 / 2 * rnd (rnd (y - m) - rnd (x - m))) * rnd (b' + a')| ≤ 3 * (X * A) := by
    rw [abs_mul]
    refine le_trans (mul_le_mul hd' hs' (abs_nonneg _) (by linarith)) ?_
    nlinarith [mul_nonneg hX hA]
  have ht := rnd_err hprod
  have c1 : |(rnd (1 / 2 * rnd (rnd (y - m) - rnd (x - m))) - (y - x) / 2) * rnd (b' + a')| ≤
      3 * X / 2 ^ 53 * (5 * A) := by
    rw [abs_mul]
    exact mul_le_mul hd hs' (abs_nonneg _) (by positivity)
  have c2 : |(y - x) / 2 * (rnd (b' + a') - (a + b))| ≤ X / 2 * (4 * A / 2 ^ 53 + 2 * E) := by
    rw [abs_mul]
    exact mul_le_mul hh hab (abs_nonneg _) (by linarith)
  show |rnd (rnd (1 / 2 * rnd (rnd (y - m) - rnd (x - m))) * rnd (b' + a')) - _| ≤ _ ∧
    |rnd (rnd (1 / 2 * rnd (rnd (y - m) - rnd (x - m))) * rnd (b' + a'))| ≤ _
  generalize rnd (1 / 2 * rnd (rnd (y - m) - rnd (x - m))) = M at *
  generalize rnd (b' + a') = S at *
  obtain ⟨t1, t2⟩ := abs_le.1 ht
  obtain ⟨u1, u2⟩ := abs_le.1 c1
  obtain ⟨w1, w2⟩ := abs_le.1 c2
  obtain ⟨v1, v2⟩ := abs_le.1 hprod
  constructor
  · have k : 20 * X * A / 2 ^ 53 + X * E = 3 * (X * A) / 2 ^ 53 + 3 * X / 2 ^ 53 * (5 * A) +
        X / 2 * (4 * A / 2 ^ 53 + 2 * E) := by ring
    have e : (M - (y - x) / 2) * S + (y - x) / 2 * (S - (a + b)) = M * S - (y - x) / 2 * (a + b) := by ring
    rw [k, abs_le]
    constructor <;> linarith
  · have hXA := mul_nonneg hX hA
    have : 3 * (X * A) / 2 ^ 53 ≤ X * A := by
      rw [div_le_iff₀ (by norm_num)]; nlinarith
    rw [abs_le]
    constructor <;> linarith

theorem trapezoids_length : ∀ pos a : List ℚ, a.length = pos.length →
    (trapezoids (diff pos) a).length = pos.length - 1
  | [], a, h => by cases a <;> rfl
  | [_], a, h => by cases a <;> rfl
  | _ :: _ :: _, [], h => by simp at h
  | _ :: _ :: _, [_], h => by simp at h
  | p :: q :: pos, a :: b :: as, h => by
    have ih := trapezoids_length (q :: pos) (b :: as) (by simpa using h)
    simp only [diff, trapezoids, List.length_cons] at ih ⊢
    omega

theorem trapezoids_get : ∀ (pos a : List ℚ) (k : ℕ), a.length = pos.length → k + 1 < pos.length →
    (trapezoids (diff pos) a)[k]? = some (mul (mul (1 / 2) (sub (pos.getD (k + 1) 0) (pos.getD k 0)))
      (add (a.getD (k + 1) 0) (a.getD k 0)))
  | [], _, _, _, hk => by simp at hk
  | [_], _, _, _, hk => by simp at hk
  | _ :: _ :: _, [], _, h, _ => by simp at h
  | _ :: _ :: _, [_], _, h, _ => by simp at h
  | p :: q :: pos, a :: b :: as, 0, h, hk => by
    simp [diff, trapezoids]
  | p :: q :: pos, a :: b :: as, k + 1, h, hk => by
    have ih := trapezoids_get (q :: pos) (b :: as) k (by simpa using h) (by simpa using hk)
    simp only [diff, trapezoids, List.getElem?_cons_succ, List.getD_cons_succ] at ih ⊢
    exact ih

/-- Rounding errors of adding `n` numbers of size at most `B`. -/
theorem foldl_add_error {B : ℚ} (hB : 0 ≤ B) : ∀ (l : List ℚ) (acc exact : ℚ) (k : ℕ), (∀ t ∈ l, |t| ≤ B) →
    k + l.length ≤ 2 ^ 53 → |exact| ≤ k * B → |acc - exact| ≤ (k : ℚ) ^ 2 * B / 2 ^ 53 →
    |l.foldl add acc - (exact + l.sum)| ≤ ((k + l.length : ℕ) : ℚ) ^ 2 * B / 2 ^ 53
  | [], acc, exact, k, _, _, _, h => by simpa using h
  | t :: l, acc, exact, k, hl, hk, he, h => by
    have ht := hl t List.mem_cons_self
    have hk1 : ((k : ℚ) + 1) ≤ 2 ^ 53 := by
      have : k + 1 ≤ 2 ^ 53 := by simp only [List.length_cons] at hk; omega
      exact_mod_cast this
    have hsmall : (k : ℚ) ^ 2 * B / 2 ^ 53 ≤ k * B := by
      rw [div_le_iff₀ (by norm_num)]
      have : (k : ℚ) * B * k ≤ k * B * 2 ^ 53 := mul_le_mul_of_nonneg_left (by linarith) (by positivity)
      nlinarith
    have hsum : |acc + t| ≤ (2 * k + 1) * B := by
      obtain ⟨a1, a2⟩ := abs_le.1 h
      obtain ⟨b1, b2⟩ := abs_le.1 he
      obtain ⟨c1, c2⟩ := abs_le.1 ht
      rw [abs_le]; constructor <;> linarith
    have hr := rnd_err hsum
    have hnew : |add acc t - (exact + t)| ≤ ((k + 1 : ℕ) : ℚ) ^ 2 * B / 2 ^ 53 := by
      show |rnd (acc + t) - _| ≤ _
      have e : ((k + 1 : ℕ) : ℚ) ^ 2 * B / 2 ^ 53 = (2 * k + 1) * B / 2 ^ 53 + (k : ℚ) ^ 2 * B / 2 ^ 53 := by
        push_cast; ring
      obtain ⟨a1, a2⟩ := abs_le.1 h
      obtain ⟨b1, b2⟩ := abs_le.1 hr
      rw [e, abs_le]; constructor <;> linarith
    have hex : |exact + t| ≤ ((k + 1 : ℕ) : ℚ) * B := by
      refine le_trans (abs_add_le _ _) ?_
      push_cast; linarith
    have ih := foldl_add_error hB l (add acc t) (exact + t) (k + 1) (fun x hx => hl x (List.mem_cons_of_mem _ hx))
      (by simp only [List.length_cons] at hk; omega) hex hnew
    rw [List.foldl_cons, List.sum_cons, ← add_assoc]
    have e : k + 1 + l.length = k + (t :: l).length := by simp only [List.length_cons]; omega
    rw [e] at ih
    exact ih

theorem sum_sub_le {l m : List ℚ} {D : ℚ} (h : List.Forall₂ (fun a b => |a - b| ≤ D) l m) :
    |l.sum - m.sum| ≤ l.length * D := by
  induction h with
  | nil => simp
  | @cons a b l m h _ ih =>
    rw [List.sum_cons, List.sum_cons, List.length_cons]
    have : a + l.sum - (b + m.sum) = (a - b) + (l.sum - m.sum) := by ring
    rw [this]
    refine le_trans (abs_add_le _ _) ?_
    push_cast
    linarith

/-! ## Theorem -/

/-- **C137**.  With binary64 arithmetic every value the slant stack returns is the trapezoidal integral of the
interpolated traces (`slantSpec`, exact) up to the stated error: `g` is the number of gaps between receivers, `A` the
largest amplitude, `X` the length of the array.  `A*X*g` is the size the integral can have, so that the relative error
is about `10*npts/2^53`. -/
theorem C137_slant_value_binary64 (tm : List (List ℚ)) (offsets : List ℚ) (dt : ℚ) (velocities : List ℚ) (npts : ℕ)
    (h : SlantInput tm offsets dt velocities npts) (xmin xmax vmin A : ℚ)
    (he : Extremes offsets velocities xmin xmax vmin) (hA : ∀ u ∈ tm, ∀ y ∈ u, |y| ≤ A) (hA0 : 0 ≤ A)
    (hn : offsets.length ≤ 2 ^ 53) (rows : List (List ℚ))
    (hok : B64.slantStack tm offsets dt velocities = .ok rows) :
    rows.length = velocities.length ∧
    ∀ (i j : ℕ) (v : ℚ) (row : List ℚ) (y : ℚ), velocities[i]? = some v → rows[i]? = some row → row[j]? = some y →
      |y - Props.slantSpec tm offsets xmin dt v (j * dt)| ≤
        (offsets.length - 1 : ℕ) * (10 * npts + 4 * (offsets.length - 1 : ℕ) + 29) * (A * (xmax - xmin)) / 2 ^ 53 := by
  have hdt := h.dt_pos
  have hpos : ∀ p ∈ offsets.map (fun x => sub x xmin), 0 ≤ p := by
    intro p hp
    obtain ⟨x, hx, rfl⟩ := List.mem_map.1 hp
    exact rnd_nonneg (by have := he.xmin_le x hx; linarith)
  rw [slantStack_unfold tm offsets dt velocities npts h xmin xmax vmin he] at hok
  split_ifs at hok with hneg
  generalize hnt : ((npts : ℤ) - reserved (xmax - xmin) dt vmin - 1).toNat = nt at hok
  have hcarry : Props.CarryOk (offsets.map fun x => sub x xmin) nt
      ((offsets.map fun x => sub x xmin).map fun _ => ((List.range nt).map fun (j : ℕ) => (j : ℤ), 0)) := by
    refine ⟨by simp, ?_⟩
    intro c hc
    obtain ⟨p, _, rfl⟩ := List.mem_map.1 hc
    simp
  rcases slantRows_cases tm (offsets.map fun x => sub x xmin) dt nt npts (by simp [h.traces]) h.lengths hdt hpos
      velocities h.velocities_pos _ hcarry with ⟨h1, _⟩ | ⟨_, h2⟩
  swap
  · rw [h2] at hok; cases hok
  rw [slantRows64_ok tm _ dt nt npts h.lengths hdt hpos velocities _ hcarry
    (fun v hv => ⟨h.velocities_pos v hv, h1 v hv⟩)] at hok
  obtain rfl := Except.ok.inj hok
  refine ⟨by simp, ?_⟩
  intro i j v row y hvi hri hyj
  rw [List.getElem?_map, hvi] at hri
  obtain rfl := Option.some.inj hri
  rw [List.getElem?_map] at hyj
  have hj : j < nt := by
    by_contra hcon
    rw [List.getElem?_eq_none (by simpa using hcon)] at hyj
    cases hyj
  rw [List.getElem?_range hj] at hyj
  obtain rfl := Option.some.inj hyj
  have hv := List.mem_of_getElem? hvi
  have hv0 := h.velocities_pos v hv
  set X := xmax - xmin with hXdef
  have hX : 0 ≤ X := by have := he.xmin_le _ he.xmax_mem; linarith
  set pos := offsets.map fun x => sub x xmin with hposdef
  set amps := (tm.zip (pos.zip (fullCarry64 pos dt nt v))).map fun x => amp64 x.1 dt v x.2.1 j with hamps
  have hlenp : pos.length = offsets.length := by simp [hposdef]
  have hlena : amps.length = pos.length := by
    simp [hamps, h.traces, hlenp, fullCarry64]
  have hpg : ∀ k, k < offsets.length → pos.getD k 0 = rnd (offsets.getD k 0 - xmin) := by
    intro k hk
    simp [hposdef, List.getD_eq_getElem?_getD, hk, sub]
  have hag : ∀ k, k < offsets.length → amps.getD k 0 = amp64 (tm.getD k []) dt v (rnd (offsets.getD k 0 - xmin)) j := by
    intro k hk
    have hkp : k < pos.length := by omega
    have hfc : k < (fullCarry64 pos dt nt v).length := by simpa [fullCarry64] using hkp
    have hti : k < tm.length := by rw [h.traces]; exact hk
    have hz : (tm.zip (pos.zip (fullCarry64 pos dt nt v)))[k]? =
        some (tm[k], (pos[k], (fullCarry64 pos dt nt v)[k])) := by
      rw [List.getElem?_zip_eq_some]
      refine ⟨List.getElem?_eq_getElem hti, ?_⟩
      rw [List.getElem?_zip_eq_some]
      exact ⟨List.getElem?_eq_getElem hkp, List.getElem?_eq_getElem hfc⟩
    have hp := hpg k hk
    rw [List.getD_eq_getElem?_getD, List.getElem?_eq_getElem hkp] at hp
    simp only [Option.getD_some] at hp
    rw [hamps, List.getD_eq_getElem?_getD, List.getElem?_map, hz]
    simp only [Option.map_some, Option.getD_some]
    rw [hp]
    simp [List.getD_eq_getElem?_getD, hti]
  have hoff : ∀ k, k < offsets.length → 0 ≤ offsets.getD k 0 - xmin ∧ offsets.getD k 0 - xmin ≤ X := by
    intro k hk
    have hmem : offsets.getD k 0 ∈ offsets := by
      rw [List.getD_eq_getElem?_getD, List.getElem?_eq_getElem hk]; exact List.getElem_mem hk
    have e1 := he.xmin_le _ hmem
    have e2 := he.le_xmax _ hmem
    exact ⟨by linarith, by linarith⟩
  have herr : ∀ k, k < offsets.length →
      |amps.getD k 0 - Props.linearAt (tm.getD k []) dt (j * dt + (offsets.getD k 0 - xmin) / v)| ≤
        (10 * npts + 9) * A / 2 ^ 53 ∧ |amps.getD k 0| ≤ 2 * A := by
    intro k hk
    rw [hag k hk]
    refine amp64_error hdt hv0 (hoff k hk).1 ?_ hA0 ?_
    · have hti : k < tm.length := by rw [h.traces]; exact hk
      rw [List.getD_eq_getElem?_getD, List.getElem?_eq_getElem hti]
      exact hA _ (List.getElem_mem hti)
    · have hmem : pos.getD k 0 ∈ pos := by
        rw [List.getD_eq_getElem?_getD, List.getElem?_eq_getElem (by omega)]; exact List.getElem_mem _
      rw [hpg k hk] at hmem
      have hb := h1 v hv _ hmem
      have hb' : ⌊floatIndex (rnd (offsets.getD k 0 - xmin)) dt v⌋ + 1 ≤ (npts : ℤ) := by omega
      have : ((⌊floatIndex (rnd (offsets.getD k 0 - xmin)) dt v⌋ : ℚ) + 1) ≤ npts := by exact_mod_cast hb'
      linarith [Int.lt_floor_add_one (floatIndex (rnd (offsets.getD k 0 - xmin)) dt v)]
  have hlen := trapezoids_length pos amps hlena
  have hall : ∀ k, k < offsets.length - 1 → ∃ t, (trapezoids (diff pos) amps)[k]? = some t ∧ |t| ≤ 4 * X * A ∧
      |t - (offsets.getD (k + 1) 0 - offsets.getD k 0) / 2 *
        (Props.linearAt (tm.getD k []) dt (j * dt + (offsets.getD k 0 - xmin) / v) +
          Props.linearAt (tm.getD (k + 1) []) dt (j * dt + (offsets.getD (k + 1) 0 - xmin) / v))| ≤
        20 * X * A / 2 ^ 53 + X * ((10 * npts + 9) * A / 2 ^ 53) := by
    intro k hk
    have hk0 : k < offsets.length := by omega
    have hk1 : k + 1 < offsets.length := by omega
    refine ⟨_, trapezoids_get pos amps k hlena (by omega), ?_⟩
    rw [hpg k hk0, hpg (k + 1) hk1]
    have := trapezoid64_error (hoff k hk0).1 (hoff k hk0).2 (hoff (k + 1) hk1).1 (hoff (k + 1) hk1).2
      (herr k hk0).2 (herr (k + 1) hk1).2 hA0 (herr k hk0).1 (herr (k + 1) hk1).1
    exact ⟨this.2, this.1⟩
  have hB : 0 ≤ 4 * X * A := by positivity
  have hfold := foldl_add_error hB (trapezoids (diff pos) amps) 0 0 0 (by
      intro t ht
      obtain ⟨k, hk⟩ := List.mem_iff_getElem?.1 ht
      have hkl := (List.getElem?_eq_some_iff.1 hk).1
      obtain ⟨t', h3, h4, _⟩ := hall k (by omega)
      rw [hk] at h3
      rw [Option.some.inj h3]; exact h4) (by omega) (by simp) (by simp)
  have hsum := sum_sub_le (l := trapezoids (diff pos) amps) (m := (List.range (offsets.length - 1)).map fun k =>
      (offsets.getD (k + 1) 0 - offsets.getD k 0) / 2 *
        (Props.linearAt (tm.getD k []) dt (j * dt + (offsets.getD k 0 - xmin) / v) +
          Props.linearAt (tm.getD (k + 1) []) dt (j * dt + (offsets.getD (k + 1) 0 - xmin) / v)))
      (D := 20 * X * A / 2 ^ 53 + X * ((10 * npts + 9) * A / 2 ^ 53)) (by
      rw [List.forall₂_iff_get]
      refine ⟨by simp [hlen, hlenp], ?_⟩
      intro k hk1 hk2
      obtain ⟨t', h3, _, h5⟩ := hall k (by simpa using hk2)
      simp only [List.get_eq_getElem, List.getElem_map, List.getElem_range]
      have := (List.getElem?_eq_some_iff.1 h3).2
      rw [this]
      exact h5)
  rw [hlen, hlenp] at hsum
  rw [Nat.zero_add, zero_add, hlen, hlenp] at hfold
  have hspec : Props.slantSpec tm offsets xmin dt v (j * dt) = ((List.range (offsets.length - 1)).map fun k =>
      (offsets.getD (k + 1) 0 - offsets.getD k 0) / 2 *
        (Props.linearAt (tm.getD k []) dt (j * dt + (offsets.getD k 0 - xmin) / v) +
          Props.linearAt (tm.getD (k + 1) []) dt (j * dt + (offsets.getD (k + 1) 0 - xmin) / v))).sum := rfl
  rw [hspec]
  refine le_trans (abs_sub_le _ (trapezoids (diff pos) amps).sum _) (le_trans (add_le_add hfold hsum) (le_of_eq ?_))
  ring

/-- C137 for any two traces of 250 samples between -1 and 1, 23 m apart: both velocities have 40 values, and each is
right within 1e-11. -/
example (a b : List ℚ) (ha : a.length = 250) (hb : b.length = 250) (h : ∀ u ∈ [a, b], ∀ y ∈ u, |y| ≤ 1) :
    ∃ rows, B64.slantStack [a, b] [0, 23] (rnd (1 / 1000)) [110, 120] = .ok rows ∧
      ∀ row, rows[1]? = some row → row.length = 40 ∧ ∀ (j : ℕ) (y : ℚ), row[j]? = some y →
        |y - Props.slantSpec [a, b] [0, 23] 0 (rnd (1 / 1000)) 120 (j * rnd (1 / 1000))| ≤ 1 / 10 ^ 11 := by
  obtain ⟨hin, hex, rows, h1, _, h3⟩ := accepted_23 a b ha hb
  refine ⟨rows, h1, fun row hr => ⟨h3 row (List.mem_of_getElem? hr), fun j y hy => ?_⟩⟩
  refine le_trans ((C137_slant_value_binary64 _ _ _ _ _ hin 0 23 110 1 hex h (by norm_num) (by norm_num) rows h1).2
    1 j 120 row y rfl hr hy) ?_
  norm_num

end Verif.Props.B64
