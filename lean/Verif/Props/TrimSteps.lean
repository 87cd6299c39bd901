import Verif.Props.Trim
import Verif.Props.ArrayStructure

/-!
# C183: narrowing the record in steps
-/

namespace Verif.Props
open Verif ATS

namespace TrimSteps

theorem argmin_first {l : List ℚ} {i : ℕ} (hi : i < l.length) (h1 : ∀ j (hj : j < l.length), l[i] ≤ l[j])
    (h2 : ∀ j (hj : j < l.length), j < i → l[i] < l[j]) : argmin l = some i := by
  obtain ⟨k, hk⟩ := argmin_isSome (l := l) (List.ne_nil_of_length_pos (by omega))
  obtain ⟨k1, k2, k3⟩ := argmin_spec hk
  rw [hk]
  rcases lt_trichotomy k i with c | c | c
  · have := h2 k k1 c
    have := k2 i hi
    linarith
  · rw [c]
  · have := k3 i hi c
    have := h1 k k1
    linarith

/-- The sample nearest to a time, the earlier of two. -/
def Nearest (n : ℕ) (dt delay s : ℚ) (i : ℕ) : Prop :=
  i < n ∧ (∀ k < n, |(i : ℚ) * dt + delay - s| ≤ |(k : ℚ) * dt + delay - s|) ∧
    ∀ k < i, |(i : ℚ) * dt + delay - s| < |(k : ℚ) * dt + delay - s|

theorem nearest_iff {r : ATS} {s : ℚ} {i : ℕ} :
    argmin (r.time.map fun t => |t - s|) = some i ↔ Nearest r.nsamples r.dt r.delay s i := by
  constructor
  · intro h
    obtain ⟨h1, h2, h3⟩ := argmin_spec h
    simp only [List.length_map, time_length] at h1
    simp only [List.length_map, time_length, List.getElem_map, time_getElem] at h2 h3
    exact ⟨h1, h2, fun k hk => h3 k (by omega) hk⟩
  · rintro ⟨h1, h2, h3⟩
    apply argmin_first (by simpa [time_length] using h1)
    · intro j hj
      simp only [List.getElem_map, time_getElem]
      exact h2 j (by simpa [time_length] using hj)
    · intro j hj hji
      simp only [List.getElem_map, time_getElem]
      exact h3 j hji

theorem trim_iff {r r' : ATS} {s e : ℚ} (hdt : 0 < r.dt) : r.trim s e = (r', .ok ()) ↔
    ∃ i j, Nearest r.nsamples r.dt r.delay s i ∧ Nearest r.nsamples r.dt r.delay e j ∧
      r.delay ≤ s ∧ s ≤ e ∧ e ≤ ((r.nsamples : ℚ) - 1) * r.dt + r.delay ∧
      r' = { r with amp := (r.amp.take (j + 1)).drop i, delay := s } := by
  have key : ∀ i j, Nearest r.nsamples r.dt r.delay s i → Nearest r.nsamples r.dt r.delay e j →
      r.delay ≤ s ∧ s ≤ e ∧ e ≤ ((r.nsamples : ℚ) - 1) * r.dt + r.delay →
      r.trim s e = ({ r with amp := (r.amp.take (j + 1)).drop i, delay := s }, .ok ()) := by
    intro i j hi hj hb
    have hn : r.amp ≠ [] := List.ne_nil_of_length_pos (by have := hi.1; unfold nsamples at this; omega)
    obtain ⟨r1, h1⟩ := (C06_trim_refuses_illogical_times r s e hn).1.2 hb
    rw [h1]
    unfold trim trimBase at h1
    rw [nearest_iff.2 hi, nearest_iff.2 hj] at h1
    rcases h0 : r.time.head? with _ | t0
    · simp [h0] at h1
    rcases h2 : r.time.getLast? with _ | t1
    · simp [h0, h2] at h1
    simp only [h0, h2] at h1
    split_ifs at h1 with c
    · simp at h1
    simp only [Prod.mk.injEq, and_true] at h1
    rw [← h1]
    have hsl : pySlice r.amp (i : ℤ) ((j : ℤ) + 1) = (r.amp.take (j + 1)).drop i := by
      have : ((j : ℤ) + 1) = ((j + 1 : ℕ) : ℤ) := by simp
      rw [this]
      have hl : r.amp.length = r.nsamples := rfl
      exact pySlice_nat _ _ _ (by rw [hl]; exact hj.1) (by rw [hl]; exact hi.1.le)
    rw [hsl]
  constructor
  · intro h
    obtain ⟨-, j0, -, hj0, -, -, b1, b2, b3, -⟩ := trim_ok hdt h
    have hpos : 0 < r.nsamples := Nat.lt_of_le_of_lt (Nat.zero_le _) hj0
    have hne : ∀ x : ℚ, (r.time.map fun t => |t - x|) ≠ [] := fun x => List.ne_nil_of_length_pos (by
      simp only [List.length_map, time_length]; exact hpos)
    obtain ⟨i, hi⟩ := argmin_isSome (hne s)
    obtain ⟨j, hj⟩ := argmin_isSome (hne e)
    rw [nearest_iff] at hi hj
    have := key i j hi hj ⟨b1, b2, b3⟩
    rw [h, Prod.mk.injEq] at this
    exact ⟨i, j, hi, hj, b1, b2, b3, this.1⟩
  · rintro ⟨i, j, hi, hj, b1, b2, b3, rfl⟩
    exact key i j hi hj ⟨b1, b2, b3⟩

/-- Among the samples from number `a` to number `b` the one nearest a time between theirs is the nearest of all. -/
theorem Nearest.within {n a b : ℕ} {dt delay s : ℚ} {k : ℕ} (hdt : 0 < dt) (hab : a ≤ b) (hb : b < n)
    (h : Nearest (b + 1 - a) dt ((a : ℚ) * dt + delay) s k) (h1 : (a : ℚ) * dt + delay ≤ s) (h2 : s ≤ (b : ℚ) * dt + delay) :
    Nearest n dt delay s (a + k) := by
  obtain ⟨k1, k2, k3⟩ := h
  have e : ∀ m : ℕ, (m : ℚ) * dt + ((a : ℚ) * dt + delay) = ((a + m : ℕ) : ℚ) * dt + delay := by
    intro m; push_cast; ring
  simp only [e] at k2 k3
  have inside : ∀ m, a ≤ m → m ≤ b → |((a + k : ℕ) : ℚ) * dt + delay - s| ≤ |(m : ℚ) * dt + delay - s| := by
    intro m hm hmb
    have := k2 (m - a) (by omega)
    rwa [show a + (m - a) = m by omega] at this
  have before : ∀ m, m < a → |((a + k : ℕ) : ℚ) * dt + delay - s| < |(m : ℚ) * dt + delay - s| := by
    intro m hm
    have i1 := inside a le_rfl hab
    have hq : (m : ℚ) * dt < (a : ℚ) * dt := mul_lt_mul_of_pos_right (by exact_mod_cast hm) hdt
    rw [abs_of_nonpos (show (a : ℚ) * dt + delay - s ≤ 0 by linarith)] at i1
    rw [abs_of_nonpos (show (m : ℚ) * dt + delay - s ≤ 0 by linarith)]
    linarith
  refine ⟨by omega, fun m hm => ?_, fun m hm => ?_⟩
  · rcases lt_or_ge m a with c | c
    · exact (before m c).le
    rcases le_or_gt m b with c' | c'
    · exact inside m c c'
    have i1 := inside b hab le_rfl
    have hq : (b : ℚ) * dt < (m : ℚ) * dt := mul_lt_mul_of_pos_right (by exact_mod_cast c') hdt
    rw [abs_of_nonneg (show 0 ≤ (b : ℚ) * dt + delay - s by linarith)] at i1
    rw [abs_of_nonneg (show 0 ≤ (m : ℚ) * dt + delay - s by linarith)]
    linarith
  · rcases lt_or_ge m a with c | c
    · exact before m c
    have := k3 (m - a) (by omega)
    rwa [show a + (m - a) = m by omega] at this

/-- The sample at a time of a sample. -/
theorem Nearest.exact {n i : ℕ} {dt delay s : ℚ} (hdt : 0 < dt) (h : Nearest n dt delay s i) (m : ℤ)
    (hm : s = (m : ℚ) * dt + delay) (h0 : delay ≤ s) (h1 : s ≤ ((n : ℚ) - 1) * dt + delay) : s = (i : ℚ) * dt + delay := by
  have hm0 : 0 ≤ m := by
    by_contra c
    have : (m : ℚ) ≤ -1 := by exact_mod_cast (show m ≤ -1 by omega)
    nlinarith
  obtain ⟨m, rfl⟩ := Int.eq_ofNat_of_zero_le hm0
  have hmn : m < n := by
    by_contra c
    have : (n : ℚ) ≤ m := by exact_mod_cast (show n ≤ m by omega)
    rw [hm] at h1
    simp only [Int.cast_natCast] at h1
    nlinarith
  have := h.2.1 m hmn
  rw [hm] at this ⊢
  simp only [Int.cast_natCast, sub_self, abs_zero] at this ⊢
  have := abs_eq_zero.1 (le_antisymm this (abs_nonneg _))
  linarith

theorem two_steps {r r1 r2 : ATS} {s1 e1 s2 e2 : ℚ} (hdt : 0 < r.dt) (hs : ∃ m : ℤ, s1 = (m : ℚ) * r.dt + r.delay)
    (h1 : r.trim s1 e1 = (r1, .ok ())) (h2 : r1.trim s2 e2 = (r2, .ok ())) : r.trim s2 e2 = (r2, .ok ()) := by
  obtain ⟨m, hm⟩ := hs
  obtain ⟨i, j, hi, hj, b1, b2, b3, rfl⟩ := (trim_iff hdt).1 h1
  have hlast : ((j : ℚ) * r.dt + r.delay) ≤ ((r.nsamples : ℚ) - 1) * r.dt + r.delay := by
    have : (j : ℚ) + 1 ≤ r.nsamples := by exact_mod_cast hj.1
    nlinarith
  have hsi := hi.exact hdt m hm b1 (b2.trans b3)
  have hn : ((r.amp.take (j + 1)).drop i).length = j + 1 - i := by
    have : j < r.amp.length := hj.1
    simp only [List.length_drop, List.length_take]; omega
  obtain ⟨k, l, hk, hl, c1, c2, c3, rfl⟩ := (trim_iff (r := { r with amp := _, delay := s1 }) hdt).1 h2
  simp only [nsamples] at hk hl c1 c3
  rw [hn] at hk hl c3
  have hij' : i ≤ j := by have := hk.1; omega
  rw [Nat.cast_sub (by omega)] at c3
  push_cast at c3
  have c4 : e2 ≤ (j : ℚ) * r.dt + r.delay := by rw [hsi] at c3; linarith
  rw [hsi] at hk hl c1
  refine (trim_iff hdt).2 ⟨i + k, i + l, hk.within hdt hij' hj.1 c1 (c2.trans c4), hl.within hdt hij' hj.1 (c1.trans c2) c4,
    b1.trans (by rw [hsi]; exact c1), c2, c4.trans hlast, ?_⟩
  have hlj := hl.1
  simp only [ATS.mk.injEq, and_true, true_and]
  rw [List.take_drop, List.take_take, List.drop_drop, show min (i + (l + 1)) (j + 1) = i + l + 1 by omega]

end TrimSteps

open TrimSteps in
/-- **C183** (a record).  Trimming in any number of steps which all return gives what the last step alone gives, if every
step before the last begins at the time of a sample. -/
theorem C183_steps_partial (r r' : ATS) (hdt : 0 < r.dt) (ws : List (ℚ × ℚ)) (s e : ℚ)
    (hs : ∀ w ∈ ws, ∃ m : ℤ, w.1 = (m : ℚ) * r.dt + r.delay)
    (h : runCalls (fun r (w : ℚ × ℚ) => r.trim w.1 w.2) r (ws ++ [(s, e)]) = (r', .ok ())) : r.trim s e = (r', .ok ()) := by
  induction ws generalizing r with
  | nil =>
    rcases h1 : r.trim s e with ⟨r1, er | ⟨⟨⟩⟩⟩ <;> simp only [List.nil_append, runCalls, h1, Prod.mk.injEq] at h
    · cases h.2
    · rw [h.1]
  | cons w ws ih =>
    rcases h1 : r.trim w.1 w.2 with ⟨r1, er | ⟨⟨⟩⟩⟩ <;> simp only [List.cons_append, runCalls, h1, Prod.mk.injEq] at h
    · cases h.2
    obtain ⟨m, hm⟩ := hs w (by simp)
    obtain ⟨i, j, -, -, -, -, -, -, -, rfl⟩ := trim_ok hdt h1
    refine two_steps hdt ⟨m, hm⟩ h1 (ih _ hdt (fun x hx => ?_) h)
    obtain ⟨m', hm'⟩ := hs x (by simp [hx])
    refine ⟨m' - m, ?_⟩
    show x.1 = ((m' - m : ℤ) : ℚ) * r.dt + w.1
    rw [hm', hm]
    push_cast
    ring

open TrimSteps in
/-- **C183** (a record).  After a trim to a window which begins and ends at times of samples, every narrower window gives
what it gives on the untrimmed record, and the same window again changes nothing. -/
theorem C183_narrower_partial (r r1 : ATS) (hdt : 0 < r.dt) (s1 e1 s2 e2 : ℚ)
    (hs : ∃ m : ℤ, s1 = (m : ℚ) * r.dt + r.delay) (he : ∃ m : ℤ, e1 = (m : ℚ) * r.dt + r.delay)
    (h1 : r.trim s1 e1 = (r1, .ok ())) (hw : s1 ≤ s2 ∧ s2 ≤ e2 ∧ e2 ≤ e1) :
    (∃ r2, r.trim s2 e2 = (r2, .ok ()) ∧ r1.trim s2 e2 = (r2, .ok ())) ∧ r1.trim s1 e1 = (r1, .ok ()) := by
  have key : ∀ s e, s1 ≤ s ∧ s ≤ e ∧ e ≤ e1 → ∃ r2, r.trim s e = (r2, .ok ()) ∧ r1.trim s e = (r2, .ok ()) := by
    intro s e hse
    obtain ⟨m, hm⟩ := hs
    obtain ⟨m', hm'⟩ := he
    obtain ⟨i, j, hi, hj, b1, b2, b3, e0⟩ := (trim_iff hdt).1 h1
    have hsi := hi.exact hdt m hm b1 (b2.trans b3)
    have hej := hj.exact hdt m' hm' (b1.trans b2) b3
    have hij : i ≤ j := by
      by_contra c
      have : (j : ℚ) < i := by exact_mod_cast not_le.1 c
      nlinarith
    have hn : r1.nsamples = j + 1 - i := by
      have : j < r.amp.length := hj.1
      rw [e0]
      simp only [nsamples, List.length_drop, List.length_take]; omega
    have hl : e1 = ((r1.nsamples : ℚ) - 1) * r1.dt + r1.delay := by
      rw [hn, Nat.cast_sub (by omega), hej, e0]
      push_cast
      rw [hsi]
      ring
    obtain ⟨r2, h2⟩ := (C06_trim_refuses_illogical_times r1 s e
      (List.ne_nil_of_length_pos (by show 0 < r1.nsamples; omega))).1.2
      ⟨by rw [e0]; exact hse.1, hse.2.1, by rw [← hl]; exact hse.2.2⟩
    exact ⟨r2, two_steps hdt ⟨m, hm⟩ h1 h2, h2⟩
  refine ⟨key s2 e2 hw, ?_⟩
  obtain ⟨r2, g1, g2⟩ := key s1 e1 ⟨le_rfl, hw.1.trans (hw.2.1.trans hw.2.2), le_rfl⟩
  rw [h1, Prod.mk.injEq] at g1
  rw [g2, g1.1]

/-- The hypotheses are met by three steps, of which the last begins between samples. -/
example :
    let r : ATS := ⟨[1, 2, 3, 4, 5, 6, 7, 8], 1 / 10, 1, -1 / 5, 1⟩
    (∀ w ∈ [((-1 / 10 : ℚ), (1 / 2 : ℚ)), (0, 9 / 20)], ∃ m : ℤ, w.1 = (m : ℚ) * r.dt + r.delay) ∧
    runCalls (fun r (w : ℚ × ℚ) => r.trim w.1 w.2) r ([(-1 / 10, 1 / 2), (0, 9 / 20)] ++ [(3 / 100, 3 / 10)]) =
      (⟨[3, 4, 5, 6], 1 / 10, 1, 3 / 100, 1⟩, .ok ()) := by
  refine ⟨?_, by decide +kernel⟩
  intro w hw
  simp only [List.mem_cons, List.not_mem_nil, or_false] at hw
  rcases hw with rfl | rfl
  · exact ⟨1, by norm_num⟩
  · exact ⟨2, by norm_num⟩

open TrimSteps in
/-- **C183 does not hold in general**: steps which begin between samples add up.  However long a record of two or more
samples is, and for every number `n` of steps, there are `n` trims, each beginning and ending within the record as it then
is, which all return, keep every sample, and leave each of them `n` times 2/5 of a time step later than it was recorded. -/
theorem C183_drift_fails (r : ATS) (hdt : 0 < r.dt) (hn : 2 ≤ r.nsamples) (n : ℕ) :
    ∃ ws : List (ℚ × ℚ), ws.length = n ∧
      runCalls (fun r (w : ℚ × ℚ) => r.trim w.1 w.2) r ws = ({ r with delay := r.delay + n * (2 / 5 * r.dt) }, .ok ()) := by
  induction n generalizing r with
  | zero => exact ⟨[], rfl, by simp [runCalls]⟩
  | succ n ih =>
    obtain ⟨ws, h1, h2⟩ := ih { r with delay := r.delay + 2 / 5 * r.dt } hdt hn
    refine ⟨(r.delay + 2 / 5 * r.dt, ((r.nsamples : ℚ) - 1) * r.dt + r.delay) :: ws, by simp [h1], ?_⟩
    have hq : (2 : ℚ) ≤ r.nsamples := by exact_mod_cast hn
    have ht : r.trim (r.delay + 2 / 5 * r.dt) (((r.nsamples : ℚ) - 1) * r.dt + r.delay) =
        ({ r with delay := r.delay + 2 / 5 * r.dt }, .ok ()) := by
      refine (trim_iff hdt).2 ⟨0, r.nsamples - 1, ⟨by omega, fun k hk => ?_, fun k hk => by omega⟩,
        ⟨by omega, fun k hk => ?_, fun k hk => ?_⟩, by linarith, by nlinarith, le_rfl, ?_⟩
      · rcases Nat.eq_zero_or_pos k with rfl | c
        · exact le_rfl
        have : (1 : ℚ) ≤ k := by exact_mod_cast c
        rw [abs_of_nonpos (by push_cast; linarith), abs_of_nonneg (by nlinarith)]
        push_cast
        nlinarith
      · rw [Nat.cast_sub (by omega)]
        simp
      · have : (k : ℚ) + 1 < r.nsamples := by exact_mod_cast (show k + 1 < r.nsamples by omega)
        rw [Nat.cast_sub (by omega)]
        simp only [Nat.cast_one, sub_self, abs_zero]
        rw [abs_pos]
        nlinarith
      · have : r.nsamples - 1 + 1 = r.amp.length := by show _ = r.nsamples; omega
        rw [this]
        simp
    simp only [runCalls, ht]
    rw [h2]
    simp only [Prod.mk.injEq, and_true, ATS.mk.injEq, true_and]
    push_cast
    ring

/-- The hypotheses are met by a record as the constructor makes it. -/
example : ∃ r : ATS, ATS.init [1, 2, 3, 4] (1 / 1000) 1 (-1 / 100) = .ok r ∧ 0 < r.dt ∧ 2 ≤ r.nsamples :=
  ⟨⟨[1, 2, 3, 4], 1 / 1000, 1, -1 / 100, 1⟩, by decide +kernel, by norm_num, by decide⟩

/-- **C183 does not hold in general**: a window which ends between samples cannot be asked for again. -/
theorem C183_again_counterexample : ∃ r r' : ATS, ATS.init [10, 20, 30, 40] 1 1 0 = .ok r ∧
    r.trim 0 (7 / 5) = (r', .ok ()) ∧ r'.trim 0 (7 / 5) = (r', .error .indexError) :=
  ⟨⟨[10, 20, 30, 40], 1, 1, 0, 1⟩, ⟨[10, 20], 1, 1, 0, 1⟩, by decide +kernel, by decide +kernel, by decide +kernel⟩

namespace TrimSteps

theorem forSensors_steps {f g : ATS → Outcome ATS} : ∀ {l l1 l2 : List Sensor},
    (∀ s ∈ l, ∀ r1 r2, f s.ts = (r1, .ok ()) → g r1 = (r2, .ok ()) → g s.ts = (r2, .ok ())) →
    Arr.forSensors f l = (l1, .ok ()) → Arr.forSensors g l1 = (l2, .ok ()) → Arr.forSensors g l = (l2, .ok ())
  | [], l1, l2, _, h1, h2 => by
    simp only [Arr.forSensors, Prod.mk.injEq, and_true] at h1
    rw [← h1] at h2
    exact h2
  | s :: l, l1, l2, H, h1, h2 => by
    unfold Arr.forSensors at h1
    rcases hf : f s.ts with ⟨r, e | ⟨⟨⟩⟩⟩ <;> simp only [hf] at h1
    · simp at h1
    rcases hr : Arr.forSensors f l with ⟨l', o⟩
    simp only [hr, Prod.mk.injEq] at h1
    obtain ⟨rfl, rfl⟩ := h1
    unfold Arr.forSensors at h2
    rcases hg : g r with ⟨r', e | ⟨⟨⟩⟩⟩ <;> simp only [hg] at h2
    · simp at h2
    rcases hr' : Arr.forSensors g l' with ⟨l'', o⟩
    simp only [hr', Prod.mk.injEq] at h2
    obtain ⟨rfl, rfl⟩ := h2
    unfold Arr.forSensors
    rw [H s (by simp) r r' hf hg, forSensors_steps (fun s hs => H s (by simp [hs])) hr hr']

theorem forSensors_clock {s e : ℚ} : ∀ {l l' : List Sensor}, Arr.forSensors (fun r => r.trim s e) l = (l', .ok ()) →
    (∀ x ∈ l, 0 < x.ts.dt) → ∀ y ∈ l', y.ts.delay = s ∧ ∃ x ∈ l, y.ts.dt = x.ts.dt
  | [], l', h, _ => by
    simp only [Arr.forSensors, Prod.mk.injEq, and_true] at h
    simp [← h]
  | x :: l, l', h, hdt => by
    unfold Arr.forSensors at h
    rcases hf : x.ts.trim s e with ⟨r, er | ⟨⟨⟩⟩⟩ <;> simp only [hf] at h
    · simp at h
    rcases hr : Arr.forSensors (fun r => r.trim s e) l with ⟨l1, o⟩
    simp only [hr, Prod.mk.injEq] at h
    obtain ⟨rfl, rfl⟩ := h
    obtain ⟨-, -, -, -, -, -, -, -, -, rfl⟩ := trim_ok (hdt x (by simp)) hf
    intro y hy
    simp only [List.mem_cons] at hy
    rcases hy with rfl | hy
    · exact ⟨rfl, x, by simp, rfl⟩
    · obtain ⟨h1, z, hz, h2⟩ := forSensors_clock hr (fun z hz => hdt z (by simp [hz])) y hy
      exact ⟨h1, z, by simp [hz], h2⟩

theorem arr_trim_iff {a a' : Arr} {s e : ℚ} : a.trim s e = (a', .ok ()) ↔
    Arr.forSensors (fun r => r.trim s e) a.sensors = (a'.sensors, .ok ()) ∧ a'.source = a.source := by
  unfold Arr.trim
  rcases h : Arr.forSensors (fun r => r.trim s e) a.sensors with ⟨l, o⟩
  obtain ⟨l', src⟩ := a'
  simp only [Prod.mk.injEq, Arr.mk.injEq]
  constructor
  · rintro ⟨⟨rfl, rfl⟩, rfl⟩
    exact ⟨⟨rfl, rfl⟩, rfl⟩
  · rintro ⟨⟨rfl, rfl⟩, rfl⟩
    exact ⟨⟨rfl, rfl⟩, rfl⟩

end TrimSteps

open TrimSteps in
/-- **C183** (an array).  The same for `Array1D.trim`, if every step before the last begins at the time of a sample of the
sensors, which have one time step and one delay. -/
theorem C183_array_steps_partial (a a' : Arr) (dt delay : ℚ) (hdt : 0 < dt)
    (ha : ∀ x ∈ a.sensors, x.ts.dt = dt ∧ x.ts.delay = delay) (ws : List (ℚ × ℚ)) (s e : ℚ)
    (hs : ∀ w ∈ ws, ∃ m : ℤ, w.1 = (m : ℚ) * dt + delay)
    (h : runCalls (fun a (w : ℚ × ℚ) => Arr.trim a w.1 w.2) a (ws ++ [(s, e)]) = (a', .ok ())) :
    a.trim s e = (a', .ok ()) := by
  induction ws generalizing a delay with
  | nil =>
    rcases h1 : a.trim s e with ⟨a1, er | ⟨⟨⟩⟩⟩ <;> simp only [List.nil_append, runCalls, h1, Prod.mk.injEq] at h
    · cases h.2
    · rw [h.1]
  | cons w ws ih =>
    rcases h1 : a.trim w.1 w.2 with ⟨a1, er | ⟨⟨⟩⟩⟩ <;> simp only [List.cons_append, runCalls, h1, Prod.mk.injEq] at h
    · cases h.2
    obtain ⟨m, hm⟩ := hs w (by simp)
    obtain ⟨g1, g2⟩ := arr_trim_iff.1 h1
    have hc := forSensors_clock g1 (fun x hx => by rw [(ha x hx).1]; exact hdt)
    have := ih a1 w.1 (fun y hy => by
      obtain ⟨k1, x, hx, k2⟩ := hc y hy
      exact ⟨k2.trans (ha x hx).1, k1⟩) (fun x hx => by
        obtain ⟨m', hm'⟩ := hs x (by simp [hx])
        refine ⟨m' - m, ?_⟩
        rw [hm', hm]
        push_cast
        ring) h
    obtain ⟨g3, g4⟩ := arr_trim_iff.1 this
    refine arr_trim_iff.2 ⟨forSensors_steps (fun x hx r1 r2 k1 k2 => ?_) g1 g3, g4.trans g2⟩
    exact two_steps (by rw [(ha x hx).1]; exact hdt) ⟨m, by rw [(ha x hx).1, (ha x hx).2]; exact hm⟩ k1 k2

/-- The hypotheses are met by an array of two sensors. -/
example :
    let a : Arr := ⟨[⟨⟨[1, 2, 3, 4, 5], 1, 1, -1, 1⟩, 0, 0, 0⟩, ⟨⟨[6, 7, 8, 9, 10], 1, 1, -1, 1⟩, 2, 0, 0⟩], ⟨-5, 0, 0⟩⟩
    (∀ x ∈ a.sensors, x.ts.dt = 1 ∧ x.ts.delay = -1) ∧ (∃ m : ℤ, (0 : ℚ) = (m : ℚ) * 1 + -1) ∧
    runCalls (fun a (w : ℚ × ℚ) => Arr.trim a w.1 w.2) a ([(0, 3)] ++ [(2 / 5, 2)]) =
      (⟨[⟨⟨[2, 3, 4], 1, 1, 2 / 5, 1⟩, 0, 0, 0⟩, ⟨⟨[7, 8, 9], 1, 1, 2 / 5, 1⟩, 2, 0, 0⟩], ⟨-5, 0, 0⟩⟩, .ok ()) :=
  ⟨by decide +kernel, ⟨1, by norm_num⟩, by decide +kernel⟩

end Verif.Props
