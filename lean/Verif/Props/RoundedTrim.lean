import Verif.Props.RoundedRecord
import Verif.Spec.Records
import Verif.Lemmas.Trim

/-!
# C135: trimming with the rounding of binary64
-/

namespace Verif.Props.B64
open Verif Verif.B64

/-- One more rounding of a number of size `W` at most. -/
theorem rnd_step {x y W c : ℚ} (hc : c ≤ 2 ^ 53) (hy : |y| ≤ W) (h : |x - y| ≤ c * (W / 2 ^ 53)) :
    |rnd x - y| ≤ (c + 2) * (W / 2 ^ 53) := by
  have hW : 0 ≤ W := le_trans (abs_nonneg y) hy
  have h1 := rnd_error x
  have h2 := abs_sub_le (rnd x) x y
  have h3 : |x| ≤ 2 * W := by
    have h4 := abs_sub_abs_le_abs_sub x y
    have h5 : c * (W / 2 ^ 53) ≤ 2 ^ 53 * (W / 2 ^ 53) := mul_le_mul_of_nonneg_right hc (by positivity)
    have h6 : (2 : ℚ) ^ 53 * (W / 2 ^ 53) = W := mul_div_cancel₀ W (by norm_num)
    linarith
  have h5 : |x| / 2 ^ 53 ≤ 2 * (W / 2 ^ 53) := by
    rw [mul_div_assoc']; exact div_le_div_of_nonneg_right h3 (by norm_num)
  linarith [(by ring : (c + 2) * (W / 2 ^ 53) = c * (W / 2 ^ 53) + 2 * (W / 2 ^ 53))]

/-- The computed time of a sample. -/
theorem time_near {D T W : ℚ} {i : ℕ} (hT : 0 < T) (h1 : (i : ℚ) * T ≤ W) (h2 : |D| ≤ W) (h3 : |(i : ℚ) * T + D| ≤ W) :
    |add (mul i (rnd T)) (rnd D) - (i * T + D)| ≤ 6 * (W / 2 ^ 53) := by
  have hi : (0 : ℚ) ≤ i := by positivity
  have hiT : 0 ≤ (i : ℚ) * T := by positivity
  have a1 : |(i : ℚ) * rnd T - i * T| ≤ 1 * (W / 2 ^ 53) := by
    have := rnd_error T
    rw [abs_of_pos hT] at this
    rw [← mul_sub, abs_mul, abs_of_nonneg hi, one_mul]
    calc (i : ℚ) * |rnd T - T| ≤ i * (T / 2 ^ 53) := mul_le_mul_of_nonneg_left this hi
      _ = (i * T) / 2 ^ 53 := by ring
      _ ≤ W / 2 ^ 53 := div_le_div_of_nonneg_right h1 (by norm_num)
  have a2 : |mul i (rnd T) - i * T| ≤ (1 + 2) * (W / 2 ^ 53) :=
    rnd_step (by norm_num) (by rw [abs_of_nonneg hiT]; exact h1) a1
  have a3 : |rnd D - D| ≤ 1 * (W / 2 ^ 53) := by
    rw [one_mul]; exact le_trans (rnd_error D) (div_le_div_of_nonneg_right h2 (by norm_num))
  have a4 : |mul i (rnd T) + rnd D - (i * T + D)| ≤ 4 * (W / 2 ^ 53) := by
    have e : mul i (rnd T) + rnd D - (i * T + D) = (mul i (rnd T) - i * T) + (rnd D - D) := by ring
    rw [e]
    refine le_trans (abs_add_le _ _) (le_trans (add_le_add a2 a3) (le_of_eq ?_))
    ring
  have := rnd_step (by norm_num) h3 a4
  refine le_trans this (le_of_eq ?_)
  norm_num

section
variable {r : ATS} {D T : ℚ}

theorem time_get (r : ATS) (j : ℕ) (hj : j < (B64.time r).length) :
    (B64.time r)[j] = add (mul j r.dt) r.delay := by simp [B64.time]

theorem time_length (r : ATS) : (B64.time r).length = r.amp.length := by simp [B64.time, ATS.nsamples]

/-- The sample found for a time which is (up to rounding) the time of a sample. -/
theorem argmin_time (hT : 0 < T) (hdt : r.dt = rnd T) (hdelay : r.delay = rnd D) (hD : |D| ≤ 2 ^ 44 * T)
    (hn : r.nsamples ≤ 2 ^ 44) {p : ℕ} (hp : p < r.nsamples) :
    argmin ((B64.time r).map fun t => |B64.sub t (rnd (D + p * T))|) = some p := by
  have hlen := time_length r
  have hW : ∀ i : ℕ, i < r.nsamples → (i : ℚ) * T ≤ 2 ^ 45 * T ∧ |(i : ℚ) * T + D| ≤ 2 ^ 45 * T := by
    intro i hi
    have hi' : (i : ℚ) ≤ 2 ^ 44 := by exact_mod_cast le_trans hi.le hn
    have h1 : (i : ℚ) * T ≤ 2 ^ 44 * T := mul_le_mul_of_nonneg_right hi' hT.le
    have h2 : (0 : ℚ) ≤ (i : ℚ) * T := by positivity
    refine ⟨by linarith, le_trans (abs_add_le _ _) ?_⟩
    rw [abs_of_nonneg h2]
    linarith
  have hDW : |D| ≤ 2 ^ 45 * T := by linarith
  have hu : (2 : ℚ) ^ 45 * T / 2 ^ 53 = T / 256 := by ring
  have hnear : ∀ i : ℕ, i < r.nsamples → |add (mul i (rnd T)) (rnd D) - (i * T + D)| ≤ 6 * (T / 256) := by
    intro i hi
    obtain ⟨a, b⟩ := hW i hi
    have := time_near hT a hDW b
    rwa [hu] at this
  have hstart : |rnd (D + p * T) - (p * T + D)| ≤ T / 256 := by
    rw [add_comm]
    refine le_trans (rnd_error _) ?_
    rw [← hu]
    exact div_le_div_of_nonneg_right (hW p hp).2 (by norm_num)
  have hdist : ∀ j : ℕ, j < r.nsamples → |add (mul j (rnd T)) (rnd D) - rnd (D + p * T) - ((j : ℚ) - p) * T| ≤ 7 * (T / 256) := by
    intro j hj
    have e : add (mul j (rnd T)) (rnd D) - rnd (D + p * T) - ((j : ℚ) - p) * T =
        (add (mul j (rnd T)) (rnd D) - (j * T + D)) - (rnd (D + p * T) - (p * T + D)) := by ring
    rw [e]
    refine le_trans (abs_sub _ _) (le_trans (add_le_add (hnear j hj) hstart) (le_of_eq ?_))
    ring
  apply argmin_unique (by rw [List.length_map, hlen]; exact hp)
  intro j hj hne
  rw [List.length_map, hlen] at hj
  simp only [List.getElem_map, time_get, hdt, hdelay]
  have hp' := hdist p hp
  have hj' := hdist j hj
  rw [sub_self, zero_mul, sub_zero] at hp'
  -- the wanted sample
  have s1 : |B64.sub (add (mul p (rnd T)) (rnd D)) (rnd (D + p * T))| ≤ T / 4 := by
    have e := rnd_error (add (mul p (rnd T)) (rnd D) - rnd (D + p * T))
    have h0 := abs_sub_abs_le_abs_sub (rnd (add (mul p (rnd T)) (rnd D) - rnd (D + p * T)))
      (add (mul p (rnd T)) (rnd D) - rnd (D + p * T))
    have h1 : |add (mul p (rnd T)) (rnd D) - rnd (D + p * T)| / 2 ^ 53 ≤ 7 * (T / 256) :=
      le_trans (div_le_self (abs_nonneg _) (by norm_num)) hp'
    show |rnd _| ≤ _
    linarith
  -- any other sample
  have s2 : T / 4 < |B64.sub (add (mul j (rnd T)) (rnd D)) (rnd (D + p * T))| := by
    have hjp : T ≤ |((j : ℚ) - p) * T| := by
      rw [abs_mul, abs_of_pos hT]
      have : (1 : ℚ) ≤ |(j : ℚ) - p| := by
        have h0 : (1 : ℤ) ≤ |(j : ℤ) - p| := Int.one_le_abs (by omega)
        exact_mod_cast h0
      nlinarith
    set x := add (mul j (rnd T)) (rnd D) - rnd (D + p * T) with hx
    have h1 : T - 7 * (T / 256) ≤ |x| := by
      have := abs_sub_abs_le_abs_sub (((j : ℚ) - p) * T) x
      rw [abs_sub_comm (((j : ℚ) - p) * T) x] at this
      linarith
    have e := rnd_error x
    have h2 := abs_sub_abs_le_abs_sub x (rnd x)
    rw [abs_sub_comm x (rnd x)] at h2
    have h3 : |x| / 2 ^ 53 ≤ |x| / 2 := by
      apply div_le_div_of_nonneg_left (abs_nonneg x) (by norm_num) (by norm_num)
    show _ < |rnd x|
    linarith
  linarith

/-- The reported times of a record increase. -/
theorem time_mono (hT : 0 ≤ r.dt) {i j : ℕ} (h : i ≤ j) : add (mul i r.dt) r.delay ≤ add (mul j r.dt) r.delay := by
  have hij : (i : ℚ) ≤ j := by exact_mod_cast h
  have := rnd_mono (mul_le_mul_of_nonneg_right hij hT)
  exact rnd_mono (add_le_add_left this r.delay)

/-- **C135** (exactly when).  A record begins at `D` and is sampled at intervals of `T`, both given as the nearest
binary64 numbers.  It is trimmed from the time of sample `p` to the time of sample `q`, also given as the nearest binary64
numbers.  If the reported time of some sample is not before the requested end, the samples `p` to `q` are kept and the new
begin is reported; otherwise the trim is refused with `IndexError` and nothing changes. -/
theorem C135_trim_binary64 (r : ATS) (D T : ℚ) (p q : ℕ) (hT : 0 < T) (hdt : r.dt = rnd T)
    (hdelay : r.delay = rnd D) (hD : |D| ≤ 2 ^ 44 * T) (hn : r.nsamples ≤ 2 ^ 44) (hpq : p ≤ q)
    (hq : q < r.nsamples) :
    ((∃ t ∈ B64.time r, rnd (D + q * T) ≤ t) → B64.trim r (rnd (D + p * T)) (rnd (D + q * T)) =
      (⟨(r.amp.drop p).take (q + 1 - p), r.dt, r.nstacks, rnd (D + p * T), r.multiple⟩, .ok ())) ∧
    ((∀ t ∈ B64.time r, t < rnd (D + q * T)) → B64.trim r (rnd (D + p * T)) (rnd (D + q * T)) =
      (r, .error .indexError)) := by
  have hlen := time_length r
  have hq' : q < r.amp.length := hq
  have hdt0 : 0 ≤ r.dt := by rw [hdt]; exact rnd_nonneg hT.le
  have hi := argmin_time hT hdt hdelay hD hn (p := p) (by omega)
  have hj := argmin_time hT hdt hdelay hD hn hq
  have hhead : (B64.time r).head? = some (rnd D) := by
    rw [List.head?_eq_getElem?, List.getElem?_eq_getElem (by omega), time_get]
    have h1 : mul ((0 : ℕ) : ℚ) r.dt = 0 := by unfold mul; simp [rnd_zero]
    have h2 : add 0 (rnd D) = rnd D := by
      unfold add; rw [zero_add]; exact rnd_double (rnd_isDouble D)
    rw [h1, hdelay, h2]
  have hlast : (B64.time r).getLast? = some (add (mul (r.nsamples - 1 : ℕ) r.dt) r.delay) := by
    rw [List.getLast?_eq_getElem?, List.getElem?_eq_getElem (by omega), time_get, hlen]
    rfl
  have h0 : ¬ rnd (D + p * T) < rnd D := by
    have : D ≤ D + p * T := by have : (0 : ℚ) ≤ p * T := by positivity
                               linarith
    exact not_lt.2 (rnd_mono this)
  have h1 : ¬ rnd (D + p * T) > rnd (D + q * T) := by
    have hpq' : (p : ℚ) ≤ q := by exact_mod_cast hpq
    have := mul_le_mul_of_nonneg_right hpq' hT.le
    exact not_lt.2 (rnd_mono (by linarith))
  have hmem : add (mul (r.nsamples - 1 : ℕ) r.dt) r.delay ∈ B64.time r :=
    List.mem_of_getLast? hlast
  have hmax : ∀ t ∈ B64.time r, t ≤ add (mul (r.nsamples - 1 : ℕ) r.dt) r.delay := by
    intro t ht
    obtain ⟨k, hk, rfl⟩ := List.getElem_of_mem ht
    rw [time_get]
    apply time_mono hdt0
    have : k < r.amp.length := by omega
    show k ≤ r.amp.length - 1
    omega
  constructor
  · rintro ⟨t, ht, hle⟩
    have h2 : ¬ rnd (D + q * T) > add (mul (r.nsamples - 1 : ℕ) r.dt) r.delay := not_lt.2 (le_trans hle (hmax t ht))
    unfold B64.trim B64.trimBase
    rw [hi, hj, hhead, hlast]
    simp only [h0, h1, h2, decide_false, Bool.or_self, Bool.false_eq_true, if_false]
    have := ATS.pySlice_nat r.amp p (q + 1) (by omega) (by omega)
    push_cast at this
    rw [this]
    rw [List.drop_take]
  · intro h
    have h2 : rnd (D + q * T) > add (mul (r.nsamples - 1 : ℕ) r.dt) r.delay := h _ hmem
    unfold B64.trim B64.trimBase
    rw [hi, hj, hhead, hlast]
    simp only [h2, decide_true, Bool.or_true, if_true]

/-- **C135**.  If the trim does not end with the last sample of the record it is never refused: the samples `p` to `q`
are kept. -/
theorem C135_trim_binary64_partial (r : ATS) (D T : ℚ) (p q : ℕ) (hT : 0 < T) (hdt : r.dt = rnd T)
    (hdelay : r.delay = rnd D) (hD : |D| ≤ 2 ^ 44 * T) (hn : r.nsamples ≤ 2 ^ 44) (hpq : p ≤ q)
    (hq : q + 1 < r.nsamples) :
    B64.trim r (rnd (D + p * T)) (rnd (D + q * T)) =
      (⟨(r.amp.drop p).take (q + 1 - p), r.dt, r.nstacks, rnd (D + p * T), r.multiple⟩, .ok ()) := by
  refine (C135_trim_binary64 r D T p q hT hdt hdelay hD hn hpq (by omega)).1 ?_
  have hlen := time_length r
  have hq' : q + 1 < r.amp.length := hq
  refine ⟨_, List.getElem_mem (n := q + 1) (by omega), ?_⟩
  rw [time_get, hdt, hdelay]
  have hi' : (((q + 1 : ℕ)) : ℚ) ≤ 2 ^ 44 := by exact_mod_cast le_trans hq.le hn
  have a1 : ((q + 1 : ℕ) : ℚ) * T ≤ 2 ^ 44 * T := mul_le_mul_of_nonneg_right hi' hT.le
  have a0 : (0 : ℚ) ≤ ((q + 1 : ℕ) : ℚ) * T := by positivity
  have a3 : |((q + 1 : ℕ) : ℚ) * T + D| ≤ 2 ^ 45 * T := by
    refine le_trans (abs_add_le _ _) ?_
    rw [abs_of_nonneg a0]; linarith
  have b := time_near hT (by linarith) (by linarith : |D| ≤ 2 ^ 45 * T) a3
  have b0 : (0 : ℚ) ≤ (q : ℚ) * T := by positivity
  have c : |D + q * T| ≤ 2 ^ 45 * T := by
    refine le_trans (abs_add_le _ _) ?_
    rw [abs_of_nonneg b0]
    push_cast at a1
    linarith
  have d : |rnd (D + q * T) - (D + q * T)| ≤ 2 ^ 45 * T / 2 ^ 53 :=
    le_trans (rnd_error _) (div_le_div_of_nonneg_right c (by norm_num))
  have hu : (2 : ℚ) ^ 45 * T / 2 ^ 53 = T / 256 := by ring
  rw [hu] at b d
  have b1 := (abs_le.1 b).1
  have d1 := (abs_le.1 d).2
  push_cast at b1 ⊢
  linarith

/-- C135 for a record of three samples from -0.01 s at 1 ms, trimmed to its first two. -/
example : B64.trim ⟨[5, 6, 7], rnd (1 / 1000), 1, rnd (-1 / 100), 1⟩ (rnd (-1 / 100)) (rnd (-9 / 1000)) =
    (⟨[5, 6], rnd (1 / 1000), 1, rnd (-1 / 100), 1⟩, .ok ()) := by
  have h := C135_trim_binary64_partial ⟨[5, 6, 7], rnd (1 / 1000), 1, rnd (-1 / 100), 1⟩ (-1 / 100) (1 / 1000) 0 1
    (by norm_num) rfl rfl (by norm_num [abs_of_nonpos]) (by simp [ATS.nsamples]) (by norm_num) (by simp [ATS.nsamples])
  norm_num at h
  norm_num
  exact h

/-- **C135** (refusal).  A begin before the first sample, an end after the reported time of the last and an end before the
begin are refused with `IndexError` and change nothing. -/
theorem C135_refused_binary64 (r : ATS) (s e t0 t1 : ℚ) (h0 : (B64.time r).head? = some t0)
    (h1 : (B64.time r).getLast? = some t1) (h : s < t0 ∨ e < s ∨ t1 < e) :
    B64.trim r s e = (r, .error .indexError) := by
  have hne : B64.time r ≠ [] := by intro hn; rw [hn] at h0; simp at h0
  obtain ⟨i, hi⟩ := argmin_isSome (l := (B64.time r).map fun t => |B64.sub t s|) (by simpa using hne)
  obtain ⟨j, hj⟩ := argmin_isSome (l := (B64.time r).map fun t => |B64.sub t e|) (by simpa using hne)
  unfold B64.trim B64.trimBase
  rw [hi, hj, h0, h1]
  rcases h with h | h | h
  · simp [h]
  · simp [h]
  · simp [h]

set_option maxRecDepth 10000 in
/-- **C135** fails for the last sample.  A record of two samples from -0.01 s at 1 ms ends at -0.009 s, and trimming it
to the very interval it covers, -0.01 s to -0.009 s, is refused with `IndexError`: the computed time of the last sample is
-0.009000000000000001. -/
theorem C135_last_sample_fails :
    B64.trim ⟨[5, 6], rnd (1 / 1000), 1, rnd (-1 / 100), 1⟩ (rnd (-1 / 100)) (rnd (-9 / 1000)) =
        (⟨[5, 6], rnd (1 / 1000), 1, rnd (-1 / 100), 1⟩, .error .indexError) ∧
      ATS.trim ⟨[5, 6], 1 / 1000, 1, -1 / 100, 1⟩ (-1 / 100) (-9 / 1000) =
        (⟨[5, 6], 1 / 1000, 1, -1 / 100, 1⟩, .ok ()) := by
  constructor <;> decide +kernel

end

end Verif.Props.B64
