import Verif.Model.Rounded
import Verif.Props.Float64
import Verif.Spec.Records
import Verif.Lemmas.Records

/-!
# C131: stacking with the rounding of binary64
-/

namespace Verif.Props.B64
open Verif Verif.B64

/-- The growth of the error in one rounding. -/
abbrev g : ℚ := 1 + 1 / 2 ^ 53

theorem one_le_g_pow (k : ℕ) : 1 ≤ g ^ k := one_le_pow₀ (by norm_num [g])

theorem rnd_near {F a p M : ℚ} (h : |a - p| ≤ (F - 1) * M) (hp : |p| ≤ M) :
    |rnd a - p| ≤ (F * g - 1) * M := by
  have h1 := rnd_error a
  have h2 : |a| ≤ F * M := by
    have := abs_sub_abs_le_abs_sub a p
    linarith [(by ring : (F - 1) * M = F * M - M)]
  have h3 : |rnd a - p| ≤ |rnd a - a| + |a - p| := abs_sub_le _ _ _
  have h4 : |a| / 2 ^ 53 ≤ F * M / 2 ^ 53 := div_le_div_of_nonneg_right h2 (by norm_num)
  have e : (F * g - 1) * M = (F - 1) * M + F * M / 2 ^ 53 := by unfold g; ring
  rw [e, add_comm]
  exact le_trans h3 (add_le_add (le_trans h1 h4) h)

/-- One sample of one `stack_append`. -/
theorem append_near {F y n t x P M : ℚ} (hF : 1 ≤ F) (hn : 0 < n) (ht : 0 < t) (h : |y * n - P| ≤ (F - 1) * M)
    (hP : |P| ≤ M) :
    |div (add (mul y n) (mul x t)) (n + t) * (n + t) - (P + t * x)| ≤ (F * g ^ 3 - 1) * (M + t * |x|) := by
  have hM : 0 ≤ M := le_trans (abs_nonneg _) hP
  have htx : 0 ≤ t * |x| := mul_nonneg ht.le (abs_nonneg x)
  have hFg : 1 ≤ F * g := by
    have : (1 : ℚ) ≤ g := by norm_num [g]
    nlinarith
  have h1 : |mul y n - P| ≤ (F * g - 1) * M := rnd_near h hP
  have h2 : |mul x t - t * x| ≤ (F * g - 1) * (t * |x|) := by
    have e : |t * x| = t * |x| := by rw [abs_mul, abs_of_pos ht]
    have h0 : |x * t - t * x| ≤ (F - 1) * (t * |x|) := by
      rw [mul_comm, sub_self, abs_zero]; exact mul_nonneg (by linarith) htx
    exact rnd_near h0 (le_of_eq e)
  have h3 : |mul y n + mul x t - (P + t * x)| ≤ (F * g - 1) * (M + t * |x|) := by
    have e : mul y n + mul x t - (P + t * x) = (mul y n - P) + (mul x t - t * x) := by ring
    rw [e]
    refine le_trans (abs_add_le _ _) ?_
    linarith [(by ring : (F * g - 1) * (M + t * |x|) = (F * g - 1) * M + (F * g - 1) * (t * |x|))]
  have hP' : |P + t * x| ≤ M + t * |x| := by
    refine le_trans (abs_add_le _ _) (add_le_add hP ?_)
    rw [abs_mul, abs_of_pos ht]
  have h4 : |add (mul y n) (mul x t) - (P + t * x)| ≤ (F * g * g - 1) * (M + t * |x|) := rnd_near h3 hP'
  have hnt : 0 < n + t := by linarith
  have h5 : |add (mul y n) (mul x t) / (n + t) - (P + t * x) / (n + t)| ≤
      (F * g * g - 1) * ((M + t * |x|) / (n + t)) := by
    rw [← sub_div, abs_div, abs_of_pos hnt, ← mul_div_assoc]
    exact div_le_div_of_nonneg_right h4 hnt.le
  have h6 : |(P + t * x) / (n + t)| ≤ (M + t * |x|) / (n + t) := by
    rw [abs_div, abs_of_pos hnt]
    exact div_le_div_of_nonneg_right hP' hnt.le
  have h7 := rnd_near h5 h6
  have h8 := mul_le_mul_of_nonneg_right h7 hnt.le
  have hne : n + t ≠ 0 := ne_of_gt hnt
  have e1 : |rnd (add (mul y n) (mul x t) / (n + t)) - (P + t * x) / (n + t)| * (n + t) =
      |div (add (mul y n) (mul x t)) (n + t) * (n + t) - (P + t * x)| := by
    conv_lhs => rw [← abs_of_pos hnt, ← abs_mul, abs_of_pos hnt]
    congr 1
    unfold div
    rw [sub_mul, div_mul_cancel₀ _ hne]
  have e2 : (F * g * g * g - 1) * ((M + t * |x|) / (n + t)) * (n + t) = (F * g ^ 3 - 1) * (M + t * |x|) := by
    rw [mul_assoc, div_mul_cancel₀ _ hne]; ring
  rw [e1, e2] at h8
  exact h8

/-- Weighted sum of samples `i`. -/
def wsum (l : List (ℚ × List ℚ)) (i : ℕ) : ℚ := (l.map fun r => r.1 * r.2.getD i 0).sum

/-- Weighted sum of absolute values of samples `i`. -/
def wabs (l : List (ℚ × List ℚ)) (i : ℕ) : ℚ := (l.map fun r => r.1 * |r.2.getD i 0|).sum

theorem stackAppend64_ok {r t r' : ATS} (h : B64.stackAppend r t = (r', .ok ())) :
    r.dt = t.dt ∧ r.delay = t.delay ∧ r.nsamples = t.nsamples ∧ r'.dt = r.dt ∧ r'.delay = r.delay ∧
    r'.multiple = r.multiple ∧ r'.nstacks = r.nstacks + t.nstacks ∧ r'.nsamples = r.nsamples ∧
    ∀ i < r.nsamples, r'.amp.getD i 0 = div (add (mul (r.amp.getD i 0) r.nstacks) (mul (t.amp.getD i 0) t.nstacks))
      ((r.nstacks : ℚ) + t.nstacks) := by
  unfold B64.stackAppend at h
  split_ifs at h with hs
  · cases h
  · cases h
    have hs' : r.isSimilar t (.coll ["nstacks"]) = true := by simpa using hs
    unfold ATS.isSimilar at hs'
    simp [Excl.has] at hs'
    obtain ⟨⟨h1, h2⟩, h3⟩ := hs'
    have hl : r.amp.length = t.amp.length := h3
    refine ⟨h1, h2, h3, rfl, rfl, rfl, rfl, ?_, ?_⟩
    · simp only [ATS.nsamples, List.length_map, List.length_zipWith]; omega
    · intro i hi
      have hi1 : i < r.amp.length := hi
      have hi2 : i < t.amp.length := by omega
      simp [List.getD_eq_getElem?_getD, hi1, hi2]

/-- **C131**.  After any history of successful `stack_append` calls computed in binary64, every sample differs from
the stack-weighted mean of the original record and the `k` appended records by at most `(1 + 2^-53)^(3k) - 1` times
the stack-weighted mean of their absolute values; the stack count is the total and nothing else has changed. -/
theorem C131_stack_binary64 (r r' : ATS) (hs : List ATS) (hr : 0 < r.nstacks) (hpos : ∀ h ∈ hs, 0 < h.nstacks)
    (hrun : runCalls B64.stackAppend r hs = (r', .ok ())) :
    r'.nstacks = r.nstacks + (hs.map ATS.nstacks).sum ∧
    r'.nsamples = r.nsamples ∧ r'.dt = r.dt ∧ r'.delay = r.delay ∧ r'.multiple = r.multiple ∧
    ∀ i < r.nsamples,
      |r'.amp.getD i 0 - Spec.weightedMean ((r :: hs).map fun h => ((h.nstacks : ℚ), h.amp)) i| ≤
        ((1 + 1 / 2 ^ 53) ^ (3 * hs.length) - 1) *
          Spec.weightedMean ((r :: hs).map fun h => ((h.nstacks : ℚ), h.amp.map fun x => |x|)) i := by
  -- a history which starts from a state of its own
  have key : ∀ (hs : List ATS) (r : ATS) (F : ℚ) (P M : ℕ → ℚ), 1 ≤ F → 0 < r.nstacks → (∀ h ∈ hs, 0 < h.nstacks) →
      runCalls B64.stackAppend r hs = (r', .ok ()) →
      (∀ i < r.nsamples, |r.amp.getD i 0 * r.nstacks - P i| ≤ (F - 1) * M i ∧ |P i| ≤ M i) →
      r'.nstacks = r.nstacks + (hs.map ATS.nstacks).sum ∧ r'.nsamples = r.nsamples ∧ r'.dt = r.dt ∧
      r'.delay = r.delay ∧ r'.multiple = r.multiple ∧
      ∀ i < r.nsamples, |r'.amp.getD i 0 * r'.nstacks -
          (P i + wsum (hs.map fun h => ((h.nstacks : ℚ), h.amp)) i)| ≤
        (F * g ^ (3 * hs.length) - 1) * (M i + wabs (hs.map fun h => ((h.nstacks : ℚ), h.amp)) i) := by
    intro hs
    induction hs with
    | nil =>
      intro r F P M hF hr _ hrun h
      cases hrun
      refine ⟨by simp, rfl, rfl, rfl, rfl, fun i hi => ?_⟩
      simpa [wsum, wabs] using (h i hi).1
    | cons t hs ih =>
      intro r F P M hF hr hpos hrun h
      obtain ⟨r1, h1, h2⟩ : ∃ r1, B64.stackAppend r t = (r1, .ok ()) ∧
          runCalls B64.stackAppend r1 hs = (r', .ok ()) := by
        unfold runCalls at hrun
        generalize hst : B64.stackAppend r t = z at hrun
        obtain ⟨r1, e | u⟩ := z
        · simp at hrun
        · exact ⟨r1, by cases u; rfl, by simpa using hrun⟩
      obtain ⟨a1, a2, a3, a4, a5, a6, a7, a8, a9⟩ := stackAppend64_ok h1
      have ht := hpos t List.mem_cons_self
      have hrq : (0 : ℚ) < r.nstacks := by exact_mod_cast hr
      have htq : (0 : ℚ) < t.nstacks := by exact_mod_cast ht
      obtain ⟨b1, b2, b3, b4, b5, b6⟩ := ih r1 (F * g ^ 3) (fun i => P i + t.nstacks * t.amp.getD i 0)
        (fun i => M i + t.nstacks * |t.amp.getD i 0|) (by have := one_le_g_pow 3; nlinarith) (by omega)
        (fun x hx => hpos x (List.mem_cons_of_mem _ hx)) h2 (by
          intro i hi
          rw [a8] at hi
          obtain ⟨c1, c2⟩ := h i hi
          have := append_near (x := t.amp.getD i 0) hF hrq htq c1 c2
          refine ⟨?_, ?_⟩
          · rw [a9 i hi, a7]; push_cast; exact this
          · refine le_trans (abs_add_le _ _) (add_le_add c2 ?_)
            rw [abs_mul, abs_of_pos htq])
      refine ⟨?_, by omega, by rw [b3, a4], by rw [b4, a5], by rw [b5, a6], ?_⟩
      · rw [b1, a7]; simp only [List.map_cons, List.sum_cons]; omega
      · intro i hi
        have := b6 i (by omega)
        have e1 : P i + (t.nstacks : ℚ) * t.amp.getD i 0 + wsum (hs.map fun h => ((h.nstacks : ℚ), h.amp)) i =
            P i + wsum ((t :: hs).map fun h => ((h.nstacks : ℚ), h.amp)) i := by
          simp only [wsum, List.map_cons, List.sum_cons]; ring
        have e2 : M i + (t.nstacks : ℚ) * |t.amp.getD i 0| + wabs (hs.map fun h => ((h.nstacks : ℚ), h.amp)) i =
            M i + wabs ((t :: hs).map fun h => ((h.nstacks : ℚ), h.amp)) i := by
          simp only [wabs, List.map_cons, List.sum_cons]; ring
        have e3 : F * g ^ 3 * g ^ (3 * hs.length) = F * g ^ (3 * (t :: hs).length) := by
          rw [List.length_cons, mul_add, pow_add]; ring
        beta_reduce at this
        rw [e1, e2, e3] at this
        exact this
  have hrq : (0 : ℚ) < r.nstacks := by exact_mod_cast hr
  obtain ⟨b1, b2, b3, b4, b5, b6⟩ := key hs r 1 (fun i => r.nstacks * r.amp.getD i 0)
    (fun i => r.nstacks * |r.amp.getD i 0|) le_rfl hr hpos hrun (by
      intro i _
      refine ⟨by rw [mul_comm, sub_self, abs_zero]; simp, ?_⟩
      rw [abs_mul, abs_of_pos hrq])
  refine ⟨b1, b2, b3, b4, b5, fun i hi => ?_⟩
  have h6 := b6 i hi
  have hsum : 0 ≤ (hs.map ATS.nstacks).sum :=
    List.sum_nonneg (by
      intro x hx
      obtain ⟨h, hh, rfl⟩ := List.mem_map.1 hx
      exact le_of_lt (hpos h hh))
  have hW : (0 : ℚ) < r'.nstacks := by
    have : 0 < r'.nstacks := by omega
    exact_mod_cast this
  have hcast : ∀ f : ATS → List ℚ, (((r :: hs).map fun h => ((h.nstacks : ℚ), f h)).map fun r => r.1).sum =
      (r'.nstacks : ℚ) := by
    intro f
    rw [b1, List.map_map]
    have : ∀ l : List ATS, (l.map ((fun r : ℚ × List ℚ => r.1) ∘ fun h => ((h.nstacks : ℚ), f h))).sum =
        (((l.map ATS.nstacks).sum : ℤ) : ℚ) := by
      intro l
      induction l with
      | nil => simp
      | cons a l ih => simp only [List.map_cons, List.sum_cons, ih, Function.comp]; push_cast; ring
    rw [this]
    simp
  have hget : ∀ l : List ℚ, (l.map fun x => |x|).getD i 0 = |l.getD i 0| := by
    intro l
    by_cases h : i < l.length
    · simp [List.getD_eq_getElem?_getD, h]
    · simp [List.getD_eq_getElem?_getD, h]
  have e1 : Spec.weightedMean ((r :: hs).map fun h => ((h.nstacks : ℚ), h.amp)) i =
      (r.nstacks * r.amp.getD i 0 + wsum (hs.map fun h => ((h.nstacks : ℚ), h.amp)) i) / r'.nstacks := by
    unfold Spec.weightedMean
    rw [hcast ATS.amp]
    simp only [wsum, List.map_cons, List.sum_cons]
  have e2 : Spec.weightedMean ((r :: hs).map fun h => ((h.nstacks : ℚ), h.amp.map fun x => |x|)) i =
      (r.nstacks * |r.amp.getD i 0| + wabs (hs.map fun h => ((h.nstacks : ℚ), h.amp)) i) / r'.nstacks := by
    unfold Spec.weightedMean
    rw [hcast fun h => h.amp.map fun x => |x|]
    congr 1
    simp only [wabs, List.map_cons, List.sum_cons, List.map_map, Function.comp_def, hget]
  rw [e1, e2]
  have e3 : r'.amp.getD i 0 - (r.nstacks * r.amp.getD i 0 + wsum (hs.map fun h => ((h.nstacks : ℚ), h.amp)) i) / r'.nstacks
      = (r'.amp.getD i 0 * r'.nstacks - (r.nstacks * r.amp.getD i 0 +
          wsum (hs.map fun h => ((h.nstacks : ℚ), h.amp)) i)) / r'.nstacks := by
    rw [sub_div, mul_div_assoc, div_self (ne_of_gt hW), mul_one]
  rw [e3, abs_div, abs_of_pos hW, ← mul_div_assoc]
  refine div_le_div_of_nonneg_right ?_ hW.le
  rw [one_mul] at h6
  exact h6

/-- **C131** (acceptance).  A history of appends is accepted if and only if every record agrees with the first one in
the time step, the delay and the number of samples: the rounding of the samples plays no part in it. -/
theorem C131_accepts_binary64 (r : ATS) (hs : List ATS) :
    (∃ r', runCalls B64.stackAppend r hs = (r', .ok ())) ↔
      ∀ h ∈ hs, h.dt = r.dt ∧ h.delay = r.delay ∧ h.nsamples = r.nsamples := by
  induction hs generalizing r with
  | nil => simp [runCalls]
  | cons t hs ih =>
    by_cases hsim : r.isSimilar t (.coll ["nstacks"]) = true
    · obtain ⟨r1, h1⟩ : ∃ r1, B64.stackAppend r t = (r1, .ok ()) := by
        unfold B64.stackAppend; rw [hsim]; exact ⟨_, rfl⟩
      obtain ⟨a1, a2, a3, a4, a5, _, _, a8, _⟩ := stackAppend64_ok h1
      have hrun : runCalls B64.stackAppend r (t :: hs) = runCalls B64.stackAppend r1 hs := by
        rw [runCalls, h1]
      rw [hrun, ih r1, a4, a5, a8]
      simp only [List.mem_cons, forall_eq_or_imp]
      exact ⟨fun h => ⟨⟨a1.symm, a2.symm, a3.symm⟩, h⟩, fun h => h.2⟩
    · have h1 : B64.stackAppend r t = (r, .error .valueError) := by
        unfold B64.stackAppend; rw [if_pos (by simpa using hsim)]
      have hrun : runCalls B64.stackAppend r (t :: hs) = (r, .error .valueError) := by rw [runCalls, h1]
      rw [hrun]
      constructor
      · rintro ⟨r', h⟩; simp at h
      · intro h
        obtain ⟨b1, b2, b3⟩ := h t List.mem_cons_self
        exact absurd (by unfold ATS.isSimilar; simp [Excl.has, b1, b2, b3]) hsim

set_option maxRecDepth 10000 in
/-- C131 for the record 1 and the records 0.3 and 0.4 appended to it. -/
example : ∃ r', runCalls B64.stackAppend ⟨[1], 1, 1, 0, 1⟩ [⟨[rnd (3 / 10)], 1, 1, 0, 1⟩, ⟨[rnd (4 / 10)], 1, 2, 0, 1⟩] =
      (r', .ok ()) ∧ r'.nstacks = 4 ∧
    |r'.amp.getD 0 0 - (1 + rnd (3 / 10) + 2 * rnd (4 / 10)) / 4| ≤ ((1 + 1 / 2 ^ 53) ^ 6 - 1) := by
  obtain ⟨r', h⟩ := (C131_accepts_binary64 ⟨[1], 1, 1, 0, 1⟩
    [⟨[rnd (3 / 10)], 1, 1, 0, 1⟩, ⟨[rnd (4 / 10)], 1, 2, 0, 1⟩]).2 (by simp [ATS.nsamples])
  obtain ⟨a, _, _, _, _, b⟩ := C131_stack_binary64 _ r' _ (by norm_num) (by simp) h
  refine ⟨r', h, by simpa using a, ?_⟩
  have hb := b 0 (by simp [ATS.nsamples])
  have h3 : |rnd (3 / 10)| ≤ 1 := by decide +kernel
  have h4 : |rnd (4 / 10)| ≤ 1 := by decide +kernel
  refine le_trans (le_of_eq ?_) (le_trans hb ?_)
  · congr 2; simp [Spec.weightedMean]; ring
  · have e : Spec.weightedMean (([⟨[1], 1, 1, 0, 1⟩, ⟨[rnd (3 / 10)], 1, 1, 0, 1⟩, ⟨[rnd (4 / 10)], 1, 2, 0, 1⟩] : List ATS).map
        fun h => ((h.nstacks : ℚ), h.amp.map fun x => |x|)) 0 = (1 + |rnd (3 / 10)| + 2 * |rnd (4 / 10)|) / 4 := by
      simp [Spec.weightedMean]; ring
    rw [e]
    have : (1 + |rnd (3 / 10)| + 2 * |rnd (4 / 10)|) / 4 ≤ 1 := by linarith
    calc _ ≤ _ := mul_le_mul_of_nonneg_left this (by norm_num)
      _ = _ := by norm_num

/-- **C131** (order).  In binary64 stacking two groups of the same records in different orders gives samples which
differ by at most twice that bound. -/
theorem C131_order_binary64 (r r' s' : ATS) (hs ts : List ATS) (hr : 0 < r.nstacks) (hpos : ∀ h ∈ hs, 0 < h.nstacks)
    (hperm : hs.Perm ts) (h1 : runCalls B64.stackAppend r hs = (r', .ok ()))
    (h2 : runCalls B64.stackAppend r ts = (s', .ok ())) :
    ∀ i < r.nsamples, |r'.amp.getD i 0 - s'.amp.getD i 0| ≤ 2 * ((1 + 1 / 2 ^ 53) ^ (3 * hs.length) - 1) *
      Spec.weightedMean ((r :: hs).map fun h => ((h.nstacks : ℚ), h.amp.map fun x => |x|)) i := by
  intro i hi
  have a := (C131_stack_binary64 r r' hs hr hpos h1).2.2.2.2.2 i hi
  have b := (C131_stack_binary64 r s' ts hr (fun h hh => hpos h (hperm.mem_iff.2 hh)) h2).2.2.2.2.2 i hi
  have hw : ∀ f : ATS → List ℚ, Spec.weightedMean ((r :: hs).map fun h => ((h.nstacks : ℚ), f h)) i =
      Spec.weightedMean ((r :: ts).map fun h => ((h.nstacks : ℚ), f h)) i := by
    intro f
    have hp2 := (hperm.cons r).map fun h : ATS => ((h.nstacks : ℚ), f h)
    unfold Spec.weightedMean
    rw [(hp2.map _).sum_eq, (hp2.map _).sum_eq]
  rw [← hw ATS.amp, ← hw fun h => h.amp.map fun x => |x|, ← hperm.length_eq] at b
  have := abs_sub_le (r'.amp.getD i 0) (Spec.weightedMean ((r :: hs).map fun h => ((h.nstacks : ℚ), h.amp)) i)
    (s'.amp.getD i 0)
  rw [abs_sub_comm (Spec.weightedMean _ _) (s'.amp.getD i 0)] at this
  refine le_trans this (le_trans (add_le_add a b) (le_of_eq ?_))
  ring

set_option maxRecDepth 10000 in
/-- **C131** (the order matters).  In binary64 the order in which records are appended can change the result: a
record of the value 1 and the records 0.3 and 0.4. -/
theorem C131_order_matters_binary64 :
    ∃ r s t r' s' : ATS, runCalls B64.stackAppend r [s, t] = (r', .ok ()) ∧
      runCalls B64.stackAppend r [t, s] = (s', .ok ()) ∧ r'.amp ≠ s'.amp := by
  refine ⟨⟨[1], 1, 1, 0, 1⟩, ⟨[rnd (3 / 10)], 1, 1, 0, 1⟩, ⟨[rnd (4 / 10)], 1, 1, 0, 1⟩,
    (runCalls B64.stackAppend ⟨[1], 1, 1, 0, 1⟩ [⟨[rnd (3 / 10)], 1, 1, 0, 1⟩, ⟨[rnd (4 / 10)], 1, 1, 0, 1⟩]).1,
    (runCalls B64.stackAppend ⟨[1], 1, 1, 0, 1⟩ [⟨[rnd (4 / 10)], 1, 1, 0, 1⟩, ⟨[rnd (3 / 10)], 1, 1, 0, 1⟩]).1,
    ?_, ?_, ?_⟩ <;> decide +kernel

end Verif.Props.B64
