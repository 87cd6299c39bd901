import Verif.Model.Transform
import Verif.Lemmas.Py
import Mathlib.Tactic.Linarith
import Mathlib.Tactic.Ring
import Mathlib.Tactic.NormNum

/-!
# C62, C65: frequency selection and peak picking
-/

namespace Verif.Props
open Verif WT

theorem mem_pyRange (a stop m k : ℕ) (hm : 0 < m) :
    k ∈ pyRange a stop m ↔ a ≤ k ∧ k < stop ∧ m ∣ k - a := by
  unfold pyRange
  simp only [List.mem_map, List.mem_range]
  constructor
  · rintro ⟨q, hq, rfl⟩
    have h1 : (q + 1) * m ≤ stop - a + m - 1 := by
      have := (Nat.le_div_iff_mul_le hm).1 (Nat.succ_le_of_lt hq)
      simpa using this
    have h2 : (q + 1) * m = q * m + m := by ring
    refine ⟨by omega, by omega, ⟨q, ?_⟩⟩
    rw [Nat.add_sub_cancel_left, mul_comm]
  · rintro ⟨h1, h2, q, hq⟩
    refine ⟨q, ?_, by rw [mul_comm q m]; omega⟩
    rw [← Nat.succ_le_iff, Nat.le_div_iff_mul_le hm]
    have h3 : q.succ * m = m * q + m := by rw [Nat.succ_mul, mul_comm]
    omega

theorem pyRange_sorted (a stop m : ℕ) (hm : 0 < m) : (pyRange a stop m).Pairwise (· < ·) := by
  unfold pyRange
  rw [List.pairwise_map]
  refine (List.pairwise_lt_range).imp ?_
  intro x y hxy
  have := Nat.mul_lt_mul_of_pos_right hxy hm
  omega

/-- Bin `i` is a bin nearest `f`, the first such. -/
def NearestBin (frqs : List ℚ) (f : ℚ) (i : ℕ) : Prop :=
  ∃ hi : i < frqs.length, (∀ j (hj : j < frqs.length), |frqs[i] - f| ≤ |frqs[j] - f|) ∧
    ∀ j (hj : j < frqs.length), j < i → |frqs[i] - f| < |frqs[j] - f|

theorem nearestBin_of_argmin {frqs : List ℚ} {f : ℚ} {i : ℕ}
    (h : argmin (frqs.map fun x => |x - f|) = some i) : NearestBin frqs f i := by
  obtain ⟨hi, h1, h2⟩ := argmin_spec h
  have hi' : i < frqs.length := by simpa using hi
  refine ⟨hi', ?_, ?_⟩
  · intro j hj
    have := h1 j (by simpa using hj)
    simpa using this
  · intro j hj hji
    have := h2 j (by simpa using hj) hji
    simpa using this

/-- **C62**.  For a non-empty frequency vector and a positive multiple the selection succeeds: it
holds exactly the bins from the one nearest `fmin` to the one nearest `fmax` in steps of the multiple,
in increasing order, all valid. -/
theorem C62_selected_bins (frqs : List ℚ) (fmin fmax : ℚ) (m : ℕ) (hm : 0 < m) (hf : frqs ≠ []) :
    ∃ ids i j, keepIds frqs fmin fmax m = .ok ids ∧ NearestBin frqs fmin i ∧
      NearestBin frqs fmax j ∧ (∀ k, k ∈ ids ↔ i ≤ k ∧ k ≤ j ∧ m ∣ k - i) ∧
      ids.Pairwise (· < ·) ∧ (∀ k ∈ ids, k < frqs.length) ∧ (i ≤ j → ids.head? = some i) := by
  obtain ⟨f0, fs, rfl⟩ := List.exists_cons_of_ne_nil hf
  have key : ∀ f : ℚ, ∃ i, argmin ((f0 :: fs).map fun x => |x - f|) = some i := fun f =>
    ⟨_, rfl⟩
  obtain ⟨i, hi⟩ := key fmin
  obtain ⟨j, hj⟩ := key fmax
  have hmem : ∀ k, k ∈ pyRange i (j + 1) m ↔ i ≤ k ∧ k ≤ j ∧ m ∣ k - i := by
    intro k
    rw [mem_pyRange _ _ _ _ hm, Nat.lt_succ_iff]
  have hjl := nearestBin_of_argmin hj
  refine ⟨pyRange i (j + 1) m, i, j, ?_, nearestBin_of_argmin hi, hjl, hmem,
    pyRange_sorted _ _ _ hm, ?_, ?_⟩
  · unfold keepIds
    rw [hi, hj]
    simp [Nat.pos_iff_ne_zero.1 hm]
  · intro k hk
    obtain ⟨h, _⟩ := hjl
    exact lt_of_le_of_lt ((hmem k).1 hk).2.1 h
  · intro hij
    unfold pyRange
    obtain ⟨c, hc⟩ : ∃ c, (j + 1 - i + m - 1) / m = c + 1 := by
      have : 0 < (j + 1 - i + m - 1) / m := Nat.div_pos (by omega) hm
      exact ⟨(j + 1 - i + m - 1) / m - 1, by omega⟩
    rw [hc, List.range_succ_eq_map]
    simp

/-- Whatever is selected is a valid bin. -/
theorem keepIds_valid {frqs : List ℚ} {fmin fmax : ℚ} {m : ℕ} {ids : List ℕ}
    (h : keepIds frqs fmin fmax m = .ok ids) : ∀ k ∈ ids, k < frqs.length := by
  have hm : 0 < m := by
    rcases Nat.eq_zero_or_pos m with rfl | hm
    · unfold keepIds at h
      split at h
      · simp at h
      · cases h
    · exact hm
  have hf : frqs ≠ [] := by
    rintro rfl
    simp [keepIds, argmin] at h
  obtain ⟨ids', i, j, h1, -, -, -, -, h2, -⟩ := C62_selected_bins frqs fmin fmax m hm hf
  rw [h] at h1
  cases h1
  exact h2

/-- **C62** (user's grid).  With the bins `0, d, 2d, ...` of a record whose step was refined by the
padding multiple `m`, and `fmin` on the user's grid of step `m*d` within the bins, every selected
frequency lies on the user's grid, at or above `fmin`. -/
theorem C62_on_user_grid (N m p : ℕ) (d fmin fmax : ℚ) (hd : 0 < d) (hm : 0 < m) (hp : p * m < N)
    (hfmin : fmin = p * (m * d)) (ids : List ℕ)
    (h : keepIds (binFrequencies N d) fmin fmax m = .ok ids) :
    ∀ k ∈ ids, ∃ q : ℕ, p ≤ q ∧ (binFrequencies N d)[k]? = some (q * (m * d)) := by
  have hf : (binFrequencies N d) ≠ [] := by
    intro h0
    have := congrArg List.length h0
    simp [binFrequencies] at this; omega
  obtain ⟨ids', i, j, h1, hi, hj, hmem, -, hlt, -⟩ := C62_selected_bins _ fmin fmax m hm hf
  rw [h] at h1
  cases h1
  -- the nearest bin is bin p*m
  have hipm : i = p * m := by
    obtain ⟨hi0, hmin, hfirst⟩ := hi
    have hz := hmin (p * m) (by simpa [binFrequencies] using hp)
    simp only [binFrequencies, List.getElem_map, List.getElem_range, hfmin] at hz
    have h0 : ((p * m : ℕ) : ℚ) * d - p * (m * d) = 0 := by push_cast; ring
    rw [h0, abs_zero] at hz
    have h1 : (i : ℚ) * d - p * (m * d) = 0 := abs_eq_zero.1 (le_antisymm hz (abs_nonneg _))
    have h2 : ((i : ℚ) - p * m) * d = 0 := by linarith
    have h3 : (i : ℚ) = p * m := by
      rcases mul_eq_zero.1 h2 with h | h
      · linarith
      · exact absurd h (ne_of_gt hd)
    exact_mod_cast h3
  intro k hk
  obtain ⟨hik, hkj, c, hc⟩ := (hmem k).1 hk
  have hkN := hlt k hk
  have hk' : k = (p + c) * m := by
    have : k = i + m * c := by omega
    rw [this, hipm]; ring
  refine ⟨p + c, by omega, ?_⟩
  rw [List.getElem?_eq_getElem hkN]
  simp only [binFrequencies, List.getElem_map, List.getElem_range, Option.some.injEq, hk']
  push_cast; ring

/-- Bins 0, 1/2, 1, ..., 9/2 with multiple 2 and range 1 to 3: bins 2, 4 and 6. -/
example : keepIds (binFrequencies 10 (1 / 2)) 1 3 2 = .ok [2, 4, 6] := by
  decide +kernel

/-- The hypotheses of the grid theorem hold for that example. -/
example : ∀ k ∈ ([2, 4, 6] : List ℕ), ∃ q : ℕ, 1 ≤ q ∧
    (binFrequencies 10 (1 / 2))[k]? = some ((q : ℚ) * ((2 : ℕ) * (1 / 2))) :=
  C62_on_user_grid 10 2 1 (1 / 2) 1 3 (by norm_num) (by norm_num) (by norm_num) (by norm_num) _
    (by decide +kernel)

/-! ## Peak picking -/

/-- What the scan needs of an order: "not less" is an order of ranks. -/
structure RankOrder {α : Type} (lt : α → α → Bool) : Prop where
  irrefl : ∀ a, lt a a = false
  asymm : ∀ a b, lt a b = true → lt b a = false
  trans : ∀ a b c, lt a b = true → lt a c = false → lt c b = true

theorem Cq.rankOrder : RankOrder Cq.lt where
  irrefl a := by simp [Cq.lt]
  asymm := by
    intro a b
    simp only [Cq.lt, Bool.or_eq_true, Bool.and_eq_true, decide_eq_true_eq, Bool.or_eq_false_iff,
      decide_eq_false_iff_not, Bool.and_eq_false_iff]
    rintro (h | ⟨h1, h2⟩)
    · exact ⟨by linarith, Or.inl (by intro h'; linarith)⟩
    · exact ⟨by linarith, Or.inr (by linarith)⟩
  trans := by
    intro a b c
    simp only [Cq.lt, Bool.or_eq_true, Bool.and_eq_true, decide_eq_true_eq, Bool.or_eq_false_iff,
      decide_eq_false_iff_not, Bool.and_eq_false_iff]
    rintro (h | ⟨h1, h2⟩) ⟨h3, h4⟩
    · left; linarith
    · rcases h4 with h4 | h4
      · left; rcases lt_trichotomy a.re c.re with h | h | h
        · exact absurd h h3
        · exact absurd h h4
        · linarith
      · rcases lt_trichotomy a.re c.re with h | h | h
        · exact absurd h h3
        · right; exact ⟨by linarith, by linarith⟩
        · left; linarith

theorem argmaxFrom_spec {α : Type} {lt : α → α → Bool} (ord : RankOrder lt) (l : List α) :
    ∀ (pre : List α) (best : ℕ) (v : α),
    pre[best]? = some v → (∀ j (h : j < pre.length), lt v pre[j] = false) →
    (∀ j (h : j < pre.length), j < best → lt pre[j] v = true) →
    ∃ w, (pre ++ l)[argmaxFrom lt l pre.length best v]? = some w ∧
      (∀ j (h : j < (pre ++ l).length), lt w (pre ++ l)[j] = false) ∧
      (∀ j (h : j < (pre ++ l).length), j < argmaxFrom lt l pre.length best v →
        lt ((pre ++ l)[j]) w = true) := by
  have trans1 := ord.trans
  have asymm1 := ord.asymm
  induction l with
  | nil =>
    intro pre best v h1 h2 h3
    refine ⟨v, by simpa [argmaxFrom] using h1, ?_, ?_⟩
    · intro j h; simpa using h2 j (by simpa using h)
    · intro j h hj; simpa using h3 j (by simpa using h) (by simpa [argmaxFrom] using hj)
  | cons x xs ih =>
    intro pre best v h1 h2 h3
    have hlen : (pre ++ [x]).length = pre.length + 1 := by simp
    have happ : pre ++ x :: xs = (pre ++ [x]) ++ xs := by simp
    have hb : best < pre.length := by
      rcases List.getElem?_eq_some_iff.1 h1 with ⟨h, _⟩; exact h
    unfold argmaxFrom
    by_cases hx : lt v x = true
    · simp only [hx, if_true]
      have := ih (pre ++ [x]) pre.length x (by simp)
        (by
          intro j h
          rcases Nat.lt_or_ge j pre.length with hj | hj
          · rw [List.getElem_append_left hj]; exact asymm1 _ _ (trans1 _ _ _ hx (h2 j hj))
          · have : j = pre.length := by rw [hlen] at h; omega
            subst this; simpa using ord.irrefl x)
        (by
          intro j h hj
          rw [List.getElem_append_left hj]; exact trans1 _ _ _ hx (h2 j hj))
      rw [hlen] at this
      rw [happ]; exact this
    · simp only [hx]
      have := ih (pre ++ [x]) best v (by rw [List.getElem?_append_left hb]; exact h1)
        (by
          intro j h
          rcases Nat.lt_or_ge j pre.length with hj | hj
          · rw [List.getElem_append_left hj]; exact h2 j hj
          · have : j = pre.length := by rw [hlen] at h; omega
            subst this; simpa using hx)
        (by
          intro j h hj
          have hj' : j < pre.length := by omega
          rw [List.getElem_append_left hj']; exact h3 j hj' hj)
      rw [hlen] at this
      rw [happ]; exact this

theorem argmaxBy_spec {α : Type} {lt : α → α → Bool} (ord : RankOrder lt) (l : List α) (hl : l ≠ []) :
    ∃ i, argmaxBy lt l = some i ∧ ∃ hi : i < l.length,
    (∀ j (hj : j < l.length), lt l[i] l[j] = false) ∧
    (∀ j (hj : j < l.length), j < i → lt l[j] l[i] = true) := by
  obtain ⟨x, xs, rfl⟩ := List.exists_cons_of_ne_nil hl
  obtain ⟨w, h1, h2, h3⟩ := argmaxFrom_spec ord xs [x] 0 x (by simp)
    (by intro j h; have : j = 0 := by simpa using h
        subst this; simpa using ord.irrefl x) (by intro j h hj; omega)
  refine ⟨_, rfl, ?_⟩
  simp only [List.length_singleton, List.singleton_append] at h1 h2 h3
  obtain ⟨hi, hw⟩ := List.getElem?_eq_some_iff.1 h1
  refine ⟨hi, ?_, ?_⟩
  · intro j hj; rw [hw]; exact h2 j hj
  · intro j hj hji; rw [hw]; exact h3 j hj hji

/-- Mapping a total lookup over a list succeeds entry by entry. -/
theorem mapM_ok_of {α β : Type} (f : α → Except PyErr β) (l : List α) (g : α → β)
    (h : ∀ a ∈ l, f a = .ok (g a)) : l.mapM f = .ok (l.map g) := by
  induction l with
  | nil => rfl
  | cons a l ih =>
    rw [List.mapM_cons, h a List.mem_cons_self, ih (fun b hb => h b (List.mem_cons_of_mem _ hb))]
    rfl

/-- A real-valued power matrix as the program stores it. -/
def realPower (p : List (List ℚ)) : List (List Cq) := p.map fun row => row.map fun x => ⟨x, 0⟩

/-- Row `i` is the first row holding the largest value of column `c`. -/
def FirstColumnMax (p : List (List ℚ)) (c i : ℕ) : Prop :=
  ∃ v, (p[i]?.bind (·[c]?)) = some v ∧
    (∀ (j : ℕ) (w : ℚ), (p[j]?.bind (·[c]?)) = some w → w ≤ v) ∧
    ∀ (j : ℕ) (w : ℚ), j < i → (p[j]?.bind (·[c]?)) = some w → w < v

/-- **C65**.  For a rectangular real power matrix with one row per trial velocity,
`find_peak_power` returns for each frequency the velocity of the first row holding the column's
maximum. -/
theorem C65_peak (velocities : List ℚ) (p : List (List ℚ)) (nf : ℕ) (hp : p ≠ [])
    (hrow : ∀ row ∈ p, row.length = nf) (hvel : velocities.length = p.length) :
    ∃ out, findPeakPower velocities (realPower p) "frequency-maximum" = .ok out ∧ out.length = nf ∧
      ∀ c, c < nf → ∃ i, FirstColumnMax p c i ∧ out[c]? = velocities[i]? := by
  have hcol : ∀ c, ∃ i, argmaxBy Cq.lt ((realPower p).map fun row => row.getD c ⟨0, 0⟩) = some i ∧
      i < velocities.length ∧ (c < nf → FirstColumnMax p c i) := by
    intro c
    obtain ⟨i, hi, hil, h1, h2⟩ := argmaxBy_spec Cq.rankOrder ((realPower p).map fun row => row.getD c ⟨0, 0⟩)
      (by simpa [realPower] using hp)
    have hil' : i < p.length := by simpa [realPower] using hil
    refine ⟨i, hi, by omega, ?_⟩
    intro hc
    have hent : ∀ j (hj : j < p.length), ∃ x, p[j]?.bind (·[c]?) = some x ∧
        ((realPower p).map fun row => row.getD c ⟨0, 0⟩)[j]'(by simpa [realPower] using hj)
          = ⟨x, 0⟩ := by
      intro j hj
      have hl := hrow _ (List.getElem_mem hj)
      refine ⟨p[j][c]'(by omega), ?_, ?_⟩
      · rw [List.getElem?_eq_getElem hj]
        simp only [Option.bind_some]
        rw [List.getElem?_eq_getElem (by omega)]
      · simp only [realPower, List.getElem_map]
        rw [List.getD_eq_getElem?_getD, List.getElem?_map, List.getElem?_eq_getElem (by omega)]
        rfl
    obtain ⟨x, hx1, hx2⟩ := hent i hil'
    refine ⟨x, hx1, ?_, ?_⟩
    · intro j w hw
      have hj : j < p.length := by
        by_contra hge
        rw [List.getElem?_eq_none (by omega)] at hw
        cases hw
      obtain ⟨y, hy1, hy2⟩ := hent j hj
      have := h1 j (by simpa [realPower] using hj)
      rw [hx2, hy2] at this
      rw [hy1] at hw
      cases hw
      simp only [Cq.lt, Bool.or_eq_false_iff, decide_eq_false_iff_not] at this
      exact not_lt.1 this.1
    · intro j w hji hw
      have hj : j < p.length := by omega
      obtain ⟨y, hy1, hy2⟩ := hent j hj
      have := h2 j (by simpa [realPower] using hj) hji
      rw [hx2, hy2] at this
      rw [hy1] at hw
      cases hw
      simpa [Cq.lt] using this
  choose f hf1 hf2 hf3 using hcol
  have hnf : ((realPower p).headD []).length = nf := by
    obtain ⟨r, rs, rfl⟩ := List.exists_cons_of_ne_nil hp
    simpa [realPower] using hrow r List.mem_cons_self
  refine ⟨(List.range nf).map fun c => velocities.getD (f c) 0, ?_, by simp, ?_⟩
  · unfold findPeakPower findPeakBy
    rw [if_pos rfl, hnf]
    refine mapM_ok_of _ _ _ ?_
    intro c _
    rw [hf1 c]
    have := hf2 c
    simp [List.getD_eq_getElem?_getD, this]
  · intro c hc
    refine ⟨f c, hf3 c hc, ?_⟩
    have h2 := hf2 c
    rw [List.getElem?_eq_getElem (by simpa using hc)]
    simp [List.getD_eq_getElem?_getD, h2]

/-- **C65** (unknown methods).  Any other method raises `NotImplementedError`. -/
theorem C65_unknown_method (velocities : List ℚ) (p : List (List Cq)) (how : String)
    (h : how ≠ "frequency-maximum") :
    findPeakPower velocities p how = .error .notImplementedError := by
  unfold findPeakPower findPeakBy
  rw [if_neg h]

/-- Two frequencies, three velocities, a tie in the first column (the first wins). -/
example : findPeakPower [100, 200, 300] (realPower [[1, 2], [5, 3], [5, 7]]) "frequency-maximum"
    = .ok [200, 300] := by decide +kernel

/-- **C98** fails: picking peaks on the un-normalized power of a slant stack (complex numbers) compares
real parts.  Here the cell of magnitude 5 at 200 m/s loses against the cell of magnitude 1 at
100 m/s. -/
theorem C98_complex_power_fails :
    ∃ (velocities : List ℚ) (z : List (List Cq)) (mags : List (List ℚ)),
      -- `mags` holds the magnitudes of `z`
      List.Forall₂ (List.Forall₂ fun (c : Cq) (m : ℚ) => 0 ≤ m ∧ m * m = c.re * c.re + c.im * c.im)
        z mags ∧
      findPeakPower velocities (realPower mags) "frequency-maximum" = .ok [200] ∧
      findPeakPower velocities z "frequency-maximum" = .ok [100] := by
  refine ⟨[100, 200], [[⟨1, 0⟩], [⟨-3, 4⟩]], [[1], [5]], ?_, by decide +kernel, by decide +kernel⟩
  refine .cons (.cons ⟨by norm_num, by norm_num⟩ .nil) (.cons (.cons ⟨by norm_num, by norm_num⟩ .nil)
    .nil)

/-- **C98** (partial).  Where the stored power is real and not negative (phase shift, beamforming, and every transform
after normalization), the peak at each frequency is at the first trial velocity where the magnitude of the stored power
is largest.  Missing: complex power, where the claim is false (`C98_complex_power_fails`). -/
theorem C98_real_power_partial (velocities : List ℚ) (z : List (List Cq)) (mags : List (List ℚ)) (nf : ℕ)
    (hz : z ≠ []) (hrow : ∀ row ∈ z, row.length = nf) (hvel : velocities.length = z.length)
    (hmag : List.Forall₂ (List.Forall₂ fun (c : Cq) (m : ℚ) => 0 ≤ m ∧ m * m = c.re * c.re + c.im * c.im) z mags)
    (hreal : ∀ row ∈ z, ∀ c ∈ row, c.im = 0 ∧ 0 ≤ c.re) :
    ∃ out, findPeakPower velocities z "frequency-maximum" = .ok out ∧ out.length = nf ∧
      ∀ c, c < nf → ∃ i, FirstColumnMax mags c i ∧ out[c]? = velocities[i]? := by
  have hrows : ∀ (row : List Cq) (ms : List ℚ), (∀ c ∈ row, c.im = 0 ∧ 0 ≤ c.re) →
      List.Forall₂ (fun (c : Cq) (m : ℚ) => 0 ≤ m ∧ m * m = c.re * c.re + c.im * c.im) row ms →
      row = ms.map fun x => ⟨x, 0⟩ := by
    intro row ms h1 h2
    induction h2 with
    | nil => rfl
    | cons h h2 ih =>
      rename_i c m row ms
      obtain ⟨e1, e2⟩ := h1 c List.mem_cons_self
      have hm : m = c.re := by
        have : m * m = c.re * c.re := by rw [h.2, e1]; ring
        nlinarith [mul_self_eq_mul_self_iff.1 this, h.1]
      rw [List.map_cons, ← ih fun c hc => h1 c (List.mem_cons_of_mem _ hc), hm]
      congr 1
      rcases c with ⟨re, im⟩
      simp only at e1
      rw [e1]
  have heq : z = realPower mags := by
    clear hz hvel hrow
    induction hmag with
    | nil => rfl
    | cons h _ ih =>
      rw [realPower, List.map_cons, ← hrows _ _ (hreal _ List.mem_cons_self) h]
      congr 1
      exact ih fun row hr => hreal row (List.mem_cons_of_mem _ hr)
  subst heq
  refine C65_peak velocities mags nf (by simpa [realPower] using hz) ?_ (by simpa [realPower] using hvel)
  intro row hr
  have := hrow _ (List.mem_map_of_mem hr)
  simpa using this

/-- The hypotheses are met by two frequencies and two velocities. -/
example : ∃ (z : List (List Cq)) (mags : List (List ℚ)), z ≠ [] ∧ (∀ row ∈ z, row.length = 2) ∧
    List.Forall₂ (List.Forall₂ fun (c : Cq) (m : ℚ) => 0 ≤ m ∧ m * m = c.re * c.re + c.im * c.im) z mags ∧
    (∀ row ∈ z, ∀ c ∈ row, c.im = 0 ∧ 0 ≤ c.re) ∧
    findPeakPower [100, 200] z "frequency-maximum" = .ok [200, 100] := by
  refine ⟨[[⟨1, 0⟩, ⟨4, 0⟩], [⟨3, 0⟩, ⟨2, 0⟩]], [[1, 4], [3, 2]], by simp, by simp, ?_, by simp, by decide +kernel⟩
  exact .cons (.cons ⟨by norm_num, by norm_num⟩ (.cons ⟨by norm_num, by norm_num⟩ .nil))
    (.cons (.cons ⟨by norm_num, by norm_num⟩ (.cons ⟨by norm_num, by norm_num⟩ .nil)) .nil)

/-- **C98** (partial), what is picked from complex power: the first trial velocity with the largest real part, and among
equal real parts with the largest imaginary part. -/
theorem C98_picked_partial (velocities : List ℚ) (z : List (List Cq)) (nf : ℕ) (hz : z ≠ [])
    (hrow : ∀ row ∈ z, row.length = nf) (hvel : velocities.length = z.length) :
    ∃ out, findPeakPower velocities z "frequency-maximum" = .ok out ∧ out.length = nf ∧
      ∀ c, c < nf → ∃ i v, z[i]?.bind (·[c]?) = some v ∧ out[c]? = velocities[i]? ∧
        (∀ (j : ℕ) (w : Cq), z[j]?.bind (·[c]?) = some w → w.re < v.re ∨ (w.re = v.re ∧ w.im ≤ v.im)) ∧
        ∀ (j : ℕ) (w : Cq), j < i → z[j]?.bind (·[c]?) = some w → w.re < v.re ∨ (w.re = v.re ∧ w.im < v.im) := by
  have hcol : ∀ c, ∃ i, argmaxBy Cq.lt (z.map fun row => row.getD c ⟨0, 0⟩) = some i ∧ i < velocities.length ∧
      (c < nf → ∃ v, z[i]?.bind (·[c]?) = some v ∧
        (∀ (j : ℕ) (w : Cq), z[j]?.bind (·[c]?) = some w → w.re < v.re ∨ (w.re = v.re ∧ w.im ≤ v.im)) ∧
        ∀ (j : ℕ) (w : Cq), j < i → z[j]?.bind (·[c]?) = some w → w.re < v.re ∨ (w.re = v.re ∧ w.im < v.im)) := by
    intro c
    obtain ⟨i, hi, hil, h1, h2⟩ := argmaxBy_spec Cq.rankOrder (z.map fun row => row.getD c ⟨0, 0⟩) (by simpa using hz)
    have hil' : i < z.length := by simpa using hil
    refine ⟨i, hi, by omega, fun hc => ?_⟩
    have hent : ∀ j (hj : j < z.length), z[j]?.bind (·[c]?) =
        some ((z.map fun row => row.getD c ⟨0, 0⟩)[j]'(by simpa using hj)) := by
      intro j hj
      have hl := hrow _ (List.getElem_mem hj)
      rw [List.getElem?_eq_getElem hj, Option.bind_some, List.getElem?_eq_getElem (by omega), List.getElem_map,
        List.getD_eq_getElem?_getD, List.getElem?_eq_getElem (by omega)]
      rfl
    have hlt : ∀ (j : ℕ) (w : Cq), z[j]?.bind (·[c]?) = some w → j < z.length := by
      intro j w hw
      by_contra hge
      rw [List.getElem?_eq_none (by omega)] at hw
      cases hw
    refine ⟨_, hent i hil', ?_, ?_⟩
    · intro j w hw
      have hj := hlt j w hw
      have h3 := h1 j (by simpa using hj)
      rw [hent j hj, Option.some.injEq] at hw
      rw [hw] at h3
      simp only [Cq.lt, Bool.or_eq_false_iff, decide_eq_false_iff_not, Bool.and_eq_false_iff] at h3
      rcases lt_or_eq_of_le (not_lt.1 h3.1) with h | h
      · exact Or.inl h
      · rcases h3.2 with h4 | h4
        · exact absurd h.symm h4
        · exact Or.inr ⟨h, not_lt.1 h4⟩
    · intro j w hji hw
      have hj := hlt j w hw
      have h3 := h2 j (by simpa using hj) hji
      rw [hent j hj, Option.some.injEq] at hw
      rw [hw] at h3
      simpa [Cq.lt] using h3
  choose f hf1 hf2 hf3 using hcol
  have hnf : (z.headD []).length = nf := by
    obtain ⟨r, rs, rfl⟩ := List.exists_cons_of_ne_nil hz
    simpa using hrow r List.mem_cons_self
  refine ⟨(List.range nf).map fun c => velocities.getD (f c) 0, ?_, by simp, ?_⟩
  · unfold findPeakPower findPeakBy
    rw [if_pos rfl, hnf]
    refine mapM_ok_of _ _ _ ?_
    intro c _
    rw [hf1 c]
    have := hf2 c
    simp [List.getD_eq_getElem?_getD, this]
  · intro c hc
    obtain ⟨v, g1, g2, g3⟩ := hf3 c hc
    refine ⟨f c, v, g1, ?_, g2, g3⟩
    have h2 := hf2 c
    rw [List.getElem?_eq_getElem (by simpa using hc)]
    simp [List.getD_eq_getElem?_getD, h2]

example : findPeakPower [100, 200, 300] [[⟨1, 2⟩], [⟨1, 3⟩], [⟨1, 3⟩]] "frequency-maximum" = .ok [200] := by decide +kernel

end Verif.Props
