import Verif.Props.RoundedRecord
import Verif.Props.ArrayViews
import Verif.Props.Waterfall

/-!
# C132, C133: decimal coordinates with the rounding of binary64
-/

namespace Verif.Props.B64
open Verif Verif.B64

/-! ## C132: coordinates in SU files -/

theorem rnd_within {x y e : ℚ} (h : |x - y| ≤ e) : |rnd x - y| ≤ e + (|y| + e) / 2 ^ 53 := by
  have h1 := rnd_error x
  have h2 := abs_sub_le (rnd x) x y
  have h3 : |x| ≤ |y| + e := by
    have h4 := abs_sub_abs_le_abs_sub x y
    linarith
  have h5 : |x| / 2 ^ 53 ≤ (|y| + e) / 2 ^ 53 := div_le_div_of_nonneg_right h3 (by norm_num)
  linarith

theorem milli_error {k : ℤ} : |rnd ((k : ℚ) / 1000) * 1000 - k| ≤ |(k : ℚ)| / 2 ^ 53 := by
  have h := rnd_error ((k : ℚ) / 1000)
  have e : rnd ((k : ℚ) / 1000) * 1000 - k = (rnd ((k : ℚ) / 1000) - (k : ℚ) / 1000) * 1000 := by ring
  rw [e, abs_mul, abs_of_pos (by norm_num : (0 : ℚ) < 1000)]
  rw [abs_div, abs_of_pos (by norm_num : (0 : ℚ) < 1000)] at h
  have := mul_le_mul_of_nonneg_right h (by norm_num : (0 : ℚ) ≤ 1000)
  calc _ ≤ _ := this
    _ = _ := by ring

theorem fromMillimetres_eq {k : ℤ} (hk : |k| < 2 ^ 50) : fromMillimetres k = rnd ((k : ℚ) / 1000) := by
  have hkq : |(k : ℚ)| < 2 ^ 50 := by exact_mod_cast hk
  have h := milli_error (k := k)
  have : pyRound (rnd ((k : ℚ) / 1000) * (10 : ℚ) ^ (3 : ℤ)) = k := by
    apply pyRound_eq
    have e : (10 : ℚ) ^ (3 : ℤ) = 1000 := by norm_num
    rw [e]
    refine lt_of_le_of_lt h ?_
    rw [div_lt_iff₀ (by norm_num)]
    linarith
  unfold fromMillimetres roundDecimals pyRoundDigits B64.div
  rw [this]
  norm_num

/-- A number within almost half a millimetre of `k` millimetres is written as `k`. -/
theorem toMillimetres_near {x : ℚ} {k : ℤ} (hk : |k| ≤ 2 ^ 31) (h : |x - (k : ℚ) / 1000| ≤ 1 / 2000 - 1 / 2 ^ 30) :
    toMillimetres x = k := by
  have hkq : |(k : ℚ)| ≤ 2 ^ 31 := by exact_mod_cast hk
  apply pyRound_eq
  have h1 : |x * 1000 - k| ≤ 1 / 2 - 1000 / 2 ^ 30 := by
    have e : x * 1000 - k = (x - (k : ℚ) / 1000) * 1000 := by ring
    rw [e, abs_mul, abs_of_pos (by norm_num : (0 : ℚ) < 1000)]
    have := mul_le_mul_of_nonneg_right h (by norm_num : (0 : ℚ) ≤ 1000)
    calc _ ≤ _ := this
      _ = _ := by ring
  refine lt_of_le_of_lt (rnd_within h1) ?_
  have : (|(k : ℚ)| + (1 / 2 - 1000 / 2 ^ 30)) / 2 ^ 53 < 1000 / 2 ^ 30 := by
    rw [div_lt_iff₀ (by norm_num)]
    refine lt_of_le_of_lt (add_le_add_left hkq _) ?_
    norm_num
  linarith

theorem toMillimetres_milli {k : ℤ} (hk : |k| ≤ 2 ^ 31) : toMillimetres (rnd ((k : ℚ) / 1000)) = k := by
  apply toMillimetres_near hk
  have hkq : |(k : ℚ)| ≤ 2 ^ 31 := by exact_mod_cast hk
  have h := rnd_error ((k : ℚ) / 1000)
  rw [abs_div, abs_of_pos (by norm_num : (0 : ℚ) < 1000)] at h
  refine le_trans h ?_
  rw [div_div, div_le_iff₀ (by norm_num)]
  refine le_trans hkq ?_
  norm_num

/-- **C132**.  A coordinate or a delay of `k` thousandths, held as the binary64 number nearest to it, is written to an
SU file as the integer `k` and is read from it as the very same binary64 number, for all `k` which the header can
hold. -/
theorem C132_su_thousandths_binary64 (k : ℤ) (hk : |k| ≤ 2 ^ 31) :
    toMillimetres (rnd ((k : ℚ) / 1000)) = k ∧ fromMillimetres k = rnd ((k : ℚ) / 1000) ∧
      B64.div k 1000 = rnd ((k : ℚ) / 1000) :=
  ⟨toMillimetres_milli hk, fromMillimetres_eq (lt_of_le_of_lt hk (by norm_num)), rfl⟩

/-- **C132**.  Any other coordinate is read as the binary64 number nearest to a whole number of millimetres, which is
within half a millimetre (and a rounding below one nanometre) of it, and writing and reading again changes nothing. -/
theorem C132_su_any_coordinate_binary64 (x : ℚ) (hx : |x| ≤ 2147483) :
    |fromMillimetres (toMillimetres x) - x| ≤ 1 / 2000 + 1 / 10 ^ 9 ∧
      toMillimetres (fromMillimetres (toMillimetres x)) = toMillimetres x := by
  have hm : |x * 1000| ≤ 2147483000 := by
    rw [abs_mul, abs_of_pos (by norm_num : (0 : ℚ) < 1000)]; linarith
  have h1 := rnd_error (x * 1000)
  have h2 := abs_pyRound_sub (mul x 1000)
  have h1' : |mul x 1000 - x * 1000| ≤ 1 / 4000000 := by
    refine le_trans h1 ?_
    rw [div_le_iff₀ (by norm_num)]
    refine le_trans hm ?_
    norm_num
  have h3 : |(toMillimetres x : ℚ) - x * 1000| ≤ 1 / 2 + 1 / 4000000 :=
    le_trans (abs_sub_le _ (mul x 1000) _) (add_le_add h2 h1')
  have hkq : |(toMillimetres x : ℚ)| ≤ 2147483001 := by
    have := abs_sub_abs_le_abs_sub (toMillimetres x : ℚ) (x * 1000)
    linarith
  have hk : |toMillimetres x| ≤ 2147483001 := by exact_mod_cast hkq
  have hk31 : |toMillimetres x| ≤ 2 ^ 31 := le_trans hk (by norm_num)
  obtain ⟨a, b, _⟩ := C132_su_thousandths_binary64 (toMillimetres x) hk31
  refine ⟨?_, by rw [b, a]⟩
  rw [b]
  have h4 := rnd_error ((toMillimetres x : ℚ) / 1000)
  have h5 : |rnd ((toMillimetres x : ℚ) / 1000) - (toMillimetres x : ℚ) / 1000| ≤ 1 / (4 * 10 ^ 9) := by
    refine le_trans h4 ?_
    rw [abs_div, abs_of_pos (by norm_num : (0 : ℚ) < 1000), div_div, div_le_iff₀ (by norm_num)]
    refine le_trans hkq ?_
    norm_num
  have h6 : |(toMillimetres x : ℚ) / 1000 - x| ≤ 1 / 2000 + 1 / (4 * 10 ^ 9) := by
    have e : (toMillimetres x : ℚ) / 1000 - x = ((toMillimetres x : ℚ) - x * 1000) / 1000 := by ring
    rw [e, abs_div, abs_of_pos (by norm_num : (0 : ℚ) < 1000), div_le_iff₀ (by norm_num)]
    refine le_trans h3 ?_
    norm_num
  refine le_trans (abs_sub_le _ ((toMillimetres x : ℚ) / 1000) _) (le_trans (add_le_add h5 h6) ?_)
  norm_num

/-- C132 for 0.3 m, which is no binary64 number. -/
example : toMillimetres (rnd (3 / 10)) = 300 ∧ fromMillimetres 300 = rnd (3 / 10) ∧ rnd (3 / 10) ≠ 3 / 10 := by
  have h := C132_su_thousandths_binary64 300 (by norm_num)
  have e : ((300 : ℤ) : ℚ) / 1000 = 3 / 10 := by norm_num
  rw [e] at h
  exact ⟨h.1, h.2.1, by decide +kernel⟩

/-! ## C133: spacing -/

theorem diff64_near (A S : ℚ) (hS : |S| ≤ 2 ^ 21) : ∀ (n a : ℕ), (∀ i : ℕ, i < n → |A + ((a + i : ℕ) : ℚ) * S| ≤ 2 ^ 20) →
    ∀ d ∈ B64.diff ((List.range' a n).map fun (i : ℕ) => rnd (A + (i : ℚ) * S)), |d - S| ≤ 1 / 2 ^ 30
  | 0, _, _, d, hd => by simp [B64.diff] at hd
  | 1, _, _, d, hd => by simp [B64.diff] at hd
  | n + 2, a, h, d, hd => by
    rw [List.range'_succ, List.range'_succ, List.map_cons, List.map_cons] at hd
    simp only [B64.diff, List.mem_cons] at hd
    rcases hd with rfl | hd
    · have b0 := h 0 (by omega)
      have b1 := h 1 (by omega)
      rw [Nat.add_zero] at b0
      have e0 := rnd_error (A + (a : ℚ) * S)
      have e1 := rnd_error (A + ((a + 1 : ℕ) : ℚ) * S)
      have c0 : |rnd (A + (a : ℚ) * S) - (A + (a : ℚ) * S)| ≤ 1 / 2 ^ 33 := by
        refine le_trans e0 ?_
        rw [div_le_iff₀ (by norm_num)]; refine le_trans b0 ?_; norm_num
      have c1 : |rnd (A + ((a + 1 : ℕ) : ℚ) * S) - (A + ((a + 1 : ℕ) : ℚ) * S)| ≤ 1 / 2 ^ 33 := by
        refine le_trans e1 ?_
        rw [div_le_iff₀ (by norm_num)]; refine le_trans b1 ?_; norm_num
      have c2 : |rnd (A + ((a + 1 : ℕ) : ℚ) * S) - rnd (A + (a : ℚ) * S) - S| ≤ 1 / 2 ^ 32 := by
        have e : rnd (A + ((a + 1 : ℕ) : ℚ) * S) - rnd (A + (a : ℚ) * S) - S =
            (rnd (A + ((a + 1 : ℕ) : ℚ) * S) - (A + ((a + 1 : ℕ) : ℚ) * S)) -
              (rnd (A + (a : ℚ) * S) - (A + (a : ℚ) * S)) := by push_cast; ring
        rw [e]
        refine le_trans (abs_sub _ _) (le_trans (add_le_add c1 c0) ?_)
        norm_num
      refine le_trans (rnd_within c2) ?_
      have : (|S| + 1 / 2 ^ 32) / 2 ^ 53 ≤ 1 / 2 ^ 31 := by
        rw [div_le_iff₀ (by norm_num)]
        refine le_trans (add_le_add_left hS _) ?_
        norm_num
      refine le_trans (add_le_add_right this _) ?_
      norm_num
    · refine diff64_near A S hS (n + 1) (a + 1) (fun i hi => ?_) d ?_
      · have := h (i + 1) (by omega)
        rwa [show a + (i + 1) = a + 1 + i by omega] at this
      · rw [List.range'_succ, List.map_cons]; exact hd

theorem rnd_cent : (1 : ℚ) / 200 ≤ rnd (1 / 100) := by
  have := (rnd_bounds (x := 1 / 100) (by norm_num)).1
  refine le_trans ?_ this
  norm_num

/-- **C133**.  Let the sensors stand `c` hundredths of a metre apart, at binary64 positions nearest to `A + i*c/100`
(each within a thousand kilometres of the origin).  Although the computed differences are not all equal, the array is
found equally spaced and its `spacing` is the binary64 number nearest to `c/100`. -/
theorem C133_spacing_binary64 (A : ℚ) (c : ℤ) (n : ℕ) (hn : 2 ≤ n)
    (h : ∀ i : ℕ, i < n → |A + (i : ℚ) * ((c : ℚ) / 100)| ≤ 2 ^ 20) :
    B64.spacing ((List.range n).map fun (i : ℕ) => rnd (A + (i : ℚ) * ((c : ℚ) / 100))) = .ok (rnd ((c : ℚ) / 100)) := by
  set S := (c : ℚ) / 100 with hSdef
  have hS : |S| ≤ 2 ^ 21 := by
    have h0 := h 0 (by omega)
    have h1 := h 1 (by omega)
    have e : S = (A + ((1 : ℕ) : ℚ) * S) - (A + ((0 : ℕ) : ℚ) * S) := by push_cast; ring
    rw [e]
    refine le_trans (abs_sub _ _) (le_trans (add_le_add h1 h0) ?_)
    norm_num
  have hnear := diff64_near A S hS n 0 (fun i hi => by rw [Nat.zero_add]; exact h i hi)
  rw [← List.range_eq_range'] at hnear
  set l := (List.range n).map fun (i : ℕ) => rnd (A + (i : ℚ) * S) with hl
  have hne : B64.diff l ≠ [] := by
    obtain ⟨m, rfl⟩ : ∃ m, n = m + 2 := ⟨n - 2, by omega⟩
    rw [hl, List.range_eq_range', List.range'_succ, List.range'_succ, List.map_cons, List.map_cons]
    simp [B64.diff]
  obtain ⟨mn, hmn⟩ := minList_some hne
  obtain ⟨mx, hmx⟩ := maxList_some hne
  have b1 := hnear mn (minList_spec hmn).1
  have b2 := hnear mx (maxList_spec hmx).1
  have hlt : B64.sub mx mn < rnd (1 / 100) := by
    refine lt_of_lt_of_le ?_ rnd_cent
    have h0 : |mx - mn - 0| ≤ 1 / 2 ^ 29 := by
      have e : mx - mn - 0 = (mx - S) - (mn - S) := by ring
      rw [e]
      refine le_trans (abs_sub _ _) (le_trans (add_le_add b2 b1) ?_)
      norm_num
    have h1 := rnd_within h0
    have h2 := (abs_le.1 h1).2
    rw [abs_zero, sub_zero] at h2
    refine lt_of_le_of_lt h2 ?_
    norm_num
  have hround : npRound2 mn = rnd S := by
    unfold npRound2
    have : pyRound (B64.mul mn 100) = c := by
      apply pyRound_eq
      have h0 : |mn * 100 - c| ≤ 100 / 2 ^ 30 := by
        have e : mn * 100 - c = (mn - S) * 100 := by rw [hSdef]; ring
        rw [e, abs_mul, abs_of_pos (by norm_num : (0 : ℚ) < 100)]
        have := mul_le_mul_of_nonneg_right b1 (by norm_num : (0 : ℚ) ≤ 100)
        refine le_trans this ?_
        norm_num
      refine lt_of_le_of_lt (rnd_within h0) ?_
      have hc : |(c : ℚ)| ≤ 100 * 2 ^ 21 := by
        have e : (c : ℚ) = S * 100 := by rw [hSdef]; ring
        rw [e, abs_mul, abs_of_pos (by norm_num : (0 : ℚ) < 100)]
        linarith
      have h2 : (|(c : ℚ)| + 100 / 2 ^ 30) / 2 ^ 53 ≤ 1 / 4 := by
        rw [div_le_iff₀ (by norm_num)]
        refine le_trans (add_le_add_left hc _) ?_
        norm_num
      refine lt_of_le_of_lt (add_le_add_right h2 _) ?_
      norm_num
    rw [this]
    rfl
  unfold B64.spacing
  rw [hmn, hmx]
  simp only [if_pos hlt, hround]

/-- **C133** (refusal).  If two gaps between neighbouring sensors differ by more than 1.01 cm, or if there are fewer than two
sensors, there is no spacing: `ValueError`. -/
theorem C133_no_spacing_binary64 (position : List ℚ) (h : ∀ x ∈ position, |x| ≤ 2 ^ 20) :
    (position.length < 2 → B64.spacing position = .error .valueError) ∧
    ∀ (i j : ℕ) (a b c d : ℚ), position[i]? = some a → position[i + 1]? = some b → position[j]? = some c →
      position[j + 1]? = some d → 101 / 10000 < (d - c) - (b - a) → B64.spacing position = .error .valueError := by
  constructor
  · intro hl
    match position, hl with
    | [], _ => rfl
    | [_], _ => rfl
    | _ :: _ :: _, hl => simp at hl
  · intro i j a b c d ha hb hc hd hgap
    have hmem : ∀ (l : List ℚ) (i : ℕ) (a b : ℚ), l[i]? = some a → l[i + 1]? = some b → B64.sub b a ∈ B64.diff l := by
      intro l
      induction l with
      | nil => intro i a b h1 _; simp at h1
      | cons x l ih =>
        intro i a b h1 h2
        cases l with
        | nil => simp at h2
        | cons y l =>
          cases i with
          | zero =>
            simp only [List.getElem?_cons_zero, Option.some.injEq, Nat.zero_add, List.getElem?_cons_succ] at h1 h2
            subst h1 h2
            exact List.mem_cons_self
          | succ i =>
            rw [List.getElem?_cons_succ] at h1 h2
            exact List.mem_cons_of_mem _ (ih i a b h1 h2)
    have m1 := hmem position i a b ha hb
    have m2 := hmem position j c d hc hd
    have hne : B64.diff position ≠ [] := List.ne_nil_of_mem m1
    obtain ⟨mn, hmn⟩ := minList_some hne
    obtain ⟨mx, hmx⟩ := maxList_some hne
    have hlo := (minList_spec hmn).2 _ m1
    have hhi := (maxList_spec hmx).2 _ m2
    have herr : ∀ x y : ℚ, x ∈ position → y ∈ position → |B64.sub y x - (y - x)| ≤ 1 / 2 ^ 30 := by
      intro x y hx hy
      refine le_trans (rnd_error _) ?_
      rw [div_le_iff₀ (by norm_num)]
      refine le_trans (abs_sub _ _) (le_trans (add_le_add (h y hy) (h x hx)) ?_)
      norm_num
    have e1 := (abs_le.1 (herr a b (List.mem_of_getElem? ha) (List.mem_of_getElem? hb))).2
    have e2 := (abs_le.1 (herr c d (List.mem_of_getElem? hc) (List.mem_of_getElem? hd))).1
    have hgap' : (10099 : ℚ) / 1000000 ≤ mx - mn := by
      have : (1 : ℚ) / 2 ^ 30 ≤ 1 / 2000000 := by norm_num
      linarith
    have hnot : ¬ B64.sub mx mn < rnd (1 / 100) := by
      rw [not_lt]
      exact rnd_mono (le_trans (by norm_num) hgap')
    unfold B64.spacing
    rw [hmn, hmx]
    simp only [if_neg hnot]

/-- C133 for sensors at 0, 1 and 2.02 m. -/
example : B64.spacing [0, 1, rnd (202 / 100)] = .error .valueError := by
  have hb := rnd_bounds (x := 202 / 100) (by norm_num)
  refine (C133_no_spacing_binary64 [0, 1, rnd (202 / 100)] ?_).2 0 1 0 1 1 _ rfl rfl rfl rfl ?_
  · intro x hx
    simp only [List.mem_cons, List.not_mem_nil, or_false] at hx
    rcases hx with rfl | rfl | rfl
    · norm_num
    · norm_num
    · rw [abs_of_nonneg (rnd_nonneg (by norm_num))]
      refine le_trans hb.2 ?_
      norm_num
  · refine lt_of_lt_of_le ?_ (sub_le_sub_right (sub_le_sub_right hb.1 _) _)
    norm_num

/-- C133 for sensors every 0.1 m: the differences of the positions are not all equal, and the spacing is 0.1. -/
example : B64.spacing [rnd 0, rnd (1 / 10), rnd (2 / 10), rnd (3 / 10)] = .ok (rnd (1 / 10)) ∧
    B64.sub (rnd (1 / 10)) (rnd 0) ≠ B64.sub (rnd (3 / 10)) (rnd (2 / 10)) := by
  refine ⟨?_, by decide +kernel⟩
  have h := C133_spacing_binary64 0 10 4 (by norm_num) (fun i hi => by
    rw [zero_add, abs_of_nonneg (by positivity)]
    have : (i : ℚ) ≤ 4 := by exact_mod_cast hi.le
    norm_num
    linarith)
  have e : ((List.range 4).map fun (i : ℕ) => rnd (0 + (i : ℚ) * (((10 : ℤ) : ℚ) / 100))) =
      [rnd 0, rnd (1 / 10), rnd (2 / 10), rnd (3 / 10)] := by
    simp only [List.range_succ, List.range_zero, List.nil_append, List.cons_append, List.map_cons, List.map_nil]
    norm_num
  rw [e] at h
  rw [h]
  norm_num

end Verif.Props.B64
