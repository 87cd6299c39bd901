import Verif.Model.RoundedCurves
import Verif.Props.RoundedStack
import Verif.Model.Stats

/-!
# C155: means of the statistics in binary64
-/

namespace Verif.Props.B64
open Verif Verif.B64 Verif.Spec

theorem entries_ne_nil (t : Additions) : t.entries ≠ [] := by
  induction t with
  | entry x => simp [Additions.entries]
  | plus l r hl _ => simp [Additions.entries, hl]

theorem abs_sum_le (l : List ℚ) : |l.sum| ≤ (l.map fun x => |x|).sum := by
  induction l with
  | nil => simp
  | cons a l ih =>
    simp only [List.sum_cons, List.map_cons]
    exact le_trans (abs_add_le _ _) (by linarith)

theorem abs_sum_nonneg (l : List ℚ) : 0 ≤ (l.map fun x => |x|).sum := le_trans (abs_nonneg _) (abs_sum_le l)

/-- The error of adding in any order. -/
theorem result_near (t : Additions) :
    |t.result - t.entries.sum| ≤ (g ^ (t.entries.length - 1) - 1) * (t.entries.map fun x => |x|).sum := by
  induction t with
  | entry x => simp [Additions.result, Additions.entries]
  | plus l r hl hr =>
    have nl := List.length_pos_of_ne_nil (entries_ne_nil l)
    have nr := List.length_pos_of_ne_nil (entries_ne_nil r)
    set A := (l.entries.map fun x => |x|).sum
    set B := (r.entries.map fun x => |x|).sum
    have hA : 0 ≤ A := abs_sum_nonneg _
    have hB : 0 ≤ B := abs_sum_nonneg _
    simp only [Additions.result, Additions.entries, List.sum_append, List.map_append, List.length_append]
    have e : l.entries.length + r.entries.length - 1 = (l.entries.length - 1) + (r.entries.length - 1) + 1 := by omega
    rw [e, pow_succ]
    refine rnd_near ?_ (le_trans (abs_add_le _ _) (add_le_add (abs_sum_le _) (abs_sum_le _)))
    have e2 : l.result + r.result - (l.entries.sum + r.entries.sum) =
        (l.result - l.entries.sum) + (r.result - r.entries.sum) := by ring
    rw [e2]
    refine le_trans (abs_add_le _ _) (le_trans (add_le_add hl hr) ?_)
    have gl := one_le_g_pow (l.entries.length - 1)
    have gr := one_le_g_pow (r.entries.length - 1)
    rw [pow_add]
    set P := g ^ (l.entries.length - 1)
    set Q := g ^ (r.entries.length - 1)
    have h1 : (P - 1) * A ≤ (P * Q - 1) * A := mul_le_mul_of_nonneg_right (by nlinarith) hA
    have h2 : (Q - 1) * B ≤ (P * Q - 1) * B := mul_le_mul_of_nonneg_right (by nlinarith) hB
    change (P - 1) * A + (Q - 1) * B ≤ (P * Q - 1) * (A + B)
    linarith [(by ring : (P * Q - 1) * (A + B) = (P * Q - 1) * A + (P * Q - 1) * B)]

/-- Multiples of a power of two are added without error as long as they have few digits. -/
theorem result_exact (t : Additions) (e : ℤ) (k : ℚ → ℤ) (hk : ∀ x ∈ t.entries, x = k x * 2 ^ e)
    (hs : (t.entries.map fun x => |k x|).sum < 2 ^ 53) :
    t.result = t.entries.sum ∧ ∃ n : ℤ, t.entries.sum = n * 2 ^ e ∧ |n| ≤ (t.entries.map fun x => |k x|).sum := by
  induction t with
  | entry x => exact ⟨by simp [Additions.result, Additions.entries], k x, by
      simpa [Additions.entries] using hk x (by simp [Additions.entries]), by simp [Additions.entries]⟩
  | plus l r hl hr =>
    simp only [Additions.entries, List.map_append, List.sum_append, List.mem_append] at hk hs ⊢
    have nn : ∀ t : List ℚ, 0 ≤ (t.map fun x => |k x|).sum := fun t => List.sum_nonneg fun y hy => by
      obtain ⟨x, -, rfl⟩ := List.mem_map.1 hy
      exact abs_nonneg _
    have nl := nn l.entries
    have nr := nn r.entries
    obtain ⟨l1, m, l2, l3⟩ := hl (fun x hx => hk x (Or.inl hx)) (by linarith)
    obtain ⟨r1, n, r2, r3⟩ := hr (fun x hx => hk x (Or.inr hx)) (by linarith)
    have h : l.entries.sum + r.entries.sum = ((m + n : ℤ) : ℚ) * 2 ^ e := by
      rw [l2, r2]; push_cast; ring
    have hb : |m + n| ≤ (l.entries.map fun x => |k x|).sum + (r.entries.map fun x => |k x|).sum :=
      le_trans (abs_add_le _ _) (add_le_add l3 r3)
    refine ⟨?_, m + n, h, hb⟩
    simp only [Additions.result, add]
    rw [l1, r1]
    exact rnd_double ⟨m + n, e, lt_of_le_of_lt hb hs, h⟩

theorem sum_getD (col : List (Option ℚ)) : (col.map fun x => x.getD 0).sum = (Mat.valid col).sum ∧
    ((col.map fun x => x.getD 0).map fun x => |x|).sum = ((Mat.valid col).map fun x => |x|).sum ∧
    (Mat.valid col).length = Mat.numCount col := by
  induction col with
  | nil => exact ⟨rfl, rfl, rfl⟩
  | cons x col ih =>
    obtain ⟨h1, h2, h3⟩ := ih
    cases x with
    | none =>
      refine ⟨?_, ?_, ?_⟩
      · simpa [Mat.valid] using h1
      · simpa [Mat.valid] using h2
      · simpa [Mat.valid, Mat.numCount] using h3
    | some q =>
      refine ⟨?_, ?_, ?_⟩
      · simpa [Mat.valid] using h1
      · simpa [Mat.valid] using h2
      · simpa [Mat.valid, Mat.numCount] using h3

/-- **C155** (partial: accuracy).  In whatever order the sum is taken, the reported mean of a column of `n` entries differs
from the mean of its numbers by at most `(1 + 2^-53)^n - 1` times the mean of their magnitudes. -/
theorem C155_mean_binary64_partial (total : List ℚ → ℚ) (ht : Sums total) (col : List (Option ℚ))
    (h : ∃ x ∈ col, x ≠ none) :
    ∃ m m' : ℚ, Mat.nanmean col = some m ∧ nanmean total col = some m' ∧
      |m' - m| ≤ ((1 + 1 / 2 ^ 53) ^ col.length - 1) *
        (((Mat.valid col).map fun x => |x|).sum / (Mat.valid col).length) := by
  obtain ⟨s1, s2, s3⟩ := sum_getD col
  have hv : Mat.valid col ≠ [] := by
    obtain ⟨x, hx, hn⟩ := h
    cases x with
    | none => exact absurd rfl hn
    | some q =>
      have : q ∈ Mat.valid col := by
        unfold Mat.valid
        rw [List.mem_filterMap]
        exact ⟨some q, hx, rfl⟩
      exact List.ne_nil_of_mem this
  have hc : Mat.numCount col ≠ 0 := by
    rw [← s3]
    exact (List.length_pos_of_ne_nil hv).ne'
  have hcol : (col.map fun x => x.getD 0) ≠ [] := by
    obtain ⟨x, hx, -⟩ := h
    exact List.ne_nil_of_mem (List.mem_map.2 ⟨x, hx, rfl⟩)
  obtain ⟨t, hp, hr⟩ := ht _ hcol
  refine ⟨_, _, if_neg hv, if_neg hc, ?_⟩
  have hn := result_near t
  rw [hp.sum_eq, hp.length_eq, (hp.map fun x => |x|).sum_eq, s1, s2, List.length_map] at hn
  have hlen : 0 < col.length := List.length_pos_of_ne_nil (by rintro rfl; exact hcol rfl)
  rw [hr, s3]
  have hcq : (0 : ℚ) < Mat.numCount col := by exact_mod_cast Nat.pos_of_ne_zero hc
  have e : (1 + 1 / 2 ^ 53 : ℚ) ^ col.length = g ^ (col.length - 1) * g := by
    rw [← pow_succ]; congr 1; omega
  rw [e]
  refine rnd_near ?_ ?_
  · rw [← sub_div, abs_div, abs_of_pos hcq, ← mul_div_assoc]
    exact div_le_div_of_nonneg_right hn hcq.le
  · rw [abs_div, abs_of_pos hcq]
    exact div_le_div_of_nonneg_right (abs_sum_le _) hcq.le

/-- The square of a rounded difference, rounded. -/
theorem square_near (x m : ℚ) : |mul (sub x m) (sub x m) - (x - m) * (x - m)| ≤ (g ^ 3 - 1) * ((x - m) * (x - m)) := by
  have h0 := rnd_error (x - m)
  set d := x - m
  have hsq : d * d = |d| * |d| := (abs_mul_abs_self d).symm
  have h1 : |rnd d - d| ≤ (g - 1) * |d| := by unfold g; linarith
  have h2 : |rnd d + d| ≤ (g + 1) * |d| := by
    have e : rnd d + d = (rnd d - d) + 2 * d := by ring
    rw [e]
    refine le_trans (abs_add_le _ _) ?_
    rw [abs_mul, abs_two]
    linarith
  have h3 : |rnd d * rnd d - d * d| ≤ (g ^ 2 - 1) * (d * d) := by
    have e : rnd d * rnd d - d * d = (rnd d - d) * (rnd d + d) := by ring
    rw [e, abs_mul]
    refine le_trans (mul_le_mul h1 h2 (abs_nonneg _) (mul_nonneg (by norm_num [g]) (abs_nonneg _))) (le_of_eq ?_)
    rw [hsq]; ring
  have h4 := rnd_near (M := d * d) h3 (le_of_eq (abs_of_nonneg (mul_self_nonneg d)))
  rw [← pow_succ] at h4
  exact h4

/-- `0` for a missing entry, the rounded square of the difference from `m` for a number. -/
def squareOf (m : ℚ) (x : Option ℚ) : ℚ :=
  match x with
  | none => 0
  | some x => mul (sub x m) (sub x m)

theorem squares_near (m : ℚ) (col : List (Option ℚ)) :
    |(col.map (squareOf m)).sum - ((Mat.valid col).map fun x => (x - m) * (x - m)).sum| ≤
      (g ^ 3 - 1) * ((Mat.valid col).map fun x => (x - m) * (x - m)).sum ∧
    ((col.map (squareOf m)).map fun x => |x|).sum ≤ g ^ 3 * ((Mat.valid col).map fun x => (x - m) * (x - m)).sum := by
  induction col with
  | nil => simp [Mat.valid]
  | cons x col ih =>
    obtain ⟨h1, h2⟩ := ih
    cases x with
    | none =>
      refine ⟨?_, ?_⟩
      · simpa [Mat.valid, squareOf] using h1
      · simpa [Mat.valid, squareOf] using h2
    | some q =>
      have hq := square_near q m
      have hd := mul_self_nonneg (q - m)
      have e : Mat.valid (some q :: col) = q :: Mat.valid col := rfl
      rw [e]
      simp only [List.map_cons, List.sum_cons, squareOf]
      set S := ((Mat.valid col).map fun x => (x - m) * (x - m)).sum
      refine ⟨?_, ?_⟩
      · rw [add_sub_add_comm, mul_add]
        exact le_trans (abs_add_le _ _) (add_le_add hq h1)
      · rw [mul_add]
        refine add_le_add ?_ h2
        have := abs_sub_abs_le_abs_sub (mul (sub q m) (sub q m)) ((q - m) * (q - m))
        rw [abs_of_nonneg hd] at this
        linarith

/-- Squares of the differences from another number than the mean. -/
theorem squares_about (l : List ℚ) (c m : ℚ) :
    (l.map fun x => (x - c) * (x - c)).sum =
      (l.map fun x => (x - m) * (x - m)).sum + 2 * (m - c) * (l.sum - l.length * m) + l.length * ((c - m) * (c - m)) := by
  induction l with
  | nil => simp
  | cons x l ih =>
    simp only [List.map_cons, List.sum_cons, List.length_cons, Nat.cast_add, Nat.cast_one]
    rw [ih]; ring

/-- **C155** (partial: accuracy of the deviation).  In whatever order the sums are taken, the reported variance of a column
of `n` entries with `k ≥ 2` numbers is, up to the part `(1 + 2^-53)^(n+3) - 1`, the variance of its numbers enlarged by
`k/(k-1)` times the square of the error of the mean. -/
theorem C155_variance_binary64_partial (total : List ℚ → ℚ) (ht : Sums total) (col : List (Option ℚ)) (k : ℕ)
    (hk : k = (Mat.valid col).length) (h : 2 ≤ k) :
    ∃ m m' v v' : ℚ, Mat.nanmean col = some m ∧ nanmean total col = some m' ∧
      v = ((Mat.valid col).map fun x => (x - m) ^ 2).sum / (k - 1) ∧ Mat.nanstd col = some (Real.sqrt v) ∧
      nanvar total col = some v' ∧
      |v' - (v + k / (k - 1) * (m' - m) ^ 2)| ≤
        ((1 + 1 / 2 ^ 53) ^ (col.length + 3) - 1) * (v + k / (k - 1) * (m' - m) ^ 2) := by
  have hs3 := (sum_getD col).2.2
  have hv : Mat.valid col ≠ [] := by
    intro e
    rw [e] at hk
    simp at hk
    omega
  obtain ⟨q, hq⟩ := List.exists_mem_of_ne_nil _ hv
  have hq' : some q ∈ col := by
    unfold Mat.valid at hq
    obtain ⟨y, hy, e⟩ := List.mem_filterMap.1 hq
    rw [← e]
    exact hy
  obtain ⟨m, m', hm, hm', -⟩ := C155_mean_binary64_partial total ht col ⟨some q, hq', by simp⟩
  have hmeq : m = (Mat.valid col).sum / k := by
    unfold Mat.nanmean at hm
    rw [if_neg hv, Option.some.injEq] at hm
    rw [← hm, hk]
  have hk0 : (0 : ℚ) < (k : ℚ) - 1 := by
    have : (2 : ℚ) ≤ k := by exact_mod_cast h
    linarith
  have hkne : (k : ℚ) ≠ 0 := by
    have : (2 : ℚ) ≤ k := by exact_mod_cast h
    linarith
  have hcol : col.map (squareOf m') ≠ [] := List.ne_nil_of_mem (List.mem_map.2 ⟨_, hq', rfl⟩)
  obtain ⟨t, hp, hr⟩ := ht _ hcol
  refine ⟨m, m', ((Mat.valid col).map fun x => (x - m) ^ 2).sum / (k - 1),
    div (total (col.map (squareOf m'))) ((k : ℚ) - 1), hm, hm', rfl, ?_, ?_, ?_⟩
  · unfold Mat.nanstd
    rw [if_neg (by omega)]
    simp only [← hk, ← hmeq, pow_two]
  · unfold nanvar
    rw [if_neg (by omega), hm', ← hs3, ← hk]
    rfl
  · have hn := result_near t
    rw [hp.sum_eq, hp.length_eq, (hp.map fun x => |x|).sum_eq, List.length_map, ← hr] at hn
    obtain ⟨c1, c2⟩ := squares_near m' col
    have hS : ((Mat.valid col).map fun x => (x - m') * (x - m')).sum =
        ((Mat.valid col).map fun x => (x - m) ^ 2).sum + k * (m' - m) ^ 2 := by
      have hz : (Mat.valid col).sum - k * m = 0 := by
        rw [hmeq]; field_simp; ring
      rw [squares_about _ m' m, ← hk, hz]
      simp only [pow_two]
      ring
    have hS0 : 0 ≤ ((Mat.valid col).map fun x => (x - m') * (x - m')).sum := List.sum_nonneg fun y hy => by
      obtain ⟨x, -, rfl⟩ := List.mem_map.1 hy
      exact mul_self_nonneg _
    have hV : ((Mat.valid col).map fun x => (x - m) ^ 2).sum / ((k : ℚ) - 1) + k / (k - 1) * (m' - m) ^ 2 =
        ((Mat.valid col).map fun x => (x - m') * (x - m')).sum / ((k : ℚ) - 1) := by
      rw [hS]; ring
    rw [hV]
    set S := ((Mat.valid col).map fun x => (x - m') * (x - m')).sum
    have hG := one_le_g_pow (col.length - 1)
    have hlen : 0 < col.length := List.length_pos_of_ne_nil (by rintro rfl; exact hcol rfl)
    have e : (1 + 1 / 2 ^ 53 : ℚ) ^ (col.length + 3) = g ^ (col.length - 1) * g ^ 3 * g := by
      rw [← pow_add, ← pow_succ]; congr 1; omega
    rw [e]
    set G := g ^ (col.length - 1)
    have ht' : |total (col.map (squareOf m')) - S| ≤ (G * g ^ 3 - 1) * S := by
      refine le_trans (abs_sub_le _ (col.map (squareOf m')).sum _) (le_trans (add_le_add hn c1) ?_)
      have := mul_le_mul_of_nonneg_left c2 (show 0 ≤ G - 1 by linarith)
      nlinarith
    refine rnd_near ?_ ?_
    · rw [← sub_div, abs_div, abs_of_pos hk0, ← mul_div_assoc]
      exact div_le_div_of_nonneg_right ht' hk0.le
    · rw [abs_div, abs_of_pos hk0, abs_of_nonneg hS0]

/-- **C155** (partial: numbers with few digits).  If the numbers of the column are multiples of one power of two with
factors whose magnitudes add up to less than 2^53 (whole numbers, say), then in whatever order the sum is taken the reported
mean is the binary64 number nearest to the mean, it lies between bounds of the numbers which are binary64 numbers, and if
all numbers are the same it is that number. -/
theorem C155_few_digits_partial (total : List ℚ → ℚ) (ht : Sums total) (col : List (Option ℚ)) (e : ℤ) (k : ℚ → ℤ)
    (h : ∃ x ∈ col, x ≠ none) (hk : ∀ x, some x ∈ col → x = k x * 2 ^ e) (k0 : k 0 = 0)
    (hs : ((Mat.valid col).map fun x => |k x|).sum < 2 ^ 53) :
    ∃ m m' : ℚ, Mat.nanmean col = some m ∧ nanmean total col = some m' ∧ NearestDouble m m' ∧
      (∀ lo hi : ℚ, IsDouble lo → IsDouble hi → (∀ x, some x ∈ col → lo ≤ x ∧ x ≤ hi) → lo ≤ m' ∧ m' ≤ hi) ∧
      ∀ v, IsDouble v → (∀ x, some x ∈ col → x = v) → m' = v := by
  obtain ⟨s1, -, s3⟩ := sum_getD col
  have hmem : ∀ x, x ∈ Mat.valid col ↔ some x ∈ col := fun x => by
    unfold Mat.valid
    rw [List.mem_filterMap]
    exact ⟨fun ⟨y, hy, e⟩ => by cases y <;> simp at e; subst e; exact hy, fun hx => ⟨some x, hx, rfl⟩⟩
  have hv : Mat.valid col ≠ [] := by
    obtain ⟨x, hx, hn⟩ := h
    cases x with
    | none => exact absurd rfl hn
    | some q => exact List.ne_nil_of_mem ((hmem q).2 hx)
  have hc : Mat.numCount col ≠ 0 := by
    rw [← s3]
    exact (List.length_pos_of_ne_nil hv).ne'
  have hcol : (col.map fun x => x.getD 0) ≠ [] := by
    obtain ⟨x, hx, -⟩ := h
    exact List.ne_nil_of_mem (List.mem_map.2 ⟨x, hx, rfl⟩)
  obtain ⟨t, hp, hr⟩ := ht _ hcol
  have hk' : ∀ x ∈ t.entries, x = k x * 2 ^ e := by
    intro x hx
    obtain ⟨y, hy, rfl⟩ := List.mem_map.1 (hp.mem_iff.1 hx)
    cases y with
    | none => simp [k0]
    | some q => exact hk q hy
  have hks : ∀ l : List (Option ℚ), ((l.map fun x => x.getD 0).map fun x => |k x|).sum = ((Mat.valid l).map fun x => |k x|).sum := by
    intro l
    induction l with
    | nil => rfl
    | cons x l ih =>
      cases x with
      | none => simpa [Mat.valid, k0] using ih
      | some q => simpa [Mat.valid] using ih
  obtain ⟨hex, -⟩ := result_exact t e k hk' (by rw [(hp.map fun x => |k x|).sum_eq, hks]; exact hs)
  rw [hp.sum_eq, s1] at hex
  have hcq : (0 : ℚ) < Mat.numCount col := by exact_mod_cast Nat.pos_of_ne_zero hc
  have hbetween : ∀ lo hi : ℚ, IsDouble lo → IsDouble hi → (∀ x, some x ∈ col → lo ≤ x ∧ x ≤ hi) →
      lo ≤ rnd ((Mat.valid col).sum / Mat.numCount col) ∧ rnd ((Mat.valid col).sum / Mat.numCount col) ≤ hi := by
    intro lo hi dlo dhi hb
    constructor
    · rw [← rnd_double dlo]
      refine rnd_mono ?_
      rw [le_div_iff₀ hcq, ← s3, mul_comm, ← nsmul_eq_mul]
      exact List.card_nsmul_le_sum _ _ fun x hx => (hb x ((hmem x).1 hx)).1
    · rw [← rnd_double dhi]
      refine rnd_mono ?_
      rw [div_le_iff₀ hcq, ← s3, mul_comm, ← nsmul_eq_mul]
      exact List.sum_le_card_nsmul _ _ fun x hx => (hb x ((hmem x).1 hx)).2
  have hdiv : div (total (col.map fun x => x.getD 0)) (Mat.numCount col) =
      rnd ((Mat.valid col).sum / Mat.numCount col) := by rw [hr, hex]; rfl
  refine ⟨_, _, if_neg hv, if_neg hc, ?_, ?_, ?_⟩
  · rw [hdiv, s3]; exact rnd_nearest _
  · rw [hdiv]; exact hbetween
  · intro v dv hall
    rw [hdiv]
    have := hbetween v v dv dv fun x hx => by rw [hall x hx]; exact ⟨le_refl _, le_refl _⟩
    exact le_antisymm this.2 this.1

/-- A tenth in binary64. -/
def tenth : ℚ := 3602879701896397 / 36028797018963968

set_option maxRecDepth 10000 in
theorem tenth_eq : rnd (1 / 10) = tenth := by decide +kernel

theorem perm_const {c : ℚ} {n : ℕ} {l : List ℚ} (h : l.Perm (List.replicate n c)) : l = List.replicate n c :=
  List.perm_replicate.1 h

/-- Three equal numbers, added in any order. -/
theorem three (t : Additions) (c : ℚ) (h : t.entries = [c, c, c]) :
    t.result = add (add c c) c ∨ t.result = add c (add c c) := by
  cases t with
  | entry x => simp [Additions.entries] at h
  | plus l r =>
    have two : ∀ s : Additions, s.entries = [c, c] → s.result = add c c := by
      intro s hs
      cases s with
      | entry x => simp [Additions.entries] at hs
      | plus a b =>
        cases a with
        | entry x =>
          cases b with
          | entry y =>
            simp only [Additions.entries, List.cons_append, List.nil_append, List.cons.injEq, and_true] at hs
            obtain ⟨rfl, rfl⟩ := hs
            rfl
          | plus b b' =>
            have h1 := List.length_pos_of_ne_nil (entries_ne_nil b)
            have h2 := List.length_pos_of_ne_nil (entries_ne_nil b')
            have := congrArg List.length hs
            simp only [Additions.entries, List.length_append, List.length_cons, List.length_nil] at this
            omega
        | plus a a' =>
          have h1 := List.length_pos_of_ne_nil (entries_ne_nil a)
          have h2 := List.length_pos_of_ne_nil (entries_ne_nil a')
          have h3 := List.length_pos_of_ne_nil (entries_ne_nil b)
          have := congrArg List.length hs
          simp only [Additions.entries, List.length_append, List.length_cons, List.length_nil] at this
          omega
    cases l with
    | entry x =>
      simp only [Additions.entries, List.cons_append, List.nil_append, List.cons.injEq] at h
      right
      simp only [Additions.result]
      rw [h.1, two r h.2]
    | plus a b =>
      left
      cases r with
      | entry y =>
        have e : (Additions.plus a b).entries ++ [y] = [c, c] ++ [c] := h
        have := List.append_inj' e rfl
        simp only [List.cons.injEq, and_true] at this
        change add (Additions.plus a b).result y = _
        rw [two _ this.1, this.2]
      | plus r r' =>
        have h1 := List.length_pos_of_ne_nil (entries_ne_nil a)
        have h2 := List.length_pos_of_ne_nil (entries_ne_nil b)
        have h3 := List.length_pos_of_ne_nil (entries_ne_nil r)
        have h4 := List.length_pos_of_ne_nil (entries_ne_nil r')
        have := congrArg List.length h
        simp only [Additions.entries, List.length_append, List.length_cons, List.length_nil] at this
        omega

/-- Three equal numbers, added by any procedure. -/
theorem total_three {total : List ℚ → ℚ} (ht : Sums total) (c : ℚ) : total [c, c, c] = add (add c c) c := by
  obtain ⟨t, hp, hr⟩ := ht [c, c, c] (by simp)
  have h := three t c (perm_const (n := 3) hp)
  rw [hr]
  rcases h with h | h
  · exact h
  · rw [h]; unfold add; rw [_root_.add_comm]

set_option maxRecDepth 10000 in
/-- **C155** fails: three curves with the same value, a tenth, have (in binary64) a mean which is larger than each of them, and a
variance which is not zero, in whatever order the sums are taken. -/
theorem C155_equal_values_counterexample (total : List ℚ → ℚ) (ht : Sums total) :
    NearestDouble (1 / 10) tenth ∧ ∃ m v : ℚ,
      nanmean total [some tenth, some tenth, some tenth] = some m ∧ tenth < m ∧
      nanvar total [some tenth, some tenth, some tenth] = some v ∧ 0 < v := by
  have hm : nanmean total [some tenth, some tenth, some tenth] = some (div (add (add tenth tenth) tenth) 3) := by
    unfold nanmean
    rw [if_neg (by decide)]
    simp only [List.map_cons, List.map_nil, Option.getD_some]
    rw [total_three ht]
    rfl
  refine ⟨tenth_eq ▸ rnd_nearest _, div (add (add tenth tenth) tenth) 3,
    let d := mul (sub tenth (div (add (add tenth tenth) tenth) 3)) (sub tenth (div (add (add tenth tenth) tenth) 3))
    div (add (add d d) d) 2, hm, by decide +kernel, ?_, by decide +kernel⟩
  unfold nanvar
  rw [if_neg (by decide), hm]
  simp only [List.map_cons, List.map_nil]
  rw [total_three ht, show ((Mat.numCount [some tenth, some tenth, some tenth] : ℕ) : ℚ) - 1 = 2 by decide +kernel]

/-- Adding from left to right. -/
def leftToRight : List ℚ → ℚ
  | [] => 0
  | x :: l => l.foldl add x

theorem sums_leftToRight : Sums leftToRight := by
  intro l hl
  cases l with
  | nil => exact absurd rfl hl
  | cons x l =>
    suffices ∀ (l : List ℚ) (t : Additions), ∃ t' : Additions, t'.entries.Perm (t.entries ++ l) ∧
        l.foldl add t.result = t'.result by
      simpa [Additions.entries, leftToRight, Additions.result] using this l (.entry x)
    intro l
    induction l with
    | nil => intro t; exact ⟨t, by simp, rfl⟩
    | cons y l ih =>
      intro t
      obtain ⟨t', h1, h2⟩ := ih (.plus t (.entry y))
      exact ⟨t', by simpa [Additions.entries] using h1, by simpa [Additions.result] using h2⟩

/-- Curves at 200, 210 and 221 m/s, one missing: the nearest number to 631/3. -/
example : ∃ m' : ℚ, nanmean leftToRight [some 200, none, some 210, some 221] = some m' ∧ NearestDouble (631 / 3) m' := by
  obtain ⟨m, m', h1, h2, h3, -⟩ := C155_few_digits_partial leftToRight sums_leftToRight
    [some 200, none, some 210, some 221] 0 (fun x => x.num) ⟨some 200, by simp, by simp⟩
    (by
      intro x hx
      simp only [List.mem_cons, Option.some.injEq, reduceCtorEq, false_or, List.not_mem_nil, or_false] at hx
      rcases hx with rfl | rfl | rfl <;> norm_num) rfl (by decide +kernel)
  have e : Mat.nanmean [some 200, none, some 210, some 221] = some (631 / 3) := by decide +kernel
  rw [e, Option.some.injEq] at h1
  exact ⟨m', h2, h1 ▸ h3⟩

end Verif.Props.B64
