import Verif.Model.Rounded
import Verif.Props.Float64
import Verif.Lemmas.Drop

/-!
# C134: decisions on fractions of a data matrix with the rounding of binary64
-/

namespace Verif.Props.B64
open Verif Verif.B64

/-- Fractions of small numbers keep their order when they are rounded. -/
theorem rnd_frac_lt {a c : ℤ} {b d : ℕ} (hb : 0 < b) (hd : 0 < d) (h : |a| * d + |c| * b < 2 ^ 53) :
    rnd ((a : ℚ) / b) < rnd ((c : ℚ) / d) ↔ (a : ℚ) / b < (c : ℚ) / d := by
  have hbq : (0 : ℚ) < b := by exact_mod_cast hb
  have hdq : (0 : ℚ) < d := by exact_mod_cast hd
  constructor
  · intro hlt
    by_contra hge
    exact absurd (rnd_mono (not_lt.1 hge)) (not_le.2 hlt)
  · intro hlt
    have e1 := rnd_error ((a : ℚ) / b)
    have e2 := rnd_error ((c : ℚ) / d)
    rw [abs_div, abs_of_pos hbq] at e1
    rw [abs_div, abs_of_pos hdq] at e2
    have hcross : a * d < c * b := by
      rw [div_lt_div_iff₀ hbq hdq] at hlt
      exact_mod_cast hlt
    have hone : (a : ℚ) * d + 1 ≤ c * b := by exact_mod_cast hcross
    have hq : (|a| : ℚ) * d + |(c : ℚ)| * b < 2 ^ 53 := by exact_mod_cast h
    -- everything times `b * d`
    have hbd : (0 : ℚ) < b * d := mul_pos hbq hdq
    have key : |(a : ℚ)| / b / 2 ^ 53 + |(c : ℚ)| / d / 2 ^ 53 < (c : ℚ) / d - (a : ℚ) / b := by
      have l : |(a : ℚ)| / b / 2 ^ 53 + |(c : ℚ)| / d / 2 ^ 53 = (|(a : ℚ)| * d + |(c : ℚ)| * b) / 2 ^ 53 / (b * d) := by
        field_simp
      have r : (c : ℚ) / d - (a : ℚ) / b = (c * b - a * d) / (b * d) := by field_simp
      rw [l, r]
      refine div_lt_div_of_pos_right ?_ hbd
      have h1 : (|(a : ℚ)| * d + |(c : ℚ)| * b) / 2 ^ 53 < 1 := by
        rw [div_lt_one (by norm_num)]; exact hq
      linarith
    have f1 := (abs_le.1 e1).2
    have f2 := (abs_le.1 e2).1
    linarith

theorem rnd_frac_le {a c : ℤ} {b d : ℕ} (hb : 0 < b) (hd : 0 < d) (h : |a| * d + |c| * b < 2 ^ 53) :
    rnd ((c : ℚ) / d) ≤ rnd ((a : ℚ) / b) ↔ (c : ℚ) / d ≤ (a : ℚ) / b := by
  rw [← not_lt, ← not_lt, rnd_frac_lt hb hd h]

/-! ## Dropping -/

theorem numCount_le (l : List (Option ℚ)) : Mat.numCount l ≤ l.length := List.countP_le_length

theorem dropIndices64_eq (rows : List (List (Option ℚ))) (c d count : ℕ) (hd : 0 < d)
    (h : ∀ r ∈ rows, r.length * (c + d) < 2 ^ 53) :
    B64.dropIndices rows (rnd ((c : ℚ) / d)) count = Mat.dropIndices rows ((c : ℚ) / d) count := by
  unfold B64.dropIndices Mat.dropIndices
  split_ifs with h0
  · rfl
  · refine congrArg _ (List.filter_congr fun p hp => ?_)
    have hmem : p.1 ∈ rows := by
      obtain ⟨x, i⟩ := p
      exact (List.mem_zipIdx' hp).2 ▸ List.getElem_mem _
    have hp1 := h p.1 hmem
    congr 1
    rcases Nat.eq_zero_or_pos p.1.length with hl | hl
    · -- an empty row: both quotients are zero
      rw [hl]
      simp only [Nat.cast_zero, B64.div, div_zero, rnd_zero]
      have hcd : (0 : ℚ) ≤ (c : ℚ) / d := by positivity
      have : (0 < rnd ((c : ℚ) / d)) ↔ (0 < (c : ℚ) / d) := by
        constructor
        · intro hr
          rcases eq_or_lt_of_le hcd with h1 | h1
          · rw [← h1, rnd_zero] at hr; exact absurd hr (lt_irrefl _)
          · exact h1
        · exact rnd_pos
      simp only [this]
    · have hn := numCount_le p.1
      have hb : |((Mat.numCount p.1 : ℕ) : ℤ)| * d + |((c : ℕ) : ℤ)| * p.1.length < 2 ^ 53 := by
        rw [abs_of_nonneg (by positivity), abs_of_nonneg (by positivity)]
        have : Mat.numCount p.1 * d + c * p.1.length < 2 ^ 53 := by
          have h1 : Mat.numCount p.1 * d ≤ p.1.length * d := Nat.mul_le_mul_right d hn
          have h2 : p.1.length * (c + d) = c * p.1.length + p.1.length * d := by ring
          omega
        exact_mod_cast this
      have := rnd_frac_lt (a := (Mat.numCount p.1 : ℕ)) (c := (c : ℕ)) hl hd hb
      simp only [Int.cast_natCast] at this
      simp only [B64.div, this]

theorem deleteAt_sublist {α : Type} (idx : List ℕ) (l : List α) : (Mat.deleteAt idx l).Sublist l := by
  unfold Mat.deleteAt
  have h1 : ((l.zipIdx.filter fun p => !idx.contains p.2).map fun p => p.1).Sublist (l.zipIdx.map fun p => p.1) :=
    List.filter_sublist.map _
  have h2 : (l.zipIdx.map fun p => p.1) = l := List.zipIdx_map_fst 0 l
  rw [h2] at h1
  exact h1

theorem deleteRows_size (idx : List ℕ) (m : Mat) : (m.deleteRows idx).nums ≤ m.nums ∧ (m.deleteRows idx).nans ≤ m.nans :=
  ⟨((deleteAt_sublist idx m.rows).map _).sum_le_sum (by simp), ((deleteAt_sublist idx m.rows).map _).sum_le_sum (by simp)⟩

theorem sum_map_le {α : Type} (f g : α → ℕ) (l : List α) (h : ∀ a ∈ l, f a ≤ g a) : (l.map f).sum ≤ (l.map g).sum := by
  induction l with
  | nil => simp
  | cons a l ih =>
    simp only [List.map_cons, List.sum_cons]
    exact Nat.add_le_add (h a List.mem_cons_self) (ih fun b hb => h b (List.mem_cons_of_mem _ hb))

theorem nan_sublist {l l' : List (Option ℚ)} (h : l.Sublist l') :
    l.length - Mat.numCount l ≤ l'.length - Mat.numCount l' := by
  have e : ∀ l : List (Option ℚ), l.length - Mat.numCount l = l.countP fun x => !x.isSome := by
    intro l
    have := List.length_eq_countP_add_countP (fun x : Option ℚ => x.isSome) (l := l)
    unfold Mat.numCount
    simp only [Bool.not_eq_true, Bool.decide_eq_false] at this
    omega
  rw [e, e]
  exact h.countP_le

theorem deleteCols_size (idx : List ℕ) (m : Mat) : (m.deleteCols idx).nums ≤ m.nums ∧ (m.deleteCols idx).nans ≤ m.nans := by
  constructor
  · show ((m.rows.map (Mat.deleteAt idx)).map Mat.numCount).sum ≤ _
    rw [List.map_map]
    exact sum_map_le _ _ _ fun r _ => (deleteAt_sublist idx r).countP_le
  · show ((m.rows.map (Mat.deleteAt idx)).map fun r => r.length - Mat.numCount r).sum ≤ _
    rw [List.map_map]
    exact sum_map_le _ _ _ fun r _ => nan_sublist (deleteAt_sublist idx r)

theorem size_le (m : Mat) (h : m.Wf) : m.nums ≤ m.rows.length * m.ncols ∧ m.nans ≤ m.rows.length * m.ncols := by
  have hb : ∀ f : List (Option ℚ) → ℕ, (∀ r ∈ m.rows, f r ≤ m.ncols) → (m.rows.map f).sum ≤ m.rows.length * m.ncols := by
    intro f hf
    refine le_trans (sum_map_le f (fun _ => m.ncols) m.rows hf) ?_
    simp
  exact ⟨hb _ fun r hr => by have := numCount_le r; rw [h r hr] at this; exact this,
    hb _ fun r hr => by have := h r hr; show r.length - Mat.numCount r ≤ _; omega⟩

theorem utility64_lt {m r s : Mat} (h : m.Wf) (hsz : 2 * ((m.rows.length * m.ncols + 1) * (m.rows.length * m.ncols)) < 2 ^ 53)
    (hr : r.nums ≤ m.nums ∧ r.nans ≤ m.nans) (hs : s.nums ≤ m.nums ∧ s.nans ≤ m.nans) :
    B64.utility m r > B64.utility m s ↔ Mat.utility m r > Mat.utility m s := by
  obtain ⟨h1, h2⟩ := size_le m h
  set S := m.rows.length * m.ncols with hS
  have e : ∀ t : Mat, t.nums ≤ m.nums ∧ t.nans ≤ m.nans →
      B64.utility m t = rnd (((m.nans - t.nans : ℕ) : ℤ) / ((m.nums - t.nums + 1 : ℕ) : ℚ)) ∧
      Mat.utility m t = ((m.nans - t.nans : ℕ) : ℤ) / ((m.nums - t.nums + 1 : ℕ) : ℚ) := by
    intro t ht
    have a1 : ((m.nans : ℤ) - t.nans : ℤ) = ((m.nans - t.nans : ℕ) : ℤ) := by omega
    have a2 : ((m.nums : ℤ) - t.nums + 1 : ℤ) = ((m.nums - t.nums + 1 : ℕ) : ℤ) := by omega
    constructor
    · unfold B64.utility B64.div
      rw [a1, a2]
      simp only [Int.cast_natCast]
    · unfold Mat.utility
      have b1 : (m.nans : ℚ) - t.nans = (((m.nans : ℤ) - t.nans : ℤ) : ℚ) := by push_cast; rfl
      have b2 : (m.nums : ℚ) - t.nums + 1 = (((m.nums : ℤ) - t.nums + 1 : ℤ) : ℚ) := by push_cast; rfl
      rw [b1, b2, a1, a2]
      simp only [Int.cast_natCast]
  obtain ⟨r1, r2⟩ := e r hr
  obtain ⟨s1, s2⟩ := e s hs
  rw [r1, r2, s1, s2]
  refine rnd_frac_lt (Nat.succ_pos _) (Nat.succ_pos _) ?_
  rw [abs_of_nonneg (by positivity), abs_of_nonneg (by positivity)]
  have hb : ∀ t u : Mat, (m.nans - t.nans) * (m.nums - u.nums + 1) ≤ S * (S + 1) := fun t u =>
    Nat.mul_le_mul (by omega) (by omega)
  have := hb r s
  have := hb s r
  have : (m.nans - s.nans) * (m.nums - r.nums + 1) + (m.nans - r.nans) * (m.nums - s.nums + 1) < 2 ^ 53 := by
    have e : (S + 1) * S = S * (S + 1) := Nat.mul_comm _ _
    omega
  exact_mod_cast this

theorem deleteAt_length_le {α : Type} (idx : List ℕ) (l : List α) : (Mat.deleteAt idx l).length ≤ l.length :=
  (deleteAt_sublist idx l).length_le

theorem cols_length {m : Mat} : ∀ c ∈ m.cols, c.length = m.rows.length := by
  intro c hc
  obtain ⟨i, _, rfl⟩ := List.mem_map.1 hc
  simp

/-- **C134** (incomplete data).  With the fractions `c1/d1` and `c2/d2` given and compared as binary64 numbers, `_drop`
removes the same samples and observations as with exact numbers, for every data matrix which is not astronomically
large. -/
theorem C134_drop_binary64 (c1 d1 c2 d2 count : ℕ) (xx : List ℚ) (m : Mat) (h : m.Wf) (hd1 : 0 < d1) (hd2 : 0 < d2)
    (h1 : m.ncols * (c1 + d1) < 2 ^ 53) (h2 : m.rows.length * (c2 + d2) < 2 ^ 53)
    (hsz : 2 * ((m.rows.length * m.ncols + 1) * (m.rows.length * m.ncols)) < 2 ^ 53) :
    B64.drop ⟨rnd ((c1 : ℚ) / d1), rnd ((c2 : ℚ) / d2), count⟩ xx m =
      Mat.drop ⟨(c1 : ℚ) / d1, (c2 : ℚ) / d2, count⟩ xx m := by
  have o1 : B64.option1 ⟨rnd ((c1 : ℚ) / d1), rnd ((c2 : ℚ) / d2), count⟩ xx m =
      Mat.option1 ⟨(c1 : ℚ) / d1, (c2 : ℚ) / d2, count⟩ xx m := by
    unfold B64.option1 Mat.option1
    simp only
    rw [dropIndices64_eq m.cols c2 d2 count hd2 (fun r hr => by rw [cols_length r hr]; exact h2)]
    rw [dropIndices64_eq _ c1 d1 0 hd1]
    intro r hr
    obtain ⟨q, hq, rfl⟩ := List.mem_map.1 hr
    have := deleteAt_length_le (Mat.dropIndices m.cols ((c2 : ℚ) / d2) count) q
    rw [h q hq] at this
    exact lt_of_le_of_lt (Nat.mul_le_mul_right _ this) h1
  have o2 : B64.option2 ⟨rnd ((c1 : ℚ) / d1), rnd ((c2 : ℚ) / d2), count⟩ xx m =
      Mat.option2 ⟨(c1 : ℚ) / d1, (c2 : ℚ) / d2, count⟩ xx m := by
    unfold B64.option2 Mat.option2
    simp only
    rw [dropIndices64_eq m.rows c1 d1 0 hd1 (fun r hr => by rw [h r hr]; exact h1)]
    rw [dropIndices64_eq _ c2 d2 count hd2]
    intro r hr
    rw [cols_length r hr]
    have := deleteAt_length_le (Mat.dropIndices m.rows ((c1 : ℚ) / d1) 0) m.rows
    exact lt_of_le_of_lt (Nat.mul_le_mul_right _ this) h2
  unfold B64.drop Mat.drop
  simp only [o1, o2]
  have key := utility64_lt (r := (Mat.option1 ⟨(c1 : ℚ) / d1, (c2 : ℚ) / d2, count⟩ xx m).2)
    (s := (Mat.option2 ⟨(c1 : ℚ) / d1, (c2 : ℚ) / d2, count⟩ xx m).2) h hsz
    (by
      have a := deleteRows_size (Mat.dropIndices (m.deleteCols (Mat.dropIndices m.cols ((c2 : ℚ) / d2) count)).rows
        ((c1 : ℚ) / d1) 0) (m.deleteCols (Mat.dropIndices m.cols ((c2 : ℚ) / d2) count))
      have b := deleteCols_size (Mat.dropIndices m.cols ((c2 : ℚ) / d2) count) m
      exact ⟨le_trans a.1 b.1, le_trans a.2 b.2⟩)
    (by
      have a := deleteCols_size (Mat.dropIndices (m.deleteRows (Mat.dropIndices m.rows ((c1 : ℚ) / d1) 0)).cols
        ((c2 : ℚ) / d2) count) (m.deleteRows (Mat.dropIndices m.rows ((c1 : ℚ) / d1) 0))
      have b := deleteRows_size (Mat.dropIndices m.rows ((c1 : ℚ) / d1) 0) m
      exact ⟨le_trans a.1 b.1, le_trans a.2 b.2⟩)
  by_cases hc : Mat.utility m (Mat.option1 ⟨(c1 : ℚ) / d1, (c2 : ℚ) / d2, count⟩ xx m).2 >
      Mat.utility m (Mat.option2 ⟨(c1 : ℚ) / d1, (c2 : ℚ) / d2, count⟩ xx m).2
  · rw [if_pos hc, if_pos (key.2 hc)]
  · rw [if_neg hc, if_neg (fun hk => hc (key.1 hk))]

/-- C134 with the fractions 0.3 and 0.6 on a matrix of three observations: the last one is dropped, being complete at
one sample of four only. -/
example : B64.drop ⟨rnd ((3 : ℕ) / (10 : ℕ)), rnd ((6 : ℕ) / (10 : ℕ)), 0⟩ [1, 2, 3, 4]
      ⟨4, [[some 1, some 2, some 3, some 4], [some 1, none, some 3, some 4], [none, none, none, some 1]]⟩ =
    Mat.drop ⟨(3 : ℕ) / (10 : ℕ), (6 : ℕ) / (10 : ℕ), 0⟩ [1, 2, 3, 4]
      ⟨4, [[some 1, some 2, some 3, some 4], [some 1, none, some 3, some 4], [none, none, none, some 1]]⟩ :=
  C134_drop_binary64 3 10 6 10 0 _ _ (by intro r hr; simp at hr; aesop) (by decide) (by decide) (by decide)
    (by decide) (by decide)

/-! ## Regions -/

theorem growRow64_eq {m : Mat} (h : m.Wf) {c d sCol : ℕ} {g : Mat.Grow} (hd : 0 < d) (hg : g.nVals ≤ g.total)
    (hsz : (g.total + m.ncols) * (c + d) < 2 ^ 53) (ht : 0 < g.total) :
    B64.growRow m (rnd ((c : ℚ) / d)) sCol g = Mat.growRow m ((c : ℚ) / d) sCol g ∧
    (Mat.growRow m ((c : ℚ) / d) sCol g).1.nVals ≤ (Mat.growRow m ((c : ℚ) / d) sCol g).1.total ∧
    g.total ≤ (Mat.growRow m ((c : ℚ) / d) sCol g).1.total ∧
    (Mat.growRow m ((c : ℚ) / d) sCol g).1.total ≤ g.total + m.ncols := by
  unfold B64.growRow Mat.growRow
  split_ifs with h0
  · have hlen : (m.rowPart (g.cRow + 1) sCol (g.cCol + 1)).length ≤ m.ncols := by
      unfold Mat.rowPart
      have : (m.rows.getD (g.cRow + 1) []).length ≤ m.ncols := by
        rw [List.getD_eq_getElem?_getD, List.getElem?_eq_getElem h0, Option.getD_some]
        exact le_of_eq (h _ (List.getElem_mem h0))
      rw [List.length_take, List.length_drop]
      omega
    generalize (m.rowPart (g.cRow + 1) sCol (g.cCol + 1)) = row at hlen
    have hn := numCount_le row
    have hb : |((g.nVals + Mat.numCount row : ℕ) : ℤ)| * d + |((c : ℕ) : ℤ)| * (g.total + row.length : ℕ) < 2 ^ 53 := by
      rw [abs_of_nonneg (by positivity), abs_of_nonneg (by positivity)]
      have : (g.nVals + Mat.numCount row) * d + c * (g.total + row.length) < 2 ^ 53 := by
        have h1 : (g.nVals + Mat.numCount row) * d ≤ (g.total + m.ncols) * d := Nat.mul_le_mul_right d (by omega)
        have h2 : c * (g.total + row.length) ≤ c * (g.total + m.ncols) := Nat.mul_le_mul_left c (by omega)
        have h3 : (g.total + m.ncols) * (c + d) = c * (g.total + m.ncols) + (g.total + m.ncols) * d := by ring
        omega
      exact_mod_cast this
    have key := rnd_frac_le (a := (g.nVals + Mat.numCount row : ℕ)) (c := (c : ℕ)) (b := g.total + row.length)
      (by omega) hd hb
    rw [Int.cast_natCast, Int.cast_natCast] at key
    replace key : rnd ((c : ℚ) / d) ≤ B64.div ((g.nVals + Mat.numCount row : ℕ) : ℚ) ((g.total + row.length : ℕ) : ℚ) ↔
        (c : ℚ) / d ≤ ((g.nVals + Mat.numCount row : ℕ) : ℚ) / ((g.total + row.length : ℕ) : ℚ) := key
    simp only
    by_cases hc : (c : ℚ) / d ≤ ((g.nVals + Mat.numCount row : ℕ) : ℚ) / ((g.total + row.length : ℕ) : ℚ)
    · rw [if_pos hc, if_pos (key.2 hc)]
      exact ⟨rfl, by simp only; omega, by simp only; omega, by simp only; omega⟩
    · rw [if_neg hc, if_neg (fun hk => hc (key.1 hk))]
      exact ⟨rfl, hg, le_rfl, Nat.le_add_right _ _⟩
  · exact ⟨rfl, hg, le_rfl, Nat.le_add_right _ _⟩

theorem growCol64_eq {m : Mat} {c d sRow : ℕ} {g : Mat.Grow} (hd : 0 < d) (hg : g.nVals ≤ g.total)
    (hsz : (g.total + m.rows.length) * (c + d) < 2 ^ 53) (ht : 0 < g.total) :
    B64.growCol m (rnd ((c : ℚ) / d)) sRow g = Mat.growCol m ((c : ℚ) / d) sRow g ∧
    (Mat.growCol m ((c : ℚ) / d) sRow g).1.nVals ≤ (Mat.growCol m ((c : ℚ) / d) sRow g).1.total ∧
    g.total ≤ (Mat.growCol m ((c : ℚ) / d) sRow g).1.total ∧
    (Mat.growCol m ((c : ℚ) / d) sRow g).1.total ≤ g.total + m.rows.length := by
  unfold B64.growCol Mat.growCol
  split_ifs with h0
  · have hlen : (m.colPart (g.cCol + 1) sRow (g.cRow + 1)).length ≤ m.rows.length := by
      unfold Mat.colPart
      rw [List.length_map, List.length_take, List.length_drop]
      omega
    generalize (m.colPart (g.cCol + 1) sRow (g.cRow + 1)) = row at hlen
    have hn := numCount_le row
    have hb : |((g.nVals + Mat.numCount row : ℕ) : ℤ)| * d + |((c : ℕ) : ℤ)| * (g.total + row.length : ℕ) < 2 ^ 53 := by
      rw [abs_of_nonneg (by positivity), abs_of_nonneg (by positivity)]
      have : (g.nVals + Mat.numCount row) * d + c * (g.total + row.length) < 2 ^ 53 := by
        have h1 : (g.nVals + Mat.numCount row) * d ≤ (g.total + m.rows.length) * d := Nat.mul_le_mul_right d (by omega)
        have h2 : c * (g.total + row.length) ≤ c * (g.total + m.rows.length) := Nat.mul_le_mul_left c (by omega)
        have h3 : (g.total + m.rows.length) * (c + d) = c * (g.total + m.rows.length) + (g.total + m.rows.length) * d := by
          ring
        omega
      exact_mod_cast this
    have key := rnd_frac_le (a := (g.nVals + Mat.numCount row : ℕ)) (c := (c : ℕ)) (b := g.total + row.length)
      (by omega) hd hb
    rw [Int.cast_natCast, Int.cast_natCast] at key
    replace key : rnd ((c : ℚ) / d) ≤ B64.div ((g.nVals + Mat.numCount row : ℕ) : ℚ) ((g.total + row.length : ℕ) : ℚ) ↔
        (c : ℚ) / d ≤ ((g.nVals + Mat.numCount row : ℕ) : ℚ) / ((g.total + row.length : ℕ) : ℚ) := key
    simp only
    by_cases hc : (c : ℚ) / d ≤ ((g.nVals + Mat.numCount row : ℕ) : ℚ) / ((g.total + row.length : ℕ) : ℚ)
    · rw [if_pos hc, if_pos (key.2 hc)]
      exact ⟨rfl, by simp only; omega, by simp only; omega, by simp only; omega⟩
    · rw [if_neg hc, if_neg (fun hk => hc (key.1 hk))]
      exact ⟨rfl, hg, le_rfl, Nat.le_add_right _ _⟩
  · exact ⟨rfl, hg, le_rfl, Nat.le_add_right _ _⟩

theorem grow64_eq {m : Mat} (h : m.Wf) {c d sRow sCol : ℕ} (hd : 0 < d) : ∀ (n : ℕ) (g : Mat.Grow),
    g.nVals ≤ g.total → 0 < g.total → (g.total + n * (m.rows.length + m.ncols)) * (c + d) < 2 ^ 53 →
    B64.grow m (rnd ((c : ℚ) / d)) sRow sCol n g = Mat.grow m ((c : ℚ) / d) sRow sCol n g
  | 0, _, _, _, _ => rfl
  | n + 1, g, hg, ht, hsz => by
    have e : (n + 1) * (m.rows.length + m.ncols) = n * (m.rows.length + m.ncols) + m.rows.length + m.ncols := by ring
    rw [e] at hsz
    obtain ⟨a1, a2, a3, a4⟩ := growRow64_eq (sCol := sCol) (c := c) h hd hg
      (lt_of_le_of_lt (Nat.mul_le_mul_right _ (by omega)) hsz) ht
    obtain ⟨b1, b2, b3, b4⟩ := growCol64_eq (m := m) (sRow := sRow) (c := c) hd a2
      (lt_of_le_of_lt (Nat.mul_le_mul_right _ (by omega)) hsz) (by omega)
    unfold B64.grow Mat.grow
    simp only
    rw [a1, b1]
    split_ifs with h0
    · rfl
    · exact grow64_eq h hd n _ b2 (by omega) (lt_of_le_of_lt (Nat.mul_le_mul_right _ (by omega)) hsz)

/-- **C134** (regions).  With the density threshold `c/d` given and compared as a binary64 number, the same regions are
identified as with exact numbers, for every data matrix which is not astronomically large. -/
theorem C134_regions_binary64 (m : Mat) (h : m.Wf) (c d : ℕ) (hd : 0 < d)
    (hsz : (1 + (m.rows.length + m.ncols) * (m.rows.length + m.ncols)) * (c + d) < 2 ^ 53) :
    B64.identifyRegions m (rnd ((c : ℚ) / d)) = m.identifyRegions ((c : ℚ) / d) := by
  have key : ∀ n sRow sCol, B64.regionsFrom m (rnd ((c : ℚ) / d)) n sRow sCol =
      Mat.regionsFrom m ((c : ℚ) / d) n sRow sCol := by
    intro n
    induction n with
    | zero => intro sRow sCol; rfl
    | succ n ih =>
      intro sRow sCol
      have hle : (m.rows.length - sRow + (m.ncols - sCol)) * (m.rows.length + m.ncols) ≤
          (m.rows.length + m.ncols) * (m.rows.length + m.ncols) := Nat.mul_le_mul_right _ (by omega)
      have := grow64_eq h (sRow := sRow) (sCol := sCol) (c := c) hd (m.rows.length - sRow + (m.ncols - sCol))
        ⟨sRow, sCol, 1, 1⟩ le_rfl one_pos (lt_of_le_of_lt (Nat.mul_le_mul_right _ (by simp only; omega)) hsz)
      unfold B64.regionsFrom Mat.regionsFrom
      rw [this]
      simp only [ih]
      rfl
  exact key 100 0 0

/-- C134 with the threshold 0.9 on a matrix with one gap. -/
example : B64.identifyRegions ⟨3, [[some 1, some 2, none], [some 1, some 3, some 4]]⟩ (rnd ((9 : ℕ) / (10 : ℕ))) =
    Mat.identifyRegions ⟨3, [[some 1, some 2, none], [some 1, some 3, some 4]]⟩ ((9 : ℕ) / (10 : ℕ)) :=
  C134_regions_binary64 _ (by intro r hr; simp at hr; aesop) 9 10 (by decide) (by decide)

end Verif.Props.B64
