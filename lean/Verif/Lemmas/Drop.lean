import Verif.Model.Regions
import Verif.Spec.Stats
import Mathlib.Tactic.Linarith
import Mathlib.Tactic.Ring
import Mathlib.Data.List.GetD

/-! # Lemmas about dropping rows and columns -/

namespace Verif
namespace Mat

/-- Sub-matrix of the given rows and columns. -/
def sub (e : ℕ → ℕ → Option ℚ) (R C : List ℕ) : Mat := ⟨C.length, R.map fun r => C.map fun c => e r c⟩

theorem numCount_map (f : ℕ → Option ℚ) (C : List ℕ) : numCount (C.map f) = Spec.present f C := by
  simp [numCount, Spec.present, List.countP_eq_length_filter, List.filter_map, Function.comp_def]

theorem cols_sub (e : ℕ → ℕ → Option ℚ) (R C : List ℕ) : (sub e R C).cols = C.map fun c => R.map fun r => e r c := by
  apply List.ext_getElem
  · simp [cols, sub]
  · intro i h1 h2
    simp only [cols, sub, List.getElem_map, List.getElem_range, List.map_map, Function.comp_def]
    simp only [List.length_map] at h2
    simp [List.getD_eq_getElem?_getD, h2]

theorem deleteAt_filter {α β : Type} (idx : List ℕ) (P : α → Bool) (g : α → β) (R : List α) (k : ℕ)
    (h : ∀ (i : ℕ) (hi : i < R.length), idx.contains (k + i) = !P R[i]) :
    (((R.map g).zipIdx k).filter fun p => !idx.contains p.2).map (fun p => p.1) = (R.filter P).map g := by
  induction R generalizing k with
  | nil => simp
  | cons a R ih =>
    have h0 := h 0 (by simp)
    simp only [Nat.add_zero, List.getElem_cons_zero] at h0
    have ih := ih (k + 1) (by
      intro i hi
      have := h (i + 1) (by simpa using hi)
      simpa [Nat.add_assoc, Nat.add_comm 1 i] using this)
    simp only [List.map_cons, List.zipIdx_cons]
    rw [List.filter_cons, List.filter_cons]
    simp only [h0]
    cases hP : P a
    · simpa using ih
    · simpa using ih

theorem mem_dropIndices_aux (rows : List (List (Option ℚ))) (bad : List (Option ℚ) → Bool) (i : ℕ)
    (hi : i < rows.length) :
    (((rows.zipIdx.filter fun p => bad p.1).map fun p => p.2).contains i) = bad rows[i] := by
  rw [Bool.eq_iff_iff, List.contains_iff_mem, List.mem_map]
  constructor
  · rintro ⟨⟨r, j⟩, h1, rfl⟩
    rw [List.mem_filter] at h1
    have := List.mem_zipIdx h1.1
    simp only [Nat.zero_add, Nat.sub_zero] at this
    rw [← this.2.2]
    exact h1.2
  · intro h
    refine ⟨(rows[i], i), ?_, rfl⟩
    rw [List.mem_filter]
    refine ⟨?_, h⟩
    rw [List.mem_zipIdx_iff_getElem?]
    simp [hi]

theorem deleteAt_nil {α : Type} (l : List α) : deleteAt [] l = l := by
  simp [deleteAt]

theorem deleteAt_dropIndices {β : Type} (e : ℕ → ℕ → Option ℚ) (percent : ℚ) (count : ℕ) (R C : List ℕ) (g : ℕ → β) :
    deleteAt (dropIndices (R.map fun r => C.map fun c => e r c) percent count) (R.map g) =
      (Spec.keepRows e percent count R C).map g := by
  unfold dropIndices Spec.keepRows
  by_cases hRC : R = [] ∨ C = []
  · rw [if_pos hRC, if_pos, deleteAt_nil]
    rcases hRC with h | h
    · left; simp [h]
    · right; cases R <;> simp [h]
  · rw [if_neg hRC]
    rw [not_or] at hRC
    rw [if_neg (by
      rw [not_or]
      refine ⟨by simpa using hRC.1, ?_⟩
      cases R with
      | nil => exact absurd rfl hRC.1
      | cons a R => simpa using hRC.2)]
    unfold deleteAt
    rw [deleteAt_filter _ (fun r => decide (Spec.Enough percent count (fun c => e r c) C))]
    intro i hi
    rw [Nat.zero_add, mem_dropIndices_aux _ (fun row => decide (numCount row < count) ||
      decide ((numCount row : ℚ) / row.length < percent)) i (by simpa using hi)]
    simp only [List.getElem_map, numCount_map, List.length_map]
    rw [Bool.eq_iff_iff]
    rw [Bool.not_eq_true', decide_eq_false_iff_not, Spec.Enough, not_and_or, not_le, not_le]
    simp only [Bool.or_eq_true, decide_eq_true_eq]

theorem length_deleteAt {α β : Type} (idx : List ℕ) (l : List α) (l' : List β) (h : l.length = l'.length) :
    (deleteAt idx l).length = (deleteAt idx l').length := by
  unfold deleteAt
  simp only [List.length_map]
  generalize (0 : ℕ) = k
  induction l generalizing l' k with
  | nil => cases l' <;> simp at h ⊢
  | cons a l ih =>
    cases l' with
    | nil => simp at h
    | cons b l' =>
      have := ih l' (by simpa using h) (k + 1)
      simp only [List.zipIdx_cons, List.filter_cons]
      cases idx.contains k <;> simpa using this

theorem deleteRows_sub (e : ℕ → ℕ → Option ℚ) (percent : ℚ) (count : ℕ) (R C : List ℕ) :
    (sub e R C).deleteRows (dropIndices (sub e R C).rows percent count) =
      sub e (Spec.keepRows e percent count R C) C := by
  simp only [deleteRows, sub, deleteAt_dropIndices]

theorem deleteCols_sub (e : ℕ → ℕ → Option ℚ) (percent : ℚ) (count : ℕ) (R C : List ℕ) :
    (sub e R C).deleteCols (dropIndices (sub e R C).cols percent count) =
      sub e R (Spec.keepCols e percent count R C) := by
  rw [cols_sub]
  have key := fun {β : Type} (g : ℕ → β) => deleteAt_dropIndices (fun c r => e r c) percent count C R g
  simp only [deleteCols, sub, Mat.mk.injEq]
  constructor
  · rw [length_deleteAt _ (List.range C.length) (C.map id) (by simp), key id]
    simp [Spec.keepCols]
  · rw [List.map_map]
    apply List.map_congr_left
    intro r _
    simp only [Function.comp_def]
    exact key fun c => e r c

/-- A matrix all of whose rows have one entry per column. -/
def Wf (m : Mat) : Prop := ∀ r ∈ m.rows, r.length = m.ncols

theorem list_eq_map_range {α : Type} (l : List α) (d : α) (n : ℕ) (h : l.length = n) :
    l = (List.range n).map fun i => l.getD i d := by
  apply List.ext_getElem
  · simp [h]
  · intro i h1 h2
    simp [List.getD_eq_getElem?_getD, h1]

theorem eq_sub (m : Mat) (h : m.Wf) :
    m = sub (entry m.rows) (List.range m.rows.length) (List.range m.ncols) := by
  cases m with
  | mk nc rows =>
    simp only [sub, List.length_range, Mat.mk.injEq, true_and]
    refine (list_eq_map_range rows [] rows.length rfl).trans ?_
    apply List.map_congr_left
    intro r hr
    simp only [List.mem_range] at hr
    simp only [entry]
    apply list_eq_map_range
    apply h
    simp [List.getD_eq_getElem?_getD, hr]

theorem nums_sub (e : ℕ → ℕ → Option ℚ) (R C : List ℕ) : (sub e R C).nums = Spec.values e R C := by
  simp [nums, sub, Spec.values, Function.comp_def, numCount_map]

theorem nans_sub (e : ℕ → ℕ → Option ℚ) (R C : List ℕ) :
    ((sub e R C).nans : ℚ) = ((R.length * C.length : ℕ) : ℚ) - Spec.values e R C := by
  simp only [nans, sub, Spec.values, List.map_map, Function.comp_def, numCount_map, List.length_map]
  induction R with
  | nil => simp
  | cons r R ih =>
    simp only [List.map_cons, List.sum_cons, List.length_cons, Nat.cast_add] at ih ⊢
    rw [ih]
    have : Spec.present (fun c => e r c) C ≤ C.length := List.length_filter_le _ _
    push_cast [Nat.cast_sub this]
    ring

theorem utility_sub (e : ℕ → ℕ → Option ℚ) (nr nc : ℕ) (R C : List ℕ) :
    utility (sub e (List.range nr) (List.range nc)) (sub e R C) = Spec.benefit e nr nc R C := by
  simp only [utility, nans_sub, nums_sub, Spec.benefit, List.length_range]

theorem keepRows_sublist (e : ℕ → ℕ → Option ℚ) (percent : ℚ) (count : ℕ) (R C : List ℕ) :
    (Spec.keepRows e percent count R C).Sublist R := by
  unfold Spec.keepRows
  split_ifs
  · exact List.Sublist.refl _
  · exact List.filter_sublist

theorem option1_sub (a : DropArgs) (e : ℕ → ℕ → Option ℚ) (R C : List ℕ) (x : ℕ → ℚ) :
    option1 a (C.map x) (sub e R C) =
      ((Spec.keepCols e a.samplePercent a.sampleCount R C).map x,
        sub e (Spec.keepRows e a.obsPercent 0 R (Spec.keepCols e a.samplePercent a.sampleCount R C))
          (Spec.keepCols e a.samplePercent a.sampleCount R C)) := by
  simp only [option1, deleteCols_sub, deleteRows_sub]
  rw [cols_sub, deleteAt_dropIndices (fun c r => e r c)]
  rfl

theorem option2_sub (a : DropArgs) (e : ℕ → ℕ → Option ℚ) (R C : List ℕ) (x : ℕ → ℚ) :
    option2 a (C.map x) (sub e R C) =
      ((Spec.keepCols e a.samplePercent a.sampleCount (Spec.keepRows e a.obsPercent 0 R C) C).map x,
        sub e (Spec.keepRows e a.obsPercent 0 R C)
          (Spec.keepCols e a.samplePercent a.sampleCount (Spec.keepRows e a.obsPercent 0 R C) C)) := by
  simp only [option2, deleteRows_sub, deleteCols_sub]
  rw [cols_sub, deleteAt_dropIndices (fun c r => e r c)]
  rfl

/-- The drop procedure in terms of kept rows and columns. -/
theorem drop_eq (a : DropArgs) (xx : List ℚ) (m : Mat) (h : m.Wf) (hx : xx.length = m.ncols) :
    let e := entry m.rows
    let R0 := List.range m.rows.length
    let C0 := List.range m.ncols
    let C1 := Spec.keepCols e a.samplePercent a.sampleCount R0 C0
    let R1 := Spec.keepRows e a.obsPercent 0 R0 C1
    let R2 := Spec.keepRows e a.obsPercent 0 R0 C0
    let C2 := Spec.keepCols e a.samplePercent a.sampleCount R2 C0
    drop a xx m =
      if Spec.benefit e m.rows.length m.ncols R1 C1 > Spec.benefit e m.rows.length m.ncols R2 C2 then
        (C1.map fun c => xx.getD c 0, sub e R1 C1)
      else (C2.map fun c => xx.getD c 0, sub e R2 C2) := by
  intro e R0 C0 C1 R1 R2 C2
  have hm : m = sub e R0 C0 := eq_sub m h
  have hxx : xx = C0.map fun c => xx.getD c 0 := list_eq_map_range xx 0 m.ncols hx
  have o1 : option1 a xx m = (C1.map fun c => xx.getD c 0, sub e R1 C1) := by
    have := option1_sub a e R0 C0 fun c => xx.getD c 0
    rwa [← hm, ← hxx] at this
  have o2 : option2 a xx m = (C2.map fun c => xx.getD c 0, sub e R2 C2) := by
    have := option2_sub a e R0 C0 fun c => xx.getD c 0
    rwa [← hm, ← hxx] at this
  have u : ∀ R C, utility m (sub e R C) = Spec.benefit e m.rows.length m.ncols R C := by
    intro R C
    have := utility_sub e m.rows.length m.ncols R C
    rwa [← hm] at this
  simp only [drop, o1, o2, u]

end Mat
end Verif
