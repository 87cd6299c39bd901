import Verif.Model.Stats
import Verif.Spec.Stats
import Mathlib.Tactic.Linarith
import Mathlib.Tactic.FieldSimp
import Mathlib.Tactic.Ring

/-! # Lemmas about interpolation -/

namespace Verif
namespace Mat

theorem insertPoint_perm (p : ℚ × ℚ) (l : List (ℚ × ℚ)) : (insertPoint p l).Perm (p :: l) := by
  induction l with
  | nil => simp [insertPoint]
  | cons q qs ih =>
    simp only [insertPoint]
    split_ifs
    · exact List.Perm.refl _
    · exact (List.Perm.cons q ih).trans (List.Perm.swap p q qs)

theorem sortPoints_aux (ps l : List (ℚ × ℚ)) : (ps.foldl (fun l p => insertPoint p l) l).Perm (ps ++ l) := by
  induction ps generalizing l with
  | nil => simp
  | cons p ps ih =>
    simp only [List.foldl_cons]
    refine (ih _).trans ?_
    refine (List.Perm.append_left ps (insertPoint_perm p l)).trans ?_
    simp

theorem sortPoints_perm (ps : List (ℚ × ℚ)) : (sortPoints ps).Perm ps := by
  simpa [sortPoints] using sortPoints_aux ps []

theorem insertPoint_sorted (p : ℚ × ℚ) (l : List (ℚ × ℚ)) (h : l.Pairwise (fun a b => a.1 ≤ b.1)) :
    (insertPoint p l).Pairwise (fun a b => a.1 ≤ b.1) := by
  induction l with
  | nil => simp [insertPoint]
  | cons q qs ih =>
    simp only [insertPoint]
    rw [List.pairwise_cons] at h
    split_ifs with hlt
    · refine List.pairwise_cons.2 ⟨?_, List.pairwise_cons.2 h⟩
      intro a ha
      rcases List.mem_cons.1 ha with rfl | ha
      · exact hlt.le
      · exact hlt.le.trans (h.1 a ha)
    · refine List.pairwise_cons.2 ⟨?_, ih h.2⟩
      intro a ha
      rcases List.mem_cons.1 ((insertPoint_perm p qs).mem_iff.1 ha) with rfl | ha
      · exact not_lt.1 hlt
      · exact h.1 a ha

theorem sortPoints_sorted_aux (ps l : List (ℚ × ℚ)) (h : l.Pairwise (fun a b => a.1 ≤ b.1)) :
    (ps.foldl (fun l p => insertPoint p l) l).Pairwise (fun a b => a.1 ≤ b.1) := by
  induction ps generalizing l with
  | nil => simpa
  | cons p ps ih => exact ih _ (insertPoint_sorted p l h)

theorem sortPoints_sorted (ps : List (ℚ × ℚ)) : (sortPoints ps).Pairwise (fun a b => a.1 ≤ b.1) :=
  sortPoints_sorted_aux ps [] List.Pairwise.nil

theorem sortPoints_strict (ps : List (ℚ × ℚ)) (h : (ps.map fun p => p.1).Nodup) :
    (sortPoints ps).Pairwise (fun a b => a.1 < b.1) := by
  have h1 := sortPoints_sorted ps
  have h2 : ((sortPoints ps).map fun p => p.1).Nodup := ((sortPoints_perm ps).map _).nodup_iff.2 h
  rw [List.Nodup, List.pairwise_map] at h2
  exact (List.Pairwise.and h1 h2).imp fun h => lt_of_le_of_ne h.1 h.2

/-- A point on the segment between two points. -/
theorem segment_bounds (x0 y0 x1 y1 x : ℚ) (h0 : x0 ≤ x) (h1 : x < x1) :
    let y := y0 + (y1 - y0) / (x1 - x0) * (x - x0)
    (y - y0) * (x1 - x0) = (y1 - y0) * (x - x0) ∧ min y0 y1 ≤ y ∧ y ≤ max y0 y1 := by
  intro y
  have hd : 0 < x1 - x0 := by linarith
  have e : (y - y0) * (x1 - x0) = (y1 - y0) * (x - x0) := by
    simp only [y]
    field_simp
    ring
  have ht : y = y0 + (y1 - y0) * ((x - x0) / (x1 - x0)) := by
    simp only [y]; ring
  have t0 : 0 ≤ (x - x0) / (x1 - x0) := div_nonneg (by linarith) hd.le
  have t1 : (x - x0) / (x1 - x0) ≤ 1 := by rw [div_le_one hd]; linarith
  refine ⟨e, ?_, ?_⟩
  · rw [ht]
    rcases le_total y0 y1 with h | h
    · rw [min_eq_left h]; nlinarith
    · rw [min_eq_right h]; nlinarith
  · rw [ht]
    rcases le_total y0 y1 with h | h
    · rw [max_eq_right h]; nlinarith
    · rw [max_eq_left h]; nlinarith

theorem interpSorted_spec (l : List (ℚ × ℚ)) (h : l.Pairwise (fun a b => a.1 < b.1)) (x : ℚ) :
    Spec.Resampled l x (interpSorted l x) := by
  induction l with
  | nil => exact ⟨by simp [interpSorted], by simp, by simp⟩
  | cons p l ih =>
    cases l with
    | nil =>
      simp only [interpSorted]
      refine ⟨?_, ?_, ?_⟩
      · split_ifs with e
        · simp [e]
        · simp only [true_iff, List.mem_singleton, exists_eq_left]
          intro hh
          exact e (le_antisymm hh.2 hh.1)
      · intro a ha e
        rw [List.mem_singleton] at ha
        subst ha
        simp [e]
      · intro a ha b hb h1 h2 _
        rw [List.mem_singleton] at ha hb
        subst ha hb
        exact absurd h1 (not_lt.2 h2.le)
    | cons q rest =>
      rw [List.pairwise_cons] at h
      have ih := ih h.2
      have hpq := h.1 q (by simp)
      have hq : ∀ r ∈ rest, q.1 < r.1 := (List.pairwise_cons.1 h.2).1
      simp only [interpSorted]
      split_ifs with h1 h2
      · have hall : ∀ a ∈ p :: q :: rest, x < a.1 := by
          intro a ha
          rcases List.mem_cons.1 ha with rfl | ha
          · exact h1
          · exact h1.trans (h.1 a ha)
        refine ⟨?_, ?_, ?_⟩
        · simp only [true_iff]
          rintro ⟨⟨a, ha, hle⟩, _⟩
          exact absurd (hall a ha) (not_lt.2 hle)
        · intro a ha e
          exact absurd (hall a ha) (by rw [e]; exact lt_irrefl _)
        · intro a ha b _ hlt
          exact absurd (hall a ha) (not_lt.2 hlt.le)
      · have sb := segment_bounds p.1 p.2 q.1 q.2 x (not_lt.1 h1) h2
        refine ⟨?_, ?_, ?_⟩
        · simp only [reduceCtorEq, false_iff, not_not]
          exact ⟨⟨p, by simp, not_lt.1 h1⟩, ⟨q, by simp, h2.le⟩⟩
        · intro a ha e
          rcases List.mem_cons.1 ha with rfl | ha
          · simp [e]
          · exfalso
            rcases List.mem_cons.1 ha with rfl | ha
            · linarith
            · have := hq a ha; linarith
        · intro a ha b hb hax hxb hnb
          have ea : a = p := by
            rcases List.mem_cons.1 ha with e | ha'
            · exact e
            · exfalso
              rcases List.mem_cons.1 ha' with rfl | ha'
              · linarith
              · have := hq a ha'; linarith
          subst ea
          have eb : b = q := by
            rcases List.mem_cons.1 hb with e | hb'
            · subst e; exfalso; linarith
            · rcases List.mem_cons.1 hb' with e | hb''
              · exact e
              · exfalso
                have h3 := hq b hb''
                rcases hnb q (by simp) with h4 | h4 <;> linarith
          subst eb
          exact ⟨_, rfl, sb⟩
      · have hqx : q.1 ≤ x := not_lt.1 h2
        refine ⟨?_, ?_, ?_⟩
        · rw [ih.missing, not_iff_not]
          constructor
          · rintro ⟨⟨a, ha, h3⟩, ⟨b, hb, h4⟩⟩
            exact ⟨⟨a, List.mem_cons_of_mem _ ha, h3⟩, ⟨b, List.mem_cons_of_mem _ hb, h4⟩⟩
          · rintro ⟨_, ⟨b, hb, h4⟩⟩
            refine ⟨⟨q, by simp, hqx⟩, ?_⟩
            rcases List.mem_cons.1 hb with rfl | hb
            · exact ⟨q, by simp, by linarith⟩
            · exact ⟨b, hb, h4⟩
        · intro a ha e
          rcases List.mem_cons.1 ha with rfl | ha
          · exfalso; linarith
          · exact ih.atPoint a ha e
        · intro a ha b hb hax hxb hnb
          have hb' : b ∈ q :: rest := by
            rcases List.mem_cons.1 hb with rfl | hb
            · exfalso; linarith
            · exact hb
          have ha' : a ∈ q :: rest := by
            rcases List.mem_cons.1 ha with rfl | ha
            · exfalso
              rcases hnb q (by simp) with h4 | h4 <;> linarith
            · exact ha
          exact ih.between a ha' b hb' hax hxb fun r hr => hnb r (List.mem_cons_of_mem _ hr)

theorem resampled_perm {l l' : List (ℚ × ℚ)} (h : l.Perm l') {x : ℚ} {v : Option ℚ} (hr : Spec.Resampled l x v) :
    Spec.Resampled l' x v := by
  have hm : ∀ p, p ∈ l ↔ p ∈ l' := fun p => h.mem_iff
  refine ⟨?_, ?_, ?_⟩
  · simpa only [hm] using hr.missing
  · simpa only [hm] using hr.atPoint
  · simpa only [hm] using hr.between

theorem interp_spec (ps : List (ℚ × ℚ)) (h : (ps.map fun p => p.1).Nodup) (x : ℚ) :
    Spec.Resampled ps x (interp ps x) :=
  resampled_perm (sortPoints_perm ps) (interpSorted_spec _ (sortPoints_strict ps h) x)

end Mat
end Verif
