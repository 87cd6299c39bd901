import Verif.Spec.Peaks
import Mathlib.Data.List.GetD

/-! # Lemmas about peaks -/

namespace Verif

namespace Fl

theorem lt_irrefl (a : Fl) : lt a a = false := by
  cases a <;> simp [lt]

theorem lt_trans {a b c : Fl} (h1 : lt a b = true) (h2 : lt b c = true) : lt a c = true := by
  cases a <;> cases b <;> cases c <;> simp_all [lt]
  exact _root_.lt_trans h1 h2

theorem lt_asymm {a b : Fl} (h : lt a b = true) : lt b a = false := by
  by_contra hc
  simp only [Bool.not_eq_false] at hc
  have := lt_trans h hc
  rw [lt_irrefl] at this
  simp at this

/-- For values other than NaN, not less means at least. -/
theorem lt_of_not_lt {a b c : Fl} (hb : b ≠ .nan) (h1 : lt a b = false) (h2 : lt c b = true) (ha : a ≠ .nan) :
    lt c a = true := by
  cases a <;> cases b <;> cases c <;> simp_all [lt]
  exact lt_of_lt_of_le h2 h1

end Fl

namespace Peaks
open Spec

theorem raw_valid (p : Peaks) (v : Nd Bool) (name : String) : ({ p with valid := v } : Peaks).raw name = p.raw name := rfl

theorem raw_of_sameRecord {p q : Peaks} (h : SameRecord p q) (name : String) : p.raw name = q.raw name := by
  obtain ⟨-, h2, h3, h4, -⟩ := h
  simp [raw, h2, h3, h4]

theorem lookup_mem {α : Type} {l : List (String × α)} {k : String} {v : α} (h : l.lookup k = some v) :
    (k, v) ∈ l := by
  induction l with
  | nil => simp at h
  | cons a l ih =>
    rw [List.lookup_cons] at h
    split at h
    · rename_i heq
      simp only [Option.some.injEq] at h
      have : k = a.1 := by simpa using heq
      subst h; subst this; simp
    · exact List.mem_cons_of_mem _ (ih h)

theorem raw_shape {p : Peaks} (hw : WfPeaks p) {name : String} {a : Nd Fl} (h : p.raw name = .ok a) :
    a.shape = p.velocity.shape ∧ a.data.length = p.velocity.data.length := by
  unfold raw at h
  split_ifs at h
  all_goals try (simp only [Except.ok.injEq] at h; subst h)
  · exact ⟨hw.freq_shape, hw.freq_len⟩
  · exact ⟨rfl, rfl⟩
  · exact ⟨rfl, by simp [Nd.map]⟩
  · exact ⟨rfl, by simp [Nd.zipWith, hw.freq_len]⟩
  · exact ⟨hw.freq_shape, by simp [Nd.zipWith, hw.freq_len]⟩
  · split at h
    · rename_i a' hl
      simp only [Except.ok.injEq] at h
      subst h
      have := lookup_mem hl
      exact ⟨hw.extra_shape _ this, hw.extra_len _ this⟩
    · simp at h

theorem reject_sameRecord {p : Peaks} {m : List Bool} (h : m.length = p.valid.data.length) :
    SameRecord p (p.reject m) := by
  refine ⟨rfl, rfl, rfl, rfl, rfl, ?_⟩
  simp [reject, h]

theorem reject_remaining {p : Peaks} {m : List Bool} (i : ℕ) :
    Remaining (p.reject m) i ↔ Remaining p i ∧ m[i]? = some false := by
  unfold Remaining reject
  simp only [List.getElem?_zipWith]
  rcases p.valid.data[i]? with _ | v
  · simp
  · rcases m[i]? with _ | b
    · simp
    · cases b <;> simp

theorem SameRecord.trans {p q r : Peaks} (h : SameRecord p q) (g : SameRecord q r) : SameRecord p r := by
  obtain ⟨a1, a2, a3, a4, a5, a6⟩ := h
  obtain ⟨b1, b2, b3, b4, b5, b6⟩ := g
  exact ⟨a1.trans b1, a2.trans b2, a3.trans b3, a4.trans b4, a5.trans b5, a6.trans b6⟩

theorem SameRecord.refl (p : Peaks) : SameRecord p p := ⟨rfl, rfl, rfl, rfl, rfl, rfl⟩

theorem wf_of_sameRecord {p q : Peaks} (h : SameRecord p q) (hw : WfPeaks p) : WfPeaks q := by
  obtain ⟨a1, a2, a3, a4, a5, a6⟩ := h
  exact
    { shape_prod := by rw [← a3]; exact hw.shape_prod
      freq_shape := by rw [← a3, ← a2]; exact hw.freq_shape
      freq_len := by rw [← a3, ← a2]; exact hw.freq_len
      valid_shape := by rw [← a3, ← a5]; exact hw.valid_shape
      valid_len := by rw [← a3, ← a6]; exact hw.valid_len
      extra_shape := by rw [← a3, ← a4]; exact hw.extra_shape
      extra_len := by rw [← a3, ← a4]; exact hw.extra_len
      names_nodup := by rw [← a4]; exact hw.names_nodup
      names_ok := by rw [← a4]; exact hw.names_ok }

/-- Two objects with the same record and the same remaining peaks are the same. -/
theorem eq_of_remaining {p q : Peaks} (h : SameRecord p q) (hr : ∀ i, Remaining p i ↔ Remaining q i) : p = q := by
  obtain ⟨a1, a2, a3, a4, a5, a6⟩ := h
  have hv : p.valid = q.valid := by
    have hd : p.valid.data = q.valid.data := by
      apply List.ext_getElem a6
      intro i h1 h2
      have := hr i
      simp only [Remaining, List.getElem?_eq_getElem h1, List.getElem?_eq_getElem h2, Option.some.injEq] at this
      cases hp : p.valid.data[i] <;> cases hq : q.valid.data[i] <;> simp_all
    rcases hp : p.valid with ⟨s, d⟩
    rcases hq : q.valid with ⟨s', d'⟩
    rw [hp, hq] at a5 hd
    simp only at a5 hd
    rw [a5, hd]
  rcases p with ⟨_, _, _, _, _⟩
  rcases q with ⟨_, _, _, _, _⟩
  simp_all

/-- Boolean indexing by the positions that are selected. -/
theorem select_eq {α : Type} (d : α) (a : Nd α) (m : Nd Bool) (h : a.data.length = m.data.length) :
    a.select m = ((List.range m.data.length).filter fun i => m.data.getD i false).map fun i => a.data.getD i d := by
  rcases a with ⟨s, l⟩
  rcases m with ⟨s', k⟩
  simp only at h
  simp only [Nd.select]
  clear s s'
  induction l generalizing k with
  | nil =>
    have : k = [] := by simpa using h.symm
    subst this; simp
  | cons x l ih =>
    rcases k with _ | ⟨b, k⟩
    · simp at h
    have h' : l.length = k.length := by simpa using h
    have e := ih k h'
    rw [List.length_cons, List.range_succ_eq_map, List.filter_cons, List.zip_cons_cons, List.filter_cons]
    have hm : ((List.range k.length).map Nat.succ).filter (fun i => (b :: k).getD i false) =
        ((List.range k.length).filter fun i => k.getD i false).map Nat.succ := by
      rw [List.filter_map]
      congr 1
    rw [hm]
    cases b <;> simp [e, Function.comp_def]

end Peaks
end Verif
