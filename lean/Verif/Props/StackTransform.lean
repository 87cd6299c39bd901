import Verif.Model.Transform
import Mathlib.Algebra.CharZero.Defs
import Mathlib.Algebra.Field.Basic
import Mathlib.Algebra.BigOperators.Group.List.Basic
import Mathlib.Data.Nat.Cast.Basic
import Mathlib.Tactic.FieldSimp
import Mathlib.Tactic.Ring
import Mathlib.Tactic.NormNum

/-!
# C64: stacking transforms onto an empty one
-/

namespace Verif.Props
open Verif WT

variable {K : Type} [Field K]

/-- The power at velocity row `r` and frequency column `c`. -/
def cell (m : List (List K)) (r c : ℕ) : Option K := m[r]?.bind fun row => row[c]?

/-- A power matrix of `nvel` rows and `nfrq` columns. -/
def HasShape (m : List (List K)) (nvel nfrq : ℕ) : Prop :=
  m.length = nvel ∧ ∀ row ∈ m, row.length = nfrq

omit [Field K] in
theorem HasShape.cell {m : List (List K)} {nvel nfrq : ℕ} (h : HasShape m nvel nfrq) {r c : ℕ}
    (hr : r < nvel) (hc : c < nfrq) : ∃ x, cell m r c = some x := by
  obtain ⟨h1, h2⟩ := h
  have hr' : r < m.length := by omega
  have := h2 _ (List.getElem_mem hr')
  refine ⟨(m[r])[c]'(by omega), ?_⟩
  simp only [Props.cell, List.getElem?_eq_getElem hr', Option.bind_some]
  exact List.getElem?_eq_getElem (by omega)

theorem stack_shape {s o : Stackable K} {nvel nfrq : ℕ} (hs : HasShape s.power nvel nfrq)
    (ho : HasShape o.power nvel nfrq) : HasShape (stack s o).power nvel nfrq := by
  refine ⟨by simp [stack, hs.1, ho.1], ?_⟩
  intro row hrow
  obtain ⟨i, hi⟩ := List.mem_iff_getElem?.1 hrow
  simp only [stack, List.getElem?_zipWith_eq_some] at hi
  obtain ⟨x, y, hx, hy, rfl⟩ := hi
  simp [hs.2 x (List.mem_of_getElem? hx), ho.2 y (List.mem_of_getElem? hy)]

theorem stack_cell {s o : Stackable K} {r c : ℕ} {x y : K} (hx : cell s.power r c = some x)
    (hy : cell o.power r c = some y) :
    cell (stack s o).power r c = some ((x * (s.n : K) + y * (o.n : K)) / ((s.n : K) + (o.n : K))) := by
  unfold cell at hx hy ⊢
  rcases hr : s.power[r]? with _ | row
  · rw [hr] at hx; cases hx
  rcases hr' : o.power[r]? with _ | row'
  · rw [hr'] at hy; cases hy
  rw [hr] at hx
  rw [hr'] at hy
  simp only [Option.bind_some] at hx hy
  simp [stack, List.getElem?_zipWith, hr, hr', hx, hy]

theorem foldl_stack (K : Type) [Field K] [CharZero K] (nvel nfrq : ℕ) (ts : List (Stackable K)) :
    ∀ s : Stackable K, HasShape s.power nvel nfrq →
    (∀ t ∈ ts, HasShape t.power nvel nfrq ∧ 0 < t.n) →
    (ts.foldl stack s).n = s.n + (ts.map Stackable.n).sum ∧
    HasShape (ts.foldl stack s).power nvel nfrq ∧
    ∀ r c, r < nvel → c < nfrq → ∃ x y, cell s.power r c = some x ∧
      cell (ts.foldl stack s).power r c = some y ∧
      y * ((ts.foldl stack s).n : K) =
        x * (s.n : K) + (ts.map fun t => (t.n : K) * (cell t.power r c).getD 0).sum := by
  induction ts with
  | nil =>
    intro s hs _
    refine ⟨by simp, hs, ?_⟩
    intro r c hr hc
    obtain ⟨x, hx⟩ := hs.cell hr hc
    exact ⟨x, x, hx, hx, by simp⟩
  | cons t ts ih =>
    intro s hs ht
    obtain ⟨ht1, ht2⟩ := ht t List.mem_cons_self
    obtain ⟨h1, h2, h3⟩ := ih (stack s t) (stack_shape hs ht1)
      (fun u hu => ht u (List.mem_cons_of_mem _ hu))
    simp only [List.foldl_cons]
    refine ⟨by rw [h1]; simp [stack]; omega, h2, ?_⟩
    intro r c hr hc
    obtain ⟨x, hx⟩ := hs.cell hr hc
    obtain ⟨z, hz⟩ := ht1.cell hr hc
    obtain ⟨w, y, hw, hy, hyw⟩ := h3 r c hr hc
    refine ⟨x, y, hx, hy, ?_⟩
    rw [stack_cell hx hz] at hw
    cases hw
    have hne : ((s.n : K) + (t.n : K)) ≠ 0 := by
      have : (((s.n + t.n : ℕ)) : K) ≠ 0 := Nat.cast_ne_zero.2 (by omega)
      simpa using this
    rw [hyw]
    simp only [stack, List.map_cons, List.sum_cons, hz, Option.getD_some, Nat.cast_add]
    field_simp
    ring

/-- **C64**.  Stacking any non-empty sequence of transforms of one shape onto an empty transform gives
the mean of their powers weighted by their `n`, with `n` the total. -/
theorem C64_weighted_mean (K : Type) [Field K] [CharZero K] (nvel nfrq : ℕ)
    (ts : List (Stackable K)) (hne : ts ≠ [])
    (hts : ∀ t ∈ ts, HasShape t.power nvel nfrq ∧ 0 < t.n) :
    let out := ts.foldl stack (emptyTransform K nvel nfrq)
    out.n = (ts.map Stackable.n).sum ∧ HasShape out.power nvel nfrq ∧
    ∀ r c, r < nvel → c < nfrq → cell out.power r c =
      some ((ts.map fun t => (t.n : K) * (cell t.power r c).getD 0).sum /
        ((ts.map Stackable.n).sum : ℕ)) := by
  have hempty : HasShape (emptyTransform K nvel nfrq).power nvel nfrq := by
    refine ⟨by simp [emptyTransform], ?_⟩
    intro row hrow
    have := (List.mem_replicate.1 hrow).2
    simp [this]
  obtain ⟨h1, h2, h3⟩ := foldl_stack K nvel nfrq ts _ hempty hts
  have h1' : (ts.foldl stack (emptyTransform K nvel nfrq)).n = (ts.map Stackable.n).sum := by
    rw [h1]; simp [emptyTransform]
  refine ⟨h1', h2, ?_⟩
  intro r c hr hc
  obtain ⟨x, y, _, hy, hxy⟩ := h3 r c hr hc
  rw [hy]
  have hn : (ts.map Stackable.n).sum ≠ 0 := by
    obtain ⟨t, ts', rfl⟩ := List.exists_cons_of_ne_nil hne
    have := (hts t List.mem_cons_self).2
    simp; omega
  have hnK : (((ts.map Stackable.n).sum : ℕ) : K) ≠ 0 := Nat.cast_ne_zero.2 hn
  rw [h1'] at hxy
  simp only [emptyTransform, Nat.cast_zero, mul_zero, zero_add] at hxy
  rw [← hxy, mul_div_assoc, div_self hnK, mul_one]

/-- **C64** (plain mean).  Transforms made from single records (`n = 1`) give the arithmetic mean. -/
theorem C64_plain_mean (K : Type) [Field K] [CharZero K] (nvel nfrq : ℕ)
    (ts : List (Stackable K)) (hne : ts ≠ [])
    (hts : ∀ t ∈ ts, HasShape t.power nvel nfrq ∧ t.n = 1) :
    ∀ r c, r < nvel → c < nfrq →
      cell (ts.foldl stack (emptyTransform K nvel nfrq)).power r c =
        some ((ts.map fun t => (cell t.power r c).getD 0).sum / (ts.length : K)) := by
  obtain ⟨_, _, h⟩ := C64_weighted_mean K nvel nfrq ts hne
    (fun t ht => ⟨(hts t ht).1, by rw [(hts t ht).2]; exact Nat.one_pos⟩)
  intro r c hr hc
  rw [h r c hr hc]
  have e1 : ts.map (fun t => (t.n : K) * (cell t.power r c).getD 0) =
      ts.map fun t => (cell t.power r c).getD 0 :=
    List.map_congr_left fun t ht => by rw [(hts t ht).2]; simp
  have e2 : ts.map Stackable.n = ts.map fun _ => 1 :=
    List.map_congr_left fun t ht => (hts t ht).2
  have e3 : (ts.map Stackable.n).sum = ts.length := by rw [e2]; simp
  rw [e1, e3]

/-- **C64** (order).  The result does not depend on the order of stacking. -/
theorem C64_order_independent (K : Type) [Field K] [CharZero K] (nvel nfrq : ℕ)
    (ts ts' : List (Stackable K)) (hp : ts.Perm ts')
    (hts : ∀ t ∈ ts, HasShape t.power nvel nfrq ∧ 0 < t.n) :
    ts.foldl stack (emptyTransform K nvel nfrq) = ts'.foldl stack (emptyTransform K nvel nfrq) := by
  by_cases hne : ts = []
  · subst hne
    rw [List.nil_perm.1 hp]
  have hne' : ts' ≠ [] := fun h => hne (by rw [h] at hp; exact List.perm_nil.1 hp)
  obtain ⟨a1, a2, a3⟩ := C64_weighted_mean K nvel nfrq ts hne hts
  obtain ⟨b1, b2, b3⟩ := C64_weighted_mean K nvel nfrq ts' hne' (fun t ht => hts t (hp.mem_iff.2 ht))
  have hn : (ts.map Stackable.n).sum = (ts'.map Stackable.n).sum := (hp.map _).sum_eq
  have ext : ∀ s s' : Stackable K, s.n = s'.n → s.power = s'.power → s = s' := by
    rintro ⟨n, p⟩ ⟨n', p'⟩ h1 h2; cases h1; cases h2; rfl
  refine ext _ _ (by rw [a1, b1, hn]) ?_
  have hcell : ∀ r c, r < nvel → c < nfrq →
      cell (ts.foldl stack (emptyTransform K nvel nfrq)).power r c =
        cell (ts'.foldl stack (emptyTransform K nvel nfrq)).power r c := by
    intro r c hr hc
    rw [a3 r c hr hc, b3 r c hr hc, hn, (hp.map _).sum_eq]
  refine List.ext_getElem (by rw [a2.1, b2.1]) ?_
  intro r h1 h2
  have hr : r < nvel := by rw [← a2.1]; exact h1
  have l1 := a2.2 _ (List.getElem_mem h1)
  have l2 := b2.2 _ (List.getElem_mem h2)
  refine List.ext_getElem (by rw [l1, l2]) ?_
  intro c h3 h4
  have := hcell r c hr (by omega)
  unfold cell at this
  rw [List.getElem?_eq_getElem h1, List.getElem?_eq_getElem h2] at this
  simp only [Option.bind_some] at this
  rw [List.getElem?_eq_getElem h3, List.getElem?_eq_getElem h4] at this
  exact Option.some.inj this

/-- Three single-record transforms of shape 1 by 2 over the rationals. -/
example : ∀ t ∈ ([⟨1, [[1, 2]]⟩, ⟨1, [[3, 5]]⟩, ⟨1, [[2, 2]]⟩] : List (Stackable ℚ)),
    HasShape t.power 1 2 ∧ 0 < t.n := by
  intro t ht
  simp only [List.mem_cons, List.not_mem_nil, or_false] at ht
  rcases ht with rfl | rfl | rfl <;> exact ⟨⟨rfl, by simp⟩, by norm_num⟩

example : (([⟨1, [[1, 2]]⟩, ⟨1, [[3, 5]]⟩, ⟨1, [[2, 2]]⟩] : List (Stackable ℚ)).foldl stack
    (emptyTransform ℚ 1 2)).power = [[2, 3]] := by
  norm_num [stack, emptyTransform, List.foldl, List.replicate]

end Verif.Props
