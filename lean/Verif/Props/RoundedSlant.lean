import Verif.Model.Rounded
import Verif.Props.Float64
import Verif.Props.SlantStack

/-!
# C66 with the rounding of binary64

`Props/SlantStack.lean` proves with exact numbers that the slant stack never reads outside of the record.  With
binary64 it can: the number of delays comes from `int(xmax*(1/vmin)/dt)`, the indices from `int(xmax/dt/vmin)`, and
the two can be rounded to different integers.
-/

namespace Verif.Props.B64
open Verif Verif.B64

/-! ## Lemmas -/

theorem mapM_index {α β : Type} (f : α → Except PyErr β) :
    ∀ l : List α, (∀ a ∈ l, (∃ b, f a = .ok b) ∨ f a = .error .indexError) →
      (∃ bs, l.mapM f = .ok bs ∧ List.Forall₂ (fun a b => f a = .ok b) l bs) ∨
      (l.mapM f = .error .indexError ∧ ∃ a ∈ l, f a = .error .indexError)
  | [], _ => Or.inl ⟨[], rfl, .nil⟩
  | a :: l, h => by
    rw [List.mapM_cons]
    rcases h a List.mem_cons_self with ⟨b, hb⟩ | he
    · rcases mapM_index f l (fun x hx => h x (List.mem_cons_of_mem _ hx)) with ⟨bs, h1, h2⟩ | ⟨h1, x, hx, h2⟩
      · left; exact ⟨b :: bs, by rw [hb, h1]; rfl, .cons hb h2⟩
      · right; exact ⟨by rw [hb, h1]; rfl, x, List.mem_cons_of_mem _ hx, h2⟩
    · right; exact ⟨by rw [he]; rfl, a, List.mem_cons_self, he⟩

theorem readSample_cases (u : List ℚ) (i : ℕ) :
    (i < u.length ∧ ∃ x, WT.readSample u (i : ℤ) = .ok x) ∨
    (u.length ≤ i ∧ WT.readSample u (i : ℤ) = .error .indexError) := by
  by_cases h : i < u.length
  · exact Or.inl ⟨h, _, Props.readSample_ok u i h⟩
  · refine Or.inr ⟨not_lt.1 h, ?_⟩
    unfold WT.readSample
    rw [if_neg (by omega), Int.toNat_natCast, List.getElem?_eq_none (not_lt.1 h)]

/-- Reading one trace at the delays `0 .. nt-1` shifted by `L` samples. -/
theorem amplitudes_cases (u : List ℚ) (nt L : ℕ) (δ : ℚ) :
    ((nt = 0 ∨ nt + L + 1 ≤ u.length) ∧
      ∃ a, amplitudes u ((List.range nt).map fun (j : ℕ) => (j : ℤ) + (L : ℤ)) δ = .ok a) ∨
    (¬ (nt = 0 ∨ nt + L + 1 ≤ u.length) ∧
      amplitudes u ((List.range nt).map fun (j : ℕ) => (j : ℤ) + (L : ℤ)) δ = .error .indexError) := by
  have hone : ∀ j : ℕ, (j + L + 1 < u.length ∧ ∃ x, (do
        let lo ← WT.readSample u ((j : ℤ) + L)
        let hi ← WT.readSample u ((j : ℤ) + L + 1)
        return add (mul lo (sub 1 δ)) (mul hi δ) : Except PyErr ℚ) = .ok x) ∨
      (u.length ≤ j + L + 1 ∧ (do
        let lo ← WT.readSample u ((j : ℤ) + L)
        let hi ← WT.readSample u ((j : ℤ) + L + 1)
        return add (mul lo (sub 1 δ)) (mul hi δ) : Except PyErr ℚ) = .error .indexError) := by
    intro j
    have e1 : ((j : ℤ) + (L : ℤ)) = ((j + L : ℕ) : ℤ) := by push_cast; rfl
    have e2 : ((j : ℤ) + (L : ℤ)) + 1 = ((j + L + 1 : ℕ) : ℤ) := by push_cast; rfl
    rw [e2, e1]
    rcases readSample_cases u (j + L + 1) with ⟨h1, x, hx⟩ | ⟨h1, hx⟩
    · rcases readSample_cases u (j + L) with ⟨_, y, hy⟩ | ⟨h2, _⟩
      · left; refine ⟨h1, add (mul y (sub 1 δ)) (mul x δ), ?_⟩; rw [hx, hy]; rfl
      · omega
    · right
      refine ⟨h1, ?_⟩
      rcases readSample_cases u (j + L) with ⟨_, y, hy⟩ | ⟨_, hy⟩ <;> rw [hy] <;> [rw [hx]; skip] <;> rfl
  unfold amplitudes
  have hside : ∀ a ∈ (List.range nt).map fun (j : ℕ) => (j : ℤ) + (L : ℤ),
      (∃ b, (do
        let lo ← WT.readSample u a
        let hi ← WT.readSample u (a + 1)
        return add (mul lo (sub 1 δ)) (mul hi δ) : Except PyErr ℚ) = .ok b) ∨ (do
        let lo ← WT.readSample u a
        let hi ← WT.readSample u (a + 1)
        return add (mul lo (sub 1 δ)) (mul hi δ) : Except PyErr ℚ) = .error .indexError := by
    intro a ha
    obtain ⟨j, _, rfl⟩ := List.mem_map.1 ha
    rcases hone j with ⟨_, h3⟩ | ⟨_, h3⟩
    · exact Or.inl h3
    · exact Or.inr h3
  rcases mapM_index _ _ hside with ⟨bs, h1, h2⟩ | ⟨h1, a, ha, h2⟩
  · left
    refine ⟨?_, bs, h1⟩
    rcases Nat.eq_zero_or_pos nt with h0 | h0
    · exact Or.inl h0
    · right
      by_contra hcon
      have hmem : (((nt - 1 : ℕ) : ℤ) + (L : ℤ)) ∈ (List.range nt).map fun (j : ℕ) => (j : ℤ) + (L : ℤ) :=
        List.mem_map.2 ⟨nt - 1, List.mem_range.2 (by omega), rfl⟩
      obtain ⟨i, hi⟩ := List.mem_iff_getElem?.1 hmem
      have hex : ∃ b, (do
        let lo ← WT.readSample u (((nt - 1 : ℕ) : ℤ) + L)
        let hi ← WT.readSample u (((nt - 1 : ℕ) : ℤ) + L + 1)
        return add (mul lo (sub 1 δ)) (mul hi δ) : Except PyErr ℚ) = .ok b := by
        have hl := h2.length_eq
        have hi1 : i < ((List.range nt).map fun (j : ℕ) => (j : ℤ) + (L : ℤ)).length :=
          (List.getElem?_eq_some_iff.1 hi).1
        have := h2.get hi1 (hl ▸ hi1)
        have hg := (List.getElem?_eq_some_iff.1 hi).2
        rw [List.get_eq_getElem, hg] at this
        exact ⟨_, this⟩
      rcases hone (nt - 1) with ⟨h3, _⟩ | ⟨_, h3⟩
      · omega
      · obtain ⟨b, hb⟩ := hex
        rw [h3] at hb; cases hb
  · right
    refine ⟨?_, h1⟩
    obtain ⟨j, hj, rfl⟩ := List.mem_map.1 ha
    have hj' := List.mem_range.1 hj
    rcases hone j with ⟨_, x, h3⟩ | ⟨h3, _⟩
    · rw [h3] at h2; cases h2
    · omega

/-- The lower index for receiver position `p`. -/
abbrev low64 (dt v p : ℚ) : ℤ := pyInt (floatIndex p dt v)

theorem floatIndex_nonneg {dt v p : ℚ} (hdt : 0 < dt) (hv : 0 < v) (hp : 0 ≤ p) : 0 ≤ floatIndex p dt v :=
  rnd_nonneg (div_nonneg (rnd_nonneg (div_nonneg hp hdt.le)) hv.le)

theorem low64_eq {dt v p : ℚ} (hdt : 0 < dt) (hv : 0 < v) (hp : 0 ≤ p) :
    low64 dt v p = ⌊floatIndex p dt v⌋ ∧ 0 ≤ ⌊floatIndex p dt v⌋ := by
  have := floatIndex_nonneg hdt hv hp
  exact ⟨by simp [low64, pyInt, this], Int.floor_nonneg.2 this⟩

theorem floatIndex_mono {dt v w p q : ℚ} (hdt : 0 < dt) (hw : 0 < w) (hwv : w ≤ v) (hq : 0 ≤ q) (hqp : q ≤ p) :
    floatIndex q dt v ≤ floatIndex p dt w := by
  have hv : 0 < v := lt_of_lt_of_le hw hwv
  have h1 : rnd (q / dt) ≤ rnd (p / dt) := rnd_mono (div_le_div_of_nonneg_right hqp hdt.le)
  have h2 : 0 ≤ rnd (p / dt) := rnd_nonneg (div_nonneg (le_trans hq hqp) hdt.le)
  refine rnd_mono (le_trans (div_le_div_of_nonneg_right h1 hv.le) ?_)
  exact div_le_div_of_nonneg_left h2 hw hwv

def fullCarry64 (pos : List ℚ) (dt : ℚ) (nt : ℕ) (v : ℚ) : WT.Carry :=
  pos.map fun p => ((List.range nt).map fun (j : ℕ) => (j : ℤ) + low64 dt v p, low64 dt v p)

theorem update_carry64 : ∀ (pos : List ℚ) (dt : ℚ) (nt : ℕ) (v : ℚ) (carry : WT.Carry),
    Props.CarryOk pos nt carry →
    List.zipWith (fun p c => updateCols p dt v c) pos carry = fullCarry64 pos dt nt v
  | [], _, _, _, [], _ => rfl
  | [], _, _, _, _ :: _, h => by simp [Props.CarryOk] at h
  | _ :: _, _, _, _, [], h => by simp [Props.CarryOk] at h
  | p :: pos, dt, nt, v, c :: carry, h => by
    have hc := h.2 c List.mem_cons_self
    have ih := update_carry64 pos dt nt v carry
      ⟨by simpa using h.1, fun d hd => h.2 d (List.mem_cons_of_mem _ hd)⟩
    simp only [List.zipWith_cons_cons, fullCarry64, List.map_cons, List.cons.injEq]
    refine ⟨?_, ih⟩
    simp only [updateCols, hc, List.map_map, Prod.mk.injEq, and_true]
    refine List.map_congr_left fun j _ => ?_
    simp only [Function.comp, low64]; ring

theorem fullCarry64_ok (pos : List ℚ) (dt : ℚ) (nt : ℕ) (v : ℚ) :
    Props.CarryOk pos nt (fullCarry64 pos dt nt v) := by
  refine ⟨by simp [fullCarry64], ?_⟩
  intro c hc
  obtain ⟨p, _, rfl⟩ := List.mem_map.1 hc
  rfl

/-- One velocity: either every receiver is read inside of the record, or `IndexError`. -/
theorem slantRow_cases (tm : List (List ℚ)) (pos : List ℚ) (dt v : ℚ) (nt npts : ℕ) (carry : WT.Carry)
    (hlen : tm.length = pos.length) (hu : ∀ u ∈ tm, u.length = npts) (hdt : 0 < dt) (hv : 0 < v)
    (hpos : ∀ p ∈ pos, 0 ≤ p) (hc : Props.CarryOk pos nt carry) :
    ((∀ p ∈ pos, nt = 0 ∨ ⌊floatIndex p dt v⌋ + nt + 1 ≤ npts) ∧
      ∃ row, row.length = nt ∧ slantRow tm pos dt nt carry v = .ok (fullCarry64 pos dt nt v, row)) ∨
    (¬ (∀ p ∈ pos, nt = 0 ∨ ⌊floatIndex p dt v⌋ + nt + 1 ≤ npts) ∧
      slantRow tm pos dt nt carry v = .error .indexError) := by
  have hone : ∀ x ∈ tm.zip (pos.zip (fullCarry64 pos dt nt v)),
      x.2.1 ∈ pos ∧
      (((nt = 0 ∨ ⌊floatIndex x.2.1 dt v⌋ + nt + 1 ≤ npts) ∧ ∃ a, amplitudes x.1 x.2.2.1
        (sub (floatIndex x.2.1 dt v) (pyInt (floatIndex x.2.1 dt v))) = .ok a) ∨
      (¬ (nt = 0 ∨ ⌊floatIndex x.2.1 dt v⌋ + nt + 1 ≤ npts) ∧ amplitudes x.1 x.2.2.1
        (sub (floatIndex x.2.1 dt v) (pyInt (floatIndex x.2.1 dt v))) = .error .indexError)) := by
    intro x hx
    obtain ⟨i, hi⟩ := List.mem_iff_getElem?.1 hx
    rw [List.getElem?_zip_eq_some] at hi
    obtain ⟨hi1, hi2⟩ := hi
    rw [List.getElem?_zip_eq_some] at hi2
    obtain ⟨hi2, hi3⟩ := hi2
    have hp := List.mem_of_getElem? hi2
    have hx3 : x.2.2 = ((List.range nt).map fun (j : ℕ) => (j : ℤ) + low64 dt v x.2.1, low64 dt v x.2.1) := by
      unfold fullCarry64 at hi3
      rw [List.getElem?_map, hi2] at hi3
      exact (Option.some.inj hi3).symm
    obtain ⟨l1, l2⟩ := low64_eq hdt hv (hpos _ hp)
    have hul := hu _ (List.mem_of_getElem? hi1)
    have hL : low64 dt v x.2.1 = ((low64 dt v x.2.1).toNat : ℤ) := by omega
    refine ⟨hp, ?_⟩
    rw [hx3]
    simp only
    rw [hL]
    generalize (sub (floatIndex x.2.1 dt v) (pyInt (floatIndex x.2.1 dt v))) = δ
    rcases amplitudes_cases x.1 nt (low64 dt v x.2.1).toNat δ with ⟨h1, h2⟩ | ⟨h1, h2⟩
    · left; exact ⟨by omega, h2⟩
    · right; exact ⟨by omega, h2⟩
  unfold slantRow
  rw [update_carry64 pos dt nt v carry hc]
  rcases mapM_index (fun x : List ℚ × ℚ × List ℤ × ℤ => amplitudes x.1 x.2.2.1
      (sub (floatIndex x.2.1 dt v) (pyInt (floatIndex x.2.1 dt v))))
      (tm.zip (pos.zip (fullCarry64 pos dt nt v))) (by
        intro x hx
        rcases (hone _ hx).2 with ⟨_, h3⟩ | ⟨_, h3⟩
        · exact Or.inl h3
        · exact Or.inr h3) with ⟨bs, h1, h2⟩ | ⟨h1, x, hx, h2⟩
  · left
    refine ⟨?_, (List.range nt).map fun j =>
      (trapezoids (diff pos) (bs.map fun a => a.getD j 0)).foldl add 0, by simp, ?_⟩
    · intro p hp
      obtain ⟨i, hi, rfl⟩ := List.mem_iff_getElem.1 hp
      have hti : i < tm.length := by omega
      have hfi : i < (fullCarry64 pos dt nt v).length := by simpa [fullCarry64] using hi
      have hmem : (tm[i], (pos[i], (fullCarry64 pos dt nt v)[i])) ∈
          tm.zip (pos.zip (fullCarry64 pos dt nt v)) := by
        refine List.mem_of_getElem? (i := i) ?_
        rw [List.getElem?_zip_eq_some]
        refine ⟨List.getElem?_eq_getElem hti, ?_⟩
        rw [List.getElem?_zip_eq_some]
        exact ⟨List.getElem?_eq_getElem hi, List.getElem?_eq_getElem hfi⟩
      rcases (hone _ hmem).2 with ⟨h3, _⟩ | ⟨_, h3⟩
      · exact h3
      · exfalso
        obtain ⟨k, hk⟩ := List.mem_iff_getElem?.1 hmem
        have hk1 := (List.getElem?_eq_some_iff.1 hk).1
        have := h2.get hk1 (h2.length_eq ▸ hk1)
        rw [List.get_eq_getElem, (List.getElem?_eq_some_iff.1 hk).2, h3] at this
        cases this
    · simp only [h1, bind, Except.bind, pure, Except.pure]
  · right
    refine ⟨?_, ?_⟩
    · intro hall
      rcases (hone _ hx).2 with ⟨_, a, h3⟩ | ⟨h3, _⟩
      · rw [h3] at h2; cases h2
      · exact h3 (hall _ (hone _ hx).1)
    · simp only [h1, bind, Except.bind]

theorem slantRows_cases (tm : List (List ℚ)) (pos : List ℚ) (dt : ℚ) (nt npts : ℕ)
    (hlen : tm.length = pos.length) (hu : ∀ u ∈ tm, u.length = npts) (hdt : 0 < dt)
    (hpos : ∀ p ∈ pos, 0 ≤ p) (vs : List ℚ) : (∀ v ∈ vs, 0 < v) → ∀ carry : WT.Carry, Props.CarryOk pos nt carry →
    ((∀ v ∈ vs, ∀ p ∈ pos, nt = 0 ∨ ⌊floatIndex p dt v⌋ + nt + 1 ≤ npts) ∧
      ∃ rows, rows.length = vs.length ∧ (∀ row ∈ rows, row.length = nt) ∧
        slantRows tm pos dt nt carry vs = .ok rows) ∨
    (¬ (∀ v ∈ vs, ∀ p ∈ pos, nt = 0 ∨ ⌊floatIndex p dt v⌋ + nt + 1 ≤ npts) ∧
      slantRows tm pos dt nt carry vs = .error .indexError) := by
  induction vs with
  | nil => intro _ carry _; left; exact ⟨by simp, [], rfl, by simp, rfl⟩
  | cons v vs ih =>
    intro hv carry hc
    have hv0 := hv v List.mem_cons_self
    rcases slantRow_cases tm pos dt v nt npts carry hlen hu hdt hv0 hpos hc with ⟨h1, row, hl, hr⟩ | ⟨h1, hr⟩
    · rcases ih (fun w hw => hv w (List.mem_cons_of_mem _ hw)) _ (fullCarry64_ok pos dt nt v) with
        ⟨h2, rows, hn, hall, hrs⟩ | ⟨h2, hrs⟩
      · left
        refine ⟨?_, row :: rows, by simp [hn], ?_, ?_⟩
        · intro w hw
          rcases List.mem_cons.1 hw with rfl | hw
          · exact h1
          · exact h2 w hw
        · intro r hr'
          rcases List.mem_cons.1 hr' with rfl | hr'
          · exact hl
          · exact hall r hr'
        · simp only [slantRows, hr, hrs, bind, Except.bind, pure, Except.pure]
      · right
        refine ⟨fun hall => h2 fun w hw => hall w (List.mem_cons_of_mem _ hw), ?_⟩
        simp only [slantRows, hr, hrs, bind, Except.bind]
    · right
      refine ⟨fun hall => h1 (hall v List.mem_cons_self), ?_⟩
      simp only [slantRows, hr, bind, Except.bind]

theorem maxList_eq {l : List ℚ} {m : ℚ} (hm : m ∈ l) (h : ∀ x ∈ l, x ≤ m) : (Arr.maxList l).getD 0 = m :=
  le_antisymm (h _ (Props.maxList_mem l (List.ne_nil_of_mem hm))) (Props.le_maxList hm)

/-- Largest and smallest offsets and the smallest velocity. -/
structure Extremes (offsets velocities : List ℚ) (xmin xmax vmin : ℚ) : Prop where
  xmin_mem : xmin ∈ offsets
  xmin_le : ∀ x ∈ offsets, xmin ≤ x
  xmax_mem : xmax ∈ offsets
  le_xmax : ∀ x ∈ offsets, x ≤ xmax
  vmin_mem : vmin ∈ velocities
  vmin_le : ∀ v ∈ velocities, vmin ≤ v

/-- The samples the code keeps free for the longest delay: `int(xmax*(1/vmin)/dt)`, every operation rounded. -/
def reserved (X dt vmin : ℚ) : ℤ := ⌊rnd (rnd (rnd X * rnd (1 / vmin)) / dt)⌋

/-- The samples by which the farthest trace is shifted: `int(xmax/dt/vmin)`, every operation rounded. -/
def used (X dt vmin : ℚ) : ℤ := ⌊rnd (rnd (rnd X / dt) / vmin)⌋

theorem slantStack_unfold (tm : List (List ℚ)) (offsets : List ℚ) (dt : ℚ) (velocities : List ℚ) (npts : ℕ)
    (h : SlantInput tm offsets dt velocities npts) (xmin xmax vmin : ℚ)
    (he : Extremes offsets velocities xmin xmax vmin) :
    B64.slantStack tm offsets dt velocities =
      if (npts : ℤ) - reserved (xmax - xmin) dt vmin - 1 < 0 then .error .valueError
      else B64.slantRows tm (offsets.map fun x => sub x xmin) dt
        ((npts : ℤ) - reserved (xmax - xmin) dt vmin - 1).toNat
        ((offsets.map fun x => sub x xmin).map fun _ => ((List.range
          ((npts : ℤ) - reserved (xmax - xmin) dt vmin - 1).toNat).map fun (j : ℕ) => (j : ℤ), 0))
        velocities := by
  obtain ⟨x0, xs, hx⟩ := List.exists_cons_of_ne_nil h.receivers
  obtain ⟨v0, vs, hvs⟩ := List.exists_cons_of_ne_nil h.some_velocity
  obtain ⟨m, hm⟩ : ∃ m, Arr.minList offsets = some m := by rw [hx]; exact ⟨_, rfl⟩
  obtain ⟨hmem, hmin⟩ := Props.minList_spec hm
  obtain rfl : xmin = m := le_antisymm (he.xmin_le m hmem) (hmin xmin he.xmin_mem)
  have hhead : (tm.headD []).length = npts := by
    have : tm ≠ [] := by
      intro h0; have := h.traces; rw [h0, hx] at this; simp at this
    obtain ⟨u, us, rfl⟩ := List.exists_cons_of_ne_nil this
    simpa using h.lengths u List.mem_cons_self
  have hdt := h.dt_pos
  have hv0 : 0 < vmin := h.velocities_pos _ he.vmin_mem
  have hX : 0 ≤ xmax - xmin := by have := he.xmin_le _ he.xmax_mem; linarith
  have hmaxp : (Arr.maxList (offsets.map fun x => sub x xmin)).getD 0 = rnd (xmax - xmin) := by
    refine maxList_eq (List.mem_map.2 ⟨xmax, he.xmax_mem, rfl⟩) ?_
    intro p hp
    obtain ⟨x, hx, rfl⟩ := List.mem_map.1 hp
    exact rnd_mono (by have := he.le_xmax x hx; linarith)
  have hmaxv : (Arr.maxList (velocities.map fun v => B64.div 1 v)).getD 0 = rnd (1 / vmin) := by
    refine maxList_eq (List.mem_map.2 ⟨vmin, he.vmin_mem, rfl⟩) ?_
    intro p hp
    obtain ⟨v, hv, rfl⟩ := List.mem_map.1 hp
    exact rnd_mono (one_div_le_one_div_of_le hv0 (he.vmin_le v hv))
  have hres : pyInt (B64.div (mul (rnd (xmax - xmin)) (rnd (1 / vmin))) dt) = reserved (xmax - xmin) dt vmin := by
    have h1 : 0 ≤ rnd (rnd (rnd (xmax - xmin) * rnd (1 / vmin)) / dt) :=
      rnd_nonneg (div_nonneg (rnd_nonneg (mul_nonneg (rnd_nonneg hX) (rnd_nonneg (by positivity)))) hdt.le)
    show pyInt (rnd (rnd (rnd (xmax - xmin) * rnd (1 / vmin)) / dt)) = _
    unfold pyInt
    rw [if_pos h1]; rfl
  have hnt : B64.ntaus npts (offsets.map fun x => sub x xmin) velocities dt =
      npts - reserved (xmax - xmin) dt vmin - 1 := by
    unfold B64.ntaus
    rw [hmaxp, hmaxv, hres]
  unfold B64.slantStack
  rw [hm, hvs]
  simp only [hhead]
  rw [← hvs, hnt]

theorem slantStack_cases (tm : List (List ℚ)) (offsets : List ℚ) (dt : ℚ) (velocities : List ℚ) (npts : ℕ)
    (h : SlantInput tm offsets dt velocities npts) (xmin xmax vmin : ℚ)
    (he : Extremes offsets velocities xmin xmax vmin) :
    ((npts : ℤ) < reserved (xmax - xmin) dt vmin + 1 ∧
      B64.slantStack tm offsets dt velocities = .error .valueError) ∨
    (reserved (xmax - xmin) dt vmin + 1 < npts ∧ reserved (xmax - xmin) dt vmin < used (xmax - xmin) dt vmin ∧
      B64.slantStack tm offsets dt velocities = .error .indexError) ∨
    (reserved (xmax - xmin) dt vmin + 1 ≤ npts ∧
      ((npts : ℤ) = reserved (xmax - xmin) dt vmin + 1 ∨
        used (xmax - xmin) dt vmin ≤ reserved (xmax - xmin) dt vmin) ∧
      ∃ rows, B64.slantStack tm offsets dt velocities = .ok rows ∧ rows.length = velocities.length ∧
        ∀ row ∈ rows, (row.length : ℤ) = npts - reserved (xmax - xmin) dt vmin - 1) := by
  obtain ⟨x0, xs, hx⟩ := List.exists_cons_of_ne_nil h.receivers
  have hdt := h.dt_pos
  have hv0 : 0 < vmin := h.velocities_pos _ he.vmin_mem
  have hmin := he.xmin_le
  have hunf := slantStack_unfold tm offsets dt velocities npts h xmin xmax vmin he
  have hpos : ∀ p ∈ offsets.map (fun x => sub x xmin), 0 ≤ p := by
    intro p hp
    obtain ⟨x, hx, rfl⟩ := List.mem_map.1 hp
    exact rnd_nonneg (by have := hmin x hx; linarith)
  by_cases hneg : (npts : ℤ) - reserved (xmax - xmin) dt vmin - 1 < 0
  · left; refine ⟨by omega, ?_⟩; rw [hunf, if_pos hneg]
  · right
    rw [hunf, if_neg hneg]
    have hused : ∀ v ∈ velocities, ∀ p ∈ offsets.map (fun x => sub x xmin),
        ⌊floatIndex p dt v⌋ ≤ used (xmax - xmin) dt vmin := by
      intro v hv p hp
      refine Int.floor_le_floor (floatIndex_mono (p := rnd (xmax - xmin)) hdt hv0 (he.vmin_le v hv) (hpos p hp) ?_)
      obtain ⟨x, hx, rfl⟩ := List.mem_map.1 hp
      exact rnd_mono (by have := he.le_xmax x hx; linarith)
    have hcarry : Props.CarryOk (offsets.map fun x => sub x xmin)
        ((npts : ℤ) - reserved (xmax - xmin) dt vmin - 1).toNat
        ((offsets.map fun x => sub x xmin).map fun _ => ((List.range
          ((npts : ℤ) - reserved (xmax - xmin) dt vmin - 1).toNat).map fun (j : ℕ) => (j : ℤ), 0)) := by
      refine ⟨by simp, ?_⟩
      intro c hc
      obtain ⟨p, _, rfl⟩ := List.mem_map.1 hc
      simp
    rcases slantRows_cases tm (offsets.map fun x => sub x xmin) dt
        ((npts : ℤ) - reserved (xmax - xmin) dt vmin - 1).toNat npts (by simp [h.traces]) h.lengths hdt hpos velocities
        h.velocities_pos _ hcarry with ⟨h1, rows, h2, h3, h4⟩ | ⟨h1, h2⟩
    · right
      refine ⟨by omega, ?_, rows, h4, h2, ?_⟩
      · have := h1 vmin he.vmin_mem (rnd (xmax - xmin)) (List.mem_map.2 ⟨xmax, he.xmax_mem, rfl⟩)
        have e : ⌊floatIndex (rnd (xmax - xmin)) dt vmin⌋ = used (xmax - xmin) dt vmin := rfl
        rw [e] at this
        omega
      · intro row hrow
        have := h3 row hrow
        omega
    · left
      push Not at h1
      obtain ⟨v, hv, p, hp, h3, h4⟩ := h1
      have := hused v hv p hp
      exact ⟨by omega, by omega, h2⟩

/-! ## Theorems -/

/-- **C66** (with binary64 arithmetic).  The slant stack reads outside of the record, so that `IndexError` is raised,
exactly when at least one delay is computed and the longest shift as the code rounds it where it reads, `used`, is
larger than the longest shift as the code rounds it where it counts the delays, `reserved`. -/
theorem C66_binary64_outside_iff (tm : List (List ℚ)) (offsets : List ℚ) (dt : ℚ) (velocities : List ℚ) (npts : ℕ)
    (h : SlantInput tm offsets dt velocities npts) (xmin xmax vmin : ℚ)
    (he : Extremes offsets velocities xmin xmax vmin) :
    B64.slantStack tm offsets dt velocities = .error .indexError ↔
      reserved (xmax - xmin) dt vmin + 1 < npts ∧
        reserved (xmax - xmin) dt vmin < used (xmax - xmin) dt vmin := by
  rcases slantStack_cases tm offsets dt velocities npts h xmin xmax vmin he with
    ⟨h1, h2⟩ | ⟨h1, h2, h3⟩ | ⟨h1, h2, rows, h3, _, _⟩
  · rw [h2]; constructor
    · intro hc; cases hc
    · intro hc; omega
  · rw [h3]; exact ⟨fun _ => ⟨h1, h2⟩, fun _ => rfl⟩
  · rw [h3]; constructor
    · intro hc; cases hc
    · intro hc; omega

theorem rnd_error_factor {x : ℚ} (h : 0 ≤ x) {a b y : ℚ} (ha : y * a ≤ x) (hb : x ≤ y * b) :
    y * a * (1 - 1 / 2 ^ 53) ≤ rnd x ∧ rnd x ≤ y * b * (1 + 1 / 2 ^ 53) := by
  obtain ⟨h1, h2⟩ := rnd_bounds h
  exact ⟨le_trans (mul_le_mul_of_nonneg_right ha (by norm_num)) h1,
    le_trans h2 (mul_le_mul_of_nonneg_right hb (by norm_num))⟩

theorem delay_bounds {X dt v : ℚ} (hX : 0 ≤ X) (hdt : 0 < dt) (hv : 0 < v) :
    X / v / dt * (1 - 1 / 2 ^ 50) ≤ rnd (rnd (rnd X * rnd (1 / v)) / dt) ∧
    rnd (rnd (rnd X * rnd (1 / v)) / dt) ≤ X / v / dt * (1 + 1 / 2 ^ 50) ∧
    X / v / dt * (1 - 1 / 2 ^ 50) ≤ rnd (rnd (rnd X / dt) / v) ∧
    rnd (rnd (rnd X / dt) / v) ≤ X / v / dt * (1 + 1 / 2 ^ 50) := by
  have hD : 0 ≤ X / v / dt := div_nonneg (div_nonneg hX hv.le) hdt.le
  have a1 := rnd_bounds hX
  have hiv : (0 : ℚ) ≤ 1 / v := by positivity
  have a2 := rnd_bounds hiv
  have hX' := rnd_nonneg hX
  have hv' := rnd_nonneg hiv
  have hu : (0 : ℚ) ≤ 1 - 1 / 2 ^ 53 := by norm_num
  -- product
  have p1 : X / v * ((1 - 1 / 2 ^ 53) * (1 - 1 / 2 ^ 53)) ≤ rnd X * rnd (1 / v) := by
    have := mul_le_mul a1.1 a2.1 (mul_nonneg hiv hu) hX'
    calc X / v * ((1 - 1 / 2 ^ 53) * (1 - 1 / 2 ^ 53)) = X * (1 - 1 / 2 ^ 53) * (1 / v * (1 - 1 / 2 ^ 53)) := by ring
      _ ≤ _ := this
  have p2 : rnd X * rnd (1 / v) ≤ X / v * ((1 + 1 / 2 ^ 53) * (1 + 1 / 2 ^ 53)) := by
    have := mul_le_mul a1.2 a2.2 hv' (mul_nonneg hX (by norm_num))
    calc _ ≤ X * (1 + 1 / 2 ^ 53) * (1 / v * (1 + 1 / 2 ^ 53)) := this
      _ = _ := by ring
  have q := rnd_error_factor (mul_nonneg hX' hv') p1 p2
  have r1 : X / v / dt * ((1 - 1 / 2 ^ 53) * (1 - 1 / 2 ^ 53) * (1 - 1 / 2 ^ 53)) ≤ rnd (rnd X * rnd (1 / v)) / dt := by
    have := div_le_div_of_nonneg_right q.1 hdt.le
    calc _ = X / v * ((1 - 1 / 2 ^ 53) * (1 - 1 / 2 ^ 53)) * (1 - 1 / 2 ^ 53) / dt := by ring
      _ ≤ _ := this
  have r2 : rnd (rnd X * rnd (1 / v)) / dt ≤ X / v / dt * ((1 + 1 / 2 ^ 53) * (1 + 1 / 2 ^ 53) * (1 + 1 / 2 ^ 53)) := by
    have := div_le_div_of_nonneg_right q.2 hdt.le
    calc _ ≤ X / v * ((1 + 1 / 2 ^ 53) * (1 + 1 / 2 ^ 53)) * (1 + 1 / 2 ^ 53) / dt := this
      _ = _ := by ring
  have s := rnd_error_factor (div_nonneg (rnd_nonneg (mul_nonneg hX' hv')) hdt.le) r1 r2
  -- quotient
  have t1 : X / dt * (1 - 1 / 2 ^ 53) ≤ rnd X / dt := by
    have := div_le_div_of_nonneg_right a1.1 hdt.le
    calc _ = X * (1 - 1 / 2 ^ 53) / dt := by ring
      _ ≤ _ := this
  have t2 : rnd X / dt ≤ X / dt * (1 + 1 / 2 ^ 53) := by
    have := div_le_div_of_nonneg_right a1.2 hdt.le
    calc _ ≤ X * (1 + 1 / 2 ^ 53) / dt := this
      _ = _ := by ring
  have hXd : 0 ≤ rnd X / dt := div_nonneg hX' hdt.le
  have t := rnd_error_factor hXd t1 t2
  have w1 : X / v / dt * ((1 - 1 / 2 ^ 53) * (1 - 1 / 2 ^ 53)) ≤ rnd (rnd X / dt) / v := by
    have := div_le_div_of_nonneg_right t.1 hv.le
    calc _ = X / dt * (1 - 1 / 2 ^ 53) * (1 - 1 / 2 ^ 53) / v := by ring
      _ ≤ _ := this
  have w2 : rnd (rnd X / dt) / v ≤ X / v / dt * ((1 + 1 / 2 ^ 53) * (1 + 1 / 2 ^ 53)) := by
    have := div_le_div_of_nonneg_right t.2 hv.le
    calc _ ≤ X / dt * (1 + 1 / 2 ^ 53) * (1 + 1 / 2 ^ 53) / v := this
      _ = _ := by ring
  have w := rnd_error_factor (div_nonneg (rnd_nonneg hXd) hv.le) w1 w2
  generalize X / v / dt = D at *
  refine ⟨le_trans ?_ s.1, le_trans s.2 ?_, le_trans ?_ w.1, le_trans w.2 ?_⟩ <;> rw [mul_assoc] <;>
    exact mul_le_mul_of_nonneg_left (by norm_num) hD

/-- Two numbers rounded from `D` have the same integer part as `D` when no positive integer is near `D`. -/
theorem floor_stable {D y : ℚ} (hD : 0 ≤ D) (hfar : ∀ n : ℕ, n ≠ 0 → D / 2 ^ 50 < |D - n|)
    (h1 : D * (1 - 1 / 2 ^ 50) ≤ y) (h2 : y ≤ D * (1 + 1 / 2 ^ 50)) : ⌊y⌋ = ⌊D⌋ := by
  have f0 := Int.floor_nonneg.2 hD
  have f1 := Int.floor_le D
  have f2 := Int.lt_floor_add_one D
  obtain ⟨k, hk⟩ := Int.eq_ofNat_of_zero_le f0
  rw [Int.floor_eq_iff]
  rw [hk] at f1 f2 ⊢
  push_cast at f1 f2 ⊢
  have e1 : D * (1 - 1 / 2 ^ 50) = D - D / 2 ^ 50 := by ring
  have e2 : D * (1 + 1 / 2 ^ 50) = D + D / 2 ^ 50 := by ring
  have hn := hfar (k + 1) (by omega)
  push_cast at hn
  rw [abs_of_neg (by linarith)] at hn
  refine ⟨?_, by linarith⟩
  rcases Nat.eq_zero_or_pos k with rfl | hk0
  · have : 0 ≤ D * (1 - 1 / 2 ^ 50) := mul_nonneg hD (by norm_num)
    push_cast; linarith
  · have := hfar k (by omega)
    rw [abs_of_nonneg (by linarith)] at this
    linarith

/-- **C66** (with binary64 arithmetic).  If the longest delay in samples is not a whole number up to a relative
difference of `2^-50`, the slant stack does not read outside of the record: it is refused as too short when the
record is, and otherwise returns for every velocity as many delays as with exact numbers.  Missing: longest delays
which are a whole number of samples, see `C66_binary64_fails`. -/
theorem C66_binary64_partial (tm : List (List ℚ)) (offsets : List ℚ) (dt : ℚ) (velocities : List ℚ) (npts : ℕ)
    (h : SlantInput tm offsets dt velocities npts) (xmin xmax vmin : ℚ)
    (he : Extremes offsets velocities xmin xmax vmin)
    (hfar : ∀ n : ℕ, n ≠ 0 → (xmax - xmin) / vmin / dt / 2 ^ 50 < |(xmax - xmin) / vmin / dt - n|) :
    if (npts : ℤ) < ⌊(xmax - xmin) / vmin / dt⌋ + 1 then
      B64.slantStack tm offsets dt velocities = .error .valueError
    else ∃ rows, B64.slantStack tm offsets dt velocities = .ok rows ∧ rows.length = velocities.length ∧
      ∀ row ∈ rows, (row.length : ℤ) = npts - ⌊(xmax - xmin) / vmin / dt⌋ - 1 := by
  have hX : 0 ≤ xmax - xmin := by have := he.xmin_le _ he.xmax_mem; linarith
  have hv0 : 0 < vmin := h.velocities_pos _ he.vmin_mem
  have hdt := h.dt_pos
  have hD : 0 ≤ (xmax - xmin) / vmin / dt := div_nonneg (div_nonneg hX hv0.le) hdt.le
  obtain ⟨b1, b2, b3, b4⟩ := delay_bounds hX hdt hv0
  have e1 : reserved (xmax - xmin) dt vmin = ⌊(xmax - xmin) / vmin / dt⌋ := floor_stable hD hfar b1 b2
  have e2 : used (xmax - xmin) dt vmin = ⌊(xmax - xmin) / vmin / dt⌋ := floor_stable hD hfar b3 b4
  have hc := slantStack_cases tm offsets dt velocities npts h xmin xmax vmin he
  rw [e1, e2] at hc
  rcases hc with ⟨h1, h2⟩ | ⟨h1, h2, h3⟩ | ⟨h1, _, rows, h3, h4, h5⟩
  · rw [if_pos h1]; exact h2
  · omega
  · rw [if_neg (by omega)]; exact ⟨rows, h3, h4, h5⟩

set_option maxRecDepth 10000 in
theorem reserved_witness : reserved 22 (rnd (1 / 1000)) 110 = 199 ∧ used 22 (rnd (1 / 1000)) 110 = 200 := by
  decide +kernel

/-- **C66 fails** with binary64 arithmetic.  Whatever the traces, on a spread of 22 m (12 receivers 2 m apart, say)
with a sampling step of one millisecond and a slowest trial velocity of 110 m/s, where the longest delay is 200
samples, the slant stack of every record of more than 200 samples ends in `IndexError`: the code counts the delays
with a longest delay of 199 samples. -/
theorem C66_binary64_fails (tm : List (List ℚ)) (offsets : List ℚ) (velocities : List ℚ) (npts : ℕ)
    (h : SlantInput tm offsets (rnd (1 / 1000)) velocities npts) (xmin xmax : ℚ)
    (he : Extremes offsets velocities xmin xmax 110) (hX : xmax - xmin = 22) (hn : 200 < npts) :
    B64.slantStack tm offsets (rnd (1 / 1000)) velocities = .error .indexError := by
  rw [C66_binary64_outside_iff tm offsets _ velocities npts h xmin xmax 110 he, hX,
    reserved_witness.1, reserved_witness.2]
  omega

/-! ## Instances -/

/-- Two receivers, 250 samples of zero. -/
private theorem witness_input (x v : ℚ) (hv : 0 < v) : SlantInput [List.replicate 250 0, List.replicate 250 0] [0, x]
    (rnd (1 / 1000)) [v, v + 10] 250 where
  receivers := by simp
  traces := rfl
  lengths := by
    intro u hu
    rcases List.mem_cons.1 hu with rfl | hu
    · exact List.length_replicate
    · rw [List.mem_singleton.1 hu]; exact List.length_replicate
  dt_pos := rnd_pos (by norm_num)
  some_velocity := by simp
  velocities_pos := by simp; exact ⟨hv, by linarith⟩

private theorem witness_extremes (x v : ℚ) (hx : 0 ≤ x) : Extremes [0, x] [v, v + 10] 0 x v where
  xmin_mem := by simp
  xmin_le := by simp [hx]
  xmax_mem := by simp
  le_xmax := by simp [hx]
  vmin_mem := by simp
  vmin_le := by simp

example : B64.slantStack [List.replicate 250 0, List.replicate 250 0] [0, 22] (rnd (1 / 1000)) [110, 110 + 10] =
    .error .indexError :=
  C66_binary64_fails _ _ _ 250 (witness_input 22 110 (by norm_num)) 0 22 (witness_extremes 22 110 (by norm_num))
    (by norm_num) (by norm_num)

/-- With exact numbers the same record is not refused. -/
example (dt : ℚ) (hdt : dt = 1 / 1000) : WT.slantStack [List.replicate 250 0, List.replicate 250 0] [0, 22] dt
    [110, 110 + 10] ≠ .error .valueError := by
  rw [Ne, Props.C66_refused_iff _ _ dt _ 250 ⟨by simp, rfl, (witness_input 22 110 (by norm_num)).lengths,
    by rw [hdt]; norm_num, by simp, (witness_input 22 110 (by norm_num)).velocities_pos⟩ 0 (by simp) (by simp)]
  subst hdt
  rintro ⟨x, hx, v, hv, h⟩
  simp only [List.mem_cons, List.not_mem_nil, or_false] at hx hv
  have : ⌊(x - 0) / v / (1 / 1000)⌋ ≤ 200 := by
    rw [← Int.cast_le (R := ℚ)]
    refine le_trans (Int.floor_le _) ?_
    rcases hx with rfl | rfl <;> rcases hv with rfl | rfl <;> norm_num
  omega

/-- A spread of 23 m, where the longest delay is 209.09 samples: any two traces of 250 samples are accepted. -/
theorem accepted_23 (a b : List ℚ) (ha : a.length = 250) (hb : b.length = 250) :
    SlantInput [a, b] [0, 23] (rnd (1 / 1000)) [110, 120] 250 ∧ Extremes [0, 23] [110, 120] 0 23 110 ∧
    ∃ rows, B64.slantStack [a, b] [0, 23] (rnd (1 / 1000)) [110, 120] = .ok rows ∧ rows.length = 2 ∧
      ∀ row ∈ rows, row.length = 40 := by
  have hin : SlantInput [a, b] [0, 23] (rnd (1 / 1000)) [110, 120] 250 :=
    ⟨by simp, rfl, by simp [ha, hb], rnd_pos (by norm_num), by simp, by simp⟩
  have hex : Extremes [0, 23] [110, 120] 0 23 110 :=
    ⟨by simp, by simp, by simp, by simp, by simp, by simp; norm_num⟩
  refine ⟨hin, hex, ?_⟩
  have hd := rnd_bounds (x := 1 / 1000) (by norm_num)
  have hp : 0 < rnd (1 / 1000) := rnd_pos (by norm_num)
  have h1 : (23 - 0) / 110 / rnd (1 / 1000) < 2091 / 10 := by
    rw [div_lt_iff₀ hp]; norm_num at hd ⊢; linarith
  have h2 : 209 + 9 / 100 < (23 - 0) / 110 / rnd (1 / 1000) := by
    rw [lt_div_iff₀ hp]; norm_num at hd ⊢; linarith
  have hf : ⌊(23 - 0) / 110 / rnd (1 / 1000)⌋ = 209 := by
    rw [Int.floor_eq_iff]; constructor <;> push_cast <;> linarith
  have := C66_binary64_partial _ _ _ _ 250 hin 0 23 110 hex (by
      intro n _
      generalize (23 - 0) / 110 / rnd (1 / 1000) = D at h1 h2
      rcases Nat.lt_or_ge n 210 with hn | hn
      · have : (n : ℚ) ≤ 209 := by exact_mod_cast (by omega : n ≤ 209)
        rw [abs_of_nonneg (by linarith)]
        linarith
      · have : (210 : ℚ) ≤ n := by exact_mod_cast hn
        rw [abs_of_neg (by linarith)]
        linarith)
  rw [hf, if_neg (by norm_num)] at this
  obtain ⟨rows, a, b, c⟩ := this
  exact ⟨rows, a, b, fun row hr => by have := c row hr; norm_num at this; exact_mod_cast this⟩

end Verif.Props.B64
