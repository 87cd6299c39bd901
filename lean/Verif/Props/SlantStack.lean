import Verif.Model.Transform
import Mathlib.Algebra.Order.Floor.Ring
import Mathlib.Algebra.BigOperators.Group.List.Basic
import Mathlib.Tactic.Linarith
import Mathlib.Tactic.Ring
import Mathlib.Tactic.NormNum
import Mathlib.Tactic.FieldSimp

/-!
# C66, C67: the slant stack

Exact arithmetic: with float64 the bound computed once for the largest delay and the individual
indices are rounded independently: see `Props/RoundedSlant.lean`.
-/

namespace Verif.Props
open Verif WT

/-! ## Specification -/

/-- The trace `u`, sampled at `0, dt, 2dt, ...`, linearly interpolated at time `t`. -/
def linearAt (u : List ℚ) (dt t : ℚ) : ℚ :=
  let i := ⌊t / dt⌋
  u.getD i.toNat 0 * (1 - (t / dt - i)) + u.getD (i.toNat + 1) 0 * (t / dt - i)

/-- Trapezoidal integral over the offsets `x` of a quantity known at each receiver. -/
def trapezoidSum (x : List ℚ) (g : ℕ → ℚ) : ℚ :=
  ((List.range (x.length - 1)).map fun k =>
    (x.getD (k + 1) 0 - x.getD k 0) / 2 * (g k + g (k + 1))).sum

/-- The slant stack at velocity `v` and delay `tau`. -/
def slantSpec (tm : List (List ℚ)) (offsets : List ℚ) (xmin dt v tau : ℚ) : ℚ :=
  trapezoidSum offsets fun k =>
    linearAt (tm.getD k []) dt (tau + (offsets.getD k 0 - xmin) / v)

/-- A record the slant stack is defined on. -/
structure SlantInput (tm : List (List ℚ)) (offsets : List ℚ) (dt : ℚ) (velocities : List ℚ)
    (npts : ℕ) : Prop where
  receivers : offsets ≠ []
  traces : tm.length = offsets.length
  lengths : ∀ u ∈ tm, u.length = npts
  dt_pos : 0 < dt
  some_velocity : velocities ≠ []
  velocities_pos : ∀ v ∈ velocities, 0 < v

/-! ## Lemmas -/

theorem foldl_minList_spec (l : List ℚ) : ∀ x, (l.foldl min x = x ∨ l.foldl min x ∈ l) ∧
    l.foldl min x ≤ x ∧ ∀ y ∈ l, l.foldl min x ≤ y := by
  induction l with
  | nil => intro x; simp
  | cons a l ih =>
    intro x
    obtain ⟨h1, h2, h3⟩ := ih (min x a)
    simp only [List.foldl_cons]
    refine ⟨?_, le_trans h2 (min_le_left _ _), ?_⟩
    · rcases h1 with h | h
      · rcases min_choice x a with h' | h'
        · left; rw [h, h']
        · right; rw [h, h']; exact List.mem_cons_self
      · right; exact List.mem_cons_of_mem _ h
    · intro y hy
      rcases List.mem_cons.1 hy with rfl | hy
      · exact le_trans h2 (min_le_right _ _)
      · exact h3 y hy

theorem minList_spec {l : List ℚ} {m : ℚ} (h : Arr.minList l = some m) :
    m ∈ l ∧ ∀ y ∈ l, m ≤ y := by
  cases l with
  | nil => cases h
  | cons x xs =>
    cases h
    obtain ⟨h1, h2, h3⟩ := foldl_minList_spec xs x
    refine ⟨?_, ?_⟩
    · rcases h1 with h | h
      · rw [h]; exact List.mem_cons_self
      · exact List.mem_cons_of_mem _ h
    · intro y hy
      rcases List.mem_cons.1 hy with rfl | hy
      · exact h2
      · exact h3 y hy

theorem foldl_max_ge (l : List ℚ) : ∀ x, x ≤ l.foldl max x ∧ ∀ y ∈ l, y ≤ l.foldl max x := by
  induction l with
  | nil => intro x; simp
  | cons a l ih =>
    intro x
    obtain ⟨h2, h3⟩ := ih (max x a)
    simp only [List.foldl_cons]
    refine ⟨le_trans (le_max_left _ _) h2, ?_⟩
    intro y hy
    rcases List.mem_cons.1 hy with rfl | hy
    · exact le_trans (le_max_right _ _) h2
    · exact h3 y hy

theorem le_maxList {l : List ℚ} {y : ℚ} (h : y ∈ l) : y ≤ (Arr.maxList l).getD 0 := by
  cases l with
  | nil => cases h
  | cons x xs =>
    obtain ⟨h2, h3⟩ := foldl_max_ge xs x
    rcases List.mem_cons.1 h with rfl | hy
    · exact h2
    · exact h3 y hy

theorem mapM_ok_pointwise {α β : Type} (f : α → Except PyErr β) (l : List α) (g : α → β)
    (h : ∀ a ∈ l, f a = .ok (g a)) : l.mapM f = .ok (l.map g) := by
  induction l with
  | nil => rfl
  | cons a l ih =>
    rw [List.mapM_cons, h a List.mem_cons_self, ih (fun b hb => h b (List.mem_cons_of_mem _ hb))]
    rfl

/-- The lower index for receiver position `p`. -/
abbrev low (dt v p : ℚ) : ℤ := pyInt (p / dt / v)

/-- What the carried columns look like after a velocity has been processed. -/
def fullCarry (pos : List ℚ) (dt : ℚ) (nt : ℕ) (v : ℚ) : Carry :=
  pos.map fun p => ((List.range nt).map fun (j : ℕ) => (j : ℤ) + low dt v p, low dt v p)

/-- Carried state: each trace holds its delays shifted by its own previous lower index. -/
def CarryOk (pos : List ℚ) (nt : ℕ) (carry : Carry) : Prop :=
  carry.length = pos.length ∧ ∀ c ∈ carry, c.1 = (List.range nt).map fun (j : ℕ) => (j : ℤ) + c.2

theorem update_carry : ∀ (pos : List ℚ) (dt : ℚ) (nt : ℕ) (v : ℚ) (carry : Carry),
    CarryOk pos nt carry →
    List.zipWith (fun p c => updateCols p dt v c) pos carry = fullCarry pos dt nt v
  | [], _, _, _, [], _ => rfl
  | [], _, _, _, _ :: _, h => by simp [CarryOk] at h
  | _ :: _, _, _, _, [], h => by simp [CarryOk] at h
  | p :: pos, dt, nt, v, c :: carry, h => by
    have hc := h.2 c List.mem_cons_self
    have ih := update_carry pos dt nt v carry
      ⟨by simpa using h.1, fun d hd => h.2 d (List.mem_cons_of_mem _ hd)⟩
    simp only [List.zipWith_cons_cons, fullCarry, List.map_cons, List.cons.injEq]
    refine ⟨?_, ih⟩
    simp only [updateCols, hc, List.map_map, Prod.mk.injEq, and_true]
    refine List.map_congr_left fun j _ => ?_
    simp only [Function.comp, low]; ring

theorem fullCarry_ok (pos : List ℚ) (dt : ℚ) (nt : ℕ) (v : ℚ) : CarryOk pos nt (fullCarry pos dt nt v) := by
  refine ⟨by simp [fullCarry], ?_⟩
  intro c hc
  obtain ⟨p, _, rfl⟩ := List.mem_map.1 hc
  rfl

theorem readSample_ok (u : List ℚ) (i : ℕ) (h : i < u.length) :
    readSample u (i : ℤ) = .ok (u.getD i 0) := by
  unfold readSample
  rw [if_neg (by omega)]
  simp [List.getD_eq_getElem?_getD, h]

theorem amplitudes_ok (u : List ℚ) (nt L : ℕ) (δ : ℚ) (h : nt + L < u.length + 1)
    (h' : nt = 0 ∨ nt + L ≤ u.length - 1) :
    amplitudes u ((List.range nt).map fun (j : ℕ) => (j : ℤ) + (L : ℤ)) δ =
      .ok ((List.range nt).map fun j => u.getD (j + L) 0 * (1 - δ) + u.getD (j + L + 1) 0 * δ) := by
  unfold amplitudes
  rw [mapM_ok_pointwise _ _ (fun c : ℤ => u.getD c.toNat 0 * (1 - δ) + u.getD (c.toNat + 1) 0 * δ)]
  · rw [List.map_map]
    refine congrArg _ (List.map_congr_left fun j _ => ?_)
    simp only [Function.comp]
    have : ((j : ℤ) + (L : ℤ)).toNat = j + L := by omega
    rw [this]
  · intro c hc
    obtain ⟨j, hj, rfl⟩ := List.mem_map.1 hc
    have hj' := List.mem_range.1 hj
    have e1 : ((j : ℤ) + (L : ℤ)) = ((j + L : ℕ) : ℤ) := by push_cast; rfl
    have e2 : ((j : ℤ) + (L : ℤ)) + 1 = ((j + L + 1 : ℕ) : ℤ) := by push_cast; rfl
    rw [e2, e1, readSample_ok _ _ (by omega), readSample_ok _ _ (by omega)]
    rfl

theorem trapezoid_eq_sum : ∀ (x a : List ℚ), a.length = x.length →
    trapezoid (Arr.diff x) a = trapezoidSum x fun k => a.getD k 0
  | [], a, h => by
    cases a with
    | nil => rfl
    | cons => simp at h
  | [x], a, h => by
    simp only [Arr.diff, trapezoidSum]
    cases a with
    | nil => rfl
    | cons => rfl
  | x :: y :: xs, [], h => by simp at h
  | x :: y :: xs, [a], h => by simp at h
  | x :: y :: xs, a :: b :: as, h => by
    have ih := trapezoid_eq_sum (y :: xs) (b :: as) (by simpa using h)
    simp only [Arr.diff, trapezoid]
    rw [ih]
    simp only [trapezoidSum, List.length_cons, Nat.add_sub_cancel, List.range_succ_eq_map,
      List.map_cons, List.sum_cons, List.map_map]
    simp only [List.getD_cons_zero, List.getD_cons_succ, Function.comp_def, Nat.succ_eq_add_one]
    ring

/-- Facts about lower indices for non-negative positions. -/
theorem low_nonneg {dt v p : ℚ} (hdt : 0 < dt) (hv : 0 < v) (hp : 0 ≤ p) :
    low dt v p = ⌊p / dt / v⌋ ∧ 0 ≤ ⌊p / dt / v⌋ := by
  have : 0 ≤ p / dt / v := div_nonneg (div_nonneg hp hdt.le) hv.le
  exact ⟨by simp [low, pyInt, this], Int.floor_nonneg.2 this⟩

theorem amps_at {dt v p : ℚ} (hdt : 0 < dt) (hv : 0 < v) (hp : 0 ≤ p) (u : List ℚ) (j : ℕ) :
    u.getD (j + (low dt v p).toNat) 0 * (1 - (p / dt / v - low dt v p)) +
      u.getD (j + (low dt v p).toNat + 1) 0 * (p / dt / v - low dt v p) =
    linearAt u dt (j * dt + p / v) := by
  obtain ⟨h1, h2⟩ := low_nonneg hdt hv hp
  have hdt0 := ne_of_gt hdt
  have hv0 := ne_of_gt hv
  have e : (j * dt + p / v) / dt = (j : ℤ) + p / dt / v := by
    push_cast; field_simp
  unfold linearAt
  simp only [e, Int.floor_intCast_add, h1]
  have t : ((j : ℤ) + ⌊p / dt / v⌋).toNat = j + ⌊p / dt / v⌋.toNat := by omega
  rw [t]
  push_cast
  ring

theorem slantRow_ok (tm : List (List ℚ)) (pos : List ℚ) (dt v : ℚ) (nt npts : ℕ) (carry : Carry)
    (hlen : tm.length = pos.length) (hu : ∀ u ∈ tm, u.length = npts) (hdt : 0 < dt) (hv : 0 < v)
    (hpos : ∀ p ∈ pos, 0 ≤ p) (hb : ∀ p ∈ pos, ⌊p / dt / v⌋ + nt + 1 ≤ npts)
    (hc : CarryOk pos nt carry) :
    slantRow tm pos dt nt carry v = .ok (fullCarry pos dt nt v, (List.range nt).map fun (j : ℕ) =>
      trapezoidSum pos fun k => linearAt (tm.getD k []) dt (j * dt + pos.getD k 0 / v)) := by
  unfold slantRow
  rw [update_carry pos dt nt v carry hc]
  have key : ((tm.zip (pos.zip (fullCarry pos dt nt v))).mapM fun x =>
      amplitudes x.1 x.2.2.1 (x.2.1 / dt / v - pyInt (x.2.1 / dt / v))) =
      .ok ((tm.zip (pos.zip (fullCarry pos dt nt v))).map fun x => (List.range nt).map fun (j : ℕ) =>
        linearAt x.1 dt (j * dt + x.2.1 / v)) := by
    refine mapM_ok_pointwise _ _ _ ?_
    intro x hx
    obtain ⟨i, hi⟩ := List.mem_iff_getElem?.1 hx
    rw [List.getElem?_zip_eq_some] at hi
    obtain ⟨hi1, hi2⟩ := hi
    rw [List.getElem?_zip_eq_some] at hi2
    obtain ⟨hi2, hi3⟩ := hi2
    have hp := List.mem_of_getElem? hi2
    have hx3 : x.2.2 = ((List.range nt).map fun (j : ℕ) => (j : ℤ) + low dt v x.2.1, low dt v x.2.1) := by
      unfold fullCarry at hi3
      rw [List.getElem?_map, hi2] at hi3
      exact (Option.some.inj hi3).symm
    obtain ⟨l1, l2⟩ := low_nonneg hdt hv (hpos _ hp)
    have hul := hu _ (List.mem_of_getElem? hi1)
    have hbb := hb _ hp
    have hL : low dt v x.2.1 = ((low dt v x.2.1).toNat : ℤ) := by omega
    rw [hx3]
    simp only
    rw [hL, amplitudes_ok _ _ _ _ (by omega) (by omega)]
    refine congrArg _ (List.map_congr_left fun j _ => ?_)
    have := amps_at hdt hv (hpos _ hp) x.1 j
    simpa using this
  simp only [key, bind, Except.bind, pure, Except.pure]
  refine congrArg _ (Prod.ext rfl ?_)
  refine List.map_congr_left fun j hj => ?_
  have hj' := List.mem_range.1 hj
  rw [trapezoid_eq_sum _ _ (by simp [hlen, fullCarry])]
  unfold trapezoidSum
  refine congrArg List.sum (List.map_congr_left fun k hk => ?_)
  have hk' := List.mem_range.1 hk
  have get : ∀ i, i < pos.length →
      (((tm.zip (pos.zip (fullCarry pos dt nt v))).map fun x => (List.range nt).map fun (j : ℕ) =>
        linearAt x.1 dt (j * dt + x.2.1 / v)).map fun a => a.getD j 0).getD i 0 =
      linearAt (tm.getD i []) dt (j * dt + pos.getD i 0 / v) := by
    intro i hi
    have hfc : i < (fullCarry pos dt nt v).length := by simpa [fullCarry] using hi
    have hti : i < tm.length := by omega
    have hz : (tm.zip (pos.zip (fullCarry pos dt nt v)))[i]? =
        some (tm[i], (pos[i], (fullCarry pos dt nt v)[i])) := by
      rw [List.getElem?_zip_eq_some]
      refine ⟨List.getElem?_eq_getElem hti, ?_⟩
      rw [List.getElem?_zip_eq_some]
      exact ⟨List.getElem?_eq_getElem hi, List.getElem?_eq_getElem hfc⟩
    rw [List.getD_eq_getElem?_getD, List.getElem?_map, List.getElem?_map, hz]
    simp [List.getD_eq_getElem?_getD, hj', hi, hti]
  beta_reduce
  rw [get k (by omega), get (k + 1) (by omega)]

theorem slantRows_ok (tm : List (List ℚ)) (pos : List ℚ) (dt : ℚ) (nt npts : ℕ)
    (hlen : tm.length = pos.length) (hu : ∀ u ∈ tm, u.length = npts) (hdt : 0 < dt)
    (hpos : ∀ p ∈ pos, 0 ≤ p) (vs : List ℚ) : ∀ (carry : Carry), CarryOk pos nt carry →
    (∀ v ∈ vs, 0 < v ∧ ∀ p ∈ pos, ⌊p / dt / v⌋ + nt + 1 ≤ npts) →
    slantRows tm pos dt nt carry vs = .ok (vs.map fun v => (List.range nt).map fun (j : ℕ) =>
      trapezoidSum pos fun k => linearAt (tm.getD k []) dt (j * dt + pos.getD k 0 / v)) := by
  induction vs with
  | nil => intro carry _ _; rfl
  | cons v vs ih =>
    intro carry hc hv
    obtain ⟨h1, h2⟩ := hv v List.mem_cons_self
    have hr := slantRow_ok tm pos dt v nt npts carry hlen hu hdt h1 hpos h2 hc
    have := ih (fullCarry pos dt nt v) (fullCarry_ok pos dt nt v)
      (fun w hw => hv w (List.mem_cons_of_mem _ hw))
    simp only [slantRows, hr, this, bind, Except.bind, pure, Except.pure, List.map_cons]

theorem slant_bound {pos velocities : List ℚ} {dt v p : ℚ} (hdt : 0 < dt) (hv : 0 < v)
    (hvm : v ∈ velocities) (hp : 0 ≤ p) (hpm : p ∈ pos) :
    ⌊p / dt / v⌋ ≤ pyInt ((Arr.maxList pos).getD 0 *
      (Arr.maxList (velocities.map fun v => 1 / v)).getD 0 / dt) := by
  have h1 := le_maxList hpm
  have h2 : 1 / v ≤ (Arr.maxList (velocities.map fun v => 1 / v)).getD 0 :=
    le_maxList (List.mem_map.2 ⟨v, hvm, rfl⟩)
  have hv' : 0 ≤ 1 / v := by positivity
  have h3 : p * (1 / v) ≤ (Arr.maxList pos).getD 0 *
      (Arr.maxList (velocities.map fun v => 1 / v)).getD 0 :=
    mul_le_mul h1 h2 hv' (le_trans hp h1)
  have h4 : p / dt / v ≤ (Arr.maxList pos).getD 0 *
      (Arr.maxList (velocities.map fun v => 1 / v)).getD 0 / dt := by
    have : p / dt / v = p * (1 / v) / dt := by ring
    rw [this]
    exact div_le_div_of_nonneg_right h3 hdt.le
  have h5 : 0 ≤ p / dt / v := div_nonneg (div_nonneg hp hdt.le) hv.le
  unfold pyInt
  rw [if_pos (le_trans h5 h4)]
  exact Int.floor_le_floor h4

theorem maxList_mem (l : List ℚ) (hl : l ≠ []) : (Arr.maxList l).getD 0 ∈ l := by
  obtain ⟨y, ys, rfl⟩ := List.exists_cons_of_ne_nil hl
  have : ∀ (l : List ℚ) x, l.foldl max x = x ∨ l.foldl max x ∈ l := by
    intro l
    induction l with
    | nil => intro x; simp
    | cons a l ih =>
      intro x
      rcases ih (max x a) with h | h
      · rcases max_choice x a with h' | h'
        · left; simp only [List.foldl_cons]; rw [h, h']
        · right; simp only [List.foldl_cons]; rw [h, h']; exact List.mem_cons_self
      · right; exact List.mem_cons_of_mem _ h
  rcases this ys y with h | h
  · show ys.foldl max y ∈ _
    rw [h]; exact List.mem_cons_self
  · exact List.mem_cons_of_mem _ h

/-- The number of delays is the record length less one and the largest delay in samples. -/
theorem ntaus_attained {offsets velocities : List ℚ} {dt m : ℚ} {npts : ℕ} (h1 : offsets ≠ []) (h2 : velocities ≠ [])
    (hdt : 0 < dt) (hv : ∀ v ∈ velocities, 0 < v) (hmin : ∀ x ∈ offsets, m ≤ x) :
    ∃ x ∈ offsets, ∃ v ∈ velocities,
      ntaus npts (offsets.map fun x => x - m) velocities dt = npts - ⌊(x - m) / v / dt⌋ - 1 := by
  obtain ⟨x, hxo, hxe⟩ := List.mem_map.1 (maxList_mem (offsets.map fun x => x - m) (by simpa using h1))
  obtain ⟨v, hvo, hve⟩ := List.mem_map.1 (maxList_mem (velocities.map fun v => 1 / v) (by simpa using h2))
  refine ⟨x, hxo, v, hvo, ?_⟩
  have hv0 := hv v hvo
  have hx0 : 0 ≤ x - m := by have := hmin x hxo; linarith
  have e : (x - m) * (1 / v) / dt = (x - m) / v / dt := by ring
  have h0 : 0 ≤ (x - m) / v / dt := div_nonneg (div_nonneg hx0 hv0.le) hdt.le
  unfold ntaus
  rw [← hxe, ← hve, e, pyInt, if_pos h0]

/-! ## Theorems -/

/-- **C67** (and C66).  On every valid input the slant stack either refuses the record as too short
(`ValueError`), or returns for each trial velocity, in the given order, one value per delay
`0, dt, 2dt, ...`: the trapezoidal integral over offset of the traces linearly interpolated at
`delay + (offset - smallest offset)/velocity`.  The delays are as many as fit: `nt` of them leave the
interpolation inside the record for every receiver and velocity, one more would not. -/
theorem C67_slant_stack (tm : List (List ℚ)) (offsets : List ℚ) (dt : ℚ) (velocities : List ℚ)
    (npts : ℕ) (h : SlantInput tm offsets dt velocities npts) :
    slantStack tm offsets dt velocities = .error .valueError ∨
    ∃ (xmin : ℚ) (nt : ℕ), (xmin ∈ offsets ∧ ∀ x ∈ offsets, xmin ≤ x) ∧
      (∀ x ∈ offsets, ∀ v ∈ velocities, nt + ⌊(x - xmin) / v / dt⌋ + 1 ≤ npts) ∧
      (∃ x ∈ offsets, ∃ v ∈ velocities, nt + ⌊(x - xmin) / v / dt⌋ + 1 = npts) ∧
      slantStack tm offsets dt velocities = .ok (velocities.map fun v =>
        (List.range nt).map fun (j : ℕ) => slantSpec tm offsets xmin dt v (j * dt)) := by
  obtain ⟨x0, xs, hx⟩ := List.exists_cons_of_ne_nil h.receivers
  obtain ⟨v0, vs, hvs⟩ := List.exists_cons_of_ne_nil h.some_velocity
  obtain ⟨m, hm⟩ : ∃ m, Arr.minList offsets = some m := by rw [hx]; exact ⟨_, rfl⟩
  obtain ⟨hmem, hmin⟩ := minList_spec hm
  have hhead : (tm.headD []).length = npts := by
    have : tm ≠ [] := by
      intro h0; have := h.traces; rw [h0, hx] at this; simp at this
    obtain ⟨u, us, rfl⟩ := List.exists_cons_of_ne_nil this
    simpa using h.lengths u List.mem_cons_self
  have hunf : slantStack tm offsets dt velocities =
      if ntaus npts (offsets.map fun x => x - m) velocities dt < 0 then .error .valueError
      else slantRows tm (offsets.map fun x => x - m) dt
        (ntaus npts (offsets.map fun x => x - m) velocities dt).toNat
        ((offsets.map fun x => x - m).map fun _ => ((List.range
          (ntaus npts (offsets.map fun x => x - m) velocities dt).toNat).map fun (j : ℕ) => (j : ℤ), 0))
        velocities := by
    unfold slantStack
    rw [hm, hvs]
    simp only [hhead]
  by_cases hneg : ntaus npts (offsets.map fun x => x - m) velocities dt < 0
  · left; rw [hunf, if_pos hneg]
  · right
    refine ⟨m, (ntaus npts (offsets.map fun x => x - m) velocities dt).toNat, ⟨hmem, hmin⟩, ?_, ?_, ?_⟩
    · intro x hxo v hvo
      have hb := slant_bound (pos := offsets.map fun x => x - m) h.dt_pos (h.velocities_pos v hvo) hvo
        (sub_nonneg.2 (hmin x hxo)) (List.mem_map.2 ⟨x, hxo, rfl⟩)
      have e : (x - m) / dt / v = (x - m) / v / dt := by ring
      rw [e] at hb
      unfold ntaus at hneg ⊢
      omega
    · obtain ⟨x, hxo, v, hvo, e⟩ := ntaus_attained (npts := npts) h.receivers h.some_velocity h.dt_pos h.velocities_pos hmin
      exact ⟨x, hxo, v, hvo, by omega⟩
    rw [hunf, if_neg hneg]
    have hpos : ∀ p ∈ offsets.map (fun x => x - m), 0 ≤ p := by
      intro p hp
      obtain ⟨x, hx, rfl⟩ := List.mem_map.1 hp
      have := hmin x hx; linarith
    rw [slantRows_ok tm (offsets.map fun x => x - m) dt _ npts (by simp [h.traces]) h.lengths h.dt_pos
      hpos velocities _ ?_ ?_]
    · refine congrArg _ (List.map_congr_left fun v _ => List.map_congr_left fun j _ => ?_)
      unfold slantSpec trapezoidSum
      rw [List.length_map]
      refine congrArg List.sum (List.map_congr_left fun k hk => ?_)
      have hk' := List.mem_range.1 hk
      have g1 : ∀ i, i < offsets.length →
          (offsets.map fun x => x - m).getD i 0 = offsets.getD i 0 - m := by
        intro i hi
        simp [List.getD_eq_getElem?_getD, hi]
      beta_reduce
      rw [g1 k (by omega), g1 (k + 1) (by omega), sub_sub_sub_cancel_right]
    · refine ⟨by simp, ?_⟩
      intro c hc
      obtain ⟨p, _, rfl⟩ := List.mem_map.1 hc
      simp
    · intro v hv
      refine ⟨h.velocities_pos v hv, ?_⟩
      intro p hp
      have := slant_bound h.dt_pos (h.velocities_pos v hv) hv (hpos p hp) hp
      unfold ntaus at hneg ⊢
      omega

/-- **C66**.  Every sample the slant stack interpolates between lies within the record: for each trial
velocity, receiver and delay the two sample indices are between 0 and the last sample. -/
theorem C66_reads_inside (tm : List (List ℚ)) (offsets : List ℚ) (dt : ℚ) (velocities : List ℚ)
    (npts : ℕ) (h : SlantInput tm offsets dt velocities npts) :
    slantStack tm offsets dt velocities ≠ .error .indexError ∧
    ∀ rows, slantStack tm offsets dt velocities = .ok rows → ∀ xmin, xmin ∈ offsets →
      (∀ x ∈ offsets, xmin ≤ x) →
      rows.length = velocities.length ∧
      ∀ row ∈ rows, ∀ j < row.length, ∀ v ∈ velocities, ∀ x ∈ offsets,
        0 ≤ ⌊((j : ℚ) * dt + (x - xmin) / v) / dt⌋ ∧
        ⌊((j : ℚ) * dt + (x - xmin) / v) / dt⌋ + 1 < npts := by
  have hC := C67_slant_stack tm offsets dt velocities npts h
  refine ⟨?_, ?_⟩
  · rcases hC with h1 | ⟨_, _, _, _, _, h1⟩ <;> rw [h1] <;> intro h2 <;> cases h2
  · intro rows hrows xmin hx1 hx2
    obtain ⟨x0, xs, hx⟩ := List.exists_cons_of_ne_nil h.receivers
    obtain ⟨v0, vs, hvs⟩ := List.exists_cons_of_ne_nil h.some_velocity
    obtain ⟨m, hm⟩ : ∃ m, Arr.minList offsets = some m := by rw [hx]; exact ⟨_, rfl⟩
    obtain ⟨hmem, hmin⟩ := minList_spec hm
    have hxm : xmin = m := le_antisymm (hx2 m hmem) (hmin xmin hx1)
    subst hxm
    have hhead : (tm.headD []).length = npts := by
      have : tm ≠ [] := by
        intro h0; have := h.traces; rw [h0, hx] at this; simp at this
      obtain ⟨u, us, rfl⟩ := List.exists_cons_of_ne_nil this
      simpa using h.lengths u List.mem_cons_self
    -- number of delays
    have hrl : ∀ row ∈ rows, (row.length : ℤ) ≤
        ntaus npts (offsets.map fun x => x - xmin) velocities dt := by
      unfold slantStack at hrows
      rw [hm, hvs] at hrows
      simp only [hhead] at hrows
      rw [← hvs] at hrows
      split_ifs at hrows with hneg
      have hpos : ∀ p ∈ offsets.map (fun x => x - xmin), 0 ≤ p := by
        intro p hp
        obtain ⟨x, hx, rfl⟩ := List.mem_map.1 hp
        have := hmin x hx; linarith
      rw [slantRows_ok tm (offsets.map fun x => x - xmin) dt _ npts (by simp [h.traces]) h.lengths
        h.dt_pos hpos velocities _ (by
          refine ⟨by simp, ?_⟩
          intro c hc
          obtain ⟨p, _, rfl⟩ := List.mem_map.1 hc
          simp) (by
          intro v hv
          refine ⟨h.velocities_pos v hv, ?_⟩
          intro p hp
          have := slant_bound h.dt_pos (h.velocities_pos v hv) hv (hpos p hp) hp
          unfold ntaus at hneg ⊢
          omega)] at hrows
      cases hrows
      intro row hrow
      obtain ⟨v, _, rfl⟩ := List.mem_map.1 hrow
      simp only [List.length_map, List.length_range]
      omega
    refine ⟨?_, ?_⟩
    · rcases hC with h1 | ⟨_, _, _, _, _, h1⟩
      · rw [h1] at hrows; cases hrows
      · rw [h1] at hrows; cases hrows; simp
    · intro row hrow j hj v hv x hxo
      have hp0 : 0 ≤ x - xmin := by have := hmin x hxo; linarith
      have hv0 := h.velocities_pos v hv
      have hb := slant_bound (pos := offsets.map fun x => x - xmin) h.dt_pos hv0 hv hp0
        (List.mem_map.2 ⟨x, hxo, rfl⟩)
      have hl := low_nonneg h.dt_pos hv0 hp0
      have e : ((j : ℚ) * dt + (x - xmin) / v) / dt = (j : ℤ) + (x - xmin) / dt / v := by
        have := ne_of_gt h.dt_pos
        have := ne_of_gt hv0
        push_cast; field_simp
      rw [e, Int.floor_intCast_add]
      have hr := hrl row hrow
      unfold ntaus at hr
      constructor
      · omega
      · omega

/-- **C66** (when a record is long enough).  The slant stack is refused exactly when the record has
fewer samples than the largest delay in samples (rounded down) plus one. -/
theorem C66_refused_iff (tm : List (List ℚ)) (offsets : List ℚ) (dt : ℚ) (velocities : List ℚ)
    (npts : ℕ) (h : SlantInput tm offsets dt velocities npts) (xmin : ℚ) (hx1 : xmin ∈ offsets)
    (hx2 : ∀ x ∈ offsets, xmin ≤ x) :
    slantStack tm offsets dt velocities = .error .valueError ↔
      ∃ x ∈ offsets, ∃ v ∈ velocities, (npts : ℤ) < ⌊(x - xmin) / v / dt⌋ + 1 := by
  obtain ⟨x0, xs, hx⟩ := List.exists_cons_of_ne_nil h.receivers
  obtain ⟨v0, vs, hvs⟩ := List.exists_cons_of_ne_nil h.some_velocity
  obtain ⟨m, hm⟩ : ∃ m, Arr.minList offsets = some m := by rw [hx]; exact ⟨_, rfl⟩
  obtain ⟨hmem, hmin⟩ := minList_spec hm
  have hxm : xmin = m := le_antisymm (hx2 m hmem) (hmin xmin hx1)
  subst hxm
  have hhead : (tm.headD []).length = npts := by
    have : tm ≠ [] := by
      intro h0; have := h.traces; rw [h0, hx] at this; simp at this
    obtain ⟨u, us, rfl⟩ := List.exists_cons_of_ne_nil this
    simpa using h.lengths u List.mem_cons_self
  have hpos : ∀ p ∈ offsets.map (fun x => x - xmin), 0 ≤ p := by
    intro p hp
    obtain ⟨x, hx, rfl⟩ := List.mem_map.1 hp
    have := hmin x hx; linarith
  have hiff : slantStack tm offsets dt velocities = .error .valueError ↔
      ntaus npts (offsets.map fun x => x - xmin) velocities dt < 0 := by
    unfold slantStack
    rw [hm, hvs]
    simp only [hhead]
    rw [← hvs]
    split_ifs with hneg
    · simp [hneg]
    · simp only [hneg, iff_false]
      rw [slantRows_ok tm (offsets.map fun x => x - xmin) dt _ npts (by simp [h.traces]) h.lengths
        h.dt_pos hpos velocities _ (by
          refine ⟨by simp, ?_⟩
          intro c hc
          obtain ⟨p, _, rfl⟩ := List.mem_map.1 hc
          simp) (by
          intro v hv
          refine ⟨h.velocities_pos v hv, ?_⟩
          intro p hp
          have := slant_bound h.dt_pos (h.velocities_pos v hv) hv (hpos p hp) hp
          unfold ntaus at hneg ⊢
          omega)]
      intro hcon; cases hcon
  rw [hiff]
  constructor
  · intro hn
    obtain ⟨x, hxo, v, hvo, e⟩ := ntaus_attained (npts := npts) h.receivers h.some_velocity h.dt_pos h.velocities_pos hmin
    exact ⟨x, hxo, v, hvo, by omega⟩
  · rintro ⟨x, hxo, v, hvo, hlt⟩
    have hv0 := h.velocities_pos v hvo
    have hx0 : 0 ≤ x - xmin := by have := hmin x hxo; linarith
    have hb := slant_bound (pos := offsets.map fun x => x - xmin) h.dt_pos hv0 hvo hx0
      (List.mem_map.2 ⟨x, hxo, rfl⟩)
    have e : (x - xmin) / dt / v = (x - xmin) / v / dt := by ring
    rw [e] at hb
    unfold ntaus
    omega

/-- Three receivers, six samples, two velocities in decreasing order. -/
example : SlantInput [[0, 1, 2, 3, 4, 5], [1, 0, 1, 0, 1, 0], [2, 2, 3, 3, 4, 4]] [4, 5, 7] 1 [2, 1] 6 where
  receivers := by simp
  traces := rfl
  lengths := by simp
  dt_pos := by norm_num
  some_velocity := by simp
  velocities_pos := by intro v hv; simp at hv; rcases hv with rfl | rfl <;> norm_num

example : slantStack [[0, 1, 2, 3, 4, 5], [1, 0, 1, 0, 1, 0], [2, 2, 3, 3, 4, 4]] [4, 5, 7] 1 [2, 1]
    = .ok [[13 / 4, 17 / 4], [3, 6]] := by decide +kernel

end Verif.Props
