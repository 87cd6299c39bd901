import Verif.Props.Correlation
import Verif.Spec.Units

/-!
# C143: working in other units gives the same results in those units
-/

namespace Verif.Props
open Verif Mat Spec

/-! ## Peaks -/

theorem unitFactor_pos {a c : ℚ} (ha : 0 < a) (hc : 0 < c) (name : String) : 0 < unitFactor a c name := by
  unfold unitFactor
  split_ifs <;> positivity

theorem lt_times {k : ℚ} (hk : 0 < k) (x y : Fl) : Fl.lt (times k x) (times k y) = Fl.lt x y := by
  cases x <;> cases y <;> simp [Fl.lt, times, hk]

theorem infMul_pos {k : ℚ} (hk : 0 < k) (q : ℚ) : Fl.infMul (k * q) = Fl.infMul q := by
  unfold Fl.infMul
  by_cases h1 : 0 < q
  · rw [if_pos h1, if_pos (mul_pos hk h1)]
  · by_cases h2 : q < 0
    · rw [if_neg h1, if_neg (by nlinarith), if_pos h2, if_pos (by nlinarith)]
    · have : q = 0 := by linarith
      simp [this]

theorem times_infMul (k q : ℚ) : times k (Fl.infMul q) = Fl.infMul q := by
  unfold Fl.infMul
  split_ifs <;> rfl

theorem div_times {k l : ℚ} (hk : 0 < k) (hl : 0 < l) (x y : Fl) :
    Fl.div (times k x) (times l y) = times (k / l) (Fl.div x y) := by
  have hn : ∀ q : ℚ, l * q < 0 ↔ q < 0 := fun q => by
    constructor <;> intro h <;> nlinarith
  cases x with
  | nan => cases y <;> rfl
  | ninf =>
    cases y with
    | fin b => simp only [times, Fl.div, hn]; split_ifs <;> rfl
    | _ => rfl
  | pinf =>
    cases y with
    | fin b => simp only [times, Fl.div, hn]; split_ifs <;> rfl
    | _ => rfl
  | fin q =>
    cases y with
    | fin b =>
      simp only [times, Fl.div, mul_eq_zero, hl.ne', false_or]
      by_cases hb : b = 0
      · rw [if_pos hb, if_pos hb, infMul_pos hk]
        unfold Fl.infMul
        split_ifs <;> rfl
      · rw [if_neg hb, if_neg hb]
        simp only [Fl.fin.injEq]
        field_simp
    | nan => rfl
    | ninf => simp [times, Fl.div]
    | pinf => simp [times, Fl.div]

theorem mul_times {k m : ℚ} (x : Fl) : Fl.mul (.fin m) (times k x) = times k (Fl.mul (.fin m) x) := by
  cases x with
  | fin q => simp only [times, Fl.mul, Fl.fin.injEq]; ring
  | nan => rfl
  | ninf => exact (times_infMul k (-m)).symm
  | pinf => exact (times_infMul k m).symm

theorem slowness_times {c : ℚ} (hc : 0 < c) (v : Fl) : Peaks.slownessOf (times c v) = times (1 / c) (Peaks.slownessOf v) := by
  have := div_times one_pos hc (.fin 1) v
  simpa [times, Peaks.slownessOf] using this

theorem wavelength_times {a c : ℚ} (ha : 0 < a) (hc : 0 < c) (v f : Fl) :
    Peaks.wavelengthOf (times c v) (times a f) = times (c / a) (Peaks.wavelengthOf v f) := div_times hc ha v f

theorem wavenumber_times {a c : ℚ} (ha : 0 < a) (hc : 0 < c) (v f : Fl) :
    Peaks.wavenumberOf (times a f) (times c v) = times (a / c) (Peaks.wavenumberOf f v) := by
  unfold Peaks.wavenumberOf
  rw [mul_times, div_times ha hc]

theorem times_one (x : Fl) : times 1 x = x := by cases x <;> simp [times]

theorem map_times_one (l : List Fl) : l.map (times 1) = l := by
  conv_rhs => rw [← List.map_id l]
  exact List.map_congr_left fun x _ => times_one x

theorem raw_inUnits {a c : ℚ} (ha : 0 < a) (hc : 0 < c) (p : Peaks) (name : String) :
    (inUnits a c p).raw name = (p.raw name).map (Nd.map (times (unitFactor a c name))) := by
  unfold Peaks.raw unitFactor
  split_ifs
  · rfl
  · rfl
  · simp only [inUnits, Nd.map, Except.map, List.map_map]
    congr 2
    exact List.map_congr_left fun v _ => slowness_times hc v
  · simp only [inUnits, Nd.map, Nd.zipWith, Except.map, List.zipWith_map, List.map_zipWith]
    congr 3
    funext v f
    exact wavelength_times ha hc v f
  · simp only [inUnits, Nd.map, Nd.zipWith, Except.map, List.zipWith_map, List.map_zipWith]
    congr 3
    funext f v
    exact wavenumber_times ha hc v f
  · simp only [inUnits]
    cases p.extra.lookup name with
    | none => rfl
    | some d => simp [Except.map, Nd.map, map_times_one]

theorem select_map (f : Fl → Fl) (d : Nd Fl) (m : Nd Bool) : (d.map f).select m = (d.select m).map f := by
  unfold Nd.select Nd.map
  simp only [List.zip_map_left, List.filter_map, List.map_map]
  rfl

theorem get_inUnits {a c : ℚ} (ha : 0 < a) (hc : 0 < c) (p : Peaks) (name : String) :
    (inUnits a c p).get name = (p.get name).map (List.map (times (unitFactor a c name))) := by
  unfold Peaks.get
  by_cases hn : name ∈ Peaks.stored
  · rw [if_pos hn, if_pos hn, raw_inUnits ha hc]
    cases p.raw name with
    | error e => rfl
    | ok d =>
      simp only [Except.map]
      congr 1
      exact select_map _ _ _
  · rw [if_neg hn, if_neg hn]
    have hf : (inUnits a c p).frequency.select (inUnits a c p).valid = (p.frequency.select p.valid).map (times a) :=
      select_map _ _ _
    have hv : (inUnits a c p).velocity.select (inUnits a c p).valid = (p.velocity.select p.valid).map (times c) :=
      select_map _ _ _
    simp only [hf, hv]
    by_cases h1 : name = "slowness"
    · subst h1
      simp only [if_true, Except.map, List.map_map]
      congr 1
      exact List.map_congr_left fun v _ => slowness_times hc v
    rw [if_neg h1, if_neg h1]
    by_cases h2 : name = "wavelength"
    · subst h2
      simp only [if_true, Except.map, List.zipWith_map, List.map_zipWith]
      congr 2
      funext v f
      exact wavelength_times ha hc v f
    rw [if_neg h2, if_neg h2]
    by_cases h3 : name = "wavenumber"
    · subst h3
      simp only [if_true, Except.map, List.zipWith_map, List.map_zipWith]
      congr 2
      funext f v
      exact wavenumber_times ha hc v f
    rw [if_neg h3, if_neg h3]
    rfl

/-- **C143** (derived quantities).  In other units every attribute is the old one times its factor. -/
theorem C143_attributes {a c : ℚ} (ha : 0 < a) (hc : 0 < c) (p : Peaks) (name : String) (values : List Fl)
    (h : p.get name = .ok values) : (inUnits a c p).get name = .ok (values.map (times (unitFactor a c name))) := by
  rw [get_inUnits ha hc, h]
  rfl

/-! ## Rejections -/

theorem limitsMark_times {k : ℚ} (hk : 0 < k) (lo hi : Option Fl) (x : Fl) (v : Bool) :
    Peaks.limitsMark (lo.map (times k)) (hi.map (times k)) (times k x) v = Peaks.limitsMark lo hi x v := by
  rcases lo with _ | l <;> rcases hi with _ | h <;> simp [Peaks.limitsMark, lt_times hk]

theorem reject_inUnits (a c : ℚ) (p : Peaks) (mask : List Bool) :
    (inUnits a c p).reject mask = inUnits a c (p.reject mask) := rfl

/-- **C143** (limits).  Limits in the new units reject the peaks which the old limits reject. -/
theorem C143_limits {a c : ℚ} (ha : 0 < a) (hc : 0 < c) (p : Peaks) (attr : String) (lo hi : Option Fl) :
    (inUnits a c p).rejectLimits attr (lo.map (times (unitFactor a c attr))) (hi.map (times (unitFactor a c attr))) =
      (inUnits a c (p.rejectLimits attr lo hi).1, (p.rejectLimits attr lo hi).2) := by
  unfold Peaks.rejectLimits
  rw [raw_inUnits ha hc]
  cases p.raw attr with
  | error e => rfl
  | ok d =>
    simp only [Except.map, reject_inUnits, Prod.mk.injEq, and_true]
    congr 2
    simp only [Nd.map, List.zipWith_map_left, inUnits]
    congr 1
    funext x v
    exact limitsMark_times (unitFactor_pos ha hc attr) _ _ _ _

theorem pyMin_times {k : ℚ} (hk : 0 < k) (x y : Fl) : Peaks.pyMin (times k x) (times k y) = times k (Peaks.pyMin x y) := by
  unfold Peaks.pyMin
  rw [lt_times hk]
  split_ifs <;> rfl

theorem pyMax_times {k : ℚ} (hk : 0 < k) (x y : Fl) : Peaks.pyMax (times k x) (times k y) = times k (Peaks.pyMax x y) := by
  unfold Peaks.pyMax
  rw [lt_times hk]
  split_ifs <;> rfl

/-- **C143** (boxes).  A box in the new units rejects the peaks which the old box rejects. -/
theorem C143_boxes {a c : ℚ} (ha : 0 < a) (hc : 0 < c) (p : Peaks) (xtype ytype : String) (xlims ylims : Fl × Fl) :
    (inUnits a c p).rejectBox
        xtype (times (unitFactor a c xtype) xlims.1, times (unitFactor a c xtype) xlims.2)
        ytype (times (unitFactor a c ytype) ylims.1, times (unitFactor a c ytype) ylims.2) =
      (inUnits a c (p.rejectBox xtype xlims ytype ylims).1, (p.rejectBox xtype xlims ytype ylims).2) := by
  unfold Peaks.rejectBox Peaks.boxMask
  rw [raw_inUnits ha hc, raw_inUnits ha hc]
  cases p.raw xtype with
  | error e => rfl
  | ok xs =>
    cases p.raw ytype with
    | error e => rfl
    | ok ys =>
      simp only [Except.map, reject_inUnits, Prod.mk.injEq, and_true]
      congr 2
      simp only [Nd.map, List.zip_map, List.zipWith_map_left, inUnits]
      congr 1
      funext x v
      have hx := unitFactor_pos ha hc xtype
      have hy := unitFactor_pos ha hc ytype
      simp only [Peaks.boxMark, Prod.map, pyMin_times hx, pyMax_times hx, pyMin_times hy, pyMax_times hy, lt_times hx, lt_times hy]

/-! ## Several peaks per frequency -/

theorem bestLoop_times {k : ℚ} (hk : 0 < k) : ∀ (col : List (Fl × Bool)) (r : ℕ) (best : ℕ × Fl),
    Peaks.bestLoop (col.map fun x => (times k x.1, x.2)) r (best.1, times k best.2) =
      ((Peaks.bestLoop col r best).1, times k (Peaks.bestLoop col r best).2)
  | [], _, _ => rfl
  | (v, b) :: rest, r, best => by
    simp only [List.map_cons, Peaks.bestLoop, lt_times hk]
    split_ifs
    · exact bestLoop_times hk rest (r + 1) best
    · exact bestLoop_times hk rest (r + 1) (r, v)
    · exact bestLoop_times hk rest (r + 1) best

theorem bestRow_times {k : ℚ} (hk : 0 < k) (col : List (Fl × Bool)) :
    Peaks.bestRow (col.map fun x => (times k x.1, x.2)) = Peaks.bestRow col := by
  unfold Peaks.bestRow
  have h : Peaks.bestLoop (col.map fun x => (times k x.1, x.2)) 0 (0, .ninf) = _ := bestLoop_times hk col 0 (0, .ninf)
  rw [h]
  have e : ∀ x : Fl, times k x = .ninf ↔ x = .ninf := fun x => by cases x <;> simp [times]
  simp only [e]

theorem getD_times (k : ℚ) (l : List Fl) (i : ℕ) : (l.map (times k)).getD i .nan = times k (l.getD i .nan) := by
  simp only [List.getD_eq_getElem?_getD, List.getElem?_map]
  cases l[i]? <;> rfl

theorem simplify_inUnits {a c : ℚ} (ha : 0 < a) (hc : 0 < c) (p : Peaks) (attr : String) :
    (inUnits a c p).simplify attr = (p.simplify attr).map (List.map (times (unitFactor a c attr))) := by
  unfold Peaks.simplify
  rw [raw_inUnits ha hc, get_inUnits ha hc]
  rcases hr : p.raw attr with e | ⟨shape, data⟩
  · rfl
  simp only [Except.map, Nd.map]
  match shape with
  | [] => rfl
  | [n] => rfl
  | _ :: _ :: _ :: _ => rfl
  | [nr, nc] =>
    simp only [Except.ok.injEq, List.map_filterMap]
    have hdec : ∀ cc, Peaks.bestRow ((Peaks.column .nan nr nc
          (((inUnits a c p).extra.lookup "power").getD (inUnits a c p).frequency).data cc).zip
            (Peaks.column false nr nc (inUnits a c p).valid.data cc)) =
        Peaks.bestRow ((Peaks.column .nan nr nc ((p.extra.lookup "power").getD p.frequency).data cc).zip
            (Peaks.column false nr nc p.valid.data cc)) := by
      intro cc
      have he : (inUnits a c p).extra.lookup "power" = p.extra.lookup "power" := rfl
      have hv : (inUnits a c p).valid = p.valid := rfl
      rw [he, hv]
      cases p.extra.lookup "power" with
      | some w => rfl
      | none =>
        simp only [Option.getD_none]
        rw [← bestRow_times ha ((Peaks.column .nan nr nc p.frequency.data cc).zip _)]
        congr 1
        simp only [inUnits, Nd.map, Peaks.column, getD_times, List.zip_map, List.map_map, Function.comp_def, Prod.map]
        rfl
    refine List.filterMap_congr fun cc _ => ?_
    rw [hdec cc]
    cases Peaks.bestRow _ with
    | none => rfl
    | some r => simp only [Option.map_some, getD_times]

/-- **C143** (strongest peaks).  The strongest peaks are the same ones in other units. -/
theorem C143_strongest {a c : ℚ} (ha : 0 < a) (hc : 0 < c) (p : Peaks) (attr : String) (values : List Fl)
    (h : p.simplify attr = .ok values) :
    (inUnits a c p).simplify attr = .ok (values.map (times (unitFactor a c attr))) := by
  rw [simplify_inUnits ha hc, h]
  rfl

/-! ## Resampling -/

theorem numbers_times (k : ℚ) : ∀ l : List Fl,
    Suite.numbers (l.map (times k)) = (Suite.numbers l).map (List.map fun (q : ℚ) => k * q)
  | [] => rfl
  | .fin q :: l => by
    simp only [List.map_cons, times, Suite.numbers, numbers_times k l]
    cases Suite.numbers l <;> rfl
  | .nan :: l => rfl
  | .ninf :: l => rfl
  | .pinf :: l => rfl

/-- A point in other units. -/
def scaledPoint (k l : ℚ) (p : ℚ × ℚ) : ℚ × ℚ := (k * p.1, l * p.2)

theorem insertPoint_scaled {k : ℚ} (hk : 0 < k) (l : ℚ) (p : ℚ × ℚ) : ∀ ps : List (ℚ × ℚ),
    insertPoint (scaledPoint k l p) (ps.map (scaledPoint k l)) = (insertPoint p ps).map (scaledPoint k l)
  | [] => rfl
  | q :: qs => by
    have e : (scaledPoint k l p).1 < (scaledPoint k l q).1 ↔ p.1 < q.1 := by
      simp [scaledPoint, hk]
    simp only [List.map_cons, insertPoint, e]
    split_ifs
    · rfl
    · rw [insertPoint_scaled hk l p qs]; rfl

theorem sortPoints_scaled {k : ℚ} (hk : 0 < k) (l : ℚ) (ps : List (ℚ × ℚ)) :
    sortPoints (ps.map (scaledPoint k l)) = (sortPoints ps).map (scaledPoint k l) := by
  have key : ∀ (ps acc : List (ℚ × ℚ)),
      (ps.map (scaledPoint k l)).foldl (fun l p => insertPoint p l) (acc.map (scaledPoint k l)) =
        (ps.foldl (fun l p => insertPoint p l) acc).map (scaledPoint k l) := by
    intro ps
    induction ps with
    | nil => intro acc; rfl
    | cons p ps ih =>
      intro acc
      simp only [List.map_cons, List.foldl_cons]
      rw [insertPoint_scaled hk, ih]
  exact key ps []

theorem interpSorted_scaled {k : ℚ} (hk : 0 < k) (l x : ℚ) : ∀ ps : List (ℚ × ℚ),
    interpSorted (ps.map (scaledPoint k l)) (k * x) = (interpSorted ps x).map fun (y : ℚ) => l * y
  | [] => rfl
  | [p] => by
    simp only [List.map_cons, List.map_nil, interpSorted, scaledPoint, mul_right_inj' hk.ne']
    split_ifs <;> rfl
  | p :: q :: rest => by
    have ih := interpSorted_scaled hk l x (q :: rest)
    simp only [List.map_cons] at ih
    simp only [List.map_cons, interpSorted]
    have e1 : k * x < (scaledPoint k l p).1 ↔ x < p.1 := by simp [scaledPoint, hk]
    have e2 : k * x < (scaledPoint k l q).1 ↔ x < q.1 := by simp [scaledPoint, hk]
    rw [ih]
    by_cases h1 : x < p.1
    · rw [if_pos h1, if_pos (e1.2 h1)]; rfl
    · rw [if_neg h1, if_neg (fun h => h1 (e1.1 h))]
      by_cases h2 : x < q.1
      · rw [if_pos h2, if_pos (e2.2 h2)]
        simp only [Option.map_some, Option.some.injEq, scaledPoint]
        have h3 : q.1 - p.1 ≠ 0 := by
          have : p.1 < q.1 := lt_of_le_of_lt (not_lt.1 h1) h2
          intro e
          linarith
        rw [show k * q.1 - k * p.1 = k * (q.1 - p.1) by ring]
        field_simp
      · rw [if_neg h2, if_neg (fun h => h2 (e2.1 h))]

theorem interp_scaled {k : ℚ} (hk : 0 < k) (l x : ℚ) (ps : List (ℚ × ℚ)) :
    interp (ps.map (scaledPoint k l)) (k * x) = (interp ps x).map fun (y : ℚ) => l * y := by
  unfold interp
  rw [sortPoints_scaled hk, interpSorted_scaled hk]

/-- A row in other units. -/
def scaledRow (l : ℚ) (r : List (Option ℚ)) : List (Option ℚ) := r.map (Option.map fun (y : ℚ) => l * y)

theorem arrayRow_inUnits {a c : ℚ} (ha : 0 < a) (hc : 0 < c) (xtype ytype : String) (xx : List ℚ) (p : Peaks) :
    Suite.arrayRow xtype ytype (xx.map fun (x : ℚ) => unitFactor a c xtype * x) (inUnits a c p) =
      (Suite.arrayRow xtype ytype xx p).map (scaledRow (unitFactor a c ytype)) := by
  unfold Suite.arrayRow
  rw [simplify_inUnits ha hc, simplify_inUnits ha hc]
  rcases p.simplify xtype with e | xs
  · rfl
  rcases p.simplify ytype with e | ys
  · rfl
  simp only [Except.map, numbers_times]
  rcases Suite.numbers xs with _ | as
  · rfl
  rcases Suite.numbers ys with _ | bs
  · rfl
  simp only [Option.map_some, Except.ok.injEq, scaledRow, List.map_map]
  refine List.map_congr_left fun x _ => ?_
  simp only [Function.comp]
  rw [← interp_scaled (unitFactor_pos ha hc xtype), List.zip_map]
  rfl

theorem arrayRows_inUnits {a c : ℚ} (ha : 0 < a) (hc : 0 < c) (xtype ytype : String) (xx : List ℚ) : ∀ ps : List Peaks,
    Suite.arrayRows xtype ytype (xx.map fun (x : ℚ) => unitFactor a c xtype * x) (ps.map (inUnits a c)) =
      (Suite.arrayRows xtype ytype xx ps).map (List.map (scaledRow (unitFactor a c ytype)))
  | [] => rfl
  | p :: ps => by
    simp only [List.map_cons, Suite.arrayRows, arrayRow_inUnits ha hc, arrayRows_inUnits ha hc xtype ytype xx ps]
    rcases Suite.arrayRow xtype ytype xx p with e | r
    · rfl
    rcases Suite.arrayRows xtype ytype xx ps with e | rs
    · rfl
    rfl

/-! ## Dropping incomplete data -/

/-- A matrix in other units. -/
def scaledMat (l : ℚ) (m : Mat) : Mat := ⟨m.ncols, m.rows.map (scaledRow l)⟩

theorem numCount_scaled (l : ℚ) (r : List (Option ℚ)) : numCount (scaledRow l r) = numCount r := by
  unfold numCount scaledRow
  rw [List.countP_map]
  refine List.countP_congr fun x _ => ?_
  cases x <;> simp

theorem length_scaled (l : ℚ) (r : List (Option ℚ)) : (scaledRow l r).length = r.length := by simp [scaledRow]

theorem deleteAt_map {α β : Type} (f : α → β) (idx : List ℕ) (l : List α) : deleteAt idx (l.map f) = (deleteAt idx l).map f := by
  unfold deleteAt
  rw [List.zipIdx_map, List.filter_map, List.map_map, List.map_map]
  rfl

theorem dropIndices_scaled (l : ℚ) (rows : List (List (Option ℚ))) (percent : ℚ) (count : ℕ) :
    dropIndices (rows.map (scaledRow l)) percent count = dropIndices rows percent count := by
  unfold dropIndices
  have hc : (rows.map (scaledRow l) = [] ∨ (rows.map (scaledRow l)).headD [] = []) ↔ (rows = [] ∨ rows.headD [] = []) := by
    cases rows with
    | nil => simp
    | cons r rs => simp [scaledRow]
  by_cases c : rows = [] ∨ rows.headD [] = []
  · rw [if_pos c, if_pos (hc.2 c)]
  · rw [if_neg c, if_neg (fun e => c (hc.1 e)), List.zipIdx_map, List.filter_map, List.map_map]
    simp only [Function.comp_def, Prod.map, numCount_scaled, length_scaled, id]

theorem cols_scaled (l : ℚ) (m : Mat) : (scaledMat l m).cols = m.cols.map (scaledRow l) := by
  unfold cols scaledMat
  simp only [List.map_map]
  refine List.map_congr_left fun c _ => ?_
  simp only [Function.comp_def, scaledRow, List.map_map]
  refine List.map_congr_left fun r _ => ?_
  simp only [List.getD_eq_getElem?_getD, List.getElem?_map]
  cases r[c]? <;> rfl

theorem deleteCols_scaled (l : ℚ) (idx : List ℕ) (m : Mat) : (scaledMat l m).deleteCols idx = scaledMat l (m.deleteCols idx) := by
  simp only [deleteCols, scaledMat, List.map_map, Mat.mk.injEq, true_and]
  exact List.map_congr_left fun r _ => deleteAt_map _ _ _

theorem deleteRows_scaled (l : ℚ) (idx : List ℕ) (m : Mat) : (scaledMat l m).deleteRows idx = scaledMat l (m.deleteRows idx) := by
  simp only [deleteRows, scaledMat, Mat.mk.injEq, true_and]
  exact deleteAt_map _ _ _

theorem rows_scaled (l : ℚ) (m : Mat) : (scaledMat l m).rows = m.rows.map (scaledRow l) := rfl

theorem utility_scaled (l : ℚ) (m r : Mat) : utility (scaledMat l m) (scaledMat l r) = utility m r := by
  unfold utility nans nums
  simp only [rows_scaled, List.map_map, Function.comp_def, numCount_scaled, length_scaled]

theorem drop_scaled (k l : ℚ) (args : DropArgs) (xx : List ℚ) (m : Mat) :
    drop args (xx.map fun (x : ℚ) => k * x) (scaledMat l m) =
      ((drop args xx m).1.map fun (x : ℚ) => k * x, scaledMat l (drop args xx m).2) := by
  have o1 : option1 args (xx.map fun (x : ℚ) => k * x) (scaledMat l m) =
      ((option1 args xx m).1.map fun (x : ℚ) => k * x, scaledMat l (option1 args xx m).2) := by
    simp only [option1, cols_scaled, dropIndices_scaled, deleteCols_scaled, rows_scaled, deleteRows_scaled, deleteAt_map]
  have o2 : option2 args (xx.map fun (x : ℚ) => k * x) (scaledMat l m) =
      ((option2 args xx m).1.map fun (x : ℚ) => k * x, scaledMat l (option2 args xx m).2) := by
    simp only [option2, cols_scaled, dropIndices_scaled, deleteCols_scaled, rows_scaled, deleteRows_scaled, deleteAt_map]
  unfold drop
  simp only [o1, o2, utility_scaled]
  split_ifs <;> rfl

/-! ## Statistics -/

theorem valid_scaled (l : ℚ) (r : List (Option ℚ)) : valid (scaledRow l r) = (valid r).map fun (y : ℚ) => l * y := by
  unfold valid scaledRow
  rw [List.filterMap_map, List.map_filterMap]
  rfl

theorem nanmean_scaled (l : ℚ) (r : List (Option ℚ)) : nanmean (scaledRow l r) = (nanmean r).map fun (y : ℚ) => l * y := by
  unfold nanmean
  rw [valid_scaled, List.sum_map_mul_left, List.length_map, List.map_id']
  by_cases c : valid r = []
  · simp [c]
  · rw [if_neg c, if_neg (by simpa using c)]
    simp only [Option.map_some, Option.some.injEq]
    ring

theorem nanstd_scaled {l : ℚ} (hl : 0 < l) (r : List (Option ℚ)) :
    nanstd (scaledRow l r) = (nanstd r).map fun (y : ℝ) => (l : ℝ) * y := by
  unfold nanstd
  rw [valid_scaled, List.sum_map_mul_left, List.length_map, List.map_id']
  by_cases c : (valid r).length < 2
  · rw [if_pos c, if_pos c]; rfl
  rw [if_neg c, if_neg c]
  simp only [Option.map_some, Option.some.injEq, List.map_map]
  have e : ∀ mu : ℚ, ((valid r).map ((fun (x : ℚ) => (x - l * (valid r).sum / (valid r).length) *
        (x - l * (valid r).sum / (valid r).length)) ∘ fun (y : ℚ) => l * y)).sum =
      l * l * ((valid r).map fun (x : ℚ) => (x - (valid r).sum / (valid r).length) * (x - (valid r).sum / (valid r).length)).sum := by
    intro _
    rw [← List.sum_map_mul_left]
    congr 1
    refine List.map_congr_left fun x _ => ?_
    simp only [Function.comp]
    ring
  rw [e 0]
  have hl' : (0 : ℝ) < l := by exact_mod_cast hl
  conv_rhs => rw [← Real.sqrt_mul_self hl'.le, ← Real.sqrt_mul (mul_self_nonneg _)]
  congr 1
  push_cast
  ring

theorem substitute_scaled (l : ℚ) (r : List (Option ℚ)) : substitute (scaledRow l r) = scaledRow l (substitute r) := by
  unfold substitute
  rw [nanmean_scaled]
  unfold scaledRow
  simp only [List.map_map]
  refine List.map_congr_left fun x _ => ?_
  cases x <;> simp

theorem complete_scaled (l : ℚ) : ∀ r : List (Option ℚ), complete (scaledRow l r) = (complete r).map (List.map fun (y : ℚ) => l * y)
  | [] => rfl
  | none :: r => rfl
  | some q :: r => by
    have ih := complete_scaled l r
    unfold scaledRow at ih ⊢
    simp only [List.map_cons, Option.map_some, complete, ih]
    cases complete r <;> rfl

theorem cov_scaled (l : ℚ) (xs ys : List ℚ) :
    cov (xs.map fun (y : ℚ) => l * y) (ys.map fun (y : ℚ) => l * y) = l * l * cov xs ys := by
  unfold cov
  have hs : ∀ xs : List ℚ, (xs.map fun (y : ℚ) => l * y).sum = l * xs.sum := fun xs => by
    rw [List.sum_map_mul_left, List.map_id']
  simp only [hs, List.length_map, List.zipWith_map]
  rw [mul_div_assoc']
  congr 1
  have e : ∀ (m n : ℚ) (xs ys : List ℚ),
      (List.zipWith (fun (x y : ℚ) => (l * x - l * m) * (l * y - l * n)) xs ys).sum =
        l * l * (List.zipWith (fun (x y : ℚ) => (x - m) * (y - n)) xs ys).sum := by
    intro m n xs
    induction xs with
    | nil => intro ys; simp
    | cons x xs ih =>
      intro ys
      cases ys with
      | nil => simp
      | cons y ys =>
        simp only [List.zipWith_cons_cons, List.sum_cons, ih]
        ring
  rw [← e]
  congr 1
  congr 1
  funext x y
  ring

theorem corrEntry_scaled {l : ℚ} (hl : 0 < l) (r t : List (Option ℚ)) : corrEntry (scaledRow l r) (scaledRow l t) = corrEntry r t := by
  unfold corrEntry
  rw [complete_scaled, complete_scaled]
  rcases complete r with _ | xs
  · rfl
  rcases complete t with _ | ys
  · rfl
  simp only [Option.map_some, cov_scaled, List.length_map, mul_eq_zero, hl.ne', false_or]
  have hl' : (0 : ℝ) < l := by exact_mod_cast hl
  have hs : ∀ q : ℚ, Real.sqrt ((l * l * q : ℚ) : ℝ) = l * Real.sqrt q := by
    intro q
    push_cast
    rw [Real.sqrt_mul (mul_self_nonneg _), Real.sqrt_mul_self hl'.le]
  rw [hs, hs]
  split_ifs
  · rfl
  · rfl
  · congr 3
    push_cast
    field_simp

/-- **C143** (statistics).  A suite in other units, resampled at the same locations in those units, has the same statistics
in those units and the same correlation coefficients; it is refused exactly if the old suite is. -/
theorem C143_statistics {a c : ℚ} (ha : 0 < a) (hc : 0 < c) (s : Suite) (xtype ytype : String) (xx : List ℚ)
    (ignore : Bool) (count : ℕ) (subst : Bool) :
    (∀ samples means stds corr, s.statisticsCorr xtype ytype xx ignore count subst = .ok (samples, means, stds, corr) →
      (suiteInUnits a c s).statisticsCorr xtype ytype (xx.map fun (x : ℚ) => unitFactor a c xtype * x) ignore count subst =
        .ok (samples.map fun (x : ℚ) => unitFactor a c xtype * x,
          means.map (Option.map fun (y : ℚ) => unitFactor a c ytype * y),
          stds.map (Option.map fun (y : ℝ) => (unitFactor a c ytype : ℝ) * y), corr)) ∧
    ∀ e, s.statisticsCorr xtype ytype xx ignore count subst = .error e →
      (suiteInUnits a c s).statisticsCorr xtype ytype (xx.map fun (x : ℚ) => unitFactor a c xtype * x) ignore count subst =
        .error e := by
  have hy := unitFactor_pos ha hc ytype
  have hlen : (suiteInUnits a c s).peaks.length = s.peaks.length := by simp [suiteInUnits]
  have hrows : Suite.arrayRows xtype ytype (xx.map fun (x : ℚ) => unitFactor a c xtype * x) (suiteInUnits a c s).peaks =
      (Suite.arrayRows xtype ytype xx s.peaks).map (List.map (scaledRow (unitFactor a c ytype))) :=
    arrayRows_inUnits ha hc xtype ytype xx s.peaks
  unfold Suite.statisticsCorr Suite.toArray
  rw [hlen, hrows]
  by_cases h3 : s.peaks.length < 3
  · rw [if_pos h3, if_pos h3]
    exact ⟨fun _ _ _ _ h => (by cases h), fun e h => h⟩
  rw [if_neg h3, if_neg h3]
  rcases Suite.arrayRows xtype ytype xx s.peaks with e | rows
  · exact ⟨fun _ _ _ _ h => (by cases h), fun e h => h⟩
  simp only [Except.map, List.length_map]
  refine ⟨fun samples means stds corr h => ?_, fun e h => by cases h⟩
  have hm : (⟨xx.length, rows.map (scaledRow (unitFactor a c ytype))⟩ : Mat) =
      scaledMat (unitFactor a c ytype) ⟨xx.length, rows⟩ := rfl
  rw [hm, drop_scaled]
  generalize drop ⟨1 / 100, 1 / 100, count⟩ xx ⟨xx.length, rows⟩ = r at h ⊢
  simp only [Except.ok.injEq, Prod.mk.injEq] at h ⊢
  obtain ⟨rfl, rfl, rfl, rfl⟩ := h
  refine ⟨rfl, ?_, ?_, ?_⟩
  · rw [cols_scaled, List.map_map, List.map_map]
    exact List.map_congr_left fun col _ => nanmean_scaled _ _
  · rw [cols_scaled, List.map_map, List.map_map]
    exact List.map_congr_left fun col _ => nanstd_scaled hy _
  · cases ignore
    · simp only [Bool.false_eq_true, if_false, Option.some.injEq]
      have hd : (if subst = true then (scaledMat (unitFactor a c ytype) r.2).cols.map substitute
            else (scaledMat (unitFactor a c ytype) r.2).cols) =
          (if subst = true then r.2.cols.map substitute else r.2.cols).map (scaledRow (unitFactor a c ytype)) := by
        rw [cols_scaled]
        cases subst
        · rfl
        · simp only [if_true, List.map_map]
          exact List.map_congr_left fun col _ => substitute_scaled _ _
      rw [hd, List.map_map]
      refine List.map_congr_left fun u _ => ?_
      simp only [Function.comp, List.map_map]
      exact List.map_congr_left fun v _ => corrEntry_scaled hy _ _
    · rfl

/-- Three curves in metres per second, then in kilometres per second with the period's reciprocal in kilohertz: locations,
velocities and wavelengths change, the strongest peak does not. -/
example : (inUnits (1 / 1000) (1 / 1000) ⟨"a", ⟨[2], [.fin 5, .fin 10]⟩, ⟨[2], [.fin 200, .nan]⟩, [], ⟨[2], [true, false]⟩⟩).get
    "wavelength" = .ok [.fin 40] := by decide +kernel

example : ∃ out, (suiteInUnits 1 (1 / 1000) statSuite).statisticsCorr "frequency" "velocity" [1, 2] false 3 true = .ok out := by
  have ha : ∃ r, statSuite.toArray "frequency" "velocity" [1, 2] = .ok r := by
    have : (statSuite.toArray "frequency" "velocity" [1, 2]).isOk = true := by decide +kernel
    revert this
    cases statSuite.toArray "frequency" "velocity" [1, 2] <;> simp [Except.isOk, Except.toBool]
  obtain ⟨⟨x, m⟩, ha⟩ := ha
  have hok : ∃ s m t r, statSuite.statisticsCorr "frequency" "velocity" [1, 2] false 3 true = .ok (s, m, t, r) := by
    unfold Suite.statisticsCorr
    rw [if_neg (by decide), ha]
    exact ⟨_, _, _, _, rfl⟩
  obtain ⟨s, m, t, r, h⟩ := hok
  have := (C143_statistics (a := 1) (c := 1 / 1000) one_pos (by norm_num) statSuite "frequency" "velocity" [1, 2] false 3 true).1 s m t r h
  simp only [unitFactor, if_true, one_mul, List.map_id'] at this
  exact ⟨_, this⟩

end Verif.Props
