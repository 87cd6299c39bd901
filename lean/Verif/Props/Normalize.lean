import Verif.Model.Transform
import Mathlib.Tactic.Linarith
import Mathlib.Tactic.Ring
import Mathlib.Tactic.NormNum
import Mathlib.Tactic.FieldSimp
import Mathlib.Order.Bounds.Defs

/-!
# C63, C97: normalization of the power, over any history of calls
-/

namespace Verif.Props
open Verif WT

/-! ## Specification -/

/-- The entry at row `r` and column `c`. -/
def entry (m : List (List ℚ)) (r c : ℕ) : Option ℚ := m[r]?.bind fun row => row[c]?

/-- The magnitudes of all entries. -/
def magnitudes (m : List (List ℚ)) : Set ℚ := {v | ∃ r c x, entry m r c = some x ∧ v = |x|}

/-- The magnitudes of the entries of column (frequency) `c`. -/
def columnMagnitudes (m : List (List ℚ)) (c : ℕ) : Set ℚ :=
  {v | ∃ r x, entry m r c = some x ∧ v = |x|}

/-- `y` is what the value `x` in column `c` of `orig` becomes under the method `how`. -/
def NormalizedEntry (how : String) (orig : List (List ℚ)) (c : ℕ) (x y : ℚ) : Prop :=
  (how = "none" → y = |x|) ∧
  (how = "absolute-maximum" → ∃ M, IsGreatest (magnitudes orig) M ∧ y = |x| / M) ∧
  (how = "frequency-maximum" → ∃ M, IsGreatest (columnMagnitudes orig c) M ∧ y = |x| / M)

/-- `p` is `orig` normalized by `how`, entry by entry. -/
def NormalizedBy (how : String) (orig p : List (List ℚ)) : Prop :=
  ∀ r c, (entry orig r c = none ∧ entry p r c = none) ∨
    ∃ x y, entry orig r c = some x ∧ entry p r c = some y ∧ NormalizedEntry how orig c x y

/-- A finite real matrix as stored. -/
def finM (m : List (List ℚ)) : List (List Fl) := m.map fun row => row.map Fl.fin

/-- The documented methods. -/
def normMethods : List String := ["none", "absolute-maximum", "frequency-maximum"]

/-! ## The same computation on rationals -/

def qAbs (m : List (List ℚ)) : List (List ℚ) := m.map fun row => row.map fun x => |x|

def maxQ : List ℚ → ℚ
  | [] => 0
  | x :: xs => xs.foldl max x

def qColMax (m : List (List ℚ)) : List ℚ :=
  (List.range (m.headD []).length).map fun c => maxQ (m.map fun row => row.getD c 0)

def qNorm (how : String) (m : List (List ℚ)) : List (List ℚ) :=
  if how = "none" then m
  else if how = "absolute-maximum" then m.map fun row => row.map fun x => x / maxQ m.flatten
  else m.map fun row => List.zipWith (fun x y => x / y) row (qColMax m)

def qScale (how : String) (m : List (List ℚ)) : Scale :=
  if how = "none" then .scalar (.fin 1)
  else if how = "absolute-maximum" then .scalar (.fin (maxQ m.flatten))
  else .perColumn ((qColMax m).map Fl.fin)

theorem foldl_flMax_spec (l : List ℚ) : ∀ x, (l.foldl max x = x ∨ l.foldl max x ∈ l) ∧
    x ≤ l.foldl max x ∧ ∀ y ∈ l, y ≤ l.foldl max x := by
  induction l with
  | nil => intro x; simp
  | cons a l ih =>
    intro x
    obtain ⟨h1, h2, h3⟩ := ih (max x a)
    simp only [List.foldl_cons]
    refine ⟨?_, le_trans (le_max_left _ _) h2, ?_⟩
    · rcases h1 with h | h
      · rcases max_choice x a with h' | h'
        · left; rw [h, h']
        · right; rw [h, h']; exact List.mem_cons_self
      · right; exact List.mem_cons_of_mem _ h
    · intro y hy
      rcases List.mem_cons.1 hy with rfl | hy
      · exact le_trans (le_max_right _ _) h2
      · exact h3 y hy

theorem maxQ_spec (l : List ℚ) (hl : l ≠ []) : maxQ l ∈ l ∧ ∀ y ∈ l, y ≤ maxQ l := by
  obtain ⟨x, xs, rfl⟩ := List.exists_cons_of_ne_nil hl
  obtain ⟨h1, h2, h3⟩ := foldl_flMax_spec xs x
  refine ⟨?_, ?_⟩
  · show xs.foldl max x ∈ _
    rcases h1 with h | h
    · rw [h]; exact List.mem_cons_self
    · exact List.mem_cons_of_mem _ h
  · intro y hy
    show y ≤ xs.foldl max x
    rcases List.mem_cons.1 hy with rfl | hy
    · exact h2
    · exact h3 y hy

theorem flMax_fin (a b : ℚ) : flMax (.fin a) (.fin b) = .fin (max a b) := by
  unfold flMax
  simp only [Fl.isNan, Fl.lt, Bool.false_eq_true, if_false, decide_eq_true_eq]
  split_ifs with h
  · rw [max_eq_right (le_of_lt h)]
  · rw [max_eq_left (not_lt.1 h)]

theorem flMaxList_fin (l : List ℚ) : flMaxList (l.map Fl.fin) = .fin (maxQ l) := by
  cases l with
  | nil => rfl
  | cons x xs =>
    simp only [List.map_cons, flMaxList, maxQ]
    induction xs generalizing x with
    | nil => rfl
    | cons a l ih => simp only [List.map_cons, List.foldl_cons, flMax_fin]; exact ih _

theorem absPower_finM (m : List (List ℚ)) : absPower (finM m) = finM (qAbs m) := by
  simp [absPower, finM, qAbs, Function.comp_def, Fl.abs]

theorem column_finM (m : List (List ℚ)) (c : ℕ) :
    column (finM m) c = (m.map fun row => row.getD c 0).map Fl.fin := by
  unfold column finM
  rw [List.map_map, List.map_map]
  apply List.map_congr_left
  intro row _
  simp only [Function.comp, List.getD_eq_getElem?_getD, List.getElem?_map]
  cases row[c]? <;> rfl

theorem columnMax_finM (m : List (List ℚ)) : columnMax (finM m) = (qColMax m).map Fl.fin := by
  unfold columnMax qColMax
  have : ((finM m).headD []).length = (m.headD []).length := by cases m <;> simp [finM]
  rw [this, List.map_map]
  apply List.map_congr_left
  intro c _
  simp only [Function.comp, column_finM, flMaxList_fin]

/-- No column of magnitudes vanishes. -/
structure Good (m : List (List ℚ)) (nf : ℕ) : Prop where
  ne : m ≠ []
  npos : 0 < nf
  rows : ∀ row ∈ m, row.length = nf
  nonneg : ∀ row ∈ m, ∀ x ∈ row, 0 ≤ x
  pos : ∀ c, c < nf → ∃ row ∈ m, row.getD c 0 ≠ 0

theorem Good.head {m : List (List ℚ)} {nf : ℕ} (h : Good m nf) : (m.headD []).length = nf := by
  obtain ⟨r, rs, rfl⟩ := List.exists_cons_of_ne_nil h.ne
  simpa using h.rows r List.mem_cons_self

theorem getD_mem {row : List ℚ} {c : ℕ} (h : c < row.length) : row.getD c 0 ∈ row := by
  rw [List.getD_eq_getElem?_getD, List.getElem?_eq_getElem h]
  exact List.getElem_mem h

theorem Good.colpos {m : List (List ℚ)} {nf : ℕ} (h : Good m nf) (c : ℕ) (hc : c < nf) :
    0 < maxQ (m.map fun row => row.getD c 0) := by
  obtain ⟨row, hrow, hx⟩ := h.pos c hc
  have hmem := getD_mem (row := row) (c := c) (by rw [h.rows row hrow]; exact hc)
  have h0 : 0 < row.getD c 0 := lt_of_le_of_ne (h.nonneg row hrow _ hmem) (Ne.symm hx)
  have := (maxQ_spec (m.map fun row => row.getD c 0) (by simpa using h.ne)).2 _
    (List.mem_map.2 ⟨row, hrow, rfl⟩)
  linarith

theorem Good.allpos {m : List (List ℚ)} {nf : ℕ} (h : Good m nf) : 0 < maxQ m.flatten := by
  obtain ⟨row, hrow, hx⟩ := h.pos 0 h.npos
  have hmem := getD_mem (row := row) (c := 0) (by rw [h.rows row hrow]; exact h.npos)
  have h0 : 0 < row.getD 0 0 := lt_of_le_of_ne (h.nonneg row hrow _ hmem) (Ne.symm hx)
  have hfl : row.getD 0 0 ∈ m.flatten := List.mem_flatten.2 ⟨row, hrow, hmem⟩
  have := (maxQ_spec m.flatten (List.ne_nil_of_mem hfl)).2 _ hfl
  linarith

theorem zipWith_div_mul_cancel : ∀ (row v : List ℚ), row.length ≤ v.length → (∀ y ∈ v, y ≠ 0) →
    List.zipWith (fun x y => x * y) (List.zipWith (fun x y => x / y) row v) v = row
  | [], v, _, _ => by simp
  | x :: row, [], h, _ => by simp at h
  | x :: row, y :: v, h, hv => by
    have hy : y ≠ 0 := hv y List.mem_cons_self
    simp only [List.zipWith_cons_cons, List.cons.injEq]
    exact ⟨by field_simp,
      zipWith_div_mul_cancel row v (by simpa using h) fun z hz => hv z (List.mem_cons_of_mem _ hz)⟩

theorem zipWith_fin_mul (row v : List ℚ) :
    List.zipWith Fl.mul (row.map Fl.fin) (v.map Fl.fin) =
      (List.zipWith (fun x y => x * y) row v).map Fl.fin := by
  rw [List.zipWith_map, List.map_zipWith]; rfl

theorem zipWith_fin_div : ∀ (row v : List ℚ), (∀ y ∈ v, y ≠ 0) →
    List.zipWith Fl.div (row.map Fl.fin) (v.map Fl.fin) =
      (List.zipWith (fun x y => x / y) row v).map Fl.fin
  | [], v, _ => by simp
  | x :: row, [], _ => by simp
  | x :: row, y :: v, h => by
    have hy : y ≠ 0 := h y List.mem_cons_self
    simp only [List.map_cons, List.zipWith_cons_cons, List.cons.injEq]
    exact ⟨by simp [Fl.div, hy], zipWith_fin_div row v fun z hz => h z (List.mem_cons_of_mem _ hz)⟩

theorem Good.qColMax_ne {m : List (List ℚ)} {nf : ℕ} (h : Good m nf) : ∀ y ∈ qColMax m, y ≠ 0 := by
  intro y hy
  unfold qColMax at hy
  obtain ⟨c, hc, rfl⟩ := List.mem_map.1 hy
  rw [h.head, List.mem_range] at hc
  exact ne_of_gt (h.colpos c hc)

theorem Good.qColMax_length {m : List (List ℚ)} {nf : ℕ} (h : Good m nf) :
    (qColMax m).length = nf := by simp only [qColMax, List.length_map, List.length_range, h.head]

/-- One call: whatever the stored factor, if it recovers a matrix of magnitudes `m` then the call
stores the normalized magnitudes together with a factor that recovers `m`. -/
theorem normalize_step (s : PowerState) (X m : List (List ℚ)) (nf : ℕ) (hm : Good m nf)
    (how : String) (hh : how ∈ normMethods) (hs : scaleBy s.toAbs s.power = finM X)
    (hX : qAbs X = m) :
    normalize s how = (⟨finM (qNorm how m), qScale how m⟩, .ok ()) ∧
      scaleBy (qScale how m) (finM (qNorm how m)) = finM m := by
  have ha : absPower (scaleBy s.toAbs s.power) = finM m := by rw [hs, absPower_finM, hX]
  have hM := ne_of_gt hm.allpos
  have hflat : (finM m).flatten = m.flatten.map Fl.fin := by
    simp [finM, List.map_flatten]
  simp only [normMethods, List.mem_cons, List.not_mem_nil, or_false] at hh
  rcases hh with rfl | rfl | rfl
  · refine ⟨?_, ?_⟩
    · simp [normalize, qNorm, qScale, ha]
    · simp [qScale, qNorm, scaleBy, finM, Function.comp_def, Fl.mul]
  · refine ⟨?_, ?_⟩
    · simp only [normalize, qNorm, qScale, ha, hflat, flMaxList_fin, String.reduceEq, if_false, if_true]
      simp [Function.comp_def, finM, Fl.div, hM]
    · simp only [qScale, qNorm, scaleBy, finM]
      simp [Function.comp_def, Fl.mul, hM]
  · refine ⟨?_, ?_⟩
    · simp [normalize, qNorm, qScale, ha, columnMax_finM]
      simp only [finM, List.map_map, Function.comp_def]
      exact List.map_congr_left fun row _ => zipWith_fin_div row _ hm.qColMax_ne
    · simp only [qScale, qNorm, scaleBy, finM, List.map_map, Function.comp_def, zipWith_fin_mul,
        String.reduceEq, if_false]
      refine List.map_congr_left fun row hrow => ?_
      rw [zipWith_div_mul_cancel row _ (by rw [hm.qColMax_length, hm.rows row hrow]) hm.qColMax_ne]

theorem good_qAbs_idem {m : List (List ℚ)} {nf : ℕ} (h : Good m nf) : qAbs m = m := by
  unfold qAbs
  conv_rhs => rw [← List.map_id m]
  refine List.map_congr_left fun row hrow => ?_
  simp only [id]
  conv_rhs => rw [← List.map_id row]
  exact List.map_congr_left fun x hx => abs_of_nonneg (h.nonneg row hrow x hx)

theorem normalize_history (m : List (List ℚ)) (nf : ℕ) (hm : Good m nf) (last : String)
    (hl : last ∈ normMethods) (calls : List String) :
    ∀ (s : PowerState) (X : List (List ℚ)), (∀ c ∈ calls, c ∈ normMethods) →
    scaleBy s.toAbs s.power = finM X → qAbs X = m →
    ∃ s', runCalls normalize s (calls ++ [last]) = (s', .ok ()) ∧ s'.power = finM (qNorm last m) := by
  induction calls with
  | nil =>
    intro s X _ hs hX
    obtain ⟨h1, _⟩ := normalize_step s X m nf hm last hl hs hX
    exact ⟨⟨finM (qNorm last m), qScale last m⟩, by simp [runCalls, h1], rfl⟩
  | cons c cs ih =>
    intro s X hv hs hX
    obtain ⟨h1, h2⟩ := normalize_step s X m nf hm c (hv c List.mem_cons_self) hs hX
    obtain ⟨s', h3, h4⟩ := ih ⟨finM (qNorm c m), qScale c m⟩ m
      (fun d hd => hv d (List.mem_cons_of_mem _ hd)) h2 (good_qAbs_idem hm)
    exact ⟨s', by simp [runCalls, h1, h3], h4⟩

theorem entry_qAbs (m : List (List ℚ)) (r c : ℕ) : entry (qAbs m) r c = (entry m r c).map fun x => |x| := by
  unfold entry qAbs
  rw [List.getElem?_map]
  cases m[r]? with
  | none => rfl
  | some row => simp

theorem mem_flatten_iff_entry (m : List (List ℚ)) (x : ℚ) :
    x ∈ m.flatten ↔ ∃ r c, entry m r c = some x := by
  constructor
  · intro h
    obtain ⟨row, hrow, hx⟩ := List.mem_flatten.1 h
    obtain ⟨r, hr⟩ := List.mem_iff_getElem?.1 hrow
    obtain ⟨c, hc⟩ := List.mem_iff_getElem?.1 hx
    exact ⟨r, c, by simp [entry, hr, hc]⟩
  · rintro ⟨r, c, h⟩
    unfold entry at h
    rcases hr : m[r]? with _ | row
    · rw [hr] at h; cases h
    · rw [hr] at h
      exact List.mem_flatten.2 ⟨row, List.mem_of_getElem? hr, List.mem_of_getElem? h⟩

theorem isGreatest_all (orig : List (List ℚ)) (h : (qAbs orig).flatten ≠ []) :
    IsGreatest (magnitudes orig) (maxQ (qAbs orig).flatten) := by
  obtain ⟨h1, h2⟩ := maxQ_spec _ h
  refine ⟨?_, ?_⟩
  · obtain ⟨r, c, hrc⟩ := (mem_flatten_iff_entry _ _).1 h1
    rw [entry_qAbs] at hrc
    obtain ⟨x, hx, hx'⟩ := Option.map_eq_some_iff.1 hrc
    exact ⟨r, c, x, hx, hx'.symm⟩
  · rintro v ⟨r, c, x, hx, rfl⟩
    refine h2 _ ((mem_flatten_iff_entry _ _).2 ⟨r, c, ?_⟩)
    rw [entry_qAbs, hx]; rfl

theorem isGreatest_col (orig : List (List ℚ)) (nf c : ℕ) (hc : c < nf) (hne : orig ≠ [])
    (hrow : ∀ row ∈ orig, row.length = nf) :
    IsGreatest (columnMagnitudes orig c) (maxQ ((qAbs orig).map fun row => row.getD c 0)) := by
  obtain ⟨h1, h2⟩ := maxQ_spec ((qAbs orig).map fun row => row.getD c 0) (by simpa [qAbs] using hne)
  refine ⟨?_, ?_⟩
  · obtain ⟨row', hrow', hx⟩ := List.mem_map.1 h1
    obtain ⟨row, hrow1, rfl⟩ := List.mem_map.1 hrow'
    obtain ⟨r, hr⟩ := List.mem_iff_getElem?.1 hrow1
    have hl := hrow row hrow1
    refine ⟨r, row[c]'(by omega), ?_, ?_⟩
    · simp only [entry, hr, Option.bind_some]
      rw [List.getElem?_eq_getElem (by omega)]
    · rw [← hx, List.getD_eq_getElem?_getD, List.getElem?_map, List.getElem?_eq_getElem (by omega)]
      rfl
  · rintro v ⟨r, x, hx, rfl⟩
    refine h2 _ ?_
    unfold entry at hx
    rcases hr : orig[r]? with _ | row
    · rw [hr] at hx; cases hx
    · rw [hr] at hx
      simp only [Option.bind_some] at hx
      refine List.mem_map.2 ⟨row.map fun x => |x|, List.mem_map.2 ⟨row, List.mem_of_getElem? hr, rfl⟩, ?_⟩
      rw [List.getD_eq_getElem?_getD, List.getElem?_map, hx]; rfl

theorem normalizedBy_qNorm (orig : List (List ℚ)) (nf : ℕ) (hne : orig ≠ [])
    (hrow : ∀ row ∈ orig, row.length = nf) (hg : Good (qAbs orig) nf) (how : String)
    (hh : how ∈ normMethods) : NormalizedBy how orig (qNorm how (qAbs orig)) := by
  have hfl : (qAbs orig).flatten ≠ [] := by
    intro h0
    have := hg.allpos
    rw [h0] at this
    simp [maxQ] at this
  intro r c
  rcases hr : orig[r]? with _ | row
  · left
    refine ⟨by simp [entry, hr], ?_⟩
    have : (qNorm how (qAbs orig))[r]? = none := by
      rw [List.getElem?_eq_none_iff] at hr ⊢
      unfold qNorm qAbs
      split_ifs <;> simpa using hr
    simp [entry, this]
  · have hl : row.length = nf := hrow row (List.mem_of_getElem? hr)
    have hrl : r < orig.length := (List.getElem?_eq_some_iff.1 hr).1
    have hq : (qAbs orig)[r]? = some (row.map fun x => |x|) := by simp [qAbs, hr]
    rcases Nat.lt_or_ge c nf with hc | hc
    · right
      have hx : entry orig r c = some (row[c]'(by omega)) := by
        simp only [entry, hr, Option.bind_some]
        exact List.getElem?_eq_getElem (by omega)
      simp only [normMethods, List.mem_cons, List.not_mem_nil, or_false] at hh
      rcases hh with rfl | rfl | rfl
      · refine ⟨_, |row[c]'(by omega)|, hx, ?_, by simp [NormalizedEntry]⟩
        simp only [qNorm, if_true]
        rw [entry_qAbs, hx]; rfl
      · refine ⟨_, |row[c]'(by omega)| / maxQ (qAbs orig).flatten, hx, ?_, ?_⟩
        · simp only [entry, qNorm, if_true, List.getElem?_map, hq, Option.map_some,
            Option.bind_some, String.reduceEq, if_false]
          rw [List.getElem?_eq_getElem (by omega)]; rfl
        · exact ⟨by simp, fun _ => ⟨_, isGreatest_all orig hfl, rfl⟩, by simp⟩
      · refine ⟨_, |row[c]'(by omega)| / maxQ ((qAbs orig).map fun row => row.getD c 0), hx, ?_, ?_⟩
        · simp only [entry, qNorm, List.getElem?_map, hq, Option.map_some,
            Option.bind_some, String.reduceEq, if_false]
          rw [List.getElem?_zipWith, List.getElem?_map, List.getElem?_eq_getElem (by omega)]
          have hcm : (qColMax (qAbs orig))[c]? = some (maxQ ((qAbs orig).map fun row => row.getD c 0)) := by
            unfold qColMax
            rw [List.getElem?_map, List.getElem?_range (by rw [hg.head]; exact hc)]
            rfl
          rw [hcm]; rfl
        · exact ⟨by simp, by simp, fun _ => ⟨_, isGreatest_col orig nf c hc hne hrow, rfl⟩⟩
    · left
      refine ⟨?_, ?_⟩
      · simp only [entry, hr, Option.bind_some]
        exact List.getElem?_eq_none (by omega)
      · have hlen : ∃ row', (qNorm how (qAbs orig))[r]? = some row' ∧ row'.length ≤ nf := by
          unfold qNorm
          split_ifs
          · exact ⟨_, hq, by simp [hl]⟩
          · exact ⟨_, by rw [List.getElem?_map, hq]; rfl, by simp [hl]⟩
          · exact ⟨_, by rw [List.getElem?_map, hq]; rfl, by simp [hl]⟩
        obtain ⟨row', h1, h2⟩ := hlen
        simp only [entry, h1, Option.bind_some]
        exact List.getElem?_eq_none (by omega)

/-- The stated preconditions: a rectangular matrix with at least one frequency, in which no frequency
has only zero power. -/
structure Normalizable (orig : List (List ℚ)) (nf : ℕ) : Prop where
  rows_ne : orig ≠ []
  cols_pos : 0 < nf
  rect : ∀ row ∈ orig, row.length = nf
  nonzero : ∀ c, c < nf → ∃ r x, entry orig r c = some x ∧ x ≠ 0

theorem Normalizable.good {orig : List (List ℚ)} {nf : ℕ} (h : Normalizable orig nf) :
    Good (qAbs orig) nf where
  ne := by simpa [qAbs] using h.rows_ne
  npos := h.cols_pos
  rows := by
    intro row hr
    obtain ⟨row', h', rfl⟩ := List.mem_map.1 hr
    simpa using h.rect row' h'
  nonneg := by
    intro row hr x hx
    obtain ⟨row', h', rfl⟩ := List.mem_map.1 hr
    obtain ⟨y, _, rfl⟩ := List.mem_map.1 hx
    exact abs_nonneg y
  pos := by
    intro c hc
    obtain ⟨r, x, hx, hx0⟩ := h.nonzero c hc
    unfold entry at hx
    rcases hr : orig[r]? with _ | row
    · rw [hr] at hx; cases hx
    · rw [hr] at hx
      simp only [Option.bind_some] at hx
      refine ⟨row.map fun x => |x|, List.mem_map.2 ⟨row, List.mem_of_getElem? hr, rfl⟩, ?_⟩
      rw [List.getD_eq_getElem?_getD, List.getElem?_map, hx]
      simpa using hx0

/-- **C63**.  After any sequence of `normalize` calls with documented methods, none of which fails, the
power is the original magnitude normalized by the last requested method. -/
theorem C63_last_method_wins (orig : List (List ℚ)) (nf : ℕ) (h : Normalizable orig nf)
    (calls : List String) (last : String) (hc : ∀ c ∈ calls, c ∈ normMethods)
    (hl : last ∈ normMethods) :
    ∃ s p, runCalls normalize (PowerState.new (finM orig)) (calls ++ [last]) = (s, .ok ()) ∧
      s.power = finM p ∧ NormalizedBy last orig p := by
  have h0 : scaleBy (PowerState.new (finM orig)).toAbs (PowerState.new (finM orig)).power = finM orig := by
    simp [PowerState.new, scaleBy, finM, Function.comp_def, Fl.mul]
  obtain ⟨s, h1, h2⟩ := normalize_history (qAbs orig) nf h.good last hl calls _ orig hc h0 rfl
  exact ⟨s, _, h1, h2, normalizedBy_qNorm orig nf h.rows_ne h.rect h.good last hl⟩

/-- **C63** (restoring).  After any history, `normalize("none")` brings back the original magnitudes. -/
theorem C63_none_restores (orig : List (List ℚ)) (nf : ℕ) (h : Normalizable orig nf)
    (calls : List String) (hc : ∀ c ∈ calls, c ∈ normMethods) :
    ∃ s, runCalls normalize (PowerState.new (finM orig)) (calls ++ ["none"]) = (s, .ok ()) ∧
      s.power = orig.map fun row => row.map fun x => Fl.fin |x| := by
  have h0 : scaleBy (PowerState.new (finM orig)).toAbs (PowerState.new (finM orig)).power = finM orig := by
    simp [PowerState.new, scaleBy, finM, Function.comp_def, Fl.mul]
  obtain ⟨s, h1, h2⟩ := normalize_history (qAbs orig) nf h.good "none" (by simp [normMethods]) calls _
    orig hc h0 rfl
  exact ⟨s, h1, by rw [h2]; simp [qNorm, finM, qAbs, Function.comp_def]⟩

example : Normalizable [[1, -4], [-2, 3]] 2 where
  rows_ne := by simp
  cols_pos := by norm_num
  rect := by simp
  nonzero := by
    intro c hc
    have : c = 0 ∨ c = 1 := by omega
    rcases this with rfl | rfl
    · exact ⟨0, 1, rfl, by norm_num⟩
    · exact ⟨0, -4, rfl, by norm_num⟩

example : ((runCalls normalize (PowerState.new (finM [[1, -4], [-2, 3]]))
    ["frequency-maximum", "absolute-maximum", "frequency-maximum"]).1.power
    = finM [[1 / 2, 1], [1, 3 / 4]]) := by decide +kernel

/-- **C63** fails without the non-vanishing hypothesis: a frequency with only zero power turns into NaN
under `frequency-maximum`, and `none` does not bring it back. -/
theorem C63_zero_column_fails :
    ∃ orig : List (List ℚ), ∃ s,
      runCalls normalize (PowerState.new (finM orig)) ["frequency-maximum", "none"] = (s, .ok ()) ∧
      s.power ≠ orig.map fun row => row.map fun x => Fl.fin |x| :=
  ⟨[[0, 1], [0, 2]], _, rfl, by decide +kernel⟩

/-- **C97** fails: a call with an unknown method raises `KeyError` but has already multiplied the power
by the stored factor, so that the next documented call gives a wrong result. -/
theorem C97_refused_call_fails :
    ∃ (orig : List (List ℚ)) (s : PowerState) (p : List (List ℚ)), Normalizable orig 1 ∧
      runAll normalize (PowerState.new (finM orig)) ["absolute-maximum", "maximum", "none"] = s ∧
      (normalize (normalize (PowerState.new (finM orig)) "absolute-maximum").1 "maximum").2
        = .error .keyError ∧
      s.power = finM p ∧ ¬ NormalizedBy "none" orig p := by
  refine ⟨[[2], [1]], _, [[4], [2]], ?_, rfl, by decide +kernel, by decide +kernel, ?_⟩
  · exact ⟨by simp, by norm_num, by simp, by
      intro c hc
      have : c = 0 := by omega
      subst this
      exact ⟨0, 2, rfl, by norm_num⟩⟩
  · intro h
    rcases h 0 0 with ⟨h, _⟩ | ⟨x, y, hx, hy, h1, _⟩
    · cases h
    · cases hx; cases hy
      have := h1 rfl
      norm_num at this

/-- **C97** (what holds).  A refused first call (before any normalization) leaves the power as it was,
and a refused call never changes the stored factor. -/
theorem C97_refused_call_partial (orig : List (List ℚ)) (s : PowerState) (how : String)
    (hh : how ∉ normMethods) :
    (normalize s how).2 = .error .keyError ∧ (normalize s how).1.toAbs = s.toAbs ∧
      (normalize (PowerState.new (finM orig)) how).1 = PowerState.new (finM orig) := by
  simp only [normMethods, List.mem_cons, List.not_mem_nil, or_false, not_or] at hh
  obtain ⟨h1, h2, h3⟩ := hh
  have e : ∀ t : PowerState, normalize t how = (⟨scaleBy t.toAbs t.power, t.toAbs⟩, .error .keyError) := by
    intro t
    simp only [normalize, h1, h2, h3, if_false]
  refine ⟨by rw [e], by rw [e], ?_⟩
  rw [e]
  simp [PowerState.new, scaleBy, finM, Function.comp_def, Fl.mul]

end Verif.Props
