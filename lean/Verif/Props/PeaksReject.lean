import Verif.Lemmas.Number
import Verif.Lemmas.Peaks

/-!
# C33, C34, C35, C36, C44: which peaks remain, and their attributes
-/

namespace Verif.Props
open Verif Peaks Spec

/-- Numbers of the peaks with a velocity. -/
def withVelocity (velocity : Nd Fl) : List ℕ :=
  (List.range velocity.data.length).filter fun i => decide (velocity.data.getD i .nan ≠ .nan)

/-- **C33**.  A new object remembers its arguments, exactly the peaks with a velocity remain, and every attribute
property lists the values of these peaks in row-major order: entry `k` of each attribute belongs to the `k`-th
remaining peak. -/
theorem C33_new_peaks (frequency velocity : Nd Fl) (identifier : String) (kwargs : List (String × Nd Fl)) (p : Peaks)
    (h : Peaks.init frequency velocity identifier kwargs = .ok p) (hw : WfPeaks p) :
    p.frequency = frequency ∧ p.velocity = velocity ∧ p.extra = kwargs ∧ p.identifier = identifier ∧
    (∀ i, Remaining p i ↔ ∃ v, velocity.data[i]? = some v ∧ v ≠ .nan) ∧
    p.get "frequency" = .ok ((withVelocity velocity).map fun i => frequency.data.getD i .nan) ∧
    p.get "velocity" = .ok ((withVelocity velocity).map fun i => velocity.data.getD i .nan) ∧
    ∀ name ∈ ["azimuth", "ellipticity", "noise", "power"], ∀ a, kwargs.lookup name = some a →
      p.get name = .ok ((withVelocity velocity).map fun i => a.data.getD i .nan) := by
  unfold Peaks.init at h
  split_ifs at h
  simp only [Except.ok.injEq] at h
  subst h
  have hsel : ∀ a : Nd Fl, a.data.length = velocity.data.length →
      a.select (velocity.map fun v => !v.isNan) = (withVelocity velocity).map fun i => a.data.getD i .nan := by
    intro a ha
    rw [select_eq .nan _ _ (by simpa [Nd.map] using ha)]
    congr 1
    simp only [Nd.map, List.length_map, withVelocity]
    apply List.filter_congr
    intro i hi
    rw [List.mem_range] at hi
    rw [List.getD_eq_getElem _ _ (by simpa using hi), List.getD_eq_getElem _ _ hi, List.getElem_map,
      not_isNan]
  refine ⟨rfl, rfl, rfl, rfl, ?_, ?_, ?_, ?_⟩
  · intro i
    simp only [Remaining, Nd.map, List.getElem?_map, Option.map_eq_some_iff]
    constructor
    · rintro ⟨v, h1, h2⟩
      exact ⟨v, h1, by rintro rfl; simp [Fl.isNan] at h2⟩
    · rintro ⟨v, h1, h2⟩
      exact ⟨v, h1, by cases v <;> simp_all [Fl.isNan]⟩
  · have hlen := hw.freq_len
    simp only at hlen
    simp [Peaks.get, stored, raw, hsel _ hlen]
  · simp [Peaks.get, stored, raw, hsel velocity rfl]
  · intro name hname a ha
    have hlen : a.data.length = velocity.data.length := hw.extra_len _ (lookup_mem ha)
    have hs : name ∈ stored := by
      simp only [List.mem_cons, List.not_mem_nil, or_false] at hname
      rcases hname with rfl | rfl | rfl | rfl <;> decide
    have hr : ∀ q : Peaks, q.extra = kwargs → q.raw name = .ok a := by
      intro q hq
      simp only [List.mem_cons, List.not_mem_nil, or_false] at hname
      rcases hname with rfl | rfl | rfl | rfl <;> simp [raw, hq, ha]
    simp [Peaks.get, hs, hr, hsel _ hlen]

/-- A two by two example with a missing velocity. -/
def exPeaks : Peaks :=
  ⟨"a", ⟨[2, 2], [.fin 1, .fin 2, .fin 1, .fin 2]⟩, ⟨[2, 2], [.fin 100, .fin 200, .nan, .fin 300]⟩,
    [("power", ⟨[2, 2], [.fin 5, .fin 6, .nan, .fin 7]⟩)], ⟨[2, 2], [true, true, false, true]⟩⟩

theorem exPeaks_wf : WfPeaks exPeaks := by
  constructor <;> simp [exPeaks]

example : Peaks.init exPeaks.frequency exPeaks.velocity "a" exPeaks.extra = .ok exPeaks ∧
    exPeaks.get "power" = .ok [.fin 5, .fin 6, .fin 7] := by constructor <;> decide +kernel

/-- **C33** (names).  The derived attributes cannot be given to the constructor. -/
theorem C33_derived_names_refused (frequency velocity : Nd Fl) (identifier : String)
    (kwargs : List (String × Nd Fl)) :
    Peaks.init frequency velocity identifier kwargs = .error .attributeError ↔
      ∃ k ∈ kwargs, k.1 = "slowness" ∨ k.1 = "wavelength" ∨ k.1 = "wavenumber" := by
  unfold Peaks.init
  split_ifs with h
  · simp only [true_iff]
    obtain ⟨k, hk, h⟩ := List.any_eq_true.1 h
    exact ⟨k, hk, by simpa [or_assoc] using h⟩
  · simp only [false_iff]
    rintro ⟨k, hk, h'⟩
    apply h
    rw [List.any_eq_true]
    exact ⟨k, hk, by simpa [or_assoc] using h'⟩

theorem limitsMark_iff (lo hi : Option Fl) (x : Fl) :
    limitsMark lo hi x true = true ↔ OutsideLimits lo hi x := by
  unfold limitsMark OutsideLimits
  simp only [← lt_iff_below]
  cases lo <;> cases hi <;> simp
  rename_i l h
  rcases hb : h.lt x with _ | _ <;> simp

/-- **C34**.  `reject_limits_outside` keeps exactly the remaining peaks which are not outside the limits, and
alters no recorded value. -/
theorem C34_reject_limits_outside (p : Peaks) (hw : WfPeaks p) (attr : String) (a : Nd Fl)
    (ha : p.raw attr = .ok a) (lo hi : Option Fl) :
    ∃ p', p.rejectLimits attr lo hi = (p', .ok ()) ∧ SameRecord p p' ∧
      ∀ i v, Value p attr i v → (Remaining p' i ↔ Remaining p i ∧ ¬ OutsideLimits lo hi v) := by
  have hl := (raw_shape hw ha).2.trans hw.valid_len.symm
  refine ⟨p.reject (List.zipWith (limitsMark lo hi) a.data p.valid.data), ?_, reject_sameRecord (by simp [hl]), ?_⟩
  · simp [rejectLimits, ha]
  · rintro i v ⟨a', ha', hv⟩
    rw [ha, Except.ok.injEq] at ha'
    subst ha'
    rw [reject_remaining]
    refine and_congr_right fun hr => ?_
    unfold Remaining at hr
    rw [List.getElem?_zipWith, hv, hr]
    simp only [Option.some.injEq]
    rw [← limitsMark_iff]
    simp

/-- **C34** (finite values and limits): a peak remains exactly when its value is within the closed interval. -/
theorem C34_closed_interval (p : Peaks) (hw : WfPeaks p) (attr : String) (i : ℕ) (q : ℚ)
    (hv : Value p attr i (.fin q)) (lo hi : Option ℚ) :
    Remaining (p.rejectLimits attr (lo.map .fin) (hi.map .fin)).1 i ↔
      Remaining p i ∧ (∀ l, lo = some l → l ≤ q) ∧ (∀ h, hi = some h → q ≤ h) := by
  obtain ⟨a, ha, hi'⟩ := hv
  obtain ⟨p', h1, -, h3⟩ := C34_reject_limits_outside p hw attr a ha (lo.map .fin) (hi.map .fin)
  rw [h1, h3 i (.fin q) ⟨a, ha, hi'⟩]
  refine and_congr_right fun _ => ?_
  unfold OutsideLimits
  simp only [← lt_iff_below]
  cases lo <;> cases hi <;> simp [Fl.lt]

/-- **C34** (unknown attribute): AttributeError, nothing changes. -/
theorem C34_unknown_attribute (p : Peaks) (attr : String) (e : PyErr) (h : p.raw attr = .error e)
    (lo hi : Option Fl) : p.rejectLimits attr lo hi = (p, .error e) ∧ e = .attributeError := by
  refine ⟨by simp [rejectLimits, h], ?_⟩
  unfold raw at h
  split_ifs at h
  split at h <;> simp at h
  exact h.symm

example : (exPeaks.rejectLimits "velocity" (some (.fin 200)) none).1.valid.data = [false, true, false, true] := by
  decide +kernel

private theorem pyMin_max (b : Fl × Fl) (v : Fl) (h1 : b.1 ≠ .nan) (h2 : b.2 ≠ .nan) :
    ((pyMin b.1 b.2).lt v = true ∧ v.lt (pyMax b.1 b.2) = true) ↔ Between b v := by
  unfold pyMin pyMax Between
  simp only [← lt_iff_below]
  rcases b with ⟨x, y⟩
  simp only at h1 h2 ⊢
  rcases hxy : x.lt y with _ | _
  · rcases hyx : y.lt x with _ | _
    · simp only [Bool.false_eq_true, if_false]
      constructor
      · rintro ⟨g1, g2⟩
        have := Fl.lt_trans g1 g2
        rw [Fl.lt_irrefl] at this; simp at this
      · rintro (⟨g1, g2⟩ | ⟨g1, g2⟩)
        · have := Fl.lt_trans g1 g2
          rw [hxy] at this; simp at this
        · have := Fl.lt_trans g1 g2
          rw [hyx] at this; simp at this
    · simp only [if_true, Bool.false_eq_true, if_false]
      constructor
      · intro g; exact Or.inr g
      · rintro (⟨g1, g2⟩ | g)
        · have := Fl.lt_trans g1 g2
          rw [hxy] at this; simp at this
        · exact g
  · have hyx := Fl.lt_asymm hxy
    simp only [hyx, if_true, Bool.false_eq_true, if_false]
    constructor
    · intro g; exact Or.inl g
    · rintro (g | ⟨g1, g2⟩)
      · exact g
      · have := Fl.lt_trans g1 g2
        rw [hyx] at this; simp at this

/-- The bounds of a box are numbers. -/
def BoxOk (b : Fl × Fl) : Prop := b.1 ≠ .nan ∧ b.2 ≠ .nan

theorem boxMark_iff (xl yl : Fl × Fl) (hx : BoxOk xl) (hy : BoxOk yl) (x y : Fl) :
    boxMark xl yl x y true = true ↔ Between xl x ∧ Between yl y := by
  rw [← pyMin_max xl x hx.1 hx.2, ← pyMin_max yl y hy.1 hy.2]
  unfold boxMark
  rcases h1 : (pyMin xl.1 xl.2).lt x with _ | _ <;> simp
  rcases h2 : x.lt (pyMax xl.1 xl.2) with _ | _ <;> simp

/-- **C35**.  `reject_box_inside` keeps exactly the remaining peaks which are not strictly inside the box, and
alters no recorded value. -/
theorem C35_reject_box_inside (p : Peaks) (hw : WfPeaks p) (xtype ytype : String) (a b : Nd Fl)
    (ha : p.raw xtype = .ok a) (hb : p.raw ytype = .ok b) (xl yl : Fl × Fl) (hx : BoxOk xl) (hy : BoxOk yl) :
    ∃ p', p.rejectBox xtype xl ytype yl = (p', .ok ()) ∧ SameRecord p p' ∧
      ∀ i x y, Value p xtype i x → Value p ytype i y →
        (Remaining p' i ↔ Remaining p i ∧ ¬ (Between xl x ∧ Between yl y)) := by
  have hla := (raw_shape hw ha).2.trans hw.valid_len.symm
  have hlb := (raw_shape hw hb).2.trans hw.valid_len.symm
  refine ⟨p.reject (List.zipWith (fun xy v => boxMark xl yl xy.1 xy.2 v) (a.data.zip b.data) p.valid.data), ?_,
    reject_sameRecord (by simp [hla, hlb]), ?_⟩
  · simp [rejectBox, boxMask, ha, hb]
  · rintro i x y ⟨a', ha', hxv⟩ ⟨b', hb', hyv⟩
    rw [ha, Except.ok.injEq] at ha'
    subst ha'
    rw [hb, Except.ok.injEq] at hb'
    subst hb'
    rw [reject_remaining]
    refine and_congr_right fun hr => ?_
    unfold Remaining at hr
    have hz : (a.data.zip b.data)[i]? = some (x, y) := by
      rw [List.getElem?_zip_eq_some]; exact ⟨hxv, hyv⟩
    rw [List.getElem?_zipWith, hz, hr]
    simp only [Option.some.injEq]
    rw [← boxMark_iff xl yl hx hy]
    simp

/-- **C35** (order of bounds).  The order in which the bounds of either side are given is irrelevant. -/
theorem C35_bounds_in_any_order (p : Peaks) (xtype ytype : String) (x1 x2 y1 y2 : Fl)
    (hx : BoxOk (x1, x2)) (hy : BoxOk (y1, y2)) :
    p.rejectBox xtype (x1, x2) ytype (y1, y2) = p.rejectBox xtype (x2, x1) ytype (y1, y2) ∧
    p.rejectBox xtype (x1, x2) ytype (y1, y2) = p.rejectBox xtype (x1, x2) ytype (y2, y1) := by
  have comm : ∀ u w : Fl, u ≠ .nan → w ≠ .nan → pyMin u w = pyMin w u ∧ pyMax u w = pyMax w u := by
    intro u w hu hw
    unfold pyMin pyMax
    cases u <;> cases w <;> simp_all [Fl.lt]
    rename_i a b
    constructor
    · split_ifs with h1 h2 h2
      · exact absurd h1 (not_lt.2 h2.le)
      · rfl
      · rfl
      · exact congrArg _ (le_antisymm (not_lt.1 h1) (not_lt.1 h2))
    · split_ifs with h1 h2 h2
      · exact absurd h1 (not_lt.2 h2.le)
      · rfl
      · rfl
      · exact congrArg _ (le_antisymm (not_lt.1 h2) (not_lt.1 h1))
  have c1 := comm x1 x2 hx.1 hx.2
  have c2 := comm y1 y2 hy.1 hy.2
  constructor
  · unfold rejectBox boxMask boxMark
    simp only [c1.1, c1.2]
  · unfold rejectBox boxMask boxMark
    simp only [c2.1, c2.2]

example : (exPeaks.rejectBox "frequency" (.fin 3, .fin (3 / 2)) "velocity" (.fin 0, .fin 300)).1.valid.data =
    [true, false, false, true] := by decide +kernel

/-! ### C36 -/

/-- One rejection request. -/
inductive Rejection
  | limits (attr : String) (lo hi : Option Fl)
  | box (xtype : String) (xl : Fl × Fl) (ytype : String) (yl : Fl × Fl)

/-- Perform a request. -/
def doReject (p : Peaks) : Rejection → Outcome Peaks
  | .limits a lo hi => p.rejectLimits a lo hi
  | .box x xl y yl => p.rejectBox x xl y yl

/-- Bounds are numbers. -/
def Rejection.ok : Rejection → Prop
  | .limits _ _ _ => True
  | .box _ xl _ yl => BoxOk xl ∧ BoxOk yl

/-- Peak `i` lies in the rejected region, by its recorded values; unknown attributes have an empty region. -/
def Hit (p : Peaks) (r : Rejection) (i : ℕ) : Prop :=
  match r with
  | .limits a lo hi => ∃ v, Value p a i v ∧ OutsideLimits lo hi v
  | .box xt xl yt yl => ∃ x y, Value p xt i x ∧ Value p yt i y ∧ Between xl x ∧ Between yl y

private theorem remaining_value {p : Peaks} (hw : WfPeaks p) {a : String} {d : Nd Fl} (ha : p.raw a = .ok d)
    {i : ℕ} (h : Remaining p i) : ∃ v, Value p a i v := by
  have hl := (raw_shape hw ha).2.trans hw.valid_len.symm
  have hi : i < d.data.length := by
    rw [hl]; exact (List.getElem?_eq_some_iff.1 h).1
  exact ⟨_, d, ha, List.getElem?_eq_getElem hi⟩

private theorem Value.unique {p : Peaks} {a : String} {i : ℕ} {v w : Fl} (h : Value p a i v) (g : Value p a i w) :
    v = w := by
  obtain ⟨d, h1, h2⟩ := h
  obtain ⟨e, g1, g2⟩ := g
  rw [h1, Except.ok.injEq] at g1
  subst g1
  rw [h2, Option.some.injEq] at g2
  exact g2

theorem doReject_spec (p : Peaks) (hw : WfPeaks p) (r : Rejection) (hr : r.ok) :
    SameRecord p (doReject p r).1 ∧ ∀ i, Remaining (doReject p r).1 i ↔ Remaining p i ∧ ¬ Hit p r i := by
  cases r with
  | limits a lo hi =>
    rcases ha : p.raw a with e | d
    · have h1 := (C34_unknown_attribute p a e ha lo hi).1
      simp only [doReject, h1]
      refine ⟨SameRecord.refl p, fun i => ?_⟩
      simp only [Hit, iff_self_and]
      rintro - ⟨v, ⟨d, hd, -⟩, -⟩
      rw [ha] at hd; simp at hd
    · obtain ⟨p', h1, h2, h3⟩ := C34_reject_limits_outside p hw a d ha lo hi
      simp only [doReject, h1]
      refine ⟨h2, fun i => ?_⟩
      constructor
      · intro h
        have hp : Remaining p i := by
          by_contra hc
          have hl := h2.2.2.2.2.2
          have hi : i < p.valid.data.length := by rw [hl]; exact (List.getElem?_eq_some_iff.1 h).1
          have hi' : i < d.data.length := by
            rw [(raw_shape hw ha).2, ← hw.valid_len]; exact hi
          exact hc ((h3 i _ ⟨d, ha, List.getElem?_eq_getElem hi'⟩).1 h).1
        obtain ⟨v, hv⟩ := remaining_value hw ha hp
        refine ⟨hp, ?_⟩
        rintro ⟨w, hw', hout⟩
        exact ((h3 i v hv).1 h).2 (Value.unique hw' hv ▸ hout)
      · rintro ⟨hp, hn⟩
        obtain ⟨v, hv⟩ := remaining_value hw ha hp
        exact (h3 i v hv).2 ⟨hp, fun ho => hn ⟨v, hv, ho⟩⟩
  | box xt xl yt yl =>
    rcases ha : p.raw xt with e | d
    · have h1 : p.rejectBox xt xl yt yl = (p, .error e) := by simp [rejectBox, boxMask, ha]
      simp only [doReject, h1]
      refine ⟨SameRecord.refl p, fun i => ?_⟩
      simp only [Hit, iff_self_and]
      rintro - ⟨x, y, ⟨d, hd, -⟩, -⟩
      rw [ha] at hd; simp at hd
    · rcases hb : p.raw yt with e | f
      · have h1 : p.rejectBox xt xl yt yl = (p, .error e) := by simp [rejectBox, boxMask, ha, hb]
        simp only [doReject, h1]
        refine ⟨SameRecord.refl p, fun i => ?_⟩
        simp only [Hit, iff_self_and]
        rintro - ⟨x, y, -, ⟨d, hd, -⟩, -⟩
        rw [hb] at hd; simp at hd
      · obtain ⟨p', h1, h2, h3⟩ := C35_reject_box_inside p hw xt yt d f ha hb xl yl hr.1 hr.2
        simp only [doReject, h1]
        refine ⟨h2, fun i => ?_⟩
        constructor
        · intro h
          have hl := h2.2.2.2.2.2
          have hi : i < p.valid.data.length := by rw [hl]; exact (List.getElem?_eq_some_iff.1 h).1
          have hi1 : i < d.data.length := by rw [(raw_shape hw ha).2, ← hw.valid_len]; exact hi
          have hi2 : i < f.data.length := by rw [(raw_shape hw hb).2, ← hw.valid_len]; exact hi
          have v1 : Value p xt i d.data[i] := ⟨d, ha, List.getElem?_eq_getElem hi1⟩
          have v2 : Value p yt i f.data[i] := ⟨f, hb, List.getElem?_eq_getElem hi2⟩
          have := (h3 i _ _ v1 v2).1 h
          refine ⟨this.1, ?_⟩
          rintro ⟨x, y, g1, g2, g3, g4⟩
          exact this.2 ⟨Value.unique g1 v1 ▸ g3, Value.unique g2 v2 ▸ g4⟩
        · rintro ⟨hp, hn⟩
          obtain ⟨x, hx⟩ := remaining_value hw ha hp
          obtain ⟨y, hy⟩ := remaining_value hw hb hp
          exact (h3 i x y hx hy).2 ⟨hp, fun ho => hn ⟨x, y, hx, hy, ho⟩⟩

private theorem hit_of_sameRecord {p q : Peaks} (h : SameRecord p q) (r : Rejection) (i : ℕ) :
    Hit p r i ↔ Hit q r i := by
  have hv : ∀ a v, Value p a i v ↔ Value q a i v := by
    intro a v
    simp only [Value, raw_of_sameRecord h]
  cases r <;> simp only [Hit, hv]

/-- **C36** (set difference).  After any sequence of rejections, failed ones included, the remaining peaks are the
initial ones which lie in none of the rejected regions; no recorded value, name or identifier has changed. -/
theorem C36_rejections_compose (p : Peaks) (hw : WfPeaks p) (rs : List Rejection) (hrs : ∀ r ∈ rs, r.ok) :
    SameRecord p (runAll doReject p rs) ∧
    ∀ i, Remaining (runAll doReject p rs) i ↔ Remaining p i ∧ ∀ r ∈ rs, ¬ Hit p r i := by
  induction rs generalizing p with
  | nil => exact ⟨SameRecord.refl p, fun i => by simp [runAll]⟩
  | cons r rs ih =>
    obtain ⟨h1, h2⟩ := doReject_spec p hw r (hrs r (by simp))
    obtain ⟨g1, g2⟩ := ih _ (wf_of_sameRecord h1 hw) (fun s hs => hrs s (by simp [hs]))
    refine ⟨SameRecord.trans h1 g1, fun i => ?_⟩
    have : runAll doReject p (r :: rs) = runAll doReject (doReject p r).1 rs := rfl
    rw [this, g2, h2]
    simp only [List.mem_cons, forall_eq_or_imp, and_assoc]
    refine and_congr_right fun _ => and_congr_right fun _ => ?_
    exact forall₂_congr fun s _ => not_congr (hit_of_sameRecord h1 s i).symm

/-- **C36** (order and repetition).  Two sequences with the same set of requests lead to the same object. -/
theorem C36_order_and_repetition_irrelevant (p : Peaks) (hw : WfPeaks p) (rs ts : List Rejection)
    (hrs : ∀ r ∈ rs, r.ok) (hset : ∀ r, r ∈ rs ↔ r ∈ ts) :
    runAll doReject p rs = runAll doReject p ts := by
  obtain ⟨h1, h2⟩ := C36_rejections_compose p hw rs hrs
  obtain ⟨g1, g2⟩ := C36_rejections_compose p hw ts (fun r hr => hrs r ((hset r).2 hr))
  refine eq_of_remaining ?_ ?_
  · obtain ⟨a1, a2, a3, a4, a5, a6⟩ := h1
    obtain ⟨b1, b2, b3, b4, b5, b6⟩ := g1
    exact ⟨a1.symm.trans b1, a2.symm.trans b2, a3.symm.trans b3, a4.symm.trans b4, a5.symm.trans b5,
      a6.symm.trans b6⟩
  · intro i
    rw [h2, g2]
    refine and_congr_right fun _ => ?_
    exact forall_congr' fun r => imp_congr_left (hset r)

/-- **C36** (no resurrection).  A rejected peak stays rejected. -/
theorem C36_no_resurrection (p : Peaks) (hw : WfPeaks p) (rs : List Rejection) (hrs : ∀ r ∈ rs, r.ok) (i : ℕ)
    (h : ¬ Remaining p i) : ¬ Remaining (runAll doReject p rs) i :=
  fun hc => h (((C36_rejections_compose p hw rs hrs).2 i).1 hc).1

example : (runAll doReject exPeaks [.limits "velocity" none (some (.fin 250)), .limits "colour" none none,
    .box "frequency" (.fin 0, .fin 3) "power" (.fin 5, .fin 9)]).valid.data = [true, false, false, false] := by
  decide +kernel

/-! ### C44 -/

/-- Numbers of the remaining peaks, in order. -/
def remainingList (p : Peaks) : List ℕ := (List.range p.valid.data.length).filter fun i => p.valid.data.getD i false

/-- **C44**.  All attribute lists run over the remaining peaks in order.  For a peak with finite non-zero frequency
and velocity, wavelength times frequency is the velocity, slowness times velocity is one and wavenumber times
wavelength is two pi. -/
theorem C44_derived_attributes (p : Peaks) (hw : WfPeaks p) :
    ∃ lam slow k : ℕ → Fl,
      p.get "frequency" = .ok ((remainingList p).map fun i => p.frequency.data.getD i .nan) ∧
      p.get "velocity" = .ok ((remainingList p).map fun i => p.velocity.data.getD i .nan) ∧
      p.get "wavelength" = .ok ((remainingList p).map lam) ∧
      p.get "slowness" = .ok ((remainingList p).map slow) ∧
      p.get "wavenumber" = .ok ((remainingList p).map k) ∧
      ∀ i f v, p.frequency.data[i]? = some (.fin f) → p.velocity.data[i]? = some (.fin v) → f ≠ 0 → v ≠ 0 →
        ∃ l s w : ℚ, lam i = .fin l ∧ slow i = .fin s ∧ k i = .fin w ∧
          l * f = v ∧ s * v = 1 ∧ w * l = 2 * Arr.pyPi := by
  have hf : p.frequency.select p.valid = (remainingList p).map fun i => p.frequency.data.getD i .nan :=
    select_eq .nan _ _ (hw.freq_len.trans hw.valid_len.symm)
  have hv : p.velocity.select p.valid = (remainingList p).map fun i => p.velocity.data.getD i .nan :=
    select_eq .nan _ _ hw.valid_len.symm
  refine ⟨fun i => wavelengthOf (p.velocity.data.getD i .nan) (p.frequency.data.getD i .nan),
    fun i => slownessOf (p.velocity.data.getD i .nan),
    fun i => wavenumberOf (p.frequency.data.getD i .nan) (p.velocity.data.getD i .nan), ?_, ?_, ?_, ?_, ?_, ?_⟩
  · simp [Peaks.get, stored, raw, hf]
  · simp [Peaks.get, stored, raw, hv]
  · simp [Peaks.get, stored, hf, hv, List.zipWith_map, List.zipWith_self]
  · simp [Peaks.get, stored, hv]
  · simp [Peaks.get, stored, hf, hv, List.zipWith_map, List.zipWith_self]
  · intro i f v h1 h2 hf0 hv0
    have e1 : p.frequency.data.getD i .nan = .fin f := by rw [List.getD_eq_getElem?_getD, h1]; rfl
    have e2 : p.velocity.data.getD i .nan = .fin v := by rw [List.getD_eq_getElem?_getD, h2]; rfl
    refine ⟨v / f, 1 / v, 2 * Arr.pyPi * f / v, ?_, ?_, ?_, ?_, ?_, ?_⟩
    · simp only [wavelengthOf, e1, e2, Fl.div, hf0, if_false]
    · simp only [slownessOf, e2, Fl.div, hv0, if_false]
    · simp only [wavenumberOf, e1, e2, Fl.div, Fl.mul, hv0, if_false]
    · field_simp
    · field_simp
    · field_simp

/-- **C44** (zero values).  A peak with velocity zero has infinite slowness, and one with frequency zero an infinite
wavelength of the sign of its velocity; no division raises.  (Zero has no sign in the model.) -/
theorem C44_zero_values (p : Peaks) (i : ℕ) (f v : ℚ) (hf : p.frequency.data[i]? = some (.fin f))
    (hv : p.velocity.data[i]? = some (.fin v)) :
    (v = 0 → Value p "slowness" i .pinf) ∧
    (f = 0 → 0 < v → Value p "wavelength" i .pinf ∧ Value p "wavenumber" i (.fin 0)) ∧
    (f = 0 → v < 0 → Value p "wavelength" i .ninf ∧ Value p "wavenumber" i (.fin 0)) ∧
    (f = 0 → v = 0 → Value p "wavelength" i .nan ∧ Value p "wavenumber" i .nan) ∧
    (0 < f → v = 0 → Value p "wavelength" i (.fin 0) ∧ Value p "wavenumber" i .pinf) := by
  have hs : Value p "slowness" i (slownessOf (.fin v)) := ⟨p.velocity.map slownessOf, by simp [raw], by simp [Nd.map, hv]⟩
  have hl : Value p "wavelength" i (wavelengthOf (.fin v) (.fin f)) :=
    ⟨Nd.zipWith wavelengthOf p.velocity p.frequency, by simp [raw], by simp [Nd.zipWith, List.getElem?_zipWith, hv, hf]⟩
  have hk : Value p "wavenumber" i (wavenumberOf (.fin f) (.fin v)) :=
    ⟨Nd.zipWith wavenumberOf p.frequency p.velocity, by simp [raw], by simp [Nd.zipWith, List.getElem?_zipWith, hv, hf]⟩
  have hpi : (0 : ℚ) < 2 * Arr.pyPi := by norm_num [Arr.pyPi]
  refine ⟨?_, ?_, ?_, ?_, ?_⟩
  · rintro rfl
    simpa [slownessOf, Fl.div, Fl.infMul] using hs
  · rintro rfl h
    exact ⟨by simpa [wavelengthOf, Fl.div, Fl.infMul, h] using hl, by
      simpa [wavenumberOf, Fl.mul, Fl.div, h.ne'] using hk⟩
  · rintro rfl h
    exact ⟨by simpa [wavelengthOf, Fl.div, Fl.infMul, h, not_lt.2 h.le] using hl, by
      simpa [wavenumberOf, Fl.mul, Fl.div, h.ne] using hk⟩
  · rintro rfl rfl
    exact ⟨by simpa [wavelengthOf, Fl.div, Fl.infMul] using hl, by
      simpa [wavenumberOf, Fl.mul, Fl.div, Fl.infMul] using hk⟩
  · rintro h rfl
    have : (0 : ℚ) < 2 * Arr.pyPi * f := mul_pos hpi h
    exact ⟨by simpa [wavelengthOf, Fl.div, h.ne'] using hl, by
      simpa [wavenumberOf, Fl.mul, Fl.div, Fl.infMul, this] using hk⟩

/-- A peak at frequency zero. -/
example : (Peaks.mk "a" ⟨[1], [.fin 0]⟩ ⟨[1], [.fin 100]⟩ [] ⟨[1], [true]⟩).get "wavelength" = .ok [.pinf] := by
  decide +kernel

example : exPeaks.get "wavelength" = .ok [.fin 100, .fin 100, .fin 150] := by decide +kernel

end Verif.Props
