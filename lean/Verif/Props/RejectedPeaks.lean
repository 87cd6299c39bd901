import Verif.Props.PeaksReject
import Verif.Model.Correlation

/-! # C173: a rejected peak has no influence any more -/

namespace Verif.Props
open Verif Peaks

/-! ## Specification -/

/-- Two arrays of one shape with the same values at the peaks which are not rejected. -/
structure AgreeWhere (valid : Nd Bool) (a b : Nd Fl) : Prop where
  shape : a.shape = b.shape
  left : a.data.length = valid.data.length
  right : b.data.length = valid.data.length
  same : ∀ i : ℕ, valid.data[i]? = some true → a.data[i]? = b.data[i]?

/-- Two `Peaks` objects which differ in the values of rejected peaks only: one has the same identifier, the same peaks
rejected, the same attributes, and the same values of all peaks which are not rejected. -/
structure DifferInRejected (p q : Peaks) : Prop where
  identifier : p.identifier = q.identifier
  valid : p.valid = q.valid
  frequency : AgreeWhere p.valid p.frequency q.frequency
  velocity : AgreeWhere p.valid p.velocity q.velocity
  extra : List.Forall₂ (fun x y => x.1 = y.1 ∧ AgreeWhere p.valid x.2 y.2) p.extra q.extra

/-- A rejection requested from a suite. -/
def suiteReject (s : Suite) : Rejection → Outcome Suite
  | .limits a lo hi => s.rejectLimits a lo hi
  | .box x xl y yl => s.rejectBox x xl y yl

/-! ## Proofs -/

theorem select_agree : ∀ (m : List Bool) (a b : List Fl), a.length = m.length → b.length = m.length →
    (∀ i : ℕ, m[i]? = some true → a[i]? = b[i]?) →
    ((a.zip m).filter fun p => p.2).map (fun p => p.1) = ((b.zip m).filter fun p => p.2).map fun p => p.1 := by
  intro m
  induction m with
  | nil => intro a b _ _ _; simp
  | cons v m ih =>
    intro a b ha hb h
    rcases a with _ | ⟨x, a⟩
    · simp at ha
    rcases b with _ | ⟨y, b⟩
    · simp at hb
    have hih := ih a b (by simpa using ha) (by simpa using hb) fun i hi => by simpa using h (i + 1) (by simpa using hi)
    cases v with
    | false => simpa using hih
    | true =>
      have h0 := h 0 rfl
      simp only [List.getElem?_cons_zero, Option.some.injEq] at h0
      simp only [List.zip_cons_cons, List.filter_cons, if_true, List.map_cons, h0, hih]

theorem zipWith_agree {β : Type} (f : Fl → Bool → β) (hf : ∀ x y, f x false = f y false) :
    ∀ (m : List Bool) (a b : List Fl), a.length = m.length → b.length = m.length →
    (∀ i : ℕ, m[i]? = some true → a[i]? = b[i]?) → List.zipWith f a m = List.zipWith f b m := by
  intro m
  induction m with
  | nil => intro a b _ _ _; simp
  | cons v m ih =>
    intro a b ha hb h
    rcases a with _ | ⟨x, a⟩
    · simp at ha
    rcases b with _ | ⟨y, b⟩
    · simp at hb
    rw [List.zipWith_cons_cons, List.zipWith_cons_cons,
      ih a b (by simpa using ha) (by simpa using hb) fun i hi => by simpa using h (i + 1) (by simpa using hi)]
    cases v with
    | false => rw [hf x y]
    | true =>
      have h0 := h 0 rfl
      simp only [List.getElem?_cons_zero, Option.some.injEq] at h0
      rw [h0]

theorem zipWith_agree2 {β : Type} (f : Fl × Fl → Bool → β) (hf : ∀ x y, f x false = f y false) :
    ∀ (m : List Bool) (a b c d : List Fl), a.length = m.length → b.length = m.length → c.length = m.length →
    d.length = m.length → (∀ i : ℕ, m[i]? = some true → a[i]? = b[i]?) → (∀ i : ℕ, m[i]? = some true → c[i]? = d[i]?) →
    List.zipWith f (a.zip c) m = List.zipWith f (b.zip d) m := by
  intro m
  induction m with
  | nil => intro a b c d _ _ _ _ _ _; simp
  | cons v m ih =>
    intro a b c d ha hb hc hd h k
    rcases a with _ | ⟨x, a⟩
    · simp at ha
    rcases b with _ | ⟨y, b⟩
    · simp at hb
    rcases c with _ | ⟨z, c⟩
    · simp at hc
    rcases d with _ | ⟨w, d⟩
    · simp at hd
    rw [List.zip_cons_cons, List.zip_cons_cons, List.zipWith_cons_cons, List.zipWith_cons_cons,
      ih a b c d (by simpa using ha) (by simpa using hb) (by simpa using hc) (by simpa using hd)
        (fun i hi => by simpa using h (i + 1) (by simpa using hi))
        fun i hi => by simpa using k (i + 1) (by simpa using hi)]
    cases v with
    | false => rw [hf (x, z) (y, w)]
    | true =>
      have h0 := h 0 rfl
      have k0 := k 0 rfl
      simp only [List.getElem?_cons_zero, Option.some.injEq] at h0 k0
      rw [h0, k0]

theorem agree_map {m : Nd Bool} {a b : Nd Fl} (h : AgreeWhere m a b) (f : Fl → Fl) : AgreeWhere m (a.map f) (b.map f) where
  shape := h.shape
  left := by simp [Nd.map, h.left]
  right := by simp [Nd.map, h.right]
  same i hi := by simp only [Nd.map, List.getElem?_map, h.same i hi]

theorem agree_zipWith {m : Nd Bool} {a b c d : Nd Fl} (h : AgreeWhere m a b) (k : AgreeWhere m c d) (f : Fl → Fl → Fl) :
    AgreeWhere m (Nd.zipWith f a c) (Nd.zipWith f b d) where
  shape := h.shape
  left := by simp [Nd.zipWith, h.left, k.left]
  right := by simp [Nd.zipWith, h.right, k.right]
  same i hi := by simp only [Nd.zipWith, List.getElem?_zipWith, h.same i hi, k.same i hi]

theorem lookup_agree {m : Nd Bool} {l k : List (String × Nd Fl)}
    (h : List.Forall₂ (fun x y => x.1 = y.1 ∧ AgreeWhere m x.2 y.2) l k) (name : String) :
    (l.lookup name = none ∧ k.lookup name = none) ∨
      ∃ a b, l.lookup name = some a ∧ k.lookup name = some b ∧ AgreeWhere m a b := by
  induction h with
  | nil => exact Or.inl ⟨rfl, rfl⟩
  | @cons x y l k hxy _ ih =>
    obtain ⟨n, a⟩ := x
    obtain ⟨n', b⟩ := y
    obtain ⟨h1, h2⟩ := hxy
    simp only at h1 h2
    subst h1
    by_cases hn : name = n
    · subst hn
      right
      exact ⟨a, b, by simp, by simp, h2⟩
    · have : (name == n) = false := by simpa using hn
      simp only [List.lookup_cons, this]
      exact ih

theorem raw_agree {p q : Peaks} (h : DifferInRejected p q) (name : String) :
    (∃ e, p.raw name = .error e ∧ q.raw name = .error e) ∨
      ∃ a b, p.raw name = .ok a ∧ q.raw name = .ok b ∧ AgreeWhere p.valid a b := by
  unfold raw
  split_ifs
  · exact Or.inr ⟨_, _, rfl, rfl, h.frequency⟩
  · exact Or.inr ⟨_, _, rfl, rfl, h.velocity⟩
  · exact Or.inr ⟨_, _, rfl, rfl, agree_map h.velocity _⟩
  · exact Or.inr ⟨_, _, rfl, rfl, agree_zipWith h.velocity h.frequency _⟩
  · exact Or.inr ⟨_, _, rfl, rfl, agree_zipWith h.frequency h.velocity _⟩
  · rcases lookup_agree h.extra name with ⟨h1, h2⟩ | ⟨a, b, h1, h2, h3⟩
    · rw [h1, h2]; exact Or.inl ⟨_, rfl, rfl⟩
    · rw [h1, h2]; exact Or.inr ⟨a, b, rfl, rfl, h3⟩

theorem select_eq {m : Nd Bool} {a b : Nd Fl} (h : AgreeWhere m a b) : a.select m = b.select m :=
  select_agree _ _ _ h.left h.right h.same

/-- **C173** (attributes).  Every attribute reads the same. -/
theorem C173_attributes (p q : Peaks) (h : DifferInRejected p q) (name : String) : p.get name = q.get name := by
  unfold Peaks.get
  rw [← h.valid, select_eq h.frequency, select_eq h.velocity]
  split_ifs
  · rcases raw_agree h name with ⟨e, h1, h2⟩ | ⟨a, b, h1, h2, h3⟩
    · rw [h1, h2]
    · rw [h1, h2]
      simp only [select_eq h3]
  all_goals rfl

theorem bestLoop_agree : ∀ (m : List Bool) (a b : List Fl) (r : ℕ) (best : ℕ × Fl), a.length = m.length →
    b.length = m.length → (∀ i : ℕ, m[i]? = some true → a[i]? = b[i]?) →
    bestLoop (a.zip m) r best = bestLoop (b.zip m) r best := by
  intro m
  induction m with
  | nil => intro a b r best _ _ _; simp
  | cons v m ih =>
    intro a b r best ha hb h
    rcases a with _ | ⟨x, a⟩
    · simp at ha
    rcases b with _ | ⟨y, b⟩
    · simp at hb
    have hih := fun r best => ih a b r best (by simpa using ha) (by simpa using hb)
      fun i hi => by simpa using h (i + 1) (by simpa using hi)
    cases v with
    | false => simpa [bestLoop] using hih (r + 1) best
    | true =>
      have h0 := h 0 rfl
      simp only [List.getElem?_cons_zero, Option.some.injEq] at h0
      simp only [List.zip_cons_cons, bestLoop, h0, hih]

theorem bestLoop_valid : ∀ (col : List (Fl × Bool)) (r : ℕ) (best : ℕ × Fl),
    bestLoop col r best = best ∨ ∃ i x, col[i]? = some (x, true) ∧ (bestLoop col r best).1 = r + i := by
  intro col
  induction col with
  | nil => intro r best; exact Or.inl rfl
  | cons c col ih =>
    intro r best
    obtain ⟨v, b⟩ := c
    have step : ∀ best', bestLoop col (r + 1) best' = best' ∨
        ∃ i x, ((v, b) :: col)[i]? = some (x, true) ∧ (bestLoop col (r + 1) best').1 = r + i := by
      intro best'
      rcases ih (r + 1) best' with h | ⟨i, x, h1, h2⟩
      · exact Or.inl h
      · exact Or.inr ⟨i + 1, x, by simpa using h1, by omega⟩
    unfold bestLoop
    cases b with
    | false => simpa using step best
    | true =>
      simp only [Bool.not_true, Bool.false_eq_true, if_false]
      split_ifs
      · rcases step (r, v) with h | h
        · exact Or.inr ⟨0, v, rfl, by rw [h]; rfl⟩
        · exact Or.inr h
      · exact step best

theorem bestRow_valid {col : List (Fl × Bool)} {r : ℕ} (h : bestRow col = some r) : ∃ x, col[r]? = some (x, true) := by
  unfold bestRow at h
  simp only at h
  split_ifs at h with hb
  rcases bestLoop_valid col 0 (0, .ninf) with h1 | ⟨i, x, h1, h2⟩
  · rw [h1] at hb; exact absurd rfl hb
  · simp only [Option.some.injEq] at h
    exact ⟨x, by rw [← h, h2, Nat.zero_add]; exact h1⟩

theorem getD_true {l : List Bool} {i : ℕ} (h : l.getD i false = true) : l[i]? = some true := by
  rw [List.getD_eq_getElem?_getD] at h
  rcases hl : l[i]? with _ | b
  · rw [hl] at h; cases h
  · rw [hl] at h; simpa using h

/-- **C173** (one peak per frequency).  `simplify_mpeaks` gives the same. -/
theorem C173_simplify (p q : Peaks) (h : DifferInRejected p q) (name : String) : p.simplify name = q.simplify name := by
  unfold simplify
  rcases raw_agree h name with ⟨e, h1, h2⟩ | ⟨a, b, h1, h2, h3⟩
  · rw [h1, h2]
  rw [h1, h2]
  simp only
  rw [← h3.shape]
  split
  · exact C173_attributes p q h name
  · rename_i nr nc _
    have hdec : AgreeWhere p.valid ((p.extra.lookup "power").getD p.frequency)
        ((q.extra.lookup "power").getD q.frequency) := by
      rcases lookup_agree h.extra "power" with ⟨k1, k2⟩ | ⟨a, b, k1, k2, k3⟩
      · rw [k1, k2]; exact h.frequency
      · rw [k1, k2]; exact k3
    congr 1
    apply List.filterMap_congr
    intro c _
    have hb : bestRow ((column .nan nr nc ((p.extra.lookup "power").getD p.frequency).data c).zip
          (column false nr nc p.valid.data c)) =
        bestRow ((column .nan nr nc ((q.extra.lookup "power").getD q.frequency).data c).zip
          (column false nr nc q.valid.data c)) := by
      rw [← h.valid]
      unfold bestRow
      rw [bestLoop_agree (column false nr nc p.valid.data c) _
        (column .nan nr nc ((q.extra.lookup "power").getD q.frequency).data c) 0 (0, .ninf)
        (by simp [column]) (by simp [column])]
      intro i hi
      simp only [column, List.getElem?_map, Option.map_eq_some_iff] at hi ⊢
      obtain ⟨r, hr, hv⟩ := hi
      rw [hr]
      simp only [Option.map_some, Option.some.injEq, List.getD_eq_getElem?_getD]
      rw [hdec.same _ (getD_true hv)]
    rw [← hb]
    rcases hr : bestRow ((column .nan nr nc ((p.extra.lookup "power").getD p.frequency).data c).zip
          (column false nr nc p.valid.data c)) with _ | r
    · rw [hr]; rfl
    · rw [hr]
      obtain ⟨x, hx⟩ := bestRow_valid hr
      have hv : (column false nr nc p.valid.data c)[r]? = some true := by
        rw [List.getElem?_zip_eq_some] at hx
        exact hx.2
      simp only [column, List.getElem?_map, Option.map_eq_some_iff] at hv
      obtain ⟨r', hr', hv⟩ := hv
      have : r' = r := by
        obtain ⟨hlt, e⟩ := List.getElem?_eq_some_iff.1 hr'
        rw [← e, List.getElem_range]
      subst this
      simp only [Option.map_some, Option.some.injEq, List.getD_eq_getElem?_getD]
      rw [h3.same _ (getD_true hv)]
  · rfl

theorem agree_reject {m : Nd Bool} {a b : Nd Fl} (h : AgreeWhere m a b) {mask : List Bool}
    (hm : mask.length = m.data.length) :
    AgreeWhere ⟨m.shape, List.zipWith (fun v x => if x then false else v) m.data mask⟩ a b where
  shape := h.shape
  left := by simp [h.left, hm]
  right := by simp [h.right, hm]
  same i hi := by
    apply h.same
    simp only [List.getElem?_zipWith] at hi
    rcases hv : m.data[i]? with _ | v
    · simp [hv] at hi
    · rcases hx : mask[i]? with _ | x
      · simp [hv, hx] at hi
      · simp only [hv, hx, Option.some.injEq] at hi
        cases x <;> simp_all

theorem reject_differ {p q : Peaks} (h : DifferInRejected p q) {mask : List Bool}
    (hm : mask.length = p.valid.data.length) : DifferInRejected (p.reject mask) (q.reject mask) where
  identifier := h.identifier
  valid := by simp only [reject, h.valid]
  frequency := agree_reject h.frequency hm
  velocity := agree_reject h.velocity hm
  extra := h.extra.imp fun _ _ hxy => ⟨hxy.1, agree_reject hxy.2 hm⟩

theorem limitsMark_false (lo hi : Option Fl) (x : Fl) : limitsMark lo hi x false = false := by
  rcases lo with _ | lo <;> rcases hi with _ | hi <;> simp [limitsMark]

theorem boxMark_false (xl yl : Fl × Fl) (x y : Fl) : boxMark xl yl x y false = false := by
  simp [boxMark]

/-- **C173** (rejections).  Every rejection ends alike, and again only the values of rejected peaks differ. -/
theorem C173_rejection (p q : Peaks) (h : DifferInRejected p q) (c : Rejection) :
    (doReject p c).2 = (doReject q c).2 ∧ DifferInRejected (doReject p c).1 (doReject q c).1 := by
  cases c with
  | limits attr lo hi =>
    simp only [doReject, rejectLimits]
    rcases raw_agree h attr with ⟨e, h1, h2⟩ | ⟨a, b, h1, h2, h3⟩
    · rw [h1, h2]; exact ⟨rfl, h⟩
    · rw [h1, h2]
      refine ⟨rfl, ?_⟩
      simp only
      rw [← h.valid, ← zipWith_agree (limitsMark lo hi) (fun x y => by rw [limitsMark_false, limitsMark_false])
        _ _ _ h3.left h3.right h3.same]
      exact reject_differ h (by simp [h3.left])
  | box x xl y yl =>
    simp only [doReject, rejectBox, boxMask]
    rcases raw_agree h x with ⟨e, h1, h2⟩ | ⟨a, b, h1, h2, h3⟩
    · rw [h1, h2]; exact ⟨rfl, h⟩
    rw [h1, h2]
    rcases raw_agree h y with ⟨e, k1, k2⟩ | ⟨c, d, k1, k2, k3⟩
    · rw [k1, k2]; exact ⟨rfl, h⟩
    · rw [k1, k2]
      refine ⟨rfl, ?_⟩
      simp only
      rw [← h.valid, ← zipWith_agree2 (fun xy v => boxMark xl yl xy.1 xy.2 v)
        (fun x y => by rw [boxMark_false, boxMark_false])
        _ _ _ _ _ h3.left h3.right k3.left k3.right h3.same k3.same]
      exact reject_differ h (by simp [h3.left, k3.left])

theorem forEach_differ (f : Peaks → Outcome Peaks)
    (hf : ∀ p q, DifferInRejected p q → (f p).2 = (f q).2 ∧ DifferInRejected (f p).1 (f q).1) {l k : List Peaks}
    (h : List.Forall₂ DifferInRejected l k) :
    (Suite.forEach f l).2 = (Suite.forEach f k).2 ∧
      List.Forall₂ DifferInRejected (Suite.forEach f l).1 (Suite.forEach f k).1 := by
  induction h with
  | nil => exact ⟨rfl, .nil⟩
  | @cons p q l k hpq hlk ih =>
    obtain ⟨h1, h2⟩ := hf p q hpq
    unfold Suite.forEach
    rcases hp : f p with ⟨p', rp⟩
    rcases hq : f q with ⟨q', rq⟩
    rw [hp, hq] at h1 h2
    simp only at h1 h2
    subst h1
    rcases rp with e | u
    · exact ⟨rfl, .cons h2 hlk⟩
    · exact ⟨ih.1, .cons h2 ih.2⟩

theorem suiteReject_differ {s t : Suite} (hi : s.ids = t.ids) (h : List.Forall₂ DifferInRejected s.peaks t.peaks)
    (c : Rejection) : (suiteReject s c).2 = (suiteReject t c).2 ∧ (suiteReject s c).1.ids = (suiteReject t c).1.ids ∧
      List.Forall₂ DifferInRejected (suiteReject s c).1.peaks (suiteReject t c).1.peaks := by
  cases c with
  | limits a lo hi' =>
    have := forEach_differ (fun p => p.rejectLimits a lo hi')
      (fun p q hpq => C173_rejection p q hpq (.limits a lo hi')) h
    exact ⟨this.1, hi, this.2⟩
  | box x xl y yl =>
    have := forEach_differ (fun p => p.rejectBox x xl y yl) (fun p q hpq => C173_rejection p q hpq (.box x xl y yl)) h
    exact ⟨this.1, hi, this.2⟩

theorem valid_differ {l k : List Peaks} (h : List.Forall₂ DifferInRejected l k) :
    l.map Peaks.valid = k.map Peaks.valid := by
  induction h with
  | nil => rfl
  | cons hpq _ ih => rw [List.map_cons, List.map_cons, hpq.valid, ih]

/-- **C173** (histories).  After any history of rejections, failed ones included, two suites which differed in the
values of rejected peaks only still do, the same peaks are rejected in both, and the next call ends alike. -/
theorem C173_history (s t : Suite) (hi : s.ids = t.ids) (h : List.Forall₂ DifferInRejected s.peaks t.peaks)
    (calls : List Rejection) (next : Rejection) :
    List.Forall₂ DifferInRejected (runAll suiteReject s calls).peaks (runAll suiteReject t calls).peaks ∧
      (runAll suiteReject s calls).peaks.map Peaks.valid = (runAll suiteReject t calls).peaks.map Peaks.valid ∧
      (suiteReject (runAll suiteReject s calls) next).2 = (suiteReject (runAll suiteReject t calls) next).2 := by
  induction calls generalizing s t with
  | nil =>
    refine ⟨h, ?_, (suiteReject_differ hi h next).1⟩
    simp only [runAll]
    exact valid_differ h
  | cons c calls ih =>
    obtain ⟨-, h2, h3⟩ := suiteReject_differ hi h c
    exact ih _ _ h2 h3

/-- **C173** (statistics).  After any history of rejections the suites resample alike and have the same statistics, with
and without correlations. -/
theorem C173_statistics (s t : Suite) (hi : s.ids = t.ids) (h : List.Forall₂ DifferInRejected s.peaks t.peaks)
    (calls : List Rejection) (xtype ytype : String) (xx : List ℚ) (ignoreCorr : Bool) (count : ℕ) (sub : Bool) :
    (runAll suiteReject s calls).toArray xtype ytype xx = (runAll suiteReject t calls).toArray xtype ytype xx ∧
      (runAll suiteReject s calls).statistics xtype ytype xx count =
        (runAll suiteReject t calls).statistics xtype ytype xx count ∧
      (runAll suiteReject s calls).statisticsCorr xtype ytype xx ignoreCorr count sub =
        (runAll suiteReject t calls).statisticsCorr xtype ytype xx ignoreCorr count sub := by
  obtain ⟨h1, -, -⟩ := C173_history s t hi h calls (.limits "" none none)
  have hrows : ∀ {l k : List Peaks}, List.Forall₂ DifferInRejected l k →
      Suite.arrayRows xtype ytype xx l = Suite.arrayRows xtype ytype xx k := by
    intro l k hlk
    induction hlk with
    | nil => rfl
    | @cons p q l k hpq _ ih =>
      have : Suite.arrayRow xtype ytype xx p = Suite.arrayRow xtype ytype xx q := by
        unfold Suite.arrayRow
        rw [C173_simplify p q hpq, C173_simplify p q hpq]
      unfold Suite.arrayRows
      rw [this, ih]
  have ha : (runAll suiteReject s calls).toArray xtype ytype xx = (runAll suiteReject t calls).toArray xtype ytype xx := by
    unfold Suite.toArray
    rw [hrows h1]
  refine ⟨ha, ?_, ?_⟩
  · unfold Suite.statistics
    rw [ha, h1.length_eq]
  · unfold Suite.statisticsCorr
    rw [ha, h1.length_eq]

/-- Non-vacuity: two peaks per frequency, one rejected, with other values (a missing velocity, another power). -/
example : DifferInRejected
    ⟨"a", ⟨[2, 1], [.fin 5, .fin 5]⟩, ⟨[2, 1], [.fin 100, .fin 200]⟩, [("power", ⟨[2, 1], [.fin 1, .fin 9]⟩)],
      ⟨[2, 1], [true, false]⟩⟩
    ⟨"a", ⟨[2, 1], [.fin 5, .pinf]⟩, ⟨[2, 1], [.fin 100, .nan]⟩, [("power", ⟨[2, 1], [.fin 1, .fin 3]⟩)],
      ⟨[2, 1], [true, false]⟩⟩ := by
  have key : ∀ a b c : Fl, AgreeWhere ⟨[2, 1], [true, false]⟩ ⟨[2, 1], [a, b]⟩ ⟨[2, 1], [a, c]⟩ := by
    intro a b c
    refine ⟨rfl, rfl, rfl, fun i hi => ?_⟩
    rcases i with _ | _ | i
    · rfl
    · simp at hi
    · simp at hi
  exact ⟨rfl, rfl, key _ _ _, key _ _ _, .cons ⟨rfl, key _ _ _⟩ .nil⟩

end Verif.Props
