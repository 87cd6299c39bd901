import Verif.Model.PeaksShapes

/-!
# C149: one entry per peak
-/

namespace Verif.Props
open Verif Peaks

/-- Every array has one entry per peak. -/
def OnePerPeak (p : Peaks) : Prop :=
  p.frequency.data.length = p.valid.data.length ∧ p.velocity.data.length = p.valid.data.length ∧
    ∀ e ∈ p.extra, e.2.data.length = p.valid.data.length

theorem rawChecked_eq {p : Peaks} (h : OnePerPeak p) (name : String) : p.rawChecked name = p.raw name := by
  unfold rawChecked
  have h1 : p.velocity.data.length = p.frequency.data.length := h.2.1.trans h.1.symm
  by_cases hw : name = "wavelength"
  · subst hw
    simp [raw, broadcast, h1]
  · rw [if_neg hw]
    by_cases hk : name = "wavenumber"
    · subst hk
      simp [raw, broadcast, h1.symm]
    · rw [if_neg hk]

theorem raw_length {p : Peaks} (h : OnePerPeak p) {name : String} {a : Nd Fl} (ha : p.raw name = .ok a) :
    a.data.length = p.valid.data.length := by
  unfold raw at ha
  split_ifs at ha
  · cases ha; exact h.1
  · cases ha; exact h.2.1
  · cases ha; simp [Nd.map, h.2.1]
  · cases ha; simp [Nd.zipWith, h.1, h.2.1]
  · cases ha; simp [Nd.zipWith, h.1, h.2.1]
  · rcases hl : p.extra.lookup name with _ | b
    · rw [hl] at ha; cases ha
    · rw [hl] at ha
      cases ha
      obtain ⟨k, _, hm⟩ : ∃ k, k = name ∧ (k, a) ∈ p.extra := by
        have : ∀ l : List (String × Nd Fl), l.lookup name = some a → (name, a) ∈ l := by
          intro l
          induction l with
          | nil => intro h; simp at h
          | cons e l ih =>
            obtain ⟨k, b⟩ := e
            intro h
            rw [List.lookup_cons] at h
            by_cases hk : name = k
            · simp only [hk, beq_self_eq_true] at h
              cases h
              simp [hk]
            · have : (name == k) = false := by simpa using hk
              simp only [this] at h
              exact List.mem_cons_of_mem _ (ih h)
        exact ⟨name, rfl, this _ hl⟩
      exact h.2.2 _ hm

/-- **C149** (equal lengths).  With one entry per peak everything is as `Peaks` is modelled otherwise: no length is ever
compared in vain, and no value is used for another peak. -/
theorem C149_equal_lengths (p : Peaks) (h : OnePerPeak p) :
    (∀ name, p.getChecked name = p.get name) ∧ (∀ attr lo hi, p.rejectLimitsChecked attr lo hi = p.rejectLimits attr lo hi) ∧
      ∀ xt xl yt yl, p.rejectBoxChecked xt xl yt yl = p.rejectBox xt xl yt yl := by
  refine ⟨fun name => ?_, fun attr lo hi => ?_, fun xt xl yt yl => ?_⟩
  · unfold getChecked Peaks.get
    by_cases hs : name ∈ stored
    · rw [if_pos hs, if_pos hs]
      rcases ha : p.raw name with e | a
      · rfl
      · simp only [maskRead, if_pos (raw_length h ha)]
    · rw [if_neg hs, if_neg hs]
      have hv : maskRead p.velocity p.valid = .ok (p.velocity.select p.valid) := if_pos h.2.1
      have hf : maskRead p.frequency p.valid = .ok (p.frequency.select p.valid) := if_pos h.1
      rw [hv, hf]
      simp only
      by_cases h1 : name = "slowness"
      · rw [if_pos h1, if_pos h1]
      · rw [if_neg h1, if_neg h1]
        by_cases h2 : name = "wavelength"
        · rw [if_pos (Or.inl h2), if_pos h2, if_pos h2]
        · rw [if_neg h2, if_neg h2]
          by_cases h3 : name = "wavenumber"
          · rw [if_pos (Or.inr h3), if_pos h3]
          · rw [if_neg (by simp [h2, h3]), if_neg h3]
  · unfold rejectLimitsChecked rejectLimits
    rw [rawChecked_eq h]
    rcases ha : p.raw attr with e | a
    · rfl
    · have hl := raw_length h ha
      have hw : whereFits a p.valid = true := by simp [whereFits, hl]
      simp only [hw, Bool.not_true, Bool.and_false, Bool.false_eq_true, if_false, if_pos hl]
      rw [rejectChecked, if_pos]
      simp [hl]
  · unfold rejectBoxChecked rejectBox boxMask
    rw [rawChecked_eq h, rawChecked_eq h]
    rcases ha : p.raw xt with e | a
    · rfl
    · rcases hb : p.raw yt with e | b
      · rfl
      · have hl := raw_length h ha
        have hl' := raw_length h hb
        have hw : whereFits a p.valid = true := by simp [whereFits, hl]
        simp only [hw, Bool.not_true, Bool.false_eq_true, if_false, if_pos hl.symm, if_pos (hl'.trans hl.symm)]
        rw [rejectChecked, if_pos]
        simp [hl, hl']

/-- **C149** (different lengths).  The constructor accepts frequencies and velocities of different numbers; the object has
velocities, but asking for its frequencies, wavelengths or wavenumbers raises `IndexError`. -/
theorem C149_unequal_accepted_fails (f v : List Fl) (h : f.length ≠ v.length) (id : String) :
    ∃ p, Peaks.init ⟨[f.length], f⟩ ⟨[v.length], v⟩ id [] = .ok p ∧
      p.getChecked "velocity" = .ok (v.filter fun x => !x.isNan) ∧
      p.getChecked "frequency" = .error .indexError ∧ p.getChecked "wavelength" = .error .indexError ∧
      p.getChecked "wavenumber" = .error .indexError := by
  refine ⟨⟨id, ⟨[f.length], f⟩, ⟨[v.length], v⟩, [], ⟨[v.length], v.map fun x => !x.isNan⟩⟩, rfl, ?_, ?_, ?_, ?_⟩
  · simp only [getChecked, stored, List.mem_cons, true_or, or_true, if_true, raw]
    simp only [show ("velocity" : String) ≠ "frequency" by decide, if_false, maskRead, List.length_map, if_true]
    congr 1
    simp only [Nd.select]
    clear h
    induction v with
    | nil => rfl
    | cons x l ih =>
      simp only [List.map_cons, List.zip_cons_cons, List.filter_cons]
      cases hx : !x.isNan <;> simp_all
  · simp [getChecked, stored, raw, maskRead, h]
  · simp [getChecked, stored, maskRead, h]
  · simp [getChecked, stored, maskRead, h]

/-- **C149** (reading).  Whatever the lengths, an attribute that is read is read at its own peaks: there are as many
recorded values as peaks, and those of the peaks not rejected are returned. -/
theorem C149_reading (p : Peaks) (name : String) (hs : name ∈ stored) (l : List Fl) (h : p.getChecked name = .ok l) :
    ∃ a, p.raw name = .ok a ∧ a.data.length = p.valid.data.length ∧
      l = (List.range a.data.length).filterMap fun k =>
        if p.valid.data.getD k false = true then some (a.data.getD k .nan) else none := by
  unfold getChecked at h
  rw [if_pos hs] at h
  rcases ha : p.raw name with e | a
  · rw [ha] at h; cases h
  · rw [ha] at h
    simp only [maskRead] at h
    by_cases hl : a.data.length = p.valid.data.length
    · rw [if_pos hl] at h
      cases h
      refine ⟨a, rfl, hl, ?_⟩
      simp only [Nd.select]
      generalize a.data = xs at hl ⊢
      generalize p.valid.data = bs at hl ⊢
      induction xs generalizing bs with
      | nil => rfl
      | cons x xs ih =>
        rcases bs with _ | ⟨b, bs⟩
        · cases hl
        have := ih bs (by simpa using hl)
        rw [List.length_cons, List.range_succ_eq_map, List.filterMap_cons, List.filterMap_map]
        simp only [List.zip_cons_cons, List.filter_cons, List.getD_cons_zero, Function.comp_def, List.getD_cons_succ]
        cases b
        · simpa using this
        · simpa using this
    · rw [if_neg hl] at h
      cases h

theorem rejectChecked_error {p : Peaks} {m : List Bool} {e : PyErr} (h : (p.rejectChecked m).2 = .error e) :
    (p.rejectChecked m).1 = p := by
  unfold rejectChecked at h ⊢
  split_ifs with hl
  · rw [if_pos hl] at h; cases h
  · rfl

/-- **C149** (refused).  Whatever the lengths, a rejection that raises an exception has rejected nothing. -/
theorem C149_refused_rejects_nothing (p : Peaks) :
    (∀ attr lo hi e, (p.rejectLimitsChecked attr lo hi).2 = .error e → (p.rejectLimitsChecked attr lo hi).1 = p) ∧
      ∀ xt xl yt yl e, (p.rejectBoxChecked xt xl yt yl).2 = .error e → (p.rejectBoxChecked xt xl yt yl).1 = p := by
  refine ⟨fun attr lo hi e h => ?_, fun xt xl yt yl e h => ?_⟩
  · unfold rejectLimitsChecked at h ⊢
    generalize p.rawChecked attr = o at h ⊢
    rcases o with e' | a
    · rfl
    · simp only at h ⊢
      split_ifs at h ⊢
      · rfl
      · exact rejectChecked_error h
      · exact rejectChecked_error h
  · unfold rejectBoxChecked at h ⊢
    generalize p.rawChecked xt = o at h ⊢
    rcases o with e' | a
    · rfl
    · generalize p.rawChecked yt = o' at h ⊢
      rcases o' with e' | b
      · rfl
      · simp only at h ⊢
        generalize (if p.valid.data.length = a.data.length then p.valid.data
          else a.data.map fun _ => p.valid.data.getD 0 false) = vs at h ⊢
        split_ifs at h ⊢
        · rfl
        · exact rejectChecked_error h
        · rcases hb : b.data with _ | ⟨y, _ | ⟨z, l⟩⟩
          · rfl
          · simp only [hb] at h ⊢
            exact rejectChecked_error h
          · rfl

/-- **C149** (rejecting).  Whatever the lengths, a rejection by limits that is carried out had as many values as there are
peaks, and rejected the peaks whose own value is outside. -/
theorem C149_rejecting (p : Peaks) (attr : String) (lo hi : Option Fl) (h : (p.rejectLimitsChecked attr lo hi).2 = .ok ()) :
    ∃ a, p.rawChecked attr = .ok a ∧ a.data.length = p.valid.data.length ∧
      ∀ k, k < a.data.length → (p.rejectLimitsChecked attr lo hi).1.valid.data.getD k false =
        (p.valid.data.getD k false && !(lo.any (fun l => Fl.lt (a.data.getD k .nan) l) ||
          hi.any (fun u => Fl.lt u (a.data.getD k .nan)))) := by
  unfold rejectLimitsChecked at h ⊢
  rcases ha : p.rawChecked attr with e | a
  · rw [ha] at h; cases h
  · rw [ha] at h
    simp only at h ⊢
    refine ⟨a, rfl, ?_⟩
    split_ifs at h ⊢ with h1 h2
    · refine ⟨h2, fun k hk => ?_⟩
      have hlen : (List.zipWith (limitsMark lo hi) a.data p.valid.data).length = p.valid.data.length := by simp [h2]
      rw [rejectChecked, if_pos hlen]
      have hk' : k < p.valid.data.length := h2 ▸ hk
      simp only [reject, List.getD_eq_getElem?_getD, List.getElem?_zipWith, List.getElem?_eq_getElem hk,
        List.getElem?_eq_getElem hk', Option.getD_some]
      cases p.valid.data[k] <;> rcases lo with _ | l <;> rcases hi with _ | u <;>
        simp [limitsMark]
      · cases Fl.lt u a.data[k] <;> cases Fl.lt a.data[k] l <;> simp
    · exfalso
      rw [rejectChecked, if_neg (by simpa using h2)] at h
      cases h

/-- **C149** (one frequency).  A single frequency is silently taken for the frequency of every velocity when wavelengths
are the limits. -/
theorem C149_one_frequency_for_all_fails (f : Fl) (v : List Fl) (hv : v.length ≠ 1) (id : String) :
    ∃ p, Peaks.init ⟨[1], [f]⟩ ⟨[v.length], v⟩ id [] = .ok p ∧
      p.rawChecked "wavelength" = .ok ⟨[v.length], v.map fun x => Fl.div x f⟩ ∧
      ∀ lo hi, (p.rejectLimitsChecked "wavelength" lo hi).2 = .ok () := by
  refine ⟨⟨id, ⟨[1], [f]⟩, ⟨[v.length], v⟩, [], ⟨[v.length], v.map fun x => !x.isNan⟩⟩, rfl, ?_, ?_⟩
  · simp only [rawChecked, if_true, broadcast, List.length_singleton, if_neg hv]
    rcases v with _ | ⟨x, _ | ⟨y, l⟩⟩
    · rfl
    · simp at hv
    · rfl
  · intro lo hi
    have : rawChecked ⟨id, ⟨[1], [f]⟩, ⟨[v.length], v⟩, [], ⟨[v.length], v.map fun x => !x.isNan⟩⟩ "wavelength" =
        .ok ⟨[v.length], v.map fun x => Fl.div x f⟩ := by
      simp only [rawChecked, if_true, broadcast, List.length_singleton, if_neg hv]
      rcases v with _ | ⟨x, _ | ⟨y, l⟩⟩
      · rfl
      · simp at hv
      · rfl
    unfold rejectLimitsChecked
    rw [this]
    simp [whereFits, rejectChecked]

/-- Entry `k`, or the only entry. -/
def entryOrOnly (l : List Fl) (k : ℕ) : Fl := if l.length = 1 then l.getD 0 .nan else l.getD k .nan

/-- **C149** (derived values).  The wavelengths and wavenumbers by which peaks are rejected: frequencies and velocities of
equal numbers, or one of either, give for each peak its own quotient; other numbers are refused with `ValueError`. -/
theorem C149_derived_values (p : Peaks) :
    (p.velocity.data.length = p.frequency.data.length ∨ p.velocity.data.length = 1 ∨ p.frequency.data.length = 1 →
      ∃ a b, p.rawChecked "wavelength" = .ok a ∧ p.rawChecked "wavenumber" = .ok b ∧
        a.data.length = (if p.velocity.data.length = 1 then p.frequency.data.length else p.velocity.data.length) ∧
        b.data.length = a.data.length ∧ ∀ k < a.data.length,
          a.data[k]? = some (Fl.div (entryOrOnly p.velocity.data k) (entryOrOnly p.frequency.data k)) ∧
          b.data[k]? = some (Fl.div (Fl.mul (.fin (2 * Arr.pyPi)) (entryOrOnly p.frequency.data k))
            (entryOrOnly p.velocity.data k))) ∧
    (¬ (p.velocity.data.length = p.frequency.data.length ∨ p.velocity.data.length = 1 ∨ p.frequency.data.length = 1) →
      p.rawChecked "wavelength" = .error .valueError ∧ p.rawChecked "wavenumber" = .error .valueError) := by
  have key : ∀ (f : Fl → Fl → Fl) (x y : Nd Fl),
      (x.data.length = y.data.length ∨ x.data.length = 1 ∨ y.data.length = 1 → ∃ a, broadcast f x y = .ok a ∧
        a.data.length = (if x.data.length = 1 then y.data.length else x.data.length) ∧
        ∀ k < a.data.length, a.data[k]? = some (f (entryOrOnly x.data k) (entryOrOnly y.data k))) ∧
      (¬ (x.data.length = y.data.length ∨ x.data.length = 1 ∨ y.data.length = 1) → broadcast f x y = .error .valueError) := by
    intro f x y
    constructor
    · intro h
      by_cases he : x.data.length = y.data.length
      · refine ⟨Nd.zipWith f x y, by rw [broadcast, if_pos he], by simp [Nd.zipWith, he], ?_⟩
        intro k hk
        have hk1 : k < x.data.length := by simp [Nd.zipWith] at hk; omega
        have hk2 : k < y.data.length := by omega
        simp only [Nd.zipWith, List.getElem?_zipWith, List.getElem?_eq_getElem hk1, List.getElem?_eq_getElem hk2, entryOrOnly,
          List.getD_eq_getElem?_getD]
        by_cases h1 : x.data.length = 1
        · obtain rfl : k = 0 := by omega
          simp [h1, ← he]
        · simp [h1, ← he]
      · rcases h with h | h | h
        · exact absurd h he
        · obtain ⟨z, hz⟩ := List.length_eq_one_iff.1 h
          have hy : y.data.length ≠ 1 := fun h' => he (h.trans h'.symm)
          refine ⟨y.map fun b => f z b, by rw [broadcast, if_neg he, hz], by simp [Nd.map, h], ?_⟩
          intro k hk
          have hk : k < y.data.length := by simpa [Nd.map] using hk
          simp [Nd.map, entryOrOnly, hy, hz, hk]
        · obtain ⟨z, hz⟩ := List.length_eq_one_iff.1 h
          have hx : x.data.length ≠ 1 := fun h' => he (h'.trans h.symm)
          refine ⟨x.map fun b => f b z, ?_, by simp [Nd.map, hx], ?_⟩
          · rw [broadcast, if_neg he, hz]
            rcases hd : x.data with _ | ⟨b, _ | ⟨c, l⟩⟩
            · rfl
            · rw [hd] at hx; simp at hx
            · rfl
          · intro k hk
            have hk : k < x.data.length := by simpa [Nd.map] using hk
            simp [Nd.map, entryOrOnly, hx, hz, hk]
    · intro h
      simp only [not_or] at h
      rw [broadcast, if_neg h.1]
      rcases hd : x.data with _ | ⟨b, _ | ⟨c, l⟩⟩ <;> rcases he : y.data with _ | ⟨b', _ | ⟨c', l'⟩⟩ <;>
        first | rfl | (rw [hd, he] at h; simp at h)
  have h1 : p.rawChecked "wavelength" = broadcast wavelengthOf p.velocity p.frequency := rfl
  have h2 : p.rawChecked "wavenumber" = broadcast wavenumberOf p.frequency p.velocity := rfl
  rw [h1, h2]
  obtain ⟨k1, k2⟩ := key wavelengthOf p.velocity p.frequency
  obtain ⟨k3, k4⟩ := key wavenumberOf p.frequency p.velocity
  constructor
  · intro h
    obtain ⟨a, a1, a2, a3⟩ := k1 h
    obtain ⟨b, b1, b2, b3⟩ := k3 (by rcases h with h | h | h <;> simp [h])
    have hlen : b.data.length = a.data.length := by
      rw [a2, b2]
      rcases h with h | h | h <;> split_ifs <;> omega
    exact ⟨a, b, a1, b1, a2, hlen, fun k hk => ⟨a3 k hk, b3 k (by omega)⟩⟩
  · intro h
    exact ⟨k2 h, k4 (by rintro (h' | h' | h') <;> exact h (by simp [h']))⟩

/-- **C149** (which exception).  A rejection by limits on values of another number than the peaks raises `ValueError` if
there is a limit to compare with and more or less than one peak, and `IndexError` otherwise. -/
theorem C149_which_exception (p : Peaks) (attr : String) (a : Nd Fl) (ha : p.rawChecked attr = .ok a)
    (hl : a.data.length ≠ p.valid.data.length) (lo hi : Option Fl) :
    (p.rejectLimitsChecked attr lo hi).2 =
      .error (if (lo ≠ none ∨ hi ≠ none) ∧ p.valid.data.length ≠ 1 then .valueError else .indexError) := by
  unfold rejectLimitsChecked
  rw [ha]
  simp only [whereFits, decide_eq_false (Ne.symm hl), Bool.false_or, if_neg hl, rejectChecked, List.length_map]
  by_cases h1 : p.valid.data.length = 1
  · simp [h1]
  · rcases lo with _ | l <;> rcases hi with _ | u <;> simp [h1]

/-- Three velocities and two frequencies; and three velocities, one of them missing, with their own frequencies. -/
example : (([.fin 1, .fin 2] : List Fl).length ≠ ([.fin 100, .fin 200, .fin 300] : List Fl).length) ∧
    OnePerPeak ⟨"a", ⟨[3], [.fin 1, .fin 2, .fin 3]⟩, ⟨[3], [.fin 100, .nan, .fin 300]⟩, [], ⟨[3], [true, false, true]⟩⟩ ∧
    getChecked ⟨"a", ⟨[3], [.fin 1, .fin 2, .fin 3]⟩, ⟨[3], [.fin 100, .nan, .fin 300]⟩, [], ⟨[3], [true, false, true]⟩⟩
      "frequency" = .ok [.fin 1, .fin 3] := by
  refine ⟨by decide, ⟨rfl, rfl, by simp⟩, by decide +kernel⟩

/-- A rejection that is carried out although there are two velocities and one frequency: 100 m is kept, 200 m is not. -/
example : (rejectLimitsChecked ⟨"a", ⟨[1], [.fin 1]⟩, ⟨[2], [.fin 100, .fin 200]⟩, [], ⟨[2], [true, true]⟩⟩ "wavelength" none
    (some (.fin 150))).1.valid.data = [true, false] := by decide +kernel

/-- One velocity, two frequencies; two and three of them. -/
example : rawChecked ⟨"a", ⟨[2], [.fin 1, .fin 2]⟩, ⟨[1], [.fin 100]⟩, [], ⟨[1], [true]⟩⟩ "wavelength" =
      .ok ⟨[2], [.fin 100, .fin 50]⟩ ∧
    rawChecked ⟨"a", ⟨[2], [.fin 1, .fin 2]⟩, ⟨[3], [.fin 1, .fin 1, .fin 1]⟩, [], ⟨[3], [true, true, true]⟩⟩ "wavelength" =
      .error .valueError := by decide +kernel

end Verif.Props
