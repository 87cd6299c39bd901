import Verif.Model.ActiveTimeSeries
import Verif.Spec.Records
import Verif.Lemmas.Py
import Mathlib.Algebra.BigOperators.Ring.List
import Mathlib.Algebra.BigOperators.Group.List.Lemmas

/-! # Lemmas about time records -/

namespace Verif

theorem runCalls_cons_ok {σ α : Type} {f : σ → α → Outcome σ} {s s' : σ} {a : α} {as : List α}
    (h : runCalls f s (a :: as) = (s', .ok ())) :
    ∃ s1, f s a = (s1, .ok ()) ∧ runCalls f s1 as = (s', .ok ()) := by
  unfold runCalls at h
  rcases hfa : f s a with ⟨s1, r⟩
  rw [hfa] at h
  cases r with
  | error e => simp at h
  | ok u => exact ⟨s1, rfl, h⟩

theorem runCalls_cons_of_ok {σ α : Type} {f : σ → α → Outcome σ} {s s1 : σ} {a : α} {as : List α}
    (h : f s a = (s1, .ok ())) : runCalls f s (a :: as) = runCalls f s1 as := by
  simp [runCalls, h]

namespace ATS

@[simp] theorem has_coll_nstacks_dt : (Excl.coll ["nstacks"]).has "dt" = false := by decide +kernel
@[simp] theorem has_coll_nstacks_nstacks : (Excl.coll ["nstacks"]).has "nstacks" = true := by
  decide +kernel
@[simp] theorem has_coll_nstacks_delay : (Excl.coll ["nstacks"]).has "delay" = false := by
  decide +kernel
@[simp] theorem has_coll_nstacks_nsamples : (Excl.coll ["nstacks"]).has "nsamples" = false := by
  decide +kernel
@[simp] theorem has_none (s : String) : Excl.none.has s = false := rfl

theorem isSimilar_nstacks_iff (a b : ATS) :
    a.isSimilar b (.coll ["nstacks"]) = true ↔
      a.dt = b.dt ∧ a.delay = b.delay ∧ a.nsamples = b.nsamples := by
  simp [isSimilar, and_assoc]

theorem isSimilar_none_iff (a b : ATS) :
    a.isSimilar b .none = true ↔
      a.dt = b.dt ∧ a.nstacks = b.nstacks ∧ a.delay = b.delay ∧ a.nsamples = b.nsamples := by
  simp [isSimilar, and_assoc]

theorem stackAppend_ok_iff (r t r' : ATS) :
    r.stackAppend t = (r', .ok ()) ↔
      (r.dt = t.dt ∧ r.delay = t.delay ∧ r.nsamples = t.nsamples) ∧
      r' = { r with
        amp := (List.zipWith (fun (x y : ℚ) => x * r.nstacks + y * t.nstacks) r.amp t.amp).map
                 (fun x => x / ((r.nstacks + t.nstacks : ℤ) : ℚ))
        nstacks := r.nstacks + t.nstacks } := by
  unfold stackAppend
  by_cases h : r.isSimilar t (.coll ["nstacks"]) = true
  · simp [h, (isSimilar_nstacks_iff r t).1 h, eq_comm]
  · have h' := h
    rw [isSimilar_nstacks_iff] at h'
    simp only [Bool.not_eq_true] at h
    simp [h, h']

/-- The invariant of stacking: `nstacks * amplitude` is the sum of the contributions. -/
theorem stackAppend_sample {r t r' : ATS} (h : r.stackAppend t = (r', .ok ()))
    (hr : 0 < r.nstacks) (ht : 0 < t.nstacks) (i : ℕ) (hi : i < r.nsamples) :
    (r'.nstacks : ℚ) * r'.amp.getD i 0 =
      (r.nstacks : ℚ) * r.amp.getD i 0 + (t.nstacks : ℚ) * t.amp.getD i 0 := by
  rw [stackAppend_ok_iff] at h
  obtain ⟨⟨_, _, hn⟩, rfl⟩ := h
  simp only [nsamples] at hi hn
  have hi2 : i < t.amp.length := hn ▸ hi
  have hpos : ((r.nstacks + t.nstacks : ℤ) : ℚ) ≠ 0 := by
    have : (0 : ℤ) < r.nstacks + t.nstacks := by omega
    exact_mod_cast ne_of_gt this
  simp only [List.getD_eq_getElem?_getD, List.getElem?_map, List.getElem?_zipWith,
    List.getElem?_eq_getElem hi, List.getElem?_eq_getElem hi2, Option.map_some, Option.getD_some]
  rw [mul_div_cancel₀ _ hpos]
  ring

theorem stackAppend_ok_fields {r t r' : ATS} (h : r.stackAppend t = (r', .ok ())) :
    r'.dt = r.dt ∧ r'.delay = r.delay ∧ r'.nsamples = r.nsamples ∧
      r'.nstacks = r.nstacks + t.nstacks ∧ r'.multiple = r.multiple := by
  rw [stackAppend_ok_iff] at h
  obtain ⟨⟨_, _, hn⟩, rfl⟩ := h
  simp only [nsamples] at hn
  simp [nsamples, hn]

theorem runStack_inv (hs : List ATS) : ∀ (r r' : ATS), 0 < r.nstacks →
    (∀ h ∈ hs, 0 < h.nstacks) → runCalls stackAppend r hs = (r', .ok ()) →
    r'.dt = r.dt ∧ r'.delay = r.delay ∧ r'.nsamples = r.nsamples ∧ r'.multiple = r.multiple ∧
    r'.nstacks = r.nstacks + (hs.map ATS.nstacks).sum ∧
    (∀ i < r.nsamples, (r'.nstacks : ℚ) * r'.amp.getD i 0 =
      (r.nstacks : ℚ) * r.amp.getD i 0 +
        (hs.map fun h => (h.nstacks : ℚ) * h.amp.getD i 0).sum) := by
  induction hs with
  | nil =>
    intro r r' _ _ h
    simp only [runCalls, Prod.mk.injEq, and_true] at h
    subst h
    simp
  | cons t ts ih =>
    intro r r' hr hpos h
    obtain ⟨r1, h1, h2⟩ := runCalls_cons_ok h
    have ht := hpos t (by simp)
    obtain ⟨e1, e2, e3, e4, e5⟩ := stackAppend_ok_fields h1
    obtain ⟨f1, f2, f3, f4, f5, f6⟩ := ih r1 r' (by omega) (fun x hx => hpos x (by simp [hx])) h2
    refine ⟨f1.trans e1, f2.trans e2, f3.trans e3, f4.trans e5, ?_, ?_⟩
    · rw [f5, e4]; simp; ring
    · intro i hi
      rw [f6 i (by omega), stackAppend_sample h1 hr ht i hi]
      simp; ring

/-- A history of stacking succeeds exactly when every record is compatible with the first. -/
theorem runStack_ok_iff (hs : List ATS) : ∀ r : ATS,
    (∃ r', runCalls stackAppend r hs = (r', .ok ())) ↔
      ∀ h ∈ hs, r.dt = h.dt ∧ r.delay = h.delay ∧ r.nsamples = h.nsamples := by
  induction hs with
  | nil => intro r; simp [runCalls]
  | cons t ts ih =>
    intro r
    constructor
    · rintro ⟨r', h⟩
      obtain ⟨r1, h1, h2⟩ := runCalls_cons_ok h
      obtain ⟨e1, e2, e3, _, _⟩ := stackAppend_ok_fields h1
      have hts := (ih r1).1 ⟨r', h2⟩
      have h0 := ((stackAppend_ok_iff r t r1).1 h1).1
      intro x hx
      rcases List.mem_cons.1 hx with rfl | hx
      · exact h0
      · have := hts x hx
        rw [e1, e2, e3] at this; exact this
    · intro h
      have h0 := h t (by simp)
      have hok := (stackAppend_ok_iff r t _).2 ⟨h0, rfl⟩
      obtain ⟨e1, e2, e3, _, _⟩ := stackAppend_ok_fields hok
      rw [runCalls_cons_of_ok hok]
      apply (ih _).2
      intro x hx
      rw [e1, e2, e3]; exact h x (by simp [hx])

end ATS
end Verif
