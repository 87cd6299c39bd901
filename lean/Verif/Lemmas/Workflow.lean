import Verif.Spec.Workflow

/-! # Taking a run of a workflow apart -/

namespace Verif.Workflow
open Verif

theorem bind_ok {ε α β : Type} {x : Except ε α} {f : α → Except ε β} {b : β}
    (h : (x >>= f) = .ok b) : ∃ a, x = .ok a ∧ f a = .ok b := by
  rcases x with e | a
  · cases h
  · exact ⟨a, rfl, h⟩

theorem lift_ok {α : Type} {x : Except PyErr α} {a : α} (h : lift x = .ok a) : x = .ok a := by
  rcases x with e | b
  · cases h
  · cases h; rfl

theorem call_ok {σ : Type} {x : Outcome σ} {s : σ} (h : call x = .ok s) : x = (s, .ok ()) := by
  rcases x with ⟨t, e | u⟩
  · cases h
  · cases h; rfl

theorem check_ok {a : Arr} (h : check a = .ok ()) : ¬ Spec.SourceBetween a := by
  rintro ⟨p, q, hp, hq, h1, h2⟩
  unfold check Arr.sourceInside at h
  rw [hp, hq] at h
  simp [h1, h2] at h

theorem check_between {a : Arr} (h : Spec.SourceBetween a) : check a = .error (.raised .valueError) := by
  obtain ⟨p, q, hp, hq, h1, h2⟩ := h
  unfold check Arr.sourceInside
  rw [hp, hq]
  simp [h1, h2]

theorem trimOffsets_ok {set : Settings} {s s' : State} (h : trimOffsets set s = .ok s') :
    ∃ a, trimOffsetsFl s.array set.minOffset set.maxOffset = (a, .ok ()) ∧ s' = { s with array := a } := by
  unfold trimOffsets at h
  obtain ⟨a, ha, h⟩ := bind_ok h
  cases h
  exact ⟨a, call_ok ha, rfl⟩

theorem copyWindow_ok {a w : Arr} {t0 t1 : ℚ} (h : copyWindow a t0 t1 = .ok w) :
    Spec.IsWindow a t0 t1 w := by
  unfold copyWindow at h
  obtain ⟨c, hc, h⟩ := bind_ok h
  exact ⟨c, lift_ok hc, call_ok h⟩

theorem selectNoise_ok {set : Settings} {s s' : State} (h : selectNoise set s = .ok s') :
    s' = { s with noise := s'.noise } ∧
    (set.snrPerform = true → s.noise = none → ∃ w, s'.noise = some w ∧
      Spec.IsWindow s.array set.noiseBegin set.noiseEnd w) ∧
    (set.snrPerform = false → s'.noise = s.noise) ∧ (∀ w, s.noise = some w → s'.noise = some w) := by
  unfold selectNoise at h
  split_ifs at h with c
  · obtain ⟨w, hw, h⟩ := bind_ok h
    cases h
    simp only [Bool.and_eq_true, Option.isNone_iff_eq_none] at c
    refine ⟨rfl, fun _ _ => ⟨w, rfl, copyWindow_ok hw⟩, ?_, ?_⟩
    · intro hf; rw [c.1] at hf; cases hf
    · intro w' hw'; rw [c.2] at hw'; cases hw'
  · cases h
    refine ⟨rfl, ?_, fun _ => rfl, fun w hw => hw⟩
    intro h1 h2
    simp [h1, h2] at c

theorem selectSignal_ok {set : Settings} {s s' : State} (h : selectSignal set s = .ok s') :
    s' = { s with signal := s'.signal } ∧
    (set.snrPerform = true → s.signal = none → ∃ w, s'.signal = some w ∧
      Spec.IsWindow s.array set.signalBegin set.signalEnd w) ∧
    (set.snrPerform = false → s'.signal = s.signal) ∧ (∀ w, s.signal = some w → s'.signal = some w) := by
  unfold selectSignal at h
  split_ifs at h with c
  · obtain ⟨w, hw, h⟩ := bind_ok h
    cases h
    simp only [Bool.and_eq_true, Option.isNone_iff_eq_none] at c
    refine ⟨rfl, fun _ _ => ⟨w, rfl, copyWindow_ok hw⟩, ?_, ?_⟩
    · intro hf; rw [c.1] at hf; cases hf
    · intro w' hw'; rw [c.2] at hw'; cases hw'
  · cases h
    refine ⟨rfl, ?_, fun _ => rfl, fun w hw => hw⟩
    intro h1 h2
    simp [h1, h2] at c

theorem trimTime_ok {set : Settings} {s s' : State} (h : trimTime set s = .ok s') :
    ∃ a, (if set.trimApply then s.array.trim set.trimBegin set.trimEnd = (a, .ok ()) else a = s.array) ∧
      s' = { s with array := a } := by
  unfold trimTime at h
  split_ifs at h with c
  · obtain ⟨a, ha, h⟩ := bind_ok h
    cases h
    exact ⟨a, by rw [if_pos c]; exact call_ok ha, rfl⟩
  · cases h
    exact ⟨s.array, by rw [if_neg c], rfl⟩

theorem pad_ok {set : Settings} {s s' : State} (h : pad set s = .ok s') :
    ∃ a, (if set.padApply then s.array.zeroPad set.padDf = (a, .ok ()) else a = s.array) ∧
      s' = { s with array := a } := by
  unfold pad at h
  split_ifs at h with c
  · obtain ⟨a, ha, h⟩ := bind_ok h
    cases h
    exact ⟨a, by rw [if_pos c]; exact call_ok ha, rfl⟩
  · cases h
    exact ⟨s.array, by rw [if_neg c], rfl⟩

/-- Picking with a wanted line gives a line. -/
theorem pickLine_some {u u' : Interact.User} {t : Bool} {l : Option Arr.Line}
    (h : Interact.pickLine true t u = some (.ok l, u')) : l.isSome := by
  unfold Interact.pickLine at h
  simp only [if_true] at h
  split at h
  · cases h
  · split at h
    · cases h
    · cases h; rfl

theorem interactive_ok {env : Env} {s s' : State} (h : interactive env s = .ok s') :
    ∃ a l1 l2, s.array.mute (env.tukey none) (some l1) (some l2) = (a, .ok ()) ∧
      s' = { s with array := a, signalStart := some l1, signalEnd := some l2 } := by
  unfold interactive Interact.interactiveMute at h
  simp only [show (("both" == "before") || ("both" == "both")) = true from by decide,
    show (("both" == "after") || ("both" == "both")) = true from by decide] at h
  by_cases hlen : s.array.sensors.length < 2
  · rw [if_pos hlen] at h; cases h
  rw [if_neg hlen] at h
  rcases h1 : Interact.pickLine true true env.user with _ | ⟨e | start, u⟩
  · rw [h1] at h; cases h
  · rw [h1] at h; cases h
  rw [h1] at h
  simp only at h
  rcases h2 : Interact.pickLine true true u with _ | ⟨e | stop, u'⟩
  · rw [h2] at h; cases h
  · rw [h2] at h; cases h
  rw [h2] at h
  simp only at h
  obtain ⟨l1, rfl⟩ := Option.isSome_iff_exists.1 (pickLine_some h1)
  obtain ⟨l2, rfl⟩ := Option.isSome_iff_exists.1 (pickLine_some h2)
  rcases h3 : s.array.mute (env.tukey none) (some l1) (some l2) with ⟨a, e | u3⟩
  · rw [h3] at h; cases h
  · rw [h3] at h
    cases h
    exact ⟨a, l1, l2, h3, rfl⟩

theorem mute_ok_first {env : Env} {set : Settings} {s s' : State} (h : mute env set s = .ok s')
    (hs : s.signalStart = none) (he : s.signalEnd = none) :
    ∃ a, s' = { s with array := a, signalStart := s'.signalStart, signalEnd := s'.signalEnd } ∧
      (if set.muteApply then
        s.array.mute (env.tukey none) s'.signalStart s'.signalEnd = (a, .ok ()) else a = s.array) ∧
      (set.muteApply = true → s'.signalStart.isSome ∧ s'.signalEnd.isSome) := by
  unfold mute at h
  split_ifs at h with c1 c2 c3
  · obtain ⟨a, l1, l2, h1, rfl⟩ := interactive_ok h
    exact ⟨a, rfl, by rw [if_pos c1]; exact h1, fun _ => ⟨rfl, rfl⟩⟩
  · simp [hs, he] at c2
  · cases h
    exact ⟨s.array, rfl, by rw [if_neg c1], fun hm => absurd hm c1⟩

theorem mute_ok_later {env : Env} {set : Settings} {s s' : State} (h : mute env set s = .ok s')
    (hs : set.muteApply = true → s.signalStart.isSome) :
    ∃ a, s' = { s with array := a } ∧
      (if set.muteApply then
        s.array.mute (env.tukey set.windowKwargs) s.signalStart s.signalEnd = (a, .ok ())
        else a = s.array) := by
  unfold mute at h
  split_ifs at h with c1 c2 c3
  · have := hs c1
    simp only [Bool.and_eq_true, Option.isNone_iff_eq_none] at c2
    rw [c2.1] at this; cases this
  · obtain ⟨a, ha, h⟩ := bind_ok h
    cases h
    exact ⟨a, rfl, by rw [if_pos c1]; exact call_ok ha⟩
  · cases h
    exact ⟨s.array, rfl, by rw [if_neg c1]⟩

theorem transform_ok {env : Env} {set : Settings} {a : Arr} {t : Transform}
    (h : transform env set a = .ok t) : Spec.IsTransformOf env set a t := by
  unfold transform at h
  obtain ⟨tr, h1, h2⟩ := bind_ok h
  exact ⟨tr, lift_ok h1, lift_ok h2⟩

theorem calculateSnr_ok {set : Settings} {s s' : State} {q : Option (List ℚ × List ℝ)}
    (h : calculateSnr set s = .ok (s', q)) :
    s' = { s with noise := s'.noise, signal := s'.signal } ∧
    (set.snrPerform = false → s' = s ∧ q = none) ∧
    (set.snrPerform = true → ∃ signal noise signal' noise' r, s.signal = some signal ∧
      s.noise = some noise ∧
      WT.snr signal noise set.fmin set.fmax set.snrPad set.snrDf = ((signal', noise'), .ok r) ∧
      q = some r ∧ s'.signal = some signal' ∧ s'.noise = some noise') := by
  unfold calculateSnr at h
  split_ifs at h with c
  · rcases hs : s.signal with _ | signal
    · rw [hs] at h; cases h
    rcases hn : s.noise with _ | noise
    · rw [hs, hn] at h; cases h
    rw [hs, hn] at h
    simp only at h
    rcases hq : WT.snr signal noise set.fmin set.fmax set.snrPad set.snrDf with ⟨⟨a, b⟩, e | r⟩
    · rw [hq] at h; cases h
    rw [hq] at h
    cases h
    refine ⟨rfl, fun hf => ?_, fun _ => ⟨signal, noise, a, b, r, rfl, rfl, hq, rfl, rfl, rfl⟩⟩
    rw [c] at hf; cases hf
  · cases h
    exact ⟨rfl, fun _ => ⟨rfl, rfl⟩, fun hf => absurd hf c⟩

end Verif.Workflow
