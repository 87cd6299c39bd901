import Verif.Props.Workflow
import Verif.Props.FrequencyDomain
import Verif.Props.XcorrWorkflow
import Verif.Props.RerunFreq
import Verif.Props.SurveyRun

/-! # The signal-to-noise ratio changes no workflow -/

namespace Verif.Props
open Verif Workflow

/-- Two states of a workflow which differ at most in the signal and noise windows. -/
def SameButWindows (s s' : State) : Prop :=
  s'.array = s.array ∧ s'.signalStart = s.signalStart ∧ s'.signalEnd = s.signalEnd

namespace SameButWindows

theorem withArray {s s' : State} (h : SameButWindows s s') (a : Arr) :
    SameButWindows { s with array := a } { s' with array := a } := ⟨rfl, h.2.1, h.2.2⟩

theorem trimOffsets {set : Settings} {s s' t t' : State} (h : SameButWindows s s')
    (e : Workflow.trimOffsets set s = .ok t) (e' : Workflow.trimOffsets set s' = .ok t') : SameButWindows t t' := by
  obtain ⟨near, e1, rfl⟩ := trimOffsets_ok e
  obtain ⟨near', e1', rfl⟩ := trimOffsets_ok e'
  rw [h.1, e1] at e1'
  cases (Prod.mk.inj e1').1
  exact h.withArray near

theorem trimTime {set : Settings} {s s' t t' : State} (h : SameButWindows s s')
    (e : Workflow.trimTime set s = .ok t) (e' : Workflow.trimTime set s' = .ok t') : SameButWindows t t' := by
  obtain ⟨cut, e1, rfl⟩ := trimTime_ok e
  obtain ⟨cut', e1', rfl⟩ := trimTime_ok e'
  rw [h.1] at e1'
  cases optional_unique e1 e1'
  exact h.withArray cut

theorem pad {set : Settings} {s s' t t' : State} (h : SameButWindows s s')
    (e : Workflow.pad set s = .ok t) (e' : Workflow.pad set s' = .ok t') : SameButWindows t t' := by
  obtain ⟨cut, e1, rfl⟩ := pad_ok e
  obtain ⟨cut', e1', rfl⟩ := pad_ok e'
  rw [h.1] at e1'
  cases optional_unique e1 e1'
  exact h.withArray cut

theorem selectNoise {set set' : Settings} {s s' t t' : State} (h : SameButWindows s s')
    (e : Workflow.selectNoise set s = .ok t) (e' : Workflow.selectNoise set' s' = .ok t') : SameButWindows t t' := by
  obtain ⟨e1, -⟩ := selectNoise_ok e
  obtain ⟨e1', -⟩ := selectNoise_ok e'
  rw [e1, e1']
  exact h

theorem selectSignal {set set' : Settings} {s s' t t' : State} (h : SameButWindows s s')
    (e : Workflow.selectSignal set s = .ok t) (e' : Workflow.selectSignal set' s' = .ok t') :
    SameButWindows t t' := by
  obtain ⟨e1, -⟩ := selectSignal_ok e
  obtain ⟨e1', -⟩ := selectSignal_ok e'
  rw [e1, e1']
  exact h

theorem calculateSnr {set set' : Settings} {s s' t t' : State} {q q' : Option (List ℚ × List ℝ)}
    (h : SameButWindows s s') (e : Workflow.calculateSnr set s = .ok (t, q))
    (e' : Workflow.calculateSnr set' s' = .ok (t', q')) : SameButWindows t t' := by
  obtain ⟨e1, -⟩ := calculateSnr_ok e
  obtain ⟨e1', -⟩ := calculateSnr_ok e'
  rw [e1, e1']
  exact h

theorem mute {env : Env} {set : Settings} {s s' t t' : State} (h : SameButWindows s s')
    (e : Workflow.mute env set s = .ok t) (e' : Workflow.mute env set s' = .ok t') : SameButWindows t t' := by
  obtain ⟨sa, s1, s2, s3, s4⟩ := s
  obtain ⟨sa', s1', s2', s3', s4'⟩ := s'
  obtain ⟨rfl, rfl, rfl⟩ := h
  unfold Workflow.mute at e e'
  by_cases hm : set.muteApply = true
  · rw [if_pos hm] at e e'
    simp only at e e'
    by_cases hn : (s1'.isNone && s2'.isNone) = true
    · rw [if_pos hn] at e e'
      by_cases hi : set.muteMethod = "interactive"
      · rw [if_pos hi] at e e'
        unfold interactive at e e'
        simp only at e e'
        rcases hx : Interact.interactiveMute (env.tukey none) sa' "both" true env.user with _ | ⟨b, x | l⟩
        · rw [hx] at e; cases e
        · rw [hx] at e; cases e
        · rw [hx] at e e'
          cases e; cases e'
          exact ⟨rfl, rfl, rfl⟩
      · rw [if_neg hi] at e; cases e
    · rw [if_neg hn] at e e'
      obtain ⟨a, ha, e⟩ := bind_ok e
      obtain ⟨a', ha', e'⟩ := bind_ok e'
      rw [ha] at ha'
      cases ha'; cases e; cases e'
      exact ⟨rfl, rfl, rfl⟩
  · rw [if_neg hm] at e e'
    cases e; cases e'
    exact ⟨rfl, rfl, rfl⟩

end SameButWindows

/-- The state of the workflow after reading a file, before and after the first one. -/
def startOf (raw : Arr) : Option State → State
  | none => State.new raw
  | some s => { s with array := raw }

/-- One file of the frequency-domain workflow. -/
theorem freqFile_snr {env : Env} {set : Settings} {p : Bool} {nb ne sb se : ℚ} {pd : Bool} {d : ℚ} {ex : Arr}
    {st st' : Option State} {f : String} {s s' : State} {t t' : Transform}
    (htr : ∀ t, env.transforms.createClass set.transform = .ok t →
      ∀ a, t a (withSnr set p nb ne sb se pd d) = t a set)
    (hst : (st = none ∧ st' = none) ∨ ∃ x x', st = some x ∧ st' = some x' ∧ SameButWindows x x')
    (h : freqFile env set ex st f = .ok (s, t))
    (h' : freqFile env (withSnr set p nb ne sb se pd d) ex st' f = .ok (s', t')) : SameButWindows s s' ∧ t' = t := by
  unfold freqFile at h h'
  obtain ⟨raw, hraw, h⟩ := bind_ok h
  obtain ⟨raw', hraw', h'⟩ := bind_ok h'
  rw [hraw] at hraw'
  cases hraw'
  simp only at h h'
  have h0 : SameButWindows (startOf raw st) (startOf raw st') := by
    rcases hst with ⟨rfl, rfl⟩ | ⟨x, x', rfl, rfl, hx⟩
    · exact ⟨rfl, rfl, rfl⟩
    · exact hx.withArray raw
  by_cases hsim : raw.isSimilar ex = true
  · rw [hsim] at h h'
    simp only [Bool.not_true, Bool.false_eq_true, if_false] at h h'
    obtain ⟨⟨⟩, _, h⟩ := bind_ok h
    obtain ⟨⟨⟩, _, h'⟩ := bind_ok h'
    obtain ⟨s1, h1, h⟩ := bind_ok h
    obtain ⟨s1', h1', h'⟩ := bind_ok h'
    have g1 := h0.trimOffsets (show Workflow.trimOffsets set (startOf raw st) = .ok s1 from h1)
      (show Workflow.trimOffsets set (startOf raw st') = .ok s1' from h1')
    obtain ⟨s2, h2, h⟩ := bind_ok h
    obtain ⟨s2', h2', h'⟩ := bind_ok h'
    have g1' : SameButWindows { s1 with array := detrend env s1.array } { s1' with array := detrend env s1'.array } := by
      rw [g1.1]
      exact g1.withArray _
    have g2 := g1'.selectNoise h2 h2'
    obtain ⟨s3, h3, h⟩ := bind_ok h
    obtain ⟨s3', h3', h'⟩ := bind_ok h'
    have g3 := g2.trimTime h3 (show Workflow.trimTime set s2' = .ok s3' from h3')
    obtain ⟨s4, h4, h⟩ := bind_ok h
    obtain ⟨s4', h4', h'⟩ := bind_ok h'
    have g4 := g3.mute h4 (show Workflow.mute env set s3' = .ok s4' from h4')
    obtain ⟨s5, h5, h⟩ := bind_ok h
    obtain ⟨s5', h5', h'⟩ := bind_ok h'
    have g5 := g4.selectSignal h5 h5'
    obtain ⟨s6, h6, h⟩ := bind_ok h
    obtain ⟨s6', h6', h'⟩ := bind_ok h'
    have g6 := g5.pad h6 (show Workflow.pad set s5' = .ok s6' from h6')
    obtain ⟨u, h7, h⟩ := bind_ok h
    obtain ⟨u', h7', h'⟩ := bind_ok h'
    cases h; cases h'
    refine ⟨g6, ?_⟩
    obtain ⟨c, a1, a2⟩ := transform_ok h7
    obtain ⟨c', b1, b2⟩ := transform_ok h7'
    rw [show (withSnr set p nb ne sb se pd d).transform = set.transform from rfl, a1] at b1
    cases b1
    rw [htr c a1, g6.1, a2] at b2
    exact (Except.ok.inj b2).symm
  · simp only [hsim, Bool.not_false, if_true] at h
    cases h

theorem freqLoop_snr {env : Env} {set : Settings} {p : Bool} {nb ne sb se : ℚ} {pd : Bool} {d : ℚ} {ex : Arr}
    (htr : ∀ t, env.transforms.createClass set.transform = .ok t →
      ∀ a, t a (withSnr set p nb ne sb se pd d) = t a set) : ∀ (fs : List String) (st st' : Option State)
    (run : Transform) (o o' : Option State) (t t' : Transform),
    ((st = none ∧ st' = none) ∨ ∃ x x', st = some x ∧ st' = some x' ∧ SameButWindows x x') →
    freqLoop env set ex st run fs = .ok (o, t) →
    freqLoop env (withSnr set p nb ne sb se pd d) ex st' run fs = .ok (o', t') →
    ((o = none ∧ o' = none) ∨ ∃ x x', o = some x ∧ o' = some x' ∧ SameButWindows x x') ∧ t' = t
  | [], st, st', run, o, o', t, t', hst, h, h' => by
    unfold freqLoop at h h'
    cases h; cases h'
    exact ⟨hst, rfl⟩
  | f :: rest, st, st', run, o, o', t, t', hst, h, h' => by
    unfold freqLoop at h h'
    obtain ⟨⟨s, u⟩, h1, h⟩ := bind_ok h
    obtain ⟨⟨s', u'⟩, h1', h'⟩ := bind_ok h'
    simp only at h h'
    obtain ⟨g, rfl⟩ := freqFile_snr htr hst h1 h1'
    obtain ⟨run2, h2, h⟩ := bind_ok h
    obtain ⟨run2', h2', h'⟩ := bind_ok h'
    rw [h2] at h2'
    cases h2'
    exact freqLoop_snr htr rest _ _ _ _ _ _ _ (Or.inr ⟨s, s', rfl, rfl, g⟩) h h'

/-- **C101** (frequency domain).  Also in the frequency-domain workflow, where the windows of the first file are
kept, two runs with settings which differ only in the signal-to-noise part return the same array and transform. -/
theorem C101_frequency_domain (env : Env) (set : Settings) (perform : Bool) (nb ne sb se : ℚ) (pd : Bool) (d : ℚ)
    (f : Fnames) (r r' : Result) (set' : Settings) (hset : set' = withSnr set perform nb ne sb se pd d)
    (htr : ∀ t, env.transforms.createClass set.transform = .ok t → ∀ a, t a set' = t a set)
    (h : frequencyDomain env set f = .ok r) (h' : frequencyDomain env set' f = .ok r') :
    r'.array = r.array ∧ r'.transform = r.transform := by
  subst hset
  have key : ∀ names, freqFiles env set names = .ok r →
      freqFiles env (withSnr set perform nb ne sb se pd d) names = .ok r' →
      r'.array = r.array ∧ r'.transform = r.transform := by
    intro names h h'
    rcases names with _ | ⟨f0, rest⟩
    · unfold freqFiles at h
      cases h
    unfold freqFiles at h h'
    obtain ⟨ex, h1, h⟩ := bind_ok h
    obtain ⟨ex', h1', h'⟩ := bind_ok h'
    rw [show exampleArray env (withSnr set perform nb ne sb se pd d) f0 = exampleArray env set f0 from rfl, h1] at h1'
    cases h1'
    obtain ⟨run, h2, h⟩ := bind_ok h
    obtain ⟨run', h2', h'⟩ := bind_ok h'
    rw [show empty ex (withSnr set perform nb ne sb se pd d) = empty ex set from rfl, h2] at h2'
    cases h2'
    obtain ⟨_, _, h⟩ := bind_ok h
    obtain ⟨_, _, h'⟩ := bind_ok h'
    obtain ⟨⟨o, t⟩, h3, h⟩ := bind_ok h
    obtain ⟨⟨o', t'⟩, h3', h'⟩ := bind_ok h'
    obtain ⟨g, rfl⟩ := freqLoop_snr htr _ _ _ _ _ _ _ _ (Or.inl ⟨rfl, rfl⟩) h3 h3'
    rcases g with ⟨rfl, rfl⟩ | ⟨x, x', rfl, rfl, hx⟩
    · cases h
    · simp only at h h'
      obtain ⟨⟨s, q⟩, h4, h⟩ := bind_ok h
      obtain ⟨⟨s', q'⟩, h4', h'⟩ := bind_ok h'
      cases h; cases h'
      exact ⟨(hx.calculateSnr h4 h4').1, rfl⟩
  unfold frequencyDomain at h h'
  rcases f with n | ns
  · exact key _ h h'
  · exact key _ h h'

/-- **C101** (cross-correlation).  The same for the workflow which correlates the records with the source signal. -/
theorem C101_cross_correlation (env : Env) (set : Settings) (perform : Bool) (nb ne sb se : ℚ) (pd : Bool) (d : ℚ)
    (f : Fnames) (src : List String) (ch : ℤ) (r r' : Result) (set' : Settings)
    (hset : set' = withSnr set perform nb ne sb se pd d)
    (htr : ∀ t, env.transforms.createClass set.transform = .ok t → ∀ a, t a set' = t a set)
    (h : xcorr env set f src ch = .ok r) (h' : xcorr env set' f src ch = .ok r') :
    r'.array = r.array ∧ r'.transform = r.transform := by
  subst hset
  unfold xcorr at h h'
  obtain ⟨⟨raw, sig⟩, h0, h⟩ := bind_ok h
  obtain ⟨⟨raw', sig'⟩, h0', h'⟩ := bind_ok h'
  rw [h0] at h0'
  cases h0'
  simp only at h h'
  obtain ⟨tm, ht, h⟩ := bind_ok h
  obtain ⟨tm', ht', h'⟩ := bind_ok h'
  rw [ht] at ht'
  cases ht'
  obtain ⟨cut, hc, h⟩ := bind_ok h
  obtain ⟨cut', hc', h'⟩ := bind_ok h'
  rw [hc] at hc'
  cases hc'
  by_cases hsig : sig.amp = []
  · rw [if_pos hsig] at h
    cases h
  rw [if_neg hsig] at h h'
  obtain ⟨⟨⟩, _, h⟩ := bind_ok h
  obtain ⟨⟨⟩, _, h'⟩ := bind_ok h'
  obtain ⟨s1, h1, h⟩ := bind_ok h
  obtain ⟨s1', h1', h'⟩ := bind_ok h'
  have g1 := SameButWindows.trimOffsets ⟨rfl, rfl, rfl⟩ h1
    (show Workflow.trimOffsets set (State.new cut) = .ok s1' from h1')
  obtain ⟨s2, h2, h⟩ := bind_ok h
  obtain ⟨s2', h2', h'⟩ := bind_ok h'
  have g1' : SameButWindows { s1 with array := detrend env s1.array } { s1' with array := detrend env s1'.array } := by
    rw [g1.1]
    exact g1.withArray _
  have g2 := g1'.selectNoise h2 h2'
  obtain ⟨s3, h3, h⟩ := bind_ok h
  obtain ⟨s3', h3', h'⟩ := bind_ok h'
  have g3 := g2.trimTime h3 (show Workflow.trimTime set s2' = .ok s3' from h3')
  obtain ⟨s4, h4, h⟩ := bind_ok h
  obtain ⟨s4', h4', h'⟩ := bind_ok h'
  have g4 := g3.mute h4 (show Workflow.mute env set s3' = .ok s4' from h4')
  obtain ⟨s5, h5, h⟩ := bind_ok h
  obtain ⟨s5', h5', h'⟩ := bind_ok h'
  have g5 := g4.selectSignal h5 h5'
  obtain ⟨⟨s6, q⟩, h6, h⟩ := bind_ok h
  obtain ⟨⟨s6', q'⟩, h6', h'⟩ := bind_ok h'
  have g6 := g5.calculateSnr h6 h6'
  simp only at h h'
  obtain ⟨x, h7, h⟩ := bind_ok h
  obtain ⟨x', h7', h'⟩ := bind_ok h'
  rw [g6.1, show (withSnr set perform nb ne sb se pd d).vmin = set.vmin from rfl,
    show (withSnr set perform nb ne sb se pd d).vmax = set.vmax from rfl, h7] at h7'
  cases h7'
  obtain ⟨s8, h8, h⟩ := bind_ok h
  obtain ⟨s8', h8', h'⟩ := bind_ok h'
  have g7 : SameButWindows { s6 with array := { s6.array with sensors := x.sensors } }
      { s6' with array := { s6'.array with sensors := x.sensors } } := by
    rw [g6.1]
    exact g6.withArray _
  have g8 := g7.pad h8 (show Workflow.pad set _ = .ok s8' from h8')
  obtain ⟨u, h9, h⟩ := bind_ok h
  obtain ⟨u', h9', h'⟩ := bind_ok h'
  cases h; cases h'
  refine ⟨g8.1, ?_⟩
  obtain ⟨c, a1, a2⟩ := transform_ok h9
  obtain ⟨c', b1, b2⟩ := transform_ok h9'
  rw [show (withSnr set perform nb ne sb se pd d).transform = set.transform from rfl, a1] at b1
  cases b1
  rw [htr c a1, g8.1, a2] at b2
  exact (Except.ok.inj b2).symm

/-- **C101** (single).  The same for the workflow which takes the first file only. -/
theorem C101_single (env : Env) (set : Settings) (perform : Bool) (nb ne sb se : ℚ) (pd : Bool) (d : ℚ)
    (f : Fnames) (r r' : Result) (set' : Settings) (hset : set' = withSnr set perform nb ne sb se pd d)
    (htr : ∀ t, env.transforms.createClass set.transform = .ok t → ∀ a, t a set' = t a set)
    (h : single env set f = .ok r) (h' : single env set' f = .ok r') :
    r'.array = r.array ∧ r'.transform = r.transform := by
  unfold single at h h'
  rcases f with n | (_ | ⟨n, _ | ⟨m, rest⟩⟩)
  · exact C101_snr_no_effect env set perform nb ne sb se pd d _ r r' set' hset htr h h'
  · cases h
  · exact C101_snr_no_effect env set perform nb ne sb se pd d _ r r' set' hset htr h h'
  · exact C101_snr_no_effect env set perform nb ne sb se pd d _ r r' set' hset htr h h'

/-! ## A run without the ratio -/

/-- The state without windows. -/
def bare (s : State) : State := ⟨s.array, s.signalStart, s.signalEnd, none, none⟩

/-- The settings with the ratio switched off. -/
def withoutSnr (set : Settings) : Settings := { set with snrPerform := false }

theorem bare_trimOffsets {set : Settings} {s t : State} (h : Workflow.trimOffsets set s = .ok t) :
    Workflow.trimOffsets (withoutSnr set) (bare s) = .ok (bare t) := by
  have e := trimOffsets_from h (bare s) rfl
  obtain ⟨a, _, rfl⟩ := trimOffsets_ok h
  exact e

theorem bare_trimTime {set : Settings} {s t : State} (h : trimTime set s = .ok t) :
    trimTime (withoutSnr set) (bare s) = .ok (bare t) := by
  have e := trimTime_from h (bare s) rfl
  obtain ⟨a, _, rfl⟩ := trimTime_ok h
  exact e

theorem bare_pad {set : Settings} {s t : State} (h : Workflow.pad set s = .ok t) :
    Workflow.pad (withoutSnr set) (bare s) = .ok (bare t) := by
  have e := pad_from h (bare s) rfl
  obtain ⟨a, _, rfl⟩ := pad_ok h
  exact e

theorem bare_selectNoise {set : Settings} {s t : State} (h : selectNoise set s = .ok t) :
    selectNoise (withoutSnr set) (bare s) = .ok (bare t) := by
  obtain ⟨e, -⟩ := selectNoise_ok h
  rw [e]
  rfl

theorem bare_selectSignal {set : Settings} {s t : State} (h : selectSignal set s = .ok t) :
    selectSignal (withoutSnr set) (bare s) = .ok (bare t) := by
  obtain ⟨e, -⟩ := selectSignal_ok h
  rw [e]
  rfl

theorem bare_calculateSnr {set : Settings} {s t : State} {q : Option (List ℚ × List ℝ)}
    (h : calculateSnr set s = .ok (t, q)) : calculateSnr (withoutSnr set) (bare s) = .ok (bare t, none) := by
  obtain ⟨e, -⟩ := calculateSnr_ok h
  rw [e]
  rfl

theorem bare_mute {env : Env} {set : Settings} {s t : State} (h : Workflow.mute env set s = .ok t) :
    Workflow.mute env (withoutSnr set) (bare s) = .ok (bare t) := by
  obtain ⟨sa, s1, s2, s3, s4⟩ := s
  change Workflow.mute env set ⟨sa, s1, s2, none, none⟩ = .ok (bare t)
  unfold Workflow.mute at h ⊢
  by_cases hm : set.muteApply = true
  · rw [if_pos hm] at h ⊢
    simp only at h ⊢
    by_cases hn : (s1.isNone && s2.isNone) = true
    · rw [if_pos hn] at h ⊢
      by_cases hi : set.muteMethod = "interactive"
      · rw [if_pos hi] at h ⊢
        unfold interactive at h ⊢
        simp only at h ⊢
        rcases hx : Interact.interactiveMute (env.tukey none) sa "both" true env.user with _ | ⟨b, x | l⟩
        · rw [hx] at h; cases h
        · rw [hx] at h; cases h
        · rw [hx] at h
          cases h
          rfl
      · rw [if_neg hi] at h; cases h
    · rw [if_neg hn] at h ⊢
      obtain ⟨a, ha, h⟩ := bind_ok h
      rw [ha]
      cases h
      rfl
  · rw [if_neg hm] at h ⊢
    cases h
    rfl

theorem bare_transform {env : Env} {set : Settings} {a : Arr} {t : Transform}
    (htr : ∀ t, env.transforms.createClass set.transform = .ok t → ∀ a, t a (withoutSnr set) = t a set)
    (h : Workflow.transform env set a = .ok t) : Workflow.transform env (withoutSnr set) a = .ok t := by
  obtain ⟨c, a1, a2⟩ := transform_ok h
  unfold Workflow.transform
  rw [show (withoutSnr set).transform = set.transform from rfl, a1]
  show Workflow.lift (c a (withoutSnr set)) = _
  rw [htr c a1, a2]
  rfl

theorem bare_freqFile {env : Env} {set : Settings} {ex : Arr} {st : Option State} {f : String} {s : State}
    {t : Transform}
    (htr : ∀ t, env.transforms.createClass set.transform = .ok t → ∀ a, t a (withoutSnr set) = t a set)
    (h : freqFile env set ex st f = .ok (s, t)) :
    freqFile env (withoutSnr set) ex (st.map bare) f = .ok (bare s, t) := by
  unfold freqFile at h ⊢
  obtain ⟨raw, hraw, h⟩ := bind_ok h
  rw [hraw]
  simp only at h
  simp only [bind, Except.bind]
  split_ifs at h with hsim
  · cases h
  rw [if_neg hsim]
  obtain ⟨⟨⟩, hcheck, h⟩ := bind_ok h
  obtain ⟨s1, h1, h⟩ := bind_ok h
  obtain ⟨s2, h2, h⟩ := bind_ok h
  obtain ⟨s3, h3, h⟩ := bind_ok h
  obtain ⟨s4, h4, h⟩ := bind_ok h
  obtain ⟨s5, h5, h⟩ := bind_ok h
  obtain ⟨s6, h6, h⟩ := bind_ok h
  obtain ⟨t', h7, h⟩ := bind_ok h
  cases h
  have e0 : startOf raw (st.map bare) = bare (startOf raw st) := by
    cases st <;> rfl
  have e1 : Workflow.trimOffsets (withoutSnr set) (startOf raw (st.map bare)) = .ok (bare s1) := by
    rw [e0]
    exact bare_trimOffsets h1
  unfold startOf at e1
  have e2 : selectNoise (withoutSnr set) { bare s1 with array := detrend env (bare s1).array } = .ok (bare s2) :=
    bare_selectNoise h2
  simp only [hcheck]
  erw [e1]
  simp only [e2, bare_trimTime h3, bare_mute h4, bare_selectSignal h5, bare_pad h6]
  rw [show (bare s).array = s.array from rfl, bare_transform htr h7]
  rfl

theorem bare_freqLoop {env : Env} {set : Settings} {ex : Arr}
    (htr : ∀ t, env.transforms.createClass set.transform = .ok t → ∀ a, t a (withoutSnr set) = t a set) :
    ∀ (fs : List String) (st : Option State) (run : Transform) (o : Option State) (t : Transform),
    freqLoop env set ex st run fs = .ok (o, t) →
    freqLoop env (withoutSnr set) ex (st.map bare) run fs = .ok (o.map bare, t)
  | [], st, run, o, t, h => by
    unfold freqLoop at h ⊢
    cases h
    rfl
  | f :: rest, st, run, o, t, h => by
    unfold freqLoop at h ⊢
    obtain ⟨⟨s, u⟩, h1, h⟩ := bind_ok h
    simp only at h
    obtain ⟨run2, h2, h⟩ := bind_ok h
    rw [bare_freqFile htr h1]
    simp only [bind, Except.bind, h2]
    exact bare_freqLoop htr rest _ _ _ _ h

/-- **C101** (switching off).  A run of any workflow which returns with a signal-to-noise ratio also returns without,
with the same array and the same transform. -/
theorem C101_switched_off (env : Env) (set : Settings) (f : Fnames)
    (htr : ∀ t, env.transforms.createClass set.transform = .ok t → ∀ a, t a (withoutSnr set) = t a set) (r : Result) :
    (timeDomain env set f = .ok r → ∃ r', timeDomain env (withoutSnr set) f = .ok r' ∧ r'.snr = none ∧
      r'.array = r.array ∧ r'.transform = r.transform) ∧
    (frequencyDomain env set f = .ok r → ∃ r', frequencyDomain env (withoutSnr set) f = .ok r' ∧ r'.snr = none ∧
      r'.array = r.array ∧ r'.transform = r.transform) ∧
    (∀ src ch, xcorr env set f src ch = .ok r → ∃ r', xcorr env (withoutSnr set) f src ch = .ok r' ∧ r'.snr = none ∧
      r'.array = r.array ∧ r'.transform = r.transform) := by
  refine ⟨?_, ?_, ?_⟩
  · intro h
    refine ⟨⟨r.transform, r.array, none, bare r.final⟩, ?_, rfl, rfl, rfl⟩
    unfold timeDomain at h ⊢
    obtain ⟨raw, hraw, h⟩ := bind_ok h
    obtain ⟨⟨⟩, hcheck, h⟩ := bind_ok h
    obtain ⟨s1, h1, h⟩ := bind_ok h
    obtain ⟨s2, h2, h⟩ := bind_ok h
    obtain ⟨s3, h3, h⟩ := bind_ok h
    obtain ⟨s4, h4, h⟩ := bind_ok h
    obtain ⟨s5, h5, h⟩ := bind_ok h
    obtain ⟨⟨s6, q⟩, h6, h⟩ := bind_ok h
    simp only at h
    obtain ⟨s7, h7, h⟩ := bind_ok h
    obtain ⟨t, h8, h⟩ := bind_ok h
    cases h
    have e1 := bare_trimOffsets h1
    rw [show bare (State.new raw) = State.new raw from rfl] at e1
    have e2 := bare_selectNoise h2
    have e8 := bare_transform htr h8
    change Workflow.transform env (withoutSnr set) (bare s7).array = _ at e8
    change selectNoise (withoutSnr set) { bare s1 with array := detrend env (bare s1).array } = _ at e2
    rw [hraw]
    simp only [bind, Except.bind, hcheck, e1, e2, bare_trimTime h3, bare_mute h4, bare_selectSignal h5,
      bare_calculateSnr h6, bare_pad h7, e8]
    rfl
  · have key : ∀ names, freqFiles env set names = .ok r → ∃ r', freqFiles env (withoutSnr set) names = .ok r' ∧
        r'.snr = none ∧ r'.array = r.array ∧ r'.transform = r.transform := by
      intro names h
      refine ⟨⟨r.transform, r.array, none, bare r.final⟩, ?_, rfl, rfl, rfl⟩
      rcases names with _ | ⟨f0, rest⟩
      · unfold freqFiles at h
        cases h
      unfold freqFiles at h ⊢
      obtain ⟨ex, h1, h⟩ := bind_ok h
      obtain ⟨run, h2, h⟩ := bind_ok h
      obtain ⟨c, hc, h⟩ := bind_ok h
      obtain ⟨⟨o, t⟩, h3, h⟩ := bind_ok h
      have e3 := bare_freqLoop htr _ _ _ _ _ h3
      rcases o with _ | s
      · cases h
      simp only at h
      obtain ⟨⟨s', q⟩, h4, h⟩ := bind_ok h
      cases h
      dsimp only
      rw [show exampleArray env (withoutSnr set) f0 = exampleArray env set f0 from rfl, h1]
      simp only [bind, Except.bind]
      rw [show empty ex (withoutSnr set) = empty ex set from rfl, h2]
      simp only
      rw [show (withoutSnr set).transform = set.transform from rfl, hc]
      simp only [Option.map_none, Option.map_some] at e3 ⊢
      rw [e3]
      simp only [bare_calculateSnr h4]
      rfl
    intro h
    unfold frequencyDomain at h ⊢
    rcases f with n | ns
    · exact key _ h
    · exact key _ h
  · intro src ch h
    refine ⟨⟨r.transform, r.array, none, bare r.final⟩, ?_, rfl, rfl, rfl⟩
    unfold xcorr at h ⊢
    obtain ⟨⟨raw0, sig⟩, hread, h⟩ := bind_ok h
    simp only at h
    obtain ⟨tl, htl, h⟩ := bind_ok h
    obtain ⟨raw, hcut, h⟩ := bind_ok h
    by_cases hs : sig.amp = []
    · rw [if_pos hs] at h; cases h
    rw [if_neg hs] at h
    obtain ⟨⟨⟩, hcheck, h⟩ := bind_ok h
    obtain ⟨s1, h1, h⟩ := bind_ok h
    obtain ⟨s2, h2, h⟩ := bind_ok h
    obtain ⟨s3, h3, h⟩ := bind_ok h
    obtain ⟨s4, h4, h⟩ := bind_ok h
    obtain ⟨s5, h5, h⟩ := bind_ok h
    obtain ⟨⟨s6, q⟩, h6, h⟩ := bind_ok h
    simp only at h
    obtain ⟨x, hx, h⟩ := bind_ok h
    obtain ⟨s7, h7, h⟩ := bind_ok h
    obtain ⟨t, h8, h⟩ := bind_ok h
    cases h
    have e1 := bare_trimOffsets h1
    rw [show bare (State.new raw) = State.new raw from rfl] at e1
    have e2 := bare_selectNoise h2
    change selectNoise (withoutSnr set) { bare s1 with array := detrend env (bare s1).array } = _ at e2
    have ex : call (ArrSrc.xcorrelate ⟨(bare s6).array.sensors, sig⟩ (withoutSnr set).vmin (withoutSnr set).vmax) =
      .ok x := hx
    have e7 := bare_pad h7
    change Workflow.pad (withoutSnr set)
      { bare s6 with array := { (bare s6).array with sensors := x.sensors } } = _ at e7
    have e8 := bare_transform htr h8
    change Workflow.transform env (withoutSnr set) (bare s7).array = _ at e8
    rw [hread]
    simp only [bind, Except.bind, htl, hcut, if_neg hs, hcheck, e1, e2, bare_trimTime h3, bare_mute h4,
      bare_selectSignal h5, bare_calculateSnr h6, ex, e7, e8]
    rfl

/-- Runs with a signal-to-noise ratio which return, with a transform which does not read the settings. -/
example : (∃ r, timeDomain exEnv exSet (.one "a") = .ok r ∧ r.snr.isSome) ∧
    (∃ r, frequencyDomain exEnv exSet (.many ["a", "b"]) = .ok r ∧ r.snr.isSome) ∧
    (∀ t, exEnv.transforms.createClass exSet.transform = .ok t → ∀ a, t a (withoutSnr exSet) = t a exSet) := by
  obtain ⟨r, hr, _, h1⟩ := exTimeDomain
  obtain ⟨r', hr', _, _, h2⟩ := exFrequencyDomain
  refine ⟨⟨r, hr, h1⟩, ⟨r', hr', h2⟩, ?_⟩
  intro t ht a
  cases ht
  rfl

/-- A run with cross-correlation which returns. -/
example : ∃ r, xcorr sweepEnv (pulseSet "phaseshift") (.one "a") ["s"] 0 = .ok r := by
  obtain ⟨r, hr, -⟩ := sweep_returns (Or.inl rfl)
  exact ⟨r, hr⟩

/-- The built-in transforms do not read the signal-to-noise settings. -/
example (hankel : ℝ → ℂ) (geom : ℚ → ℚ → ℕ → List ℚ) (set : Settings) (p : Bool) (nb ne sb se : ℚ) (pd : Bool) (d : ℚ)
    (t : Arr → Settings → Except PyErr Transform)
    (h : (Builtin.transforms hankel geom).createClass set.transform = .ok t) (a : Arr) :
    t a (withSnr set p nb ne sb se pd d) = t a set := by
  rw [createClass_builtin] at h
  split_ifs at h <;> cases h <;> rfl

end Verif.Props
