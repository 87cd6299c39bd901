import Verif.Props.FreqReturns
import Verif.Props.TrialVector

/-!
# C61: the velocities of the transform a run returns
-/

namespace Verif.Props
open Verif Workflow

/-- The velocities of `set` are those of `t`; `geom` (the slant stack with logarithmic spacing, in rational numbers) is not
specified. -/
def HasVelocities (set : Settings) (t : Transform) : Prop :=
  (set.transform = "slantstack" → set.vspace = "linear" ∨ set.vspace = "lin") →
    WT.createVector set.vmin set.vmax set.nvel set.vspace = .ok t.velocities

theorem velocitiesQ_linear {geom : ℚ → ℚ → ℕ → List ℚ} {set : Settings} {v : List ℚ}
    (h : Builtin.velocitiesQ geom set = .ok v) (hs : set.vspace = "linear" ∨ set.vspace = "lin") :
    WT.createVector set.vmin set.vmax set.nvel set.vspace = .ok (v.map fun (x : ℚ) => (x : ℝ)) := by
  unfold Builtin.velocitiesQ at h
  unfold WT.createVector
  rw [if_pos hs] at h ⊢
  by_cases hn : set.nvel < 0
  · rw [if_pos hn] at h; cases h
  · rw [if_neg hn, Except.ok.injEq] at h
    rw [if_neg hn, ← h, List.map_map]
    congr 1
    refine List.map_congr_left fun k _ => ?_
    simp only [Function.comp]
    push_cast
    rfl

theorem builtin_velocities {hankel : ℝ → ℂ} {geom : ℚ → ℚ → ℕ → List ℚ} {a : Arr} {set : Settings} {t : Transform}
    {tr : Arr → Settings → Except PyErr Transform}
    (hc : (Builtin.transforms hankel geom).createClass set.transform = .ok tr) (h : tr a set = .ok t) :
    HasVelocities set t := by
  intro hlin
  simp only [Registry.createClass, Builtin.transforms, List.lookup] at hc
  rcases h1 : (set.transform == "empty") with _ | _
  · rw [h1] at hc
    rcases h2 : (set.transform == "slantstack") with _ | _
    · rw [h2] at hc
      rcases h3 : (set.transform == "phaseshift") with _ | _
      · rw [h3] at hc
        rcases h4 : (set.transform == "fdbf") with _ | _
        · rw [h4] at hc
          rcases h5 : (set.transform == "fk") with _ | _
          · rw [h5] at hc; cases hc
          · rw [h5] at hc
            cases hc
            unfold Builtin.fk at h
            split at h
            · cases h
            · obtain ⟨vels, hv, h⟩ := bind_ok h
              obtain ⟨r, hr, h⟩ := bind_ok h
              obtain ⟨⟨frqs, powr⟩, hp, h⟩ := bind_ok h
              cases h
              exact hv
        · rw [h4] at hc
          cases hc
          unfold Builtin.fdbf at h
          obtain ⟨vels, hv, h⟩ := bind_ok h
          obtain ⟨r, hr, h⟩ := bind_ok h
          obtain ⟨⟨frqs, powr⟩, hp, h⟩ := bind_ok h
          cases h
          exact hv
      · rw [h3] at hc
        cases hc
        unfold Builtin.phaseShift at h
        obtain ⟨vels, hv, h⟩ := bind_ok h
        obtain ⟨r, hr, h⟩ := bind_ok h
        obtain ⟨⟨frqs, powr⟩, hp, h⟩ := bind_ok h
        cases h
        exact hv
    · rw [h2] at hc
      cases hc
      unfold Builtin.slantStack at h
      obtain ⟨vels, hv, h⟩ := bind_ok h
      obtain ⟨stack, hst, h⟩ := bind_ok h
      split at h
      · cases h
      · obtain ⟨ids, hids, h⟩ := bind_ok h
        cases h
        exact velocitiesQ_linear hv (hlin (by simpa using h2))
  · rw [h1] at hc
    cases hc
    unfold Workflow.empty at h
    split at h
    · cases h
    · obtain ⟨ids, hids, h⟩ := bind_ok h
      obtain ⟨vels, hv, h⟩ := bind_ok h
      cases h
      exact hv

theorem transform_velocities {env : Env} {hankel : ℝ → ℂ} {geom : ℚ → ℚ → ℕ → List ℚ}
    (hb : env.transforms = Builtin.transforms hankel geom) {set : Settings} {a : Arr} {t : Transform}
    (h : Workflow.transform env set a = .ok t) : HasVelocities set t := by
  unfold Workflow.transform at h
  obtain ⟨tr, h1, h2⟩ := bind_ok h
  rw [hb] at h1
  exact builtin_velocities (lift_ok h1) (lift_ok h2)

theorem timeDomain_velocities {env : Env} {hankel : ℝ → ℂ} {geom : ℚ → ℚ → ℕ → List ℚ}
    (hb : env.transforms = Builtin.transforms hankel geom) {set : Settings} {f : Fnames} {r : Result}
    (h : timeDomain env set f = .ok r) : HasVelocities set r.transform := by
  unfold timeDomain at h
  obtain ⟨raw, -, h⟩ := bind_ok h
  obtain ⟨-, -, h⟩ := bind_ok h
  obtain ⟨s1, -, h⟩ := bind_ok h
  obtain ⟨s2, -, h⟩ := bind_ok h
  obtain ⟨s3, -, h⟩ := bind_ok h
  obtain ⟨s4, -, h⟩ := bind_ok h
  obtain ⟨s5, -, h⟩ := bind_ok h
  obtain ⟨⟨s6, q⟩, -, h⟩ := bind_ok h
  obtain ⟨s7, -, h⟩ := bind_ok h
  obtain ⟨t, ht, h⟩ := bind_ok h
  cases h
  exact transform_velocities hb ht

theorem foldlM_velocities : ∀ (Ts : List Transform) (t t' : Transform), Ts.foldlM Workflow.stack t = .ok t' →
    t'.velocities = t.velocities := by
  intro Ts
  induction Ts with
  | nil => intro t t' h; cases h; rfl
  | cons T Ts ih =>
    intro t t' h
    rw [List.foldlM_cons] at h
    obtain ⟨t1, h1, h⟩ := bind_ok h
    rw [ih t1 t' h]
    unfold Workflow.stack at h1
    obtain ⟨p, -, h1⟩ := bind_ok h1
    cases h1
    rfl

theorem freqFiles_velocities {env : Env} {set : Settings} {names : List String} {r : Result}
    (h : freqFiles env set names = .ok r) :
    WT.createVector set.vmin set.vmax set.nvel set.vspace = .ok r.transform.velocities := by
  rcases names with _ | ⟨f0, rest⟩
  · cases h
  · obtain ⟨ex, t0, -, -, T0, Ts, -, -, -, h2, -, -, -, -, h7, -⟩ := freqFiles_ok h
    rw [foldlM_velocities _ _ _ h7]
    unfold Workflow.empty at h2
    split at h2
    · cases h2
    · obtain ⟨ids, hids, h2⟩ := bind_ok h2
      obtain ⟨vels, hv, h2⟩ := bind_ok h2
      cases h2
      exact hv

/-- **C61** (runs).  Whatever the workflow, the transform and the files: if a run returns, the velocities of its transform
are the trial vector of the settings `vmin`, `vmax`, `nvel` and `vspace` (`C61_linear`, `C61_logarithmic`).  For the slant
stack in the time domain, which is modelled in rational numbers, with linear spacing. -/
theorem C61_of_the_run (env : Env) (hankel : ℝ → ℂ) (geom : ℚ → ℚ → ℕ → List ℚ)
    (hb : env.transforms = Builtin.transforms hankel geom) (set : Settings) (w : String) (c : Class)
    (hw : Workflow.builtin.lookup w = some c) (r : Result)
    (h : (∃ f, c.viaFnames env set f = .ok r) ∨ ∃ f src ch, c.viaXcorr env set f src ch = .ok r)
    (hs : set.transform = "slantstack" → w = "frequency-domain" ∨ set.vspace = "linear" ∨ set.vspace = "lin") :
    WT.createVector set.vmin set.vmax set.nvel set.vspace = .ok r.transform.velocities := by
  simp only [Workflow.builtin, List.lookup] at hw
  rcases h1 : (w == "single") with _ | _
  · rw [h1] at hw
    rcases h2 : (w == "time-domain") with _ | _
    · rw [h2] at hw
      rcases h3 : (w == "time-domain-xcorr") with _ | _
      · rw [h3] at hw
        rcases h4 : (w == "frequency-domain") with _ | _
        · rw [h4] at hw; cases hw
        · rw [h4] at hw
          cases hw
          rcases h with ⟨f, h⟩ | ⟨f, src, ch, h⟩
          · simp only [frequencyDomain] at h
            split at h <;> exact freqFiles_velocities h
          · cases h
      · rw [h3] at hw
        cases hw
        have hw' : w = "time-domain-xcorr" := by simpa using h3
        have hs' : set.transform = "slantstack" → set.vspace = "linear" ∨ set.vspace = "lin" := fun e =>
          (hs e).resolve_left (by rw [hw']; decide)
        rcases h with ⟨f, h⟩ | ⟨f, src, ch, h⟩
        · cases h
        · unfold xcorr at h
          obtain ⟨⟨raw, sig⟩, -, h⟩ := bind_ok h
          obtain ⟨t, -, h⟩ := bind_ok h
          obtain ⟨raw', -, h⟩ := bind_ok h
          simp only at h
          split at h
          · cases h
          · obtain ⟨-, -, h⟩ := bind_ok h
            obtain ⟨-, -, h⟩ := bind_ok h
            obtain ⟨s1, -, h⟩ := bind_ok h
            obtain ⟨s2, -, h⟩ := bind_ok h
            obtain ⟨s3, -, h⟩ := bind_ok h
            obtain ⟨s4, -, h⟩ := bind_ok h
            obtain ⟨s5, -, h⟩ := bind_ok h
            obtain ⟨⟨s6, q⟩, -, h⟩ := bind_ok h
            obtain ⟨x, -, h⟩ := bind_ok h
            obtain ⟨s7, -, h⟩ := bind_ok h
            obtain ⟨t, ht, h⟩ := bind_ok h
            cases h
            exact transform_velocities hb ht hs'
    · rw [h2] at hw
      cases hw
      have hw' : w = "time-domain" := by simpa using h2
      have hs' : set.transform = "slantstack" → set.vspace = "linear" ∨ set.vspace = "lin" := fun e =>
        (hs e).resolve_left (by rw [hw']; decide)
      rcases h with ⟨f, h⟩ | ⟨f, src, ch, h⟩
      · exact timeDomain_velocities hb h hs'
      · cases h
  · rw [h1] at hw
    cases hw
    have hw' : w = "single" := by simpa using h1
    have hs' : set.transform = "slantstack" → set.vspace = "linear" ∨ set.vspace = "lin" := fun e =>
      (hs e).resolve_left (by rw [hw']; decide)
    rcases h with ⟨f, h⟩ | ⟨f, src, ch, h⟩
    · simp only [single] at h
      split at h
      · exact timeDomain_velocities hb h hs'
      · exact timeDomain_velocities hb h hs'
      · cases h
      · exact timeDomain_velocities hb h hs'
    · cases h

/-- The frequency-domain run on the files "a" and "b": one trial velocity. -/
example : ∃ (c : Class) (r : Result), Workflow.builtin.lookup "frequency-domain" = some c ∧
    c.viaFnames exRegEnv exRegSet (.many ["a", "b"]) = .ok r ∧
    WT.createVector exRegSet.vmin exRegSet.vmax exRegSet.nvel exRegSet.vspace = .ok r.transform.velocities := by
  obtain ⟨r, hr⟩ := exReg_run
  refine ⟨⟨frequencyDomain, noXcorr⟩, r, by simp [Workflow.builtin, List.lookup], hr, ?_⟩
  exact C61_of_the_run exRegEnv _ _ rfl exRegSet "frequency-domain" ⟨frequencyDomain, noXcorr⟩
    (by simp [Workflow.builtin, List.lookup]) r (Or.inl ⟨.many ["a", "b"], hr⟩) fun _ => Or.inl rfl

end Verif.Props
