import Verif.Props.OffsetRangeFreq

/-!
# C174 for the cross-correlation workflow
-/

namespace Verif.Props
open Verif WT Spec Workflow

/-- The array and the source signal with which the cross-correlation workflow begins: the files are read and the
records cut to the time from zero on (maswworkflows.py:214-221). -/
def fromZero (env : Env) (f : Fnames) (src : List String) (ch : ℤ) : Except Stop (Arr × SourceSig) := do
  let (raw, sig) ← fromFilesWithSource env f src ch
  let t ← lastTime raw
  let raw ← call (raw.trim 0 t)
  return (raw, sig)

/-- **C174** (cross-correlation).  Two recordings with the same source signal which, from time zero on, are of the
same shot and have the same receivers within the offset range, the source not between the receivers and no
receiver before the source beyond the upper limit: the cross-correlation workflow ends the same way for both.
Missing: the conditions, see `C174_other_side_fails` and `C174_far_receiver_fails`. -/
theorem C174_cross_correlation_partial (env : Env) (set : Settings) (f g : Fnames) (src : List String) (ch : ℤ)
    (a b : Arr) (sig : SourceSig) (ha : fromZero env f src ch = .ok (a, sig)) (hb : fromZero env g src ch = .ok (b, sig))
    (hca : Consistent a) (hcb : Consistent b) (hsrc : a.source = b.source) (hoa : ¬ SourceBetween a)
    (hob : ¬ SourceBetween b) (hna : NearBelow set.maxOffset a) (hnb : NearBelow set.maxOffset b)
    (hused : usedOf set a = usedOf set b) : xcorr env set f src ch = xcorr env set g src ch := by
  have key : ∀ (h : Fnames) (c : Arr), fromZero env h src ch = .ok (c, sig) → Consistent c → ¬ SourceBetween c →
      NearBelow set.maxOffset c → xcorr env set h src ch =
        (if sig.amp = [] then .error (.raised .valueError)
          else if usedOf set c = [] then .error (.raised .valueError)
          else .ok (State.new ⟨usedOf set c, c.source⟩) : Except Stop State) >>= fun s => do
        let s := { s with array := detrend env s.array }
        let s ← selectNoise set s
        let s ← trimTime set s
        let s ← Workflow.mute env set s
        let s ← selectSignal set s
        let (s, snr) ← calculateSnr set s
        let x ← call (ArrSrc.xcorrelate ⟨s.array.sensors, sig⟩ set.vmin set.vmax)
        let s := { s with array := { s.array with sensors := x.sensors } }
        let s ← Workflow.pad set s
        let t ← Workflow.transform env set s.array
        return ⟨t, s.array, snr, s⟩ := by
    intro h c hc h1 h2 h3
    unfold fromZero at hc
    rcases e1 : fromFilesWithSource env h src ch with e | ⟨raw, sig'⟩
    · rw [e1] at hc; cases hc
    rw [e1] at hc
    rcases e2 : lastTime raw with e | t
    · simp only [bind, Except.bind, e2] at hc; cases hc
    rcases e3 : call (raw.trim 0 t) with e | c'
    · simp only [bind, Except.bind, e2, e3] at hc; cases hc
    simp only [bind, Except.bind, e2, e3, pure, Except.pure, Except.ok.injEq, Prod.mk.injEq] at hc
    obtain ⟨rfl, rfl⟩ := hc
    have e := OffsetRangeFreq.trimOffsets_used set (State.new c') h1 h3
    unfold xcorr
    rw [e1]
    simp only [bind, Except.bind, e2, e3]
    by_cases h0 : sig'.amp = []
    · rw [if_pos h0, if_pos h0]
      rfl
    · rw [if_neg h0, if_neg h0]
      simp only [pure, Except.pure]
      rw [check_not_between h1.1 h2]
      simp only []
      rw [e]
      rfl
  rw [key f a ha hca hoa hna, key g b hb hcb hob hnb, hused, hsrc]

/-- The shot with and without a receiver at 50, the first channel being the source signal; the other conditions
are shown to hold for it at `C174_frequency_domain_partial`. -/
example : ∃ sig, sig.amp ≠ [] ∧ fromZero lineEnv (.one "line") ["line"] 0 = .ok (lineArr [] 0 [], sig) ∧
    fromZero lineEnv (.one "longer") ["line"] 0 = .ok (lineArr [] 0 [lineOther 50], sig) := by
  refine ⟨⟨⟨0, 0, 0⟩, [1, 2], 1 / 1000⟩, by simp, by decide +kernel, by decide +kernel⟩

end Verif.Props
