import Verif.Spec.Describe
import Verif.Props.SweepVelocity
import Verif.Props.FrequencyDomain

/-!
# C158: what the description of a workflow says is what a run does
-/

namespace Verif.Props
open Verif WT Spec Workflow

/-- The steps of pre-processing, as described for three of the workflows. -/
theorem preprocessed_follows {env : Env} {set : Settings} {kw : Option Kwargs} {lines : Option Arr.Line × Option Arr.Line}
    {input : Input} {raw near level cut muted padded : Arr} {t : Transform}
    (hsrc : ¬ SourceBetween raw) (hpre : Preprocessed env set kw lines raw near level cut muted padded)
    (ht : IsTransformOf env set padded t) :
    Follows env set kw lines input ⟨raw, none, none⟩ [.check, .near, .level, .cut, .mute, .pad, .transform]
      ⟨padded, none, some t⟩ := by
  obtain ⟨p1, p2, p3, p4, p5, p6⟩ := hpre
  have hl : level = ⟨near.sensors.map fun s => { s with ts := { s.ts with amp := env.detrend s.ts.amp } }, near.source⟩ := by
    rcases level with ⟨ls, lsrc⟩
    simp only at p2 p3
    rw [p2, p3]
  refine ⟨⟨raw, none, none⟩, ⟨hsrc, rfl⟩, ⟨near, none, none⟩, ⟨near, p1, rfl⟩, ⟨level, none, none⟩, ?_, ⟨cut, none, none⟩, ?_,
    ⟨muted, none, none⟩, ?_, ⟨padded, none, none⟩, ?_, ⟨padded, none, some t⟩, ⟨t, ht, rfl⟩, rfl⟩
  · simp only [Performs]
    rw [hl]
  · simp only [Performs]
    split_ifs at p4 ⊢ with c
    · exact ⟨cut, p4, rfl⟩
    · rw [p4]
  · simp only [Performs]
    split_ifs at p5 ⊢ with c
    · exact ⟨muted, p5, rfl⟩
    · rw [p5]
  · simp only [Performs]
    split_ifs at p6 ⊢ with c
    · exact ⟨padded, p6, rfl⟩
    · rw [p6]

/-- **C158** (time domain).  A run of the time-domain workflow which returns has done the steps of its description, in
their order. -/
theorem C158_time_domain (env : Env) (set : Settings) (f : Fnames) (r : Result) (h : timeDomain env set f = .ok r) :
    ∃ steps, DescribedSteps "time-domain" steps ∧
      Follows env set none (r.final.signalStart, r.final.signalEnd) ⟨f, none, none⟩ nothingYet steps ⟨r.array, none, some r.transform⟩ := by
  obtain ⟨raw, near, level, cut, muted, hraw, hsrc, hpre, ht, -⟩ := C76_steps _ _ _ _ h
  exact ⟨_, ⟨_, _, rfl, rfl⟩, ⟨raw, none, none⟩, ⟨⟨hraw, rfl⟩, rfl⟩, preprocessed_follows hsrc hpre ht⟩

/-- **C158** (single).  The same for the workflow of a single file, which is the first one given. -/
theorem C158_single (env : Env) (set : Settings) (f : Fnames) (r : Result) (h : single env set f = .ok r) :
    ∃ steps, DescribedSteps "single" steps ∧
      Follows env set none (r.final.signalStart, r.final.signalEnd) ⟨f, none, none⟩ nothingYet steps ⟨r.array, none, some r.transform⟩ := by
  have hf : timeDomain env set (firstOnly f) = .ok r := by
    unfold single at h
    split at h
    · exact h
    · exact h
    · cases h
    · exact h
  obtain ⟨raw, near, level, cut, muted, hraw, hsrc, hpre, ht, -⟩ := C76_steps _ _ _ _ hf
  exact ⟨_, ⟨_, _, rfl, rfl⟩, ⟨raw, none, none⟩, ⟨⟨hraw, rfl⟩, rfl⟩, preprocessed_follows hsrc hpre ht⟩

/-- **C158** (frequency domain).  In a run of the frequency-domain workflow over a list of files the steps of the
description, up to its last line, are done for every file; as the last line says, the transforms are stacked, on a stack
which is empty before the first file. -/
theorem C158_frequency_domain (env : Env) (set : Settings) (f0 : String) (rest : List String) (r : Result)
    (h : frequencyDomain env set (.many (f0 :: rest)) = .ok r) :
    ∃ steps Ts t0, DescribedSteps "frequency-domain" (steps ++ [.again]) ∧
      List.Forall₂ (fun f T => ∃ kw a, Follows env set kw (r.final.signalStart, r.final.signalEnd)
        ⟨.many (f0 :: rest), none, some f⟩ nothingYet steps ⟨a, none, some T⟩)
        (f0 :: rest) Ts ∧
      t0.n = 0 ∧ Ts.foldlM Workflow.stack t0 = .ok r.transform := by
  obtain ⟨ex, t0, sf, _, T0, Ts, level, muted, -, h2, ⟨-, rfl⟩, -, h5, h6, h7, -⟩ := freqFiles_ok h
  have hone : ∀ {name kw level muted T}, PerFile env set kw (r.final.signalStart, r.final.signalEnd) name level muted T →
      ∃ kw a, Follows env set kw (r.final.signalStart, r.final.signalEnd) ⟨.many (f0 :: rest), none, some name⟩ nothingYet
        [.readNext, .check, .near, .level, .cut, .mute, .pad, .transform] ⟨a, none, some T⟩ := by
    rintro name kw level muted T ⟨raw, near, cut, padded, hraw, hsrc, hpre, ht⟩
    exact ⟨kw, padded, ⟨raw, none, none⟩, ⟨name, rfl, ⟨hraw, rfl⟩, rfl⟩, preprocessed_follows hsrc hpre ht⟩
  refine ⟨[.readNext, .check, .near, .level, .cut, .mute, .pad, .transform], T0 :: Ts, t0, ⟨_, _, rfl, rfl⟩,
    .cons (hone h5) (h6.imp fun f T ⟨level, muted, hp⟩ => hone hp), ?_, h7⟩
  exact congrArg WT.Stackable.n (empty_ok h2)

/-- **C158** (partial: cross-correlation).  A run of the cross-correlation workflow which neither trims in time nor mutes
has done the steps of its description.  Missing: runs which do (`C158_correlation_is_last_fails`). -/
theorem C158_cross_correlation_partial (env : Env) (set : Settings) (f : Fnames) (src : List String) (ch : ℤ) (r : Result)
    (hcut : set.trimApply = false) (hmute : set.muteApply = false) (h : xcorr env set f src ch = .ok r) :
    ∃ steps sig, DescribedSteps "time-domain-xcorr" steps ∧
      Follows env set none (r.final.signalStart, r.final.signalEnd) ⟨f, some (src, ch), none⟩ nothingYet steps ⟨r.array, some sig, some r.transform⟩ := by
  obtain ⟨raw, near, level, cut, muted, sig, hrec, hsrc, ⟨p1, p2, p3, p4, p5, -⟩, ⟨x, x1, x2⟩, ht, -⟩ :=
    C151_steps _ _ _ _ _ _ h
  simp only at p1 p4 p5
  rw [hcut] at p4
  rw [hmute] at p5
  simp only [Bool.false_eq_true, if_false] at p4 p5
  subst p4 p5
  have hl : muted = ⟨near.sensors.map fun s => { s with ts := { s.ts with amp := env.detrend s.ts.amp } }, near.source⟩ := by
    rcases muted with ⟨ls, lsrc⟩
    simp only at p2 p3
    rw [p2, p3]
  refine ⟨_, sig, ⟨_, _, rfl, rfl⟩, ⟨raw, some sig, none⟩, ⟨⟨sig, hrec, rfl⟩, rfl⟩, ⟨raw, some sig, none⟩, ⟨hsrc, rfl⟩,
    ⟨near, some sig, none⟩, ⟨near, p1, rfl⟩, ⟨muted, some sig, none⟩, ?_, ⟨⟨x.sensors, muted.source⟩, some sig, none⟩,
    ⟨sig, x, rfl, x1, rfl⟩, ⟨⟨x.sensors, muted.source⟩, some sig, none⟩, ?_, ⟨⟨x.sensors, muted.source⟩, some sig, none⟩, ?_,
    ⟨r.array, some sig, none⟩, ?_, ⟨r.array, some sig, some r.transform⟩, ⟨_, ht, rfl⟩, rfl⟩
  · simp only [Performs]
    rw [hl]
  · simp only [Performs, hcut, Bool.false_eq_true, if_false]
  · simp only [Performs, hmute, Bool.false_eq_true, if_false]
  · simp only [Performs]
    split_ifs at x2 ⊢ with c
    · exact ⟨r.array, x2, rfl⟩
    · rw [x2]

/-- Runs of the four workflows which return: with muting and padding, with several files given to the workflow of one
file, over two files, and with cross-correlation. -/
example : (∃ r, timeDomain exEnv exMuteSet (.one "a") = .ok r) ∧ (∃ r, single exEnv exMuteSet (.many ["a", "b"]) = .ok r) ∧
    (∃ r, frequencyDomain exEnv exSet (.many ["a", "b"]) = .ok r) ∧
    (∃ r, xcorr sweepEnv (pulseSet "phaseshift") (.one "a") ["s"] 0 = .ok r ∧ (pulseSet "phaseshift").trimApply = false ∧
      (pulseSet "phaseshift").muteApply = false) := by
  obtain ⟨r1, h1, -⟩ := exMuted
  obtain ⟨r2, h2, -⟩ := exFrequencyDomain
  obtain ⟨r3, h3, -⟩ := sweep_returns (Or.inl rfl)
  exact ⟨⟨r1, h1⟩, ⟨r1, h1⟩, ⟨r2, h2⟩, ⟨r3, h3, rfl, rfl⟩⟩

/-! ## Trimming and cross-correlation -/

/-- The records of `pulseEnv`, a file with a source signal of two samples, a transform which always returns. -/
noncomputable def orderEnv : Env :=
  { pulseEnv with
    fs := fun n => if n = "s" then some [seg2 0 0 1 [1, 2]] else pulseEnv.fs n
    transforms := [("first", firstSample)] }

/-- Trimming to the first four samples. -/
def orderSet : Settings :=
  { pulseSet "first" with padApply := false, trimApply := true, trimEnd := 3 / 1000 }

/-- The source signal. -/
def orderSig : SourceSig := ⟨⟨0, 0, 0⟩, [1, 2], 1 / 1000⟩

/-- The first four samples of the records. -/
def orderCut : Arr :=
  { pulseArr with sensors := pulseArr.sensors.map fun s => { s with ts := { s.ts with amp := s.ts.amp.take 4 } } }

/-- ... correlated with the signal. -/
def orderLags : ArrSrc :=
  ⟨[⟨⟨[0, 4, 2, 0, 0], 1 / 1000, 1, 0, 1⟩, 2, 0, 0⟩, ⟨⟨[0, 0, 6, 3, 0], 1 / 1000, 1, 0, 1⟩, 4, 0, 0⟩,
    ⟨⟨[0, 0, 0, 0, 0], 1 / 1000, 1, 0, 1⟩, 8, 0, 0⟩], orderSig⟩

/-- All samples of the records correlated with the signal. -/
def orderAll : ArrSrc :=
  ⟨[⟨⟨[0, 4, 2, 0, 0, 0], 1 / 1000, 1, 0, 1⟩, 2, 0, 0⟩, ⟨⟨[0, 0, 6, 3, 0, 0], 1 / 1000, 1, 0, 1⟩, 4, 0, 0⟩,
    ⟨⟨[0, 0, 0, 0, 14, 7], 1 / 1000, 1, 0, 1⟩, 8, 0, 0⟩], orderSig⟩

/-- ... and then trimmed. -/
def orderLate : Arr :=
  ⟨[⟨⟨[0, 4, 2, 0], 1 / 1000, 1, 0, 1⟩, 2, 0, 0⟩, ⟨⟨[0, 0, 6, 3], 1 / 1000, 1, 0, 1⟩, 4, 0, 0⟩,
    ⟨⟨[0, 0, 0, 0], 1 / 1000, 1, 0, 1⟩, 8, 0, 0⟩], ⟨0, 0, 0⟩⟩

theorem order_record : RecordWithSignal orderEnv (.one "a") ["s"] 0 pulseArr orderSig :=
  ⟨pulseArr, pulseArr, [([1, 2], 1 / 1000)], ⟨⟨[0, 2, 0, 0, 0, 0, 0, 0], 1 / 1000, 1, 0, 1⟩, 2, 0, 0⟩, 7 / 1000,
    by decide +kernel, by decide +kernel, by decide +kernel, by decide +kernel, by decide +kernel, by decide +kernel,
    by decide +kernel, by decide +kernel, by decide +kernel, by decide +kernel⟩

/-- **C158** (refuted for cross-correlation).  The description says that the traces are correlated before they are trimmed;
the run trims them first.  The result is another one: with the first 4 ms kept it has five samples, not four. -/
theorem C158_correlation_is_last_fails : ∃ (env : Env) (set : Settings) (f : Fnames) (src : List String) (ch : ℤ) (r : Result)
    (steps : List Step), xcorr env set f src ch = .ok r ∧ DescribedSteps "time-domain-xcorr" steps ∧
      (∃ lines w, Follows env set none lines ⟨f, some (src, ch), none⟩ nothingYet steps w) ∧
      ∀ lines w, Follows env set none lines ⟨f, some (src, ch), none⟩ nothingYet steps w → w.array ≠ r.array := by
  have hne : (⟨orderLags.sensors, ⟨0, 0, 0⟩⟩ : Arr) ≠ orderLate := by decide +kernel
  have hsrc : ¬ SourceBetween pulseArr := by
    rintro ⟨p, q, h1, h2, h3, h4⟩
    cases h1
    exact absurd h3 (by decide +kernel)
  have hnear : trimOffsetsFl pulseArr 0 .pinf = (pulseArr, .ok ()) := by decide +kernel
  have hcut : pulseArr.trim 0 (3 / 1000) = (orderCut, .ok ()) := by decide +kernel
  have hx : ArrSrc.xcorrelate ⟨orderCut.sensors, orderSig⟩ 2000 4000 = (orderLags, .ok ()) := by decide +kernel
  have hx' : ArrSrc.xcorrelate ⟨pulseArr.sensors, orderSig⟩ 2000 4000 = (orderAll, .ok ()) := by decide +kernel
  have hcut' : (⟨orderAll.sensors, ⟨0, 0, 0⟩⟩ : Arr).trim 0 (3 / 1000) = (orderLate, .ok ()) := by decide +kernel
  have htr : ∀ a, ∃ t, IsTransformOf orderEnv orderSet a t := fun a => ⟨_, firstSample, rfl, rfl⟩
  obtain ⟨t, ht⟩ := htr ⟨orderLags.sensors, ⟨0, 0, 0⟩⟩
  obtain ⟨t', ht'⟩ := htr orderLate
  obtain ⟨r, hr, ea, -⟩ := C151_run_returns orderEnv orderSet (.one "a") ["s"] 0 pulseArr pulseArr pulseArr orderCut
    orderCut ⟨orderLags.sensors, ⟨0, 0, 0⟩⟩ (none, none) orderSig t order_record (by decide) hsrc
    ⟨hnear, rfl, rfl, hcut, rfl, rfl⟩ (fun h => by cases h) ⟨orderLags, hx, rfl⟩ ht none (fun _ => rfl) (fun h => by cases h)
  refine ⟨orderEnv, orderSet, .one "a", ["s"], 0, r, _, hr, ⟨_, _, rfl, rfl⟩, ⟨(none, none), ⟨orderLate, some orderSig, some t'⟩,
    ⟨pulseArr, some orderSig, none⟩, ⟨⟨orderSig, order_record, rfl⟩, rfl⟩, ⟨pulseArr, some orderSig, none⟩, ⟨hsrc, rfl⟩,
    ⟨pulseArr, some orderSig, none⟩, ⟨pulseArr, hnear, rfl⟩, ⟨pulseArr, some orderSig, none⟩, rfl,
    ⟨⟨orderAll.sensors, ⟨0, 0, 0⟩⟩, some orderSig, none⟩, ⟨orderSig, orderAll, rfl, hx', rfl⟩,
    ⟨orderLate, some orderSig, none⟩, ⟨orderLate, hcut', rfl⟩, ⟨orderLate, some orderSig, none⟩, rfl,
    ⟨orderLate, some orderSig, none⟩, rfl, ⟨orderLate, some orderSig, some t'⟩, ⟨t', ht', rfl⟩, rfl⟩, ?_⟩
  rintro lines w ⟨⟨a1, s1, x1⟩, ⟨⟨sig, g1, g2⟩, -⟩, w2, ⟨-, rfl⟩, w3, ⟨a3, g3, rfl⟩, w4, g4, w5, ⟨sig', x, g5, g6, rfl⟩,
    w6, g7, w7, g8, w8, g9, w9, ⟨t9, -, rfl⟩, rfl⟩
  simp only at g1 g2 g3 g5 g6
  obtain ⟨rfl, rfl⟩ := recordWithSignal_unique g1 order_record
  have e3 := Prod.mk.inj (g3.symm.trans hnear)
  obtain ⟨rfl, -⟩ := e3
  have g4' : w4 = ⟨pulseArr, s1, x1⟩ := g4
  subst g4'
  rw [g2] at g5
  cases g5
  obtain ⟨rfl, -⟩ := Prod.mk.inj (g6.symm.trans hx')
  obtain ⟨a6, g7, rfl⟩ := (g7 : ∃ a, _ ∧ _)
  obtain ⟨rfl, -⟩ := Prod.mk.inj (g7.symm.trans hcut')
  have g8' : w7 = ⟨orderLate, s1, x1⟩ := g8
  subst g8'
  have g9' : w8 = ⟨orderLate, s1, x1⟩ := g9
  subst g9'
  rw [ea]
  exact fun h => hne h.symm

/-- **C158** (refuted: title).  Two workflows have the same title. -/
theorem C158_title_counterexample : ∃ a b, a ≠ b ∧ a ∈ Workflow.builtin.map Prod.fst ∧ b ∈ Workflow.builtin.map Prod.fst ∧
    (describe a).map (fun l => l.head?) = (describe b).map (fun l => l.head?) :=
  ⟨"time-domain", "time-domain-xcorr", by decide, by simp [Workflow.builtin], by simp [Workflow.builtin], rfl⟩

end Verif.Props
