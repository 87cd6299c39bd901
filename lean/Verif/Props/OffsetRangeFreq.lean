import Verif.Props.OffsetRange

/-!
# C174 for the frequency-domain workflow
-/

namespace Verif.Props
open Verif WT Spec Workflow

/-- Two files of the same shot with the same receivers within the offset range: each is similar to the example
array of its run, the source is not between the receivers and no receiver before the source is beyond the upper
limit. -/
def SameShot (env : Env) (set : Settings) (ex ex' : Arr) (f g : String) : Prop :=
  ∃ a b, fromFiles env (.one f) = .ok a ∧ fromFiles env (.one g) = .ok b ∧ a.isSimilar ex = true ∧
    b.isSimilar ex' = true ∧ a.source = b.source ∧ ¬ SourceBetween a ∧ ¬ SourceBetween b ∧
    NearBelow set.maxOffset a ∧ NearBelow set.maxOffset b ∧ usedOf set a = usedOf set b

namespace OffsetRangeFreq

/-- Selecting the receivers of a run that has got so far. -/
theorem trimOffsets_used (set : Settings) (s : State) (hc : Consistent s.array) (hn : NearBelow set.maxOffset s.array) :
    Workflow.trimOffsets set s = if usedOf set s.array = [] then .error (.raised .valueError)
      else .ok { s with array := ⟨usedOf set s.array, s.array.source⟩ } := by
  unfold Workflow.trimOffsets
  rw [trimOffsetsFl_used set s.array hc hn]
  split_ifs <;> rfl

/-- The rest of the treatment of one file. -/
noncomputable def after (env : Env) (set : Settings) (s : State) : Except Stop (State × Transform) := do
  let s := { s with array := detrend env s.array }
  let s ← selectNoise set s
  let s ← trimTime set s
  let s ← Workflow.mute env set s
  let s ← selectSignal set s
  let s ← Workflow.pad set s
  let t ← Workflow.transform env set s.array
  return (s, t)

/-- The state in which the treatment of a file begins. -/
def start (st : Option State) (raw : Arr) : State :=
  match st with
  | none => State.new raw
  | some s => { s with array := raw }

theorem freqFile_used (env : Env) (set : Settings) (ex : Arr) (st : Option State) (f : String) (a : Arr)
    (ha : fromFiles env (.one f) = .ok a) (hs : a.isSimilar ex = true) (hb : ¬ SourceBetween a)
    (hn : NearBelow set.maxOffset a) :
    freqFile env set ex st f = (if usedOf set a = [] then .error (.raised .valueError)
      else after env set (start st ⟨usedOf set a, a.source⟩)) := by
  have hc := fromFile_consistent ha
  have harr : (start st a).array = a := by cases st <;> rfl
  have hset : { start st a with array := ⟨usedOf set a, a.source⟩ } = start st ⟨usedOf set a, a.source⟩ := by
    cases st <;> rfl
  have e := trimOffsets_used set (start st a) (by rw [harr]; exact hc) (by rw [harr]; exact hn)
  rw [harr, hset] at e
  unfold freqFile
  rw [ha]
  show (if (!a.isSimilar ex) = true then (throw (.raised .valueError) : Except Stop PUnit) >>= _ else _) = _
  rw [hs]
  show (check a >>= fun _ => Workflow.trimOffsets set (start st a) >>= after env set) = _
  rw [check_not_between hc.1 hb]
  show (Workflow.trimOffsets set (start st a) >>= after env set) = _
  rw [e]
  split_ifs <;> rfl

theorem freqFile_same {env : Env} {set : Settings} {ex ex' : Arr} {f g : String} (h : SameShot env set ex ex' f g)
    (st : Option State) : freqFile env set ex st f = freqFile env set ex' st g := by
  obtain ⟨a, b, ha, hb, sa, sb, hsrc, oa, ob, na, nb, hu⟩ := h
  rw [freqFile_used env set ex st f a ha sa oa na, freqFile_used env set ex' st g b hb sb ob nb, hu, hsrc]

theorem freqLoop_same {env : Env} {set : Settings} {ex ex' : Arr} {fs gs : List String}
    (h : List.Forall₂ (SameShot env set ex ex') fs gs) : ∀ (st : Option State) (running : Transform),
    freqLoop env set ex st running fs = freqLoop env set ex' st running gs := by
  induction h with
  | nil => intro st running; rfl
  | cons h _ ih =>
    intro st running
    simp only [freqLoop, freqFile_same h]
    simp only [ih]

end OffsetRangeFreq

open OffsetRangeFreq

/-- **C174** (frequency domain).  Two lists of files of the same shots, file by file with the same receivers
within the offset range, whose example arrays give the same frequencies: the runs end the same way.  Missing: the
conditions on the source and the receivers before it (as above), and the similarity of every file to the example
array of its own list. -/
theorem C174_frequency_domain_partial (env : Env) (set : Settings) (f g : String) (fs gs : List String) (ex ex' : Arr)
    (hex : exampleArray env set f = .ok ex) (hex' : exampleArray env set g = .ok ex')
    (hframe : Workflow.empty ex set = Workflow.empty ex' set)
    (h : List.Forall₂ (SameShot env set ex ex') (f :: fs) (g :: gs)) :
    frequencyDomain env set (.many (f :: fs)) = frequencyDomain env set (.many (g :: gs)) := by
  show freqFiles env set (f :: fs) = freqFiles env set (g :: gs)
  simp only [freqFiles, hex, hex']
  simp only [bind, Except.bind, hframe, freqLoop_same h]

/-- **C174** (frequency domain, first receivers).  The example arrays give the same frequencies whenever their
first receivers have records of the same length, step and multiple. -/
theorem C174_same_frame_partial (set : Settings) (a b : Arr) (s t : Sensor) (ss ts : List Sensor)
    (ha : a.sensors = s :: ss) (hb : b.sensors = t :: ts) (hn : s.ts.nsamples = t.ts.nsamples) (hdt : s.ts.dt = t.ts.dt)
    (hm : s.ts.multiple = t.ts.multiple) : Workflow.empty a set = Workflow.empty b set := by
  have hdf : s.ts.dfInternal = t.ts.dfInternal := by
    unfold ATS.dfInternal
    rw [hn, hdt]
  unfold Workflow.empty
  rw [ha, hb]
  simp only [hn, hdf, hm]

/-- The shot with and without a receiver at 50, which is not used, twice each. -/
example : List.Forall₂ (SameShot lineEnv lineSet (lineArr [] 0 []) (lineArr [] 0 [lineOther 50]))
      ["line", "line"] ["longer", "longer"] ∧
    exampleArray lineEnv lineSet "line" = .ok (lineArr [] 0 []) ∧
    exampleArray lineEnv lineSet "longer" = .ok (lineArr [] 0 [lineOther 50]) := by
  have h : SameShot lineEnv lineSet (lineArr [] 0 []) (lineArr [] 0 [lineOther 50]) "line" "longer" := by
    refine ⟨_, _, line_read, longer_read, by decide +kernel, by decide +kernel, rfl, ?_, ?_, ?_, ?_, ?_⟩
    · rintro ⟨p, q, h1, h2, h3, h4⟩
      simp only [lineArr, Arr.position, List.nil_append, List.append_nil, List.map_cons, List.map_nil, List.head?_cons,
        Option.some.injEq] at h1
      rw [← h1] at h3
      norm_num [lineArr] at h3
    · rintro ⟨p, q, h1, h2, h3, h4⟩
      simp only [lineArr, Arr.position, List.nil_append, List.map_cons, List.cons_append, List.head?_cons,
        Option.some.injEq] at h1
      rw [← h1] at h3
      norm_num [lineArr] at h3
    · intro q _ s hs h
      simp only [lineArr, List.nil_append, List.append_nil, List.mem_cons, List.not_mem_nil, or_false] at hs
      rcases hs with rfl | rfl <;> norm_num [lineArr] at h
    · intro q _ s hs h
      simp only [lineArr, lineOther, List.nil_append, List.cons_append, List.mem_cons, List.not_mem_nil, or_false] at hs
      rcases hs with rfl | rfl | rfl <;> norm_num [lineArr] at h
    · rw [used_line [] 0 [lineOther 50] (Or.inl rfl) (by simp), used_line [] 0 [] (Or.inl rfl) (by simp)]
  refine ⟨.cons h (.cons h .nil), ?_, ?_⟩
  · unfold exampleArray
    rw [line_read]
    rfl
  · unfold exampleArray
    rw [longer_read]
    rfl

end Verif.Props
