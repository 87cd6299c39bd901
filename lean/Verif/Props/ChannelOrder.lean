import Verif.Props.FileOrder
import Verif.Props.ArrayStructure
import Verif.Props.SlantMeanRun

/-!
# C176: the order of the channels in a file
-/

namespace Verif.Props
open Verif WT Workflow Verif.Arr

/-- The same files, with the traces of each in some other order. -/
def SameTraces (fs fs' : Fs) : Prop :=
  ∀ f, (fs f = none ∧ fs' f = none) ∨ ∃ ts ts', fs f = some ts ∧ fs' f = some ts' ∧ ts.Perm ts'

/-- The traces of a file state one format and one source. -/
def OneShot (fs : Fs) (mapX mapY : ℚ → ℚ) (f : String) : Prop :=
  ∀ ts, fs f = some ts → ∃ format src, ∀ t ∈ ts, t.format = some format ∧ parseSource format mapX mapY t = .ok src

theorem SameTraces.symm {fs fs' : Fs} (h : SameTraces fs fs') : SameTraces fs' fs := fun f =>
  (h f).imp (fun h => ⟨h.2, h.1⟩) fun ⟨ts, ts', h1, h2, h3⟩ => ⟨ts', ts, h2, h1, h3.symm⟩

theorem SameTraces.oneShot {fs fs' : Fs} (h : SameTraces fs fs') {mapX mapY : ℚ → ℚ} {f : String}
    (ho : OneShot fs mapX mapY f) : OneShot fs' mapX mapY f := by
  intro ts' hts'
  rcases h f with ⟨-, h2⟩ | ⟨ts, us, h1, h2, h3⟩
  · rw [h2] at hts'; cases hts'
  · rw [h2, Option.some.injEq] at hts'
    subst hts'
    obtain ⟨format, src, hall⟩ := ho ts h1
    exact ⟨format, src, fun t ht => hall t (h3.mem_iff.2 ht)⟩

/-- **C176** (first file).  The traces of the first file may be in any order, if the additional files are the same. -/
theorem C176_first_file (fs fs' : Fs) (mapX mapY : ℚ → ℚ) (hp : SameTraces fs fs') (f : String) (rest : List String)
    (hrest : ∀ g ∈ rest, fs g = fs' g) (ho : OneShot fs mapX mapY f) (a : Arr)
    (h : Arr.fromFiles fs (f :: rest) mapX mapY = .ok a) : Arr.fromFiles fs' (f :: rest) mapX mapY = .ok a := by
  obtain ⟨traces, sensors, t, format, obj, h1, h2, h3, h4, h5, h6, h7⟩ := Arr.fromFiles_ok h
  rcases hp f with ⟨h0, -⟩ | ⟨ts, ts', e1, e2, e3⟩
  · rw [h0] at h1; cases h1
  rw [h1, Option.some.injEq] at e1
  subst e1
  obtain ⟨format', src, hall⟩ := ho traces h1
  have ht := hall t (List.mem_of_getLast? h3)
  obtain rfl : format = format' := by rw [h4] at ht; exact Option.some.inj ht.1
  obtain rfl : a.source = src := by rw [h5] at ht; exact Except.ok.inj ht.2
  obtain ⟨sensors', g1, g2⟩ := List.perm_comp_forall₂ e3.symm h2
  have hne : ts' ≠ [] := by
    rintro rfl
    rw [List.perm_nil.1 e3] at h3
    cases h3
  obtain ⟨t', ht'⟩ : ∃ t', ts'.getLast? = some t' := ⟨_, List.getLast?_eq_some_getLast hne⟩
  obtain ⟨k1, k2⟩ := hall t' (e3.mem_iff.2 (List.mem_of_getLast? ht'))
  have hne' : sensors' ≠ [] := by
    rintro rfl
    cases g1
    exact hne rfl
  have hinit : Arr.init sensors' a.source = .ok obj := by
    rw [C16_construction_order_independent sensors' sensors a.source hne' g2]
    exact h6
  have hstack : ∀ (l : List String), (∀ g ∈ l, fs g = fs' g) → ∀ ss,
      stackFiles fs' format mapX mapY a.source ss l = stackFiles fs format mapX mapY a.source ss l := by
    intro l
    induction l with
    | nil => intro _ ss; rfl
    | cons g l ih =>
      intro hl ss
      have ih' := ih fun g' hg' => hl g' (by simp [hg'])
      simp only [stackFiles, readFile, hl g (by simp), ih']
  unfold Arr.fromFiles readFile
  simp only [e2, (Arr.sensorsOf_ok).2 g1, ht', k1, k2, hinit, hstack rest hrest, h7]
  have hs : obj.source = a.source := (Arr.init_consistent h6).2.2
  obtain ⟨os, osrc⟩ := obj
  obtain ⟨as, asrc⟩ := a
  simp only at hs
  rw [hs]

/-- **C176** (one file).  An array read from a file is the same for every order of the traces in the file. -/
theorem C176_one_file (fs fs' : Fs) (mapX mapY : ℚ → ℚ) (hp : SameTraces fs fs') (f : String)
    (ho : OneShot fs mapX mapY f) (a : Arr) :
    Arr.fromFiles fs [f] mapX mapY = .ok a ↔ Arr.fromFiles fs' [f] mapX mapY = .ok a :=
  ⟨C176_first_file fs fs' mapX mapY hp f [] (by simp) ho a,
    C176_first_file fs' fs mapX mapY hp.symm f [] (by simp) (hp.oneShot ho) a⟩

/-- The environment with other files. -/
def withFiles (env : Env) (fs : Fs) : Env := { env with fs := fs }

/-- What is read from a list of files is the same. -/
def ReadsTheSame (env : Env) (fs : Fs) (f : Fnames) : Prop :=
  ∀ raw, fromFiles env f = .ok raw → fromFiles (withFiles env fs) f = .ok raw

theorem timeDomain_files {env : Env} {fs : Fs} {set : Settings} {f : Fnames} {r : Result} (h : ReadsTheSame env fs f)
    (hr : timeDomain env set f = .ok r) : timeDomain (withFiles env fs) set f = .ok r := by
  unfold timeDomain at hr ⊢
  obtain ⟨raw, hraw, hr⟩ := bind_ok hr
  rw [h raw hraw]
  exact hr

theorem exampleArray_files {env : Env} {fs : Fs} {set : Settings} {f : String} {a : Arr} (h : ReadsTheSame env fs (.one f))
    (hr : exampleArray env set f = .ok a) : exampleArray (withFiles env fs) set f = .ok a := by
  unfold exampleArray at hr ⊢
  obtain ⟨raw, hraw, hr⟩ := bind_ok hr
  rw [h raw hraw]
  exact hr

theorem freqFile_files {env : Env} {fs : Fs} {set : Settings} {ex : Arr} {st : Option State} {f : String}
    {x : State × Transform} (h : ReadsTheSame env fs (.one f)) (hr : freqFile env set ex st f = .ok x) :
    freqFile (withFiles env fs) set ex st f = .ok x := by
  unfold freqFile at hr ⊢
  obtain ⟨raw, hraw, hr⟩ := bind_ok hr
  rw [h raw hraw]
  exact hr

theorem freqLoop_files {env : Env} {fs : Fs} {set : Settings} {ex : Arr} : ∀ {names : List String} {st : Option State}
    {running : Transform} {x : Option State × Transform}, (∀ f ∈ names, ReadsTheSame env fs (.one f)) →
    freqLoop env set ex st running names = .ok x → freqLoop (withFiles env fs) set ex st running names = .ok x := by
  intro names
  induction names with
  | nil => intro st running x _ h; exact h
  | cons f rest ih =>
    intro st running x hn h
    unfold freqLoop at h ⊢
    obtain ⟨⟨s, t⟩, h1, h⟩ := bind_ok h
    simp only at h
    obtain ⟨running', h2, h⟩ := bind_ok h
    rw [freqFile_files (hn f (by simp)) h1]
    show (lift (stack running t) >>= fun running => freqLoop (withFiles env fs) set ex (some s) running rest) = _
    rw [h2]
    exact ih (fun g hg => hn g (by simp [hg])) h

theorem freqFiles_files {env : Env} {fs : Fs} {set : Settings} {names : List String} {r : Result}
    (hn : ∀ f ∈ names, ReadsTheSame env fs (.one f)) (hr : freqFiles env set names = .ok r) :
    freqFiles (withFiles env fs) set names = .ok r := by
  unfold freqFiles at hr ⊢
  rcases names with _ | ⟨f0, rest⟩
  · cases hr
  simp only at hr ⊢
  obtain ⟨ex, h1, hr⟩ := bind_ok hr
  obtain ⟨running, h2, hr⟩ := bind_ok hr
  obtain ⟨tr, h3, hr⟩ := bind_ok hr
  obtain ⟨x, h4, hr⟩ := bind_ok hr
  rw [exampleArray_files (hn f0 (by simp)) h1]
  show (lift (empty ex set) >>= _) = _
  rw [h2]
  show (lift (env.transforms.createClass set.transform) >>= _) = _
  rw [h3]
  show (freqLoop (withFiles env fs) set ex none running (f0 :: rest) >>= _) = _
  rw [freqLoop_files hn h4]
  exact hr

theorem readsTheSame_one {env : Env} {fs : Fs} (hp : SameTraces env.fs fs) {f : String}
    (ho : OneShot env.fs env.mapX env.mapY f) : ReadsTheSame env fs (.one f) := by
  intro raw hraw
  unfold Workflow.fromFiles at hraw ⊢
  have := (C176_one_file env.fs fs env.mapX env.mapY hp f ho raw).1 (lift_ok hraw)
  show lift (Arr.fromFiles fs [f] env.mapX env.mapY) = _
  rw [this]
  rfl

/-- **C176** (workflows).  A run of the time-domain workflow and of the single-shot workflow over one file, and a run of the
frequency-domain workflow over any number of files, returns the same for every order of the traces in each of the files. -/
theorem C176_runs_partial (env : Env) (fs : Fs) (hp : SameTraces env.fs fs) (set : Settings) (r : Result) :
    (∀ f, OneShot env.fs env.mapX env.mapY f →
      (timeDomain env set (.one f) = .ok r ↔ timeDomain (withFiles env fs) set (.one f) = .ok r)) ∧
    (∀ f rest, OneShot env.fs env.mapX env.mapY f →
      (single env set (.many (f :: rest)) = .ok r ↔ single (withFiles env fs) set (.many (f :: rest)) = .ok r)) ∧
    (∀ names, (∀ f ∈ names, OneShot env.fs env.mapX env.mapY f) →
      (frequencyDomain env set (.many names) = .ok r ↔ frequencyDomain (withFiles env fs) set (.many names) = .ok r)) := by
  have back : withFiles (withFiles env fs) env.fs = env := rfl
  have both : ∀ f, OneShot env.fs env.mapX env.mapY f →
      ReadsTheSame env fs (.one f) ∧ ReadsTheSame (withFiles env fs) env.fs (.one f) := fun f ho =>
    ⟨readsTheSame_one hp ho, readsTheSame_one (env := withFiles env fs) hp.symm (hp.oneShot ho)⟩
  have time : ∀ f, OneShot env.fs env.mapX env.mapY f →
      (timeDomain env set (.one f) = .ok r ↔ timeDomain (withFiles env fs) set (.one f) = .ok r) := fun f ho =>
    ⟨timeDomain_files (both f ho).1, fun h => timeDomain_files (env := withFiles env fs) (fs := env.fs) (both f ho).2 h⟩
  refine ⟨time, ?_, ?_⟩
  · intro f rest ho
    rcases rest with _ | ⟨g, rest⟩
    · exact time f ho
    · exact time f ho
  · intro names ho
    exact ⟨freqFiles_files fun f hf => (both f (ho f hf)).1,
      fun h => freqFiles_files (env := withFiles env fs) (fs := env.fs) (fun f hf => (both f (ho f hf)).2) h⟩

/-- The files of `slantFs` with the traces of some in reverse order. -/
def backwards (names : List String) : Fs := fun f => if f ∈ names then (slantFs f).map List.reverse else slantFs f

theorem backwards_same (names : List String) : SameTraces slantFs (backwards names) := by
  intro f
  unfold backwards
  rcases h : slantFs f with _ | ts
  · exact .inl ⟨rfl, by simp⟩
  · refine .inr ⟨ts, if f ∈ names then ts.reverse else ts, rfl, by split_ifs <;> rfl, ?_⟩
    split_ifs
    · exact (List.reverse_perm ts).symm
    · exact .rfl

theorem slant_oneShot (f : String) (h : f ∈ ["first", "three"]) : OneShot slantFs id id f := by
  intro ts hts
  refine ⟨"SEG2", ⟨-5, 0, 0⟩, fun t ht => ?_⟩
  have hf : f ∈ ["first", "second", "three"] := by
    simp only [List.mem_cons, List.not_mem_nil, or_false] at h ⊢
    tauto
  exact ⟨(slant_orderly f hf).formats ts hts t ht, (slant_orderly f hf).source ts hts t ht⟩

/-- The hypotheses of `C176_runs_partial` are met by the slant stack of the file "first", in which the traces are in another
order. -/
example : slantFs "first" ≠ backwards ["first"] "first" ∧ ∃ r, timeDomain slantShots slantSet (.one "first") = .ok r ∧
    timeDomain (withFiles slantShots (backwards ["first"])) slantSet (.one "first") = .ok r := by
  refine ⟨by decide +kernel, ?_⟩
  obtain ⟨r, h1, -⟩ := slant_time _ _ _ _ _ _ _ [[2, 2], [3 / 2, 5 / 2]] slant_first (by decide +kernel) (by decide +kernel)
  exact ⟨r, h1, ((C176_runs_partial slantShots _ (backwards_same ["first"]) slantSet r).1 "first"
    (slant_oneShot "first" (by simp))).1 h1⟩

/-- **C176** fails for additional files of a stack in the time domain.  The run over "first" and "three" returns; if the
traces of "three" are listed from far to near it is refused. -/
theorem C176_additional_file_fails :
    ∃ (env : Env) (fs : Fs) (set : Settings) (names : List String), SameTraces env.fs fs ∧
      (∀ f ∈ names, OneShot env.fs env.mapX env.mapY f) ∧ (∃ r, timeDomain env set (.many names) = .ok r) ∧
      timeDomain (withFiles env fs) set (.many names) = .error (.raised .valueError) := by
  obtain ⟨r, h1, -⟩ := slant_time _ _ _ _ _ _ _ [[17 / 4, 13 / 2], [27 / 4, 47 / 8]] slant_unequal (by decide +kernel)
    (by decide +kernel)
  refine ⟨slantShots, backwards ["three"], slantSet, ["first", "three"], backwards_same _, slant_oneShot, ⟨r, h1⟩, ?_⟩
  unfold timeDomain
  have : Workflow.fromFiles (withFiles slantShots (backwards ["three"])) (.many ["first", "three"]) =
      .error (.raised .valueError) := by decide +kernel
  rw [this]
  rfl

/-- The hypotheses of `C176_first_file` are met by the files "first" and "three" with the traces of "first" reversed. -/
example : ∃ a, Arr.fromFiles slantFs ["first", "three"] id id = .ok a ∧
    Arr.fromFiles (backwards ["first"]) ["first", "three"] id id = .ok a := by
  have h : Arr.fromFiles slantFs ["first", "three"] id id =
    .ok (slantRecord 4 [4, 5, 3 / 4, 7 / 4] [21 / 4, 1 / 4, 3 / 2, 2]) := by decide +kernel
  exact ⟨_, h, C176_first_file slantFs _ id id (backwards_same ["first"]) "first" ["three"] (by decide +kernel)
    (slant_oneShot "first" (by simp)) _ h⟩

end Verif.Props
