import Verif.Model.ConcurrentSave
import Verif.Props.Concurrent
import Verif.Props.Sessions

/-!
# C177: several programs save suites to one file
-/

namespace Verif.Props
open Verif

namespace Saving
open ConcurrentSave

/-- A document which holds, each once, members of some of the suites. -/
def Mixture (suites : List Suite) (d : Doc) : Prop :=
  d ≠ [] ∧ (d.map Prod.fst).Nodup ∧ ∀ e ∈ d, ∃ s ∈ suites, ∃ p ∈ s.peaks, e = (p.identifier, p.toDataset)

/-- What holds at all times. -/
structure Fair (old : Option Doc) (suites : List Suite) (w : World) : Prop where
  file : (∃ d, w.file = some d ∧ Mixture suites d) ∨ (w.file = old ∧ ∀ g ∈ w.progs, g.append = false)
  held : ∀ g ∈ w.progs, ∀ d, g.holding = some d → Mixture suites d
  todo : ∀ g ∈ w.progs, ∀ p ∈ g.todo, ∃ s ∈ suites, p ∈ s.peaks

theorem Fair.step {old : Option Doc} {suites : List Suite} {w : World} (h : Fair old suites w) (i : ℕ) :
    Fair old suites (ConcurrentSave.step w i) := by
  obtain ⟨hf, hh, ht⟩ := h
  unfold ConcurrentSave.step
  rcases hi : w.progs[i]? with _ | g
  · exact ⟨hf, hh, ht⟩
  have hg := List.mem_of_getElem? hi
  obtain ⟨todo, append, holding, failed⟩ := g
  have hold : ∀ (q : Prog), (∀ d, q.holding = some d → Mixture suites d) →
      ∀ r ∈ w.progs.set i q, ∀ d, r.holding = some d → Mixture suites d := by
    intro q hq r hr
    rcases List.mem_or_eq_of_mem_set hr with h1 | h1
    · exact hh r h1
    · subst h1; exact hq
  have left : ∀ (q : Prog), (∀ p ∈ q.todo, p ∈ todo) →
      ∀ r ∈ w.progs.set i q, ∀ p ∈ r.todo, ∃ s ∈ suites, p ∈ s.peaks := by
    intro q hq r hr p hp
    rcases List.mem_or_eq_of_mem_set hr with h1 | h1
    · exact ht r h1 p hp
    · subst h1; exact ht _ hg p (hq p hp)
  have kept : ∀ (q : Prog), q.append = append → (∃ d, w.file = some d ∧ Mixture suites d) ∨
      (w.file = old ∧ ∀ r ∈ w.progs.set i q, r.append = false) := by
    intro q hq
    refine hf.imp id fun ⟨h1, h2⟩ => ⟨h1, fun r hr => ?_⟩
    rcases List.mem_or_eq_of_mem_set hr with h3 | h3
    · exact h2 r h3
    · subst h3; rw [hq]; exact h2 _ hg
  rcases failed with _ | e
  · rcases todo with _ | ⟨p, ps⟩
    · exact ⟨hf, hh, ht⟩
    rcases holding with _ | d
    · simp only
      rcases hp : prepare w.file append p with e | d
      · exact ⟨kept _ rfl, hold _ (fun d hd => by cases hd), left _ (fun _ h => h)⟩
      · refine ⟨kept _ rfl, hold _ (fun d' hd => ?_), left _ (fun _ h => h)⟩
        simp only [Option.some.injEq] at hd
        subst hd
        obtain ⟨s, hs, hps⟩ := ht _ hg p (by simp)
        unfold prepare at hp
        split_ifs at hp with ha
        · rcases hf with ⟨d0, h1, h2, h3, h4⟩ | ⟨-, h2⟩
          · rw [h1] at hp
            simp only at hp
            split_ifs at hp with hin
            cases hp
            refine ⟨by simp, ?_, ?_⟩
            · rw [List.map_append, List.nodup_append]
              refine ⟨h3, by simp, ?_⟩
              intro x hx y hy
              simp only [List.map_cons, List.map_nil, List.mem_singleton] at hy
              subst hy
              rintro rfl
              exact hin hx
            · intro e he
              rcases List.mem_append.1 he with he | he
              · exact h4 e he
              · rw [List.mem_singleton] at he
                exact ⟨s, hs, p, hps, he⟩
          · have := h2 _ hg
            simp only at this
            rw [this] at ha
            cases ha
        · cases hp
          refine ⟨by simp, by simp, ?_⟩
          intro e he
          rw [List.mem_singleton] at he
          exact ⟨s, hs, p, hps, he⟩
    · exact ⟨.inl ⟨d, rfl, hh _ hg d rfl⟩, hold _ (fun d hd => by cases hd), left _ (fun q hq => by simp [hq])⟩
  · exact ⟨hf, hh, ht⟩

theorem Fair.run {old : Option Doc} {suites : List Suite} {w : World} (h : Fair old suites w) (schedule : List ℕ) :
    Fair old suites (ConcurrentSave.run w schedule) := by
  induction schedule generalizing w with
  | nil => exact h
  | cons i s ih => exact ih (h.step i)

theorem fair_new (old : Option Doc) (suites : List Suite) : Fair old suites (World.new old suites) := by
  refine ⟨.inr ⟨rfl, ?_⟩, ?_, ?_⟩
  · intro g hg
    obtain ⟨s, -, rfl⟩ := List.mem_map.1 hg
    rfl
  · intro g hg d hd
    obtain ⟨s, -, rfl⟩ := List.mem_map.1 hg
    cases hd
  · intro g hg p hp
    obtain ⟨s, hs, rfl⟩ := List.mem_map.1 hg
    exact ⟨s, hs, hp⟩

theorem step_other (w : World) {i j : ℕ} (h : j ≠ i) : (ConcurrentSave.step w j).progs[i]? = w.progs[i]? := by
  unfold ConcurrentSave.step
  rcases w.progs[j]? with _ | ⟨todo, append, holding, failed⟩
  · rfl
  rcases failed with _ | e
  · rcases todo with _ | ⟨p, ps⟩
    · rfl
    · rcases holding with _ | d
      · simp only
        rcases prepare w.file append p with e | d <;> simp [h]
      · simp [h]
  · rfl

theorem run_other {i : ℕ} : ∀ (schedule : List ℕ) (w : World), i ∉ schedule →
    (ConcurrentSave.run w schedule).progs[i]? = w.progs[i]?
  | [], _, _ => rfl
  | j :: s, w, h => by
    rw [show ConcurrentSave.run w (j :: s) = ConcurrentSave.run (ConcurrentSave.step w j) s from rfl,
      run_other s _ (fun hs => h (by simp [hs])), step_other w (fun e => h (by simp [e]))]

/-- Reading and writing for one member. -/
theorem two_steps (w : World) (i : ℕ) (p : Peaks) (ps : List Peaks) (append : Bool)
    (hi : w.progs[i]? = some ⟨p :: ps, append, none, none⟩) :
    (ConcurrentSave.run w [i, i]).file = (Peaks.toJson w.file p append).1 ∧
    ((Peaks.toJson w.file p append).2 = .ok () →
      (ConcurrentSave.run w [i, i]).progs[i]? = some ⟨ps, true, none, none⟩) ∧
    (∀ e, (Peaks.toJson w.file p append).2 = .error e →
      (ConcurrentSave.run w [i, i]).progs[i]? = some ⟨p :: ps, append, none, some e⟩) := by
  obtain ⟨hl, -⟩ := List.getElem?_eq_some_iff.1 hi
  have key : ∀ d, prepare w.file append p = .ok d → ConcurrentSave.run w [i, i] =
      ⟨some d, (w.progs.set i ⟨p :: ps, append, some d, none⟩).set i ⟨ps, true, none, none⟩⟩ := by
    intro d hd
    show ConcurrentSave.step (ConcurrentSave.step w i) i = _
    have h1 : ConcurrentSave.step w i = { w with progs := w.progs.set i ⟨p :: ps, append, some d, none⟩ } := by
      unfold ConcurrentSave.step
      rw [hi]
      simp only [hd]
    rw [h1]
    unfold ConcurrentSave.step
    simp [hl]
  have key' : ∀ e, prepare w.file append p = .error e → ConcurrentSave.run w [i, i] =
      { w with progs := w.progs.set i ⟨p :: ps, append, none, some e⟩ } := by
    intro e he
    show ConcurrentSave.step (ConcurrentSave.step w i) i = _
    have h1 : ConcurrentSave.step w i = { w with progs := w.progs.set i ⟨p :: ps, append, none, some e⟩ } := by
      unfold ConcurrentSave.step
      rw [hi]
      simp only [he]
    rw [h1]
    unfold ConcurrentSave.step
    simp [hl]
  have good : ∀ d, prepare w.file append p = .ok d → Peaks.toJson w.file p append = (some d, .ok ()) →
      (ConcurrentSave.run w [i, i]).file = (Peaks.toJson w.file p append).1 ∧
      ((Peaks.toJson w.file p append).2 = .ok () →
        (ConcurrentSave.run w [i, i]).progs[i]? = some ⟨ps, true, none, none⟩) ∧
      (∀ e, (Peaks.toJson w.file p append).2 = .error e →
        (ConcurrentSave.run w [i, i]).progs[i]? = some ⟨p :: ps, append, none, some e⟩) := by
    intro d hd hj
    rw [key d hd, hj]
    refine ⟨rfl, fun _ => by simp [hl], fun e he => by cases he⟩
  have bad : ∀ e, prepare w.file append p = .error e → Peaks.toJson w.file p append = (w.file, .error e) →
      (ConcurrentSave.run w [i, i]).file = (Peaks.toJson w.file p append).1 ∧
      ((Peaks.toJson w.file p append).2 = .ok () →
        (ConcurrentSave.run w [i, i]).progs[i]? = some ⟨ps, true, none, none⟩) ∧
      (∀ e, (Peaks.toJson w.file p append).2 = .error e →
        (ConcurrentSave.run w [i, i]).progs[i]? = some ⟨p :: ps, append, none, some e⟩) := by
    intro e he hj
    rw [key' e he, hj]
    refine ⟨rfl, fun h => (by cases h), fun e' he' => ?_⟩
    cases he'
    simp [hl]
  rcases append with _ | _
  · exact good _ rfl rfl
  · rcases Option.eq_none_or_eq_some w.file with hw | ⟨doc, hw⟩
    · exact bad .fileNotFoundError (by simp [prepare, hw]) (by simp [Peaks.toJson, hw])
    · by_cases hin : p.identifier ∈ doc.map Prod.fst
      · exact bad .keyError (by unfold prepare; rw [hw]; simp only [if_pos hin, if_true])
          (by unfold Peaks.toJson; rw [hw]; simp only [if_pos hin, if_true])
      · exact good (doc ++ [(p.identifier, p.toDataset)]) (by unfold prepare; rw [hw]; simp only [if_neg hin, if_true])
          (by unfold Peaks.toJson; rw [hw]; simp only [if_neg hin, if_true])

/-- The steps of a program with `n` members. -/
def steps (i n : ℕ) : List ℕ := (List.replicate n [i, i]).flatten

theorem steps_succ (i n : ℕ) : steps i (n + 1) = [i, i] ++ steps i n := by
  simp [steps, List.replicate_succ]

theorem run_append (w : World) (s t : List ℕ) :
    ConcurrentSave.run w (s ++ t) = ConcurrentSave.run (ConcurrentSave.run w s) t := List.foldl_append

theorem rest_saved (i : ℕ) : ∀ (ps qs : List Peaks) (w : World), ((qs ++ ps).map Peaks.identifier).Nodup →
    w.file = some (docOf qs) → w.progs[i]? = some ⟨ps, true, none, none⟩ →
    (ConcurrentSave.run w (steps i ps.length)).file = some (docOf (qs ++ ps)) ∧
    (ConcurrentSave.run w (steps i ps.length)).progs[i]? = some ⟨[], true, none, none⟩
  | [], qs, w, _, hf, hi => by
    simpa [steps, ConcurrentSave.run] using ⟨hf, hi⟩
  | p :: ps, qs, w, hn, hf, hi => by
    rw [List.length_cons, steps_succ, run_append]
    have hin : p.identifier ∉ (docOf qs).map Prod.fst := by
      have : (docOf qs).map Prod.fst = qs.map Peaks.identifier := by simp [docOf]
      rw [this]
      rw [List.map_append, List.nodup_append] at hn
      intro h
      exact hn.2.2 _ h _ (by simp) rfl
    have hj : Peaks.toJson w.file p true = (some (docOf qs ++ [(p.identifier, p.toDataset)]), .ok ()) := by
      unfold Peaks.toJson
      rw [hf]
      simp only [if_neg hin, if_true]
    obtain ⟨h1, h2, -⟩ := two_steps w i p ps true hi
    rw [hj] at h1 h2
    have := rest_saved i ps (qs ++ [p]) (ConcurrentSave.run w [i, i]) (by simpa using hn)
      (by rw [h1]; simp [docOf]) (h2 rfl)
    simpa using this

end Saving

open Saving ConcurrentSave in
/-- **C177** (partial: the entries).  Whatever the interleaving, the file is the one at the start until a program writes, and
from then on it holds members of the suites, each in full and once: no entry of the old file, and nothing which cannot be
read. -/
theorem C177_entries_partial (old : Option Doc) (suites : List Suite) (schedule : List ℕ) :
    (ConcurrentSave.run (World.new old suites) schedule).file = old ∨
    ∃ d, (ConcurrentSave.run (World.new old suites) schedule).file = some d ∧ Mixture suites d :=
  (((fair_new old suites).run schedule).file).symm.imp And.left id

open Saving ConcurrentSave in
/-- **C177** (partial: a save which is not interrupted).  If no other program makes a step between the first and the last step
of a program, then after its last step the file holds exactly its suite, whatever the others have done before. -/
theorem C177_uninterrupted_partial (old : Option Doc) (suites : List Suite) (before : List ℕ) (i : ℕ) (s : Suite)
    (hs : suites[i]? = some s) (hok : SuiteOk s) (hne : s.peaks ≠ []) (hi : i ∉ before) :
    (ConcurrentSave.run (World.new old suites) (before ++ steps i s.peaks.length)).file =
      some (s.peaks.map fun p => (p.identifier, p.toDataset)) ∧
    (ConcurrentSave.run (World.new old suites) (before ++ steps i s.peaks.length)).progs[i]? =
      some ⟨[], true, none, none⟩ := by
  rw [Saving.run_append]
  have hp : (ConcurrentSave.run (World.new old suites) before).progs[i]? = some (Prog.new s) := by
    rw [run_other before _ hi]
    simp [World.new, hs]
  generalize ConcurrentSave.run (World.new old suites) before = w at hp
  obtain ⟨peaks, ids⟩ := s
  rcases peaks with _ | ⟨p, ps⟩
  · exact absurd rfl hne
  obtain ⟨h1, h2, -⟩ := two_steps w i p ps false hp
  have hj : Peaks.toJson w.file p false = (some [(p.identifier, p.toDataset)], .ok ()) := rfl
  rw [hj] at h1 h2
  have hn := hok.2
  rw [hok.1] at hn
  have := rest_saved i ps [p] (ConcurrentSave.run w [i, i]) hn (by rw [h1]; rfl) (h2 rfl)
  rw [List.length_cons, steps_succ, Saving.run_append]
  exact this

open Saving ConcurrentSave in
/-- **C177** (agreement).  A program which saves alone leaves what `PeaksSuite.to_json` leaves. -/
theorem C177_agrees_with_save (old : Option Doc) (s : Suite) (hok : SuiteOk s) (hne : s.peaks ≠ []) :
    (ConcurrentSave.run (World.new old [s]) (steps 0 s.peaks.length)).file = (Suite.toJson old s).1 := by
  rw [suite_toJson s hok hne old]
  exact (C177_uninterrupted_partial old [s] [] 0 s rfl hok hne (by simp)).1

open Saving ConcurrentSave in
/-- **C177** fails for interleaved saves.  For any two suites of two members with different identifiers there is an
interleaving after which both programs have ended without an error and the file holds neither suite but three of the four
members; if the two suites have the same identifiers, one of the programs ends with `KeyError`. -/
theorem C177_mixed_fails (old : Option Doc) (a1 a2 b1 b2 : Peaks) :
    ((([a1, a2, b1, b2].map Peaks.identifier).Nodup →
      ∃ schedule, ∃ w : World, w = ConcurrentSave.run
          (World.new old [⟨[a1, a2], [a1, a2].map Peaks.identifier⟩, ⟨[b1, b2], [b1, b2].map Peaks.identifier⟩]) schedule ∧
        w.progs = [⟨[], true, none, none⟩, ⟨[], true, none, none⟩] ∧
        w.file = some ([b1, a2, b2].map fun p => (p.identifier, p.toDataset)))) ∧
    (a1.identifier = b1.identifier → a2.identifier = b2.identifier → a1.identifier ≠ a2.identifier →
      ∃ schedule, ∃ w : World, w = ConcurrentSave.run
          (World.new old [⟨[a1, a2], [a1, a2].map Peaks.identifier⟩, ⟨[b1, b2], [b1, b2].map Peaks.identifier⟩]) schedule ∧
        w.progs.map Prog.failed = [none, some .keyError]) := by
  refine ⟨fun hn => ⟨[0, 0, 1, 1, 0, 0, 1, 1], _, rfl, ?_⟩, fun h1 h2 h3 => ⟨[0, 0, 1, 1, 0, 0, 1, 1], _, rfl, ?_⟩⟩
  · simp only [List.map_cons, List.map_nil, List.nodup_cons, List.mem_cons, List.not_mem_nil, or_false, not_or] at hn
    obtain ⟨⟨n1, n2, n3⟩, ⟨n4, n5⟩, n6, -⟩ := hn
    simp [ConcurrentSave.run, ConcurrentSave.step, prepare, World.new, Prog.new, n4, Ne.symm n6, Ne.symm n5]
  · simp [ConcurrentSave.run, ConcurrentSave.step, prepare, World.new, Prog.new, ← h1, ← h2, Ne.symm h3]

open Saving ConcurrentSave in
/-- The hypotheses are met by two suites of two members, of which the first is being saved when the second starts: the
second is in the file after its last step, and the mixture is another document. -/
example : SuiteOk ⟨[exPeaks, exPeaks2], ["a", "b"]⟩ ∧
    SuiteOk ⟨[{ exPeaks with identifier := "c" }, { exPeaks with identifier := "d" }], ["c", "d"]⟩ ∧
    ((ConcurrentSave.run (World.new (some []) [⟨[exPeaks, exPeaks2], ["a", "b"]⟩,
      ⟨[{ exPeaks with identifier := "c" }, { exPeaks with identifier := "d" }], ["c", "d"]⟩])
      ([0, 0, 0] ++ steps 1 2)).file.map fun d => d.map Prod.fst) = some ["c", "d"] ∧
    ((ConcurrentSave.run (World.new (some []) [⟨[exPeaks, exPeaks2], ["a", "b"]⟩,
      ⟨[{ exPeaks with identifier := "c" }, { exPeaks with identifier := "d" }], ["c", "d"]⟩])
      [0, 0, 1, 1, 0, 0, 1, 1]).file.map fun d => d.map Prod.fst) = some ["c", "b", "d"] := by
  refine ⟨⟨by decide +kernel, by decide +kernel⟩, ⟨by decide +kernel, by decide +kernel⟩, by decide +kernel, by decide +kernel⟩

end Verif.Props
