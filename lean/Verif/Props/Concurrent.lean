import Verif.Model.Concurrent
import Verif.Props.Suite

/-!
# C145: several programs append to one file
-/

namespace Verif.Props
open Verif Concurrent

/-- The entry a program appends. -/
def entryOf (p : Peaks) : String × Dataset := (p.identifier, p.toDataset)

theorem programs_cons (w : World) (i : ℕ) (s : List ℕ) : run w (i :: s) = run (step w i) s := rfl

theorem programs_append (w : World) (s t : List ℕ) : run w (s ++ t) = run (run w s) t := List.foldl_append

/-- What holds at all times: the file extends the one at the start, and so does every document about to be written, which
also has the entry of its program. -/
structure Extends (doc : Doc) (w : World) : Prop where
  file : ∃ d, w.file = some d ∧ doc <+: d
  held : ∀ p ∈ w.progs, ∀ d, p.stage = .holding d → doc <+: d ∧ entryOf p.peaks ∈ d

theorem Extends.step {doc : Doc} {w : World} (h : Extends doc w) (i : ℕ) : Extends doc (Concurrent.step w i) := by
  obtain ⟨⟨d, hd, hp⟩, hh⟩ := h
  unfold Concurrent.step
  rcases hi : w.progs[i]? with _ | p
  · exact ⟨⟨d, hd, hp⟩, hh⟩
  have hset : ∀ (q : Prog), (∀ e, q.stage = .holding e → doc <+: e ∧ entryOf q.peaks ∈ e) →
      ∀ r ∈ w.progs.set i q, ∀ e, r.stage = .holding e → doc <+: e ∧ entryOf r.peaks ∈ e := by
    intro q hq r hr e he
    rcases List.mem_or_eq_of_mem_set hr with h1 | h1
    · exact hh r h1 e he
    · subst h1; exact hq e he
  simp only
  rcases hs : p.stage with _ | e | r
  · simp only [hd]
    split_ifs
    · exact ⟨⟨d, rfl, hp⟩, hset _ (fun e he => by cases he)⟩
    · refine ⟨⟨d, rfl, hp⟩, hset _ (fun e he => ?_)⟩
      simp only [Stage.holding.injEq] at he
      subst he
      exact ⟨hp.trans (List.prefix_append _ _), by simp [entryOf]⟩
  · have := hh p (List.mem_of_getElem? hi) e hs
    exact ⟨⟨e, rfl, this.1⟩, hset _ (fun e he => by cases he)⟩
  · exact ⟨⟨d, hd, hp⟩, hh⟩

theorem Extends.run {doc : Doc} {w : World} (h : Extends doc w) (s : List ℕ) : Extends doc (Concurrent.run w s) := by
  induction s generalizing w with
  | nil => exact h
  | cons i s ih => exact ih (h.step i)

theorem extends_new (doc : Doc) (ps : List Peaks) : Extends doc (World.new (some doc) ps) := by
  refine ⟨⟨doc, rfl, List.prefix_refl _⟩, ?_⟩
  intro p hp d hd
  obtain ⟨q, -, rfl⟩ := List.mem_map.1 hp
  cases hd

/-- **C145** (partial): whatever the programs do, the entries which were in the file before stay, in their order. -/
theorem C145_old_entries_stay_partial (doc : Doc) (ps : List Peaks) (schedule : List ℕ) :
    ∃ d, (run (World.new (some doc) ps) schedule).file = some d ∧ doc <+: d :=
  ((extends_new doc ps).run schedule).file

/-- The peaks of the programs stay the same. -/
theorem step_peaks (w : World) (i : ℕ) : (step w i).progs.map Prog.peaks = w.progs.map Prog.peaks := by
  have hset : ∀ (p : Prog) (s : Stage), w.progs[i]? = some p →
      (w.progs.set i ⟨p.peaks, s⟩).map Prog.peaks = w.progs.map Prog.peaks := by
    intro p s hp
    rw [List.map_set]
    apply List.ext_getElem?
    intro j
    rw [List.getElem?_set]
    split_ifs with h1 h2
    · subst h1; simp [hp]
    · subst h1; simp at h2; simp [h2]
    · rfl
  unfold step
  rcases hi : w.progs[i]? with _ | p
  · rfl
  simp only
  rcases p.stage with _ | e | r
  · rcases w.file with _ | d
    · exact hset p _ hi
    · simp only
      split_ifs
      · exact hset p _ hi
      · exact hset p _ hi
  · exact hset p _ hi
  · rfl

/-- An entry which is in the file and in every document about to be written stays. -/
theorem entry_stays {e : String × Dataset} (s : List ℕ) : ∀ (w : World), (∃ d, w.file = some d ∧ e ∈ d) →
    (∀ p ∈ w.progs, ∀ d, p.stage = .holding d → e ∈ d) → ∃ d, (run w s).file = some d ∧ e ∈ d := by
  induction s with
  | nil => exact fun w h _ => h
  | cons i s ih =>
    intro w hf hh
    rw [programs_cons]
    obtain ⟨d, hd, hed⟩ := hf
    have hset : ∀ (q : Prog), (∀ d, q.stage = .holding d → e ∈ d) →
        ∀ r ∈ w.progs.set i q, ∀ d, r.stage = .holding d → e ∈ d := by
      intro q hq r hr d' hd'
      rcases List.mem_or_eq_of_mem_set hr with h1 | h1
      · exact hh r h1 d' hd'
      · subst h1; exact hq d' hd'
    refine ih _ ?_ ?_ <;> unfold step <;> rcases hi : w.progs[i]? with _ | p <;> simp only
    · exact ⟨d, hd, hed⟩
    · rcases hs : p.stage with _ | d' | r
      · simp only [hd]
        split_ifs
        · exact ⟨d, rfl, hed⟩
        · exact ⟨d, rfl, hed⟩
      · exact ⟨d', rfl, hh p (List.mem_of_getElem? hi) d' hs⟩
      · exact ⟨d, hd, hed⟩
    · exact hh
    · rcases hs : p.stage with _ | d' | r
      · simp only [hd]
        split_ifs
        · exact hset _ fun d h => by cases h
        · refine hset _ fun d' h => ?_
          simp only [Stage.holding.injEq] at h
          subst h
          exact List.mem_append_left _ hed
      · exact hset _ fun d h => by cases h
      · exact hh

/-- **C145** (partial): if no other program has read the file and not yet written it at the moment a program writes, then
the entry of this program is in the file from then on, whatever the programs do. -/
theorem C145_kept_partial (doc : Doc) (ps : List Peaks) (before after : List ℕ) (i : ℕ) (p : Prog) (d : Doc)
    (hp : (run (World.new (some doc) ps) before).progs[i]? = some p) (hd : p.stage = .holding d)
    (hothers : ∀ (j : ℕ) (q : Prog), j ≠ i → (run (World.new (some doc) ps) before).progs[j]? = some q →
      ∀ d', q.stage ≠ .holding d') :
    ∃ d', (run (World.new (some doc) ps) (before ++ i :: after)).file = some d' ∧
      (p.peaks.identifier, p.peaks.toDataset) ∈ d' := by
  have hx := (extends_new doc ps).run before
  rw [programs_append, programs_cons]
  generalize run (World.new (some doc) ps) before = w at *
  have he : entryOf p.peaks ∈ d := (hx.held p (List.mem_of_getElem? hp) d hd).2
  have hstep : step w i = ⟨some d, w.progs.set i ⟨p.peaks, .done (.ok ())⟩⟩ := by
    unfold step
    rw [hp]
    simp only [hd]
  rw [hstep]
  refine entry_stays after _ ⟨d, rfl, he⟩ ?_
  intro q hq d' hd'
  obtain ⟨j, hj⟩ := List.mem_iff_getElem?.1 hq
  simp only [List.getElem?_set] at hj
  split_ifs at hj with h1 h2
  · cases hj; cases hd'
  · exact absurd hd' (hothers j q (fun h => h1 h.symm) hj d')

/-- Two steps of one program, with no step of another between, are one call of `to_json`. -/
theorem C145_agrees_with_append (w : World) (i : ℕ) (p : Prog) (hp : w.progs[i]? = some p) (hs : p.stage = .start) :
    (run w [i, i]).file = (Peaks.toJson w.file p.peaks true).1 ∧
    ((run w [i, i]).progs[i]?).map Prog.stage = some (.done (Peaks.toJson w.file p.peaks true).2) ∧
    ∀ j, j ≠ i → (run w [i, i]).progs[j]? = w.progs[j]? := by
  have hi : i < w.progs.length := by
    by_contra h
    rw [List.getElem?_eq_none (by omega)] at hp
    cases hp
  have hne : ∀ (a b : Prog) (j : ℕ), j ≠ i → ((w.progs.set i a).set i b)[j]? = w.progs[j]? := by
    intro a b j hj
    simp [Ne.symm hj]
  have hne' : ∀ (a : Prog) (j : ℕ), j ≠ i → (w.progs.set i a)[j]? = w.progs[j]? := by
    intro a j hj
    simp [Ne.symm hj]
  have hget : ∀ a : Prog, (w.progs.set i a)[i]? = some a := fun a => by simp [hi]
  have hrun : run w [i, i] = step (step w i) i := rfl
  rw [hrun]
  rcases hf : w.file with _ | doc
  · have h1 : step w i = { w with progs := w.progs.set i ⟨p.peaks, .done (.error .fileNotFoundError)⟩ } := by
      unfold step; rw [hp]; simp only [hs, hf]
    have h2 : step (step w i) i = step w i := by
      rw [h1]; conv_lhs => unfold step
      simp only [hget]
    rw [h2, h1]
    exact ⟨hf, by simp [hget, Peaks.toJson], fun j hj => hne' _ j hj⟩
  · by_cases hm : p.peaks.identifier ∈ doc.map Prod.fst
    · have h1 : step w i = { w with progs := w.progs.set i ⟨p.peaks, .done (.error .keyError)⟩ } := by
        unfold step; rw [hp]; simp only [hs, hf]; rw [if_pos hm]
      have h2 : step (step w i) i = step w i := by
        rw [h1]; conv_lhs => unfold step
        simp only [hget]
      rw [h2, h1]
      have ht : Peaks.toJson (some doc) p.peaks true = (some doc, .error .keyError) := by
        unfold Peaks.toJson; simp only [if_true]; rw [if_pos hm]
      rw [ht]
      exact ⟨hf, by simp [hget], fun j hj => hne' _ j hj⟩
    · have h1 : step w i = { w with progs := w.progs.set i ⟨p.peaks, .holding (doc ++ [(p.peaks.identifier, p.peaks.toDataset)])⟩ } := by
        unfold step; rw [hp]; simp only [hs, hf]; rw [if_neg hm]
      have h2 : step (step w i) i = ⟨some (doc ++ [(p.peaks.identifier, p.peaks.toDataset)]),
          (w.progs.set i ⟨p.peaks, .holding (doc ++ [(p.peaks.identifier, p.peaks.toDataset)])⟩).set i
            ⟨p.peaks, .done (.ok ())⟩⟩ := by
        rw [h1]; conv_lhs => unfold step
        simp only [hget]
      rw [h2]
      have ht : Peaks.toJson (some doc) p.peaks true = (some (doc ++ [(p.peaks.identifier, p.peaks.toDataset)]), .ok ()) := by
        unfold Peaks.toJson; simp only [if_true]; rw [if_neg hm]
      rw [ht]
      exact ⟨rfl, by simp [hi], fun j hj => hne _ _ j hj⟩

/-- **C145** (partial): if the programs run one after another, in any order, all entries are in the file, in this order. -/
theorem C145_one_after_another_partial (doc : Doc) (ps : List Peaks) (order : List ℕ) (hnd : order.Nodup)
    (chosen : List Peaks) (hc : List.Forall₂ (fun i p => ps[i]? = some p) order chosen)
    (hids : (doc.map Prod.fst ++ chosen.map Peaks.identifier).Nodup) :
    (run (World.new (some doc) ps) (order.flatMap fun i => [i, i])).file =
      some (doc ++ chosen.map fun p => (p.identifier, p.toDataset)) := by
  have key : ∀ (order : List ℕ) (chosen : List Peaks), List.Forall₂ (fun i p => ps[i]? = some p) order chosen →
      order.Nodup → ∀ (w : World) (doc : Doc), w.file = some doc →
      (doc.map Prod.fst ++ chosen.map Peaks.identifier).Nodup →
      (∀ i ∈ order, ∀ p, ps[i]? = some p → w.progs[i]? = some ⟨p, .start⟩) →
      (run w (order.flatMap fun i => [i, i])).file = some (doc ++ chosen.map fun p => (p.identifier, p.toDataset)) := by
    intro order chosen hc
    induction hc with
    | nil => intro _ w doc hf _ _; simpa [run] using hf
    | cons h hc ih =>
      rename_i i p order chosen
      intro hnd w doc hf hids hw
      rw [List.nodup_cons] at hnd
      have hp := hw i (by simp) p h
      obtain ⟨e1, -, e3⟩ := C145_agrees_with_append w i _ hp rfl
      have hnot : p.identifier ∉ doc.map Prod.fst := by
        intro hmem
        exact (List.disjoint_of_nodup_append hids) hmem (by simp)
      have ht : Peaks.toJson w.file p true = (some (doc ++ [(p.identifier, p.toDataset)]), .ok ()) := by
        unfold Peaks.toJson
        simp only [if_true, hf]
        rw [if_neg hnot]
      rw [List.flatMap_cons, programs_append]
      rw [ih hnd.2 (run w [i, i]) (doc ++ [(p.identifier, p.toDataset)]) (by rw [e1, ht]) (by
        simpa using hids) (by
        intro j hj q hq
        rw [e3 j (fun hji => hnd.1 (hji ▸ hj))]
        exact hw j (List.mem_cons_of_mem _ hj) q hq)]
      simp
  refine key order chosen hc hnd _ doc rfl hids ?_
  intro i _ p hp
  simp [World.new, hp]

/-- **C145** fails: for any two `Peaks` with different identifiers, and any file with neither, there is an interleaving in
which both programs end without an error and the file has only one of the entries. -/
theorem C145_lost_entry_fails (doc : Doc) (p q : Peaks) (hp : p.identifier ∉ doc.map Prod.fst)
    (hq : q.identifier ∉ doc.map Prod.fst) (hpq : p.identifier ≠ q.identifier) :
    ∃ schedule, (run (World.new (some doc) [p, q]) schedule).file = some (doc ++ [(q.identifier, q.toDataset)]) ∧
      (run (World.new (some doc) [p, q]) schedule).progs.map Prog.stage = [.done (.ok ()), .done (.ok ())] ∧
      (p.identifier, p.toDataset) ∉ doc ++ [(q.identifier, q.toDataset)] := by
  refine ⟨[0, 1, 0, 1], ?_, ?_, ?_⟩
  · simp [run, step, World.new, hp, hq]
  · simp [run, step, World.new, hp, hq]
  · intro h
    rcases List.mem_append.1 h with h | h
    · exact hp (List.mem_map_of_mem (f := Prod.fst) h)
    · simp only [List.mem_singleton, Prod.mk.injEq] at h
      exact hpq h.1

/-- Two programs, one after the other: the conditions are met. -/
example : (run (World.new (some []) [exPeaks, { exPeaks with identifier := "b" }]) [1, 1, 0, 0]).file.map (List.map Prod.fst) =
    some ["b", "a"] := by decide +kernel

example : ∀ (j : ℕ) (q : Prog), j ≠ 0 → (run (World.new (some []) [exPeaks, { exPeaks with identifier := "b" }]) [0]).progs[j]? = some q →
    ∀ d', q.stage ≠ .holding d' := by
  intro j q hj hq d' hd
  rcases j with _ | _ | j
  · exact hj rfl
  · simp [run, step, World.new] at hq
    subst hq
    cases hd
  · simp [run, step, World.new] at hq

end Verif.Props
