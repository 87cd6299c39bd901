import Verif.Props.ArrayOffsets
import Verif.Props.ArrayStructure

/-!
# C184: the receivers may be selected at any time
-/

namespace Verif.Props
open Verif Spec Arr

namespace OffsetsLast

/-- An operation which does the same to every sensor of an array as to the sensors of a smaller array, and moves none. -/
def EachAlone (op : Arr → Outcome Arr) (a : Arr) : Prop :=
  ∃ g : Sensor → Sensor, (∀ s, (g s).x = s.x) ∧
    ∀ l : List Sensor, l ≠ [] → l ⊆ a.sensors → op ⟨l, a.source⟩ = (⟨l.map g, a.source⟩, .ok ())

theorem forSensors_good {f : ATS → Outcome ATS} : ∀ {l l' : List Sensor}, forSensors f l = (l', .ok ()) →
    ∀ s ∈ l, (f s.ts).2 = .ok ()
  | [], _, _ => by simp
  | s :: l, l', h => by
    unfold forSensors at h
    rcases hf : f s.ts with ⟨r, e | ⟨⟨⟩⟩⟩ <;> simp only [hf] at h
    · simp at h
    rcases hr : forSensors f l with ⟨l1, o⟩
    simp only [hr, Prod.mk.injEq] at h
    obtain ⟨-, rfl⟩ := h
    intro t ht
    simp only [List.mem_cons] at ht
    rcases ht with rfl | ht
    · rw [hf]
    · exact forSensors_good hr t ht

theorem forSensors_each {f : ATS → Outcome ATS} {a : Arr} {l' : List Sensor} (h : forSensors f a.sensors = (l', .ok ())) :
    EachAlone (fun a => match forSensors f a.sensors with | (ss, o) => ({ a with sensors := ss }, o)) a := by
  refine ⟨fun s => { s with ts := (f s.ts).1 }, fun _ => rfl, fun l _ hl => ?_⟩
  show (match forSensors f l with | (ss, o) => ((⟨ss, a.source⟩ : Arr), o)) = _
  rw [forSensors_ok f l fun s hs => forSensors_good h s (hl hs)]

/-- The sample at which a line crosses a position. -/
def edge (line : Option Line) (dt nd : ℚ) (dflt : ℤ) (p : ℚ) : ℤ :=
  match line with
  | some l => pyInt ((l.t1 + (l.t2 - l.t1) / (l.x2 - l.x1) * (p - l.x1)) / dt + nd)
  | none => dflt

/-- What `mute` does to one sensor. -/
def muted (w : ℕ → List ℚ) (n : ℕ) (f : ℚ → ℤ × ℤ) (s : Sensor) : Sensor :=
  match assignSlice n (f s.x).1 (f s.x).2 (w ((f s.x).2 - (f s.x).1).toNat) with
  | .ok v => { s with ts := { s.ts with amp := List.zipWith (· * ·) s.ts.amp v } }
  | .error _ => s

def Good (w : ℕ → List ℚ) (n : ℕ) (f : ℚ → ℤ × ℤ) (s : Sensor) : Prop :=
  ¬ (f s.x).2 - (f s.x).1 < 0 ∧ ∃ v, assignSlice n (f s.x).1 (f s.x).2 (w ((f s.x).2 - (f s.x).1).toNat) = .ok v

theorem muteLoop_good {w : ℕ → List ℚ} {n : ℕ} {f : ℚ → ℤ × ℤ} : ∀ {l l' : List Sensor},
    muteLoop w n l (l.map fun s => f s.x) = (l', .ok ()) → ∀ s ∈ l, Good w n f s
  | [], _, _ => by simp
  | s :: l, l', h => by
    simp only [List.map_cons] at h
    unfold muteLoop at h
    by_cases c : (f s.x).2 - (f s.x).1 < 0
    · simp [c] at h
    simp only [c, if_false] at h
    rcases hv : assignSlice n (f s.x).1 (f s.x).2 (w ((f s.x).2 - (f s.x).1).toNat) with e | v <;> simp only [hv] at h
    · simp at h
    rcases hr : muteLoop w n l (l.map fun s => f s.x) with ⟨l1, o⟩
    simp only [hr, Prod.mk.injEq] at h
    obtain ⟨-, rfl⟩ := h
    intro t ht
    simp only [List.mem_cons] at ht
    rcases ht with rfl | ht
    · exact ⟨c, v, hv⟩
    · exact muteLoop_good hr t ht

theorem muteLoop_map {w : ℕ → List ℚ} {n : ℕ} {f : ℚ → ℤ × ℤ} : ∀ {l : List Sensor}, (∀ s ∈ l, Good w n f s) →
    muteLoop w n l (l.map fun s => f s.x) = (l.map (muted w n f), .ok ())
  | [], _ => rfl
  | s :: l, h => by
    obtain ⟨c, v, hv⟩ := h s (by simp)
    simp only [List.map_cons]
    unfold muteLoop
    have ih := muteLoop_map (w := w) (n := n) (f := f) (l := l) fun t ht => h t (by simp [ht])
    simp only [c, if_false, hv, ih]
    simp only [muted, hv]

theorem mute_eq {w : ℕ → List ℚ} {l : List Sensor} {src : Source} {start stop : Option Line} {dt delay : ℚ} {n : ℕ}
    (hl : l ≠ []) (hm : ∀ s ∈ l, s.ts.dt = dt ∧ s.ts.delay = delay ∧ s.ts.nsamples = n) :
    Arr.mute w ⟨l, src⟩ start stop =
      if (∃ x, start = some x ∧ x.x2 - x.x1 = 0) ∨ (∃ x, stop = some x ∧ x.x2 - x.x1 = 0) then
        (⟨l, src⟩, .error .zeroDivisionError)
      else match muteLoop w n l (l.map fun s =>
        (edge start dt |delay / dt| 0 s.x, edge stop dt |delay / dt| ((n : ℤ) - 1) s.x)) with
        | (ss, o) => (⟨ss, src⟩, o) := by
  obtain ⟨s0, rest, rfl⟩ := List.exists_cons_of_ne_nil hl
  obtain ⟨h1, h2, h3⟩ := hm s0 (by simp)
  have hz : ∀ f g : ℚ → ℤ, ((s0 :: rest).map fun s => f s.x).zip ((s0 :: rest).map fun s => g s.x) =
      (s0 :: rest).map fun s => (f s.x, g s.x) := by
    intro f g
    generalize s0 :: rest = m
    induction m with
    | nil => rfl
    | cons s m ih => simp [ih]
  have hp : ∀ f : ℚ → ℤ, (Arr.position ⟨s0 :: rest, src⟩).map f = (s0 :: rest).map fun s => f s.x := by
    intro f; simp [Arr.position]
  unfold Arr.mute
  simp only [h1, h2, h3]
  rcases start with _ | a <;> rcases stop with _ | b
  · simp only [edge, reduceCtorEq, false_and, exists_false, or_self, if_false, hp]
    rw [hz (fun _ => 0) fun _ => (n : ℤ) - 1]
  · by_cases c : b.x2 - b.x1 = 0
    · simp [lineIndices, c]
    · simp only [lineIndices, c, if_false, edge, reduceCtorEq, false_and, exists_false, false_or, Option.some.injEq,
        exists_eq_left', hp]
      rw [hz (fun _ => 0) fun p => pyInt ((b.t1 + (b.t2 - b.t1) / (b.x2 - b.x1) * (p - b.x1)) / dt + |delay / dt|)]
  · by_cases c : a.x2 - a.x1 = 0
    · simp [lineIndices, c]
    · simp only [lineIndices, c, if_false, edge, reduceCtorEq, false_and, exists_false, or_false, Option.some.injEq,
        exists_eq_left', hp]
      rw [hz (fun p => pyInt ((a.t1 + (a.t2 - a.t1) / (a.x2 - a.x1) * (p - a.x1)) / dt + |delay / dt|))
        fun _ => (n : ℤ) - 1]
  · by_cases c : a.x2 - a.x1 = 0
    · simp [lineIndices, c]
    by_cases d : b.x2 - b.x1 = 0
    · simp [lineIndices, c, d]
    · simp only [lineIndices, c, d, if_false, edge, or_self, Option.some.injEq, exists_eq_left', hp]
      rw [hz (fun p => pyInt ((a.t1 + (a.t2 - a.t1) / (a.x2 - a.x1) * (p - a.x1)) / dt + |delay / dt|))
        fun p => pyInt ((b.t1 + (b.t2 - b.t1) / (b.x2 - b.x1) * (p - b.x1)) / dt + |delay / dt|)]

theorem mute_each {w : ℕ → List ℚ} {a a' : Arr} (hc : Consistent a) {start stop : Option Line}
    (h : a.mute w start stop = (a', .ok ())) : EachAlone (fun a => a.mute w start stop) a := by
  obtain ⟨l, src⟩ := a
  obtain ⟨s0, hs0⟩ := List.exists_mem_of_ne_nil l hc.1
  have hm : ∀ m : List Sensor, m ⊆ l → ∀ s ∈ m, s.ts.dt = s0.ts.dt ∧ s.ts.delay = s0.ts.delay ∧
      s.ts.nsamples = s0.ts.nsamples := fun m hm s hs => by
    obtain ⟨k1, -, k2, k3⟩ := hc.2.2 s (hm hs) s0 hs0
    exact ⟨k1, k2, k3⟩
  rw [mute_eq hc.1 (hm l fun _ h => h)] at h
  by_cases c : (∃ x, start = some x ∧ x.x2 - x.x1 = 0) ∨ (∃ x, stop = some x ∧ x.x2 - x.x1 = 0)
  · rw [if_pos c] at h
    simp at h
  rw [if_neg c] at h
  generalize hf : (fun p : ℚ => (edge start s0.ts.dt |s0.ts.delay / s0.ts.dt| 0 p,
    edge stop s0.ts.dt |s0.ts.delay / s0.ts.dt| ((s0.ts.nsamples : ℤ) - 1) p)) = f
  have hf' : ∀ m : List Sensor, (m.map fun s => (edge start s0.ts.dt |s0.ts.delay / s0.ts.dt| 0 s.x,
      edge stop s0.ts.dt |s0.ts.delay / s0.ts.dt| ((s0.ts.nsamples : ℤ) - 1) s.x)) = m.map fun s => f s.x := by
    intro m; rw [← hf]
  rw [hf'] at h
  rcases hr : muteLoop w s0.ts.nsamples l (l.map fun s => f s.x) with ⟨l1, o⟩
  simp only [hr, Prod.mk.injEq] at h
  obtain ⟨-, rfl⟩ := h
  have hg := muteLoop_good hr
  refine ⟨muted w s0.ts.nsamples f, fun s => ?_, fun m hne hsub => ?_⟩
  · unfold muted
    split <;> rfl
  · show Arr.mute w ⟨m, src⟩ start stop = _
    rw [mute_eq hne (hm m hsub), if_neg c, hf', muteLoop_map fun s hs => hg s (hsub hs)]

theorem op_each {a a' : Arr} (hc : Consistent a) {op : ArrOp} (hop : ∀ mn mx, op ≠ .trimOffsets mn mx)
    (h : op.run a = (a', .ok ())) : EachAlone (fun a => op.run a) a := by
  cases op with
  | trim s e =>
    rcases hr : forSensors (fun r => r.trim s e) a.sensors with ⟨l, o⟩
    have h' : a.trim s e = (a', .ok ()) := h
    simp only [Arr.trim, hr, Prod.mk.injEq] at h'
    rw [h'.2] at hr
    exact forSensors_each hr
  | trimOffsets mn mx => exact absurd rfl (hop mn mx)
  | zeroPad df =>
    rcases hr : forSensors (fun r => r.zeroPad df) a.sensors with ⟨l, o⟩
    have h' : a.zeroPad df = (a', .ok ()) := h
    simp only [Arr.zeroPad, hr, Prod.mk.injEq] at h'
    rw [h'.2] at hr
    exact forSensors_each hr
  | mute w i j => exact mute_each hc h

theorem trimOffsets_map {l : List Sensor} {src : Source} {mn mx : ℚ} {g : Sensor → Sensor} (hg : ∀ s, (g s).x = s.x) {b : Arr}
    (h : Arr.trimOffsets ⟨l, src⟩ mn mx = (b, .ok ())) :
    Arr.trimOffsets ⟨l.map g, src⟩ mn mx = (⟨b.sensors.map g, src⟩, .ok ()) := by
  rw [trimOffsets_eq] at h ⊢
  simp only at h ⊢
  have e1 : ∀ s, offset src (g s) = offset src s := fun s => by simp [offset, hg]
  rw [List.takeWhile_map, List.filter_map]
  have e2 : ((fun s => decide (offset src s ≤ mx)) ∘ g) = fun s => decide (offset src s ≤ mx) := by
    funext s; simp [e1]
  have e3 : ((fun s => decide (InRange src mn mx s)) ∘ g) = fun s => decide (InRange src mn mx s) := by
    funext s; simp only [Function.comp_apply, InRange, e1]
  rw [e2, e3]
  generalize List.filter (fun s => decide (InRange src mn mx s)) (l.takeWhile fun s => decide (offset src s ≤ mx)) = m at h ⊢
  rcases m with _ | ⟨k, ks⟩
  · simp at h
  · simp only [Prod.mk.injEq, and_true] at h
    rw [← h]
    rfl

end OffsetsLast

open OffsetsLast in
/-- **C184**.  Whatever sequence of `trim`, `zero_pad` and `mute` with given lines is done, if it returns and the receivers
can be selected by offset, then the receivers may as well be selected before: the same sequence returns on the receivers
selected, with the same array. -/
theorem C184_select_first (a a' b : Arr) (hc : Consistent a) (ops : List ArrOp) (hops : ∀ op ∈ ops, ∀ mn mx, op ≠ .trimOffsets mn mx)
    (mn mx : ℚ) (hb : a.trimOffsets mn mx = (b, .ok ())) (h : runCalls ArrOp.run a ops = (a', .ok ())) :
    ∃ b', runCalls ArrOp.run b ops = (b', .ok ()) ∧ a'.trimOffsets mn mx = (b', .ok ()) := by
  induction ops generalizing a b with
  | nil =>
    simp only [runCalls, Prod.mk.injEq, and_true] at h
    exact ⟨b, rfl, by rw [← h, hb]⟩
  | cons op ops ih =>
    rcases h1 : op.run a with ⟨a1, er | ⟨⟨⟩⟩⟩ <;> simp only [runCalls, h1] at h
    · simp at h
    obtain ⟨g, g1, g2⟩ := op_each hc (hops op (by simp)) h1
    have ha := g2 a.sensors hc.1 (fun _ h => h)
    have ha1 : a1 = ⟨a.sensors.map g, a.source⟩ := by
      have : op.run a = _ := ha
      rw [h1, Prod.mk.injEq] at this
      exact this.1
    have hsub := trimOffsets_sublist a mn mx
    have hcons := trimOffsets_consistent hc mn mx
    have hsrc : b.source = a.source := (C18_kept_sensors_are_in_range a b mn mx hb).2.2
    rw [hb] at hsub hcons
    have hb1 : op.run b = (⟨b.sensors.map g, a.source⟩, .ok ()) := by
      have := g2 b.sensors hcons.1 hsub.subset
      rw [← hsrc] at this ⊢
      exact this
    have hcons1 : Consistent a1 := by
      have := ArrOp.run_consistent a op hc
      rwa [h1] at this
    obtain ⟨b', k1, k2⟩ := ih a1 ⟨b.sensors.map g, a.source⟩ hcons1 (fun o ho => hops o (by simp [ho]))
      (by rw [ha1]; exact trimOffsets_map g1 hb) h
    exact ⟨b', by simp only [runCalls, hb1]; exact k1, k2⟩

open OffsetsLast in
/-- **C184** (the other way round).  For `trim` and `zero_pad`: if the sequence returns on the receivers selected, then it
returns on the whole array, and selecting the receivers afterwards gives the same array. -/
theorem C184_select_last_partial (a b b' : Arr) (hc : Consistent a) (ops : List ArrOp)
    (hops : ∀ op ∈ ops, (∃ s e, op = .trim s e) ∨ ∃ df, op = .zeroPad df)
    (mn mx : ℚ) (hb : a.trimOffsets mn mx = (b, .ok ())) (h : runCalls ArrOp.run b ops = (b', .ok ())) :
    ∃ a', runCalls ArrOp.run a ops = (a', .ok ()) ∧ a'.trimOffsets mn mx = (b', .ok ()) := by
  have key : ∃ a', runCalls ArrOp.run a ops = (a', .ok ()) := by
    induction ops generalizing a b with
    | nil => exact ⟨a, rfl⟩
    | cons op ops ih =>
      rcases h1 : op.run b with ⟨b1, er | ⟨⟨⟩⟩⟩ <;> simp only [runCalls, h1] at h
      · simp at h
      have hsub := trimOffsets_sublist a mn mx
      have hcb := trimOffsets_consistent hc mn mx
      rw [hb] at hsub hcb
      obtain ⟨s0, hs0⟩ := List.exists_mem_of_ne_nil b.sensors hcb.1
      have hall : ∀ f : ATS → Outcome ATS, MetaFun f → (∃ l, forSensors f b.sensors = (l, .ok ())) →
          ∃ l, forSensors f a.sensors = (l, .ok ()) := by
        rintro f hf ⟨l, hl⟩
        have h0 := forSensors_good hl s0 hs0
        exact ⟨_, forSensors_ok f a.sensors fun s hs => (hf.same_result _ _ (hc.2.2 s0 (hsub.subset hs0) s hs)).1 h0⟩
      have hrun : ∃ a1, op.run a = (a1, .ok ()) := by
        rcases hops op (by simp) with ⟨s, e, rfl⟩ | ⟨df, rfl⟩
        · have h' : b.trim s e = (b1, .ok ()) := h1
          rcases hr : forSensors (fun r => r.trim s e) b.sensors with ⟨l, o⟩
          simp only [Arr.trim, hr, Prod.mk.injEq] at h'
          rw [h'.2] at hr
          obtain ⟨l', hl'⟩ := hall _ (ATS.trim_metaFun s e) ⟨l, hr⟩
          exact ⟨⟨l', a.source⟩, by show a.trim s e = _; simp only [Arr.trim, hl']⟩
        · have h' : b.zeroPad df = (b1, .ok ()) := h1
          rcases hr : forSensors (fun r => r.zeroPad df) b.sensors with ⟨l, o⟩
          simp only [Arr.zeroPad, hr, Prod.mk.injEq] at h'
          rw [h'.2] at hr
          obtain ⟨l', hl'⟩ := hall _ (ATS.zeroPad_metaFun df) ⟨l, hr⟩
          exact ⟨⟨l', a.source⟩, by show a.zeroPad df = _; simp only [Arr.zeroPad, hl']⟩
      obtain ⟨a1, ha1⟩ := hrun
      have hno : ∀ o ∈ [op], ∀ mn mx, o ≠ ArrOp.trimOffsets mn mx := by
        intro o ho mn mx e
        simp only [List.mem_singleton] at ho
        rcases hops op (by simp) with ⟨s, e', rfl⟩ | ⟨df, rfl⟩ <;> rw [ho] at e <;> cases e
      obtain ⟨b2, k1, k2⟩ := C184_select_first a a1 b hc [op] hno mn mx hb (by simp [runCalls, ha1])
      have hb2 : b2 = b1 := by
        simp only [runCalls, h1, Prod.mk.injEq, and_true] at k1
        exact k1.symm
      have hcons1 : Consistent a1 := by
        have := ArrOp.run_consistent a op hc
        rwa [ha1] at this
      obtain ⟨a', ha'⟩ := ih a1 b1 hcons1 (fun o ho => hops o (by simp [ho])) (by rw [k2, hb2]) h
      exact ⟨a', by simp only [runCalls, ha1]; exact ha'⟩
  obtain ⟨a', ha'⟩ := key
  obtain ⟨b2, k1, k2⟩ := C184_select_first a a' b hc ops (by
    intro o ho mn mx e
    rcases hops o ho with ⟨s, e', rfl⟩ | ⟨df, rfl⟩ <;> cases e) mn mx hb ha'
  rw [h, Prod.mk.injEq] at k1
  exact ⟨a', ha', by rw [k2, k1.1]⟩

/-- Three receivers, the last of them far away, and what is done to them. -/
def farArr : Arr := ⟨[mkS 1 [1, 2, 3, 4], mkS 2 [5, 6, 7, 8], mkS 50 [9, 9, 9, 9]], ⟨0, 0, 0⟩⟩
def farOps : List ArrOp :=
  [.trim 0 3, .mute (fun m => List.replicate m 1) (some ⟨0, 0, 100, 1⟩) (some ⟨0, 3, 100, 2⟩), .zeroPad (1 / 5)]

/-- The hypotheses are met, and the far receiver is gone in both orders. -/
example : Consistent farArr ∧
    farArr.trimOffsets (1 / 2) 10 = (⟨[mkS 1 [1, 2, 3, 4], mkS 2 [5, 6, 7, 8]], ⟨0, 0, 0⟩⟩, .ok ()) ∧
    (runCalls ArrOp.run farArr farOps).2 = .ok () ∧
    runCalls ArrOp.run ⟨[mkS 1 [1, 2, 3, 4], mkS 2 [5, 6, 7, 8]], ⟨0, 0, 0⟩⟩ farOps =
      (⟨[mkS 1 [1, 2, 0, 0, 0], mkS 2 [5, 6, 0, 0, 0]], ⟨0, 0, 0⟩⟩, .ok ()) ∧
    (runCalls ArrOp.run farArr farOps).1.trimOffsets (1 / 2) 10 =
      (⟨[mkS 1 [1, 2, 0, 0, 0], mkS 2 [5, 6, 0, 0, 0]], ⟨0, 0, 0⟩⟩, .ok ()) := by
  refine ⟨⟨by simp [farArr], ?_, ?_⟩, by decide +kernel, by decide +kernel, by decide +kernel, by decide +kernel⟩
  · norm_num [farArr, mkS]
  · intro s hs t ht
    simp only [farArr, List.mem_cons, List.not_mem_nil, or_false] at hs ht
    rcases hs with rfl | rfl | rfl <;> rcases ht with rfl | rfl | rfl <;> exact ⟨rfl, rfl, rfl, rfl⟩

/-- **C184 does not hold for `mute` the other way round**: lines which cross within the records of the receivers selected
may not do so beyond them; then `mute` refuses the whole array. -/
theorem C184_mute_fails : ∃ a b b' : Arr, Consistent a ∧ a.trimOffsets (1 / 2) 10 = (b, .ok ()) ∧
    b.mute (fun m => List.replicate m 1) none (some ⟨0, 3, 3, 0⟩) = (b', .ok ()) ∧
    (a.mute (fun m => List.replicate m 1) none (some ⟨0, 3, 3, 0⟩)).2 = .error .valueError := by
  refine ⟨farArr, ⟨[mkS 1 [1, 2, 3, 4], mkS 2 [5, 6, 7, 8]], ⟨0, 0, 0⟩⟩, ⟨[mkS 1 [1, 2, 0, 0], mkS 2 [5, 0, 0, 0]], ⟨0, 0, 0⟩⟩,
    ⟨by simp [farArr], by norm_num [farArr, mkS], ?_⟩, by decide +kernel, by decide +kernel, by decide +kernel⟩
  intro s hs t ht
  simp only [farArr, List.mem_cons, List.not_mem_nil, or_false] at hs ht
  rcases hs with rfl | rfl | rfl <;> rcases ht with rfl | rfl | rfl <;> exact ⟨rfl, rfl, rfl, rfl⟩

end Verif.Props
