import Verif.Props.OneAxis
import Verif.Props.FileOrder

/-!
# Weighted means of records

Every step of the pre-processing turns a weighted mean of records into the weighted mean of the processed records.
-/

namespace Verif.Props
open Verif Workflow

/-- Sample `j` of sensor `i`, zero outside the record. -/
def sample (a : Arr) (i j : ℕ) : ℚ := ((a.sensors.map fun s => s.ts.amp).getD i []).getD j 0

/-- The same place and the same time of every sample. -/
def Alike (s t : Sensor) : Prop := s.x = t.x ∧ s.y = t.y ∧ s.z = t.z ∧ clock s.ts = clock t.ts

/-- The same source and sensors at the same places with the same times. -/
def SameShape (a b : Arr) : Prop := a.source = b.source ∧ List.Forall₂ Alike a.sensors b.sensors

/-- `A` is the mean of the records `as` with the weights `ws`. -/
structure WeightedMean (ws : List ℚ) (A : Arr) (as : List Arr) : Prop where
  weights : ws.length = as.length
  shape : ∀ a ∈ as, SameShape A a
  mean : (List.zipWith (fun w a => w • sample a) ws as).sum = ws.sum • sample A

theorem Alike.refl (s : Sensor) : Alike s s := ⟨rfl, rfl, rfl, rfl⟩

theorem SameShape.refl (a : Arr) : SameShape a a := ⟨rfl, List.forall₂_same.2 fun s _ => Alike.refl s⟩

theorem SameShape.length {a b : Arr} (h : SameShape a b) : a.sensors.length = b.sensors.length := h.2.length_eq

theorem SameShape.position {a b : Arr} (h : SameShape a b) : a.position = b.position := by
  unfold Arr.position
  have h2 := h.2
  generalize a.sensors = l, b.sensors = m at h2
  induction h2 with
  | nil => rfl
  | cons h _ ih => simp [h.1, ih]

theorem SameShape.offsets {a b : Arr} (h : SameShape a b) : a.offsets = b.offsets := by
  unfold Arr.offsets
  rw [h.position, h.1]

theorem sample_eq (a : Arr) (i j : ℕ) (d : Sensor) (hd : d.ts.amp = []) :
    sample a i j = (a.sensors.getD i d).ts.amp.getD j 0 := by
  unfold sample
  simp only [List.getD_eq_getElem?_getD, List.getElem?_map]
  rcases a.sensors[i]? with _ | s <;> simp [hd]

/-- Each sample of the result is a multiple of one sample of the record, and which one and the factor depend on
places and times only. -/
def Samplewise (f : Arr → Arr → Prop) : Prop :=
  ∀ A A', f A A' → ∃ (c : ℕ → ℕ → ℚ) (i' j' : ℕ → ℕ → ℕ), ∀ b b', SameShape A b → f b b' →
    SameShape A' b' ∧ ∀ i j, sample b' i j = c i j * sample b (i' i j) (j' i j)

/-- A step which turns weighted means into weighted means. -/
def KeepsMeans (f : Arr → Arr → Prop) : Prop :=
  ∀ ws A A' as as', WeightedMean ws A as → f A A' → List.Forall₂ f as as' → WeightedMean ws A' as'

theorem Samplewise.keepsMeans {f : Arr → Arr → Prop} (hf : Samplewise f) : KeepsMeans f := by
  intro ws A A' as as' h hA hs
  obtain ⟨c, i', j', hc⟩ := hf A A' hA
  have hself := (hc A A' (SameShape.refl A) hA).2
  have key : ∀ (ws : List ℚ) (as as' : List Arr), (∀ a ∈ as, SameShape A a) → List.Forall₂ f as as' → ∀ i j,
      (List.zipWith (fun w a => w • sample a) ws as').sum i j =
        c i j * (List.zipWith (fun w a => w • sample a) ws as).sum (i' i j) (j' i j) := by
    intro ws as as' hsh hs
    induction hs generalizing ws with
    | nil => intro i j; simp
    | cons h1 _ ih =>
      rename_i a a' l l' _
      intro i j
      rcases ws with _ | ⟨w, ws⟩
      · simp
      · simp only [List.zipWith_cons_cons, List.sum_cons, Pi.add_apply, Pi.smul_apply, smul_eq_mul]
        rw [ih ws (fun x hx => hsh x (List.mem_cons_of_mem _ hx)) i j,
          (hc a a' (hsh a List.mem_cons_self) h1).2 i j]
        ring
  refine ⟨by rw [h.weights, hs.length_eq], ?_, ?_⟩
  · intro a' ha'
    obtain ⟨a, ha, h1⟩ := forall₂_mem_right hs ha'
    exact (hc a a' (h.shape a ha) h1).1
  · funext i j
    rw [key ws as as' h.shape hs i j, h.mean]
    simp only [Pi.smul_apply, smul_eq_mul]
    rw [hself i j]
    ring

theorem KeepsMeans.comp {f g : Arr → Arr → Prop} (hf : KeepsMeans f) (hg : KeepsMeans g) :
    KeepsMeans fun a c => ∃ b, f a b ∧ g b c := by
  intro ws A C as cs h hA hs
  obtain ⟨B, h1, h2⟩ := hA
  have key : ∀ {as cs : List Arr}, List.Forall₂ (fun a c => ∃ b, f a b ∧ g b c) as cs →
      ∃ bs, List.Forall₂ f as bs ∧ List.Forall₂ g bs cs := by
    intro as cs hs
    induction hs with
    | nil => exact ⟨[], .nil, .nil⟩
    | cons h _ ih =>
      obtain ⟨b, h1, h2⟩ := h
      obtain ⟨bs, h3, h4⟩ := ih
      exact ⟨b :: bs, .cons h1 h3, .cons h2 h4⟩
  obtain ⟨bs, h3, h4⟩ := key hs
  exact hg ws B C bs cs (hf ws A B as bs h h1 h3) h2 h4

theorem KeepsMeans.of_eq : KeepsMeans fun a b => b = a := by
  intro ws A A' as as' h hA hs
  have : as' = as := by
    clear h
    induction hs with
    | nil => rfl
    | cons h _ ih =>
      rw [h, ih]
  rw [hA, this]
  exact h

theorem KeepsMeans.ite (p : Prop) [Decidable p] {f g : Arr → Arr → Prop} (hf : KeepsMeans f) (hg : KeepsMeans g) :
    KeepsMeans fun a b => if p then f a b else g a b := by
  by_cases h : p
  · simpa only [if_pos h] using hf
  · simpa only [if_neg h] using hg

/-! ## Selection by offset -/

/-- The loop of `trim_offsets` on any labels. -/
def selectBy {α : Type} (mn mx : ℚ) : List (ℚ × α) → List α
  | [] => []
  | (o, s) :: rest =>
    if o > mx then (if o > mn ∧ o < mx then [s] else [])
    else (if o > mn ∧ o < mx then [s] else []) ++ selectBy mn mx rest

theorem selectBy_map {α β : Type} (g : α → β) (mn mx : ℚ) : ∀ l : List (ℚ × α),
    selectBy mn mx (l.map fun p => (p.1, g p.2)) = (selectBy mn mx l).map g
  | [] => rfl
  | (o, s) :: rest => by
    simp only [List.map_cons, selectBy]
    rw [selectBy_map g mn mx rest]
    split_ifs <;> simp

theorem keptIndices_loop (mn mx : ℚ) : ∀ l, Arr.trimOffsetsLoop mn mx l = selectBy mn mx l
  | [] => rfl
  | (o, s) :: rest => by
    simp only [Arr.trimOffsetsLoop, selectBy]
    rw [keptIndices_loop mn mx rest]

theorem zip_range {α : Type} (o : List ℚ) (l : List α) (d : α) (h : o.length = l.length) :
    o.zip l = (o.zip (List.range l.length)).map fun p => (p.1, l.getD p.2 d) := by
  apply List.ext_getElem
  · simp [h]
  · intro i h1 h2
    have : i < l.length := by simp at h1; omega
    simp [List.getD_eq_getElem?_getD, this]

/-- A sensor without samples, standing for no sensor. -/
def noSensor : Sensor := ⟨⟨[], 0, 0, 0, 0⟩, 0, 0, 0⟩

/-- The numbers of the sensors which are kept. -/
def keptIndices (offsets : List ℚ) (n : ℕ) (mn : ℚ) : Fl → List ℕ
  | .fin mx => selectBy mn mx (offsets.zip (List.range n))
  | _ => (offsets.zip (List.range n)).filterMap fun (p : ℚ × ℕ) => if p.1 > mn then some p.2 else none

theorem trimOffsetsFl_kept {a b : Arr} {mn : ℚ} {mx : Fl} (h : trimOffsetsFl a mn mx = (b, .ok ())) :
    b.source = a.source ∧ b.sensors =
      (keptIndices a.offsets a.sensors.length mn mx).map fun k => a.sensors.getD k noSensor := by
  have hl : a.offsets.length = a.sensors.length := by simp [Arr.offsets, Arr.position]
  have hz := zip_range a.offsets a.sensors noSensor hl
  unfold trimOffsetsFl at h
  split at h
  · unfold Arr.trimOffsets at h
    rw [keptIndices_loop, hz, selectBy_map (fun k => a.sensors.getD k noSensor)] at h
    split at h
    · simp at h
    · simp only [Prod.mk.injEq, and_true] at h
      subst h
      exact ⟨rfl, rfl⟩
  · rw [hz, List.filterMap_map] at h
    split at h
    · simp at h
    · simp only [Prod.mk.injEq, and_true] at h
      subst h
      refine ⟨rfl, ?_⟩
      simp only [keptIndices]
      rw [List.map_filterMap]
      refine congrArg (fun f => List.filterMap f _) ?_
      funext p
      simp only [Function.comp]
      split_ifs <;> rfl
  · simp at h

theorem forall₂_getD {l m : List Sensor} (h : List.Forall₂ Alike l m) (k : ℕ) :
    Alike (l.getD k noSensor) (m.getD k noSensor) := by
  induction h generalizing k with
  | nil => exact Alike.refl _
  | cons h _ ih =>
    cases k with
    | zero => exact h
    | succ k => simpa using ih k

theorem samplewise_offsets (mn : ℚ) (mx : Fl) : Samplewise fun a b => trimOffsetsFl a mn mx = (b, .ok ()) := by
  intro A A' hA
  obtain ⟨idx, hidx⟩ : ∃ idx : List ℕ, ∀ b b', SameShape A b → trimOffsetsFl b mn mx = (b', .ok ()) →
      b'.source = b.source ∧ b'.sensors = idx.map fun k => b.sensors.getD k noSensor := by
    refine ⟨keptIndices A.offsets A.sensors.length mn mx, fun b b' hb h => ?_⟩
    have := trimOffsetsFl_kept h
    rw [← hb.offsets, ← hb.length] at this
    exact this
  refine ⟨fun i _ => if i < idx.length then 1 else 0, fun i _ => idx.getD i 0, fun _ j => j, fun b b' hb h => ?_⟩
  obtain ⟨e1, e2⟩ := hidx b b' hb h
  obtain ⟨e3, e4⟩ := hidx A A' (SameShape.refl A) hA
  refine ⟨⟨by rw [e1, e3, hb.1], ?_⟩, ?_⟩
  · rw [e2, e4]
    clear e2 e4 hidx
    induction idx with
    | nil => exact .nil
    | cons k idx ih => exact .cons (forall₂_getD hb.2 k) ih
  · intro i j
    rw [sample_eq b' i j noSensor rfl, e2]
    beta_reduce
    split_ifs with c
    · simp only [List.getD_eq_getElem?_getD, List.getElem?_map, List.getElem?_eq_getElem c, Option.map_some,
        Option.getD_some, one_mul]
      rw [sample_eq b _ j noSensor rfl]
      simp [List.getD_eq_getElem?_getD]
    · rw [zero_mul]
      simp [List.getD_eq_getElem?_getD, List.getElem?_eq_none (not_lt.1 c), noSensor]

/-! ## Steps which treat the sensors one by one -/

/-- A step of one record whose result depends, sample by sample, on one sample of the record. -/
def SamplewiseRecord (f : ATS → Outcome ATS) : Prop :=
  ∀ r, ∃ (c : ℕ → ℚ) (j' : ℕ → ℕ), ∀ s s', clock r = clock s → f s = (s', .ok ()) →
    clock (f r).1 = clock s' ∧ ∀ j, s'.amp.getD j 0 = c j * s.amp.getD (j' j) 0

theorem forSensors_forall₂ {f : ATS → Outcome ATS} : ∀ {l l' : List Sensor}, Arr.forSensors f l = (l', .ok ()) →
    List.Forall₂ (fun s s' => s'.x = s.x ∧ s'.y = s.y ∧ s'.z = s.z ∧ f s.ts = (s'.ts, .ok ())) l l' := by
  intro l
  induction l with
  | nil => intro l' h; simp only [Arr.forSensors, Prod.mk.injEq] at h; rw [← h.1]; exact .nil
  | cons s l ih =>
    intro l' h
    unfold Arr.forSensors at h
    rcases hf : f s.ts with ⟨r, e | ⟨⟨⟩⟩⟩
    · simp [hf] at h
    · simp only [hf] at h
      rcases hr : Arr.forSensors f l with ⟨rest', o⟩
      rw [hr] at h
      simp only [Prod.mk.injEq] at h
      obtain ⟨rfl, rfl⟩ := h
      exact .cons ⟨rfl, rfl, rfl, hf⟩ (ih hr)

theorem SamplewiseRecord.sensors {f : ATS → Outcome ATS} (hf : SamplewiseRecord f) : ∀ {L L' : List Sensor},
    List.Forall₂ (fun s s' => s'.x = s.x ∧ s'.y = s.y ∧ s'.z = s.z ∧ f s.ts = (s'.ts, .ok ())) L L' →
    ∃ (c : ℕ → ℕ → ℚ) (j' : ℕ → ℕ → ℕ), ∀ l l', List.Forall₂ Alike L l →
      List.Forall₂ (fun s s' => s'.x = s.x ∧ s'.y = s.y ∧ s'.z = s.z ∧ f s.ts = (s'.ts, .ok ())) l l' →
      List.Forall₂ Alike L' l' ∧ ∀ i j, (l'.getD i noSensor).ts.amp.getD j 0 =
        c i j * (l.getD i noSensor).ts.amp.getD (j' i j) 0 := by
  intro L L' hL
  induction hL with
  | nil =>
    refine ⟨fun _ _ => 0, fun _ _ => 0, fun l l' h1 h2 => ?_⟩
    cases h1
    cases h2
    exact ⟨.nil, fun i j => by simp [noSensor]⟩
  | cons h _ ih =>
    rename_i S S' L L' _
    obtain ⟨c, j', hc⟩ := ih
    obtain ⟨c0, j0, h0⟩ := hf S.ts
    refine ⟨fun i => match i with | 0 => c0 | i + 1 => c i, fun i => match i with | 0 => j0 | i + 1 => j' i,
      fun l l' h1 h2 => ?_⟩
    cases h1 with
    | cons a1 a2 =>
      cases h2 with
      | cons b1 b2 =>
        rename_i s _ s' _
        obtain ⟨k1, k2⟩ := hc _ _ a2 b2
        obtain ⟨m1, m2⟩ := h0 s.ts s'.ts a1.2.2.2 b1.2.2.2
        rw [h.2.2.2] at m1
        refine ⟨.cons ⟨?_, ?_, ?_, m1⟩ k1, ?_⟩
        · rw [h.1, b1.1, a1.1]
        · rw [h.2.1, b1.2.1, a1.2.1]
        · rw [h.2.2.1, b1.2.2.1, a1.2.2.1]
        · intro i j
          cases i with
          | zero => simpa using m2 j
          | succ i => simpa using k2 i j

theorem SamplewiseRecord.samplewise {f : ATS → Outcome ATS} (hf : SamplewiseRecord f) {F : Arr → Outcome Arr}
    (hF : ∀ a b, F a = (b, .ok ()) → b.source = a.source ∧ Arr.forSensors f a.sensors = (b.sensors, .ok ())) :
    Samplewise fun a b => F a = (b, .ok ()) := by
  intro A A' hA
  obtain ⟨e1, e2⟩ := hF A A' hA
  obtain ⟨c, j', hc⟩ := hf.sensors (forSensors_forall₂ e2)
  refine ⟨c, fun i _ => i, j', fun b b' hb h => ?_⟩
  obtain ⟨e3, e4⟩ := hF b b' h
  obtain ⟨k1, k2⟩ := hc _ _ hb.2 (forSensors_forall₂ e4)
  refine ⟨⟨by rw [e1, e3, hb.1], k1⟩, fun i j => ?_⟩
  rw [sample_eq b' i j noSensor rfl, sample_eq b i _ noSensor rfl]
  exact k2 i j

theorem pySlice_getD (l : List ℚ) (i j : ℤ) (k : ℕ) : (pySlice l i j).getD k 0 =
    (if sliceIdx l.length i + k < sliceIdx l.length j then 1 else 0) * l.getD (sliceIdx l.length i + k) 0 := by
  unfold pySlice
  simp only [List.getD_eq_getElem?_getD, List.getElem?_drop]
  split_ifs with c
  · rw [List.getElem?_take_of_lt c, one_mul]
  · rw [List.getElem?_take_eq_none (not_lt.1 c), zero_mul]; rfl

theorem samplewiseRecord_trim (t0 t1 : ℚ) : SamplewiseRecord fun r => r.trim t0 t1 := by
  intro r
  rcases hi : argmin (r.time.map fun t => |t - t0|) with _ | i
  · refine ⟨fun _ => 0, id, fun s s' hs h => ?_⟩
    exfalso
    rw [clock_time hs] at hi
    simp [ATS.trim, ATS.trimBase, hi] at h
  rcases hj : argmin (r.time.map fun t => |t - t1|) with _ | j
  · refine ⟨fun _ => 0, id, fun s s' hs h => ?_⟩
    exfalso
    rw [clock_time hs] at hi hj
    simp [ATS.trim, ATS.trimBase, hi, hj] at h
  refine ⟨fun k => if sliceIdx r.amp.length i + k < sliceIdx r.amp.length (j + 1) then 1 else 0,
    fun k => sliceIdx r.amp.length i + k, fun s s' hs h => ?_⟩
  beta_reduce at h ⊢
  have hck := clock_trim hs t0 t1
  rw [h] at hck
  refine ⟨hck, fun k => ?_⟩
  have hl := (clock_eq hs).1
  rw [clock_time hs] at hi hj
  unfold ATS.trim ATS.trimBase at h
  rw [hi, hj] at h
  rcases ha : s.time.head? with _ | a
  · simp [ha] at h
  rcases hb : s.time.getLast? with _ | b
  · simp [ha, hb] at h
  simp only [ha, hb] at h
  by_cases hc : (decide (t0 < a) || decide (t0 > t1) || decide (t1 > b)) = true
  · simp only [hc, if_true] at h
    simp at h
  · simp only [hc] at h
    simp only [Bool.false_eq_true, if_false, Prod.mk.injEq, and_true] at h
    subst h
    rw [hl]
    exact pySlice_getD s.amp i (j + 1) k

theorem getD_append_zeros (l : List ℚ) (n k : ℕ) : (l ++ List.replicate n 0).getD k 0 = l.getD k 0 := by
  simp only [List.getD_eq_getElem?_getD]
  by_cases h : k < l.length
  · rw [List.getElem?_append_left h]
  · rw [List.getElem?_append_right (not_lt.1 h), List.getElem?_eq_none (not_lt.1 h), List.getElem?_replicate]
    split_ifs <;> rfl

theorem samplewiseRecord_zeroPad (df : ℚ) : SamplewiseRecord fun r => r.zeroPad df := by
  intro r
  refine ⟨fun _ => 1, id, fun s s' hs h => ?_⟩
  beta_reduce at h ⊢
  have hck := clock_zeroPad hs df
  rw [h] at hck
  refine ⟨hck, fun k => ?_⟩
  rw [one_mul, id]
  unfold ATS.zeroPad at h
  simp only at h
  split_ifs at h <;> simp only [Prod.mk.injEq, and_true, reduceCtorEq, and_false] at h <;> subst h
  · exact getD_append_zeros _ _ _
  · rfl
  · exact getD_append_zeros _ _ _
  · rfl

theorem samplewise_trim (t0 t1 : ℚ) : Samplewise fun a b => a.trim t0 t1 = (b, .ok ()) := by
  refine (samplewiseRecord_trim t0 t1).samplewise fun a b h => ?_
  unfold Arr.trim at h
  rcases hf : Arr.forSensors (fun r => r.trim t0 t1) a.sensors with ⟨ss, o⟩
  rw [hf] at h
  simp only [Prod.mk.injEq] at h
  obtain ⟨rfl, rfl⟩ := h
  exact ⟨rfl, rfl⟩

theorem samplewise_zeroPad (df : ℚ) : Samplewise fun a b => a.zeroPad df = (b, .ok ()) := by
  refine (samplewiseRecord_zeroPad df).samplewise fun a b h => ?_
  unfold Arr.zeroPad at h
  rcases hf : Arr.forSensors (fun r => r.zeroPad df) a.sensors with ⟨ss, o⟩
  rw [hf] at h
  simp only [Prod.mk.injEq] at h
  obtain ⟨rfl, rfl⟩ := h
  exact ⟨rfl, rfl⟩

/-! ## Muting -/

theorem muteLoop_samples (w : ℕ → List ℚ) (n : ℕ) (idx : List (ℤ × ℤ)) : ∃ W : ℕ → List ℚ,
    ∀ (l l' : List Sensor), Arr.muteLoop w n l idx = (l', .ok ()) → idx.length = l.length → ∀ i,
      (l'.getD i noSensor).ts.amp = List.zipWith (· * ·) (l.getD i noSensor).ts.amp (W i) := by
  induction idx with
  | nil =>
    refine ⟨fun _ => [], fun l l' h hl i => ?_⟩
    obtain rfl : l = [] := List.length_eq_zero_iff.1 hl.symm
    simp only [Arr.muteLoop, Prod.mk.injEq, and_true] at h
    subst h
    simp [noSensor]
  | cons p idx ih =>
    obtain ⟨W, hW⟩ := ih
    obtain ⟨a, b⟩ := p
    refine ⟨fun i => match i with
      | 0 => match Arr.assignSlice n a b (w (b - a).toNat) with | .ok v => v | .error _ => []
      | i + 1 => W i, fun l l' h hl i => ?_⟩
    rcases l with _ | ⟨s, l⟩
    · simp at hl
    unfold Arr.muteLoop at h
    split_ifs at h with c
    · simp at h
    rcases ha : Arr.assignSlice n a b (w (b - a).toNat) with e | v
    · rw [ha] at h; simp at h
    rw [ha] at h
    simp only at h
    rcases hr : Arr.muteLoop w n l idx with ⟨rest, o⟩
    rw [hr] at h
    simp only [Prod.mk.injEq] at h
    obtain ⟨rfl, rfl⟩ := h
    cases i with
    | zero => simp
    | succ i => simpa using hW l rest hr (by simpa using hl) i

theorem zipWith_getD (l m : List ℚ) (j : ℕ) : (List.zipWith (· * ·) l m).getD j 0 = m.getD j 0 * l.getD j 0 := by
  simp only [List.getD_eq_getElem?_getD, List.getElem?_zipWith]
  rcases l[j]? with _ | x <;> rcases m[j]? with _ | y <;> simp [mul_comm]

/-- The sample at which a line, or the record (`edge`), bounds each trace. -/
def boundIndices (a : Arr) (s0 : Sensor) (l : Option Arr.Line) (edge : ℤ) : Except PyErr (List ℤ) :=
  match l with
  | some l => Arr.lineIndices l s0.ts.dt |s0.ts.delay / s0.ts.dt| a.position
  | none => .ok (a.position.map fun _ => edge)

theorem boundIndices_length {a : Arr} {s0 : Sensor} {l : Option Arr.Line} {edge : ℤ} {i : List ℤ}
    (h : boundIndices a s0 l edge = .ok i) : i.length = a.sensors.length := by
  unfold boundIndices at h
  split at h
  · unfold Arr.lineIndices at h
    split_ifs at h
    simp only [Except.ok.injEq] at h
    subst h
    simp [Arr.position]
  · simp only [Except.ok.injEq] at h
    subst h
    simp [Arr.position]

theorem mute_ok {w : ℕ → List ℚ} {a b : Arr} {l1 l2 : Option Arr.Line} (h : a.mute w l1 l2 = (b, .ok ())) :
    ∃ s0 rest i j, a.sensors = s0 :: rest ∧ boundIndices a s0 l1 0 = .ok i ∧
      boundIndices a s0 l2 ((s0.ts.nsamples : ℤ) - 1) = .ok j ∧ (i.zip j).length = a.sensors.length ∧
      b.source = a.source ∧ Arr.muteLoop w s0.ts.nsamples a.sensors (i.zip j) = (b.sensors, .ok ()) := by
  rcases hs : a.sensors with _ | ⟨s0, rest⟩
  · simp [Arr.mute, hs] at h
  have e : a.mute w l1 l2 = match boundIndices a s0 l1 0, boundIndices a s0 l2 ((s0.ts.nsamples : ℤ) - 1) with
      | .error e, _ => (a, .error e)
      | .ok _, .error e => (a, .error e)
      | .ok i, .ok j =>
        match Arr.muteLoop w s0.ts.nsamples a.sensors (i.zip j) with
        | (ss, o) => ({ a with sensors := ss }, o) := by
    unfold Arr.mute boundIndices
    rw [hs]
    cases l1 <;> cases l2 <;> rfl
  rw [e] at h
  rcases h1 : boundIndices a s0 l1 0 with e | i
  · rw [h1] at h; simp at h
  rcases h2 : boundIndices a s0 l2 ((s0.ts.nsamples : ℤ) - 1) with e | j
  · rw [h1, h2] at h; simp at h
  rw [h1, h2] at h
  simp only [Prod.mk.injEq] at h
  obtain ⟨rfl, h⟩ := h
  have hl : (i.zip j).length = (s0 :: rest).length := by
    rw [List.length_zip, boundIndices_length h1, boundIndices_length h2, hs]; simp
  exact ⟨s0, rest, i, j, rfl, h1, h2, hl, rfl, by rw [← hs]; exact Prod.ext rfl h⟩

/-- All sensors of the array have the same times. -/
def OneClock (a : Arr) : Prop := ∃ ρ, AllClock ρ a

theorem OneClock.of_sameShape {a b : Arr} (h : SameShape a b) (ha : OneClock a) : OneClock b := by
  obtain ⟨ρ, hρ⟩ := ha
  refine ⟨ρ, fun t ht => ?_⟩
  obtain ⟨s, hs, h1⟩ := forall₂_mem_right h.2 ht
  rw [← h1.2.2.2]
  exact hρ s hs

theorem samplewise_mute (w : ℕ → List ℚ) (l1 l2 : Option Arr.Line) :
    Samplewise fun a b => OneClock a ∧ a.mute w l1 l2 = (b, .ok ()) := by
  rintro A A' ⟨hcl, hA⟩
  obtain ⟨S0, Rest, I, J, h1, h2, h2', h3, h4, h5⟩ := mute_ok hA
  obtain ⟨W, hW⟩ := muteLoop_samples w S0.ts.nsamples (I.zip J)
  have frame : ∀ {b b' : Arr}, OneClock b → b.mute w l1 l2 = (b', .ok ()) → SameShape b b' := by
    rintro b b' ⟨ρ, hρ⟩ h
    obtain ⟨s0, rest, i, j, g1, g2, g2', g3, g4, g5⟩ := mute_ok h
    have hn : ∀ s ∈ b.sensors, s.ts.amp.length = s0.ts.nsamples := by
      intro s hs
      have e1 := (clock_eq (hρ s hs)).1
      have e2 := (clock_eq (hρ s0 (by rw [g1]; exact List.mem_cons_self))).1
      show _ = s0.ts.amp.length
      rw [e1, e2]
    have hf := Arr.muteLoop_frame w s0.ts.nsamples b.sensors (i.zip j) hn
    rw [g5] at hf
    refine ⟨g4.symm, hf.imp ?_⟩
    rintro s t ⟨m1, m2, m3, ⟨k1, k2, k3, k4⟩, m5⟩
    exact ⟨m1.symm, m2.symm, m3.symm, by simp [clock, k1, k3, k4, m5]⟩
  refine ⟨fun i j => (W i).getD j 0, fun i _ => i, fun _ j => j, fun b b' hb h => ?_⟩
  obtain ⟨hb1, hb2⟩ := h
  refine ⟨?_, fun i j => ?_⟩
  · have f1 := frame hcl hA
    have f2 := frame hb1 hb2
    refine ⟨by rw [← f1.1, hb.1, f2.1], ?_⟩
    have tr : ∀ {x y z : List Sensor}, List.Forall₂ Alike x y → List.Forall₂ Alike y z → List.Forall₂ Alike x z := by
      intro x y z hxy
      induction hxy generalizing z with
      | nil => intro h; cases h; exact .nil
      | cons a _ ih =>
        intro h
        cases h with
        | cons c d =>
          exact .cons ⟨a.1.trans c.1, a.2.1.trans c.2.1, a.2.2.1.trans c.2.2.1, a.2.2.2.trans c.2.2.2⟩ (ih d)
    have sy : List.Forall₂ Alike A'.sensors A.sensors :=
      (f1.2.imp fun s t h => ⟨h.1.symm, h.2.1.symm, h.2.2.1.symm, h.2.2.2.symm⟩ : List.Forall₂ (fun s t => Alike t s) _ _).flip
    exact tr sy (tr hb.2 f2.2)
  · obtain ⟨s0, rest, I', J', g1, g2, g2', g3, g4, g5⟩ := mute_ok hb2
    have hc : clock S0.ts = clock s0.ts := by
      have := hb.2
      rw [h1, g1] at this
      cases this with
      | cons a _ => exact a.2.2.2
    obtain ⟨c1, c2, c3, -⟩ := clock_eq hc
    have hns : s0.ts.nsamples = S0.ts.nsamples := c1.symm
    have e : ∀ l edge, boundIndices b s0 l edge = boundIndices A S0 l edge := by
      intro l edge
      unfold boundIndices
      rw [hb.position, c2, c3]
    rw [e, h2, Except.ok.injEq] at g2
    rw [e, hns, h2', Except.ok.injEq] at g2'
    subst g2
    subst g2'
    rw [hns] at g5
    rw [sample_eq b' i j noSensor rfl, sample_eq b i j noSensor rfl, hW _ _ g5 g3 i, zipWith_getD]

/-! ## Removing a trend -/

/-- A linear operation on samples which keeps their number, such as removing the best straight line. -/
structure LinearOperation (d : List ℚ → List ℚ) : Prop where
  length : ∀ l, (d l).length = l.length
  add : ∀ l m, l.length = m.length → d (List.zipWith (· + ·) l m) = List.zipWith (· + ·) (d l) (d m)
  mul : ∀ (c : ℚ) l, d (l.map fun x => c * x) = (d l).map fun x => c * x

theorem getD_ext {l m : List ℚ} (h : l.length = m.length) (h' : ∀ j, l.getD j 0 = m.getD j 0) : l = m := by
  apply List.ext_getElem h
  intro i h1 h2
  have := h' i
  simpa [List.getD_eq_getElem?_getD, h1, h2] using this

theorem zipAdd_getD {l m : List ℚ} (h : l.length = m.length) (j : ℕ) :
    (List.zipWith (· + ·) l m).getD j 0 = l.getD j 0 + m.getD j 0 := by
  simp only [List.getD_eq_getElem?_getD, List.getElem?_zipWith]
  by_cases hj : j < l.length
  · simp [hj, show j < m.length by omega]
  · simp [List.getElem?_eq_none (not_lt.1 hj), List.getElem?_eq_none (show m.length ≤ j by omega)]

theorem mapMul_getD (c : ℚ) (l : List ℚ) (j : ℕ) : (l.map fun x => c * x).getD j 0 = c * l.getD j 0 := by
  simp only [List.getD_eq_getElem?_getD, List.getElem?_map]
  rcases l[j]? with _ | x <;> simp

theorem LinearOperation.combination {d : List ℚ → List ℚ} (hd : LinearOperation d) (n : ℕ) :
    ∀ (ws : List ℚ) (ls : List (List ℚ)), (∀ l ∈ ls, l.length = n) → ∃ s : List ℚ, s.length = n ∧
      (∀ j, s.getD j 0 = (List.zipWith (fun w l => w * l.getD j 0) ws ls).sum) ∧
      ∀ j, (d s).getD j 0 = (List.zipWith (fun w l => w * (d l).getD j 0) ws ls).sum := by
  have zero : ∃ s : List ℚ, s.length = n ∧ (∀ j, s.getD j 0 = 0) ∧ ∀ j, (d s).getD j 0 = 0 := by
    refine ⟨(List.replicate n 0).map fun (x : ℚ) => 0 * x, by simp, fun j => ?_, fun j => ?_⟩
    · rw [mapMul_getD, zero_mul]
    · rw [hd.mul, mapMul_getD, zero_mul]
  intro ws
  induction ws with
  | nil =>
    intro ls _
    obtain ⟨s, h1, h2, h3⟩ := zero
    exact ⟨s, h1, fun j => by simpa using h2 j, fun j => by simpa using h3 j⟩
  | cons w ws ih =>
    intro ls hls
    rcases ls with _ | ⟨l, ls⟩
    · obtain ⟨s, h1, h2, h3⟩ := zero
      exact ⟨s, h1, fun j => by simpa using h2 j, fun j => by simpa using h3 j⟩
    · obtain ⟨s, h1, h2, h3⟩ := ih ls fun m hm => hls m (List.mem_cons_of_mem _ hm)
      have hl := hls l List.mem_cons_self
      have e : (l.map fun x => w * x).length = s.length := by simp [hl, h1]
      refine ⟨List.zipWith (· + ·) (l.map fun x => w * x) s, by simp [hl, h1], fun j => ?_, fun j => ?_⟩
      · rw [zipAdd_getD e, mapMul_getD, h2]; simp
      · rw [hd.add _ _ e, zipAdd_getD (by rw [hd.length, hd.length, e]), hd.mul, mapMul_getD, h3]; simp

theorem keepsMeans_detrend {d : List ℚ → List ℚ} (hd : LinearOperation d) :
    KeepsMeans fun a b => b.source = a.source ∧
      b.sensors = a.sensors.map fun s => { s with ts := { s.ts with amp := d s.ts.amp } } := by
  intro ws A A' as as' h hA hs
  have samp : ∀ (a b : Arr), (b.source = a.source ∧
      b.sensors = a.sensors.map fun s => { s with ts := { s.ts with amp := d s.ts.amp } }) → ∀ i j,
      sample b i j = (d (a.sensors.getD i noSensor).ts.amp).getD j 0 := by
    rintro a b ⟨-, hb⟩ i j
    have hnil : d [] = [] := List.length_eq_zero_iff.1 (by rw [hd.length]; rfl)
    rw [sample_eq b i j noSensor rfl, hb]
    simp only [List.getD_eq_getElem?_getD, List.getElem?_map]
    rcases a.sensors[i]? with _ | s
    · simp [noSensor, hnil]
    · simp
  have shape : ∀ {l m : List Sensor}, List.Forall₂ Alike l m →
      List.Forall₂ Alike (l.map fun s => { s with ts := { s.ts with amp := d s.ts.amp } })
        (m.map fun s => { s with ts := { s.ts with amp := d s.ts.amp } }) := by
    intro l m hlm
    induction hlm with
    | nil => exact .nil
    | cons a _ ih =>
      refine .cons ⟨a.1, a.2.1, a.2.2.1, ?_⟩ ih
      obtain ⟨c1, c2, c3, c4⟩ := clock_eq a.2.2.2
      simp [clock, hd.length, c1, c2, c3, c4]
  refine ⟨by rw [h.weights, hs.length_eq], ?_, ?_⟩
  · intro a' ha'
    obtain ⟨a, ha, h1, h2⟩ := forall₂_mem_right hs ha'
    refine ⟨by rw [hA.1, h1, (h.shape a ha).1], ?_⟩
    rw [hA.2, h2]
    exact shape (h.shape a ha).2
  · funext i j
    have hlen : ∀ l ∈ as.map (fun a => (a.sensors.getD i noSensor).ts.amp),
        l.length = (A.sensors.getD i noSensor).ts.amp.length := by
      intro l hl
      obtain ⟨a, ha, rfl⟩ := List.mem_map.1 hl
      exact (clock_eq (forall₂_getD (h.shape a ha).2 i).2.2.2).1.symm
    obtain ⟨s, s1, s2, s3⟩ := hd.combination _ ws _ hlen
    have e1 : ∀ (ws : List ℚ) (as : List Arr) (j : ℕ), (List.zipWith (fun w a => w • sample a) ws as).sum i j =
        (List.zipWith (fun w l => w * l.getD j 0) ws (as.map fun a => (a.sensors.getD i noSensor).ts.amp)).sum := by
      intro ws
      induction ws with
      | nil => intro as j; simp
      | cons w ws ih =>
        intro as j
        rcases as with _ | ⟨a, as⟩
        · simp
        · simp only [List.zipWith_cons_cons, List.sum_cons, List.map_cons, Pi.add_apply, Pi.smul_apply, smul_eq_mul]
          rw [ih as j, sample_eq a i j noSensor rfl]
    have e2 : (List.zipWith (fun w a => w • sample a) ws as').sum i j =
        (List.zipWith (fun w l => w * (d l).getD j 0) ws (as.map fun a => (a.sensors.getD i noSensor).ts.amp)).sum := by
      clear h hlen s2 s3 s1 e1
      induction hs generalizing ws with
      | nil => simp
      | cons h1 _ ih =>
        rename_i a a' l l' _
        rcases ws with _ | ⟨w, ws⟩
        · simp
        · simp only [List.zipWith_cons_cons, List.sum_cons, List.map_cons, Pi.add_apply, Pi.smul_apply, smul_eq_mul]
          rw [ih ws, samp a a' h1 i j]
    have hsA : s = (A.sensors.getD i noSensor).ts.amp.map fun x => ws.sum * x := by
      refine getD_ext (by simp [s1]) fun j => ?_
      rw [s2, ← e1, h.mean, mapMul_getD]
      simp only [Pi.smul_apply, smul_eq_mul]
      rw [sample_eq A i j noSensor rfl]
    rw [e2, ← s3, hsA, hd.mul, mapMul_getD]
    simp only [Pi.smul_apply, smul_eq_mul]
    rw [samp A A' hA i j]

end Verif.Props
