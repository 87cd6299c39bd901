import Verif.Props.MeanRecords
import Verif.Props.SlantStack
import Mathlib.Algebra.Module.LinearMap.Basic
import Mathlib.Algebra.BigOperators.Module
import Mathlib.LinearAlgebra.Complex.Module

/-!
# C170: stacking shots before or after the slant stack
-/

namespace Verif.Props
open Verif WT Workflow

/-! ## Pre-processing -/

/-- Pre-processing of a record whose sensors all have the same times. -/
def Steps (env : Env) (set : Settings) (kw : Option Kwargs) (lines : Option Arr.Line × Option Arr.Line)
    (raw padded : Arr) : Prop :=
  ∃ near, trimOffsetsFl raw set.minOffset set.maxOffset = (near, .ok ()) ∧
  ∃ level : Arr, (level.source = near.source ∧ level.sensors =
    near.sensors.map fun s => { s with ts := { s.ts with amp := env.detrend s.ts.amp } }) ∧
  ∃ cut, (if set.trimApply then level.trim set.trimBegin set.trimEnd = (cut, .ok ()) else cut = level) ∧
  ∃ muted, (if set.muteApply then OneClock cut ∧ cut.mute (env.tukey kw) lines.1 lines.2 = (muted, .ok ())
    else muted = cut) ∧
  (if set.padApply then muted.zeroPad set.padDf = (padded, .ok ()) else padded = muted)

theorem Steps.keepsMeans (env : Env) (hd : LinearOperation env.detrend) (set : Settings) (kw : Option Kwargs)
    (lines : Option Arr.Line × Option Arr.Line) : KeepsMeans (Steps env set kw lines) :=
  (samplewise_offsets _ _).keepsMeans.comp <| (keepsMeans_detrend hd).comp <|
    (KeepsMeans.ite _ (samplewise_trim _ _).keepsMeans KeepsMeans.of_eq).comp <|
      (KeepsMeans.ite _ (samplewise_mute _ _ _).keepsMeans KeepsMeans.of_eq).comp <|
        KeepsMeans.ite _ (samplewise_zeroPad _).keepsMeans KeepsMeans.of_eq

theorem Steps.of_preprocessed {env : Env} {set : Settings} {kw : Option Kwargs}
    {lines : Option Arr.Line × Option Arr.Line} {raw near level cut muted padded : Arr}
    (hd : LinearOperation env.detrend) (hr : OneClock raw)
    (h : Spec.Preprocessed env set kw lines raw near level cut muted padded) : Steps env set kw lines raw padded := by
  obtain ⟨ρ, hρ⟩ := hr
  obtain ⟨p1, p2, p3, p4, p5, p6⟩ := h
  have hn : AllClock ρ near := fun s hs => hρ s ((trimOffsetsFl_sublist p1).1.subset hs)
  have hl := hn.detrended hd.length p3
  have hc : OneClock cut := by
    split_ifs at p4
    · exact ⟨_, hl.trim p4⟩
    · exact ⟨_, by rw [p4]; exact hl⟩
  refine ⟨near, p1, level, ⟨p2, p3⟩, cut, p4, muted, ?_, p6⟩
  split_ifs at p5 ⊢ with c
  · exact ⟨hc, p5⟩
  · exact p5

/-! ## Reading several files -/

theorem orderly_alone {fs : Fs} {format : String} {src : Source} {n : ℕ} {f : String} (ho : Orderly fs format src n f)
    {raw : Arr} (h : Arr.fromFiles fs [f] id id = .ok raw) :
    ∃ ts, fs f = some ts ∧ List.Forall₂ (fun t s => Sensor.fromTrace t {} = .ok s) ts raw.sensors ∧
      raw.source = src ∧ raw.sensors.length = n := by
  obtain ⟨traces, sensors, t, fmt, obj, g1, g2, g3, g4, g5, g6, g7⟩ := Arr.fromFiles_ok h
  simp only [Arr.stackFiles, Except.ok.injEq] at g7
  have hfmt : fmt = format := by
    have := ho.formats _ g1 t (List.mem_of_getLast? g3)
    rw [g4] at this; simpa using this
  subst hfmt
  have hs1 : raw.source = src := by
    have := ho.source _ g1 t (List.mem_of_getLast? g3)
    rw [g5] at this; simpa using this
  have hk : obj.sensors = sensors := by
    obtain ⟨⟨-, c1, -⟩, c2, -⟩ := Arr.init_consistent g6
    refine List.Perm.eq_of_pairwise (fun s t _ _ h1 h2 => ?_) c1 (ho.ascending _ _ g1 g2) c2
    exact absurd h1 (by have := h2; linarith)
  obtain ⟨ts', l1, l2⟩ := ho.channels
  rw [g1, Option.some.injEq] at l1
  subst l1
  refine ⟨_, g1, ?_, hs1, ?_⟩
  · rw [← g7, hk]; exact g2
  · rw [← g7, hk, ← g2.length_eq, l2]

/-- Sensors `ss'` after stacking the sensors `qs` on `ss`. -/
theorem stackTraces_forall : ∀ {ts : List Trace} {ss qs ss' : List Sensor},
    List.Forall₂ (fun t s => Sensor.fromTrace t {} = .ok s) ts qs → ss.length = qs.length →
    Arr.stackTraces ss ts = .ok ss' →
    ss'.length = ss.length ∧ ∀ i, i < ss.length →
      (ss.getD i noSensor).stackAppend (qs.getD i noSensor) = (ss'.getD i noSensor, .ok ()) := by
  intro ts ss qs ss' hq
  induction hq generalizing ss ss' with
  | nil =>
    intro hl h
    obtain rfl : ss = [] := List.length_eq_zero_iff.1 hl
    simp only [Arr.stackTraces, Except.ok.injEq] at h
    subst h
    exact ⟨rfl, fun i hi => by simp at hi⟩
  | cons h1 _ ih =>
    intro hl h
    rcases ss with _ | ⟨s, ss⟩
    · simp at hl
    obtain ⟨n, r', rs, a1, a2, a3, rfl⟩ := stackTraces_cons h
    rw [h1, Except.ok.injEq] at a1
    subst a1
    obtain ⟨e1, e2⟩ := ih (by simpa using hl) a3
    refine ⟨by simp [e1], fun i hi => ?_⟩
    cases i with
    | zero => simpa using a2
    | succ i => simpa using e2 i (by simpa using hi)

theorem sum_append_zip (ws : List ℚ) (as : List Arr) (w : ℚ) (a : Arr) (h : ws.length = as.length) :
    (List.zipWith (fun w a => w • sample a) (ws ++ [w]) (as ++ [a])).sum =
      (List.zipWith (fun w a => w • sample a) ws as).sum + w • sample a := by
  rw [List.zipWith_append h]
  simp

/-- What is kept while files are stacked: the sensors are the mean of the files read so far, weighted by their stack
counts, and carry the sum of the counts. -/
structure Stacked (src : Source) (ws : List ℤ) (ss : List Sensor) (as : List Arr) : Prop where
  mean : WeightedMean (ws.map fun (w : ℤ) => (w : ℚ)) ⟨ss, src⟩ as
  counts : ∀ s ∈ ss, s.ts.nstacks = ws.sum
  multiple : ∀ s ∈ ss, s.ts.multiple = 1
  positive : 0 < ws.sum

theorem forall₂_of_getD {R : Sensor → Sensor → Prop} {l m : List Sensor} (hl : l.length = m.length)
    (h : ∀ i, i < l.length → R (l.getD i noSensor) (m.getD i noSensor)) : List.Forall₂ R l m := by
  induction l generalizing m with
  | nil =>
    obtain rfl : m = [] := List.length_eq_zero_iff.1 hl.symm
    exact .nil
  | cons a l ih =>
    rcases m with _ | ⟨b, m⟩
    · simp at hl
    · refine .cons (by simpa using h 0 (by simp)) (ih (by simpa using hl) fun i hi => ?_)
      simpa using h (i + 1) (by simpa using hi)

theorem getD_member {l : List Sensor} {i : ℕ} (h : i < l.length) : l.getD i noSensor ∈ l := by
  simp [List.getD_eq_getElem?_getD, h]

theorem Stacked.step {src : Source} {ws : List ℤ} {ss ss' : List Sensor} {as : List Arr} {q : Arr} {w : ℤ}
    {ts : List Trace} (h : Stacked src ws ss as) (hw : 0 < w) (hc : ∀ s ∈ q.sensors, s.ts.nstacks = w)
    (hsrc : q.source = src) (hl : ss.length = q.sensors.length)
    (hq : List.Forall₂ (fun t s => Sensor.fromTrace t {} = .ok s) ts q.sensors)
    (hst : Arr.stackTraces ss ts = .ok ss') : Stacked src (ws ++ [w]) ss' (as ++ [q]) := by
  obtain ⟨e1, e2⟩ := stackTraces_forall hq hl hst
  have hmul : ∀ s ∈ q.sensors, s.ts.multiple = 1 := by
    intro s hs
    obtain ⟨t, -, ht⟩ := forall₂_mem_right hq hs
    exact (Sensor.fromTrace_pos rfl ht).2.2
  have hsum : (ws ++ [w]).sum = ws.sum + w := by simp
  have hpos : (0 : ℚ) < ws.sum + w := by exact_mod_cast add_pos h.positive hw
  -- one sensor
  have one : ∀ i, i < ss.length →
      Alike (ss.getD i noSensor) (ss'.getD i noSensor) ∧ Alike (q.sensors.getD i noSensor) (ss'.getD i noSensor) ∧
      (ss'.getD i noSensor).ts.nstacks = ws.sum + w ∧
      ∀ j, ((ws.sum : ℚ) + w) * (ss'.getD i noSensor).ts.amp.getD j 0 =
        ws.sum * (ss.getD i noSensor).ts.amp.getD j 0 + w * (q.sensors.getD i noSensor).ts.amp.getD j 0 := by
    intro i hi
    have a1 := e2 i hi
    have m1 := h.multiple _ (getD_member hi)
    have m2 := hmul _ (getD_member (by omega : i < q.sensors.length))
    have n1 := h.counts _ (getD_member hi)
    have n2 := hc _ (getD_member (by omega : i < q.sensors.length))
    generalize ss.getD i noSensor = s, q.sensors.getD i noSensor = r, ss'.getD i noSensor = s' at a1 m1 m2 n1 n2
    obtain ⟨x1, y1, z1, x2, y2, z2, hs⟩ := (Sensor.stackAppend_ok_iff _ _ _).1 a1
    obtain ⟨⟨b1, b2, b3⟩, b4⟩ := (ATS.stackAppend_ok_iff _ _ _).1 hs
    have b3' : s.ts.amp.length = r.ts.amp.length := b3
    have hlen : s'.ts.amp.length = s.ts.amp.length := by rw [b4]; simp [b3']
    have hck : clock s.ts = clock s'.ts := by
      simp only [clock, hlen]
      rw [b4]
    refine ⟨⟨x2.symm, y2.symm, z2.symm, hck⟩, ⟨by rw [x2, x1], by rw [y2, y1], by rw [z2, z1], ?_⟩, ?_, ?_⟩
    · rw [← hck]
      simp [clock, b1, b2, b3', m1, m2]
    · rw [b4]; simp [n1, n2]
    · intro j
      rw [b4]
      simp only [n1, n2, List.getD_eq_getElem?_getD, List.getElem?_map, List.getElem?_zipWith]
      by_cases hj : j < s.ts.amp.length
      · simp only [List.getElem?_eq_getElem hj, List.getElem?_eq_getElem (show j < r.ts.amp.length by omega),
          Option.map_some, Option.getD_some]
        rw [Int.cast_add, mul_div_cancel₀ _ hpos.ne']
        ring
      · simp [List.getElem?_eq_none (not_lt.1 hj), List.getElem?_eq_none (show r.ts.amp.length ≤ j by omega)]
  have f1 : List.Forall₂ Alike ss' ss :=
    forall₂_of_getD e1 fun i hi => by
      obtain ⟨⟨k1, k2, k3, k4⟩, -⟩ := one i (by omega)
      exact ⟨k1.symm, k2.symm, k3.symm, k4.symm⟩
  have f2 : List.Forall₂ Alike ss' q.sensors :=
    forall₂_of_getD (by omega) fun i hi => by
      obtain ⟨-, ⟨k1, k2, k3, k4⟩, -⟩ := one i (by omega)
      exact ⟨k1.symm, k2.symm, k3.symm, k4.symm⟩
  have tr : ∀ {x y z : List Sensor}, List.Forall₂ Alike x y → List.Forall₂ Alike y z → List.Forall₂ Alike x z := by
    intro x y z hxy
    induction hxy generalizing z with
    | nil => intro h; cases h; exact .nil
    | cons a _ ih =>
      intro h
      cases h with
      | cons c d =>
        exact .cons ⟨a.1.trans c.1, a.2.1.trans c.2.1, a.2.2.1.trans c.2.2.1, a.2.2.2.trans c.2.2.2⟩ (ih d)
  refine ⟨⟨by have := h.mean.weights; simp at this ⊢; exact this, ?_, ?_⟩, ?_, ?_, ?_⟩
  · intro a ha
    rcases List.mem_append.1 ha with ha | ha
    · have := h.mean.shape a ha
      exact ⟨this.1, tr f1 this.2⟩
    · rw [List.mem_singleton.1 ha]
      exact ⟨hsrc.symm, f2⟩
  · have hcast : (List.map (fun (w : ℤ) => (w : ℚ)) ws).sum = (ws.sum : ℚ) := by
      push_cast; rfl
    rw [List.map_append, List.map_singleton, sum_append_zip _ _ _ _ h.mean.weights, h.mean.mean]
    funext i j
    simp only [Pi.add_apply, Pi.smul_apply, smul_eq_mul, List.sum_append, List.sum_singleton, hcast]
    rw [sample_eq ⟨ss, src⟩ i j noSensor rfl, sample_eq q i j noSensor rfl, sample_eq ⟨ss', src⟩ i j noSensor rfl]
    by_cases hi : i < ss.length
    · exact ((one i hi).2.2.2 j).symm
    · simp [List.getD_eq_getElem?_getD, List.getElem?_eq_none (not_lt.1 hi),
        List.getElem?_eq_none (show q.sensors.length ≤ i by omega),
        List.getElem?_eq_none (show ss'.length ≤ i by omega), noSensor]
  · intro s hs
    obtain ⟨i, hi, rfl⟩ := List.mem_iff_getElem.1 hs
    have := (one i (by omega)).2.2.1
    rw [hsum, ← this]
    simp [List.getD_eq_getElem?_getD, hi]
  · intro s hs
    obtain ⟨s0, hs0, k⟩ := forall₂_mem_right f1.flip hs
    rw [(clock_eq k.2.2.2).2.2.2]
    exact h.multiple s0 hs0
  · rw [hsum]; exact add_pos h.positive hw

theorem fromFiles_weightedMean {fs : Fs} {format : String} {src : Source} {n : ℕ} {f0 : String} {rest : List String}
    {raw : Arr} {w : String → ℤ} (ho : ∀ f ∈ f0 :: rest, Orderly fs format src n f)
    (hw : ∀ f ∈ f0 :: rest, ∀ a, Arr.fromFiles fs [f] id id = .ok a → ∀ s ∈ a.sensors, s.ts.nstacks = w f)
    (hw0 : ∀ f ∈ f0 :: rest, 0 < w f)
    (h : Arr.fromFiles fs (f0 :: rest) id id = .ok raw) :
    ∀ as, List.Forall₂ (fun f a => Arr.fromFiles fs [f] id id = .ok a) (f0 :: rest) as →
      WeightedMean ((f0 :: rest).map fun f => (w f : ℚ)) raw as := by
  intro as has
  cases has with
  | cons h0 hr =>
    rename_i a0 as
    obtain ⟨traces, sensors, t, fmt, obj, g1, g2, g3, g4, g5, g6, g7⟩ := Arr.fromFiles_ok h
    obtain ⟨ts0, k1, k2, k3, k4⟩ := orderly_alone (ho f0 List.mem_cons_self) h0
    have hfmt : fmt = format := by
      have := (ho f0 List.mem_cons_self).formats _ g1 t (List.mem_of_getLast? g3)
      rw [g4] at this; simpa using this
    subst hfmt
    have hs1 : raw.source = src := by
      have := (ho f0 List.mem_cons_self).source _ g1 t (List.mem_of_getLast? g3)
      rw [g5] at this; simpa using this
    have hobj : obj.sensors = a0.sensors := by
      obtain ⟨traces', sensors', t', fmt', obj', q1, q2, q3, q4, q5, q6, q7⟩ := Arr.fromFiles_ok h0
      rw [g1, Option.some.injEq] at q1
      subst q1
      have : sensors' = sensors := by
        have s1 := Arr.sensorsOf_ok.2 g2
        have s2 := Arr.sensorsOf_ok.2 q2
        rw [s1] at s2
        simpa using s2.symm
      subst this
      rw [hs1] at g6
      rw [k3, g6, Except.ok.injEq] at q6
      subst q6
      simpa [Arr.stackFiles] using q7
    have inv0 : Stacked src [w f0] obj.sensors [a0] := by
      rw [hobj]
      refine ⟨⟨rfl, ?_, ?_⟩, ?_, ?_, ?_⟩
      · intro a ha
        rw [List.mem_singleton.1 ha]
        exact ⟨k3.symm, (SameShape.refl a0).2⟩
      · funext i j
        simp [sample]
      · intro s hs
        simpa using hw f0 List.mem_cons_self a0 h0 s hs
      · intro s hs
        obtain ⟨t, -, ht⟩ := forall₂_mem_right k2 hs
        exact (Sensor.fromTrace_pos rfl ht).2.2
      · simpa using hw0 f0 List.mem_cons_self
    have loop : ∀ (rest : List String) (as : List Arr) (ws : List ℤ) (ss ss' : List Sensor) (done : List Arr),
        (∀ f ∈ rest, Orderly fs fmt src n f) →
        (∀ f ∈ rest, ∀ a, Arr.fromFiles fs [f] id id = .ok a → ∀ s ∈ a.sensors, s.ts.nstacks = w f) →
        (∀ f ∈ rest, 0 < w f) → ss.length = n →
        List.Forall₂ (fun f a => Arr.fromFiles fs [f] id id = .ok a) rest as → Stacked src ws ss done →
        Arr.stackFiles fs fmt id id src ss rest = .ok ss' → Stacked src (ws ++ rest.map w) ss' (done ++ as) := by
      intro rest
      induction rest with
      | nil =>
        intro as ws ss ss' done _ _ _ _ hr hst h
        cases hr
        simp only [Arr.stackFiles, Except.ok.injEq] at h
        subst h
        simpa using hst
      | cons f rest ih =>
        intro as ws ss ss' done ho hw hw0 hl hr hst h
        cases hr with
        | cons r1 r2 =>
          rename_i a as
          obtain ⟨u, us, nsrc, ss1, c1, c2, c3, c4, c5⟩ := stackFiles_cons.1 h
          obtain ⟨ts, l1, l2, l3, l4⟩ := orderly_alone (ho f List.mem_cons_self) r1
          rw [c1, Option.some.injEq] at l1
          subst l1
          have st := hst.step (hw0 f List.mem_cons_self) (hw f List.mem_cons_self a r1) l3 (by omega) l2 c4
          have := ih as (ws ++ [w f]) ss1 ss' (done ++ [a]) (fun g hg => ho g (List.mem_cons_of_mem _ hg))
            (fun g hg => hw g (List.mem_cons_of_mem _ hg)) (fun g hg => hw0 g (List.mem_cons_of_mem _ hg))
            (by rw [(stackTraces_forall l2 (by omega) c4).1, hl]) r2 st c5
          simpa [List.append_assoc] using this
    have fin := loop rest as [w f0] obj.sensors raw.sensors [a0] (fun g hg => ho g (List.mem_cons_of_mem _ hg))
      (fun g hg => hw g (List.mem_cons_of_mem _ hg)) (fun g hg => hw0 g (List.mem_cons_of_mem _ hg))
      (by rw [hobj, k4]) hr inv0 (by rw [← hs1]; exact g7)
    have := fin.mean
    rw [← hs1] at this
    simpa [List.map_map, Function.comp_def] using this

/-! ## The slant stack is linear -/

theorem trapezoidSum_add (x : List ℚ) (g h : ℕ → ℚ) :
    trapezoidSum x (fun k => g k + h k) = trapezoidSum x g + trapezoidSum x h := by
  unfold trapezoidSum
  rw [← List.sum_map_add]
  refine congrArg List.sum (List.map_congr_left fun k _ => ?_)
  ring

theorem trapezoidSum_mul (x : List ℚ) (c : ℚ) (g : ℕ → ℚ) :
    trapezoidSum x (fun k => c * g k) = c * trapezoidSum x g := by
  unfold trapezoidSum
  rw [← List.sum_map_mul_left]
  refine congrArg List.sum (List.map_congr_left fun k _ => ?_)
  ring

theorem trapezoidSum_congr {x : List ℚ} {g h : ℕ → ℚ} (hgh : ∀ k, k < x.length → g k = h k) :
    trapezoidSum x g = trapezoidSum x h := by
  unfold trapezoidSum
  refine congrArg List.sum (List.map_congr_left fun k hk => ?_)
  have := List.mem_range.1 hk
  rw [hgh k (by omega), hgh (k + 1) (by omega)]

/-- The trace with the samples `u`, interpolated as in `linearAt`. -/
def interpolated (u : ℕ → ℚ) (dt t : ℚ) : ℚ :=
  u ⌊t / dt⌋.toNat * (1 - (t / dt - ⌊t / dt⌋)) + u (⌊t / dt⌋.toNat + 1) * (t / dt - ⌊t / dt⌋)

/-- The slant stack of samples `x`, the traces taken in the order `o`. -/
def slantOf (offsets : List ℚ) (xmin dt v tau : ℚ) (o : ℕ → ℕ) (x : ℕ → ℕ → ℚ) : ℚ :=
  trapezoidSum offsets fun k => interpolated (x (o k)) dt (tau + (offsets.getD k 0 - xmin) / v)

theorem slantOf_linear (offsets : List ℚ) (xmin dt v tau : ℚ) (o : ℕ → ℕ) :
    IsLinearMap ℚ (slantOf offsets xmin dt v tau o) := by
  refine ⟨fun x y => ?_, fun c x => ?_⟩
  · unfold slantOf
    rw [← trapezoidSum_add]
    refine trapezoidSum_congr fun k _ => ?_
    simp only [interpolated, Pi.add_apply]
    ring
  · unfold slantOf
    rw [smul_eq_mul, ← trapezoidSum_mul]
    refine trapezoidSum_congr fun k _ => ?_
    simp only [interpolated, Pi.smul_apply, smul_eq_mul]
    ring

/-- One value of the image: the Fourier transform over the delays of the slant stack at one velocity. -/
noncomputable def imageOf (offsets : List ℚ) (xmin dt v : ℚ) (o : ℕ → ℕ) (nt N k : ℕ) (x : ℕ → ℕ → ℚ) : ℂ :=
  ∑ m ∈ Finset.range N, ((if m < nt then slantOf offsets xmin dt v (m * dt) o x else 0 : ℚ) : ℂ) *
    Complex.exp (-(2 * Real.pi * k * m / N : ℝ) * Complex.I)

theorem imageOf_linear (offsets : List ℚ) (xmin dt v : ℚ) (o : ℕ → ℕ) (nt N k : ℕ) :
    IsLinearMap ℚ (imageOf offsets xmin dt v o nt N k) := by
  refine ⟨fun x y => ?_, fun c x => ?_⟩
  · unfold imageOf
    rw [← Finset.sum_add_distrib]
    refine Finset.sum_congr rfl fun m _ => ?_
    rw [(slantOf_linear offsets xmin dt v (m * dt) o).map_add]
    split_ifs
    · push_cast; ring
    · simp
  · unfold imageOf
    rw [Finset.smul_sum]
    refine Finset.sum_congr rfl fun m _ => ?_
    rw [(slantOf_linear offsets xmin dt v (m * dt) o).map_smul]
    split_ifs
    · rw [smul_eq_mul, Rat.smul_def]; push_cast; ring
    · simp

theorem linearAt_eq (u : List ℚ) (dt t : ℚ) : linearAt u dt t = interpolated (fun j => u.getD j 0) dt t := rfl

theorem fftPadded_eq (u : List ℚ) (N k : ℕ) : Builtin.fftPadded u N k =
    ∑ m ∈ Finset.range N, ((u.getD m 0 : ℚ) : ℂ) * Complex.exp (-(2 * Real.pi * k * m / N : ℝ) * Complex.I) := by
  unfold Builtin.fftPadded fftBin
  have hl : ((u ++ List.replicate (N - u.length) 0).take N).length = N := by simp; omega
  rw [hl]
  refine Finset.sum_congr rfl fun m hm => ?_
  have hm' := Finset.mem_range.1 hm
  have : ((u ++ List.replicate (N - u.length) 0).take N).getD m 0 = u.getD m 0 := by
    rw [← getD_append_zeros u (N - u.length) m]
    simp only [List.getD_eq_getElem?_getD]
    rw [List.getElem?_take_of_lt hm']
  rw [this]

theorem flipped_ok {a : Arr} {tm : List (List ℚ)} {offs : List ℚ} (h : a.flippedTseriesAndOffsets = .ok (tm, offs)) :
    ∃ flip, a.flipRequired = .ok flip ∧ tm = (if flip then a.timeseriesmatrix.reverse else a.timeseriesmatrix) ∧
      offs = if flip then a.offsets.reverse else a.offsets := by
  unfold Arr.flippedTseriesAndOffsets at h
  obtain ⟨flip, hf, h⟩ := bind_ok h
  refine ⟨flip, hf, ?_⟩
  cases flip <;> cases h <;> exact ⟨rfl, rfl⟩

/-- Which sensor is trace `k`. -/
def order (n : ℕ) (flip : Bool) (k : ℕ) : ℕ := if flip then n - 1 - k else k

theorem traces_getD (a : Arr) (flip : Bool) (k : ℕ) (hk : k < a.sensors.length) (j : ℕ) :
    ((if flip then a.timeseriesmatrix.reverse else a.timeseriesmatrix).getD k []).getD j 0 =
      sample a (order a.sensors.length flip k) j := by
  unfold sample order
  cases flip
  · rfl
  · simp only [if_true, Arr.timeseriesmatrix]
    congr 1
    simp only [List.getD_eq_getElem?_getD]
    rw [List.getElem?_reverse (by simpa using hk)]
    simp

theorem slant_image {geom : ℚ → ℚ → ℕ → List ℚ} (hg : ∀ a b n, (geom a b n).length = n) {A : Arr} {set : Settings}
    {T : Transform} {ρ : ATS} (hA : Builtin.slantStack geom A set = .ok T) (hcl : AllClock ρ A) (hdt : 0 < ρ.dt)
    (hv : ∀ vels, Builtin.velocitiesQ geom set = .ok vels → ∀ v ∈ vels, 0 < v) :
    ∃ G : ℕ → ℕ → (ℕ → ℕ → ℚ) → ℂ, (∀ v c, IsLinearMap ℚ (G v c)) ∧
      ∀ b t, SameShape A b → Builtin.slantStack geom b set = .ok t → t.frequencies = T.frequencies ∧
        ∀ v c, v < set.nvel.toNat → c < T.frequencies.length → cell t.power v c = some (G v c (sample b)) := by
  -- the parts of one slant stack
  have parts : ∀ (b : Arr) (t : Transform), AllClock ρ b → Builtin.slantStack geom b set = .ok t →
      ∃ (vels : List ℚ) (flip : Bool) (ids : List ℕ) (xmin : ℚ) (nt : ℕ), Builtin.velocitiesQ geom set = .ok vels ∧ b.flipRequired = .ok flip ∧
        keepIds (binFrequencies ρ.nsamples ρ.dfInternal) set.fmin set.fmax ρ.multiple = .ok ids ∧
        t.frequencies = ids.map (fun k => (binFrequencies ρ.nsamples ρ.dfInternal).getD k 0) ∧
        (xmin ∈ (if flip then b.offsets.reverse else b.offsets) ∧
          ∀ x ∈ (if flip then b.offsets.reverse else b.offsets), xmin ≤ x) ∧
        (∀ x ∈ (if flip then b.offsets.reverse else b.offsets), ∀ v ∈ vels,
          (nt : ℤ) + ⌊(x - xmin) / v / ρ.dt⌋ + 1 ≤ ρ.nsamples) ∧
        (∃ x ∈ (if flip then b.offsets.reverse else b.offsets), ∃ v ∈ vels,
          (nt : ℤ) + ⌊(x - xmin) / v / ρ.dt⌋ + 1 = ρ.nsamples) ∧
        t.power = vels.map fun v => ids.map fun k =>
          imageOf (if flip then b.offsets.reverse else b.offsets) xmin ρ.dt v (order b.sensors.length flip) nt
            ρ.nsamples k (sample b) := by
    intro b t hb h
    unfold Builtin.slantStack at h
    obtain ⟨vels, hvels, h⟩ := bind_ok h
    obtain ⟨rows, hrows, h⟩ := bind_ok h
    split at h
    · cases h
    rename_i s ss hs
    obtain ⟨ids, hids, h⟩ := bind_ok h
    cases h
    have hsc := clock_eq (hb s (by rw [hs]; exact List.mem_cons_self))
    have e1 : s.ts.nsamples = ρ.nsamples := hsc.1
    have e2 : s.ts.dfInternal = ρ.dfInternal := by simp [ATS.dfInternal, ATS.nsamples, hsc.1, hsc.2.1]
    rw [e1, e2, hsc.2.2.2] at hids
    unfold slantStackOfArray at hrows
    obtain ⟨⟨tm, offs⟩, hfl, hrows⟩ := bind_ok hrows
    simp only [hs] at hrows
    obtain ⟨flip, f1, f2, f3⟩ := flipped_ok hfl
    rw [hsc.2.1] at hrows
    have hlo : offs.length = b.sensors.length := by
      rw [f3]; split_ifs <;> simp [Arr.offsets, Arr.position]
    have hlt : tm.length = b.sensors.length := by
      rw [f2]; split_ifs <;> simp [Arr.timeseriesmatrix]
    have hvne : vels ≠ [] := by
      intro h0
      rw [h0] at hrows
      unfold slantStack at hrows
      split at hrows <;> simp_all
    have hin : SlantInput tm offs ρ.dt vels ρ.nsamples := by
      refine ⟨?_, by rw [hlt, hlo], ?_, hdt, hvne, hv vels hvels⟩
      · intro h0; rw [h0, hs] at hlo; simp at hlo
      · intro u hu
        have : u ∈ b.timeseriesmatrix := by
          rw [f2] at hu
          split_ifs at hu
          · exact List.mem_reverse.1 hu
          · exact hu
        obtain ⟨q, hq, rfl⟩ := List.mem_map.1 this
        exact (clock_eq (hb q hq)).1
    rcases C67_slant_stack tm offs ρ.dt vels ρ.nsamples hin with h0 | ⟨xmin, nt, g1, g2, g3, g4⟩
    · rw [h0] at hrows; cases hrows
    rw [g4, Except.ok.injEq] at hrows
    subst hrows
    refine ⟨vels, flip, ids, xmin, nt, hvels, f1, hids, by rw [e1, e2], ?_, ?_, ?_, ?_⟩
    · rw [← f3]; exact g1
    · rw [← f3]; exact g2
    · rw [← f3]; exact g3
    · rw [← f3]
      simp only [List.map_map, e1]
      refine List.map_congr_left fun v _ => ?_
      simp only [Function.comp]
      refine List.map_congr_left fun k _ => ?_
      rw [fftPadded_eq]
      unfold imageOf
      refine Finset.sum_congr rfl fun m _ => ?_
      congr 2
      simp only [List.getD_eq_getElem?_getD, List.getElem?_map]
      by_cases hm : m < nt
      · rw [if_pos hm, List.getElem?_range hm]
        simp only [Option.map_some, Option.getD_some]
        unfold slantSpec slantOf
        refine trapezoidSum_congr fun i hi => ?_
        rw [linearAt_eq, f2]
        refine congrArg (fun u => interpolated u _ _) (funext fun j => ?_)
        exact traces_getD b flip i (by omega) j
      · rw [if_neg hm, List.getElem?_eq_none (by simpa using hm)]
        rfl
  obtain ⟨vels, flip, ids, xmin, nt, a1, a2, a3, a4, a5, a6, a7, a8⟩ := parts A T hcl hA
  have hnv : vels.length = set.nvel.toNat := by
    unfold Builtin.velocitiesQ at a1
    split_ifs at a1 <;> cases a1 <;> simp [hg]
  refine ⟨fun v c => imageOf (if flip then A.offsets.reverse else A.offsets) xmin ρ.dt (vels.getD v 0)
    (order A.sensors.length flip) nt ρ.nsamples (ids.getD c 0), fun v c => imageOf_linear _ _ _ _ _ _ _ _, ?_⟩
  intro b t hb ht
  have hbc : AllClock ρ b := by
    intro s hs
    obtain ⟨s0, hs0, k⟩ := forall₂_mem_right hb.2 hs
    rw [← k.2.2.2]
    exact hcl s0 hs0
  obtain ⟨vels', flip', ids', xmin', nt', b1, b2, b3, b4, b5, b6, b7, b8⟩ := parts b t hbc ht
  rw [a1, Except.ok.injEq] at b1
  subst b1
  have hfl : flip' = flip := by
    have : b.flipRequired = A.flipRequired := by
      unfold Arr.flipRequired
      rw [hb.position, hb.1]
    rw [this, a2, Except.ok.injEq] at b2
    exact b2.symm
  subst hfl
  rw [a3, Except.ok.injEq] at b3
  subst b3
  rw [← hb.offsets] at b5 b6 b7 b8
  have hx : xmin' = xmin := le_antisymm (b5.2 _ a5.1) (a5.2 _ b5.1)
  subst hx
  have hnt : nt' = nt := by
    obtain ⟨x, hx, v, hv, e⟩ := a7
    obtain ⟨x', hx', v', hv', e'⟩ := b7
    have h1 := b6 x hx v hv
    have h2 := a6 x' hx' v' hv'
    omega
  subst hnt
  refine ⟨by rw [a4, b4], fun v c hvl hcl => ?_⟩
  rw [a4, List.length_map] at hcl
  unfold cell
  rw [b8, ← hb.length]
  simp [List.getD_eq_getElem?_getD, hnv, hvl, hcl]

theorem linear_mean {G : (ℕ → ℕ → ℚ) → ℂ} (hG : IsLinearMap ℚ G) {ws : List ℚ} {A : Arr} {as : List Arr}
    (h : WeightedMean ws A as) :
    (List.zipWith (fun (w : ℚ) a => (w : ℂ) * G (sample a)) ws as).sum = (ws.sum : ℚ) * G (sample A) := by
  have key : ∀ (ws : List ℚ) (as : List Arr), (List.zipWith (fun (w : ℚ) a => (w : ℂ) * G (sample a)) ws as).sum =
      G (List.zipWith (fun w a => w • sample a) ws as).sum := by
    intro ws
    induction ws with
    | nil => intro as; simp [hG.map_zero]
    | cons w ws ih =>
      intro as
      rcases as with _ | ⟨a, as⟩
      · simp [hG.map_zero]
      · simp only [List.zipWith_cons_cons, List.sum_cons]
        rw [ih, hG.map_add, hG.map_smul, Rat.smul_def]
  rw [key, h.mean, hG.map_smul, Rat.smul_def]

/-! ## Theorems -/

theorem Steps.congr {env : Env} {set : Settings} {kw kw' : Option Kwargs}
    {lines lines' : Option Arr.Line × Option Arr.Line} {a b : Arr}
    (h : set.muteApply = true → env.tukey kw = env.tukey kw' ∧ lines = lines') (hs : Steps env set kw lines a b) :
    Steps env set kw' lines' a b := by
  obtain ⟨near, h1, level, h2, cut, h3, muted, h4, h5⟩ := hs
  refine ⟨near, h1, level, h2, cut, h3, muted, ?_, h5⟩
  split_ifs at h4 ⊢ with c
  · obtain ⟨e1, e2⟩ := h c
    rw [← e1, ← e2]
    exact h4
  · exact h4

/-- Shots which may be stacked: files of one format and one source position which list the same number of receivers in
order of position and are accepted on their own, with `npts` samples `dt` apart beginning at `delay`; `count f` shots
are stacked in file `f`. -/
structure Shots (env : Env) (count : String → ℤ) (npts : ℕ) (dt delay : ℚ) (names : List String) : Prop where
  unmapped : env.mapX = id ∧ env.mapY = id
  orderly : ∃ format src n, ∀ f ∈ names, Orderly env.fs format src n f
  recorded : ∀ f ∈ names, RecordedAs env npts dt delay f
  dt_pos : 0 < dt
  counts : ∀ f ∈ names, ∀ a, fromFiles env (.one f) = .ok a → ∀ s ∈ a.sensors, s.ts.nstacks = count f

theorem Shots.count_pos {env : Env} {count : String → ℤ} {npts : ℕ} {dt delay : ℚ} {names : List String}
    (h : Shots env count npts dt delay names) {f : String} (hf : f ∈ names) {a : Arr}
    (ha : fromFiles env (.one f) = .ok a) (hne : a.sensors ≠ []) : 0 < count f := by
  obtain ⟨s, ss, hs⟩ := List.exists_cons_of_ne_nil hne
  have hm : s ∈ a.sensors := by rw [hs]; exact List.mem_cons_self
  rw [← h.counts f hf a ha s hm]
  have h1 := lift_ok ha
  obtain ⟨traces, sensors, t, format, obj, -, g2, -, -, -, g6, g7⟩ := Arr.fromFiles_ok h1
  simp only [Arr.stackFiles, Except.ok.injEq] at g7
  rw [← g7] at hm
  obtain ⟨tr, -, ht⟩ := forall₂_mem_right g2 ((Arr.init_consistent g6).2.1.mem_iff.1 hm)
  exact (Sensor.fromTrace_pos rfl ht).1

/-- The stacked record is the mean of the records of the files, and has their clock. -/
theorem Shots.stacked {env : Env} {count : String → ℤ} {npts : ℕ} {dt delay : ℚ} {f0 : String} {rest : List String}
    (hsh : Shots env count npts dt delay (f0 :: rest)) {raw : Arr}
    (hraw : fromFiles env (.many (f0 :: rest)) = .ok raw) :
    (∀ f ∈ f0 :: rest, 0 < count f) ∧ AllClock ⟨List.replicate npts 0, dt, 1, delay, 1⟩ raw ∧
      ∀ as, List.Forall₂ (fun f a => fromFiles env (.one f) = .ok a) (f0 :: rest) as →
        WeightedMean ((f0 :: rest).map fun f => (count f : ℚ)) raw as := by
  obtain ⟨m1, m2⟩ := hsh.unmapped
  obtain ⟨format, src, n, ho⟩ := hsh.orderly
  have one_eq : ∀ f a, fromFiles env (.one f) = .ok a ↔ Arr.fromFiles env.fs [f] id id = .ok a := by
    intro f a
    constructor
    · intro h; have := lift_ok h; rwa [m1, m2] at this
    · intro h; show Workflow.lift _ = _; rw [m1, m2, h]; rfl
  -- files which are read have sensors
  have nonempty : ∀ f ∈ f0 :: rest, ∀ a, fromFiles env (.one f) = .ok a → a.sensors ≠ [] := by
    intro f hf a ha h0
    have h1 := lift_ok ha
    obtain ⟨traces, sensors, t, format, obj, -, g2, g3, -, -, g6, g7⟩ := Arr.fromFiles_ok h1
    simp only [Arr.stackFiles, Except.ok.injEq] at g7
    have hl := (Arr.init_consistent g6).2.1.length_eq
    rw [g7, h0, ← g2.length_eq] at hl
    have : traces = [] := List.length_eq_zero_iff.1 hl.symm
    rw [this] at g3
    simp at g3
  have readable : ∀ f ∈ f0 :: rest, ∃ a, fromFiles env (.one f) = .ok a := by
    intro f hf
    obtain ⟨a, ha⟩ := (ho f hf).alone
    exact ⟨a, (one_eq f a).2 ha⟩
  have hpos : ∀ f ∈ f0 :: rest, 0 < count f := by
    intro f hf
    obtain ⟨a, ha⟩ := readable f hf
    exact hsh.count_pos hf ha (nonempty f hf a ha)
  have hmean : ∀ as, List.Forall₂ (fun f a => fromFiles env (.one f) = .ok a) (f0 :: rest) as →
      WeightedMean ((f0 :: rest).map fun f => (count f : ℚ)) raw as := by
    intro as k1
    refine fromFiles_weightedMean ho (fun f hf a ha => hsh.counts f hf a ((one_eq f a).2 ha)) hpos ?_ as
      (k1.imp fun f a h => (one_eq f a).1 h)
    have := lift_ok hraw
    rwa [m1, m2] at this
  have collect : ∀ names : List String, (∀ f ∈ names, ∃ a, fromFiles env (.one f) = .ok a) →
      ∃ as, List.Forall₂ (fun f a => fromFiles env (.one f) = .ok a) names as := by
    intro names hn
    induction names with
    | nil => exact ⟨[], .nil⟩
    | cons f names ih =>
      obtain ⟨a, ha⟩ := hn f List.mem_cons_self
      obtain ⟨as, has⟩ := ih fun g hg => hn g (List.mem_cons_of_mem _ hg)
      exact ⟨a :: as, .cons ha has⟩
  obtain ⟨as, k1⟩ := collect _ readable
  refine ⟨hpos, ?_, hmean⟩
  have hmean := hmean as k1
  cases k1 with
  | cons h0 _ =>
    have c0 := (hsh.recorded f0 List.mem_cons_self).allClock h0
    have sh := hmean.shape _ List.mem_cons_self
    intro s hs
    obtain ⟨s0, hs0, k⟩ := forall₂_mem_right sh.2.flip hs
    rw [k.2.2.2]
    exact c0 s0 hs0

theorem slant_core {env : Env} {set : Settings} {geom : ℚ → ℚ → ℕ → List ℚ}
    (hg : ∀ a b n, (geom a b n).length = n) (hd : LinearOperation env.detrend)
    (hv : ∀ vels, Builtin.velocitiesQ geom set = .ok vels → ∀ v ∈ vels, 0 < v)
    {count : String → ℤ} {npts : ℕ} {dt delay : ℚ} {f0 : String} {rest : List String}
    (hsh : Shots env count npts dt delay (f0 :: rest)) {lines : Option Arr.Line × Option Arr.Line}
    {raw P : Arr} {T : Transform} (hraw : fromFiles env (.many (f0 :: rest)) = .ok raw)
    (hP : Steps env set none lines raw P) (hT : Builtin.slantStack geom P set = .ok T) {ts : List Transform}
    (hts : List.Forall₂ (fun f t => ∃ a p, fromFiles env (.one f) = .ok a ∧ Steps env set none lines a p ∧
      Builtin.slantStack geom p set = .ok t) (f0 :: rest) ts) :
    (∀ t ∈ ts, t.frequencies = T.frequencies) ∧ 0 < ((f0 :: rest).map count).sum ∧
      ∀ v c, v < set.nvel.toNat → c < T.frequencies.length →
        ∃ z, cell T.power v c = some z ∧
          (List.zipWith (fun f t => (count f : ℂ) * (cell t.power v c).getD 0) (f0 :: rest) ts).sum =
            (((f0 :: rest).map count).sum : ℂ) * z := by
  have split3 : ∀ {names : List String} {ts : List Transform},
      List.Forall₂ (fun f t => ∃ a p, fromFiles env (.one f) = .ok a ∧ Steps env set none lines a p ∧
        Builtin.slantStack geom p set = .ok t) names ts →
      ∃ as ps, List.Forall₂ (fun f a => fromFiles env (.one f) = .ok a) names as ∧
        List.Forall₂ (Steps env set none lines) as ps ∧
        List.Forall₂ (fun p t => Builtin.slantStack geom p set = .ok t) ps ts := by
    intro names ts h
    induction h with
    | nil => exact ⟨[], [], .nil, .nil, .nil⟩
    | cons h _ ih =>
      obtain ⟨a, p, h1, h2, h3⟩ := h
      obtain ⟨as, ps, k1, k2, k3⟩ := ih
      exact ⟨a :: as, p :: ps, .cons h1 k1, .cons h2 k2, .cons h3 k3⟩
  obtain ⟨as, ps, k1, k2, k3⟩ := split3 hts
  obtain ⟨hpos, hclraw, hmean⟩ := hsh.stacked hraw
  have hmean := hmean as k1
  have hmeanP := Steps.keepsMeans env hd set none lines _ _ _ _ _ hmean hP k2
  obtain ⟨near, level, cut, muted, hpre⟩ : ∃ near level cut muted,
      Spec.Preprocessed env set none lines raw near level cut muted P := by
    obtain ⟨near, h1, level, h2, cut, h3, muted, h4, h5⟩ := hP
    refine ⟨near, level, cut, muted, h1, h2.1, h2.2, h3, ?_, h5⟩
    split_ifs at h4 ⊢
    · exact h4.2
    · exact h4
  have hclP := hclraw.preprocessed hd.length hpre
  have hdt' : 0 < (afterSteps set ⟨List.replicate npts 0, dt, 1, delay, 1⟩).dt := by
    have trim_dt : ∀ (r : ATS) t0 t1, (r.trim t0 t1).1.dt = r.dt := by
      intro r t0 t1
      unfold ATS.trim ATS.trimBase
      rcases argmin (r.time.map fun t => |t - t0|) with _ | i
      · rfl
      rcases argmin (r.time.map fun t => |t - t1|) with _ | j
      · rfl
      rcases r.time.head? with _ | a
      · rfl
      rcases r.time.getLast? with _ | b
      · rfl
      simp only
      split <;> rename_i h <;> split_ifs at h <;> simp only [Prod.mk.injEq] at h <;> rw [← h.1]
    have pad_dt : ∀ (r : ATS) df, (r.zeroPad df).1.dt = r.dt := by
      intro r df
      unfold ATS.zeroPad
      simp only
      split_ifs <;> rfl
    unfold afterSteps
    have := hsh.dt_pos
    split_ifs <;> simp only [pad_dt, trim_dt] <;> exact this
  obtain ⟨G, hG1, hG2⟩ := slant_image hg hT hclP hdt' hv
  have hsum : 0 < ((f0 :: rest).map count).sum := by
    have : ∀ l : List String, (∀ f ∈ l, 0 < count f) → 0 ≤ (l.map count).sum := by
      intro l hl
      induction l with
      | nil => simp
      | cons f l ih =>
        have h1 := hl f List.mem_cons_self
        have h2 := ih fun g hg => hl g (List.mem_cons_of_mem _ hg)
        simp only [List.map_cons, List.sum_cons]
        omega
    have h1 := hpos f0 List.mem_cons_self
    have h2 := this rest fun g hg => hpos g (List.mem_cons_of_mem _ hg)
    simp only [List.map_cons, List.sum_cons]
    omega
  refine ⟨?_, hsum, ?_⟩
  · intro t ht
    obtain ⟨p, hp, h1⟩ := forall₂_mem_right k3 ht
    exact (hG2 p t (hmeanP.shape p hp) h1).1
  · intro v c hvl hcl
    have hPc := (hG2 P T (SameShape.refl P) hT).2 v c hvl hcl
    have key := linear_mean (hG1 v c) hmeanP
    have conv : ∀ (names : List String) (ps : List Arr) (ts : List Transform), (∀ p ∈ ps, SameShape P p) →
        List.Forall₂ (fun p t => Builtin.slantStack geom p set = .ok t) ps ts →
        (List.zipWith (fun f t => (count f : ℂ) * (cell t.power v c).getD 0) names ts).sum =
          (List.zipWith (fun (w : ℚ) a => (w : ℂ) * G v c (sample a)) (names.map fun f => (count f : ℚ)) ps).sum := by
      intro names ps ts hps h
      induction h generalizing names with
      | nil => simp
      | cons h _ ih =>
        rcases names with _ | ⟨f, names⟩
        · simp
        · simp only [List.zipWith_cons_cons, List.map_cons, List.sum_cons]
          rw [ih names fun p hp => hps p (List.mem_cons_of_mem _ hp),
            (hG2 _ _ (hps _ List.mem_cons_self) h).2 v c hvl hcl]
          simp
    refine ⟨_, hPc, ?_⟩
    rw [conv _ _ _ hmeanP.shape k3, key]
    have : ∀ l : List String, (((l.map fun f => (count f : ℚ)).sum : ℚ) : ℂ) = ((l.map count).sum : ℂ) := by
      intro l
      induction l with
      | nil => simp
      | cons f l ih =>
        simp only [List.map_cons, List.sum_cons]
        push_cast at ih ⊢
        rw [ih]
    rw [this]

theorem slantstack_class {hankel : ℝ → ℂ} {geom : ℚ → ℚ → ℕ → List ℚ} {env : Env} {set : Settings}
    (hb : env.transforms = Builtin.transforms hankel geom) (htr : set.transform = "slantstack") {a : Arr}
    {t : Transform} (h : Spec.IsTransformOf env set a t) : Builtin.slantStack geom a set = .ok t := by
  obtain ⟨tr, h1, h2⟩ := h
  rw [hb, htr] at h1
  have : (Builtin.transforms hankel geom).createClass "slantstack" = .ok (Builtin.slantStack geom) := rfl
  rw [this, Except.ok.injEq] at h1
  rw [h1]
  exact h2

/-- **C170** (time-domain workflow).  With the slant stack, the image of several files, whose records are stacked before
the transform, is at every trial velocity and frequency the mean of the images of the single files, weighted by their
stack counts.  If muting is asked for, the same lines are picked in all runs. -/
theorem C170_time_domain (env : Env) (set : Settings) (hankel : ℝ → ℂ) (geom : ℚ → ℚ → ℕ → List ℚ)
    (hg : ∀ a b n, (geom a b n).length = n) (hb : env.transforms = Builtin.transforms hankel geom)
    (htr : set.transform = "slantstack") (hd : LinearOperation env.detrend)
    (hv : ∀ vels, Builtin.velocitiesQ geom set = .ok vels → ∀ v ∈ vels, 0 < v)
    (count : String → ℤ) (npts : ℕ) (dt delay : ℚ) (f0 : String) (rest : List String)
    (hsh : Shots env count npts dt delay (f0 :: rest)) (r : Result)
    (h : timeDomain env set (.many (f0 :: rest)) = .ok r) (rs : List Result)
    (hrs : List.Forall₂ (fun f q => timeDomain env set (.one f) = .ok q) (f0 :: rest) rs)
    (hl : set.muteApply = true → ∀ q ∈ rs, q.final.signalStart = r.final.signalStart ∧
      q.final.signalEnd = r.final.signalEnd) :
    (∀ q ∈ rs, q.transform.frequencies = r.transform.frequencies) ∧
    ∀ v c, v < set.nvel.toNat → c < r.transform.frequencies.length →
      cell r.transform.power v c = some
        ((List.zipWith (fun f (q : Result) => (count f : ℂ) * (cell q.transform.power v c).getD 0) (f0 :: rest) rs).sum /
          (((f0 :: rest).map count).sum : ℂ)) := by
  have clocked : ∀ f ∈ f0 :: rest, ∀ a, fromFiles env (.one f) = .ok a → OneClock a := fun f hf a ha =>
    ⟨_, (hsh.recorded f hf).allClock ha⟩
  obtain ⟨raw, near, level, cut, muted, h1, -, h3, h4, -⟩ := C76_steps env set _ r h
  have hts : List.Forall₂ (fun f t => ∃ a p, fromFiles env (.one f) = .ok a ∧
      Steps env set none (r.final.signalStart, r.final.signalEnd) a p ∧ Builtin.slantStack geom p set = .ok t)
      (f0 :: rest) (rs.map fun q => q.transform) := by
    rw [List.forall₂_map_right_iff]
    have aux : ∀ (names : List String) (rs : List Result), (∀ f ∈ names, f ∈ f0 :: rest) →
        (set.muteApply = true → ∀ q ∈ rs, q.final.signalStart = r.final.signalStart ∧
          q.final.signalEnd = r.final.signalEnd) →
        List.Forall₂ (fun f q => timeDomain env set (.one f) = .ok q) names rs →
        List.Forall₂ (fun f (q : Result) => ∃ a p, fromFiles env (.one f) = .ok a ∧
          Steps env set none (r.final.signalStart, r.final.signalEnd) a p ∧
          Builtin.slantStack geom p set = .ok q.transform) names rs := by
      intro names rs hn hl h
      induction h with
      | nil => exact .nil
      | cons h _ ih =>
        refine .cons ?_ (ih (fun f hf => hn f (List.mem_cons_of_mem _ hf)) fun hm q hq => hl hm q (List.mem_cons_of_mem _ hq))
        obtain ⟨a, near, level, cut, muted, g1, -, g3, g4, -⟩ := C76_steps env set _ _ h
        refine ⟨a, _, g1, ?_, slantstack_class hb htr g4⟩
        refine (Steps.of_preprocessed hd (clocked _ (hn _ List.mem_cons_self) a g1) g3).congr fun hm => ⟨rfl, ?_⟩
        obtain ⟨e1, e2⟩ := hl hm _ List.mem_cons_self
        rw [e1, e2]
    exact aux _ _ (fun _ h => h) hl hrs
  have hraw : OneClock raw := ⟨_, (hsh.stacked h1).2.1⟩
  obtain ⟨c1, c2, c3⟩ := slant_core hg hd hv hsh h1 (Steps.of_preprocessed hd hraw h3) (slantstack_class hb htr h4) hts
  refine ⟨fun q hq => c1 _ (List.mem_map.2 ⟨q, hq, rfl⟩), fun v c hvl hcl => ?_⟩
  have hne : (((f0 :: rest).map count).sum : ℂ) ≠ 0 := by exact_mod_cast c2.ne'
  obtain ⟨z, hz, e⟩ := c3 v c hvl hcl
  rw [hz, Option.some_inj, eq_div_iff hne, mul_comm, ← e, List.zipWith_map_right]

/-- **C170** (both workflows).  With the slant stack it makes no difference whether the records are stacked or the images
are: for files with equal stack counts the time-domain and the frequency-domain workflow give the same frequencies and the
same power at every trial velocity and frequency.  If muting is asked for, the same lines are picked in both, and the
window of the settings is the one used for the first file. -/
theorem C170_same_image (env : Env) (set : Settings) (hankel : ℝ → ℂ) (geom : ℚ → ℚ → ℕ → List ℚ)
    (hg : ∀ a b n, (geom a b n).length = n) (hb : env.transforms = Builtin.transforms hankel geom)
    (htr : set.transform = "slantstack") (hd : LinearOperation env.detrend)
    (hv : ∀ vels, Builtin.velocitiesQ geom set = .ok vels → ∀ v ∈ vels, 0 < v)
    (k : ℤ) (npts : ℕ) (dt delay : ℚ) (f0 : String) (rest : List String)
    (hsh : Shots env (fun _ => k) npts dt delay (f0 :: rest)) (rt rf : Result)
    (ht : timeDomain env set (.many (f0 :: rest)) = .ok rt) (hf : frequencyDomain env set (.many (f0 :: rest)) = .ok rf)
    (hl : set.muteApply = true → env.tukey set.windowKwargs = env.tukey none ∧
      rf.final.signalStart = rt.final.signalStart ∧ rf.final.signalEnd = rt.final.signalEnd) :
    rf.transform.frequencies = rt.transform.frequencies ∧
    ∀ v c, v < set.nvel.toNat → c < rt.transform.frequencies.length →
      cell rf.transform.power v c = cell rt.transform.power v c := by
  have clocked : ∀ f ∈ f0 :: rest, ∀ a, fromFiles env (.one f) = .ok a → OneClock a := fun f hf a ha =>
    ⟨_, (hsh.recorded f hf).allClock ha⟩
  obtain ⟨raw, near, level, cut, muted, h1, -, h3, h4, -⟩ := C76_steps env set _ rt ht
  obtain ⟨T0, Ts, level', muted', hp0, hps, hfr, hmean⟩ := C78_registered_mean env set hankel geom hg hb hd.length f0 rest
    rf npts dt delay hsh.recorded (by rw [htr]; decide) hf
  have one : ∀ f ∈ f0 :: rest, ∀ kw, (kw = none ∨ kw = set.windowKwargs) → ∀ level muted T,
      Spec.PerFile env set kw (rf.final.signalStart, rf.final.signalEnd) f level muted T →
      ∃ a p, fromFiles env (.one f) = .ok a ∧
        Steps env set none (rt.final.signalStart, rt.final.signalEnd) a p ∧ Builtin.slantStack geom p set = .ok T := by
    rintro f hfm kw hkw level muted T ⟨a, near, cut, p, g1, -, g3, g4⟩
    refine ⟨a, p, g1, ?_, slantstack_class hb htr g4⟩
    refine (Steps.of_preprocessed hd (clocked _ hfm a g1) g3).congr fun hm => ?_
    obtain ⟨e0, e1, e2⟩ := hl hm
    refine ⟨?_, by rw [e1, e2]⟩
    rcases hkw with rfl | rfl
    · rfl
    · exact e0
  have hts : List.Forall₂ (fun f t => ∃ a p, fromFiles env (.one f) = .ok a ∧
      Steps env set none (rt.final.signalStart, rt.final.signalEnd) a p ∧ Builtin.slantStack geom p set = .ok t)
      (f0 :: rest) (T0 :: Ts) := by
    refine .cons (one f0 List.mem_cons_self none (.inl rfl) _ _ _ hp0) ?_
    have aux : ∀ (names : List String) (Ts : List Transform), (∀ f ∈ names, f ∈ f0 :: rest) →
        List.Forall₂ (fun f T => ∃ level muted,
          Spec.PerFile env set set.windowKwargs (rf.final.signalStart, rf.final.signalEnd) f level muted T) names Ts →
        List.Forall₂ (fun f t => ∃ a p, fromFiles env (.one f) = .ok a ∧
          Steps env set none (rt.final.signalStart, rt.final.signalEnd) a p ∧ Builtin.slantStack geom p set = .ok t)
          names Ts := by
      intro names Ts hn h
      induction h with
      | nil => exact .nil
      | cons h _ ih =>
        obtain ⟨level, muted, h⟩ := h
        exact .cons (one _ (hn _ List.mem_cons_self) _ (.inr rfl) _ _ _ h)
          (ih fun f hf => hn f (List.mem_cons_of_mem _ hf))
    exact aux _ _ (fun f hf => List.mem_cons_of_mem _ hf) hps
  obtain ⟨c1, c2, c3⟩ := slant_core hg hd hv hsh h1
    (Steps.of_preprocessed hd ⟨_, (hsh.stacked h1).2.1⟩ h3) (slantstack_class hb htr h4) hts
  have hfreq : rf.transform.frequencies = rt.transform.frequencies := by
    rw [← hfr T0 List.mem_cons_self, c1 T0 List.mem_cons_self]
  refine ⟨hfreq, fun v c hvl hcl => ?_⟩
  obtain ⟨z, hz, key⟩ := c3 v c hvl hcl
  rw [hmean v c hvl (by rw [hfreq]; exact hcl), hz, Option.some_inj]
  have hlen := hps.length_eq
  have zip : ∀ (names : List String) (Ts : List Transform), names.length = Ts.length →
      (List.zipWith (fun (_ : String) (t : Transform) => (k : ℂ) * (cell t.power v c).getD 0) names Ts).sum =
        (k : ℂ) * (Ts.map fun T => (cell T.power v c).getD 0).sum := by
    intro names Ts h
    induction names generalizing Ts with
    | nil => simp [List.length_eq_zero_iff.1 h.symm]
    | cons f names ih =>
      rcases Ts with _ | ⟨T, Ts⟩
      · simp at h
      · simp only [List.zipWith_cons_cons, List.sum_cons, List.map_cons]
        rw [ih Ts (by simpa using h)]
        ring
  have hk : (0 : ℤ) < k := (hsh.stacked h1).1 f0 List.mem_cons_self
  have hsum : (((f0 :: rest).map fun _ => k).sum : ℂ) = (k : ℂ) * ((rest.length : ℂ) + 1) := by
    simp only [List.map_const', List.sum_replicate, List.length_cons]
    simp only [nsmul_eq_mul]
    push_cast
    ring
  rw [zip _ _ (by simp [hlen]), hsum] at key
  have hk' : (k : ℂ) ≠ 0 := by exact_mod_cast hk.ne'
  have hn' : (rest.length : ℂ) + 1 ≠ 0 := by exact_mod_cast Nat.succ_ne_zero rest.length
  rw [div_eq_iff hn']
  rw [mul_assoc] at key
  have := mul_left_cancel₀ hk' key
  rw [this]
  ring

end Verif.Props
