import Verif.Model.Traces
import Verif.Lemmas.Sensor
import Verif.Props.Register

/-!
# C121: records made from traces; C73: instances made by name
-/

namespace Verif.Props
open Verif

/-- The field `name` of the SEG2 header of a trace is there and reads as the integer `n`. -/
def Seg2Int (t : Trace) (name : String) (n : ℤ) : Prop :=
  ∃ h v, t.seg2 = some h ∧ h.lookup name = some v ∧ v.toInt = some n

/-- The field `name` of the SEG2 header of a trace is there and reads as the number `q`. -/
def Seg2Float (t : Trace) (name : String) (q : ℚ) : Prop :=
  ∃ h v, t.seg2 = some h ∧ h.lookup name = some v ∧ v.toFloat = some q

theorem ats_init_eq (amp : List ℚ) (dt : ℚ) (n : ℤ) (d : ℚ) :
    ATS.init amp dt n d = if 0 < n ∧ d ≤ 0 then .ok ⟨amp, dt, n, d, 1⟩ else .error .valueError := by
  unfold ATS.init ATS.checkInput
  by_cases h1 : n ≤ 0
  · simp [h1, not_lt.2 h1]
  · by_cases h2 : d > 0
    · simp [h1, h2]
    · simp [h1, h2, not_le.1 h1, not_lt.1 h2]

theorem seg2Fields_ok_iff (t : Trace) (n : ℤ) (d : ℚ) :
    ATS.seg2Fields t = .ok (n, d) ↔ Seg2Int t "STACK" n ∧ Seg2Float t "DELAY" d := by
  unfold ATS.seg2Fields Seg2Int Seg2Float
  rcases t.seg2 with _ | h
  · simp
  rcases h1 : h.lookup "STACK" with _ | v
  · simp [h1]
  rcases h2 : v.toInt with _ | m
  · simp [h1, h2]
  rcases h3 : h.lookup "DELAY" with _ | w
  · simp [h1, h2, h3]
  rcases h4 : w.toFloat with _ | q
  · simp [h1, h2, h3, h4]
  simp [h1, h2, h3, h4]

/-- **C121** (any trace).  A record is made from a trace exactly when the stack count is positive and the delay is not:
it has the samples and time step of the trace and the given stack count and delay, and reports every frequency bin;
otherwise the call raises `ValueError`.  No header of the trace is read. -/
theorem C121_from_trace (t : Trace) (nstacks : ℤ) (delay : ℚ) :
    (∀ r, ATS.fromTrace t nstacks delay = .ok r ↔ 0 < nstacks ∧ delay ≤ 0 ∧ r.amp = t.data ∧ r.dt = t.delta ∧
      r.nstacks = nstacks ∧ r.delay = delay ∧ r.multiple = 1) ∧
    (∀ e, ATS.fromTrace t nstacks delay = .error e ↔ e = .valueError ∧ ¬ (0 < nstacks ∧ delay ≤ 0)) := by
  unfold ATS.fromTrace
  rw [ats_init_eq]
  constructor
  · intro r
    rcases r with ⟨a, b, c, d, m⟩
    split_ifs with h
    · simp only [Except.ok.injEq, ATS.mk.injEq, h, true_and]
      constructor
      · rintro ⟨rfl, rfl, rfl, rfl, rfl⟩; simp
      · rintro ⟨rfl, rfl, rfl, rfl, rfl⟩; simp
    · simp only [false_iff]
      exact fun h' => h ⟨h'.1, h'.2.1⟩
  · intro e
    split_ifs with h
    · simp [h]
    · simp [h, eq_comm]

/-- **C121** (SEG2).  `from_trace_seg2` makes exactly the record which `from_trace` makes with the stack count and delay of
the header; it needs both fields. -/
theorem C121_from_trace_seg2 (t : Trace) (r : ATS) :
    ATS.fromTraceSeg2 t = .ok r ↔
      ∃ n d, Seg2Int t "STACK" n ∧ Seg2Float t "DELAY" d ∧ ATS.fromTrace t n d = .ok r := by
  unfold ATS.fromTraceSeg2
  constructor
  · intro h
    rcases hf : ATS.seg2Fields t with e | ⟨n, d⟩
    · rw [hf] at h; cases h
    · rw [hf] at h
      obtain ⟨h1, h2⟩ := (seg2Fields_ok_iff t n d).1 hf
      exact ⟨n, d, h1, h2, h⟩
  · rintro ⟨n, d, h1, h2, h⟩
    rw [(seg2Fields_ok_iff t n d).2 ⟨h1, h2⟩]
    exact h

/-- **C121** (SEG2, missing fields).  A missing header or field raises `AttributeError`: never is a default used. -/
theorem C121_missing_field (t : Trace)
    (h : t.seg2 = none ∨ ∃ hd, t.seg2 = some hd ∧ (hd.lookup "STACK" = none ∨
      (∃ n, Seg2Int t "STACK" n) ∧ hd.lookup "DELAY" = none)) :
    ATS.fromTraceSeg2 t = .error .attributeError := by
  unfold ATS.fromTraceSeg2 ATS.seg2Fields
  rcases h with h | ⟨hd, h, h1 | ⟨⟨n, hd', v, h2, h3, h4⟩, h5⟩⟩
  · simp [h]
  · simp [h, h1]
  · rw [h] at h2; cases h2
    simp [h, h3, h4, h5]

/-- **C121** (sensors).  On a trace in the format SEG2, `Sensor1C` inherits a `from_trace_seg2` which gives what
`Sensor1C.from_trace` gives, and whose record is the one of `ActiveTimeSeries.from_trace_seg2`. -/
theorem C121_sensor_seg2 (t : Trace) (s : Sensor) (f : String) (hf : t.format = some f) (hF : f.toUpper = "SEG2")
    (h : Sensor.fromTraceSeg2 t = .ok s) :
    Sensor.fromTrace t {} = .ok s ∧ ATS.fromTraceSeg2 t = .ok s.ts := by
  unfold Sensor.fromTraceSeg2 at h
  rcases hs : ATS.seg2Fields t with e | ⟨n, d⟩
  · rw [hs] at h; cases h
  rw [hs] at h
  obtain ⟨⟨hd, v, h1, h2, h3⟩, ⟨hd', w, h4, h5, h6⟩⟩ := (seg2Fields_ok_iff t n d).1 hs
  rw [h1] at h4; cases h4
  have hfmt : Sensor.traceFormat t {} = some "SEG2" := by simp [Sensor.traceFormat, hf, hF]
  have hfmt' : Sensor.traceFormat t { nstacks := n, delay := d } = some "SEG2" := by
    simp [Sensor.traceFormat, hf, hF]
  simp only [Sensor.fromTrace, hfmt, hfmt', if_true, h1, hf, Option.isNone_some] at h ⊢
  refine ⟨h, ?_⟩
  unfold ATS.fromTraceSeg2 ATS.fromTrace
  rw [hs]
  simp only [Sensor.fromHeaderSeg2, Sensor.safeInt, Sensor.safeFloat, h2, h5, h3, h6, Option.bind_some,
    Option.getD_some, Bool.false_eq_true, if_false] at h
  unfold Sensor.init at h
  simp only
  rcases hi : ATS.init t.data t.delta n d with e | r
  · rw [hi] at h; cases h
  · rw [hi] at h
    cases h
    rfl

/-- **C121** does not hold for sensors whose trace is in another format: both fields are in the SEG2 header and well
formed, but `Sensor1C.from_trace_seg2` reads the other header. -/
theorem C121_sensor_other_format_fails :
    ∃ t : Trace, ∃ s : Sensor, Seg2Int t "STACK" 4 ∧ Seg2Float t "DELAY" (-1 / 10) ∧
      Sensor.fromTraceSeg2 t = .ok s ∧ s.ts.nstacks = 1 ∧ s.ts.delay = 0 := by
  refine ⟨⟨[1, 2], 1, some "SU", some [("STACK", .int 4), ("DELAY", .flt (-1 / 10))], some [], none⟩,
    ⟨⟨[1, 2], 1, 1, 0, 1⟩, 0, 0, 0⟩, ⟨_, _, rfl, rfl, rfl⟩, ⟨_, _, rfl, rfl, rfl⟩, ?_, rfl, rfl⟩
  decide +kernel

/-- A SEG2 trace with both fields as texts. -/
example : ATS.fromTraceSeg2 ⟨[1, -2, 3], 1 / 1000, some "SEG2",
      some [("STACK", .text (some 10) (some 10)), ("DELAY", .text none (some (-1 / 2)))], none, none⟩ =
      .ok ⟨[1, -2, 3], 1 / 1000, 10, -1 / 2, 1⟩ ∧
    Sensor.fromTraceSeg2 ⟨[1, -2, 3], 1 / 1000, some "seg2",
      some [("STACK", .text (some 10) (some 10)), ("DELAY", .text none (some (-1 / 2))),
        ("RECEIVER_LOCATION", .flt 6)], none, none⟩ = .ok ⟨⟨[1, -2, 3], 1 / 1000, 10, -1 / 2, 1⟩, 6, 0, 0⟩ ∧
    ATS.fromTraceSeg2 ⟨[1], 1, none, some [("STACK", .int 1)], none, none⟩ = .error .attributeError ∧
    ATS.fromTrace ⟨[1], 1, none, none, none, none⟩ 1 (1 / 2) = .error .valueError := by
  decide +kernel

/-- **C73** (instances).  After any history of registrations, making an instance by name calls the constructor
registered last under that name in that registry with the given arguments, and with no others; whatever it returns or
raises is the result.  An unregistered name raises `KeyError`. -/
theorem C73_create_instance {α β : Type} (ops : List (RegOp (α → Except PyErr β))) (name : String) (args : α) :
    (∀ c, lastTransform name ops = some c →
      (Registries.run ops).transforms.createInstance name args = c args) ∧
    (lastTransform name ops = none →
      (Registries.run ops).transforms.createInstance name args = .error .keyError) ∧
    (∀ c, lastWorkflow name ops = some c →
      (Registries.run ops).workflows.createInstance name args = c args) ∧
    (lastWorkflow name ops = none →
      (Registries.run ops).workflows.createInstance name args = .error .keyError) := by
  obtain ⟨h1, h2⟩ := C73_registries ops name
  unfold Registry.createInstance
  rw [h1, h2]
  refine ⟨?_, ?_, ?_, ?_⟩ <;> intros <;> simp_all

/-- Two constructors under one name; the second refuses negative arguments. -/
example : (Registries.run [.transform "t" fun (x : ℤ) => .ok x,
      .transform "t" fun x => if x < 0 then .error .valueError else .ok (2 * x)]).transforms.createInstance "t" 3 =
      .ok 6 ∧
    (Registries.run [.transform "t" fun (x : ℤ) => .ok x,
      .transform "t" fun x => if x < 0 then .error .valueError else .ok (2 * x)]).transforms.createInstance "t" (-3) =
      .error .valueError := by
  decide +kernel

end Verif.Props
